# LGAR-C formal model: design

## 1. Method

`lean/` is a Lake project.  The C++ functions are transcribed one by one into total Lean functions that are *polymorphic in
the numeric type* `α`.  They use only `+ - * / < <= ==`, numeric literals and the class `CMath α` (pow, sqrt, exp, fabs,
fmin, fmax, conversion to int, and predicates that say when a division, power or root is a finite number).  No algebraic law
is built into the definitions.  So there are four kinds of theorem:

* law-free theorems, for every `α`; they hold for IEEE doubles as well (numbering of fronts, existence of the bottom front,
  pointer safety, configuration reader, BMI access, driver);
* exact theorems, for every linearly ordered field `K` with the class `LawfulNum K`; pow, sqrt and exp stay arbitrary, so
  nothing depends on libm.  Some need `LawfulInt K` (conversion to int is truncation) or `LawfulPow K` (a few inequalities of
  pow: sign, `0^b`, monotone in the base, bounds used for moisture) or `LawfulMono K` (pow monotone in its base, sqrt monotone);
* theorems about rounded arithmetic, for every `α` with the class `Rounded α` (`Num/Rounded`);
* theorems about the retention curves over `ℝ` with `Real.rpow`, `Real.sqrt`, `Real.exp`.

Instances: `Float` (to run the model), `ℚ` (examples), `ℝ`, and `Grid` (rationals with pow and sqrt rounded down to 1e-9), an
exact instance that satisfies all the law classes and can be evaluated by the kernel.  Whole-run examples and counterexamples
use `Grid`.  `Dbl` (rationals where every operation rounds to 53 significant bits, ties to even) is a `Rounded` instance, also
evaluated by the kernel.

Outcomes.  `Res β = Except Err β`.  `Err` has
`ub` (NULL dereference, index out of range, read of an uninitialised value), `uaf` (use after free), `assertFail`, `abort`,
`exit`, `throw`, `nonfinite` (exact instances only: C would go on with inf or NaN) and `fuel` (an unbounded C loop has used up
the given number of iterations; theorems hold for every fuel, and C63 proves over the reals that enough fuel always exists).

Wetting fronts.  In `Model/LinkedList` and everything above it a linked list is a `List (Front α)` and a pointer into it is a
position; `none` is NULL.  `Model/Heap` has the same functions on nodes linked by addresses in a memory with malloc and free;
`Props/Heap` proves that the two agree.

Executions.  `Spec/Run`: `Run s0 hist s` is any number of Updates, each after arbitrary new inputs and calibration values, all
of which returned.  Run-level theorems are inductions over `Run`.

## 2. Trusted base

* The Lean 4.33.0 kernel and the axioms listed in section 8 (only `propext`, `Classical.choice`, `Quot.sound`).  No own axioms,
  `sorry`, `admit`, `native_decide` or `bv_decide`.
* The transcription from C++ to Lean.  Every definition cites file and lines.  Section 6 says how it was checked by running it.
* Field theorems are about exact arithmetic, not about rounding errors.  C70-C74 are about rounded arithmetic: they hold for
  every `α` with the class `Rounded α`, which says that numbers denote reals, that `+ - * /` and literals have relative error
  `eps <= 2^-52` (and an absolute error `tiny <= 2^-100` for `* /` and literals), that comparisons, fmin, fmax and fabs are exact
  and that conversion to int truncates.  That IEEE doubles behave so as long as nothing overflows and no NaN arises is assumed,
  not proved; inf and NaN are not numbers of such a type.  pow, sqrt and exp stay arbitrary.
* `int` is unbounded (`Int`/`Nat`): overflow is not modelled, nor is `int(x)` for `x` out of range. C98 says under which
  conditions the `int`s of the state keep their range, and gives a configuration for which one does not.
* Asserts are enabled (no `NDEBUG`).
* `malloc` and `new` do not fail.
* `stod`, `stoi`, `sscanf` number conversion: arbitrary functions from text to an optional number.
* `printf` of a number (C84): digits, sign and point, right to half of the last decimal (class `LawfulPrint`, proved for an exact
  implementation).

### Not modelled

* messages printed to the terminal and the verbosity levels; file opening (a file is its list of lines or characters);
* `src/main.cxx` (legacy driver, in no target of CMakeLists.txt), `x*.cxx` (plotting, categorising; in no target either), ngen glue;
* BMI functions that only throw "not implemented" (grid coordinates) beyond that fact.

## 3. Model files

| file | code | simplifications |
|---|---|---|
| Model/Basic | all.hxx structs, outcomes | doubles as `α` |
| Model/LinkedList | linked_list.cxx | pointers as positions; a new node's psi and K are parameters (malloc leaves them unset) |
| Model/Heap | linked_list.cxx; bmi_lgar.cxx 32-40, 221-225, 351-355, 666-667 | one address per node; addresses are naturals; malloc is any function that returns an unused address |
| Model/Blocks | bmi_lgar.hxx 32-33; bmi_lgar.cxx 24-71, 662-690, 887-951; `new` in lgar.cxx (83-91, 263-264, 293, 324, 558, 642, 665-688, 716) | lifetimes only; Initialize that returns; `new` is any function that returns an unused address |
| Model/Soil | soil_funcs.cxx, aet.cxx | the unreachable else branch in the loop of calc_Geff is left out |
| Model/Mass | lgar.cxx storage, free drainage, frozen factor; giuh.c | none |
| Model/Merge | lgar.cxx 1545-1931 | Ksat of a merged front as in the code |
| Model/Infil | lgar.cxx 1941-2229 | none |
| Model/Dzdt | lgar.cxx 2362-2654 | the loop of lgar_theta_mass_balance has fuel; any non-finite pow there counts as NaN |
| Model/Move | lgar.cxx 964-1544 | none |
| Model/Update | bmi_lgar.cxx 78-660; lgar.cxx 869-911 | none |
| Model/Init | lgar.cxx 73-139, 538-771, 2277-2356; bmi_lgar.cxx 32-58 | soil file as list of lines |
| Model/Config | lgar.cxx 222-523, 780-807 | configuration file as list of lines |
| Model/Bmi | bmi_lgar.cxx 693-1084; bmi_lgar.hxx 36-75 | a pointer to a variable is the value it points to; copies of `memcpy` length are element counts |
| Model/SoilFile | lgar.cxx 2277-2356 (`fgets`, `sscanf`) | the file is its characters; number conversion arbitrary |
| Model/Output | bmi_main_lgar.cxx 95-162, 265-280 | `printf("%.pf")` is a class; exact version given; files are their characters |
| Model/MemFuncs | mem_funcs.cxx | the allocator's answers are a parameter; 2^63 bytes or more are refused |
| Model/Driver | bmi_main_lgar.cxx | `ifstream` is the text left and the eof and fail bits |

Specification vocabulary (`Spec/`) is separate and uses no function of the model except the data types: numbering,
layer structure, `Column`, physical water content as a sum over slices (`water`), physical soils, moisture bounds, runs,
linked lists in memory, release histories, tie-free runs, inputs that fit the configuration.

`Lemmas/` holds helper lemmas, `Props/` the property theorems with their examples.

## 4. Where the code violates a stated property

Each entry is a theorem with a concrete witness; the property keeps a `_partial` theorem (or an exact characterisation) with
the condition under which it holds.

| theorem | what happens |
|---|---|
| `C02_groundwater_uninitialised` | the total of the groundwater flux is never initialised |
| `C04_tie_fails`, `C04_tie_fails_insert` | when the excess equals the maximum exactly, nothing runs off and ponding stays above it |
| `C08_fallback_loses_water`, `C08_oversaturated_loses_water` | layer crossing with equal moistures or above saturation loses water |
| `C11_lower_layer_fails` | repair of dry-over-wet fronts in lower layers does not book its storage change |
| `C12_one_pass_fails` | one repair pass can leave a dry-over-wet pair |
| `C15_cross_stray_fails` | an unflagged front exactly on a layer bottom breaks the layer structure at the next crossing |
| `C16_run_fails` | a slow front ends a step exactly at a layer bottom while a faster one overshoots it: the layer structure breaks and the next Update reads outside the soil array |
| `C17_fails` | a run (little rain, then high PET) drains a front below the residual moisture; it is deleted and then read |
| `C18_insertAt_middle_fails`, `C18_insertAtDepth_head_lost` | insertion in the middle never ends; insertion at depth loses the head |
| `C19_keeps_all_data_fails` | the depth sort exchanges only depth, moisture, layer and number |
| `C21_tiny_head_lost` | heads below 1e-10 become 0 |
| `C23_numeric_overestimates` | near saturation the numeric capillary drive exceeds 9 times the integral |
| `C26_limit_fails`, `C26_negative` | reported ET above PET, and negative ET (storage gained in the repair is booked as negative ET) |
| `C27_reads_outside` | the frozen factor reads behind the temperature array when the cells end above the last layer |
| `C29_speed_three_layers_fails` | the composite conductivity pairs layer k with the conductivity of layer m-k |
| `C33_none_left` | forcing resolution above one hour leaves no GIUH ordinate; the first Update reads outside the array |
| `C34_fails`, `C34_stuck`, `C62_rain_lost` | a sub-timestep that does not divide the forcing interval loses time and rain |
| `C38_never_initialised`, `C38_initialize_ub`, `C38_volume_fails` | unsupported soil types read outside the soil array in Initialize; in Update the rate is booked as a depth |
| `C39_fails` | UpdateUntil makes one Update whatever the target |
| `C41_shared_fails`, `C41_shared_aborts`, `C41_stale` | calibration of layers that share a soil type; derived Brooks-Corey values not renewed |
| `C42_size_fails` | setting soil_num_wetting_fronts changes the size of two other variables |
| `C43_shape_fails` | GetGridShape writes entry 1 for grid 3, nothing for grids 0, 1, 4 |
| `C44_phantoms` | two names have metadata but no storage |
| `C45_fails` | soil_depth_layers returns the layer tops, in cm, with unit m |
| `C47_thickness_ub`, `C47_soil_z_ub` | missing layer_thickness or soil_z gives undefined behaviour |
| `C48_unknown_unit`, `C48_wrong_values`, `C48_endtime_unknown` | unknown units are taken as hours; for endtime the value is unset |
| `C52_above_15_fails` | more than 15 soil types (as in the shipped Bushland example) never initialise |
| `C53_blank_in_name_fails`, `C53_uninitialised` | a blank in a soil name gives the previous soil's parameters; short files leave memory unset |
| `C57_no_newline_fails`, `C57_missing_cell_fails`, `C57_short_accepted` | the last row is used twice; a missing cell shifts PET |
| `C58_finalize_twice` | a second Finalize frees freed nodes |
| `C59_fails` | the percolation of the mass correction is 0 or minus twice the excess |
| `C64_fails` | soil with n = 2 (even exponent): the mass-balance search takes the head below 0, where `pow` is still finite; the water is lost and the program's own check stops the run |
| `C65_order_fails` | a new front that overtakes two others stays below the second: one merge pass does not restore depth order |
| `C65_column_fails` | with two layers a front ends below the bottom of the column |
| `C66_second_use_fails`, `C66_initialize_twice_fails` | using the object again after Finalize leaks the two GIUH arrays; Initialize twice leaks all 19 blocks |
| `C66_soil_z_fails` | soil_z without sft_coupled: the array read from the file is never released |
| `C66_finalize_twice_fails`, `C66_finalize_first_fails` | Finalize twice reads released memory; Finalize before Initialize reads an uninitialised pointer |
| `C67_fails` | every Update releases the memory that GetValuePtr handed out for the two arrays of fronts |
| `C68_saturated_fails` | a front that becomes saturated keeps the conductivity of its former moisture (less than a fifth of Ksat in the run shown) and is moved with it |
| `C68_bottom_fails` | the conductivity of the deepest front is never updated |
| `C68_frozen_fails`, `C68_new_front` | the frost factor is applied twice to the conductivity of a new front |
| `C75_adaptive_fails` | with adaptive_timestep the result of a period of constant forcing depends on how many Updates it is cut into (different evapotranspiration and moistures) |
| `C76_negative_pond_fails` | `ponded_depth_max` set through the BMI is not clipped at 0 as the one of the file is: with -1 cm an Update without rain books 1 cm of runoff and leaves -1 cm on the surface |
| `C77_short_line_fails` | The result of `sscanf` is not checked (lgar.cxx 2309): a short line of the soil file leaves Ksat (or more) at the previous record's value, for the first record uninitialised. |
| `C77_small_n_fails` | n <= 1 is reported on stderr but accepted; bc_lambda, bc_psib and so h_min are then computed from uninitialised memory (lgar.cxx 2328-2344). |
| `C77_groundwater_total_fails` | volQ_gw_cm is accumulated (bmi_lgar.cxx 543) but never initialised. |
| `C78_sharing_fails` | Calibration stores layer values under the soil number, so the same column described with one or two soil numbers behaves differently (run goes on / is stopped). |
| `C79_tie_fails` | with `ponded_depth_max > 0`, when the water left would be exactly the maximum, slightly more rain makes infiltration drop to 0 (lgar.cxx 2066-2081, no `else`) |
| `C80_own_layer_ignored`, `C80_own_layer_fails` | lgar_insert_water uses `frozen_factor[head->layer_num]` with the conductivity of layer `layer_num_fp` (lgar.cxx 1977, 1995): with the infiltrating front in layer 2, freezing layer 2 has no effect on infiltration |
| `C81_shipped_fails`, `C81_shipped_differs` | data/vG_default_params.dat writes `"Sandy-clay loam"` and `"Silty-clay loam"` with a blank; `sscanf("%s %lf ...")` stops at `loam"`, so soil type 7 runs with the parameters of `"Sandy-clay"` (theta_r 0.12 instead of 0.06, Ksat 0.468 instead of 0.54) and soil type 11 with those of `"Silty-clay"`; the other soil files in data/ have the same names |
| `C81_long_header_shifts` | a header of 254 or more characters is read as two lines: every soil type gets the numbers of the line before |
| `C52_bushland_fails` | the shipped configuration config_lasam_Bushland.txt never initialises |
| `C83_fails` | with several sub-timesteps the BMI output mass_balance is the error of the last one only: an Update that gains more than 1e-9 cm reports exactly 0 |
| `C85_frost_fails` | lgar_insert_water multiplies the conductivity at the front by the frost factor of the head's layer: in a column frozen at the front the rate is more than five times the Green-Ampt rate |
| `C86_closed`, `C86_fails` | the allowance for ET at saturation (lgar.cxx 2030-2031) is dead: the free pore space of a saturated column is zero and limits the rate afterwards, so no rain infiltrates while ET takes water |
| `C88_saturation_fails` | theta at head 0 is (theta_e - theta_r) + theta_r; in doubles this is above theta_e for HYDRUS Silt and below theta_e for Clay, so the exact tests of lgar.cxx 2030 and 2642 do not recognise a saturated layer |
| `C89_too_dry_fails` | when the search for the moisture gives up because five steps change the water by less than 1e-15 cm, lgar.cxx 2638-2640 subtract the error from the ET demand whatever its sign: a dry coarse sand that should take 0.1 cm stays dry and the demand becomes negative |
| `C93_negative_rows_fails` | `itwo_alloc`/`dtwo_alloc` (mem_funcs.cxx 26-92) accept −1 rows and give a table without rows |
| `C93_empty_exits` | asking for an empty table ends the program with exit status 0 (mem_funcs.cxx 31-35) |
| `C96_depths_fails` | writing the layer bottoms to the output variable soil_depth_layers shifts the layers; the next Update stops with a failed assertion |
| `C96_count_fails` | with calibration on, writing a larger number to soil_num_wetting_fronts makes the first Update dereference NULL |
| `C97_name25_fails` | A soil name of exactly 25 characters passes the length test (`>` MAX_SOIL_NAME_CHARS) and its terminating zero is written behind `soil_name[25]`. |
| `C97_name30_fails` | A soil name of 30 or more characters overflows the buffer it is scanned into, before its length is tested. |
| `C97_no_types_fails` | With `max_valid_soil_types=0` the first soil is written behind the end of the array. |
| `C97_few_types_fails` | Fewer entries in layer_soil_type than layers: read out of range. |
| `C97_negative_type_fails` | A negative soil type indexes in front of the array of soils. |
| `C98_interval_fails` | `timestep=0.000001[s]` with hourly forcing is accepted; 3600000000 sub-timesteps do not fit the `int` they are converted to, which is undefined behaviour. |
| `C107_initialize_again` | Initialize on an object that was not finalized overwrites `state` (bmi_lgar.cxx 36) and its front lists are never released, whatever is called later. |
| `C108_surplus` | The steps down of the mass correction (lgar.cxx 1386-1392) are a thousand times smaller than the steps up. With more than 10.1 cm of surplus the loop always reaches its limit; the surplus that is left is booked as ET and, twice, as negative percolation. |
| `C65_bottom_fails` | In rounded arithmetic eight hourly Updates of a 35 cm sand column put a saturated first front 0.1 mm below the bottom of the column: the mass correction deepens it without regard to the bottom (lgar.cxx 1394-1398). |
| `C109_fails` | The limit of infiltration by free space (lgar.cxx 1941-2092) has no lower bound of zero: in an over-full column, built by hand here, the infiltration is negative and soil water is added to the ponded water. |

## 5. Partial results: what is missing

* C15, C16 over whole runs of columns with several layers assume that no unflagged front lies exactly on an inner
  layer bottom when the crossing is tested (`TieFree`, a condition on the run).  `C15_cross_stray_fails` and `C16_run_fails` show
  that the claims are false at such a coincidence; single-layer columns need no condition.  C14 and C56 need no such condition:
  they rest on the weaker structure `Anchored`, which every run has.
* C17: `C17_run_partial` assumes that every top layer holds enough water for the ET demand (`Spec/Fits`); false otherwise.
* C26: upper bound when the mass correction ends within its limit; false otherwise.
* C18: insertion by number in the middle of a list does not end in the code; only insertion at the end is as specified.
* C60: `int` variable soil_num_wetting_fronts is left out.

## 6. Validation of the transcription

`lake env lean --run Verif/Validate.lean ...` runs the model on `Float`:

* unit: the benchmark of /repo's unit test (tests/main_unit_test_bmi.cxx) is reproduced bit for bit;
* synth 1 and 2: all 144 steps of the synthetic cases run, with the same front structure as the recorded output; moisture
  depths differ by at most 1.7e-4 m because the recorded files were made with an older calc_Geff;
* Phillipsburg: the 7500 step run ends at the right time with a global balance error of -13.4e-9 cm;
* Bushland: stops with an out-of-range array access in Initialize, as `C52_above_15_fails` predicts (soil types 16, 17, 18).

## 7. Properties

109 properties: 60 proved, 49 partial.  A property that the code violates is `partial`: the violation is proved, and so is what remains true.

| id | title | status | theorems | how; remarks |
|---|---|---|---|---|
| C01 | Global water balance over a whole run | proved | `C01_global_balance`, `C01_printed` | Model of Update's bookkeeping with the wetting-front passes of the model; telescoping invariant by induction over sub-steps and Updates. |
| C02 | Cumulative volumes are the sums of the per-step fluxes | partial | `C02_cumulative`, `C02_groundwater_uninitialised` | Ghost-free: outputs are fields of the model state; induction over the list of Updates. all cumulative volumes are the sums of the per-step ones, except ground-water flux, whose total starts uninitialised (proved) |
| C03 | Surface water is partitioned without loss by infiltration | proved | `C03_partition` | lgarInsertWater modelled line by line; algebra in an arbitrary ordered field. |
| C04 | Ponding never exceeds its configured maximum | partial | `C04_pond_bounded_partial`, `C04_tie_fails`, `C04_tie_fails_insert`, `C04_step`, `C04_run_partial`, `C04_run_zero` | Algebra of the partition and of the whole sub-timestep. holds for runs without the exact tie (C04_run_partial) and unconditionally with the default maximum 0 (C04_run_zero); C04_step says exactly what happens in one sub-timestep; counterexamples at the tie: C04_tie_fails, C04_tie_fails_insert |
| C05 | Infiltration never exceeds the free pore space | proved | `C05_free_space` | Algebra from the storage cap. |
| C06 | Reported storage is the physical water content of the profile | proved | `C06_storage_is_water` | Independent spec (slices) + induction on the list. |
| C07 | Merging fronts conserves water | proved | `C07_merge_conserves` | Index-level loop refined to a structural recursion, then algebra. |
| C08 | Crossing a layer boundary conserves water | partial | `C08_cross_conserves`, `C08_oversaturated_loses_water`, `C08_fallback_loses_water`, `C08_cross_conserves_physical` | Same as C07; fallback branch refuted by witness. conserved under the stated conditions; loss in the fallback and oversaturated cases proved |
| C09 | Bottom flux equals storage lost at the bottom | proved | `C09_bottom_flux` | Same as C07. |
| C10 | A new surface front holds exactly the infiltrated water | proved | `C10_create`, `C10_create_merging` | Algebra, two branches. |
| C11 | Dry-over-wet correction charges the storage change to ET | partial | `C11_repair_books_gain`, `C11_booked_bounds_change`, `C11_lower_layer_fails` | Loop invariant: recorded change = storage change when depths ordered (layer 1). the lower-layer case fails (proved counterexample) |
| C12 | Dry-over-wet detection and repair | partial | `C12_detector`, `C12_repair_partial`, `C12_one_pass_fails` | iff theorem for the detector; repair claim refuted by witness, partial theorem for isolated pairs. detector exact; one repair pass does not always suffice (proved counterexample) |
| C13 | Front numbering stays consecutive | proved | `C13_numbering` | Invariant by induction over operations and Updates; law-free (any numeric type, so also IEEE doubles). |
| C14 | The column always keeps its bottom front | proved | `C14_bottom_depth`, `C14_bottom_front`, `C14_bottom_depth_single_layer` | Law-free invariant for layer, flag and rest; depth from the weak structure `Anchored` (Spec/Anchor), kept by every pass without a condition on ties (Lemmas/Anchor). existence, layer, flag and rest of the deepest front: all runs, any arithmetic (C14_bottom_front); depth = column depth: all runs in exact arithmetic, layers of positive thickness, no condition on coincidences (C14_bottom_depth) |
| C15 | Layer structure of the front list | partial | `C15_anchored_partial`, `C15_every_layer`, `C15_merge`, `C15_repair`, `C15_cross_layer`, `C15_cross_stray_fails`, `C15_cross_domain`, `C15_run_partial`, `C15_run_single_layer` | Structural invariant `Column` preserved by each pass, then by Updates and runs (Lemmas/ColumnRun); weak structure `Anchored` for every run (Lemmas/Anchor). full structure: merge, repair, bottom crossing, front creation; layer crossing needs that no non-bottom front sits on a layer bottom (counterexample proved), so whole runs: single-layer columns unconditionally, multi-layer under that condition. In every run, coincidences included: C15_anchored_partial (flagged fronts at their layer bottom, a flagged front of the same layer below every other front, a front of the next layer below) and C15_every_layer |
| C16 | No NULL dereference or out-of-range access in front processing | partial | `C16_passes_safe`, `C16_cross_layer_safe`, `C16_run_partial`, `C16_run_single_layer`, `C16_speed_safe`, `C16_run_fails` | `Spec` triples (outcome is never `ub` or `fuel`) for each pass, the move, the sub-timestep, the Update, runs. Pass by pass (merge, domain crossing, repair, detection, storage, layer crossing, speed) for every well-formed column; whole Updates in runs from Initialize for single-layer columns and tie-free runs. With a tie the statement is false (C16_run_fails): an ordinary run reads outside the array of layer soils. |
| C17 | Moving fronts never uses a freed front | partial | `C17_run_partial`, `C17_fails` | The deletion branch is a separate outcome `uaf`; whole-run witness evaluated by the kernel; condition `Undrained` under which it cannot happen. False in general: a kernel-evaluated run reads a freed front (C17_fails). C17_run_partial gives the condition under which no freed front is used. |
| C18 | List primitives implement the abstract sequence | partial | `C18_heap_find`, `C18_heap_delete`, `C18_heap_delete_absent`, `C18_heap_insertFirst`, `C18_heap_reverse`, `C18_heap_length`, `C18_heap_copy`, `C18_snapshot_kept`, `C18_heap_refines`, `C18_find`, `C18_find_old`, `C18_delete`, `C18_delete_absent`, `C18_delete_numbered`, `C18_insertFirst`, `C18_insertAt_partial`, `C18_insertAt_middle_fails`, `C18_copy`, `C18_reverse`, `C18_length`, `C18_insertAtDepth`, `C18_insertAtDepth_head_lost` | List model + pointer-level (heap) refinement. insertion by number works only at the end; in the middle the code does not terminate (proved) The C18_heap_* theorems are about nodes linked by pointers in memory; C18_snapshot_kept and C18_heap_refines about whole histories. |
| C19 | Depth sort sorts and keeps every front | partial | `C19_sorted`, `C19_keeps_partial`, `C19_keeps_all_data_fails` | Bubble sort model; sortedness + permutation of swapped fields proved; record integrity refuted. sorted; psi, K, dzdt and the bottom flag do not travel with the front (proved counterexample) |
| C20 | Moisture from capillary head is bounded, saturating and monotone | proved | `C20_bounded`, `C20_saturated`, `C20_strict` | Real instance (Real.rpow). |
| C21 | Head, saturation and moisture conversions are mutually inverse | partial | `C21_head_roundtrip`, `C21_saturation_roundtrip`, `C21_se_roundtrip`, `C21_tiny_head_lost` | Real instance. exact inverse except heads in (0,1e-10), which are sent to 0 (proved) |
| C22 | Conductivity is bounded and monotone | proved | `C22_bounded`, `C22_ends`, `C22_strict` | Real instance. |
| C23 | Capillary drive is non-negative and bounded | partial | `C23_closed_form`, `C23_numeric_bounds`, `C23_closed_form_saturated`, `C23_numeric_overestimates` | Real instance. closed form in [0,H_c]; numeric form in [0, 11 (h_i-h_f)]; near saturation it exceeds 9 times the exact integral (proved) |
| C24 | The adaptive capillary-drive integration terminates | proved | `C24_terminates` | Real instance; uniform continuity gives a lower bound on the step. |
| C25 | ET demand is between zero and potential ET | proved | `C25_bounded`, `C25_curve`, `C25_antitone` | Any field for clamps; Real for monotonicity. |
| C26 | Reported actual ET stays within [0, PET] | partial | `C26_upper_partial`, `C26_run_upper_partial`, `C26_limit_fails`, `C26_negative`, `C26_single_layer_partial` | Outcome lemma of the correction loop (Lemmas/Correction). C26_single_layer_partial: runs over one layer; the movement never takes more water from the first front than the demand, so the repair cannot turn the ET negative, and the correction of a saturated front converges (bisection argument of Lemmas/Cap, Lemmas/Several). upper bound proved when the correction converges; false when it stops at its limit (C26_limit_fails) and lower bound false (C26_negative: dry-over-wet repair booked as negative ET); witnesses are at function and state level; C26_single_layer_partial: in all runs over one layer ET stays within [0, PET] (lower bound up to 2e-10 cm per sub-timestep), with a condition only on sub-timesteps that start with a single front |
| C27 | Frozen-soil factors lie in [0.05, 1] | partial | `C27_bounds`, `C27_layer_mean`, `C27_safe_partial`, `C27_reads_outside`, `C27_warm` | Any field, arbitrary exp; out-of-range read is `ub` outcome. bounds, exact layer mean and warm case proved; reads behind the temperature array when the cells do not reach below the second-last layer (proved counterexample) |
| C28 | Front speeds are well defined | proved | `C28_frame`, `C28_speed_range` | Loop theorem over the list. |
| C29 | Composite conductivity pairs each layer with its own thickness | partial | `C29_infiltration`, `C29_speed_two_layers_partial`, `C29_speed_equal_thickness_partial`, `C29_speed_computed`, `C29_speed_three_layers_fails` | Refuted by witness for three layers; proved for <=2 layers and for insert_water. infiltration sum correct; speed denominator correct for two layers or equal thickness, wrong for three layers (proved) |
| C30 | Dry depth lies within the first layer | proved | `C30_within_layer`, `C30_positive`, `C30_law`, `C30_defined` | Algebra + sqrt positivity. |
| C31 | GIUH routing is the convolution of runoff with the ordinates | proved | `C31_convolution`, `C31_run` | Shift register = convolution, induction over history. |
| C32 | GIUH routing conserves water | proved | `C32_conserves`, `C32_drains`, `C32_run` | Induction. |
| C33 | GIUH ordinate resampling preserves the total | partial | `C33_sum`, `C33_initialize_partial`, `C33_none_left` | Sum algebra; N=0 gives `ub`. ordinates sum to one if the resampling keeps at least one; forcing resolution above one hour keeps none and the first Update is undefined (proved) |
| C34 | Model time advances by one forcing interval per Update | partial | `C34_advance`, `C34_time_step_partial`, `C34_run_partial`, `C34_stuck`, `C34_fails` | Refuted by witness; exact formula proved; partial when the sub-step divides the resolution. holds iff the sub-timestep divides the forcing interval; counterexamples for other steps proved |
| C35 | Adaptive sub-timestep stays within bounds | proved | `C35_adaptive_bounds`, `C35_decision` | Decision logic. |
| C36 | Stand-alone runs stop at the end time | proved | `C36_end_time` | Loop invariant. |
| C37 | Update refuses missing or negative forcing | proved | `C37_refuses`, `C37_asserts`, `C37_unset` | Decision logic. |
| C38 | Unmodelled soils pass precipitation through | partial | `C38_pass_through`, `C38_never_initialised`, `C38_initialize_ub`, `C38_volume_fails`, `C38_balance_zero` | Induction over history. Update passes the rain through; but Initialize always reads outside the soil array for such types, and the rate instead of the depth is booked (proved) |
| C39 | UpdateUntil(t) runs the model to time t | partial | `C39_reaches_partial`, `C39_fails` | Refuted; proved: exactly one Update. UpdateUntil makes one Update; reaches the target exactly when one forcing interval is enough; counterexample proved |
| C40 | Calibration is applied exactly once and its storage change is booked | proved | `C40_once`, `C40_never_again`, `C40_booked` | State machine over histories. |
| C41 | Calibrated values are per layer | partial | `C41_own_values_partial`, `C41_run_partial`, `C41_stale`, `C41_shared_fails`, `C41_shared_aborts` | Refuted for shared soil types; proved for distinct soil types. proved when no two layers share a soil type; otherwise the last layer's values win or the mass balance check aborts (both proved); derived Brooks-Corey values stay stale (proved) |
| C42 | SetValue/GetValue round trip and non-interference | proved | `C42_round_trip`, `C42_others`, `C42_inputs`, `C42_size_fails` | BMI store model over all names. round trip and non-interference for all names; setting the number of fronts changes the size of two other variables (proved) |
| C43 | BMI metadata is consistent | partial | `C43_types`, `C43_resolves`, `C43_shape_fails` | Case analysis over name tables. types, sizes and storage proved for every advertised name in every history; GetGridShape writes the wrong entry for grid 3 and none for 0, 1, 4 (proved) |
| C44 | Unknown names are rejected without side effects | partial | `C44_rejected`, `C44_metadata_partial`, `C44_phantoms` | Case analysis. access always throws; metadata wrong for two names (proved) |
| C45 | Layer depths exposed through BMI are the layer bottoms | partial | `C45_returned`, `C45_fails` | Refuted (shifted by one, cm). property fails: exact returned values proved (layer tops, in cm), counterexample proved |
| C46 | Front arrays exposed through BMI mirror the model state | proved | `C46_mirror`, `C46_mirror_run` | Update epilogue. |
| C47 | Missing required configuration keys are rejected | partial | `C47_refused`, `C47_throws_partial`, `C47_thickness_ub`, `C47_soil_z_ub` | Config reader model over key/value lines. proved for all required keys except layer_thickness and soil_z (with soil freeze-thaw): these give undefined behaviour when missing (proved) |
| C48 | Time units are converted or rejected | partial | `C48_unknown_unit`, `C48_wrong_values`, `C48_endtime_unknown`, `C48_hours_partial`, `C48_endtime_partial` | Refuted for unknown units; proved for known ones. proved for the documented units; unknown units are taken as hours (counterexamples proved) |
| C49 | Key order in the configuration does not matter | proved | `C49_order`, `C49_last_line` | Fold-commutation over distinct keys. |
| C50 | Comma lists are parsed faithfully | proved | `C50_vector`, `C50_trailing_comma` | split/join lemma. |
| C51 | Layer bottoms are the running sums of thicknesses | proved | `C51_running_sums`, `C51_bottoms` | Prefix sums. |
| C52 | Any soil type in the parameter file up to max_valid_soil_types is usable | partial | `C52_stored`, `C52_flag_partial`, `C52_above_15_fails`, `C52_bushland_fails` | Refuted (limit 15); exact characterisation proved. proved up to 15 types; types above 15 never initialise (proved) |
| C53 | Soil parameters come from the right line of the soil file | partial | `C53_right_line_partial`, `C53_uninitialised`, `C53_blank_in_name_fails` | sscanf token model; refuted for names with blanks; proved otherwise. proved for names without blanks; blank in a name gives the previous soil's parameters, short files leave uninitialised memory (both proved); what a line means is C81 |
| C54 | Initial state is uniform capillary head, one front per layer | proved | `C54_initial`, `C54_real` | Induction over layers. |
| C55 | Free-drainage front | proved | `C55_free_drainage`, `C55_number_is_layer` | Induction over list. |
| C56 | Moisture stays between residual and saturated | proved | `C56_run`, `C56_move`, `C56_run_single_layer` | Clamp lemmas through the move, then invariant over sub-timesteps, Updates and runs (Lemmas/Bounded, Lemmas/Anchor). one move from any state within bounds (C56_move), and all runs, coincidences included (C56_run); meaningful soils, layers of positive thickness, with calibration also different soil types per layer (otherwise C41) |
| C57 | The stand-alone driver applies forcing row i at step i | partial | `C57_steps`, `C57_refuses`, `C57_rows_partial`, `C57_no_newline_fails`, `C57_missing_cell_fails`, `C57_short_accepted`, `C57_no_overrun` | Driver loop model. one Update per row proved for complete files ending with a newline; without the newline the last row is used twice and a missing cell shifts the later PET values (both proved) |
| C58 | Every allocated front is released exactly once | proved | `C58_released`, `C58_no_dangling`, `C58_live_count`, `C58_finalize_twice` | Pointer-level model with a log of malloc/free; ownership invariant by induction over command histories. Pointer-level model of the list functions and of the two owners (state->head, state->state_previous), for every allocator returning unused addresses and every sequence of the list operations Initialize and Update perform. Histories that run through; a dangling local pointer inside Update (C17_fails) is another matter. C58_finalize_twice: a second Finalize releases released nodes. |
| C59 | Percolation correction of the mass-balance adjustment is non-negative | partial | `C59_terminates`, `C59_outcome`, `C59_never_positive`, `C59_limit`, `C59_fails`, `C59_single_layer_partial` | Outcome lemma of the correction loop. C59_single_layer_partial: runs over one layer; the saturated front always lacks water, so the correction converges and reports 0, and crossing the bottom only lets water out. termination and exact outcome of the correction proved; non-negativity is false: its percolation is 0 or minus twice the excess (C59_never_positive, counterexample C59_fails); C108 says when the limit is not reached; C59_single_layer_partial: percolation reported by an Update is non-negative in all runs over one layer, with a condition only on sub-timesteps that start with a single front |
| C60 | Indexed BMI access | proved | `C60_get`, `C60_set`, `C60_beyond_grid` | Index fold. arrays of doubles (24 of the 25 variables) |
| C61 | Exact surface water balance | proved | `C61_surface_balance` | Invariant over Updates; exact field arithmetic. |
| C62 | Every Update takes exactly the water of its forcing interval | partial | `C62_forcing_taken_partial`, `C62_rain_lost` | Sum over sub-timesteps. holds when the sub-timestep divides the forcing interval; a third of the rain is lost in the proved counterexample |
| C63 | No Update and no run loops forever | proved | `C63_update`, `C63_run`, `C63_program`, `C63_reading` | Fuel is a parameter; `Finishes` = all large fuel gives one result that is not the exhausted fuel (Spec/Ends). Convergence of the two loops over the reals (Lemmas/SoilReal, ThetaLoop), every other loop by a measure (Lemmas/NoFuel), then induction over sub-timesteps, runs and driver steps. |
| C64 | The built-in mass-balance check never stops a run | partial | `C64_single_layer_partial`, `C64_fails` | The stop is an outcome of the model (`abort`). Counterexample run evaluated in the kernel (Grid). One layer: invariant over sub-timesteps, Updates and runs (drying downwards, positive speeds, water of each pass accounted for), with the tolerance of the moisture search as the only loss. False in general (C64_fails): an ordinary run over two layers of a soil with n = 2 is stopped by the check. Proved for one-layer columns, all runs, when the moisture search of a lone front ends at its target (C64_single_layer_partial). |
| C65 | Fronts lie inside the column, in depth order, wetter above | partial | `C65_bottom_fails`, `C65_single_layer_partial`, `C65_order_fails`, `C65_column_fails` | Specification in Spec/Place. One layer: the invariant of C64. Counterexample runs evaluated in the kernel (Grid). Depth order is false even for one layer (C65_order_fails) and the bound by the column is false for several layers (C65_column_fails). For one layer all runs keep fronts within the column, wetter above, moving down; only a saturated first front may lie deeper, and a run in rounded arithmetic shows that it does (C65_bottom_fails). |
| C66 | Every array and structure of the object is released exactly once | partial | `C66_account`, `C66_released_partial`, `C66_needed`, `C66_second_use_fails`, `C66_initialize_twice_fails`, `C66_finalize_twice_fails`, `C66_finalize_first_fails`, `C66_soil_z_fails` | Model/Blocks: pointer variables, live addresses and the history of new and delete; the allocator is arbitrary. Invariant: which variables hold live addresses of their own. ReleasedOnce is the specification of C58. True for one use with a file that has each allocating key once and soil_z only when coupled (C66_released_partial); these conditions are necessary (C66_needed). C66_account gives the exact number of blocks lost for any files and any number of uses. False for a second use, for Initialize twice, for Finalize twice or first. Not modelled: what a call of Initialize that throws leaves behind. |
| C67 | Pointers from GetValuePtr stay valid | partial | `C67_stable_partial`, `C67_fails` | Same model; the owner of the memory behind each GetValuePtr result; invariant over the Updates, history between the calls. True for all names but two; false for soil_moisture_wetting_fronts and soil_depth_wetting_fronts, whose memory every Update releases (C67_fails). |
| C68 | A front's head and conductivity belong to its moisture | partial | `C68_move_partial`, `C68_new_front`, `C68_update_partial`, `C68_single_layer_partial`, `C68_saturated_fails`, `C68_bottom_fails`, `C68_frozen_fails` | Curves written out in Spec/Curve without the model's functions. The refresh at the end of a movement is shown to establish the relation, merging and speeds keep it; loop over sub-timesteps. Counterexample runs evaluated in the kernel (Grid). True after every movement and after every Update whose last sub-timestep creates no front, for all fronts but the deepest whose head exceeds 1 cm (C68_move_partial, C68_update_partial); for one unfrozen layer after every Update (C68_single_layer_partial). False for fronts that become saturated (C68_saturated_fails), for the deepest front (C68_bottom_fails) and for new fronts in frozen soil (C68_frozen_fails, C68_new_front). |
| C69 | New fronts appear only at the onset of rain | proved | `C69_step`, `C69_created`, `C69_update`, `C69_run` | Length of the list through every pass of the movement, creation and the loop over sub-timesteps; after one sub-timestep the previous rain equals the present rain, so at most the first can create. Induction over the run counting Updates that begin a shower. |
| C70 | The books close in rounded arithmetic | proved | `C70_surface`, `C70_balance`, `C70_bound_exists`, `C70_not_exact` | Class `Rounded` (Num/Rounded): numbers denote reals, each operation has relative error eps. Error bounds of the surface partition and of one sub-timestep, loop over sub-timesteps, induction over the run; a run in 53-bit arithmetic evaluated in the kernel shows that exact equality fails. |
| C71 | The storage sum is accurate in rounded arithmetic | proved | `C71_storage`, `C71_run` | Induction over the list with the invariant error <= 2 i (i+4) U after i fronts, against the exact water content of Spec/Water over the reals. |
| C72 | The number of sub-timesteps survives rounding | proved | `C72_times`, `C72_count`, `C72_steps`, `C72_guard_needed` | Relative errors of the unit conversion, of the quotient and of the added 1e-8; toInt is truncation. All three choices of the adaptive time step. A configuration in 53-bit arithmetic where the guard 1e-8 is needed. |
| C73 | The clock does not drift in rounded arithmetic | proved | `C73_clock`, `C73_updates` | Induction over the sub-timesteps of all Updates with the invariant error N(N+40)/2^52. |
| C74 | Routing conserves water in rounded arithmetic | proved | `C74_routing` | Closed form of one routing step (law-free), error of each queue entry, induction over the run. |
| C75 | Cutting the forcing interval changes nothing | proved | `C75_split`, `C75_join`, `C75_initialize`, `C75_totals`, `C75_count`, `C75_adaptive_fails` | The sub-timesteps of one long Update are the concatenation of those of k short ones: the state carried between Updates determines the state carried between sub-timesteps (`Cuttable`), the loops are split and joined (the balance check is made once per sub-timestep, so it carries over), and the asserts and early returns of each short Update follow from those of the long one and conversely, by induction on k. Both directions law-free (C75_split, C75_join), start states (C75_initialize), number of sub-timesteps (C75_count), exact totals (C75_totals). The property asks for a fixed sub-timestep; with adaptive_timestep it is false (C75_adaptive_fails). |
| C76 | A column without forcing stays at rest | proved | `C76_rest`, `C76_negative_pond_fails` | Each pass of a sub-timestep (crossing, merging, correction, movement, speeds) is shown to leave a list with one front per layer, all touching the bottom and with one common head, alone up to K (`Rest`); the sub-timestep, the loop, the Update and the run follow by induction. Exact real arithmetic. The ponding depth of the file is clipped at 0 and the times are asserted positive, so these are no hypotheses; a negative ponding depth set through the BMI breaks the property (C76_negative_pond_fails). |
| C77 | Results do not depend on uninitialised memory | proved | `C77_initialize`, `C77_run`, `C77_outputs`, `C77_groundwater_total_fails`, `C77_short_line_fails`, `C77_small_n_fails` | Two environments with the same files but different junk values; a relation `Twin` between objects (everything equal except what was not written) is established by Initialize and preserved by every pass of Update, including equal errors. Law-free. The three C77_*_fails theorems show what goes wrong beyond the hypotheses: ground-water total, short line, n <= 1. |
| C78 | Soil numbers are only names | proved | `C78_run`, `C78_outputs`, `C78_sharing_fails` | A relation `Alike` between objects (same everything, soils related layer by layer) is established by Initialize and preserved by calibration and by every pass of Update; all passes read soils only through the layer (`GeoSame` lemmas of C77). Law-free. C78_sharing_fails: with calibration, one shared number instead of two equal soils makes the mass-balance check stop the run. |
| C79 | More rain never means less infiltration or less runoff | partial | `C79_step_partial`, `C79_standing_partial`, `C79_standing_runoff_drops`, `C79_tie_fails` | `partitionPond_closed` gives the split in closed form away from the tie, `split_mono` the monotonicity; `fpCapacity_rain` shows that the capacity depends on the water standing before the step only; both branches of the subcycle are then compared. Proved for whole sub-timesteps away from the exact coincidence 'water left = maximum' (there the code assigns nothing; C79_tie_fails shows that more rain then infiltrates nothing). C79_standing_runoff_drops: more standing water can lower the runoff, so the claim for standing water is about infiltration only. |
| C80 | Freezing never lets water in faster | partial | `C80_drive`, `C80_capacity`, `C80_surface_partial`, `C80_dry_depth`, `C80_speed`, `C80_own_layer_ignored`, `C80_own_layer_fails` | Scaling law of `calcGeff` (the adaptive integration only uses ratios of conductivities), then monotonicity of `fpRaw`, `fpBottomSum`, `dzdtDenom` by induction over layers. Monotonicity is proved for the drive, the capacity, the surface split (away from the tie of C04), the depth of new fronts and the speeds. The last sentence fails: lgar_insert_water multiplies the conductivity of the front's layer by the factor of the top front's layer, so the factor of the layer that holds the front is ignored (C80_own_layer_ignored for all columns, C80_own_layer_fails for a concrete one). |
| C81 | Every soil gets the numbers written on its line of the soil file | partial | `C81_lines`, `C81_says_partial`, `C81_blank_name_repeats`, `C81_blank_name_first`, `C81_long_header_shifts`, `C81_shipped_fails`, `C81_shipped_differs` | Character-level `fgets` refined to the lines of the text by induction; words of a line; the record carried from line to line as a fold; the shipped text evaluated by the kernel. Proved for one-word names and lines of at most 254 characters. For names of several words the soil silently gets the parameters of the soil before it (C81_blank_name_repeats), and this happens in the shipped file for soil types 7 and 11 (C81_shipped_fails); an overlong header shifts all soils by one (C81_long_header_shifts). |
| C82 | The output table of the stand-alone program closes | proved | `C82_closes`, `C82_closes_alone` | The driver loop refined to a run of Updates by induction; rows related to the states after each Update; C01, C02, C61, C32 and C04 combined for every prefix; the ponding limit shown non-negative from the configuration reader. Exact arithmetic. The ponded water and the calibration change are not columns; C82_closes_alone is the case without ponding and calibration, where the table and the initial storage close alone. The printed decimals are C84. |
| C83 | The mass balance that the BMI reports is the water lost by the Update | partial | `C83_one_step_partial`, `C83_bounded`, `C83_fails` | The last pass of the sub-timestep loop isolated by induction; the balance of one sub-timestep (C02) read with the ponded water before and after; the counterexample is a kernel-evaluated run. Holds when the Update makes one sub-timestep (C83_one_step_partial). The code reports only the error of the last sub-timestep: C83_fails is a run with two sub-timesteps that gains more than 1e-9 cm and reports exactly 0. C83_bounded: the reported number is at most 1e-6 m. |
| C84 | The output files can be read back | proved | `C84_table`, `C84_layers`, `C84_written`, `C84_closes` | Model/Output transcribes the writing loops and write_state; Spec/Output has strict readers that do not know the writer; digits by induction; times contain no comma or newline because of how the forcing file is read (induction over the reader); fronts are never empty and numbered from 1 by the run invariant; C82 for the sums. printf is a class (LawfulPrint): digits, sign and point, right to half of the last decimal. It is implemented exactly (round half to even) and the law proved for the real numbers and the grid; that the C library does the same for doubles is assumed. nan and inf are not covered. |
| C85 | The infiltration capacity is that of Green and Ampt | partial | `C85_green_ampt_partial`, `C85_bounds`, `C85_homogeneous`, `C85_deeper`, `C85_frost_fails` | Textbook Green-Ampt rate of a stack of slabs (Spec/GreenAmpt); the loop over the layers adds up the resistance of the stack. for all columns, with the conductivity at the front as the code has it; the frost of the front's own layer is not used (C85_frost_fails); complete without frost differences |
| C86 | A saturated column takes in what ET removes | partial | `C86_limit`, `C86_closed`, `C86_later_partial`, `C86_fails` | Inversion of fpCapacity: minimum of potential rate and free space; counterexample run checked by the kernel. refuted: the limit by free pore space comes after the allowance and is zero for a saturated column (C86_closed for all inputs, C86_fails a run); C86_later_partial: water that ET took in earlier steps can be replaced |
| C87 | Rounding does not loosen the column structure | proved | `C87_bottom`, `C87_anchored`, `C87_every_layer` | The invariant of Lemmas/Anchor under every pass, using only irreflexivity of <, that a < b excludes b <= a, and that a == b excludes a < b and b < a; the deepest front moves by 0 * dt. law-free but for three laws of comparison; the deepest bottom must be a finite number; example run in 53-bit arithmetic |
| C88 | Moisture range in double precision | proved | `C88_range`, `C88_shipped`, `C88_saturation_fails` | The soil functions are shown to keep a range of moisture in correctly rounded arithmetic (Lemmas/MoistRound.lean); a range kept by the soil functions is kept by every step of a run in any arithmetic (Lemmas/Damp.lean, `run_damp`). The Dbl instance proves that rounding to 53 bits is monotone and idempotent (Num/Correct.lean). `C88_range` holds in every correctly rounded arithmetic without overflow (class `Correct`, instance: 53-bit arithmetic `Dbl` with proved monotone rounding); pow and sqrt enter with signs and position relative to 1 only. `C88_shipped`: every soil read from the shipped tables meets the condition in 53 bits. `C88_saturation_fails`: the exact bound theta <= theta_e of C56 is false in 53-bit arithmetic, and a saturated layer may lie below theta_e. |
| C89 | The moisture solver finds the moisture that closes the water balance | partial | `C89_found`, `C89_solver`, `C89_too_dry_fails` | Stack of slabs with one common head (Spec/Solver); the trial mass of the code is the water of the stack; invariant of the loop (head >= 0, mass and error belong to the head) by induction; slabs are all monotone in the head, so each is off by at most the total; termination from C63's analysis of the loop. Success: `Lemmas/Converge` (an invariant of the loop with step halving: the error stays within a multiple of the step, and the stop tests do not fire before the tolerance is met), `Lemmas/Slope` (derivative of the retention curve, ratio of slopes at two heads). Exact real arithmetic, start water taken at the start head. `C89_solver`: the function returns a finite number, the result is the moisture at a head >= 0, no slab is off by more than the stack, and the stack is within 1e-12 unless the search gave up. Booking after giving up is right on the wet side and has the wrong sign on the dry side: `C89_too_dry_fails` (a dry coarse sand is to take 0.1 cm, stays dry, and the ET demand falls by 0.1 cm). `C89_found`: where the slopes of the water content over a range of heads around the solution (ten first steps to each side, `Gentle`) differ by at most the factor 90 and are not extreme, the search succeeds: within 1e-12 cm and the ET demand unchanged. |
| C90 | Signs and bounds of the surface fluxes survive rounding | proved | `C90_run`, `C90_pond`, `C90_zero`, `C90_demand` | Invariant of Updates (`Signed`): ponded water and queue not negative, totals are numbers of the arithmetic, so that adding something non-negative cannot decrease them. The ponding bound uses that `ponded - fp*dt` is computed twice with the same rounding. For every instance of `Correct` (53-bit arithmetic is one, no overflow). Ordinates and ponding maxima are assumed not negative; the code does not check either. The ponding bound has the exception of C04 (`SampleDbl.tie_check`: it exists in 53-bit arithmetic as well). |
| C91 | Storage lies between that of a residually dry and that of a saturated column | partial | `C91_single_layer_cap`, `C91_profile`, `C91_run_partial`, `C91_single_layer_partial`, `C91_losses` | Independent specification Spec/Storage (`filledTo` sums a per-layer moisture times thickness over the layer boundaries; `MoistureWithin` says every front lies between the residual and saturated moisture of its layer). Lemmas/Storage slices the profile at the layer boundaries and compares slice by slice; the run theorems combine this with C56 (anchoring), the moisture range theorems and C01 (mass balance). Lemmas/Cap bounds the water of a one-layer column over the movement of the fronts (the mass correction of C108 ends no higher than it started or at the wanted water; the clean-up only lets water out; infiltration fits into the free space; a new front lies within the column) and carries the bound through sub-timesteps, Updates and runs (Props/Saturation). C91_profile: exact arithmetic, any profile. C91_single_layer_cap: all runs over one layer, with and without fronts below the bottom; upper bound up to 2e-10 cm per sub-timestep (tolerance of the mass correction), for columns with at most 49 cm of water between residual and saturated moisture. C91_run_partial / C91_single_layer_partial: run states; multi-layer columns ask for the stacked, ordered profile (which runs can break, see C65). C91_losses: the budget of a run. |
| C92 | Routing and bookkeeping do not feed back on the soil | proved | `C92_resume`, `C92_checkpoint`, `C92_giuh` | Spec/Restart names what must agree (`SameSoil`) and what then agrees after the Update (`SameFluxes`); Lemmas/Restart pushes the relation through the state setup, the sub-step loop (by induction over the sub-steps) and the end of the Update with the relational `Both`; Props/Restart does induction over the inputs and reads the relation off two successful Initializes. Any arithmetic. C92_resume: any two objects that agree, any inputs. C92_checkpoint: books set back, queue emptied, previous fronts dropped. C92_giuh: two configurations that differ only in the ordinates. Hypothesis Routable (at least one ordinate, queue one longer) holds after every Initialize with a non-empty resampled ordinate list; with none the convolution itself is undefined behaviour (C29). |
| C93 | The allocation helpers give zeroed arrays that can be numbered from 0 or from 1 | proved | `C93_vector`, `C93_vector_refused`, `C93_table`, `C93_table_granted`, `C93_empty_exits`, `C93_negative_rows_fails` | Model/MemFuncs gives the helpers with the allocator's answers as a parameter; Spec/MemFuncs gives reading `a[i]`, `a[i][j]`; induction over the rows shows exactly which elements can be read. Reading through pointers is specified independently (peek, peek2). Negative sizes are not rejected (C93_negative_rows_fails: -1 rows give an array without rows and no message), and the exit for empty sizes reports success. |
| C94 | Merging, layer crossing and leaving the column happen exactly where fronts call for it | proved | `C94_moisture`, `C94_nothing_to_merge`, `C94_finds_all`, `C94_between`, `C94_cross_finds_all`, `C94_nothing_to_cross`, `C94_bottom` | Overtaking and crossing are stated on positions of the list (`Overtakes`, `Crosses`); induction over the loops shows that a pass without a change has looked at every position, and that a merged depth is a mean of the two depths with the moisture steps as weights. C94_moisture, C94_finds_all, C94_nothing_to_merge in any arithmetic; the others in exact arithmetic. A pass that merges may leave or make another overtaken pair (C65_order_fails). |
| C95 | The speed of a wetting front is that of the LGAR equation | proved | `C95_first_layer`, `C95_second_layer`, `C95_no_step`, `C95_deeper_slower`, `C95_ponding_faster` | `lgarSpeed`, `inSeries`, `limitSpeed` are the equation as in the LGAR papers; the list theorems invert the speed calculation at a position; monotonicity from the closed form and the non-negative capillary drive (C23). C95_first_layer, C95_second_layer, C95_no_step: exact arithmetic, any list. C95_deeper_slower, C95_ponding_faster: real numbers, first layer. From the third layer on the code pairs thicknesses and conductivities of different layers (C29_speed_three_layers_fails), so there the series formula is false and not claimed. |
| C96 | Writing to an output variable does not act on the model | partial | `C96_update_forgets`, `C96_write`, `C96_histories_partial`, `C96_count`, `C96_count_high`, `C96_count_zero`, `C96_depths_fails`, `C96_count_fails` | `Spec/Writes`: calls of the BMI and the relation 'same but for what is reported'. Every call but a write to a result respects the relation (`Both`), a write to a result stays inside it; induction over the history. The two exceptions by kernel-evaluated runs. Proved for 13 of the 15 output variables, all histories (C96_histories_partial; C96_update_forgets: the next Update is the same and overwrites them all). soil_num_wetting_fronts: harmless without calibration (C96_count); with it a larger number dereferences NULL (C96_count_high, C96_count_fails) and 0 drops the calibration (C96_count_zero). soil_depth_layers: the write goes into the geometry (C96_depths_fails). |
| C97 | Initialisation stays inside its arrays | partial | `C97_safe_partial`, `C97_config`, `C97_initialize_partial`, `C97_name25_fails`, `C97_name30_fails`, `C97_no_types_fails`, `C97_few_types_fails`, `C97_negative_type_fails` | `Spec/InitSafe` says what fits; `Lemmas/InitSafe` walks through `lgarInit` and `readConfig` with the memory-safety triples; each condition has a `_fails` theorem. Proved for all configurations that name their layers, give each a soil type between 0 and max_valid_soil_types >= 1, list soil_z when sft_coupled is set, and whose soil file has names shorter than 25 characters in the lines read; reading the configuration itself goes wrong only at an endtime with an unknown unit. False in general: names of 25 or at least 30 characters, max_valid_soil_types=0, fewer soil types than layers, a negative soil type. |
| C98 | Counters and indices fit their type | partial | `C98_soil_types`, `C98_run`, `C98_in_range_partial`, `C98_interval_fails` | Bounds along the run: `C69_run` for the fronts, `update_time` and `C35_adaptive_bounds` for the sub-timesteps, `C98_soil_types` for what the files give. Proved while the number of Updates times the number of configured time steps per forcing interval (and plus the number of layers) stays below 2^31, in exact arithmetic. False in general: a time step of a microsecond makes the number of sub-timesteps exceed an int. Ints local to one Update are not covered. |
| C99 | Recharge comes with wetting fronts that leave | proved | `C99_movement`, `C99_update`, `C99_account`, `C99_run`, `C99_layers` | `Lemmas/Recharge`: positive flux implies fewer fronts, for a movement, a sub-timestep and the loop; `Props/Recharge` counts over runs beside C69; `TieFreeRun` gives at least one front per layer. In exact arithmetic. The correction of the mass balance never adds to the recharge, crossing the domain boundary deletes a front, and only the onset of a shower makes one; counted over the run. |
| C100 | The clock does not act on the model | proved | `C100_clock`, `C100_standalone`, `C100_standalone_run`, `C100_endtime`, `C100_shift` | `Props/Clock`: `update_clock` carries any relation between the two times that survives adding a time step (and, stand-alone, the comparison with the end times) through an Update; instances: no relation, equality, shift. Relational: both runs end with the same error or with states that differ only in the clock. Non-vacuity: a run where the other end time stops the stand-alone model half-way through the first Update. |
| C101 | Calibrating with the values that are there changes nothing | proved | `C101_same`, `C101_exact` | `Props/SameCal`: `calibFront` writes back the soil and the front it found (vg_m is what the reader computed, theta what initialisation computed from psi), induction over the fronts, then the Update. The hypothesis on the soil types is needed: type 0 or a type beyond the lines of the file is uninitialised memory, whose vg_m calibration recomputes. Non-vacuity: a calibrated run of two layers; with other values in the arrays the same run books storage. |
| C102 | Conductivity and capillary drive are those of the theories named | proved | `C102_antiderivative`, `C102_mualem`, `C102_brooks_corey` | `Props/Mualem`: derivative of the closed antiderivative, uniqueness of antiderivatives by the mean value theorem, so the statement is about any antiderivative of what the code computes. For every antiderivative (one is exhibited). The numeric form of the drive is not the integral: C23_numeric_overestimates. C30_law in the same file: the depth of a new front solves the Green-Ampt balance. |
| C103 | Recession: dry weather brings nothing in and discharge ends with the unit hydrograph | proved | `C103_dry`, `C103_recession` | `Props/Recession`: without rain and pond no front is created and `surfaceFlow` gives nothing; induction over the subcycles; over runs with `run_at` (which Update leads from which state to which) and the convolution form C31_run. C103_dry for one Update, C103_recession over runs. |
| C104 | A boundary between layers of the same soil is invisible to storage, speed, capacity and crossing | partial | `C104_storage`, `C104_speed`, `C104_cross`, `C104_move`, `C104_move_found` | `Props/Boundary`: `water` over lists cut at the boundary; the denominator of the speed sums to depth / K when all conductivities agree; crossing by the head and moisture round trip C21. C104_storage, C104_speed, C104_cross, and C104_move (in Props/Carry) up to the tolerance of the search, C104_move_found (in Props/Found) without the search giving up; for the potential rate C85_homogeneous. Not the whole Update: the movement in layer 2 and deeper searches to 1e-12 cm where layer 1 divides, so equality of whole runs is false and closeness over runs is not shown; and a new front is not made deeper than the first layer (C30), which a boundary changes. |
| C105 | A moving front carries its water along | partial | `C105_inner`, `C105_deepest`, `C105_top`, `C105_inner_found`, `C105_deepest_found` | `Spec/Carry`: the water above a front as a stack of slabs under one head. `Props/Carry`: the loops over the layers above add up the water of the stack (`moveLayers_stack`), then C89_solver; in the first layer by division. C105_top (first layer), C105_inner (layer 2 and deeper), C105_deepest. The movement returns in all cases. Where the search of C89 gives up the water is off by more than 1e-12 cm and what happens to the ET demand is stated (SearchEnd); that this happens is C89_too_dry_fails. C105_inner_found and C105_deepest_found exclude it where the water content changes steadily with the head (`Gentle`). |
| C106 | A dry spell dries a column with one front per layer as a whole | proved | `C106_dries`, `C106_from_start` | `Spec/Dry`: the column as a stack of slabs, the range of heads, a run of Updates without rain. `Lemmas/Dry`: one movement (the deepest front solves for the common head, `C105_deepest_found`; the others take it over). `Lemmas/DryRun`: sub-timestep, Update, induction over the run. `Props/Dry`: the theorems, two layers of loam and the sample configuration as cases. C106_dries (any state between Updates), C106_from_start (after Initialize). Real numbers. The range of heads is a hypothesis (`Mild`: van Genuchten n bounded by N, (hi/lo)^N <= 90, slope of the water content between 1e-13 and 10 cm/cm up to that factor; `Room`: the potential ET fits). Outside it the search may give up (C89_too_dry_fails) and the mass check may stop the program (C64). |
| C107 | Several models in one process do not disturb each other | proved | `C107_own_calls`, `C107_others_kept`, `C107_separate`, `C107_no_dangling`, `C107_released`, `C107_initialize_again` | `Model/Pool` puts any number of objects (two list pointers each) over the one memory of `Model/Heap`; a call is Initialize, one list operation, or Finalize on one of them. `Spec/Pool` tells the story of one object from its own calls (`callsOn`, `Story`) without the others. Proof: `exec_frame` (every list program touches only the nodes of its own two lists and nodes that were free), then the invariant `PoolOk` over all interleavings: every object holds its lists, no node in two objects, every other node unchanged. Outside: `verbosity`, the one shared variable, acts on printing only and is not modelled. Objects share one memory with an arbitrary allocator; invariant over all interleavings with a frame condition for every list program. The limit (Initialize without Finalize leaks) is a theorem of its own, C107_initialize_again. |
| C108 | The mass correction closes the balance before its limit | proved | `C108_closes`, `C108_surplus` | Lemmas/McLoop abstracts one round of the loop to the missing water, the water of one step and the direction; the water is affine in the depth of the moved front. Near the target every 1001 rounds divide the step by 1000 (mcLoop_near), before that steps up are counted (mcLoop_up, mcLoop_start, with the enlargement after 1000 rounds); far above it only goes down (mcLoop_far). Exact arithmetic; C108_closes is the positive result, C108_surplus shows that the bound on the surplus is needed. |
| C109 | Water does not leave the soil through the surface | partial | `C109_step`, `C109_single_layer_partial`, `C109_fails` | C109_step combines the Green-Ampt formula of C85 with the limit by free space of C86. C109_single_layer_partial: induction over the sub-timesteps with the storage cap of C91_single_layer_cap; a new surface front takes in water (createSurficial_inv), a movement at least the free space (surfaceFlow_min). C109_step holds for any layered column; C109_fails refutes the claim for an over-full column, built by hand (not shown to be reached by a run). C109_single_layer_partial bounds the infiltration of all runs of one-layer columns from below by -2e-10 cm per sub-timestep so far and sub-timestep of the Update. Missing: runs of several layers. |

## 8. Axioms

Collected from the compiled project:

* `propext`, `Classical.choice`, `Quot.sound`: all theorems of the table except those below (377).
* `Quot.sound`, `propext`: `C01_printed`, `C100_clock`, `C100_endtime`, `C100_standalone`, `C100_standalone_run`, `C18_delete_absent`, `C18_insertAtDepth_head_lost`, `C18_reverse`, `C37_refuses`, `C40_never_again`, `C40_once`, `C44_rejected`, `C46_mirror`, `C52_flag_partial`, `C66_finalize_first_fails`, `C80_own_layer_ignored`, `C96_count_high`, `C96_count_zero`, `C97_no_types_fails`.
* `propext`: `C18_copy`, `C18_delete`, `C18_find_old`, `C19_keeps_partial`, `C37_asserts`, `C38_pass_through`, `C43_shape_fails`, `C93_vector_refused`, `C96_count`, `C96_update_forgets`.
* no axiom at all: `C18_length`, `C93_empty_exits`.

## 9. Wrong programs

`seeded/LOG.jsonl` has one line per wrong program: the model definition was edited in a scratch copy, the project was rebuilt,
every proof that failed was replaced until the rest compiled, and the theorems that depend on a failed proof were collected.
`proofs_broken` names the proofs that stopped checking, `theorems_failed` all theorems of the properties that rest on one of them. A
theorem in `theorems_failed` is therefore no longer proved for the wrong program; that it has become false is not shown, since a
helper lemma may break without it. This is weakest where `proofs_broken` holds only lemmas named `..._inv`: they describe a definition
case by case and break under almost any edit of it, so such a line shows little more than that the theorems rest on the edited code.
Some runs stopped early, did not compile or reached a time limit; their `note` says so, and lines
with an empty `theorems_failed` are no evidence for the theorems.
