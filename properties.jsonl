{"id": "C01", "title": "Global water balance over a whole run", "statement": "For every sequence of Update calls that all return, initial storage + precipitation - runoff - actual ET - ponded water - percolation - final storage (+ storage added by calibration), i.e. the number Finalize prints as global balance, is bounded in absolute value by (number of executed sub-timesteps) x (1e-4 + 1e-12) cm. A run that would violate this aborts.", "quantifier": "every initial soil column, every forcing history of any length, every behaviour of the wetting-front physics, every number of sub-timesteps", "why_tests_cant": "The bound is about the accumulated error of arbitrarily long runs and must hold no matter what the wetting-front code did; a test run samples one history.", "anchors": ["src/bmi_lgar.cxx:BmiLGAR::Update", "src/lgar.cxx:lgar_global_mass_balance", "src/bmi_lgar.cxx:BmiLGAR::Finalize"]}
{"id": "C02", "title": "Cumulative volumes are the sums of the per-step fluxes", "statement": "After any number of Updates each cumulative volume (precipitation, infiltration, actual ET, percolation, runoff, discharge, GIUH runoff, PET) equals the sum over the Updates of the per-Update volume exposed through the BMI (converted from m back to cm).", "quantifier": "every history of Updates and every variable", "why_tests_cant": "Requires telescoping over all histories; a test only checks a few steps.", "anchors": ["src/bmi_lgar.cxx:BmiLGAR::Update"]}
{"id": "C03", "title": "Surface water is partitioned without loss by infiltration", "statement": "When water ponds on the soil and an infiltration step runs, ponded water before = infiltrated + runoff + ponded after, and runoff is never negative, so the internal negative-runoff abort is unreachable.", "quantifier": "every ponded depth, every infiltration capacity, every maximum ponding depth, every wetting-front state", "why_tests_cant": "Branching on real-valued comparisons including ties; tests cannot hit every tie and sign.", "anchors": ["src/lgar.cxx:lgar_insert_water"]}
{"id": "C04", "title": "Ponding never exceeds its configured maximum", "statement": "After a sub-timestep the ponded depth left on the surface is at most ponded_depth_max.", "quantifier": "every ponded depth, infiltration capacity and configured maximum", "why_tests_cant": "The violation needs an exact tie that sampled floating-point tests never hit.", "anchors": ["src/lgar.cxx:lgar_insert_water", "src/bmi_lgar.cxx:BmiLGAR::Update"]}
{"id": "C05", "title": "Infiltration never exceeds the free pore space", "statement": "The water infiltrated in one step is never more than the free capacity of the column (maximum storage minus current storage) when that capacity is non-negative.", "quantifier": "every state and every ponded depth", "why_tests_cant": "The capacity limit must hold for all profiles, not only tested ones.", "anchors": ["src/lgar.cxx:lgar_insert_water"]}
{"id": "C06", "title": "Reported storage is the physical water content of the profile", "statement": "The storage computed from the wetting fronts equals the sum over soil slices of slice thickness times slice moisture, where a slice runs from the front above in the same layer (or the layer top) to the front's depth.", "quantifier": "every list of wetting fronts whose layers are stacked in order, any number of layers and fronts", "why_tests_cant": "A closed formula over arbitrary-length lists.", "anchors": ["src/lgar.cxx:lgar_calc_mass_bal"]}
{"id": "C07", "title": "Merging fronts conserves water", "statement": "When faster fronts overtake slower ones and are merged, total storage is unchanged.", "quantifier": "every well-formed front list, any number of merges in one call", "why_tests_cant": "Holds for all real depths/moistures and list lengths only by algebra + induction.", "anchors": ["src/lgar.cxx:lgar_merge_wetting_fronts"]}
{"id": "C08", "title": "Crossing a layer boundary conserves water", "statement": "When fronts pass from one soil layer into the next, total storage is unchanged whenever the crossing front is not above saturation and the new moisture differs from the one below; it is not conserved otherwise (fallback).", "quantifier": "every well-formed front list and soil parameters, arbitrary retention curve", "why_tests_cant": "Tests cannot exercise every retention curve or every number of simultaneous crossings.", "anchors": ["src/lgar.cxx:lgar_wetting_fronts_cross_layer_boundary"]}
{"id": "C09", "title": "Bottom flux equals storage lost at the bottom", "statement": "When a front reaches the bottom of the domain, the returned bottom flux is exactly the decrease in storage.", "quantifier": "every well-formed front list", "why_tests_cant": "Universal algebraic identity over all states.", "anchors": ["src/lgar.cxx:lgar_wetting_front_cross_domain_boundary"]}
{"id": "C10", "title": "A new surface front holds exactly the infiltrated water", "statement": "Creating a surficial front increases storage by exactly the infiltrated volume, takes exactly that volume from the ponded water, and never makes the ponded water negative.", "quantifier": "every state, ponded depth, dry depth", "why_tests_cant": "Universal identity, two saturation regimes.", "anchors": ["src/lgar.cxx:lgar_create_surficial_front", "src/lgar.cxx:lgar_calc_dry_depth"]}
{"id": "C11", "title": "Dry-over-wet correction charges the storage change to ET", "statement": "When drier-over-wetter fronts in the top layer are removed, the storage gained is exactly what is subtracted from actual ET, up to the 1e-7 cm dead band.", "quantifier": "every well-formed front list whose dry-over-wet fronts lie in the top layer", "why_tests_cant": "Sign of the correction depends on depth ordering; needs a proof over all lists.", "anchors": ["src/lgar.cxx:lgar_fix_dry_over_wet_fronts"]}
{"id": "C12", "title": "Dry-over-wet detection and repair", "statement": "The detector reports true exactly when some front is not wetter than the next deeper front of the same layer; one repair pass removes all such pairs.", "quantifier": "every front list", "why_tests_cant": "Existential over arbitrary lists; the repair claim fails only on particular three-front patterns.", "anchors": ["src/lgar.cxx:lgar_check_dry_over_wet_wetting_fronts", "src/lgar.cxx:lgar_fix_dry_over_wet_fronts"]}
{"id": "C13", "title": "Front numbering stays consecutive", "statement": "After Initialize and after every successful Update the fronts are numbered 1,2,...,n from the surface down with no gap or duplicate, and n equals the reported number of fronts.", "quantifier": "every history, every soil, every numeric outcome (any arithmetic, including rounding)", "why_tests_cant": "Invariant over unbounded histories and interleavings of insert/merge/cross/delete.", "anchors": ["src/linked_list.cxx:listInsertFirst", "src/linked_list.cxx:listDeleteFront", "src/lgar.cxx:lgar_move_wetting_fronts", "src/bmi_lgar.cxx:BmiLGAR::Update"]}
{"id": "C14", "title": "The column always keeps its bottom front", "statement": "In every successful history there is always at least one front; the deepest front stays in the deepest layer, flagged as touching the bottom, at the depth of the column.", "quantifier": "every history", "why_tests_cant": "Invariant over unbounded histories.", "anchors": ["src/lgar.cxx:lgar_move_wetting_fronts", "src/lgar.cxx:lgar_merge_wetting_fronts", "src/bmi_lgar.cxx:BmiLGAR::Update"]}
{"id": "C15", "title": "Layer structure of the front list", "statement": "Layers appear in order without gaps (first front in layer 1, each next front in the same layer or the one below) and exactly the last front of each layer is flagged as touching the layer bottom; preserved by insert, merge, layer crossing, bottom crossing and dry-over-wet repair.", "quantifier": "every front list satisfying it, every parameter", "why_tests_cant": "Needed for memory safety of every pass; cannot be sampled.", "anchors": ["src/lgar.cxx:lgar_merge_wetting_fronts", "src/lgar.cxx:lgar_wetting_fronts_cross_layer_boundary", "src/lgar.cxx:lgar_create_surficial_front"]}
{"id": "C16", "title": "No NULL dereference or out-of-range access in front processing", "statement": "On every well-formed list the merge, layer-crossing, bottom-crossing, repair, storage and front-speed passes terminate without dereferencing NULL or indexing outside the layer arrays.", "quantifier": "every well-formed front list and parameter set", "why_tests_cant": "Memory safety over all reachable list shapes.", "anchors": ["src/lgar.cxx:lgar_merge_wetting_fronts", "src/lgar.cxx:lgar_dzdt_calc", "src/linked_list.cxx:listDeleteFront"]}
{"id": "C17", "title": "Moving fronts never uses a freed front", "statement": "Advancing the wetting fronts never touches a front after it has been deleted.", "quantifier": "every state", "why_tests_cant": "The offending path needs a front to dry below residual moisture within one sub-step.", "anchors": ["src/lgar.cxx:lgar_move_wetting_fronts"]}
{"id": "C18", "title": "List primitives implement the abstract sequence", "statement": "Find returns the first front with the number; delete removes exactly it and renumbers; insert-first pushes and renumbers; insert-at-number places it there; copy returns an equal list that later edits of the original do not affect; reverse is an involution.", "quantifier": "every list and key", "why_tests_cant": "Universal over lists; pointer surgery bugs hide in corner positions.", "anchors": ["src/linked_list.cxx:listFindFront", "src/linked_list.cxx:listDeleteFront", "src/linked_list.cxx:listInsertFirst", "src/linked_list.cxx:listInsertFront", "src/linked_list.cxx:listCopy", "src/linked_list.cxx:listReverseOrder"]}
{"id": "C19", "title": "Depth sort sorts and keeps every front", "statement": "Sorting by depth yields non-decreasing depths and keeps every front's data together.", "quantifier": "every list", "why_tests_cant": "Sortedness is universal; record integrity fails only for unequal non-swapped fields.", "anchors": ["src/linked_list.cxx:listSortFrontsByDepth"]}
{"id": "C20", "title": "Moisture from capillary head is bounded, saturating and monotone", "statement": "For valid soils and heads >= 0, theta(h) lies in (theta_r, theta_e], equals theta_e at h=0 and strictly decreases with h.", "quantifier": "every valid van Genuchten parameter set and head", "why_tests_cant": "Real-analytic inequality over a continuum.", "anchors": ["src/soil_funcs.cxx:calc_theta_from_h"]}
{"id": "C21", "title": "Head, saturation and moisture conversions are mutually inverse", "statement": "calc_h_from_Se inverts calc_Se_from_h on h>=0, and calc_Se_from_theta inverts calc_theta_from_h; psi->theta->psi is the identity.", "quantifier": "every valid soil, every head", "why_tests_cant": "Continuum.", "anchors": ["src/soil_funcs.cxx:calc_h_from_Se", "src/soil_funcs.cxx:calc_Se_from_h", "src/soil_funcs.cxx:calc_Se_from_theta"]}
{"id": "C22", "title": "Conductivity is bounded and monotone", "statement": "For 0<=Se<=1, 0<=K(Se)<=Ksat, K(1)=Ksat, K(0)=0 and K is monotone in Se.", "quantifier": "every valid soil and saturation", "why_tests_cant": "Continuum.", "anchors": ["src/soil_funcs.cxx:calc_K_from_Se"]}
{"id": "C23", "title": "Capillary drive is non-negative and bounded", "statement": "The closed-form capillary drive lies in [0,H_c] for admissible Brooks-Corey lambda, and the adaptive integral is non-negative; non-finite results are replaced by H_c.", "quantifier": "every valid soil and moisture pair theta1<theta2", "why_tests_cant": "Continuum and loop.", "anchors": ["src/soil_funcs.cxx:calc_Geff"]}
{"id": "C24", "title": "The adaptive capillary-drive integration terminates", "statement": "The numerical integration loop of the capillary drive finishes after finitely many steps.", "quantifier": "every valid soil and heads 0<=h_f<=h_i", "why_tests_cant": "Step size is halved and grown adaptively; no test shows termination for all inputs.", "anchors": ["src/soil_funcs.cxx:calc_Geff"]}
{"id": "C25", "title": "ET demand is between zero and potential ET", "statement": "The actual-ET demand is always within [0, PET rate x time-step], is monotone in dryness, and is 0 when PET is not positive.", "quantifier": "every moisture, soil, PET >= 0", "why_tests_cant": "Continuum; both clamps and the reduction curve.", "anchors": ["src/aet.cxx:calc_aet"]}
{"id": "C26", "title": "Reported actual ET stays within [0, PET]", "statement": "The actual ET reported for a sub-timestep is never negative and never exceeds PET.", "quantifier": "every state", "why_tests_cant": "Later mass-balance corrections modify ET; violation depends on rare paths.", "anchors": ["src/lgar.cxx:lgar_theta_mass_balance", "src/lgar.cxx:lgar_fix_dry_over_wet_fronts", "src/lgar.cxx:lgar_move_wetting_fronts"]}
{"id": "C27", "title": "Frozen-soil factors lie in [0.05, 1]", "statement": "When frozen-ground coupling is on, every layer gets exactly one factor in [0.05,1] (1 when never below 0 C), or the call aborts.", "quantifier": "every temperature profile and layering", "why_tests_cant": "Continuum and unbounded profile length; out-of-range read at profile end.", "anchors": ["src/lgar.cxx:frozen_factor_hydraulic_conductivity"]}
{"id": "C28", "title": "Front speeds are well defined", "statement": "After the speed computation every front touching a layer bottom has speed 0 and every moving front has speed in (0, 1e4] cm/h; the deepest front is unchanged; negative conductivity or inverted moisture stop the program.", "quantifier": "every well-formed state", "why_tests_cant": "Clamp and branch coverage over continuum.", "anchors": ["src/lgar.cxx:lgar_dzdt_calc"]}
{"id": "C29", "title": "Composite conductivity pairs each layer with its own thickness", "statement": "The harmonic-mean conductivity used for a front in layer m is (front depth) / sum over layers above of thickness_k / K_k.", "quantifier": "every layering with distinct conductivities", "why_tests_cant": "Mispairing is invisible for <=2 layers or symmetric thicknesses.", "anchors": ["src/lgar.cxx:lgar_dzdt_calc", "src/lgar.cxx:lgar_insert_water"]}
{"id": "C30", "title": "Dry depth lies within the first layer", "statement": "The depth given to a new surface front is positive and never exceeds the bottom of the layer of the top front.", "quantifier": "every unsaturated top front", "why_tests_cant": "Continuum.", "anchors": ["src/lgar.cxx:lgar_calc_dry_depth"]}
{"id": "C31", "title": "GIUH routing is the convolution of runoff with the ordinates", "statement": "The routed runoff sequence equals the discrete convolution of the runoff history with the ordinates.", "quantifier": "every runoff history of any length, every ordinate vector", "why_tests_cant": "All histories; shift-register bugs show only with particular lengths.", "anchors": ["giuh/giuh.c:giuh_convolution_integral"]}
{"id": "C32", "title": "GIUH routing conserves water", "statement": "Routed outflow plus queued water equals queued water before plus runoff times the ordinate sum; after n dry steps everything has left.", "quantifier": "every history and ordinate vector with at least one ordinate", "why_tests_cant": "All histories.", "anchors": ["giuh/giuh.c:giuh_convolution_integral", "src/bmi_lgar.cxx:BmiLGAR::Update"]}
{"id": "C33", "title": "GIUH ordinate resampling preserves the total", "statement": "Resampling the hourly ordinates to the forcing resolution keeps their sum, and always leaves at least one ordinate.", "quantifier": "every ordinate list and forcing resolution", "why_tests_cant": "Resolution above one hour is not in the tests and writes out of bounds.", "anchors": ["src/lgar.cxx:InitFromConfigFile"]}
{"id": "C34", "title": "Model time advances by one forcing interval per Update", "statement": "Each Update advances the current time by exactly the value of GetTimeStep.", "quantifier": "every sub-timestep/forcing-resolution pair, adaptive or not", "why_tests_cant": "Only fails for non-dividing pairs.", "anchors": ["src/bmi_lgar.cxx:BmiLGAR::Update", "src/bmi_lgar.cxx:GetCurrentTime"]}
{"id": "C35", "title": "Adaptive sub-timestep stays within bounds", "statement": "The adaptive sub-timestep is at least the minimum time-step (when that does not exceed the forcing resolution) and at most the forcing resolution.", "quantifier": "every precipitation, ponding and setting", "why_tests_cant": "Decision logic over a continuum.", "anchors": ["src/bmi_lgar.cxx:BmiLGAR::Update"]}
{"id": "C36", "title": "Stand-alone runs stop at the end time", "statement": "In stand-alone mode no sub-timestep starts after the end time has been reached inside an Update, so time never exceeds end time by a full sub-timestep.", "quantifier": "every history", "why_tests_cant": "All histories.", "anchors": ["src/bmi_lgar.cxx:BmiLGAR::Update"]}
{"id": "C37", "title": "Update refuses missing or negative forcing", "statement": "On a valid soil column an Update whose precipitation or PET is negative (in particular never set) stops with an assertion before changing storage or cumulative volumes.", "quantifier": "every state", "why_tests_cant": "Universal.", "anchors": ["src/bmi_lgar.cxx:BmiLGAR::Update"]}
{"id": "C38", "title": "Unmodelled soils pass precipitation through", "statement": "With an invalid soil type each Update routes exactly the precipitation to runoff and discharge, leaves storage unchanged and keeps the water balance exactly zero.", "quantifier": "every forcing history", "why_tests_cant": "All histories; also initialisation reads outside the soil table in this case.", "anchors": ["src/bmi_lgar.cxx:BmiLGAR::Update", "src/lgar.cxx:InitFromConfigFile"]}
{"id": "C39", "title": "UpdateUntil(t) runs the model to time t", "statement": "After UpdateUntil(t) the current time is at least t.", "quantifier": "every target time", "why_tests_cant": "Only observable for targets beyond one step.", "anchors": ["src/bmi_lgar.cxx:BmiLGAR::UpdateUntil"]}
{"id": "C40", "title": "Calibration is applied exactly once and its storage change is booked", "statement": "Calibrated parameters are applied in the first Update after Initialize when enabled and never again; the storage change booked for the balance equals storage after minus storage before.", "quantifier": "every history, every calibration vector", "why_tests_cant": "All histories.", "anchors": ["src/bmi_lgar.cxx:update_calibratable_parameters", "src/bmi_lgar.cxx:BmiLGAR::Update"]}
{"id": "C41", "title": "Calibrated values are per layer", "statement": "After calibration each layer uses its own calibrated values.", "quantifier": "every layering and calibration vector", "why_tests_cant": "Fails only when layers share a soil type.", "anchors": ["src/bmi_lgar.cxx:update_calibratable_parameters"]}
{"id": "C42", "title": "SetValue/GetValue round trip and non-interference", "statement": "GetValue after SetValue on the same variable returns what was set; other variables are unaffected.", "quantifier": "every variable name pair and value", "why_tests_cant": "All pairs of names, all values.", "anchors": ["src/bmi_lgar.cxx:GetValue", "src/bmi_lgar.cxx:SetValue", "src/bmi_lgar.cxx:GetValuePtr"]}
{"id": "C43", "title": "BMI metadata is consistent", "statement": "For every name: byte size = item size x grid size, item size matches the type string, grid rank/size match, and every advertised input/output/calibration name resolves to storage of at least that many bytes.", "quantifier": "every name and every model size", "why_tests_cant": "Universal over strings and sizes.", "anchors": ["src/bmi_lgar.cxx:GetVarNbytes", "src/bmi_lgar.cxx:GetVarGrid", "src/bmi_lgar.cxx:GetVarItemsize", "src/bmi_lgar.cxx:GetVarType", "src/bmi_lgar.cxx:GetGridSize"]}
{"id": "C44", "title": "Unknown names are rejected without side effects", "statement": "For a name that is not a model variable, reading or writing throws and changes nothing; grid is -1 and byte size 0.", "quantifier": "every string", "why_tests_cant": "Infinite set of names.", "anchors": ["src/bmi_lgar.cxx:GetValuePtr", "src/bmi_lgar.cxx:SetValue", "src/bmi_lgar.cxx:GetVarGrid"]}
{"id": "C45", "title": "Layer depths exposed through BMI are the layer bottoms", "statement": "soil_depth_layers returns the depth of the bottom of each layer, in the advertised unit.", "quantifier": "every layering", "why_tests_cant": "Off-by-one is masked unless compared with an independent specification.", "anchors": ["src/bmi_lgar.cxx:GetValuePtr", "src/bmi_lgar.cxx:GetVarUnits"]}
{"id": "C46", "title": "Front arrays exposed through BMI mirror the model state", "statement": "After every Update the arrays soil_moisture_wetting_fronts/soil_depth_wetting_fronts have one entry per front, equal to its moisture and its depth in metres.", "quantifier": "every history", "why_tests_cant": "All histories.", "anchors": ["src/bmi_lgar.cxx:realloc_soil", "src/bmi_lgar.cxx:BmiLGAR::Update"]}
{"id": "C47", "title": "Missing required configuration keys are rejected", "statement": "A configuration lacking any required key makes Initialize throw; it never silently continues with an unset value.", "quantifier": "every configuration file", "why_tests_cant": "Every subset of keys.", "anchors": ["src/lgar.cxx:InitFromConfigFile"]}
{"id": "C48", "title": "Time units are converted or rejected", "statement": "timestep/forcing_resolution/endtime values are converted according to their unit; an unrecognised unit is rejected.", "quantifier": "every unit string and value", "why_tests_cant": "Infinite set of strings; silent acceptance.", "anchors": ["src/lgar.cxx:InitFromConfigFile"]}
{"id": "C49", "title": "Key order in the configuration does not matter", "statement": "Permuting lines with distinct keys gives the same configuration.", "quantifier": "every permutation of every configuration", "why_tests_cant": "Factorially many orders.", "anchors": ["src/lgar.cxx:InitFromConfigFile"]}
{"id": "C50", "title": "Comma lists are parsed faithfully", "statement": "Parsing the comma-joined text of n values returns exactly these n values in order.", "quantifier": "every list", "why_tests_cant": "Universal over lists.", "anchors": ["src/lgar.cxx:ReadVectorData"]}
{"id": "C51", "title": "Layer bottoms are the running sums of thicknesses", "statement": "The cumulative depth of layer k is the sum of the first k thicknesses, the column depth is the total, and the sequence is strictly increasing for positive thicknesses.", "quantifier": "every thickness list", "why_tests_cant": "Universal over lists.", "anchors": ["src/lgar.cxx:InitFromConfigFile"]}
{"id": "C52", "title": "Any soil type in the parameter file up to max_valid_soil_types is usable", "statement": "A layer soil type between 1 and max_valid_soil_types is treated as valid.", "quantifier": "every max_valid_soil_types and soil type", "why_tests_cant": "Fails only beyond a compile-time limit.", "anchors": ["src/lgar.cxx:InitFromConfigFile", "include/all.hxx:MAX_NUM_SOIL_TYPES"]}
{"id": "C53", "title": "Soil parameters come from the right line of the soil file", "statement": "The parameters of soil type i are those on the i-th data line of the soil file.", "quantifier": "every soil file", "why_tests_cant": "Depends on tokenisation of names.", "anchors": ["src/lgar.cxx:lgar_read_vG_param_file"]}
{"id": "C54", "title": "Initial state is uniform capillary head, one front per layer", "statement": "After Initialize there is exactly one front per layer, at the layer bottom, at the configured head, with the moisture given by the retention curve.", "quantifier": "every layering, soil table and initial head", "why_tests_cant": "Universal over layer counts.", "anchors": ["src/lgar.cxx:InitializeWettingFronts"]}
{"id": "C55", "title": "Free-drainage front", "statement": "The front from which ET/percolation demand is taken is the first one whose successor is in the same layer, otherwise the deepest; its number equals its layer number.", "quantifier": "every well-formed front list", "why_tests_cant": "Universal over lists; used as array index.", "anchors": ["src/lgar.cxx:wetting_front_free_drainage"]}
{"id": "C56", "title": "Moisture stays between residual and saturated", "statement": "After fronts are moved, every front whose moisture was recomputed has moisture within [theta_r, theta_e] of its layer.", "quantifier": "every state", "why_tests_cant": "Continuum.", "anchors": ["src/lgar.cxx:lgar_move_wetting_fronts", "src/lgar.cxx:lgar_theta_mass_balance"]}
{"id": "C57", "title": "The stand-alone driver applies forcing row i at step i", "statement": "The driver performs int(endtime/timestep) Updates, the i-th with the i-th forcing row, and refuses to run with too few rows.", "quantifier": "every forcing file and configuration", "why_tests_cant": "Universal over file lengths.", "anchors": ["src/bmi_main_lgar.cxx:main", "src/bmi_main_lgar.cxx:ReadForcingData"]}
{"id": "C58", "title": "Every allocated front is released exactly once", "statement": "Over Initialize, any number of Updates and Finalize, every allocated wetting front is freed exactly once (no leak, no double free).", "quantifier": "every history", "why_tests_cant": "All histories; leaks/double frees need a global accounting.", "anchors": ["src/linked_list.cxx:listCopy", "src/linked_list.cxx:listDelete", "src/bmi_lgar.cxx:BmiLGAR::Update", "src/bmi_lgar.cxx:BmiLGAR::Finalize"]}
{"id": "C59", "title": "Percolation correction of the mass-balance adjustment is non-negative", "statement": "The mass-balance adjustment that trims a saturated front terminates within its iteration limit and reports percolation equal to the residual it removed.", "quantifier": "every state", "why_tests_cant": "Loop over reals with an iteration cap.", "anchors": ["src/lgar.cxx:lgar_move_wetting_fronts"]}
{"id": "C60", "title": "Indexed BMI access", "statement": "GetValueAtIndices returns, and SetValueAtIndices changes, exactly the listed entries.", "quantifier": "every index list within range", "why_tests_cant": "Universal over index lists incl. duplicates.", "anchors": ["src/bmi_lgar.cxx:GetValueAtIndices", "src/bmi_lgar.cxx:SetValueAtIndices"]}
{"id": "C61", "title": "Exact surface water balance", "statement": "After Initialize and any Updates, cumulative precipitation equals cumulative infiltration plus cumulative runoff plus the water still ponded, exactly (no tolerance), and the ponded water is not negative.", "quantifier": "every configuration, every forcing, every number of Updates", "why_tests_cant": "A test compares sums for a few storms within a tolerance; the claim is an exact identity for every history.", "anchors": ["src/bmi_lgar.cxx:BmiLGAR::Update", "src/lgar.cxx:lgar_insert_water", "src/lgar.cxx:lgar_create_surficial_front"]}
{"id": "C62", "title": "Every Update takes exactly the water of its forcing interval", "statement": "The precipitation and PET booked by one Update equal the forcing rate times the length of the forcing interval; no part of the interval is dropped because the sub-timestep does not divide it.", "quantifier": "every configuration (also adaptive timesteps), every state reached, every forcing value", "why_tests_cant": "The shipped examples all use sub-timesteps that divide the forcing interval, so the loss never shows; only a statement over all pairs of timestep and interval finds the exact condition.", "anchors": ["src/bmi_lgar.cxx:BmiLGAR::Update"]}
{"id": "C63", "title": "No Update and no run loops forever", "statement": "Every Update finishes (returns or stops with an error), and so does every run of the stand-alone program: the two iterations without a bound on their number of passes, the trapezoid sum of calc_Geff with its adaptive step and the search in lgar_theta_mass_balance, always end.", "quantifier": "every configuration with physical soil parameters, every forcing, every state reached, both builds; real arithmetic", "why_tests_cant": "A test that terminates says nothing about the next input; the loops end by convergence, which depends on the values.", "anchors": ["src/soil_funcs.cxx:calc_Geff", "src/lgar.cxx:lgar_theta_mass_balance", "src/bmi_lgar.cxx:BmiLGAR::Update", "src/bmi_main_lgar.cxx:main"]}
{"id": "C64", "title": "The built-in mass-balance check never stops a run", "statement": "In every sub-timestep of every run the local water balance closes to within 1e-4 cm, so the check at the end of the sub-timestep never aborts the program.", "quantifier": "every configuration with physical soils, every forcing, every state reached", "why_tests_cant": "The check is itself a test at run time: it shows a loss of water only for the forcing that was run and then kills the run. That no input reaches it needs an argument over all states.", "anchors": ["src/bmi_lgar.cxx:BmiLGAR::Update", "src/lgar.cxx:lgar_move_wetting_fronts", "src/lgar.cxx:lgar_theta_mass_balance"]}
{"id": "C65", "title": "Fronts lie inside the column, in depth order, wetter above", "statement": "Between two Updates every wetting front lies below the surface and not below the bottom of the column, depths do not decrease going down the list, and within a layer each front is wetter than the one below it and, unless it is the deepest of its layer, moves down.", "quantifier": "every configuration with physical soils, every forcing, every state reached", "why_tests_cant": "The order is restored by a fixed number of merge and crossing passes; whether that number suffices depends on how many fronts are overtaken at once, which the shipped forcings rarely show.", "anchors": ["src/lgar.cxx:lgar_merge_wetting_fronts", "src/lgar.cxx:lgar_wetting_fronts_cross_layer_boundary", "src/lgar.cxx:lgar_create_surficial_front", "src/lgar.cxx:lgar_move_wetting_fronts"]}
{"id": "C66", "title": "Every array and structure of the object is released exactly once", "statement": "Over construction, any number of uses (Initialize, Updates, Finalize) and destruction of the BMI object, every block allocated with new is released exactly once: nothing leaks, nothing is released twice, no released or uninitialised pointer is used.", "quantifier": "every configuration file for which Initialize returns, any number of Updates and of uses, every allocator", "why_tests_cant": "Leaks and double deletes do not change any output; they depend on which keys occur how often in the configuration file and on the order of the calls of the framework.", "anchors": ["src/bmi_lgar.cxx:Initialize", "src/bmi_lgar.cxx:Finalize", "src/bmi_lgar.cxx:realloc_soil", "src/bmi_lgar.cxx:~BmiLGAR", "src/lgar.cxx:InitFromConfigFile", "src/lgar.cxx:lgar_initialize"]}
{"id": "C67", "title": "Pointers from GetValuePtr stay valid", "statement": "A pointer returned by GetValuePtr after Initialize keeps pointing to the live storage of that variable until Finalize, however often Update is called.", "quantifier": "every variable name, every configuration, any number of Updates, every allocator", "why_tests_cant": "Released memory usually still holds plausible values, and the allocator often returns the same address again, so a test reading through a stale pointer passes.", "anchors": ["src/bmi_lgar.cxx:GetValuePtr", "src/bmi_lgar.cxx:realloc_soil", "src/bmi_lgar.cxx:Update"]}
{"id": "C68", "title": "A front's head and conductivity belong to its moisture", "statement": "After every Update, each wetting front stores the capillary head and the hydraulic conductivity that the van Genuchten-Mualem curves of its layer's soil give for its stored moisture, the conductivity reduced once by the layer's frost factor.", "quantifier": "every configuration, every sequence of Updates with any inputs, every front in the list", "why_tests_cant": "The stored head and conductivity are internal; a stale conductivity changes front speeds by a factor but every balance check still passes, so output-level tests see a plausible simulation.", "anchors": ["src/lgar.cxx:lgar_move_wetting_fronts", "src/lgar.cxx:lgar_create_surficial_front", "src/lgar.cxx:lgar_merge_wetting_fronts", "src/lgar.cxx:lgar_dzdt_calc"]}
{"id": "C69", "title": "New fronts appear only at the onset of rain", "statement": "A sub-timestep adds at most one wetting front, and does so only if it rains, it did not rain in the sub-timestep before, nothing is ponded and the surface front is not saturated; under these conditions the front is added. An Update adds at most one front, and over any run the list never holds more fronts than layers plus the number of showers begun.", "quantifier": "every configuration, every sequence of Updates with any inputs", "why_tests_cant": "The bound is over runs of any length and all inputs; tests only see a few storms.", "anchors": ["src/bmi_lgar.cxx:BmiLGAR::Update", "src/lgar.cxx:lgar_create_surficial_front", "src/lgar.cxx:lgar_move_wetting_fronts"]}
{"id": "C70", "title": "The books close in rounded arithmetic", "statement": "In floating-point-like arithmetic (every operation correct up to a relative error eps, and a tiny absolute error near underflow), after any run the reported rain equals infiltration + runoff + ponded water up to 24 eps*M per sub-timestep and 3 eps*M per Update, and the global balance closes up to the tolerance of the per-step check plus 120 eps*M per sub-timestep and 8 eps*M per Update, where M bounds the volumes in the books.", "quantifier": "every configuration, every run of any length with any inputs, every arithmetic with relative error at most 2^-52", "why_tests_cant": "Rounding errors accumulate over runs of any length; a test shows the error of one run on one machine, not a bound for all.", "anchors": ["src/bmi_lgar.cxx:BmiLGAR::Update", "src/lgar.cxx:lgar_insert_water", "src/lgar.cxx:lgar_calc_mass_bal"]}
{"id": "C71", "title": "The storage sum is accurate in rounded arithmetic", "statement": "The storage that lgar_calc_mass_bal computes in rounded arithmetic differs from the exact water content of the stored fronts by at most 2 n (n+4) (eps D + tiny) for n fronts no further than D from the top of their layers.", "quantifier": "every list of up to 2^20 fronts with moistures in [0,1], every layer geometry", "why_tests_cant": "The worst case over all lists and values cannot be sampled.", "anchors": ["src/lgar.cxx:lgar_calc_mass_bal"]}
{"id": "C72", "title": "The number of sub-timesteps survives rounding", "statement": "If the forcing interval is exactly n sub-timesteps (in whatever units they are configured), the number of sub-timesteps computed in rounded arithmetic from the converted times is n, in Initialize and in every Update with the configured sub-timestep; with the doubled sub-timestep it is n/2 rounded down (at least 1) and with the whole interval it is 1.", "quantifier": "every pair of times with units s, min or h, every n up to 100000, every run", "why_tests_cant": "Truncation fails only for particular pairs of times (for example 300 s and 3 s), one in many; without the added 1e-8 tests with common values pass.", "anchors": ["src/bmi_lgar.cxx:BmiLGAR::Update", "src/lgar.cxx:InitFromConfigFile"]}
{"id": "C73", "title": "The clock does not drift in rounded arithmetic", "statement": "With a fixed sub-timestep of D hours the clock after N sub-timesteps shows N*D hours up to a relative error of (N+40)/2^52; after k Updates of a coupled run it shows k forcing intervals with the same accuracy.", "quantifier": "every configuration with a fixed sub-timestep, every run with up to 2^40 sub-timesteps", "why_tests_cant": "Drift shows only in very long runs and depends on the values of the times.", "anchors": ["src/bmi_lgar.cxx:BmiLGAR::Update"]}
{"id": "C74", "title": "Routing conserves water in rounded arithmetic", "statement": "After any run in rounded arithmetic the outflow of the GIUH plus what is queued equals the runoff times the sum of the stored ordinates, up to six rounding errors per ordinate and Update and 1+|sum| per Update.", "quantifier": "every configuration, every run of any length, every list of ordinates", "why_tests_cant": "Errors add up over arbitrarily long runs and queues.", "anchors": ["giuh/giuh.c:giuh_convolution_integral", "src/bmi_lgar.cxx:BmiLGAR::Update"]}
{"id": "C75", "title": "Cutting the forcing interval changes nothing", "statement": "With a fixed sub-timestep, one Update over a forcing interval and k Updates over intervals k times shorter with the same rates end with the same fronts, heads, conductivities, ponded water, clock and (exactly) the same totals of every flux; two configurations that differ only in forcing_resolution start alike. With adaptive_timestep this is false.", "quantifier": "every arithmetic in which fmax(fmax(y,0),0)=fmax(y,0), every start state, every list of inputs of any length, every k, stand-alone or not; both directions (if either run gets through so does the other)", "why_tests_cant": "A relation between two whole runs of unbounded length with different call patterns; a test compares a few.", "anchors": ["src/bmi_lgar.cxx:BmiLGAR::Update", "src/lgar.cxx:lgar_initialize"]}
{"id": "C76", "title": "A column without forcing stays at rest", "statement": "From Initialize, any number of Updates without rain and without evaporative demand all return; depth, moisture, head, layer, number, flag and speed of every front stay what they were, the storage stays the initial storage, and nothing infiltrates, runs off, evaporates, percolates, ponds or is routed.", "quantifier": "every configuration file with physical soils, positive layer thicknesses and initial head >= 0, every number of layers, any number of Updates with any soil temperatures, stand-alone or not, with or without calibration by the values in use", "why_tests_cant": "It says that an unbounded run is a fixed point of every pass of the model, for all soils and layer counts.", "anchors": ["src/bmi_lgar.cxx:BmiLGAR::Update", "src/lgar.cxx:lgar_move_wetting_fronts", "src/lgar.cxx:lgar_dzdt_calc", "src/lgar.cxx:InitializeWettingFronts"]}
{"id": "C77", "title": "Results do not depend on uninitialised memory", "statement": "Let the soil file give every soil type named by layer_soil_type in a complete line with van Genuchten n > 1. Then Initialize followed by any sequence of Updates behaves the same whatever the memory held that the program does not initialise (arrays from new, locals before sscanf, members of the mass-balance structures): either both executions end with the same error, or both return and after the first Update with at least one sub-timestep the wetting fronts, parameters, clock, routing queue, all BMI outputs and all entries of the books, except the never-read ground-water total, are equal. Without completeness or n > 1 the results do depend on that memory.", "quantifier": "all configuration files and soil files, all values of uninitialised memory, all sequences of inputs, all numeric types", "why_tests_cant": "A test run sees one content of memory, usually zeros; the claim compares all possible contents over runs of any length.", "anchors": ["src/lgar.cxx:2277-2356", "src/lgar.cxx:73-139", "src/bmi_lgar.cxx:78-561"]}
{"id": "C78", "title": "Soil numbers are only names", "statement": "If two configurations differ only in the soil file and in the soil numbers, such that for every layer the line with its number is the same complete line in both files (other lines, their order and max_valid_soil_types may differ), then after Initialize any sequence of Updates ends with the same error in both, or returns in both with the same wetting fronts, clock, calibration values, routing queue, BMI outputs and books. With calibration switched on this needs that two layers share a number in one configuration exactly when they do in the other; otherwise it is false.", "quantifier": "all configurations, soil files and renumberings, all sequences of inputs, all numeric types", "why_tests_cant": "It is a relation between two runs for every possible file and renumbering and runs of any length; tests compare a few pairs.", "anchors": ["src/lgar.cxx:2277-2356", "src/lgar.cxx:538-723", "src/bmi_lgar.cxx:582-660", "src/bmi_lgar.cxx:78-561"]}
{"id": "C79", "title": "More rain never means less infiltration or less runoff", "statement": "For a given column and a given state of the surface, raising the rain of a sub-timestep raises infiltration, runoff and water left on the surface or leaves them as they are, and together they gain exactly the additional rain. More standing water never lowers the infiltration capacity or the infiltrated volume.", "quantifier": "all columns, all sub-timestep states with non-negative surface water, all pairs of positive rain rates, all maxima >= 0", "why_tests_cant": "Tests run a few forcing series; monotonicity compares every pair of rain rates from every state, and the code breaks it on one rate only (an exact coincidence), which no sampled pair hits.", "anchors": ["src/lgar.cxx:1941-2092 (lgar_insert_water)", "src/lgar.cxx:2098-2171 (lgar_create_surficial_front)", "src/bmi_lgar.cxx:292-400"]}
{"id": "C80", "title": "Freezing never lets water in faster", "statement": "With smaller frozen-soil factors the same column under the same water has no larger infiltration capacity, infiltrates no more and sheds no less, gets no deeper new front and no larger front speeds; the capillary drive does not depend on the factor. Freezing the layer that holds the infiltrating front lowers its capacity.", "quantifier": "all physical soils, columns, front lists, pairs of factor lists with 0 < cold <= warm, closed-form and numerical drive", "why_tests_cant": "A test compares a handful of temperature profiles; the statement is about every pair of factor lists and every column, and the layer whose factor is ignored only shows when the factors of two layers differ.", "anchors": ["src/lgar.cxx:1941-2042", "src/lgar.cxx:2180-2229", "src/lgar.cxx:2362-2506", "src/soil_funcs.cxx:34-140"]}
{"id": "C81", "title": "Every soil gets the numbers written on its line of the soil file", "statement": "Read from the text of the soil parameter file, soil type i gets the five numbers at the end of line i after the header, for every text whose lines are a name followed by five decimal numerals, and in particular for the file shipped with the code.", "quantifier": "all file texts, all roundings of decimal numerals, all configurations that initialise", "why_tests_cant": "A wrong soil is a plausible soil: the run succeeds and the water balance closes. Tests use one or two soil types and never compare all entries of the table with the text of the file.", "anchors": ["src/lgar.cxx:2277-2356", "data/vG_default_params.dat:1-19", "configs/config_lasam_Bushland.txt:1-16"]}
{"id": "C82", "title": "The output table of the stand-alone program closes", "statement": "After every row of data_variables.csv, the sums of the columns written so far close: initial storage + rain - runoff - actual ET - percolation - last storage - ponded water + calibration change is zero up to 1e-4 cm per sub-timestep; rain is exactly infiltration + runoff + ponded water; routed runoff plus what is still in the queue is runoff times the sum of the ordinates; discharge is routed runoff.", "quantifier": "all configurations, forcing files and numbers of rows for which the program runs", "why_tests_cant": "The table is what users see, but the balance is printed from internal accumulators that the table does not contain. A column written with the wrong variable, unit or step keeps the printed balance at zero; tests compare single columns with recorded numbers.", "anchors": ["src/bmi_main_lgar.cxx:32-179", "src/bmi_lgar.cxx:90-489"]}
{"id": "C83", "title": "The mass balance that the BMI reports is the water lost by the Update", "statement": "The output mass_balance (m) after an Update is initial storage + rain + ponded water before - final storage - ponded water after - runoff - actual ET - percolation of that Update, plus the calibration change.", "quantifier": "all configurations, runs, inputs and numbers of sub-timesteps", "why_tests_cant": "Each sub-timestep is checked against 1e-4 cm, so the value is close to 0 in every test; whether it covers all the sub-timesteps or only the last one cannot be seen from a value that is close to 0.", "anchors": ["src/bmi_lgar.cxx:449-478", "src/bmi_lgar.cxx:549"]}
{"id": "C84", "title": "The output files can be read back", "statement": "data_variables.csv is a table: the column names, then one line per step with the time of the forcing row and the eleven outputs to 15 decimals. data_layers.csv has two lines per step, from which the number and time of the step and all wetting fronts are read: depth and head in mm and moisture to 6 decimals, layer, front number 1, 2, 3, ... The columns read from the text close the water balance.", "quantifier": "all configurations, forcing files and numbers of rows for which the program runs", "why_tests_cant": "The files are text; a separator in a time, a missing comma, or a column that moves when a value is negative or large only shows for particular values. Tests compare one recorded file.", "anchors": ["src/bmi_main_lgar.cxx:95-162", "src/bmi_main_lgar.cxx:265-280"]}
{"id": "C85", "title": "The infiltration capacity is that of Green and Ampt", "statement": "The rate at which the soil can take in water is the Green-Ampt rate of the layered soil above the infiltrating front: unit gradient through every layer with its own thickness and conductivity (frost included), plus suction and ponded head acting on the soil at the front; it lies between the smallest and largest conductivity plus that term, and in homogeneous soil layer boundaries play no part.", "quantifier": "every column, every front position, every suction and ponded head", "why_tests_cant": "Layer combinations, front positions and frost factors form a continuum; a test compares single numbers.", "anchors": ["src/lgar.cxx:1961-2031"]}
{"id": "C86", "title": "A saturated column takes in what ET removes", "statement": "While the column is saturated, rain can infiltrate up to the ET demand of the step, as the comment at lgar.cxx 2031 says; otherwise nothing infiltrates.", "quantifier": "every saturated column, every rain and ET demand", "why_tests_cant": "Saturation of the whole column and simultaneous rain and ET are rare in test data, and the effect is hidden by the later limit.", "anchors": ["src/lgar.cxx:2021-2042"]}
{"id": "C87", "title": "Rounding does not loosen the column structure", "statement": "The structure of the column (a deepest front exactly at the depth of the column, a front exactly at the bottom of every layer, flagged fronts exactly at the bottom of their layer) is independent of rounding: it holds bit for bit in floating-point arithmetic, not only up to an error.", "quantifier": "every arithmetic whose comparisons obey three laws that IEEE 754 satisfies (NaN and infinities included), every configuration with layers of positive thickness, every run", "why_tests_cant": "A drift by one unit in the last place after thousands of steps in one configuration is invisible in tests but breaks the exact comparisons of depths in the code.", "anchors": ["src/lgar.cxx:1153-1360", "src/lgar.cxx:1580-1700", "src/bmi_lgar.cxx:85-420"]}
{"id": "C88", "title": "Moisture range in double precision", "statement": "In an arithmetic that rounds every operation correctly, with soils like those of the shipped tables, after Initialize and any number of Updates with any inputs every front's moisture is at least the residual moisture of its layer and at most the saturated moisture plus three rounding errors, and its capillary head is not negative. The excess over saturation does occur: theta at head 0 is computed as (theta_e - theta_r) + theta_r, which is not theta_e for some shipped soils, so a saturated layer can be above or below theta_e by a unit in the last place and exact comparisons with theta_e miss it.", "quantifier": "All correctly rounded arithmetics, soil parameters meeting a condition on the parameters alone, configurations, inputs and numbers of time steps.", "why_tests_cant": "Rounding errors depend on every number that occurs; a run shows the range for its own numbers only.", "anchors": ["src/soil_funcs.cxx:147-152", "src/soil_funcs.cxx:180-183", "src/lgar.cxx:2030", "src/lgar.cxx:2642", "data/vG_default_params_HYDRUS.dat"]}
{"id": "C89", "title": "The moisture solver finds the moisture that closes the water balance", "statement": "lgar_theta_mass_balance searches the capillary head at which the soil slabs above the front hold the prescribed water. When such a head exists, it returns the moisture of a head at which every slab is within 1e-12 cm of the exact solution and leaves the ET demand alone, or, when it gives up, books the water that is missing or too much.", "quantifier": "All soils, numbers of layers, thicknesses, start heads, prescribed water, ET demands.", "why_tests_cant": "The search has six ways to end and a step size that depends on the start; tests see the usual one.", "anchors": ["src/lgar.cxx:2513-2654"]}
{"id": "C90", "title": "Signs and bounds of the surface fluxes survive rounding", "statement": "In double precision, as in exact arithmetic, no Update reports negative rain, PET, runoff, routed runoff, discharge or ponded water, the routing queue has no negative entry, the totals of these quantities never decrease, the ponded water of a subcycle is between 0 and the maximum, and with the default maximum 0 it is exactly 0; the ET demand is between 0 and PET.", "quantifier": "All configurations, soil files, forcings, soil temperatures, calibrations, runs of any length, and every arithmetic that rounds correctly and monotonically.", "why_tests_cant": "A sign can be lost by one rounding in one subcycle of a long run; a test sees the roundings of its own numbers only.", "anchors": ["src/bmi_lgar.cxx:224-559", "src/lgar.cxx:1941-2092", "src/lgar.cxx:2098-2171", "giuh/giuh.c:12-39", "src/aet.cxx:17-74"]}
{"id": "C91", "title": "Storage lies between that of a residually dry and that of a saturated column", "statement": "The water stored in the column (lgar_calc_mass_bal) is never below the storage of the same layers at residual moisture and never above their storage at saturation: sum of theta_r_k * thickness_k <= storage <= sum of theta_e_k * thickness_k. With the mass balance, the water a run loses to evapotranspiration, percolation and runoff beyond what it got is at most the difference of the initial storage and the residual storage.", "quantifier": "for all stacked profiles with fronts in depth order and moisture between residual and saturated; for all runs (any configuration with calibration off, any inputs) whose end state is of that kind; for all runs over one layer", "why_tests_cant": "tests check stored water of a few profiles against recorded numbers; the two bounds must hold for every layering, every list of fronts and every sequence of storms and droughts", "anchors": ["src/lgar.cxx:2235-2270 (lgar_calc_mass_bal)", "src/bmi_lgar.cxx:79-560 (Update)"]}
{"id": "C92", "title": "Routing and bookkeeping do not feed back on the soil", "statement": "An Update reads of its past only the wetting fronts, soils, parameters and clock, the inputs and the water left on the surface. The GIUH queue and ordinates, all mass-balance totals, the outputs and the copy of the previous fronts have no influence on the fronts, the clock, the water on the surface, infiltration, evapotranspiration, percolation and runoff of this or any later Update. So a run can be resumed from a checkpoint without the books, and two configurations that differ only in giuh_ordinates give the same soil water.", "quantifier": "for all arithmetics (also double precision), all pairs of objects that agree in the named fields, all input sequences, all configurations, with equal errors if one fails", "why_tests_cant": "a test compares one run with one recorded result; independence compares every pair of runs that differ in the bookkeeping, including runs that fail", "anchors": ["src/bmi_lgar.cxx:79-560 (Update)", "src/bmi_lgar.cxx:486-560 (routing and totals)", "giuh/giuh.c (giuh_convolution_integral)"]}
{"id": "C93", "title": "The allocation helpers give zeroed arrays that can be numbered from 0 or from 1", "statement": "d_alloc, i_alloc and f_alloc of size n >= 0 give an array in which exactly the elements 0..n can be read, all zero; itwo_alloc and dtwo_alloc of rows, cols > 0 give a table in which exactly the elements (0..rows, 0..cols) can be read, all zero. A refused request never leaves a wild pointer: the array, or the rows from the refused one on, are NULL. Zero rows or columns stop the program.", "quantifier": "for all sizes of a 32-bit int below its maximum, all element widths up to 8 bytes, all answers of the allocator to each request, all indices", "why_tests_cant": "allocation failures do not occur in tests, and a test reads some elements of some sizes", "anchors": ["src/mem_funcs.cxx:26-142"]}
{"id": "C94", "title": "Merging, layer crossing and leaving the column happen exactly where fronts call for it", "statement": "A merging pass changes the list exactly if some front has overtaken the next one of its layer (not a layer-bottom front); it only removes fronts, keeps the layers, moisture values, speeds and marks of the rest in order, and puts each merged front between two fronts its layer had before, still wetter above. A layer-crossing pass changes the list exactly if some front lies below the bottom of its layer with the bottom front next. The bottom pass removes a front exactly if the last front above the bottom one has reached the bottom of the column, and otherwise reports no flux.", "quantifier": "for all front lists with consecutive numbers (no bound on layers or fronts), any geometry and soils; the merging results for every arithmetic", "why_tests_cant": "a test sees the passes on the lists of a few storms; that no overtaken pair at any position of any list is missed needs induction over the loop, whose bound and list change together", "anchors": ["src/lgar.cxx:1553-1631", "src/lgar.cxx:1641-1729", "src/lgar.cxx:1738-1813"]}
{"id": "C95", "title": "The speed of a wetting front is that of the LGAR equation", "statement": "A moving front of the first or second layer at depth z whose moisture is above that of the soil below advances with speed (K + Ks*f*(G + h)/z)/(theta - theta_below), limited to (0, 1e4] cm/h, where f is the frozen factor, G the capillary drive over the two moistures, h the ponded depth, and K the conductivity of the wetted soil - in the second layer that of the two layers in series. So of two such fronts in the first layer the deeper is never faster, more ponded water never slows a front of the first layer, and a front as wet as the soil below creeps with 1e-9 cm/h.", "quantifier": "for all geometries and soils, front lists, positions in the list, depths, heads and ponded depths", "why_tests_cant": "tests compare fluxes of whole storms; the formula and the order of speeds must hold at each position of each list for every soil", "anchors": ["src/lgar.cxx:2362-2506 (lgar_dzdt_calc)"]}
{"id": "C96", "title": "Writing to an output variable does not act on the model", "statement": "SetValue and SetValueAtIndices of an output variable change only what is reported until the next Update: leaving such writes out of any sequence of calls changes neither the success of the calls nor the model.", "quantifier": "all output variables, all data and indices, all sequences of SetValue, SetValueAtIndices and Update, any arithmetic", "why_tests_cant": "quantifies over all interleavings of writes and Updates and all written values; the harmful writes act only with calibration or through the layout of an array", "anchors": ["src/bmi_lgar.cxx:493-561", "src/bmi_lgar.cxx:582-660", "src/bmi_lgar.cxx:891-1013"]}
{"id": "C97", "title": "Initialisation stays inside its arrays", "statement": "Initialize, from reading the configuration and the soil file to the first wetting fronts, never reads or writes outside its arrays, never dereferences NULL and never reads a variable that was not set, whatever the two files contain.", "quantifier": "every configuration file, every soil parameter file, every arithmetic", "why_tests_cant": "The input is arbitrary text; overruns of a few bytes usually go unnoticed.", "anchors": ["src/lgar.cxx:InitFromConfigFile", "src/lgar.cxx:lgar_read_vG_param_file", "src/lgar.cxx:InitializeWettingFronts", "src/bmi_lgar.cxx:BmiLGAR::Initialize"]}
{"id": "C98", "title": "Counters and indices fit their type", "statement": "The int variables of the model (number of layers, fronts, soil types, sub-timesteps per Update and in total, GIUH ordinates, soil types of the layers, numbers of the fronts) never leave the range of a 32-bit int.", "quantifier": "every configuration and soil file, every sequence of Updates", "why_tests_cant": "An overflow needs extreme settings or very long runs.", "anchors": ["src/lgar.cxx:InitFromConfigFile", "src/bmi_lgar.cxx:BmiLGAR::Update"]}
{"id": "C99", "title": "Recharge comes with wetting fronts that leave", "statement": "Water leaves at the bottom only when a wetting front leaves the column; over any run there are at most as many Updates with recharge as Updates that began a shower, plus the number of layer boundaries (none of these in tie-free runs).", "quantifier": "every configuration, every sequence of Updates and inputs", "why_tests_cant": "A bound that relates events of whole runs of any length.", "anchors": ["src/lgar.cxx:lgar_move_wetting_fronts", "src/lgar.cxx:lgar_wetting_front_cross_domain_boundary", "src/bmi_lgar.cxx:BmiLGAR::Update"]}
{"id": "C100", "title": "The clock does not act on the model", "statement": "What an Update does to the soil, the books and the outputs depends neither on the time, nor on the number of sub-timesteps made, nor (before it is reached) on the end time: embedded, objects that differ only in these stay so; stand-alone, Updates that end before the end time are those of the embedded model, and shifting the time and the end time together shifts only the clock.", "quantifier": "all states, all sequences of inputs, all clocks and end times, any arithmetic (the shift: exact arithmetic)", "why_tests_cant": "Compares runs for all pairs of clocks; a test fixes one.", "anchors": ["src/bmi_lgar.cxx:78-561", "src/bmi_lgar.cxx:480-487"]}
{"id": "C101", "title": "Calibrating with the values that are there changes nothing", "statement": "If calibration is on, the soil types of the layers are lines read from the soil file, and the calibration arrays hold at the first Update what initialisation put there, then that Update and all later ones give the same object, field by field, as with calibration off; in particular no storage is booked as volcalib.", "quantifier": "all configurations, soil files and histories, whether or not an Update fails; exact arithmetic, or any in which x - x = 0", "why_tests_cant": "Equality of two complete runs for all configurations and forcings.", "anchors": ["src/bmi_lgar.cxx:121-130", "src/bmi_lgar.cxx:576-660", "src/lgar.cxx:90-120"]}
{"id": "C102", "title": "Conductivity and capillary drive are those of the theories named", "statement": "For the retention curve that the code itself computes, the conductivity it computes is Mualem's: Ksat * sqrt(Se) * (F(Se)/F(1))^2 with F the integral of 1/h from 0 to Se. The closed-form capillary drive between two moistures is the integral of the Brooks-Corey conductivity between their heads, as a share of the integral up to saturation, times psib (2+3 lambda)/(1+3 lambda).", "quantifier": "all soils with n > 1, m = 1 - 1/n and positive parameters, all saturations in [0,1]; all Brooks-Corey parameters > 0 and heads above the bubbling pressure; real arithmetic", "why_tests_cant": "Relates two formulas of the code through an improper integral for all parameters.", "anchors": ["src/soil_funcs.cxx:117-135", "src/soil_funcs.cxx:144-175"]}
{"id": "C103", "title": "Recession: dry weather brings nothing in and discharge ends with the unit hydrograph", "statement": "Once the surface is dry and no rain is given any more, no later Update infiltrates or sheds water and the surface stays dry; from as many Updates later as the unit hydrograph has ordinates, routed runoff and discharge are exactly zero. One such Update leaves the accumulated precipitation, infiltration and runoff as they were.", "quantifier": "all configurations, all runs, all times from which it is dry, whatever rain came before, whatever evapotranspiration is asked for, as long as no ponding maximum in use is negative; exact arithmetic", "why_tests_cant": "Quantifies over all histories before the dry spell and all lengths of it.", "anchors": ["src/bmi_lgar.cxx:292-303", "src/bmi_lgar.cxx:369-420", "src/bmi_lgar.cxx:492-497", "giuh/giuh.c:25-35"]}
{"id": "C104", "title": "A boundary between layers of the same soil is invisible to storage, speed, capacity and crossing", "statement": "Drawing a layer boundary inside a layer, with a boundary front of the moisture found there, does not change the water the storage formula counts. Where all layers down to a front conduct alike at its head, the front moves by the formula of a single layer, and the potential infiltration rate is that of a single layer. A front that crosses into a layer of the same soil over uniform soil keeps its depth, moisture and speed, and leaves a boundary front of its own moisture; the crossing returns. A front of layer 2 or deeper moves as one of the first layer would, up to the tolerance of the search for its moisture.", "quantifier": "all columns, boundaries and lists of fronts (storage, any ordered field); all fronts and geometries whose layers conduct alike (speed, capacity); all physical soils and all fronts past the boundary (crossing, real numbers)", "why_tests_cant": "Relates every column to its refinement by one more boundary.", "anchors": ["src/lgar.cxx:1641-1729", "src/lgar.cxx:2235-2271", "src/lgar.cxx:2362-2506", "src/lgar.cxx:1961-2031"]}
{"id": "C105", "title": "A moving front carries its water along", "statement": "When a front moves, the water it holds above the moisture of the soil below stays the same while the depth grows: in the first layer the new moisture times the new depth gives the old water (plus rain less ET for the free-drainage front), limited only by saturation; in layer 2 and deeper, and for the deepest front of a column with one front per layer, the front and all layers above it get the moistures of one common head at which the stack holds that water, to 1e-12 cm.", "quantifier": "all fronts, soils, depths, speeds, rain and ET (first layer: any ordered field); all layered columns of physical soils, any number of layers, all heads (deeper: real numbers), all sufficiently large fuel", "why_tests_cant": "Quantifies over real-valued moistures, any number of layers and an iterative search.", "anchors": ["src/lgar.cxx:1087-1170", "src/lgar.cxx:1190-1223", "src/lgar.cxx:1245-1310", "src/lgar.cxx:2513-2654"]}
{"id": "C106", "title": "A dry spell dries a column with one front per layer as a whole", "statement": "From a state with one front per layer at one head (as Initialize leaves it), Updates without rain and with any potential ET all return, the mass-balance check included. The fronts stay at the bottoms of their layers with speed 0 and share one head; the storage is the storage at the start less the booked ET, to 1e-12 cm per sub-timestep; the ET lies between 0 and the booked potential ET, which is at most the potential ET of the forcing; nothing infiltrates, runs off, percolates, is routed or ponds. The heads must stay in a range in which the water content changes steadily with the head.", "quantifier": "all numbers of layers and of Updates, all physical soils, all potential ET >= 0 that fit the range, all soil temperatures, with or without calibration by the values in use, adaptive time step on or off, forcing interval a multiple of the time step, real numbers, all sufficiently large fuel", "why_tests_cant": "Quantifies over runs of any length, any number of layers, all ET series and real-valued soil parameters; the search for the moisture is iterative.", "anchors": ["src/bmi_lgar.cxx:78-561", "src/lgar.cxx:992-1360", "src/lgar.cxx:2513-2654", "src/aet.cxx:27-113"]}
{"id": "C107", "title": "Several models in one process do not disturb each other", "statement": "When several BMI objects (one per catchment) live in one process and share its memory, then for every interleaving of their Initialize, Update and Finalize calls: the two front lists of each object hold exactly what its own calls say, a call on one object leaves pointers, nodes and contents of every other object unchanged, no node belongs to two objects, no released node is ever used whichever object released it, and if every object is finalized before it is initialized again and at the end, every allocation of the process is released exactly once. Initialize on an object that was not finalized loses its nodes for good.", "quantifier": "all allocators that return unused addresses, all numbers of objects, all interleavings of calls, all list operations", "why_tests_cant": "Tests run one object at a time or a few in a fixed order; interference between objects would depend on the order of the calls and on which released addresses the allocator hands out again.", "anchors": ["src/bmi_lgar.cxx:18", "src/bmi_lgar.cxx:32-40", "src/bmi_lgar.cxx:221-225", "src/bmi_lgar.cxx:351-355", "src/bmi_lgar.cxx:662-667", "src/linked_list.cxx:36-331", "include/all.hxx:203-215"]}
{"id": "C108", "title": "The mass correction closes the balance before its limit", "statement": "When a saturated front lies above a drier one, the loop at the end of the movement that adjusts its depth until the column holds the wanted water ends within 2e-10 cm of it, books neither ET nor percolation, and changes nothing but the depth of that front, as long as no more than 49 cm are missing and no more than 0.04 cm are too much. With more than 10.1 cm too much it always fails.", "quantifier": "every column, every front position, every target within the bounds; all 10000 rounds", "why_tests_cant": "The number of rounds depends on the moisture step and the amount missing; the step factor changes with every change of direction and once after 1000 rounds.", "anchors": ["src/lgar.cxx:1340-1415 (lgar_move_wetting_fronts)"]}
{"id": "C109", "title": "Water does not leave the soil through the surface", "statement": "The infiltration of a step is not negative as long as the column holds no more water than the saturated one; otherwise it is at least the (negative) free space.", "quantifier": "every infiltration step of every layered column with a physical front; every Update of every run of a column of one layer", "why_tests_cant": "It takes a column filled beyond saturation, which only particular rain histories and the mass correction produce.", "anchors": ["src/lgar.cxx:1941-2092 (lgar_insert_water)", "src/bmi_lgar.cxx:369-420 (Update)"]}
