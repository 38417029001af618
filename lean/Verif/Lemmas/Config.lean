import Verif.Lemmas.Init
/-
Lemmas about reading the configuration file: each key has its own field, and the lines of other keys do not touch it.
-/
set_option linter.unusedSectionVars false
namespace LGAR

/-- Type of the field of a key. -/
def Key.Val (α : Type) : Key → Type
  | .thick => Option (List α)
  | .soilType => Option (List Int)
  | .giuh => Option (List α)
  | .soilZ => Option (List α)
  | .initialPsi => Option α
  | .numTypes => Option Int
  | .soilFile => Option (List Char)
  | .wp => Option α
  | .fc => Option α
  | .closed => Bool
  | .adaptive => Bool
  | .timestep => Option α
  | .endtime => Option α
  | .forcingRes => Option α
  | .sft => Bool
  | .pondMax => Option α
  | .calib => Bool

/-- Field of a key. -/
def Cfg.get {α : Type} (c : Cfg α) : (k : Key) → k.Val α
  | .thick => c.thick
  | .soilType => c.soilType
  | .giuh => c.giuh
  | .soilZ => c.soilZ
  | .initialPsi => c.initialPsi
  | .numTypes => c.numTypes
  | .soilFile => c.soilFile
  | .wp => c.wp
  | .fc => c.fc
  | .closed => c.closed
  | .adaptive => c.adaptive
  | .timestep => c.timestep
  | .endtime => c.endtime
  | .forcingRes => c.forcingRes
  | .sft => c.sft
  | .pondMax => c.pondMax
  | .calib => c.calib

theorem Cfg.ext_get {α : Type} {c d : Cfg α} (h : ∀ k, c.get k = d.get k) : c = d := by
  have h1 := h .thick; have h2 := h .soilType; have h3 := h .giuh; have h4 := h .soilZ; have h5 := h .initialPsi
  have h6 := h .numTypes; have h7 := h .soilFile; have h8 := h .wp; have h9 := h .fc; have h10 := h .closed
  have h11 := h .adaptive; have h12 := h .timestep; have h13 := h .endtime; have h14 := h .forcingRes; have h15 := h .sft
  have h16 := h .pondMax; have h17 := h .calib
  simp only [Cfg.get] at *
  cases c; cases d
  simp only [Cfg.mk.injEq]
  exact ⟨h1, h2, h3, h4, h5, h6, h7, h8, h9, h10, h11, h12, h13, h14, h15, h16, h17⟩

variable {α : Type} [Add α] [Sub α] [Mul α] [Div α] [Neg α] [Zero α] [One α] [OfScientific α]
  [LT α] [LE α] [DecidableLT α] [DecidableLE α] [BEq α] [CMath α]

/-- A value read by `stod`. -/
def optD (env : Env α) (v : List Char) : Res (Option α) := (cstod env v).map some

/-- A time that has to be positive. -/
def optTime (env : Env α) (v : List Char) (f : α → α) (w : String) : Res (Option α) := do
  let x ← cstod env v
  cassert (0 < f x) w
  .ok (some (f x))

/-- New value of the endtime field. -/
def endtimeVal (env : Env α) (v u : List Char) (old : Option α) : Res (Option α) :=
  (setEndtime env { endtime := old } v u).map fun c => c.endtime

/-- New value of a field from the texts of a line with its key. -/
def parseKey (env : Env α) (v u : List Char) : (k : Key) → k.Val α → Res (k.Val α)
  | .thick, _ => (readVector env v).map some
  | .soilType, _ => (readVector env v).map fun x => some (x.map CMath.toInt)
  | .giuh, _ => (readVector env v).map some
  | .soilZ, _ => (readVector env v).map some
  | .initialPsi, _ => optD env v
  | .numTypes, _ => (setNumTypes env {} v).map fun c => c.numTypes
  | .soilFile, _ => .ok (some v)
  | .wp, _ => optD env v
  | .fc, _ => optD env v
  | .closed, _ => parseBool v
  | .adaptive, _ => parseBool01 v
  | .timestep, _ => optTime env v (toHours u) "timestep_h > 0"
  | .endtime, old => endtimeVal env v u old
  | .forcingRes, _ => optTime env v (toHours u) "forcing_resolution_h > 0"
  | .sft, _ => parseBool v
  | .pondMax, _ => (cstod env v).map fun x => some (CMath.fmax x 0)
  | .calib, _ => parseBool v

/-- Set the field of a key. -/
def Cfg.put {α : Type} (c : Cfg α) : (k : Key) → k.Val α → Cfg α
  | .thick, x => { c with thick := x }
  | .soilType, x => { c with soilType := x }
  | .giuh, x => { c with giuh := x }
  | .soilZ, x => { c with soilZ := x }
  | .initialPsi, x => { c with initialPsi := x }
  | .numTypes, x => { c with numTypes := x }
  | .soilFile, x => { c with soilFile := x }
  | .wp, x => { c with wp := x }
  | .fc, x => { c with fc := x }
  | .closed, x => { c with closed := x }
  | .adaptive, x => { c with adaptive := x }
  | .timestep, x => { c with timestep := x }
  | .endtime, x => { c with endtime := x }
  | .forcingRes, x => { c with forcingRes := x }
  | .sft, x => { c with sft := x }
  | .pondMax, x => { c with pondMax := x }
  | .calib, x => { c with calib := x }

theorem Cfg.get_put {α : Type} (c : Cfg α) (k : Key) (x : k.Val α) : (c.put k x).get k = x := by cases k <;> rfl

theorem Cfg.get_put_ne {α : Type} (c : Cfg α) (k j : Key) (x : k.Val α) (h : j ≠ k) : (c.put k x).get j = c.get j := by
  cases k <;> first | (cases j <;> first | rfl | exact absurd rfl h)

theorem setEndtime_eq (env : Env α) (c : Cfg α) (v u : List Char) :
    setEndtime env c v u = (endtimeVal env v u c.endtime).map fun x => { c with endtime := x } := by
  unfold endtimeVal setEndtime
  split
  · cases cstod env v with
    | error e => rfl
    | ok x =>
      simp only [ok_bind]
      cases toSeconds u x with
      | none => rfl
      | some t => by_cases ht : (0 : α) < t <;> simp only [cassert, ht, if_true, if_false] <;> rfl
  · cases c with
    | mk _ _ _ _ _ _ _ _ _ _ _ _ e _ _ _ _ =>
      cases e with
      | none => rfl
      | some t => dsimp only; unfold cassert; split <;> rfl

theorem applyKey_eq (env : Env α) (c : Cfg α) (v u : List Char) (k : Key) :
    applyKey env c v u k = (parseKey env v u k (c.get k)).map (c.put k) := by
  cases k
  case endtime => exact setEndtime_eq env c v u
  all_goals simp only [applyKey, parseKey, optD, optTime]
  case soilFile => rfl
  case numTypes => unfold setNumTypes; cases env.stoi v <;> rfl
  case closed => cases parseBool v <;> rfl
  case adaptive => cases parseBool01 v <;> rfl
  case sft => cases parseBool v <;> rfl
  case calib => cases parseBool v <;> rfl
  case timestep =>
    cases cstod env v with
    | error e => rfl
    | ok x => simp only [ok_bind]; unfold cassert; split <;> rfl
  case forcingRes =>
    cases cstod env v with
    | error e => rfl
    | ok x => simp only [ok_bind]; unfold cassert; split <;> rfl
  case initialPsi => cases cstod env v <;> rfl
  case wp => cases cstod env v <;> rfl
  case fc => cases cstod env v <;> rfl
  case pondMax => cases cstod env v <;> rfl
  all_goals cases readVector env v <;> rfl

/-- Key of a line. -/
def lineKey (line : List Char) : Option Key := keyOf (paramKey line)

/-- What the lines of one key make of its field. -/
def chain (env : Env α) (k : Key) : List (List Char) → k.Val α → Res (k.Val α)
  | [], x => .ok x
  | line :: rest, x => do
    let y ← parseKey env (paramValue line) (paramUnit line) k x
    chain env k rest y

theorem map_ok_iff' {β γ : Type} {x : Res β} {f : β → γ} {c : γ} : x.map f = .ok c ↔ ∃ a, x = .ok a ∧ f a = c := by
  cases x <;> simp [Except.map]

/-- The fields are read independently: the file is accepted with result `c'` exactly when, for every key, the lines with this key
turn its old field into that of `c'`. -/
theorem readConfig_iff {env : Env α} : ∀ {lines : List (List Char)} {c c' : Cfg α}, readConfig env c lines = .ok c' ↔
    ∀ k, chain env k (lines.filter fun l => decide (lineKey l = some k)) (c.get k) = .ok (c'.get k)
  | [], c, c' => by
    simp only [readConfig, List.filter_nil, chain, Except.ok.injEq]
    exact ⟨fun h k => by rw [h], Cfg.ext_get⟩
  | line :: rest, c, c' => by
    unfold readConfig configLine
    simp only [bind_ok_iff]
    have hk : keyOf (paramKey line) = lineKey line := rfl
    rw [hk]
    cases hl : lineKey line with
    | none =>
      simp only [Except.ok.injEq, exists_eq_left', List.filter_cons, hl]
      simpa using readConfig_iff (env := env) (lines := rest) (c := c) (c' := c')
    | some k =>
      simp only
      rw [applyKey_eq]
      simp only [map_ok_iff']
      constructor
      · rintro ⟨c1, ⟨x, hx, rfl⟩, hr⟩ j
        have := (readConfig_iff.mp hr) j
        by_cases hj : j = k
        · subst hj
          simp only [List.filter_cons, hl, decide_true, if_true, chain, hx, ok_bind]
          rwa [Cfg.get_put] at this
        · rw [Cfg.get_put_ne _ _ _ _ hj] at this
          have hne : ¬ (some k = some j) := fun e => hj (Option.some.inj e).symm
          simp only [List.filter_cons, hl, decide_eq_false hne]
          simpa using this
      · intro h
        have hk' := h k
        simp only [List.filter_cons, hl, decide_true, if_true, chain, bind_ok_iff] at hk'
        obtain ⟨x, hx, hr⟩ := hk'
        refine ⟨c.put k x, ⟨x, hx, rfl⟩, readConfig_iff.mpr fun j => ?_⟩
        by_cases hj : j = k
        · subst hj; rw [Cfg.get_put]; exact hr
        · rw [Cfg.get_put_ne _ _ _ _ hj]
          have := h j
          have hne : ¬ (some k = some j) := fun e => hj (Option.some.inj e).symm
          simp only [List.filter_cons, hl, decide_eq_false hne] at this
          simpa using this

end LGAR
