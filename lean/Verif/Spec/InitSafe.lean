import Verif.Spec.SoilFile
/-
What a configuration and a soil file have to satisfy so that initialisation stays inside its arrays (C97).
-/
namespace LGAR

/-- A line of the soil file begins with a name that fits, with its terminating zero, into the 25 characters reserved for it. -/
def NameFits (line : List Char) : Prop := ∃ w ws, wordsOf line = w :: ws ∧ w.length < 25

/-- A configuration that names its layers, has a soil type between 0 and the number of types for each of them, lists the cells of
the soil temperature model if that is used, and whose soil file (read by `fgets`, without the header) has names that fit in the
lines that are read. -/
structure CfgFits {α : Type} (env : Env α) (c : Cfg α) : Prop where
  layers : ∃ thick, c.thick = some thick ∧ ∀ ts, c.soilType = some ts →
    ∀ k, k < thick.length → ∃ t, ts[k]? = some t ∧ 0 ≤ t ∧ t ≤ c.numTypes.getD 15
  cells : c.sft = true → c.soilZ ≠ none
  types : 1 ≤ c.numTypes.getD 15
  names : ∀ file lines, c.soilFile = some file → env.files file = some lines →
    ∀ (i : Nat) (line : List Char), (lines.drop 1)[i]? = some line → (i : Int) < c.numTypes.getD 15 → NameFits line

end LGAR
