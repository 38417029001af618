import Verif.Model.Driver

/-! The output table of the stand-alone program (src/bmi_main_lgar.cxx 72-197): columns and their sums. -/
namespace LGAR

section
variable {α : Type} [Add α] [Zero α]

/-- The number in column `k` of a row; 0 if there is no single number. -/
def Row.num (k : Nat) (r : Row α) : α :=
  match r.vals[k]? with
  | some (.dbls [x]) => x
  | _ => 0

/-- Sum of column `k`. -/
def colSum (k : Nat) (rows : List (Row α)) : α := (rows.map (Row.num k)).sum

/-- The last entry of column `k`; 0 for a table without rows. -/
def lastOf (k : Nat) (rows : List (Row α)) : α := (rows.map (Row.num k)).getLastD 0

/-- Every row has eleven columns and every entry is one number. -/
def Rectangular (rows : List (Row α)) : Prop :=
  ∀ r ∈ rows, r.vals.length = 11 ∧ ∀ v ∈ r.vals, ∃ x, v = .dbls [x]
end

/-- The columns, in the order of the header the program writes. -/
def colPrecip : Nat := 0
def colPet : Nat := 1
def colAet : Nat := 2
def colRunoff : Nat := 3
def colGiuh : Nat := 4
def colStorage : Nat := 5
def colDischarge : Nat := 6
def colInfil : Nat := 7
def colPerc : Nat := 8

end LGAR
