import Verif.Model.Basic
/-
Specification vocabulary for front lists.  Nothing here uses the functions of the model.
-/
namespace LGAR
variable {α : Type}

/-- The fronts are numbered 1, 2, ..., n from the surface down. -/
def Consecutive (l : List (Front α)) : Prop :=
  ∀ (i : Nat) (h : i < l.length), l[i].front = (i : Int) + 1

instance (l : List (Front α)) : Decidable (Consecutive l) := by unfold Consecutive; infer_instance

/-- Everything a front carries except its number. -/
structure FrontData (α : Type) where
  depth : α
  theta : α
  psi : α
  K : α
  layer : Nat
  toBottom : Bool
  dzdt : α
  deriving DecidableEq

def Front.data (f : Front α) : FrontData α :=
  ⟨f.depth, f.theta, f.psi, f.K, f.layer, f.toBottom, f.dzdt⟩

/-- Layers are stacked in order: from layer `a`, each front is in the layer of the front above or in the next one, and
the last front is in layer `N`. -/
def LayersFrom (N : Nat) : Nat → List (Front α) → Prop
  | _, [] => False
  | a, [f] => f.layer = a ∧ a = N
  | a, f :: g :: t => f.layer = a ∧ (g.layer = a ∨ g.layer = a + 1) ∧ LayersFrom N g.layer (g :: t)

instance decLayersFrom (N : Nat) : (a : Nat) → (l : List (Front α)) → Decidable (LayersFrom N a l)
  | _, [] => isFalse id
  | a, [f] => inferInstanceAs (Decidable (f.layer = a ∧ a = N))
  | a, f :: g :: t =>
    have := decLayersFrom N g.layer (g :: t)
    inferInstanceAs (Decidable (f.layer = a ∧ (g.layer = a ∨ g.layer = a + 1) ∧ LayersFrom N g.layer (g :: t)))

/-- Exactly the last front of each layer is flagged as touching the layer bottom. -/
def BottomFlags : List (Front α) → Prop
  | [] => True
  | [f] => f.toBottom = true
  | f :: g :: t => (f.toBottom = true ↔ f.layer ≠ g.layer) ∧ BottomFlags (g :: t)

instance decBottomFlags : (l : List (Front α)) → Decidable (BottomFlags l)
  | [] => isTrue trivial
  | [f] => inferInstanceAs (Decidable (f.toBottom = true))
  | f :: g :: t =>
    have := decBottomFlags (g :: t)
    inferInstanceAs (Decidable ((f.toBottom = true ↔ f.layer ≠ g.layer) ∧ BottomFlags (g :: t)))

/-- Fronts touching a layer bottom lie exactly at that bottom (`cum[k]` is the depth of the bottom of layer `k`). -/
def BottomDepths (cum : List α) (l : List (Front α)) : Prop :=
  ∀ f ∈ l, f.toBottom = true → cum[f.layer]? = some f.depth

instance [DecidableEq α] (cum : List α) (l : List (Front α)) : Decidable (BottomDepths cum l) := by
  unfold BottomDepths; infer_instance

/-- Well-formed column of fronts: layers stacked from 1 to `N`, bottom flags right, bottom fronts at the bottoms. -/
structure Column (N : Nat) (cum : List α) (l : List (Front α)) : Prop where
  layers : LayersFrom N 1 l
  flags : BottomFlags l
  depths : BottomDepths cum l

instance [DecidableEq α] (N : Nat) (cum : List α) (l : List (Front α)) : Decidable (Column N cum l) :=
  decidable_of_iff (LayersFrom N 1 l ∧ BottomFlags l ∧ BottomDepths cum l)
    ⟨fun h => ⟨h.1, h.2.1, h.2.2⟩, fun h => ⟨h.layers, h.flags, h.depths⟩⟩

/-- The fronts below position 0 that are not flagged as touching a layer bottom do not lie exactly at the bottom of their
layer (the deepest layer `N` excepted). -/
def NoStrayAtBottom (N : Nat) (cum : List α) (l : List (Front α)) : Prop :=
  ∀ i f, l[i + 1]? = some f → f.toBottom = false → f.layer ≠ N → cum[f.layer]? ≠ some f.depth

instance [DecidableEq α] (N : Nat) (cum : List α) (l : List (Front α)) : Decidable (NoStrayAtBottom N cum l) :=
  decidable_of_iff (∀ f ∈ l.tail, f.toBottom = false → f.layer ≠ N → cum[f.layer]? ≠ some f.depth) <| by
    constructor
    · intro h i f hf
      exact h f (List.mem_of_getElem? (i := i) (by rw [List.getElem?_tail]; exact hf))
    · intro h f hf
      obtain ⟨i, hi⟩ := List.getElem?_of_mem hf
      exact h i f (by rw [List.getElem?_tail] at hi; exact hi)

end LGAR
