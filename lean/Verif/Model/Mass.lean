import Verif.Model.Soil
/-
Storage, free-drainage front, frozen factor (/repo/src/lgar.cxx) and GIUH routing (/repo/giuh/giuh.c).
-/
namespace LGAR

variable {α : Type} [Add α] [Sub α] [Mul α] [Div α] [Neg α] [Zero α] [One α] [OfScientific α]
  [LT α] [LE α] [DecidableLT α] [DecidableLE α] [BEq α] [CMath α]

/-- Loop of lgar_calc_mass_bal, lgar.cxx 2248-2267, with the running `sum`. -/
def massBalGo (cum : List α) : α → List (Front α) → Res α
  | sum, [] => .ok sum
  | sum, f :: t => do
    let base ← idxPred cum f.layer
    match t with
    | n :: _ =>
      if n.layer = f.layer then massBalGo cum (sum + (f.depth - base) * (f.theta - n.theta)) t
      else massBalGo cum (sum + (f.depth - base) * f.theta) t
    | [] => massBalGo cum (sum + f.theta * (f.depth - base)) t

/-- lgar_calc_mass_bal, lgar.cxx 2235-2271. -/
def massBal (cum : List α) (head : List (Front α)) : Res α := massBalGo cum 0 head

/-- Loop of wetting_front_free_drainage, lgar.cxx 930-939. -/
def freeDrainageGo : Nat → List (Front α) → Nat
  | k, [] => k
  | k, [_] => k
  | k, f :: n :: t => if f.layer = n.layer then k else freeDrainageGo (k + 1) (n :: t)

/-- wetting_front_free_drainage, lgar.cxx 922-949. -/
def wettingFrontFreeDrainage (head : List (Front α)) : Nat :=
  let k := freeDrainageGo 1 head
  if head.length < k then k - 1 else k

/-- Inner `while` of frozen_factor_hydraulic_conductivity, lgar.cxx 827-834.  The list holds
`(soil_temperature_z[c], soil_temperature[c])` for the cells `c, c+1, ...` not consumed yet. -/
def frozenCells (bottom : α) : α → Nat → List (α × α) → Res (α × Nat × List (α × α))
  | _, _, [] => .error (.ub "soil_temperature_z[num_cells_temp]")
  | sum, count, (z, t) :: rest =>
    if z ≤ bottom then
      if rest.isEmpty then .ok (sum + t, count + 1, rest)
      else frozenCells bottom (sum + t) (count + 1) rest
    else .ok (sum, count, (z, t) :: rest)

/-- lgar.cxx 840-846: factor of a layer with mean temperature `t`. -/
def frozenFactorOf (t : α) : α :=
  CMath.fmax (CMath.fmin (CMath.exp (-10.0 * (273.15 - t))) 1) 0.05

/-- Outer loop, lgar.cxx 823-848: factors of the layers whose bottoms are listed. -/
def frozenLayers : List α → List (α × α) → Res (List α)
  | [], _ => .ok []
  | b :: bs, cells => do
    let (sum, count, rest) ← frozenCells b 0 0 cells
    cassert (0 < count) "count > 0"
    let t ← cdiv sum (CMath.ofInt (Int.ofNat count))
    let fs ← frozenLayers bs rest
    return frozenFactorOf t :: fs

/-- frozen_factor_hydraulic_conductivity, lgar.cxx 816-856.  `cum = cum_layer_thickness_cm` (index 0 first);
entry 0 of `frozen_factor` is left as it was. -/
def frozenFactor (cum : List α) (cells : List (α × α)) (old : List α) : Res (List α) := do
  let fs ← frozenLayers (cum.drop 1) cells
  return old.take 1 ++ fs

/-- Array write `a[i] = v`. -/
def setIdx {β : Type} (a : List β) (i : Nat) (v : β) : Res (List β) :=
  if i < a.length then .ok (a.set i v) else .error (.ub "array write out of range")

/-- Array write `a[i-1] = v`. -/
def setPred {β : Type} (a : List β) (i : Nat) (v : β) : Res (List β) :=
  match i with
  | 0 => .error (.ub "array write at index -1")
  | k + 1 => setIdx a k v

/-- giuh.c 25-28, from index `i`, `n` iterations left. -/
def giuhAdd (runoff : α) (ord : List α) : Nat → Nat → List α → Res (List α)
  | 0, _, q => .ok q
  | n + 1, i, q => do
    let qi ← idx q i
    let oi ← idx ord i
    let q' ← setIdx q i (qi + oi * runoff)
    giuhAdd runoff ord n (i + 1) q'

/-- giuh.c 32-35, from index `i`, `n` iterations left. -/
def giuhShift : Nat → Nat → List α → Res (List α)
  | 0, _, q => .ok q
  | n + 1, i, q => do
    let qi ← idx q i
    let q' ← setPred q i qi
    giuhShift n (i + 1) q'

/-- giuh_convolution_integral, giuh.c 12-39: outflow of this step and the new queue. -/
def giuhConv (runoff : α) (N : Nat) (ord queue : List α) : Res (α × List α) := do
  let q0 ← setIdx queue N 0
  let q1 ← giuhAdd runoff ord N 0 q0
  let now ← idx q1 0
  let q2 ← giuhShift (N - 1) 1 q1
  let q3 ← setPred q2 N 0
  return (now, q3)

end LGAR
