import Verif.Spec.Water
/-
Green-Ampt infiltration into layered soil, in textbook form, for C85.
-/
namespace LGAR

/-- A stack of soil slabs, each given by its thickness and its conductivity: total thickness. -/
def slabsDepth {K : Type} [Add K] [Zero K] (l : List (K × K)) : K := (l.map Prod.fst).sum

/-- Hydraulic resistance of a stack: thickness over conductivity, added up. -/
def slabsResist {K : Type} [Add K] [Zero K] [Div K] (l : List (K × K)) : K := (l.map fun p => p.1 / p.2).sum

/-- Green-Ampt infiltration rate into a stack that is wetted from the surface down to its lower end: unit gradient through the whole
stack, plus suction and ponded head acting on the soil at the front. -/
def greenAmpt {K : Type} [Add K] [Zero K] [Mul K] [Div K] (l : List (K × K)) (suction pond frontK : K) : K :=
  slabsDepth l / slabsResist l + (suction + pond) * frontK / slabsDepth l

/-- Thickness and conductivity of layer `k`, frost included (`none`: no such layer). -/
def Geo.slab {K : Type} [Sub K] [Mul K] (g : Geo K) (k : Nat) : Option (K × K) :=
  match g.soil k, g.frozen[k]?, g.cum[k]?, g.cum[k - 1]? with
  | .ok s, some x, some c1, some c0 => some (c1 - c0, s.Ksat * x)
  | _, _, _, _ => none

/-- The stack from the surface down to `depth` in layer `k`, whose soil has conductivity `frontK`. -/
def Geo.stack {K : Type} [Sub K] [Mul K] [Zero K] (g : Geo K) (k : Nat) (depth frontK : K) : List (K × K) :=
  (List.range' 1 (k - 1)).filterMap g.slab ++ [(depth - layerTop g.cum k, frontK)]

end LGAR
