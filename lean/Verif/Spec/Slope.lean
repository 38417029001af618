import Verif.Spec.Solver
/-
When the search for the moisture of a moved front succeeds (C89): the slope of the water content with the head.
-/
namespace LGAR

/-- How fast the moisture of a soil falls with the head (the derivative of `moistAt`, see `moistAt_deriv`). -/
noncomputable def slopeAt (s : SoilProps ℝ) (h : ℝ) : ℝ :=
  (s.thetaE - s.thetaR) * s.vgM * s.vgN * s.vgAlpha * ((s.vgAlpha * h) ^ (s.vgN - 1) / (1 + (s.vgAlpha * h) ^ s.vgN) ^ (s.vgM + 1))

/-- How fast the water of a stack of slabs falls with the head. -/
noncomputable def stackSlope (sl : List Slab) (h : ℝ) : ℝ := (sl.map fun x => x.thick * slopeAt x.soil h).sum

/-- A search from the head `psi` for the head `h` in a range of heads `lo` to `hi` in which nothing stops it. The range reaches ten first
steps beyond `h`; the slopes in the range differ at most by the factor 90 and are not extreme. `N` bounds the van Genuchten n. -/
structure Gentle (sl : List Slab) (psi h lo hi N : ℝ) : Prop where
  lo_pos : 0 < lo
  hi_le : hi ≤ 1e7
  from_lo : lo ≤ psi
  from_hi : psi ≤ hi
  below : lo ≤ h - 10 * max 1 (psi / 100)
  above : h + 10 * max 1 (psi / 100) ≤ hi
  shape : ∀ x ∈ sl, x.soil.vgN ≤ N
  ratio : (hi / lo) ^ N ≤ 90
  steep : (hi / lo) ^ N * 1e-13 ≤ stackSlope sl h
  flat : (hi / lo) ^ N * stackSlope sl h ≤ 10

end LGAR
