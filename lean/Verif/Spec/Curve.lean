import Verif.Model.Update
/-
The soil-water curves a front's moisture, head and conductivity are to lie on (van Genuchten 1980, Mualem 1976), written
without the functions of the model.
-/
namespace LGAR
variable {α : Type} [Add α] [Sub α] [Mul α] [Div α] [Neg α] [Zero α] [One α] [OfScientific α] [CMath α]

/-- Relative saturation. -/
def satOf (so : SoilProps α) (theta : α) : α := (theta - so.thetaR) / (so.thetaE - so.thetaR)

/-- Capillary head of a soil of the given moisture. -/
def headOf (so : SoilProps α) (theta : α) : α :=
  1 / so.vgAlpha * CMath.pow (CMath.pow (satOf so theta) (-1 / so.vgM) - 1) (1 / so.vgN)

/-- Mualem's conductivity relative to saturation. -/
def relCond (so : SoilProps α) (theta : α) : α :=
  CMath.sqrt (satOf so theta) * CMath.pow (1 - CMath.pow (1 - CMath.pow (satOf so theta) (1 / so.vgM)) so.vgM) 2.0

/-- Head and conductivity of a front are those of its moisture in the soil of its layer, with the conductivity reduced by
the frost factor of the layer. -/
def OnCurve (g : Geo α) (f : Front α) : Prop :=
  ∃ so ff, g.soil f.layer = .ok so ∧ g.frozen[f.layer]? = some ff ∧ f.psi = headOf so f.theta ∧
    f.K = ff * so.Ksat * relCond so f.theta

end LGAR
