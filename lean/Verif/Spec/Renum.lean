import Verif.Spec.Twin
/-
What it means that two configurations describe the same column with the soils numbered differently.
-/
namespace LGAR

/-- Two layers have the same soil number in the first configuration exactly when they have in the second. -/
def SameSharing (ps : List (Int × Int)) : Prop := ∀ p ∈ ps, ∀ q ∈ ps, p.1 = q.1 ↔ p.2 = q.2

/-- Two configurations that differ only in the soil file and in the numbers of the soils in it: `ps` lists the numbers of each layer
in the first and in the second, and the lines with these numbers are the same.  The files may hold other soils as well.  Only with
calibration, which stores values under the soil number, do layers have to share their soils in the same way. -/
structure Renumbered {α : Type} [LT α] [One α] (ps : List (Int × Int)) (env env' : Env α) (c c' : Cfg α) : Prop where
  scanF : env'.scanF = env.scanF
  rest : c' = { c with soilType := c'.soilType, numTypes := c'.numTypes, soilFile := c'.soilFile }
  types : c.soilType = some (ps.map Prod.fst)
  types' : c'.soilType = some (ps.map Prod.snd)
  share : c.calib = true → SameSharing ps
  lines : ∃ file file' L L', c.soilFile = some file ∧ c'.soilFile = some file' ∧ env.files file = some L ∧ env'.files file' = some L' ∧
    ∀ p ∈ ps, 1 ≤ p.1 ∧ p.1 ≤ c.numTypes.getD 15 ∧ 1 ≤ p.2 ∧ p.2 ≤ c'.numTypes.getD 15 ∧
      ∃ line, L[p.1.toNat]? = some line ∧ L'[p.2.toNat]? = some line ∧ FullLine env.scanF line

/-- Soil `p.1` of the first array is soil `p.2` of the second, for the pairs in `ps`. -/
def SoilsVia {α : Type} (ps : List (Int × Int)) (S S' : List (SoilProps α)) : Prop :=
  ∀ p ∈ ps, 0 ≤ p.1 ∧ 0 ≤ p.2 ∧ ∃ x x', S[p.1.toNat]? = some x ∧ S'[p.2.toNat]? = some x' ∧ SoilSame x x'

/-- Objects that differ only in the numbers of their soils, and in places not written yet (as in `Twin`). -/
structure Alike {α : Type} (ps : List (Int × Int)) (fresh : Prop) (s s' : State α) : Prop where
  types : s.p.layerSoilType = typeArray (ps.map Prod.fst)
  types' : s'.p.layerSoilType = typeArray (ps.map Prod.snd)
  soils : SoilsVia ps s.soils s'.soils
  share : s.p.calibFlag = true → SameSharing ps
  head : s'.head = s.head
  prev : s'.prev = s.prev
  p : s'.p = { s.p with layerSoilType := s'.p.layerSoilType, numSoilTypes := s'.p.numSoilTypes }
  precip : s'.precipMm = s.precipMm
  pet : s'.petMm = s.petMm
  calib : s'.calib = s.calib
  numGiuh : s'.numGiuh = s.numGiuh
  giuhOrd : s'.giuhOrd = s.giuhOrd
  giuhQueue : s'.giuhQueue = s.giuhQueue
  onT : s'.mb.volonT = s.mb.volonT
  QgwT : s'.mb.volQgwT = s.mb.volQgwT
  start : s'.mb.volstart = s.mb.volstart
  last : s'.mb.volend = s.mb.volend
  precipTot : s'.mb.volprecip = s.mb.volprecip
  inTot : s'.mb.volin = s.mb.volin
  on : s'.mb.volon = s.mb.volon
  runoffTot : s'.mb.volrunoff = s.mb.volrunoff
  aetTot : s'.mb.volAET = s.mb.volAET
  petTot : s'.mb.volPET = s.mb.volPET
  rechTot : s'.mb.volrech = s.mb.volrech
  giuhTot : s'.mb.volgiuh = s.mb.volgiuh
  QTot : s'.mb.volQ = s.mb.volQ
  calibTot : s'.mb.volcalib = s.mb.volcalib
  filled : ¬ fresh → s'.conv = { s.conv with massBalance := s'.conv.massBalance } ∧
    s'.mb = { s.mb with volQgw := s'.mb.volQgw, localMb := s'.mb.localMb } ∧
    (0 < s.p.forcingInterval → s'.conv = s.conv ∧ s'.mb.localMb = s.mb.localMb)

end LGAR
