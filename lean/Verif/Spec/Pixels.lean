import Verif.Spec.Basic

/-! # Specification vocabulary for sky positions on a tract -/

namespace Skymap
variable {Sky K : Type} [Field K] [LinearOrder K] [FloorRing K]

/-- `p` lies in the smallest pixel rectangle holding the pixels of the given coordinates. -/
def InPixelHull (w : Wcs Sky K) (coords : List Sky) (p : Point2I) : Prop :=
  (∃ c ∈ coords, ∃ q, w.PixelOf c q ∧ q.x ≤ p.x) ∧ (∃ c ∈ coords, ∃ q, w.PixelOf c q ∧ p.x ≤ q.x) ∧
  (∃ c ∈ coords, ∃ q, w.PixelOf c q ∧ q.y ≤ p.y) ∧ (∃ c ∈ coords, ∃ q, w.PixelOf c q ∧ p.y ≤ q.y)

end Skymap
