import Verif.Model.Tract

/-!
# Small specification vocabulary

Nothing here is used by the model.
-/

namespace Skymap

/-- A box as `lsst.geom` builds it: empty with zero dimensions, or positive in both axes. -/
def Box2I.WF (b : Box2I) : Prop := (b.dim.x = 0 ∧ b.dim.y = 0) ∨ (0 < b.dim.x ∧ 0 < b.dim.y)

/-- `i` is a valid (x, y) index in a grid of `n.x` by `n.y`. -/
def InRange (n i : Index2D) : Prop := 0 ≤ i.x ∧ i.x < n.x ∧ 0 ≤ i.y ∧ i.y < n.y

instance (n i : Index2D) : Decidable (InRange n i) := by unfold InRange; infer_instance

/-- The pixels within `r` (in x and in y) of a pixel of `b`. -/
def Box2I.Near (b : Box2I) (r : Int) (p : Point2I) : Prop :=
  ∃ q : Point2I, b.contains q = true ∧ |p.x - q.x| ≤ r ∧ |p.y - q.y| ≤ r

/-- `f` is well behaved as a float rounding of quotients: relative error at most 2⁻⁵³, and integers up
to 2⁵³ are exact. -/
structure IsRounding {K : Type} [Field K] [LinearOrder K] (f : K → K) : Prop where
  err : ∀ x : K, |f x - x| ≤ |x| / 2 ^ 53
  int_exact : ∀ n : Int, |n| ≤ 2 ^ 53 → f (n : K) = (n : K)

/-- What the proofs assume of the floating-point environment: quotients are rounded correctly, an
exclusive maximum is moved up by a positive amount not exceeding one pixel, and a NaN position
converts to a pixel off every tract (all tracts start at pixel (0,0)). -/
structure FloatEnv.Ok {K : Type} [Field K] [LinearOrder K] (env : FloatEnv K) : Prop where
  rnd : IsRounding env.rnd
  tweak_gt : ∀ x : K, x < env.tweak x
  tweak_le : ∀ x : K, env.tweak x ≤ x + 1
  nan_off : env.nanPixel.x < 0

/-- The pixel of a sky position under a WCS. -/
def Wcs.PixelOf {Sky K : Type} [Field K] [LinearOrder K] [FloorRing K] (w : Wcs Sky K) (c : Sky) (p : Point2I) :
    Prop :=
  ∃ q : P2 K, w.skyToPixel c = .pix q ∧ p = ⟨⌊q.x + 1 / 2⌋, ⌊q.y + 1 / 2⌋⟩

end Skymap
