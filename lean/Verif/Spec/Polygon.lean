import Verif.Model.Dodecahedron
import Verif.Model.Geom

/-! # Specification: the region that a spherical convex polygon covers, and the area of a box of pixels -/

namespace Skymap
open Matrix Dodeca

/-- A position is in the convex polygon with the given corners (`lsst.sphgeom.ConvexPolygon(corners).contains(position)`, which is not
part of /repo) if every hemisphere that contains all corners contains it.  (Edges and corners belong to the polygon.) -/
def InPolygon (corners : List (SpherePoint ℝ)) (p : SpherePoint ℝ) : Prop :=
  ∀ W : Vec3, (∀ c ∈ corners, 0 ≤ W ⬝ᵥ c.getVector) → 0 ≤ W ⬝ᵥ p.getVector

/-- The point is in the area of the pixels of the box: pixel (i, j) is the square with sides 1 and centre (i, j).  (Edges included.) -/
def Box2I.Area (b : Box2I) (q : P2 ℝ) : Prop :=
  (b.min.x : ℝ) - 1 / 2 ≤ q.x ∧ q.x ≤ (b.min.x : ℝ) + b.dim.x - 1 / 2 ∧ (b.min.y : ℝ) - 1 / 2 ≤ q.y ∧ q.y ≤ (b.min.y : ℝ) + b.dim.y - 1 / 2

end Skymap
