import Verif.Model.Py

/-!
# The parts of `lsst.geom` / `lsst.afw.geom` that skymap uses

These are not part of /repo; they are written from the documented behaviour of `lsst.geom`
(`Box2I`, `Box2D`, `Point2I`, `Extent2I`, `SpherePoint`) and `lsst.afw.geom.SkyWcs`.
Simplifications: pixel integers are unbounded (Model/Int32.lean has the checks for 32 bits; C76 relates the two);
floating-point numbers are elements of an ordered field `K`.
-/

namespace Skymap

/-- A pair of ints: `lsst.geom.Point2I`, `lsst.geom.Extent2I` and
`detail/utils.py:81-93` `Index2D` (a NamedTuple `x, y`). -/
structure I2 where
  x : Int
  y : Int
  deriving DecidableEq, Repr, Inhabited

/-- detail/utils.py:81-93. -/
abbrev Index2D := I2
abbrev Point2I := I2
abbrev Extent2I := I2

/-- `lsst.geom.Point2D` / `Extent2D`. -/
structure P2 (K : Type) where
  x : K
  y : K
  deriving DecidableEq, Repr

/-- `lsst.geom.Box2I`: minimum pixel and dimensions.  An empty box has dimensions (0,0). -/
structure Box2I where
  min : Point2I
  dim : Extent2I
  deriving DecidableEq, Repr

namespace Box2I

/-- `Box2I()`: the empty box. -/
def empty : Box2I := ⟨⟨0, 0⟩, ⟨0, 0⟩⟩

/-- `Box2I.isEmpty()`. -/
def isEmpty (b : Box2I) : Bool := b.dim.x = 0

/-- `Box2I(minimum, dimensions)` with the default `invert=True`: a zero dimension gives the empty
box, a negative dimension is measured downwards from the corner. -/
def mk' (corner : Point2I) (dim : Extent2I) : Box2I :=
  if dim.x = 0 ∨ dim.y = 0 then empty
  else
    let ax (m d : Int) : Int × Int := if d < 0 then (m + (d + 1), -d) else (m, d)
    ⟨⟨(ax corner.x dim.x).1, (ax corner.y dim.y).1⟩, ⟨(ax corner.x dim.x).2, (ax corner.y dim.y).2⟩⟩

/-- `getMin()` / `getBegin()`. -/
def getMin (b : Box2I) : Point2I := b.min
/-- `getMax()` (inclusive). -/
def getMax (b : Box2I) : Point2I := ⟨b.min.x + b.dim.x - 1, b.min.y + b.dim.y - 1⟩
/-- `getDimensions()`. -/
def getDimensions (b : Box2I) : Extent2I := b.dim

/-- `contains(Point2I)`. -/
def contains (b : Box2I) (p : Point2I) : Bool :=
  decide (b.min.x ≤ p.x ∧ p.x < b.min.x + b.dim.x ∧ b.min.y ≤ p.y ∧ p.y < b.min.y + b.dim.y)

/-- `contains(Box2I)`: true for an empty argument. -/
def containsBox (b o : Box2I) : Bool :=
  o.isEmpty || (b.contains o.getMin && b.contains o.getMax)

/-- `grow(int)`. -/
def grow (b : Box2I) (n : Int) : Box2I :=
  if b.isEmpty then b
  else
    let d : Extent2I := ⟨b.dim.x + 2 * n, b.dim.y + 2 * n⟩
    if d.x ≤ 0 ∨ d.y ≤ 0 then empty
    else ⟨⟨b.min.x - n, b.min.y - n⟩, d⟩

/-- `clip(Box2I)`: intersection. -/
def clip (b o : Box2I) : Box2I :=
  if b.isEmpty then b
  else if o.isEmpty then empty
  else
    let lo : Point2I := ⟨max b.min.x o.min.x, max b.min.y o.min.y⟩
    let hi : Point2I := ⟨Min.min b.getMax.x o.getMax.x, Min.min b.getMax.y o.getMax.y⟩
    let d : Extent2I := ⟨hi.x - lo.x + 1, hi.y - lo.y + 1⟩
    if d.x ≤ 0 ∨ d.y ≤ 0 then empty else ⟨lo, d⟩

end Box2I

/-- `lsst.geom.Box2D`: empty, or closed below and open above. -/
inductive Box2D (K : Type)
  | empty
  | box (lo hi : P2 K)
  deriving DecidableEq, Repr

/-- Outcome of `SkyWcs.skyToPixel`: it may raise (`pex.exceptions.DomainError`/`RuntimeError`) or
return a position whose two coordinates are NaN (the library's marker for a bad transform).
Simplification: infinite coordinates are not modelled. -/
inductive PixRes (K : Type)
  | raises
  | nonfinite
  | pix (p : P2 K)
  deriving DecidableEq, Repr

section
variable {K : Type} [Field K] [LinearOrder K] [FloorRing K]

/-- `Point2I(Point2D)`: rounds to the nearest pixel (pixel centres are at integers). -/
def toPoint2I (p : P2 K) : Point2I := ⟨⌊p.x + 1 / 2⌋, ⌊p.y + 1 / 2⌋⟩

namespace Box2D

/-- One axis of `Box2D.include` on a non-empty box.  `tweak` is `Box2D::_tweakMax`, which moves the
(exclusive) maximum just above the included coordinate. -/
def includeAxis (tweak : K → K) (lo hi c : K) : K × K :=
  if c < lo then (c, hi) else if hi ≤ c then (lo, tweak c) else (lo, hi)

/-- `Box2D.include(Point2D)`. -/
def incl (tweak : K → K) (b : Box2D K) (p : P2 K) : Box2D K :=
  match b with
  | .empty => .box p ⟨tweak p.x, tweak p.y⟩
  | .box lo hi =>
    let ax := includeAxis tweak lo.x hi.x p.x
    let ay := includeAxis tweak lo.y hi.y p.y
    .box ⟨ax.1, ay.1⟩ ⟨ax.2, ay.2⟩

/-- `Box2I(Box2D)` with the default edge handling `EXPAND`. -/
def toBox2I : Box2D K → Box2I
  | .empty => Box2I.empty
  | .box lo hi =>
    let mn : Point2I := ⟨⌊lo.x + 1 / 2⌋, ⌊lo.y + 1 / 2⌋⟩
    let mx : Point2I := ⟨⌈hi.x - 1 / 2⌉, ⌈hi.y - 1 / 2⌉⟩
    let d : Extent2I := ⟨mx.x - mn.x + 1, mx.y - mn.y + 1⟩
    if d.x ≤ 0 ∨ d.y ≤ 0 then Box2I.empty else ⟨mn, d⟩

/-- `Box2D(Box2I)`: pixel-edge coordinates. -/
def ofBox2I (b : Box2I) : Box2D K :=
  if b.isEmpty then .empty
  else .box ⟨(b.min.x : K) - 1 / 2, (b.min.y : K) - 1 / 2⟩
            ⟨(b.min.x + b.dim.x : K) - 1 / 2, (b.min.y + b.dim.y : K) - 1 / 2⟩

/-- `Box2D.grow(double)`. -/
def grow (b : Box2D K) (r : K) : Box2D K :=
  match b with
  | .empty => .empty
  | .box lo hi =>
    if hi.x + r ≤ lo.x - r ∨ hi.y + r ≤ lo.y - r then .empty
    else .box ⟨lo.x - r, lo.y - r⟩ ⟨hi.x + r, hi.y + r⟩

/-- `Box2D.getCorners()`: (minX,minY), (maxX,minY), (maxX,maxY), (minX,maxY).
Simplification: for an empty box lsst.geom returns NaN points; here there are none. -/
def getCorners : Box2D K → List (P2 K)
  | .empty => []
  | .box lo hi => [lo, ⟨hi.x, lo.y⟩, hi, ⟨lo.x, hi.y⟩]

/-- `Box2D.include` of what `skyToPixel` returned.  An empty box is stored as NaN and the
comparisons with NaN are false, so including a NaN point leaves every box as it is. -/
def inclRes (tweak : K → K) (b : Box2D K) : PixRes K → PyM (Box2D K)
  | .raises => .error .PexError
  | .nonfinite => .ok b
  | .pix p => .ok (b.incl tweak p)

end Box2D
end

/-- `lsst.geom.SpherePoint`: longitude and latitude (radians). -/
structure SpherePoint (K : Type) where
  lon : K
  lat : K
  deriving DecidableEq, Repr

/-- `lsst.afw.geom.SkyWcs`, reduced to the two functions the code uses. -/
structure Wcs (Sky K : Type) where
  skyToPixel : Sky → PixRes K
  pixelToSky : P2 K → Sky

/-- `SkyWcs.copyAtShiftedPixelOrigin(shift)`: the same mapping with pixel positions moved by `shift`. -/
def Wcs.copyAtShiftedPixelOrigin {Sky K : Type} [Add K] [Sub K] (w : Wcs Sky K) (s : P2 K) : Wcs Sky K where
  skyToPixel c := match w.skyToPixel c with
    | .raises => .raises
    | .nonfinite => .nonfinite
    | .pix p => .pix ⟨p.x + s.x, p.y + s.y⟩
  pixelToSky p := w.pixelToSky ⟨p.x - s.x, p.y - s.y⟩

/-- The library operations on sky positions that skymap calls: `SpherePoint.offset(bearing, amount)`
(bearing in degrees) and `SpherePoint.separation(other)`. -/
structure SkyOps (Sky K : Type) where
  offset : Sky → K → K → Sky
  separation : Sky → Sky → K

/-- What the model leaves open about floating point: how a float quotient is rounded (`rnd`), how far
`Box2D.include` moves an exclusive maximum above the included value (`tweak`), and the pixel that
`Point2I` makes of a NaN position (`nanPixel`). -/
structure FloatEnv (K : Type) where
  rnd : K → K
  tweak : K → K
  nanPixel : Point2I

end Skymap
