import Verif.Model.TractBuilder

/-!
# tractInfo.py and detail/utils.py `makeSkyPolygonFromBBox`

Every tract of a sky map holds a reference to the sky map's single tract builder; methods that go
through it take the builder (in its current state) as an argument.
-/

namespace Skymap

variable {Sky K : Type} [Field K] [LinearOrder K] [FloorRing K]

/-- How a tract is sized: from vertices (`TractInfo`) or from a radius (`ExplicitTractInfo`). -/
inductive TractShape (Sky K : Type)
  | vertices (l : List Sky)
  | explicit (radius : K)

/-- The constructor arguments of `TractInfo` / `ExplicitTractInfo` (tractInfo.py:87 and 459), except
the tract builder.  Simplification: the stored `innerBoxCorners` are a pair of sky positions. -/
structure TractArgs (Sky K : Type) where
  id : Int
  ctrCoord : Sky
  shape : TractShape Sky K
  tractOverlap : K
  wcs : Wcs Sky K
  innerBoxCorners : Option (Sky × Sky) := none

/-- A constructed `TractInfo` (tractInfo.py:87-97), without the reference to the shared builder.  The fields are what the getters of the same
name return: `getId` (tractInfo.py:285-288), `getCtrCoord` (tractInfo.py:277-281), `getVertexList` (tractInfo.py:345-353), `getTractOverlap`
(tractInfo.py:338-341), `getNumPatches` (tractInfo.py:292-300), `getWcs` (tractInfo.py:387-395). -/
structure TractInfo (Sky K : Type) where
  id : Int
  ctrCoord : Sky
  vertexCoordList : List Sky
  tractOverlap : K
  innerBoxCorners : Option (Sky × Sky)
  numPatches : Index2D
  bbox : Box2I
  wcs : Wcs Sky K

/-- The sky positions whose pixels size the tract: tractInfo.py:108-120 for vertices (24 positions at
half the overlap around each vertex, or the vertices themselves without overlap),
tractInfo.py:484-486 for explicit tracts (4 positions at radius + overlap). -/
def samplePoints (ops : SkyOps Sky K) (a : TractArgs Sky K) : List Sky :=
  match a.shape with
  | .vertices l =>
    if a.tractOverlap = 0 then l
    else l.flatMap fun v => (List.range 24).map fun i : Nat =>
      ops.offset v (360 / 24 * (i : K)) (a.tractOverlap / 2)
  | .explicit r => (List.range 4).map fun i : Nat =>
      ops.offset a.ctrCoord ((i : K) * 90) (r + a.tractOverlap)

/-- The accumulating loops of `_minimumBoundingBox` (tractInfo.py:108-121 and 479-488). -/
def includeAll (tweak : K → K) (wcs : Wcs Sky K) : List Sky → Box2D K → PyM (Box2D K)
  | [], b => .ok b
  | c :: cs, b => do
    let b' ← b.inclRes tweak (wcs.skyToPixel c)
    includeAll tweak wcs cs b'

/-- `_minimumBoundingBox` (tractInfo.py:99-121 and 479-488). -/
def minimumBoundingBox (env : FloatEnv K) (ops : SkyOps Sky K) (a : TractArgs Sky K) : PyM (Box2D K) :=
  includeAll env.tweak a.wcs (samplePoints ops a) .empty

/-- `_finalOrientation` (tractInfo.py:123-149). -/
def finalOrientation (bbox : Box2I) (wcs : Wcs Sky K) : Box2I × Wcs Sky K :=
  let finalBBox := Box2I.mk' ⟨0, 0⟩ bbox.getDimensions
  (finalBBox,
   wcs.copyAtShiftedPixelOrigin
    ⟨((finalBBox.getMin.x - bbox.getMin.x : Int) : K), ((finalBBox.getMin.y - bbox.getMin.y : Int) : K)⟩)

/-- The vertices that `ExplicitTractInfo.__init__` sets at the end (tractInfo.py:473-477). -/
def explicitVertices (bbox : Box2I) (wcs : Wcs Sky K) : List Sky :=
  (((Box2D.ofBox2I bbox : Box2D K).grow (-(1 / 1000))).getCorners).map wcs.pixelToSky

/-- `TractInfo.__init__` (tractInfo.py:87-97) and `ExplicitTractInfo.__init__` (tractInfo.py:459-477).
Returns the tract and the shared builder with its overwritten state.  (`setupPatches` converts the
`Box2D` to a `Box2I`, tractBuilder.py:76.) -/
def TractInfo.new (env : FloatEnv K) (ops : SkyOps Sky K) (b : TractBuilder) (a : TractArgs Sky K) :
    PyM (TractInfo Sky K × TractBuilder) := do
  let minBBox ← minimumBoundingBox env ops a
  let r ← b.setupPatches minBBox.toBox2I
  let fo := finalOrientation r.1 a.wcs
  return ({ id := a.id, ctrCoord := a.ctrCoord
            vertexCoordList := match a.shape with
              | .vertices l => l
              | .explicit _ => explicitVertices fo.1 fo.2
            tractOverlap := a.tractOverlap, innerBoxCorners := a.innerBoxCorners
            numPatches := r.2.1, bbox := fo.1, wcs := fo.2 }, r.2.2)

/-- `makeSkyPolygonFromBBox` (detail/utils.py:61-78): the sky positions of the corners.
Simplification: the `ConvexPolygon` built from them is represented by the list of its corners. -/
def makeSkyPolygonFromBBox (bbox : Box2I) (wcs : Wcs Sky K) : List Sky :=
  ((Box2D.ofBox2I bbox : Box2D K).getCorners).map wcs.pixelToSky

/-- `PatchInfo.getInnerSkyPolygon` (patchInfo.py:149-163) / `CellInfo.getInnerSkyPolygon`
(cellInfo.py:115-129), on the object's inner box and stored WCS. -/
def getSkyPolygon (bbox : Box2I) (stored : Wcs Sky K) (tractWcs : Option (Wcs Sky K)) : List Sky :=
  makeSkyPolygonFromBBox bbox (tractWcs.getD stored)

/-- `PatchInfo.getInnerSkyPolygon` (patchInfo.py:149-163). -/
def PatchInfo.getInnerSkyPolygon (p : PatchInfo (Wcs Sky K)) (tractWcs : Option (Wcs Sky K)) : List Sky :=
  getSkyPolygon p.innerBBox p.wcs tractWcs

/-- `PatchInfo.getOuterSkyPolygon` (patchInfo.py:169-183). -/
def PatchInfo.getOuterSkyPolygon (p : PatchInfo (Wcs Sky K)) (tractWcs : Option (Wcs Sky K)) : List Sky :=
  getSkyPolygon p.outerBBox p.wcs tractWcs

/-- `CellInfo.getInnerSkyPolygon` (cellInfo.py:115-129). -/
def CellInfo.getInnerSkyPolygon (c : CellInfo (Wcs Sky K)) (tractWcs : Option (Wcs Sky K)) : List Sky :=
  getSkyPolygon c.innerBBox c.wcs tractWcs

/-- `CellInfo.getOuterSkyPolygon` (cellInfo.py:135-149). -/
def CellInfo.getOuterSkyPolygon (c : CellInfo (Wcs Sky K)) (tractWcs : Option (Wcs Sky K)) : List Sky :=
  getSkyPolygon c.outerBBox c.wcs tractWcs

namespace TractInfo

/-- `getPatchInfo` (tractInfo.py:309-329). -/
def getPatchInfo (t : TractInfo Sky K) (b : TractBuilder) (index : IndexArg) : PyM (PatchInfo (Wcs Sky K)) :=
  b.getPatchInfo index t.wcs

/-- `__getitem__` (tractInfo.py:415-416). -/
def getItem (t : TractInfo Sky K) (b : TractBuilder) (index : IndexArg) : PyM (PatchInfo (Wcs Sky K)) :=
  t.getPatchInfo b index

/-- `__len__` (tractInfo.py:411-413). -/
def len (t : TractInfo Sky K) : Int := t.numPatches.x * t.numPatches.y

/-- `__iter__` (tractInfo.py:405-409).  The whole iteration runs with one builder
state (no other tract is built between two `yield`s); Model/Iter.lean has the generator. -/
def iter (t : TractInfo Sky K) (b : TractBuilder) : PyM (List (PatchInfo (Wcs Sky K))) :=
  pyMapM (fun i => t.getPatchInfo b (.index2D i))
    ((pyRange 0 t.numPatches.y).flatMap fun y => (pyRange 0 t.numPatches.x).map fun x => ⟨x, y⟩)

/-- `getSequentialPatchIndex` (tractInfo.py:151-163). -/
def getSequentialPatchIndex (_t : TractInfo Sky K) (b : TractBuilder) (p : PatchInfo (Wcs Sky K)) : PyM Int :=
  b.getSequentialPatchIndex p

/-- `getSequentialPatchIndexFromPair` (tractInfo.py:165-177). -/
def getSequentialPatchIndexFromPair (_t : TractInfo Sky K) (b : TractBuilder) (i : IndexArg) : PyM Int :=
  b.getSequentialPatchIndexFromPair i

/-- `getPatchIndexPair` (tractInfo.py:179-190). -/
def getPatchIndexPair (_t : TractInfo Sky K) (b : TractBuilder) (s : Int) : PyM Index2D :=
  b.getPatchIndexPair s

/-- `getBBox` (tractInfo.py:270-273). -/
def getBBox (t : TractInfo Sky K) : Box2I := t.bbox

/-- `contains` (tractInfo.py:418-428). -/
def contains (t : TractInfo Sky K) (coord : Sky) : Bool :=
  match t.wcs.skyToPixel coord with
  | .raises => false
  | .nonfinite => false
  | .pix p => t.getBBox.contains (toPoint2I p)

/-- `geom.Point2I(pixel)` (tractInfo.py:216) when `skyToPixel` returned; `nanPixel` stands for the
conversion of NaN to an integer. -/
def pixelIndex (env : FloatEnv K) (t : TractInfo Sky K) (coord : Sky) : Option Point2I :=
  match t.wcs.skyToPixel coord with
  | .raises => none
  | .nonfinite => some env.nanPixel
  | .pix p => some (toPoint2I p)

/-- `tuple(int(v[i]/patch_inner_dimensions[i]) for i in range(2))` (tractInfo.py:221, 264-265). -/
def patchOf (env : FloatEnv K) (b : TractBuilder) (v : Point2I) : PyM Index2D := do
  let x ← pyIntTrueDiv env.rnd v.x b.getPatchInnerDimensions.x
  let y ← pyIntTrueDiv env.rnd v.y b.getPatchInnerDimensions.y
  return ⟨x, y⟩

/-- `findPatch` (tractInfo.py:192-222). -/
def findPatch (env : FloatEnv K) (t : TractInfo Sky K) (b : TractBuilder) (coord : Sky) :
    PyM (PatchInfo (Wcs Sky K)) :=
  match t.pixelIndex env coord with
  | none => .error .LookupError
  | some pixelInd =>
    if !t.bbox.contains pixelInd then .error .LookupError
    else do
      let i ← patchOf env b pixelInd
      t.getPatchInfo b (.seq [i.x, i.y])

/-- The loop of `findPatchList` (tractInfo.py:249-257): the bounding box of the pixel positions. -/
def coordBox (tweak : K → K) (wcs : Wcs Sky K) (coordList : List Sky) : Box2D K :=
  coordList.foldl (fun b c => match b.inclRes tweak (wcs.skyToPixel c) with
    | .error _ => b
    | .ok b' => b') .empty

/-- `findPatchList` (tractInfo.py:224-268). -/
def findPatchList (env : FloatEnv K) (t : TractInfo Sky K) (b : TractBuilder) (coordList : List Sky) :
    PyM (List (PatchInfo (Wcs Sky K))) :=
  let bbox := (((coordBox env.tweak t.wcs coordList).toBox2I).grow b.getPatchBorder).clip t.bbox
  if bbox.isEmpty then .ok []
  else do
    let ll ← patchOf env b bbox.getMin
    let ur ← patchOf env b bbox.getMax
    pyMapM (fun i : Index2D => t.getPatchInfo b (.seq [i.x, i.y]))
      ((pyRange ll.x (ur.x + 1)).flatMap fun x => (pyRange ll.y (ur.y + 1)).map fun y => ⟨x, y⟩)

/-- `getOuterSkyPolygon` (tractInfo.py:380-383). -/
def getOuterSkyPolygon (t : TractInfo Sky K) : List Sky := makeSkyPolygonFromBBox t.getBBox t.wcs

/-- `getPatchBorder` (tractInfo.py:304-305): that of the shared builder. -/
def getPatchBorder (_t : TractInfo Sky K) (b : TractBuilder) : Int := b.getPatchBorder

/-- `getPatchInnerDimensions` (tractInfo.py:331-334): those of the shared builder. -/
def getPatchInnerDimensions (_t : TractInfo Sky K) (b : TractBuilder) : Extent2I := b.getPatchInnerDimensions

/-- `getInnerSkyPolygon` (tractInfo.py:361-365): the convex hull of the vertices, represented by them. -/
def getInnerSkyPolygon (t : TractInfo Sky K) : List Sky := t.vertexCoordList

/-- `getInnerSkyRegion` (tractInfo.py:369-376): a box between two corners, or the convex hull of the
vertices.  Simplification: regions are represented by their defining points. -/
def getInnerSkyRegion (t : TractInfo Sky K) : (Sky × Sky) ⊕ List Sky :=
  match t.innerBoxCorners with
  | some c => .inl c
  | none => .inr t.vertexCoordList

end TractInfo
end Skymap
