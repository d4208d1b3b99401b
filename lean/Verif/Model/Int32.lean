import Verif.Model.Tract

/-!
# The same code on 32-bit pixel integers

`lsst.geom`'s `Point2I`, `Extent2I` and `Box2I` hold C++ `int`s.  Model/Geom.lean has unbounded integers; here every
place of tractBuilder.py, tractInfo.py and patchInfo.py that makes a `Point2I`, an `Extent2I` or a `Box2I` is written again with
the check that the library makes.  Python's own ints (indices, numbers of patches, products before they are stored) stay unbounded.
Simplification: a number that does not fit is always reported as `OverflowError` (pybind11 reports some of them as `TypeError`).
-/

namespace Skymap

/-- A C++ `int`. -/
def Fits32 (n : Int) : Prop := -2147483648 ≤ n ∧ n ≤ 2147483647

instance (n : Int) : Decidable (Fits32 n) := by unfold Fits32; infer_instance

/-- `Point2I(x, y)` and `Extent2I(x, y)`: both numbers must be C++ `int`s. -/
def check2 (p : I2) : PyM I2 := if Fits32 p.x ∧ Fits32 p.y then .ok p else .error .OverflowError

/-- What a `Box2I` stores and what it can be asked for: minimum, dimensions and maximum are C++ `int`s. -/
def Box2I.Fits32 (b : Box2I) : Prop :=
  Skymap.Fits32 b.min.x ∧ Skymap.Fits32 b.min.y ∧ Skymap.Fits32 b.dim.x ∧ Skymap.Fits32 b.dim.y ∧
    Skymap.Fits32 (b.min.x + b.dim.x - 1) ∧ Skymap.Fits32 (b.min.y + b.dim.y - 1)

instance (b : Box2I) : Decidable b.Fits32 := by unfold Box2I.Fits32; infer_instance

/-- A `Box2I` that the library has computed: `OverflowError` unless it can be stored. -/
def Box2I.check32 (b : Box2I) : PyM Box2I := if b.Fits32 then .ok b else .error .OverflowError

namespace TractBuilder

/-- `BaseTractBuilder.setupPatches` (tractBuilder.py:53-94): the assignments to `bboxDim[i]` and `bboxMin[i]` (lines 83-84), the boxes of
lines 75, 88 and 91. -/
def setupPatches32 (b : TractBuilder) (minBBox : Box2I) : PyM (Box2I × Index2D × TractBuilder) := do
  let minBBox ← minBBox.check32
  let ax ← setupAxis minBBox.getMin.x minBBox.getDimensions.x b.patchInnerDimensions.x
  let ay ← setupAxis minBBox.getMin.y minBBox.getDimensions.y b.patchInnerDimensions.y
  let numPatches : Index2D := ⟨ax.2.2, ay.2.2⟩
  let bboxMin ← check2 ⟨ax.1, ay.1⟩
  let bboxDim ← check2 ⟨ax.2.1, ay.2.1⟩
  let bbox ← (Box2I.mk' bboxMin bboxDim).check32
  let tractBBox ← (Box2I.mk' ⟨0, 0⟩ bbox.getDimensions).check32
  let st : BuilderState := ⟨numPatches, tractBBox⟩
  return (bbox, numPatches, { b with state := some st })

/-- `LegacyTractBuilder.getPatchInfo` (tractBuilder.py:223-253) and `CellTractBuilder.getPatchInfo` (tractBuilder.py:320-354): the point of
line 238, the boxes of lines 239 and 244-246. -/
def getPatchInfo32 {W : Type} (b : TractBuilder) (index : IndexArg) (tractWcs : W) : PyM (PatchInfo W) :=
  match b.state with
  | none => .error .RuntimeError
  | some st => do
    let i ← b.resolve index
    if ¬ (0 ≤ i.x ∧ i.x < st.numPatches.x) ∨ ¬ (0 ≤ i.y ∧ i.y < st.numPatches.y) then
      throw .IndexError
    let innerMin ← check2 ⟨i.x * b.patchInnerDimensions.x, i.y * b.patchInnerDimensions.y⟩
    let dims ← check2 b.patchInnerDimensions
    let inner ← (Box2I.mk' innerMin dims).check32
    if !st.tractBBox.containsBox inner then
      throw .RuntimeError
    let outer ← (inner.grow b.getPatchBorder).check32
    let seq ← b.getSequentialPatchIndexFromPair (.index2D i)
    match b.kind with
    | .legacy => do
      let outer ← (outer.clip st.tractBBox).check32
      PatchInfo.new i inner outer seq tractWcs
    | .cells c =>
      PatchInfo.new i inner outer seq tractWcs
        [c.cellInnerDimensions.x, c.cellInnerDimensions.y] c.cellBorder
        c.numCellsPerPatchInner c.numCellsInPatchBorder

end TractBuilder

/-- `PatchInfo.getCellInfo` (patchInfo.py:208-260): the point of lines 245-248, the boxes of lines 249-251. -/
def PatchInfo.getCellInfo32 {W : Type} (p : PatchInfo W) (index : IndexArg) : PyM (CellInfo W) :=
  if p.numCells.x = 0 ∨ p.numCells.y = 0 then .error .IndexError
  else do
    let i ← p.resolveCell index
    if ¬ (0 ≤ i.x ∧ i.x < p.numCells.x) ∨ ¬ (0 ≤ i.y ∧ i.y < p.numCells.y) then .error .IndexError
    else do
      let innerMin ← check2
        ⟨(i.x - p.numCellsInPatchBorder) * p.cellInnerDimensions.x + p.innerBBox.getMin.x,
         (i.y - p.numCellsInPatchBorder) * p.cellInnerDimensions.y + p.innerBBox.getMin.y⟩
      let dims ← check2 p.cellInnerDimensions
      let inner ← (Box2I.mk' innerMin dims).check32
      let outer ← (inner.grow p.cellBorder).check32
      CellInfo.new i inner outer (p.seqCellIndex i) p.wcs

variable {Sky K : Type} [Field K] [LinearOrder K] [FloorRing K]

/-- `TractInfo.__init__` (tractInfo.py:87-97) and `ExplicitTractInfo.__init__` (tractInfo.py:459-477) with the checked `setupPatches` and
the checked box of `_finalOrientation` (tractInfo.py:143). -/
def TractInfo.new32 (env : FloatEnv K) (ops : SkyOps Sky K) (b : TractBuilder) (a : TractArgs Sky K) :
    PyM (TractInfo Sky K × TractBuilder) := do
  let minBBox ← minimumBoundingBox env ops a
  let r ← b.setupPatches32 minBBox.toBox2I
  let finalBBox ← (Box2I.mk' ⟨0, 0⟩ r.1.getDimensions).check32
  let wcs := a.wcs.copyAtShiftedPixelOrigin
    ⟨((finalBBox.getMin.x - r.1.getMin.x : Int) : K), ((finalBBox.getMin.y - r.1.getMin.y : Int) : K)⟩
  return ({ id := a.id, ctrCoord := a.ctrCoord
            vertexCoordList := match a.shape with
              | .vertices l => l
              | .explicit _ => explicitVertices finalBBox wcs
            tractOverlap := a.tractOverlap, innerBoxCorners := a.innerBoxCorners
            numPatches := r.2.1, bbox := finalBBox, wcs := wcs }, r.2.2)

namespace TractInfo

/-- `TractInfo.getPatchInfo` (tractInfo.py:309-329). -/
def getPatchInfo32 (t : TractInfo Sky K) (b : TractBuilder) (index : IndexArg) : PyM (PatchInfo (Wcs Sky K)) :=
  b.getPatchInfo32 index t.wcs

/-- `contains` (tractInfo.py:418-428); `toInt` is the C++ conversion of a rounded `double` to `int`, which for a number out of range is
not defined by the language. -/
def contains32 (toInt : Int → Int) (t : TractInfo Sky K) (coord : Sky) : Bool :=
  match t.wcs.skyToPixel coord with
  | .raises => false
  | .nonfinite => false
  | .pix p => t.getBBox.contains ⟨toInt (toPoint2I p).x, toInt (toPoint2I p).y⟩

/-- `geom.Point2I(pixel)` (tractInfo.py:216). -/
def pixelIndex32 (toInt : Int → Int) (env : FloatEnv K) (t : TractInfo Sky K) (coord : Sky) : Option Point2I :=
  match t.wcs.skyToPixel coord with
  | .raises => none
  | .nonfinite => some env.nanPixel
  | .pix p => some ⟨toInt (toPoint2I p).x, toInt (toPoint2I p).y⟩

/-- `findPatch` (tractInfo.py:192-222). -/
def findPatch32 (toInt : Int → Int) (env : FloatEnv K) (t : TractInfo Sky K) (b : TractBuilder) (coord : Sky) :
    PyM (PatchInfo (Wcs Sky K)) :=
  match t.pixelIndex32 toInt env coord with
  | none => .error .LookupError
  | some pixelInd =>
    if !t.bbox.contains pixelInd then .error .LookupError
    else do
      let i ← patchOf env b pixelInd
      t.getPatchInfo32 b (.seq [i.x, i.y])

/-- `findPatchList` (tractInfo.py:224-268): the boxes of lines 257-259. -/
def findPatchList32 (env : FloatEnv K) (t : TractInfo Sky K) (b : TractBuilder) (coordList : List Sky) :
    PyM (List (PatchInfo (Wcs Sky K))) := do
  let bbox ← ((coordBox env.tweak t.wcs coordList).toBox2I).check32
  let bbox ← (bbox.grow b.getPatchBorder).check32
  let bbox ← (bbox.clip t.bbox).check32
  if bbox.isEmpty then .ok []
  else do
    let ll ← patchOf env b bbox.getMin
    let ur ← patchOf env b bbox.getMax
    pyMapM (fun i : Index2D => t.getPatchInfo32 b (.seq [i.x, i.y]))
      ((pyRange ll.x (ur.x + 1)).flatMap fun x => (pyRange ll.y (ur.y + 1)).map fun y => ⟨x, y⟩)

end TractInfo
end Skymap
