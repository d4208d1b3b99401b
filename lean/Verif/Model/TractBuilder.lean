import Verif.Model.Patch

/-!
# tractBuilder.py

One tract builder object is shared by all tracts of a sky map; `state` holds the attributes
`_numPatches`, `_tractBBox` (and `_initialized`) that `setupPatches` overwrites.
-/

namespace Skymap

/-- `CellTractBuilder`'s cell attributes (tractBuilder.py:308-313). -/
structure CellParams where
  cellInnerDimensions : Extent2I
  cellBorder : Int
  numCellsPerPatchInner : Int
  numCellsInPatchBorder : Int
  deriving DecidableEq, Repr

/-- Which concrete builder class: `LegacyTractBuilder` or `CellTractBuilder`. -/
inductive BuilderKind
  | legacy
  | cells (p : CellParams)
  deriving DecidableEq, Repr

/-- The attributes written by `setupPatches` (tractBuilder.py:88-91). -/
structure BuilderState where
  numPatches : Index2D
  tractBBox : Box2I
  deriving DecidableEq, Repr

/-- A `LegacyTractBuilder` or `CellTractBuilder` object.  `state = none` is `_initialized = False`. -/
structure TractBuilder where
  kind : BuilderKind
  patchInnerDimensions : Extent2I
  patchBorder : Int
  state : Option BuilderState
  deriving DecidableEq, Repr

/-- `LegacyTractBuilderConfig` (tractBuilder.py:198-209), with its defaults. -/
structure LegacyTractBuilderConfig where
  patchInnerDimensions : List Int := [4000, 4000]
  patchBorder : Int := 100
  deriving DecidableEq, Repr

/-- `CellTractBuilderConfig` (tractBuilder.py:271-292), with its defaults. -/
structure CellTractBuilderConfig where
  cellInnerDimensions : List Int := [150, 150]
  cellBorder : Int := 50
  numCellsPerPatchInner : Int := 20
  numCellsInPatchBorder : Int := 1
  deriving DecidableEq, Repr

/-- `CellTractBuilderConfig.validate` (tractBuilder.py:294-299). -/
def CellTractBuilderConfig.validate (c : CellTractBuilderConfig) : PyM Unit :=
  match c.cellInnerDimensions with
  | [a, b] => if a ≠ b then .error .ValueError else .ok ()
  | _ => .error .ValueError

/-- `LegacyTractBuilder.__init__` (tractBuilder.py:215-221).  Simplification: a list of fewer than two dimensions, which the
validation of the field refuses (`length=2`), is refused here (`Extent2I` would accept one number). -/
def LegacyTractBuilder.new (c : LegacyTractBuilderConfig) : PyM TractBuilder :=
  match c.patchInnerDimensions with
  | [a, b] => .ok { kind := .legacy, patchInnerDimensions := ⟨a, b⟩, patchBorder := c.patchBorder
                    state := none }
  | _ => .error .TypeError

/-- `CellTractBuilder.__init__` (tractBuilder.py:305-318), with the same simplification. -/
def CellTractBuilder.new (c : CellTractBuilderConfig) : PyM TractBuilder :=
  match c.cellInnerDimensions with
  | [a, b] => .ok
      { kind := .cells ⟨⟨a, b⟩, c.cellBorder, c.numCellsPerPatchInner, c.numCellsInPatchBorder⟩
        patchInnerDimensions := ⟨a * c.numCellsPerPatchInner, b * c.numCellsPerPatchInner⟩
        patchBorder := c.numCellsInPatchBorder * a + c.cellBorder
        state := none }
  | _ => .error .TypeError

namespace TractBuilder

/-- One axis of the loop in `setupPatches` (tractBuilder.py:79-86): the new minimum, the new
dimension and the number of patches. -/
def setupAxis (bboxMin bboxDim innerDim : Int) : PyM (Int × Int × Int) := do
  let num ← pyFloorDiv (bboxDim + innerDim - 1) innerDim
  let deltaDim := innerDim * num - bboxDim
  if deltaDim > 0 then
    let half ← pyFloorDiv deltaDim 2
    return (bboxMin - half, innerDim * num, num)
  else
    return (bboxMin, bboxDim, num)

/-- `BaseTractBuilder.setupPatches` (tractBuilder.py:53-94): returns the final bbox and the number of
patches, and the builder with its overwritten state.  The `wcs` argument is unused by the code. -/
def setupPatches (b : TractBuilder) (minBBox : Box2I) : PyM (Box2I × Index2D × TractBuilder) := do
  let ax ← setupAxis minBBox.getMin.x minBBox.getDimensions.x b.patchInnerDimensions.x
  let ay ← setupAxis minBBox.getMin.y minBBox.getDimensions.y b.patchInnerDimensions.y
  let numPatches : Index2D := ⟨ax.2.2, ay.2.2⟩
  let bbox := Box2I.mk' ⟨ax.1, ay.1⟩ ⟨ax.2.1, ay.2.1⟩
  let st : BuilderState := ⟨numPatches, Box2I.mk' ⟨0, 0⟩ bbox.getDimensions⟩
  return (bbox, numPatches, { b with state := some st })

/-- `getPatchBorder` (tractBuilder.py:96-97). -/
def getPatchBorder (b : TractBuilder) : Int := b.patchBorder

/-- `getPatchInnerDimensions` (tractBuilder.py:124-127). -/
def getPatchInnerDimensions (b : TractBuilder) : Extent2I := b.patchInnerDimensions

/-- Reading `self._numPatches` before `setupPatches` is an `AttributeError`. -/
def getState (b : TractBuilder) : PyM BuilderState :=
  match b.state with
  | some st => .ok st
  | none => .error .AttributeError

/-- `getSequentialPatchIndexFromPair` (tractBuilder.py:144-165). -/
def getSequentialPatchIndexFromPair (b : TractBuilder) (index : IndexArg) : PyM Int := do
  let i ← match index with
    | .index2D i => Except.ok i
    | .number _ => .error .ValueError
    | .seq l => if l.length ≠ 2 then .error .ValueError else Index2D.ofSeq l
  let st ← b.getState
  return st.numPatches.x * i.y + i.x

/-- `getSequentialPatchIndex` (tractBuilder.py:129-142). -/
def getSequentialPatchIndex {W : Type} (b : TractBuilder) (p : PatchInfo W) : PyM Int :=
  b.getSequentialPatchIndexFromPair (.index2D p.index)

/-- `getPatchIndexPair` (tractBuilder.py:167-181). -/
def getPatchIndexPair (b : TractBuilder) (s : Int) : PyM Index2D := do
  let st ← b.getState
  let x ← pyMod s st.numPatches.x
  let y ← pyFloorDiv s st.numPatches.x
  return ⟨x, y⟩

/-- tractBuilder.py:227-233 and 324-330: the index actually used by `getPatchInfo`. -/
def resolve (b : TractBuilder) : IndexArg → PyM Index2D
  | .index2D i => .ok i
  | .number n => b.getPatchIndexPair n
  | .seq l => Index2D.ofSeq l

/-- tractBuilder.py:238-239 and 335-336: the inner box of the patch with index `i`. -/
def patchInnerBBox (b : TractBuilder) (i : Index2D) : Box2I :=
  Box2I.mk' ⟨i.x * b.patchInnerDimensions.x, i.y * b.patchInnerDimensions.y⟩ b.patchInnerDimensions

/-- `LegacyTractBuilder.getPatchInfo` (tractBuilder.py:223-253) and `CellTractBuilder.getPatchInfo`
(tractBuilder.py:320-354).  The two bodies differ only in the clip (line 246) and in the cell
arguments of `PatchInfo` (lines 350-353). -/
def getPatchInfo {W : Type} (b : TractBuilder) (index : IndexArg) (tractWcs : W) : PyM (PatchInfo W) :=
  match b.state with
  | none => .error .RuntimeError
  | some st => do
    let i ← b.resolve index
    if ¬ (0 ≤ i.x ∧ i.x < st.numPatches.x) ∨ ¬ (0 ≤ i.y ∧ i.y < st.numPatches.y) then
      throw .IndexError
    if !st.tractBBox.containsBox (b.patchInnerBBox i) then
      throw .RuntimeError
    let outer := (b.patchInnerBBox i).grow b.getPatchBorder
    let seq ← b.getSequentialPatchIndexFromPair (.index2D i)
    match b.kind with
    | .legacy => PatchInfo.new i (b.patchInnerBBox i) (outer.clip st.tractBBox) seq tractWcs
    | .cells c =>
      PatchInfo.new i (b.patchInnerBBox i) outer seq tractWcs
        [c.cellInnerDimensions.x, c.cellInnerDimensions.y] c.cellBorder
        c.numCellsPerPatchInner c.numCellsInPatchBorder

end TractBuilder
end Skymap
