import Verif.Model.Geom

/-!
# cellInfo.py and patchInfo.py

The WCS carried by a patch or cell is an opaque value of type `W`.
-/

namespace Skymap

/-- The `index` argument accepted by `getPatchInfo`, `getCellInfo`, `getSequentialPatchIndexFromPair`:
an `Index2D`, a number, or some other iterable of ints (tractBuilder.py:227-233, patchInfo.py:230-236).
Numbers are ints here; for floats see Model/FloatIndex.lean. -/
inductive IndexArg
  | index2D (i : Index2D)
  | number (n : Int)
  | seq (l : List Int)
  deriving DecidableEq, Repr

/-- `Index2D(*l)` (detail/utils.py:81-93, a two-field NamedTuple): `TypeError` unless two values. -/
def Index2D.ofSeq : List Int → PyM Index2D
  | [x, y] => .ok ⟨x, y⟩
  | _ => .error .TypeError

/-- `CellInfo` (cellInfo.py:28-53).  The fields are what the getters return: `getIndex` (cellInfo.py:55-63), `getSequentialIndex`
(cellInfo.py:67-75), `getWcs` (cellInfo.py:79-87), `getInnerBBox` (cellInfo.py:91-99), `getOuterBBox` (cellInfo.py:103-111). -/
structure CellInfo (W : Type) where
  index : Index2D
  sequentialIndex : Int
  innerBBox : Box2I
  outerBBox : Box2I
  wcs : W
  deriving DecidableEq, Repr

/-- `CellInfo.__init__` (cellInfo.py:46-53). -/
def CellInfo.new {W : Type} (index : Index2D) (innerBBox outerBBox : Box2I) (sequentialIndex : Int)
    (tractWcs : W) : PyM (CellInfo W) :=
  if !outerBBox.containsBox innerBBox then .error .RuntimeError
  else .ok ⟨index, sequentialIndex, innerBBox, outerBBox, tractWcs⟩

/-- `CellInfo.__eq__` (cellInfo.py:155-158). -/
def CellInfo.eq {W : Type} (a b : CellInfo W) : Bool :=
  a.index == b.index && a.innerBBox == b.innerBBox && a.outerBBox == b.outerBBox

/-- `CellInfo.__ne__` (cellInfo.py:160-161). -/
def CellInfo.ne {W : Type} (a b : CellInfo W) : Bool := !(a.eq b)

/-- `PatchInfo` (patchInfo.py:33-87).  The fields are what the getters return: `getIndex` (patchInfo.py:89-97), `getSequentialIndex`
(patchInfo.py:101-109), `getWcs` (patchInfo.py:113-121), `getInnerBBox` (patchInfo.py:125-133), `getOuterBBox` (patchInfo.py:137-145),
`getNumCells` (patchInfo.py:189-199), `getCellBorder` (patchInfo.py:203-204), `getCellInnerDimensions` (patchInfo.py:262-265). -/
structure PatchInfo (W : Type) where
  index : Index2D
  sequentialIndex : Int
  innerBBox : Box2I
  outerBBox : Box2I
  wcs : W
  cellInnerDimensions : Extent2I
  cellBorder : Int
  numCellsInPatchBorder : Int
  numCells : Index2D
  deriving DecidableEq, Repr

namespace PatchInfo
variable {W : Type}

/-- `PatchInfo.__init__` (patchInfo.py:64-87); the keyword defaults are those of lines 66-67.
Simplification: `cellInnerDimensions` is always an iterable of ints. -/
def new (index : Index2D) (innerBBox outerBBox : Box2I) (sequentialIndex : Int) (tractWcs : W)
    (cellInnerDimensions : List Int := [0, 0]) (cellBorder : Int := 0)
    (numCellsPerPatchInner : Int := 0) (numCellsInPatchBorder : Int := 0) : PyM (PatchInfo W) :=
  if !outerBBox.containsBox innerBBox then .error .RuntimeError
  else match cellInnerDimensions with
    | [cx, cy] => .ok
        { index := index, sequentialIndex := sequentialIndex
          innerBBox := innerBBox, outerBBox := outerBBox, wcs := tractWcs
          cellInnerDimensions := ⟨cx, cy⟩, cellBorder := cellBorder
          numCellsInPatchBorder := numCellsInPatchBorder
          numCells :=
            if numCellsPerPatchInner = 0 then ⟨0, 0⟩
            else ⟨numCellsPerPatchInner + 2 * numCellsInPatchBorder,
                  numCellsPerPatchInner + 2 * numCellsInPatchBorder⟩ }
    | _ => .error .ValueError

/-- `getSequentialCellIndexFromPair` (patchInfo.py:289-311), on an `Index2D`. -/
def seqCellIndex (p : PatchInfo W) (i : Index2D) : Int := p.numCells.x * i.y + i.x

/-- `getSequentialCellIndexFromPair` (patchInfo.py:289-311), on any argument; unpacking a number
raises `TypeError`. -/
def getSequentialCellIndexFromPair (p : PatchInfo W) : IndexArg → PyM Int
  | .index2D i => .ok (p.seqCellIndex i)
  | .number _ => .error .TypeError
  | .seq l => (Index2D.ofSeq l).map p.seqCellIndex

/-- `getCellIndexPair` (patchInfo.py:313-335). -/
def getCellIndexPair (p : PatchInfo W) (s : Int) : PyM Index2D :=
  if p.numCells.x = 0 ∨ p.numCells.y = 0 then .error .IndexError
  else do
    let x ← pyMod s p.numCells.x
    let y ← pyFloorDiv s p.numCells.x
    return ⟨x, y⟩

/-- patchInfo.py:230-236: the index actually used by `getCellInfo`. -/
def resolveCell (p : PatchInfo W) : IndexArg → PyM Index2D
  | .index2D i => .ok i
  | .number n => p.getCellIndexPair n
  | .seq l => Index2D.ofSeq l

/-- patchInfo.py:245-250: the inner box of the cell with index `i`. -/
def cellInnerBBox (p : PatchInfo W) (i : Index2D) : Box2I :=
  Box2I.mk'
    ⟨(i.x - p.numCellsInPatchBorder) * p.cellInnerDimensions.x + p.innerBBox.getMin.x,
     (i.y - p.numCellsInPatchBorder) * p.cellInnerDimensions.y + p.innerBBox.getMin.y⟩
    p.cellInnerDimensions

/-- `getCellInfo` (patchInfo.py:208-260). -/
def getCellInfo (p : PatchInfo W) (index : IndexArg) : PyM (CellInfo W) :=
  if p.numCells.x = 0 ∨ p.numCells.y = 0 then .error .IndexError
  else do
    let i ← p.resolveCell index
    if ¬ (0 ≤ i.x ∧ i.x < p.numCells.x) ∨ ¬ (0 ≤ i.y ∧ i.y < p.numCells.y) then .error .IndexError
    else CellInfo.new i (p.cellInnerBBox i) ((p.cellInnerBBox i).grow p.cellBorder)
          (p.seqCellIndex i) p.wcs

/-- `__getitem__` (patchInfo.py:347-348). -/
def getItem (p : PatchInfo W) (index : IndexArg) : PyM (CellInfo W) := p.getCellInfo index

/-- `getSequentialCellIndex` (patchInfo.py:269-287). -/
def getSequentialCellIndex (p : PatchInfo W) (c : CellInfo W) : Int := p.seqCellIndex c.index

/-- `__iter__` (patchInfo.py:337-341). -/
def iter (p : PatchInfo W) : PyM (List (CellInfo W)) :=
  pyMapM (fun i => p.getCellInfo (.index2D i))
    ((pyRange 0 p.numCells.y).flatMap fun y => (pyRange 0 p.numCells.x).map fun x => ⟨x, y⟩)

/-- `__len__` (patchInfo.py:343-345).  (`len()` itself would reject a negative number.) -/
def len (p : PatchInfo W) : Int := p.numCells.x * p.numCells.y

/-- `__eq__` (patchInfo.py:350-355). -/
def eq (a b : PatchInfo W) : Bool :=
  a.index == b.index && a.innerBBox == b.innerBBox && a.outerBBox == b.outerBBox
    && a.numCells == b.numCells && a.cellBorder == b.cellBorder

/-- `__ne__` (patchInfo.py:357-358). -/
def ne (a b : PatchInfo W) : Bool := !(a.eq b)

end PatchInfo
end Skymap
