import Verif.Model.Tract

/-!
# What tracts, patches and cells print: `__str__` and `__repr__`

Python prints an int in decimal (`Int.repr`).  The text of an `Index2D` is that of a NamedTuple (detail/utils.py:81-93); the texts of
`lsst.geom` objects are not part of /repo and are modelled after its sources: `(x, y)` for an `Extent2I` or `Point2I`,
`(minimum=(x, y), maximum=(x, y))` for a `Box2I`.
-/

namespace Skymap

/-- `str(Index2D(x, y))` (detail/utils.py:81-93). -/
def Index2D.text (i : Index2D) : String := "Index2D(x=" ++ i.x.repr ++ ", y=" ++ i.y.repr ++ ")"

/-- `str(Extent2I(x, y))`, `str(Point2I(x, y))` (not part of /repo). -/
def pairText (p : I2) : String := "(" ++ p.x.repr ++ ", " ++ p.y.repr ++ ")"

/-- `str(box)` (not part of /repo). -/
def Box2I.text (b : Box2I) : String := "(minimum=" ++ pairText b.getMin ++ ", maximum=" ++ pairText b.getMax ++ ")"

variable {W : Type}

/-- `CellInfo.__str__` (cellInfo.py:163-164). -/
def CellInfo.str (c : CellInfo W) : String := "CellInfo(index=" ++ c.index.text ++ ")"

/-- `CellInfo.__repr__` (cellInfo.py:166-168). -/
def CellInfo.repr (c : CellInfo W) : String :=
  "CellInfo(index=" ++ c.index.text ++ ", innerBBox=" ++ c.innerBBox.text ++ ", outerBBox=" ++ c.outerBBox.text ++ ")"

/-- `PatchInfo.__str__` (patchInfo.py:360-361). -/
def PatchInfo.str (p : PatchInfo W) : String := "PatchInfo(index=" ++ p.index.text ++ ")"

/-- `PatchInfo.__repr__` (patchInfo.py:363-372).  What is printed as `numCellsPerPatchInner` is the number of all cells in x. -/
def PatchInfo.repr (p : PatchInfo W) : String :=
  if p.numCells.x > 0 then
    "PatchInfo(index=" ++ p.index.text ++ ", innerBBox=" ++ p.innerBBox.text ++ ", outerBBox=" ++ p.outerBBox.text ++
      ", cellInnerDimensions=" ++ pairText p.cellInnerDimensions ++ ", cellBorder=" ++ p.cellBorder.repr ++
      ", numCellsPerPatchInner=" ++ p.numCells.x.repr ++ ")"
  else
    "PatchInfo(index=" ++ p.index.text ++ ", innerBBox=" ++ p.innerBBox.text ++ ", outerBBox=" ++ p.outerBBox.text ++ ")"

variable {Sky K : Type}

/-- `TractInfo.__str__` (tractInfo.py:399-400). -/
def TractInfo.str (t : TractInfo Sky K) : String := "TractInfo(id=" ++ t.id.repr ++ ")"

/-- `TractInfo.__repr__` (tractInfo.py:402-403); the text of the unit vector of the centre is a parameter. -/
def TractInfo.repr (vectorText : Sky → String) (t : TractInfo Sky K) : String :=
  "TractInfo(id=" ++ t.id.repr ++ ", ctrCoord=" ++ vectorText t.ctrCoord ++ ")"

end Skymap
