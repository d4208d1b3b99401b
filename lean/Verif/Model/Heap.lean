import Verif.Model.SkyMap

/-!
# References to mutable objects

`lsst.geom.Box2I` and `lsst.geom.Extent2I` objects and Python lists are mutable, and a getter that returns one without copying it lets the caller
change the object from which it came.  The other models treat these objects as values.  This one keeps them in a heap and models which object each
attribute of tract builders, tracts, patches and cells refers to, which calls make new objects, and which change one in place.  A client is any
sequence of calls, and of assignments to the objects that calls have returned.

Python integers, `Index2D` (a named tuple), `SpherePoint` and `SkyWcs` are immutable and stay values.  Attributes whose names begin with an
underscore are only assigned by the code modelled here.
-/

namespace Skymap

/-- A reference to a `Box2I`. -/
structure BoxRef where
  addr : Nat
  deriving DecidableEq

/-- A reference to an `Extent2I`. -/
structure ExtentRef where
  addr : Nat
  deriving DecidableEq

/-- A reference to a Python list of sky positions. -/
structure ListRef where
  addr : Nat
  deriving DecidableEq

/-- The contents of the mutable objects, in the order of their creation. -/
structure Heap (Sky : Type) where
  boxes : List Box2I := []
  extents : List Extent2I := []
  lists : List (List Sky) := []

namespace Heap
variable {Sky : Type}

/-- The contents of a box object.  (The default is never used: there are no dangling references.) -/
def box (h : Heap Sky) (r : BoxRef) : Box2I := h.boxes.getD r.addr Box2I.empty

/-- The contents of an extent object. -/
def extent (h : Heap Sky) (r : ExtentRef) : Extent2I := h.extents.getD r.addr ⟨0, 0⟩

/-- The contents of a list object. -/
def list (h : Heap Sky) (r : ListRef) : List Sky := h.lists.getD r.addr []

/-- `geom.Box2I(..)`: a new object, also if the argument is a box. -/
def newBox (b : Box2I) : PyS (Heap Sky) BoxRef := fun h => (.ok ⟨h.boxes.length⟩, { h with boxes := h.boxes ++ [b] })

/-- `geom.Extent2I(..)`: a new object. -/
def newExtent (e : Extent2I) : PyS (Heap Sky) ExtentRef := fun h => (.ok ⟨h.extents.length⟩, { h with extents := h.extents ++ [e] })

/-- A new list object. -/
def newList (l : List Sky) : PyS (Heap Sky) ListRef := fun h => (.ok ⟨h.lists.length⟩, { h with lists := h.lists ++ [l] })

/-- Change a box object in place. -/
def setBox (h : Heap Sky) (r : BoxRef) (b : Box2I) : Heap Sky := { h with boxes := h.boxes.set r.addr b }

/-- Change an extent object in place. -/
def setExtent (h : Heap Sky) (r : ExtentRef) (e : Extent2I) : Heap Sky := { h with extents := h.extents.set r.addr e }

/-- Change a list object in place. -/
def setList (h : Heap Sky) (r : ListRef) (l : List Sky) : Heap Sky := { h with lists := h.lists.set r.addr l }

/-- Read a box. -/
def readBox (r : BoxRef) : PyS (Heap Sky) Box2I := fun h => (.ok (h.box r), h)

/-- Read an extent. -/
def readExtent (r : ExtentRef) : PyS (Heap Sky) Extent2I := fun h => (.ok (h.extent r), h)

/-- `box.grow(n)`, `box.clip(other)`: change the object in place. -/
def modifyBox (r : BoxRef) (f : Box2I → Box2I) : PyS (Heap Sky) Unit := fun h => (.ok (), h.setBox r (f (h.box r)))

end Heap

/-! ## Objects -/

/-- The class of a tract builder; `_cellInnerDimensions` (tractBuilder.py:308-309) refers to an `Extent2I`. -/
inductive HBuilderKind
  | legacy
  | cells (cellInnerDimensions : ExtentRef) (cellBorder numCellsPerPatchInner numCellsInPatchBorder : Int)

/-- A tract builder (tractBuilder.py:215-221 and 305-318): `_patchInnerDimensions` and, after `setupPatches`, `_tractBBox` (tractBuilder.py:88-91)
refer to mutable objects. -/
structure HBuilder where
  kind : HBuilderKind
  patchInnerDimensions : ExtentRef
  patchBorder : Int
  state : Option (Index2D × BoxRef)

/-- `_vertexCoordList`: a tuple, which is immutable (tractInfo.py:90), or, for an `ExplicitTractInfo`, the list that `SkyWcs.pixelToSky` made of a
list of points (tractInfo.py:477). -/
inductive HVertices (Sky : Type)
  | tuple (l : List Sky)
  | list (r : ListRef)

/-- A tract (tractInfo.py:87-97): `_bbox`, and `_vertexCoordList` if it is a list, refer to mutable objects. -/
structure HTract (Sky K : Type) where
  oid : Nat
  id : Int
  ctrCoord : Sky
  vertexCoordList : HVertices Sky
  tractOverlap : K
  innerBoxCorners : Option (Sky × Sky)
  numPatches : Index2D
  bbox : BoxRef
  wcs : Wcs Sky K

/-- A patch (patchInfo.py:64-87): `_innerBBox`, `_outerBBox` and `_cellInnerDimensions` refer to mutable objects. -/
structure HPatch (W : Type) where
  index : Index2D
  sequentialIndex : Int
  innerBBox : BoxRef
  outerBBox : BoxRef
  wcs : W
  cellInnerDimensions : ExtentRef
  cellBorder : Int
  numCellsInPatchBorder : Int
  numCells : Index2D

/-- A cell (cellInfo.py:46-53): `_innerBBox` and `_outerBBox` refer to mutable objects. -/
structure HCell (W : Type) where
  index : Index2D
  sequentialIndex : Int
  innerBBox : BoxRef
  outerBBox : BoxRef
  wcs : W

section
variable {Sky K W : Type}

/-- The class of a tract builder and the contents of its cell attributes. -/
def HBuilderKind.view (h : Heap Sky) : HBuilderKind → BuilderKind
  | .legacy => .legacy
  | .cells d cb n nb => .cells ⟨h.extent d, cb, n, nb⟩

/-- What a tract builder's methods read at a moment, as a value of Model/TractBuilder.lean. -/
def HBuilder.view (h : Heap Sky) (b : HBuilder) : TractBuilder where
  kind := b.kind.view h
  patchInnerDimensions := h.extent b.patchInnerDimensions
  patchBorder := b.patchBorder
  state := b.state.map fun st => ⟨st.1, h.box st.2⟩

/-- The contents of a tuple or list of vertices. -/
def HVertices.view (h : Heap Sky) : HVertices Sky → List Sky
  | .tuple l => l
  | .list r => h.list r

/-- The mutable list, if it is one. -/
def HVertices.refs : HVertices Sky → List ListRef
  | .tuple _ => []
  | .list r => [r]

/-- What a tract's methods read at a moment, as a value of Model/Tract.lean. -/
def HTract.view (h : Heap Sky) (t : HTract Sky K) : TractRef Sky K where
  oid := t.oid
  info := { id := t.id, ctrCoord := t.ctrCoord, vertexCoordList := t.vertexCoordList.view h, tractOverlap := t.tractOverlap
            innerBoxCorners := t.innerBoxCorners, numPatches := t.numPatches, bbox := h.box t.bbox, wcs := t.wcs }

/-- What a patch's methods read at a moment, as a value of Model/Patch.lean. -/
def HPatch.view (h : Heap Sky) (p : HPatch W) : PatchInfo W where
  index := p.index
  sequentialIndex := p.sequentialIndex
  innerBBox := h.box p.innerBBox
  outerBBox := h.box p.outerBBox
  wcs := p.wcs
  cellInnerDimensions := h.extent p.cellInnerDimensions
  cellBorder := p.cellBorder
  numCellsInPatchBorder := p.numCellsInPatchBorder
  numCells := p.numCells

/-- What a cell's methods read at a moment, as a value of Model/Patch.lean. -/
def HCell.view (h : Heap Sky) (c : HCell W) : CellInfo W where
  index := c.index
  sequentialIndex := c.sequentialIndex
  innerBBox := h.box c.innerBBox
  outerBBox := h.box c.outerBBox
  wcs := c.wcs

/-- The constructor of the tract builder of a sky map: `LegacyTractBuilder.__init__` (tractBuilder.py:215-221), `CellTractBuilder.__init__`
(tractBuilder.py:305-318).  It makes new extents.  `b` has the values of the attributes, from Model/TractBuilder.lean. -/
def HBuilder.new (b : TractBuilder) : PyS (Heap Sky) HBuilder := do
  let kind ← match b.kind with
    | .legacy => pure HBuilderKind.legacy
    | .cells c => do
      let d ← Heap.newExtent c.cellInnerDimensions
      pure (HBuilderKind.cells d c.cellBorder c.numCellsPerPatchInner c.numCellsInPatchBorder)
  let d ← Heap.newExtent b.patchInnerDimensions
  let state ← match b.state with
    | none => pure none
    | some st => do
      let r ← Heap.newBox st.tractBBox
      pure (some (st.numPatches, r))
  pure ⟨kind, d, b.patchBorder, state⟩

/-- `PatchInfo.__init__` (patchInfo.py:64-87): it keeps the two boxes that it is given, and makes a new `Extent2I` (line 79). -/
def HPatch.new (index : Index2D) (innerBBox outerBBox : BoxRef) (sequentialIndex : Int) (tractWcs : W) (cellInnerDimensions : Extent2I)
    (cellBorder numCellsPerPatchInner numCellsInPatchBorder : Int) : PyS (Heap Sky) (HPatch W) := do
  let inner ← Heap.readBox innerBBox
  let outer ← Heap.readBox outerBBox
  if !outer.containsBox inner then PyS.lift (.error .RuntimeError)
  else do
    let d ← Heap.newExtent cellInnerDimensions
    pure { index := index, sequentialIndex := sequentialIndex, innerBBox := innerBBox, outerBBox := outerBBox, wcs := tractWcs
           cellInnerDimensions := d, cellBorder := cellBorder, numCellsInPatchBorder := numCellsInPatchBorder
           numCells := if numCellsPerPatchInner = 0 then ⟨0, 0⟩
             else ⟨numCellsPerPatchInner + 2 * numCellsInPatchBorder, numCellsPerPatchInner + 2 * numCellsInPatchBorder⟩ }

/-- `getPatchInfo` (tractBuilder.py:223-253 and 320-354): the inner box is new (line 239), the outer box is a copy of it (line 244) that is grown and
clipped in place (lines 245-246). -/
def HBuilder.getPatchInfo (b : HBuilder) (index : IndexArg) (tractWcs : W) : PyS (Heap Sky) (HPatch W) :=
  match b.state with
  | none => PyS.lift (.error .RuntimeError)
  | some st => do
    let h ← PyS.get
    let i ← PyS.lift ((b.view h).resolve index)
    if ¬ (0 ≤ i.x ∧ i.x < st.1.x) ∨ ¬ (0 ≤ i.y ∧ i.y < st.1.y) then PyS.lift (.error .IndexError)
    else do
      let innerBBox ← Heap.newBox ((b.view h).patchInnerBBox i)
      let tractBBox ← Heap.readBox st.2
      let inner ← Heap.readBox innerBBox
      if !tractBBox.containsBox inner then PyS.lift (.error .RuntimeError)
      else do
        let outerBBox ← Heap.newBox inner
        Heap.modifyBox outerBBox fun x => x.grow b.patchBorder
        match b.kind with
        | .legacy => do
          Heap.modifyBox outerBBox fun x => x.clip tractBBox
          HPatch.new i innerBBox outerBBox (st.1.x * i.y + i.x) tractWcs ⟨0, 0⟩ 0 0 0
        | .cells d cb n nb => do
          let dims ← Heap.readExtent d
          HPatch.new i innerBBox outerBBox (st.1.x * i.y + i.x) tractWcs dims cb n nb

/-- `getCellInfo` (patchInfo.py:208-260): the inner box is new (line 250), the outer box is a copy (line 251) that is grown in place (line 252);
`CellInfo.__init__` (cellInfo.py:46-53) keeps both. -/
def HPatch.getCellInfo (p : HPatch W) (index : IndexArg) : PyS (Heap Sky) (HCell W) := do
  let h ← PyS.get
  let v := p.view h
  if p.numCells.x = 0 ∨ p.numCells.y = 0 then PyS.lift (.error .IndexError)
  else do
    let i ← PyS.lift (v.resolveCell index)
    if ¬ (0 ≤ i.x ∧ i.x < p.numCells.x) ∨ ¬ (0 ≤ i.y ∧ i.y < p.numCells.y) then PyS.lift (.error .IndexError)
    else do
      let innerBBox ← Heap.newBox (v.cellInnerBBox i)
      let inner ← Heap.readBox innerBBox
      let outerBBox ← Heap.newBox inner
      Heap.modifyBox outerBBox fun x => x.grow p.cellBorder
      let outer ← Heap.readBox outerBBox
      if !outer.containsBox inner then PyS.lift (.error .RuntimeError)
      else pure ⟨i, p.numCells.x * i.y + i.x, innerBBox, outerBBox, p.wcs⟩

/-- `TractInfo.getBBox` (tractInfo.py:270-273): a copy. -/
def HTract.getBBox (t : HTract Sky K) : PyS (Heap Sky) BoxRef := do
  let b ← Heap.readBox t.bbox
  Heap.newBox b

/-- `TractInfo.getVertexList` (tractInfo.py:345-353): the tract's own tuple or list. -/
def HTract.getVertexList (t : HTract Sky K) : HVertices Sky := t.vertexCoordList

/-- `TractInfo.getPatchInnerDimensions` (tractInfo.py:331-334) and `BaseTractBuilder.getPatchInnerDimensions` (tractBuilder.py:124-127): the
builder's own extent. -/
def HBuilder.getPatchInnerDimensions (b : HBuilder) : ExtentRef := b.patchInnerDimensions

/-- `PatchInfo.getInnerBBox` (patchInfo.py:125-133): the patch's own box. -/
def HPatch.getInnerBBox (p : HPatch W) : BoxRef := p.innerBBox

/-- `PatchInfo.getOuterBBox` (patchInfo.py:137-145): the patch's own box. -/
def HPatch.getOuterBBox (p : HPatch W) : BoxRef := p.outerBBox

/-- `PatchInfo.getCellInnerDimensions` (patchInfo.py:262-265): the patch's own extent. -/
def HPatch.getCellInnerDimensions (p : HPatch W) : ExtentRef := p.cellInnerDimensions

/-- `CellInfo.getInnerBBox` (cellInfo.py:91-99): the cell's own box. -/
def HCell.getInnerBBox (c : HCell W) : BoxRef := c.innerBBox

/-- `CellInfo.getOuterBBox` (cellInfo.py:103-111): the cell's own box. -/
def HCell.getOuterBBox (c : HCell W) : BoxRef := c.outerBBox

end

/-! ## Sky maps -/

/-- The state of a sky map: the mutable objects, the shared tract builder and the tracts (baseSkyMap.py:158-170, cachingSkyMap.py:51-56). -/
structure HMap (Sky K : Type) where
  heap : Heap Sky
  builder : HBuilder
  cache : List (Option (HTract Sky K))
  nextOid : Nat

section
variable {Sky K : Type} [Field K] [LinearOrder K] [FloorRing K]

/-- `setupPatches` (tractBuilder.py:53-94): it changes copies of the corner and of the dimensions, and returns a new box; `_tractBBox` is another
new box. -/
def HBuilder.setupPatches (b : HBuilder) (minBBox : Box2I) : PyS (Heap Sky) (BoxRef × Index2D × HBuilder) := do
  let h ← PyS.get
  let r ← PyS.lift ((b.view h).setupPatches minBBox)
  let bbox ← Heap.newBox r.1
  let tractBBox ← Heap.newBox (Box2I.mk' ⟨0, 0⟩ r.1.getDimensions)
  pure (bbox, r.2.1, { b with state := some (r.2.1, tractBBox) })

/-- The constructors of tracts (tractInfo.py:87-97 and 459-477): `_bbox` is the new box that `_finalOrientation` makes (tractInfo.py:143);
`_vertexCoordList` is a tuple of the given vertices, or a new list for an `ExplicitTractInfo`. -/
def HTract.new (env : FloatEnv K) (ops : SkyOps Sky K) (oid : Nat) (b : HBuilder) (a : TractArgs Sky K) :
    PyS (Heap Sky) (HTract Sky K × HBuilder) := do
  let minBBox ← PyS.lift (minimumBoundingBox env ops a)
  let r ← b.setupPatches minBBox.toBox2I
  let bbox ← Heap.readBox r.1
  let fo := finalOrientation bbox a.wcs
  let final ← Heap.newBox fo.1
  let vertices ← match a.shape with
    | .vertices l => pure (HVertices.tuple l)
    | .explicit _ => do
      let x ← Heap.newList (explicitVertices fo.1 fo.2)
      pure (HVertices.list x)
  pure ({ oid := oid, id := a.id, ctrCoord := a.ctrCoord, vertexCoordList := vertices, tractOverlap := a.tractOverlap
          innerBoxCorners := a.innerBoxCorners, numPatches := r.2.1, bbox := final, wcs := fo.2 }, r.2.2)

/-- `BaseSkyMap.__init__` (baseSkyMap.py:158-170): the new tract builder and an empty list of tracts.  (`HBuilder.new` does not fail.) -/
def HMap.start (b : TractBuilder) : HMap Sky K :=
  match (HBuilder.new b : PyS (Heap Sky) HBuilder) {} with
  | (.ok hb, h) => ⟨h, hb, [], 0⟩
  | (.error _, h) => ⟨h, ⟨.legacy, ⟨0⟩, 0, none⟩, [], 0⟩

/-- A new sky map that makes its tracts when they are asked for (cachingSkyMap.py:51-56). -/
def HMap.init (m : CachingDef Sky K) (b : TractBuilder) : HMap Sky K := { (HMap.start b : HMap Sky K) with cache := List.replicate m.numTracts none }

/-- `generateTract` (cachingSkyMap.py:94-96 and its overrides). -/
def HMap.generateTract (m : CachingDef Sky K) (index : Int) : PyS (HMap Sky K) (HTract Sky K) := fun s =>
  match m.tractArgs index with
  | .error e => (.error e, s)
  | .ok a => match HTract.new m.env m.ops s.nextOid s.builder a s.heap with
    | (.error e, h) => (.error e, { s with heap := h })
    | (.ok (t, b), h) => (.ok t, { s with heap := h, builder := b, nextOid := s.nextOid + 1 })

/-- `CachingSkyMap.__getitem__` (cachingSkyMap.py:80-92). -/
def HMap.cachingGetItem (m : CachingDef Sky K) (index : Int) : PyS (HMap Sky K) (HTract Sky K) := fun s =>
  if index < 0 ∨ index > (m.numTracts : Int) then (.error .IndexError, s)
  else match pyGetItem s.cache index with
    | .error e => (.error e, s)
    | .ok (some t) => (.ok t, s)
    | .ok none => match HMap.generateTract m index s with
      | (.error e, s') => (.error e, s')
      | (.ok t, s') => (.ok t, { s' with cache := s'.cache.set index.toNat (some t) })

/-- The loops in `DodecaSkyMap.__init__` (dodecaSkyMap.py:68-93) and `EquatSkyMap.__init__` (equatSkyMap.py:64-99). -/
def HMap.buildAll (env : FloatEnv K) (ops : SkyOps Sky K) : List (TractArgs Sky K) → PyS (HMap Sky K) Unit
  | [] => PyS.pure ()
  | a :: l => fun s =>
    match HTract.new env ops s.nextOid s.builder a s.heap with
    | (.error e, h) => (.error e, { s with heap := h })
    | (.ok (t, b), h) => HMap.buildAll env ops l { heap := h, builder := b, cache := s.cache ++ [some t], nextOid := s.nextOid + 1 }

/-- `BaseSkyMap.__getitem__` (baseSkyMap.py:299-300) of a sky map that has its tracts in a list. -/
def HMap.eagerGetItem (index : Int) : PyS (HMap Sky K) (HTract Sky K) := fun s =>
  match pyGetItem s.cache index with
  | .error e => (.error e, s)
  | .ok none => (.error .IndexError, s)
  | .ok (some t) => (.ok t, s)

end

/-! ## Clients -/

section
variable {Sky K : Type}

/-- What a client asks of the sky map and its tracts. -/
inductive Request
  | tract (k : Int)
  | bbox (k : Int)
  | vertices (k : Int)
  | patchDims (k : Int)
  | patch (k : Int) (i : IndexArg)

/-- The answer, with the contents of the returned object when it is returned.  For `skyMap[k]`: everything that methods of the tract read. -/
inductive Reply (Sky K : Type)
  | tract (r : PyM (TractRef Sky K × TractBuilder))
  | bbox (r : PyM Box2I)
  | vertices (r : PyM (List Sky))
  | patchDims (r : PyM Extent2I)
  | patch (r : PyM (PatchInfo (Wcs Sky K)))

/-- What a client does: it asks, calls methods of patches and cells that it holds (given by their numbers), or assigns to (any part of) a mutable
object that a call has returned. -/
inductive Action (Sky : Type)
  | ask (q : Request)
  | patchInnerBBox (n : Nat)
  | patchOuterBBox (n : Nat)
  | patchCellDims (n : Nat)
  | cell (n : Nat) (i : IndexArg)
  | cellInnerBBox (n : Nat)
  | cellOuterBBox (n : Nat)
  | writeBox (n : Nat) (b : Box2I)
  | writeCellDims (n : Nat) (e : Extent2I)
  | writePatchDims (n : Nat) (e : Extent2I)
  | writeVertices (n : Nat) (l : List Sky)

/-- A sky map and what a client has got from it: patches, cells, boxes (from `getBBox` of tracts and from patches and cells), extents from
`getCellInnerDimensions` of patches, extents from `getPatchInnerDimensions` of tracts, lists (not tuples) from `getVertexList`. -/
structure Client (Sky K : Type) where
  map : HMap Sky K
  patches : List (HPatch (Wcs Sky K)) := []
  cells : List (HCell (Wcs Sky K)) := []
  boxes : List BoxRef := []
  cellDims : List ExtentRef := []
  patchDims : List ExtentRef := []
  vertices : List ListRef := []

/-- Run a method that only uses the heap. -/
def HMap.onHeap {α : Type} (f : PyS (Heap Sky) α) : PyS (HMap Sky K) α := fun s => ((f s.heap).1, { s with heap := (f s.heap).2 })

/-- One request; `getItem` is `skyMap[k]`. -/
def Client.ask (getItem : Int → PyS (HMap Sky K) (HTract Sky K)) (q : Request) (c : Client Sky K) : Reply Sky K × Client Sky K :=
  match q with
  | .tract k => match getItem k c.map with
    | (.error e, s) => (.tract (.error e), { c with map := s })
    | (.ok t, s) => (.tract (.ok (t.view s.heap, s.builder.view s.heap)), { c with map := s })
  | .bbox k => match (PyS.bind (getItem k) fun t => HMap.onHeap t.getBBox) c.map with
    | (.error e, s) => (.bbox (.error e), { c with map := s })
    | (.ok r, s) => (.bbox (.ok (s.heap.box r)), { c with map := s, boxes := c.boxes ++ [r] })
  | .vertices k => match getItem k c.map with
    | (.error e, s) => (.vertices (.error e), { c with map := s })
    | (.ok t, s) => (.vertices (.ok (t.getVertexList.view s.heap)), { c with map := s, vertices := c.vertices ++ t.getVertexList.refs })
  | .patchDims k => match getItem k c.map with
    | (.error e, s) => (.patchDims (.error e), { c with map := s })
    | (.ok _, s) => (.patchDims (.ok (s.heap.extent s.builder.getPatchInnerDimensions)),
        { c with map := s, patchDims := c.patchDims ++ [s.builder.getPatchInnerDimensions] })
  | .patch k i => match (PyS.bind (getItem k) fun t s => HMap.onHeap (s.builder.getPatchInfo i t.wcs) s) c.map with
    | (.error e, s) => (.patch (.error e), { c with map := s })
    | (.ok p, s) => (.patch (.ok (p.view s.heap)), { c with map := s, patches := c.patches ++ [p] })

/-- Change the heap. -/
def Client.write (c : Client Sky K) (f : Heap Sky → Heap Sky) : Client Sky K := { c with map := { c.map with heap := f c.map.heap } }

/-- One action of the client; a number of an object that it does not hold does nothing. -/
def Client.act (getItem : Int → PyS (HMap Sky K) (HTract Sky K)) (a : Action Sky) (c : Client Sky K) : Client Sky K :=
  match a with
  | .ask q => (c.ask getItem q).2
  | .patchInnerBBox n => match c.patches[n]? with
    | some p => { c with boxes := c.boxes ++ [p.getInnerBBox] }
    | none => c
  | .patchOuterBBox n => match c.patches[n]? with
    | some p => { c with boxes := c.boxes ++ [p.getOuterBBox] }
    | none => c
  | .patchCellDims n => match c.patches[n]? with
    | some p => { c with cellDims := c.cellDims ++ [p.getCellInnerDimensions] }
    | none => c
  | .cell n i => match c.patches[n]? with
    | some p => match HMap.onHeap (p.getCellInfo i) c.map with
      | (.error _, s) => { c with map := s }
      | (.ok x, s) => { c with map := s, cells := c.cells ++ [x] }
    | none => c
  | .cellInnerBBox n => match c.cells[n]? with
    | some x => { c with boxes := c.boxes ++ [x.getInnerBBox] }
    | none => c
  | .cellOuterBBox n => match c.cells[n]? with
    | some x => { c with boxes := c.boxes ++ [x.getOuterBBox] }
    | none => c
  | .writeBox n b => match c.boxes[n]? with
    | some r => c.write fun h => h.setBox r b
    | none => c
  | .writeCellDims n e => match c.cellDims[n]? with
    | some r => c.write fun h => h.setExtent r e
    | none => c
  | .writePatchDims n e => match c.patchDims[n]? with
    | some r => c.write fun h => h.setExtent r e
    | none => c
  | .writeVertices n l => match c.vertices[n]? with
    | some r => c.write fun h => h.setList r l
    | none => c

/-- All actions of a client, and the answers to its requests. -/
def Client.run (getItem : Int → PyS (HMap Sky K) (HTract Sky K)) : List (Action Sky) → Client Sky K → List (Reply Sky K) × Client Sky K
  | [], c => ([], c)
  | .ask q :: l, c => let r := c.ask getItem q; let r' := Client.run getItem l r.2; (r.1 :: r'.1, r'.2)
  | a :: l, c => Client.run getItem l (c.act getItem a)

end
end Skymap
