import Verif.Model.SkyMap
import Verif.Model.Sha1

/-!
# Several threads using one caching sky map

The methods of cachingSkyMap.py, tractBuilder.py, tractInfo.py and `getSha1` again, this time as sequences of atomic
reads and writes of the attributes that change: `_tractCache`, the builder's `_numPatches`, `_tractBBox`, `_initialized`,
and `_sha1`.  Python (with its global interpreter lock, or per-object locks) makes a single read or write of an attribute
or list element atomic and nothing more; between two of them any other thread may run.  All other attributes are never
assigned after construction, so everything computed from them and from local variables takes place within a step.
Not modelled: exceptions raised asynchronously in a thread, and the library calls inside a step are assumed to be
thread-safe themselves.
-/

namespace Skymap

/-- A method in execution: it has returned or raised, or its next step reads the shared state `s`, changes it to `upd s` and goes
on as `next s`. -/
inductive Thread (σ α : Type)
  | done (r : PyM α)
  | step (upd : σ → σ) (next : σ → Thread σ α)

namespace Thread
variable {σ α β : Type}

/-- Sequencing; an exception ends the method. -/
protected def bind : Thread σ α → (α → Thread σ β) → Thread σ β
  | .done (.ok a), f => f a
  | .done (.error e), _ => .done (.error e)
  | .step u n, f => .step u fun s => (n s).bind f

instance : Monad (Thread σ) where
  pure a := .done (.ok a)
  bind := Thread.bind

/-- A computation on local variables and attributes that never change. -/
def lift (x : PyM α) : Thread σ α := .done x

/-- Read the shared state. -/
def read (f : σ → PyM α) : Thread σ α := .step id fun s => .done (f s)

/-- Write the shared state. -/
def write (f : σ → σ) : Thread σ Unit := .step f fun _ => .done (.ok ())

/-- A `for` loop collecting one result per element. -/
def mapM (f : α → Thread σ β) : List α → Thread σ (List β)
  | [] => .done (.ok [])
  | a :: l => (f a).bind fun b => (mapM f l).bind fun bs => .done (.ok (b :: bs))

/-- The method run to its end with no other thread in between. -/
def run : Thread σ α → σ → PyM α × σ
  | .done r, s => (r, s)
  | .step u n, s => (n s).run (u s)

end Thread

/-! ## The machine -/

/-- Threads at work: the shared state, the calls in execution and the calls that have ended, with their results.  A call belongs
to some thread; which one does not matter. -/
structure System (σ Req Res : Type) where
  shared : σ
  running : List (Req × Thread σ Res)
  ended : List (Req × PyM Res)

variable {σ Req Res : Type}

/-- What can happen next: some thread starts a call that `allowed` permits (given the calls that have ended), some call takes
one step, or some call ends. -/
inductive System.Next (allowed : List (Req × PyM Res) → Req → Prop) (program : Req → Thread σ Res) :
    System σ Req Res → System σ Req Res → Prop
  | start (S : System σ Req Res) (q : Req) (h : allowed S.ended q) :
      Next allowed program S { S with running := S.running ++ [(q, program q)] }
  | work (s : σ) (l₁ l₂ : List (Req × Thread σ Res)) (e : List (Req × PyM Res)) (q : Req) (u : σ → σ) (n : σ → Thread σ Res) :
      Next allowed program ⟨s, l₁ ++ (q, .step u n) :: l₂, e⟩ ⟨u s, l₁ ++ (q, n s) :: l₂, e⟩
  | finish (s : σ) (l₁ l₂ : List (Req × Thread σ Res)) (e : List (Req × PyM Res)) (q : Req) (r : PyM Res) :
      Next allowed program ⟨s, l₁ ++ (q, .done r) :: l₂, e⟩ ⟨s, l₁ ++ l₂, e ++ [(q, r)]⟩

/-- `S` is reached from the shared state `s₀`, with no call in execution, by any number of threads making any calls, under
any schedule. -/
inductive System.Reached (allowed : List (Req × PyM Res) → Req → Prop) (program : Req → Thread σ Res) (s₀ : σ) :
    System σ Req Res → Prop
  | init : Reached allowed program s₀ ⟨s₀, [], []⟩
  | next {S S' : System σ Req Res} : Reached allowed program s₀ S → System.Next allowed program S S' →
      Reached allowed program s₀ S'

/-! ## The shared state and the methods -/

/-- The attributes of a caching sky map and of its tract builder that change: `_numPatches`, `_tractBBox`, `_initialized`
(tractBuilder.py:88-91; absent, absent, False at first), `_tractCache` (cachingSkyMap.py:54), `_sha1` (baseSkyMap.py:169);
`nextOid` counts the tract objects created so far, as in `MapState`.  `made` records which tract each object is; it is not an attribute of the
program and no step reads it: it only serves to say that an object is the object of one tract. -/
structure SharedMap (Sky K : Type) where
  numPatches : Option Index2D
  tractBBox : Option Box2I
  initialized : Bool
  cache : List (Option (TractRef Sky K))
  nextOid : Nat
  sha1 : Option Bytes
  made : Nat → Option (TractInfo Sky K)

/-- Which tract an object is, when all objects are in the cache (as is the case with one thread). -/
def objects {Sky K : Type} (cache : List (Option (TractRef Sky K))) (o : Nat) : Option (TractInfo Sky K) :=
  cache.findSome? fun x => x.bind fun r => if r.oid = o then some r.info else none

/-- The shared attributes of a sky map that was used by one thread so far. -/
def SharedMap.ofState {Sky K : Type} (s : MapState Sky K) (h : Option Bytes) : SharedMap Sky K :=
  ⟨s.builder.state.map (·.numPatches), s.builder.state.map (·.tractBBox), s.builder.state.isSome, s.cache, s.nextOid, h,
    objects s.cache⟩

namespace Threads
variable {Sky K : Type}

/-- Reading an attribute that was not assigned yet. -/
def getAttr {α : Type} : Option α → PyM α
  | some a => .ok a
  | none => .error .AttributeError

/-- `self._numPatches` (tractBuilder.py). -/
def readNumPatches : Thread (SharedMap Sky K) Index2D := .read fun s => getAttr s.numPatches

/-- `self._tractBBox` (tractBuilder.py). -/
def readTractBBox : Thread (SharedMap Sky K) Box2I := .read fun s => getAttr s.tractBBox

/-- `BaseTractBuilder.setupPatches` (tractBuilder.py:53-94): the values are computed from the arguments and the configured dimensions
(lines 75-87), assigned one by one (88-91) and returned from local variables (93). -/
def setupPatches (b : TractBuilder) (minBBox : Box2I) : Thread (SharedMap Sky K) (Box2I × Index2D) := do
  let r ← Thread.lift (b.setupPatches minBBox)
  Thread.write fun s => { s with numPatches := some r.2.1 }
  Thread.write fun s => { s with tractBBox := some (Box2I.mk' ⟨0, 0⟩ r.1.getDimensions) }
  Thread.write fun s => { s with initialized := true }
  return (r.1, r.2.1)

variable [Field K] [LinearOrder K] [FloorRing K]

/-- `TractInfo.__init__` and `ExplicitTractInfo.__init__` (tractInfo.py:87-97, 459-477), and the creation of the object. -/
def newTract (env : FloatEnv K) (ops : SkyOps Sky K) (b : TractBuilder) (a : TractArgs Sky K) :
    Thread (SharedMap Sky K) (TractRef Sky K) := do
  let minBBox ← Thread.lift (minimumBoundingBox env ops a)
  let r ← setupPatches b minBBox.toBox2I
  let fo := finalOrientation r.1 a.wcs
  let info : TractInfo Sky K :=
    { id := a.id, ctrCoord := a.ctrCoord
      vertexCoordList := match a.shape with
        | .vertices l => l
        | .explicit _ => explicitVertices fo.1 fo.2
      tractOverlap := a.tractOverlap, innerBoxCorners := a.innerBoxCorners
      numPatches := r.2, bbox := fo.1, wcs := fo.2 }
  Thread.step (fun s => { s with nextOid := s.nextOid + 1, made := fun o => if o = s.nextOid then some info else s.made o })
    fun s => .done (.ok ⟨s.nextOid, info⟩)

/-- `generateTract` (cachingSkyMap.py:94-96 and its overrides). -/
def generateTract (m : CachingDef Sky K) (b : TractBuilder) (index : Int) : Thread (SharedMap Sky K) (TractRef Sky K) := do
  let a ← Thread.lift (m.tractArgs index)
  newTract m.env m.ops b a

/-- `__getitem__` (cachingSkyMap.py:80-92): the cache is read twice if the first read finds a tract (lines 87-88).  (If the second
read found none the method would return None; it never does, which is part of what is proved.) -/
def getItem (m : CachingDef Sky K) (b : TractBuilder) (index : Int) : Thread (SharedMap Sky K) (TractRef Sky K) :=
  if index < 0 ∨ index > (m.numTracts : Int) then Thread.lift (.error .IndexError)
  else do
    let x ← Thread.read fun s => pyGetItem s.cache index
    if x.isSome then
      let y ← Thread.read fun s => pyGetItem s.cache index
      Thread.lift (match y with
        | some r => .ok r
        | none => .error .TypeError)
    else
      let tract ← generateTract m b index
      Thread.write fun s => { s with cache := s.cache.set index.toNat (some tract) }
      return tract

/-- `getPatchIndexPair` (tractBuilder.py:167-181). -/
def getPatchIndexPair (sequentialIndex : Int) : Thread (SharedMap Sky K) Index2D := do
  let n ← readNumPatches
  let x ← Thread.lift (pyMod sequentialIndex n.x)
  let y ← Thread.lift (pyFloorDiv sequentialIndex n.x)
  return ⟨x, y⟩

/-- `getSequentialPatchIndexFromPair` (tractBuilder.py:144-165). -/
def getSequentialPatchIndexFromPair (index : IndexArg) : Thread (SharedMap Sky K) Int := do
  let i ← Thread.lift (match index with
    | .index2D i => Except.ok i
    | .number _ => .error .ValueError
    | .seq l => if l.length ≠ 2 then .error .ValueError else Index2D.ofSeq l)
  let n ← readNumPatches
  return n.x * i.y + i.x

/-- tractBuilder.py:227-233 and 324-330: the index actually used by `getPatchInfo`. -/
def resolve : IndexArg → Thread (SharedMap Sky K) Index2D
  | .index2D i => pure i
  | .number n => getPatchIndexPair n
  | .seq l => Thread.lift (Index2D.ofSeq l)

/-- `0 <= v < self._numPatches[axis]` (tractBuilder.py:234-235 and 331-332): the attribute is only read if `0 <= v`. -/
def inAxis (v : Int) (axis : Index2D → Int) : Thread (SharedMap Sky K) Bool :=
  if 0 ≤ v then readNumPatches.bind fun n => pure (decide (v < axis n)) else pure false

/-- `getPatchInfo` of both builders (tractBuilder.py:223-253 and 320-354). -/
def getPatchInfo {W : Type} (b : TractBuilder) (index : IndexArg) (tractWcs : W) : Thread (SharedMap Sky K) (PatchInfo W) := do
  let ready ← Thread.read fun s => .ok s.initialized
  if !ready then Thread.lift (.error .RuntimeError)
  else
    let i ← resolve index
    let inX ← inAxis i.x (·.x)
    if !inX then Thread.lift (.error .IndexError)
    else
      let inY ← inAxis i.y (·.y)
      if !inY then Thread.lift (.error .IndexError)
      else
        let box ← readTractBBox
        if !box.containsBox (b.patchInnerBBox i) then Thread.lift (.error .RuntimeError)
        else
          let outer := (b.patchInnerBBox i).grow b.getPatchBorder
          match b.kind with
          | .legacy =>
            let box' ← readTractBBox
            let seq ← getSequentialPatchIndexFromPair (.index2D i)
            Thread.lift (PatchInfo.new i (b.patchInnerBBox i) (outer.clip box') seq tractWcs)
          | .cells c =>
            let seq ← getSequentialPatchIndexFromPair (.index2D i)
            Thread.lift (PatchInfo.new i (b.patchInnerBBox i) outer seq tractWcs
              [c.cellInnerDimensions.x, c.cellInnerDimensions.y] c.cellBorder
              c.numCellsPerPatchInner c.numCellsInPatchBorder)

/-- `findPatch` (tractInfo.py:192-222). -/
def findPatch (env : FloatEnv K) (b : TractBuilder) (t : TractInfo Sky K) (coord : Sky) :
    Thread (SharedMap Sky K) (PatchInfo (Wcs Sky K)) :=
  match t.pixelIndex env coord with
  | none => Thread.lift (.error .LookupError)
  | some pixelInd =>
    if !t.bbox.contains pixelInd then Thread.lift (.error .LookupError)
    else do
      let i ← Thread.lift (TractInfo.patchOf env b pixelInd)
      getPatchInfo b (.seq [i.x, i.y]) t.wcs

/-- `findPatchList` (tractInfo.py:224-268). -/
def findPatchList (env : FloatEnv K) (b : TractBuilder) (t : TractInfo Sky K) (coordList : List Sky) :
    Thread (SharedMap Sky K) (List (PatchInfo (Wcs Sky K))) :=
  let bbox := (((TractInfo.coordBox env.tweak t.wcs coordList).toBox2I).grow b.getPatchBorder).clip t.bbox
  if bbox.isEmpty then pure []
  else do
    let ll ← Thread.lift (TractInfo.patchOf env b bbox.getMin)
    let ur ← Thread.lift (TractInfo.patchOf env b bbox.getMax)
    Thread.mapM (fun i : Index2D => getPatchInfo b (.seq [i.x, i.y]) t.wcs)
      ((pyRange ll.x (ur.x + 1)).flatMap fun x => (pyRange ll.y (ur.y + 1)).map fun y => ⟨x, y⟩)

/-- `list(tract)` (tractInfo.py:405-409). -/
def patches (b : TractBuilder) (t : TractInfo Sky K) : Thread (SharedMap Sky K) (List (PatchInfo (Wcs Sky K))) :=
  Thread.mapM (fun i => getPatchInfo b (.index2D i) t.wcs)
    ((pyRange 0 t.numPatches.y).flatMap fun y => (pyRange 0 t.numPatches.x).map fun x => ⟨x, y⟩)

/-- `list(skyMap)` (cachingSkyMap.py:71-74). -/
def tracts (m : CachingDef Sky K) (b : TractBuilder) : Thread (SharedMap Sky K) (List (TractRef Sky K)) :=
  Thread.mapM (fun i : Nat => getItem m b (i : Int)) (List.range m.numTracts)

/-- `findTract` (baseSkyMap.py:172-204). -/
def findTract (m : CachingDef Sky K) (b : TractBuilder) (coord : Sky) : Thread (SharedMap Sky K) (TractRef Sky K) := do
  let l ← Thread.mapM (fun i : Nat => do
    let t ← getItem m b (i : Int)
    return (m.ops.separation coord t.info.ctrCoord, i, t)) (List.range m.numTracts)
  Thread.lift (match (pySort BaseSkyMap.tupleLe l).head? with
    | some x => .ok x.2.2
    | none => .error .IndexError)

/-- `findTract` of the classes that compute the number of the tract from the position and attributes that never change (ringsSkyMap.py:244-260,
healpixSkyMap.py:113-128); `index` is that number, or what its computation raises. -/
def findTractAt (m : CachingDef Sky K) (b : TractBuilder) (index : PyM Int) : Thread (SharedMap Sky K) (TractRef Sky K) := do
  let i ← Thread.lift index
  getItem m b i

/-- `findAllTracts` (ringsSkyMap.py:310-359); `near` are the numbers of the tracts that it looks at, in order (simplified as in
`Rings.findAllTracts`: they are computed first). -/
def findAllTracts (m : CachingDef Sky K) (b : TractBuilder) (near : PyM (List Int)) (coord : Sky) :
    Thread (SharedMap Sky K) (List (TractRef Sky K)) := do
  let l ← Thread.lift near
  let ts ← Thread.mapM (fun i : Int => do
    let t ← getItem m b i
    return if t.info.contains coord then [t] else []) l
  return ts.flatten

/-- `getSha1` (baseSkyMap.py:344-364); `message` is what is hashed. -/
def getSha1 (H : Bytes → Bytes) (message : PyM Bytes) : Thread (SharedMap Sky K) Bytes := do
  let x ← Thread.read fun s => .ok s.sha1
  if x.isNone then
    let b ← Thread.lift message
    Thread.write fun s => { s with sha1 := some (H b) }
  Thread.read fun s => getAttr s.sha1

/-- The calls that threads make: `skyMap[i]`, `list(skyMap)`, `skyMap.findTract(c)` (inherited from `BaseSkyMap`, or overridden: see
`findTractAt`), `skyMap.findAllTracts(c)`, `skyMap.getSha1()`, and on a tract `getPatchInfo`, `findPatch`, `findPatchList`, `list(tract)`, `getSequentialPatchIndexFromPair` and `getPatchIndexPair`. -/
inductive Call (Sky K : Type)
  | item (i : Int)
  | tracts
  | findTract (c : Sky)
  | findTractAt (index : PyM Int)
  | findAllTracts (near : PyM (List Int)) (c : Sky)
  | sha1
  | patch (t : TractRef Sky K) (index : IndexArg)
  | findPatch (t : TractRef Sky K) (c : Sky)
  | findPatchList (t : TractRef Sky K) (l : List Sky)
  | patches (t : TractRef Sky K)
  | sequentialIndex (t : TractRef Sky K) (index : IndexArg)
  | indexPair (t : TractRef Sky K) (n : Int)

/-- What the calls return. -/
inductive Value (Sky K : Type)
  | tract (t : TractRef Sky K)
  | tracts (l : List (TractRef Sky K))
  | patch (p : PatchInfo (Wcs Sky K))
  | patches (l : List (PatchInfo (Wcs Sky K)))
  | digest (b : Bytes)
  | int (n : Int)
  | pair (i : Index2D)

/-- The method run by a call. -/
def program (m : CachingDef Sky K) (b : TractBuilder) (H : Bytes → Bytes) (message : PyM Bytes) :
    Call Sky K → Thread (SharedMap Sky K) (Value Sky K)
  | .item i => do return .tract (← getItem m b i)
  | .tracts => do return .tracts (← tracts m b)
  | .findTract c => do return .tract (← findTract m b c)
  | .findTractAt index => do return .tract (← findTractAt m b index)
  | .findAllTracts near c => do return .tracts (← findAllTracts m b near c)
  | .sha1 => do return .digest (← getSha1 H message)
  | .patch t index => do return .patch (← getPatchInfo b index t.info.wcs)
  | .findPatch t c => do return .patch (← findPatch m.env b t.info c)
  | .findPatchList t l => do return .patches (← findPatchList m.env b t.info l)
  | .patches t => do return .patches (← patches b t.info)
  | .sequentialIndex _ index => do return .int (← getSequentialPatchIndexFromPair index)
  | .indexPair _ n => do return .pair (← getPatchIndexPair n)

/-- The tract that a call is a method of. -/
def Call.on : Call Sky K → Option (TractRef Sky K)
  | .patch t _ | .findPatch t _ | .findPatchList t _ | .patches t | .sequentialIndex t _ | .indexPair t _ => some t
  | _ => none

/-- A tract that some call returned. -/
def Given (ended : List (Call Sky K × PyM (Value Sky K))) (t : TractRef Sky K) : Prop :=
  ∃ q v, (q, .ok v) ∈ ended ∧ (v = .tract t ∨ ∃ l, v = .tracts l ∧ t ∈ l)

/-- Threads call methods of tracts that they were given. -/
def allowed (ended : List (Call Sky K × PyM (Value Sky K))) : Call Sky K → Prop
  | .patch t _ | .findPatch t _ | .findPatchList t _ | .patches t | .sequentialIndex t _ | .indexPair t _ => Given ended t
  | _ => True

/-- Everything that any number of threads can do with a caching sky map, starting from the shared state `s₀`. -/
def Reached (m : CachingDef Sky K) (b : TractBuilder) (H : Bytes → Bytes) (message : PyM Bytes) (s₀ : SharedMap Sky K) :
    System (SharedMap Sky K) (Call Sky K) (Value Sky K) → Prop :=
  System.Reached allowed (program m b H message) s₀

end Threads
end Skymap
