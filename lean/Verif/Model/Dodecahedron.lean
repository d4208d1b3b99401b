import Verif.Model.CoordFromVec
import Verif.Model.Sphere
import Verif.Model.SkyMap
import Mathlib.Analysis.SpecialFunctions.Complex.Arg
import Mathlib.LinearAlgebra.Matrix.Determinant.Basic
import Mathlib.Algebra.Order.Round

/-!
# detail/dodecahedron.py and dodecaSkyMap.py

Simplification: exact real arithmetic.  A Python set is a list without duplicates; the order in which a set is iterated over is not
specified by the language and is a parameter.
-/

namespace Skymap
namespace Dodeca
open Matrix

/-- A numpy array of three floats. -/
abbrev Vec3 := Fin 3 → ℝ

/-- `math.atan2(y, x)`. -/
noncomputable def atan2 (y x : ℝ) : ℝ := Complex.arg ⟨x, y⟩

/-- The nearest integer, the even one for ties (`numpy.rint`). -/
noncomputable def rint (x : ℝ) : ℤ :=
  if x - ⌊x⌋ < 1 / 2 then ⌊x⌋
  else if 1 / 2 < x - ⌊x⌋ then ⌊x⌋ + 1
  else if ⌊x⌋ % 2 = 0 then ⌊x⌋ else ⌊x⌋ + 1

/-- `numpy.round(x, d)` and `round(x, d)`. -/
noncomputable def npRound (d : ℕ) (x : ℝ) : ℝ := rint (x * 10 ^ d) / 10 ^ d

/-- `numpy.max(l)`: `ValueError` if `l` is empty. -/
noncomputable def npMax : List ℝ → PyM ℝ
  | [] => .error .ValueError
  | a :: l => .ok (l.foldl max a)

/-- `numpy.arange(len(l))[l == x]`: the indices of the elements equal to `x`. -/
noncomputable def indicesOf (l : List ℝ) (x : ℝ) : List ℕ :=
  (List.range l.length).filter fun i => decide (l[i]? = some x)

/-- `numpy.argmax(l)`: the first index of the maximum; `ValueError` if `l` is empty. -/
noncomputable def npArgmax (l : List ℝ) : PyM ℕ := do
  let m ← npMax l
  return l.findIdx fun x => decide (x = m)

/-- `computeRotationMatrix` (detail/dodecahedron.py:116-135): the assignments to a matrix of zeros, in order. -/
noncomputable def computeRotationMatrix (angle : ℝ) (axis : Fin 3) : Matrix (Fin 3) (Fin 3) ℝ :=
  let cosAng := Real.cos angle
  let sinAng := Real.sin angle
  let set := fun (m : Matrix (Fin 3) (Fin 3) ℝ) (i j : Fin 3) (v : ℝ) => m.updateRow i (Function.update (m i) j v)
  let m := set 0 axis axis 1
  let m := set m (axis + 1) (axis + 1) cosAng
  let m := set m (axis + 2) (axis + 1) sinAng
  let m := set m (axis + 1) (axis + 2) (-sinAng)
  set m (axis + 2) (axis + 2) cosAng

/-- `_computeCoordTransform` (detail/dodecahedron.py:138-169). -/
noncomputable def computeCoordTransform (vec0 vec1 : Vec3) (vec1NegativeX : Bool) : Matrix (Fin 3) (Fin 3) ℝ :=
  let xAng := atan2 (vec0 1) (vec0 2)
  let xRotMat := computeRotationMatrix xAng 0
  let vec0RotX := xRotMat *ᵥ vec0
  let yAng := -atan2 (vec0RotX 0) (vec0RotX 2)
  let yRotMat := computeRotationMatrix yAng 1
  let xyRotMat := yRotMat * xRotMat
  let vec1RotXY := xyRotMat *ᵥ vec1
  let xVal := vec1RotXY 0
  let xVal := if vec1NegativeX then -xVal else xVal
  let zAng := -atan2 (vec1RotXY 1) xVal
  let zRotMat := computeRotationMatrix zAng 2
  zRotMat * xyRotMat

/-- `_computeFullVecList` (detail/dodecahedron.py:201-223). -/
noncomputable def computeFullVecList (basisSet : List Vec3) : List Vec3 :=
  basisSet.flatMap fun basisVec =>
    let vecLen := Real.sqrt (basisVec 0 ^ 2 + basisVec 1 ^ 2 + basisVec 2 ^ 2)
    let values := fun i : Fin 3 => if basisVec i = 0 then [0] else [basisVec i, -basisVec i]
    (values 2).flatMap fun z => (values 1).flatMap fun y => (values 0).map fun x =>
      fun i : Fin 3 => (![x, y, z] : Vec3) i / vecLen

/-- `_findCloseIndexSet` (detail/dodecahedron.py:226-243). -/
noncomputable def findCloseIndexSet (vecList : List Vec3) (ind : ℕ) : PyM (List ℕ) := do
  let vec ← pyGetItem vecList ind
  let dotProductList := (vecList.map fun v => npRound 2 (v ⬝ᵥ vec)).set ind (-9 * 10 ^ 99)
  let minDist ← npMax dotProductList
  return indicesOf dotProductList minDist

/-- `_findCloseList` (detail/dodecahedron.py:246-270): the vectors and their indices. -/
noncomputable def findCloseList (vecList : List Vec3) (vec : Vec3) : PyM (List Vec3 × List ℕ) := do
  let dotProductList := vecList.map fun v => npRound 2 (v ⬝ᵥ vec)
  let minDist ← npMax dotProductList
  let indList := indicesOf dotProductList minDist
  let retList ← pyMapM (fun i : ℕ => pyGetItem vecList i) indList
  return (retList, indList)

/-- `_findClosePair` (detail/dodecahedron.py:273-287). -/
noncomputable def findClosePair (vecList : List Vec3) (ind : ℕ) : PyM (Vec3 × Vec3) := do
  let vec ← pyGetItem vecList ind
  let otherVecList := vecList.take ind ++ vecList.drop (ind + 1)
  let ind1 ← npArgmax (otherVecList.map fun v => v ⬝ᵥ vec)
  let other ← pyGetItem otherVecList ind1
  return (vec, other)

/-- The iteration orders of the sets in `_computeDodecahedronVertices`: of the set of neighbours of face `i`, and of the set of the
common neighbours of faces `i` and `j`. -/
structure SetOrder where
  close : ℕ → List ℕ → List ℕ
  shared : ℕ → ℕ → List ℕ → List ℕ

/-- `if key in vertexDict: continue; ...; vertexDict[key] = vertexVec` (detail/dodecahedron.py:191-197); a dictionary is the list of
its items in insertion order. -/
noncomputable def addVertex (faceVecList : List Vec3) (vertexDict : List (Finset ℕ × Vec3)) (t : ℕ × ℕ × ℕ) :
    PyM (List (Finset ℕ × Vec3)) :=
  let key : Finset ℕ := {t.1, t.2.1, t.2.2}
  if key ∈ vertexDict.map Prod.fst then .ok vertexDict
  else do
    let a ← pyGetItem faceVecList t.1
    let b ← pyGetItem faceVecList t.2.1
    let c ← pyGetItem faceVecList t.2.2
    let vertexVec := a + b + c
    return vertexDict ++ [(key, fun i => vertexVec i / Real.sqrt (vertexVec 0 ^ 2 + vertexVec 1 ^ 2 + vertexVec 2 ^ 2))]

/-- A `for` loop updating an accumulator. -/
def pyFoldM {α β : Type} (f : β → α → PyM β) : List α → β → PyM β
  | [], b => .ok b
  | a :: l, b => match f b a with
    | .error e => .error e
    | .ok b' => pyFoldM f l b'

/-- `_computeDodecahedronVertices` (detail/dodecahedron.py:172-198).  Simplification: the triples `(i, j, k)` are collected (with the
checks) before the dictionary is filled; it makes no difference, as every exception ends the function. -/
noncomputable def computeDodecahedronVertices (order : SetOrder) (faceVecList : List Vec3) : PyM (List Vec3) := do
  let closeIndSetList ← pyMapM (fun i : ℕ => do
    let closeIndSet ← findCloseIndexSet faceVecList i
    if closeIndSet.length ≠ 5 then throw .RuntimeError
    pure closeIndSet) (List.range faceVecList.length)
  let triples ← pyMapM (fun i : ℕ => do
    let iClose ← pyGetItem closeIndSetList i
    let l ← pyMapM (fun j : ℕ => do
      let jClose ← pyGetItem closeIndSetList j
      let sharedCloseIndSet := iClose.filter fun k => decide (k ∈ jClose)
      if sharedCloseIndSet.length ≠ 2 then throw .RuntimeError
      pure ((order.shared i j sharedCloseIndSet).map fun k => (i, j, k))) (order.close i iClose)
    pure l.flatten) (List.range closeIndSetList.length)
  let vertexDict ← pyFoldM (addVertex faceVecList) triples.flatten []
  return vertexDict.map Prod.snd

/-- `vecToSort` (detail/dodecahedron.py:294-298): the first two elements of the tuple. -/
noncomputable def sortKey (vec : Vec3) : ℝ × ℝ :=
  let ang := npRound 2 (atan2 (vec 1) (vec 0))
  let ang := if ang < 0 then ang + 2 * Real.pi else ang
  (-npRound 1 (vec 2), ang)

/-- Lexicographic order of the decorated list. -/
noncomputable def sortLe (a b : Vec3) : Bool :=
  decide ((sortKey a).1 < (sortKey b).1 ∨ ((sortKey a).1 = (sortKey b).1 ∧ (sortKey a).2 ≤ (sortKey b).2))

/-- `_sortedVectorList` (detail/dodecahedron.py:290-302).  If two keys are equal, Python compares the arrays, whose comparison has no
truth value: `ValueError`. -/
noncomputable def sortedVectorList (vecList : List Vec3) : PyM (List Vec3) :=
  if (vecList.map sortKey).Nodup then .ok (pySort sortLe vecList) else .error .ValueError

end Dodeca

/-- The attributes of a `Dodecahedron`. -/
structure Dodecahedron where
  withFacesOnPoles : Bool
  vertexVecList : List Dodeca.Vec3
  faceVecList : List Dodeca.Vec3

namespace Dodecahedron
open Matrix Dodeca

/-- The golden ratio (detail/dodecahedron.py:26). -/
noncomputable def g : ℝ := (1 + Real.sqrt 5) / 2

/-- `faceBases` (detail/dodecahedron.py:27-31). -/
noncomputable def faceBases : List Vec3 := [![0, 1, g], ![1, g, 0], ![g, 0, 1]]

/-- `Dodecahedron.__init__` (detail/dodecahedron.py:17-45). -/
noncomputable def new (order : SetOrder) (withFacesOnPoles : Bool) : PyM Dodecahedron := do
  let unrotFaceVecList := computeFullVecList faceBases
  let unrotVertexVecList ← computeDodecahedronVertices order unrotFaceVecList
  let rotMat ←
    if withFacesOnPoles then do
      let p ← findClosePair unrotFaceVecList 0
      pure (computeCoordTransform p.1 p.2 false)
    else do
      let p ← findClosePair unrotVertexVecList 0
      pure (computeCoordTransform p.1 p.2 true)
  let faceVecList ← sortedVectorList (unrotFaceVecList.map fun v => rotMat *ᵥ v)
  return { withFacesOnPoles := withFacesOnPoles
           vertexVecList := unrotVertexVecList.map fun v => rotMat *ᵥ v
           faceVecList := faceVecList }

/-- `getFaceCtr` (detail/dodecahedron.py:57-70). -/
noncomputable def getFaceCtr (D : Dodecahedron) (ind : ℤ) : PyM Vec3 := pyGetItem D.faceVecList ind

/-- The loop of `getVertices` (detail/dodecahedron.py:91-94); every turn removes an element of `vertexList`, so the loop has at most
`fuel = len(vertexList)` turns. -/
noncomputable def chain : ℕ → Vec3 → List Vec3 → PyM (List Vec3)
  | _, _, [] => .ok []
  | 0, _, _ :: _ => .ok []
  | fuel + 1, last, v :: l => do
    let near ← findCloseList (v :: l) last
    let next ← pyGetItem near.1 0
    let ind ← pyGetItem near.2 0
    let rest ← chain fuel next ((v :: l).eraseIdx ind)
    return next :: rest

/-- `getVertices` (detail/dodecahedron.py:72-95). -/
noncomputable def getVertices (D : Dodecahedron) (ind : ℤ) : PyM (List Vec3) := do
  let faceVec ← D.getFaceCtr ind
  let close ← findCloseList D.vertexVecList faceVec
  let first ← pyGetItem close.1 0
  let vertexList := close.1.drop 1
  let rest ← chain vertexList.length first vertexList
  return first :: rest

/-- `getFaceInd` (detail/dodecahedron.py:97-110). -/
noncomputable def getFaceInd (D : Dodecahedron) (vec : Vec3) : PyM ℕ := npArgmax (D.faceVecList.map fun f => f ⬝ᵥ vec)

end Dodecahedron

namespace SpherePoint

/-- `SpherePoint.getVector()` (not part of /repo). -/
noncomputable def getVector (p : SpherePoint ℝ) : Dodeca.Vec3 :=
  ![Real.cos p.lat * Real.cos p.lon, Real.cos p.lat * Real.sin p.lon, Real.sin p.lat]

/-- `SpherePoint(Vector3d(x, y, z))` (not part of /repo): the direction of a vector; a null vector is refused. -/
noncomputable def ofVector (x y z : ℝ) : PyM (SpherePoint ℝ) :=
  if x = 0 ∧ y = 0 ∧ z = 0 then .error .PexError
  else .ok ⟨wrapAngle Real.pi (Dodeca.atan2 y x), Dodeca.atan2 z (Real.sqrt (x ^ 2 + y ^ 2))⟩

end SpherePoint

namespace DodecaSkyMap
open Dodeca

/-- `detail.coordFromVec(vec, defRA)` (detail/utils.py:34-58). -/
noncomputable def coordFromVec (tiny : ℝ) (vec : Vec3) (defRA : ℝ) : PyM (SpherePoint ℝ) :=
  Skymap.coordFromVec tiny (Real.pi / 2) SpherePoint.ofVector (vec 0, vec 1, vec 2) (some defRA)

/-- One turn of the loop of `DodecaSkyMap.__init__` (dodecaSkyMap.py:74-93). -/
noncomputable def tract (tiny : ℝ) (makeWcs : SpherePoint ℝ → Wcs (SpherePoint ℝ) ℝ) (D : Dodecahedron) (tractOverlap : ℝ) (id : ℤ) :
    PyM (TractArgs (SpherePoint ℝ) ℝ) := do
  let tractVec ← D.getFaceCtr id
  let tractCoord ← coordFromVec tiny tractVec 0
  let tractRA := tractCoord.lon
  let vertexVecList ← D.getVertices id
  let vertexCoordList ← pyMapM (fun vec => coordFromVec tiny vec tractRA) vertexVecList
  return { id := id, ctrCoord := tractCoord, shape := .vertices vertexCoordList, tractOverlap := tractOverlap
           wcs := makeWcs tractCoord }

/-- `DodecaSkyMap.__init__` (dodecaSkyMap.py:68-93): the arguments of the constructors of all tracts; `tractOverlap` in degrees. -/
noncomputable def tracts (tiny : ℝ) (makeWcs : SpherePoint ℝ → Wcs (SpherePoint ℝ) ℝ) (order : SetOrder) (withTractsOnPoles : Bool)
    (tractOverlap : ℝ) : PyM (Dodecahedron × List (TractArgs (SpherePoint ℝ) ℝ)) := do
  let D ← Dodecahedron.new order withTractsOnPoles
  let l ← pyMapM (tract tiny makeWcs D (tractOverlap * (Real.pi / 180))) (pyRange 0 12)
  return (D, l)

/-- `DodecaSkyMap.findTract` (dodecaSkyMap.py:124-137). -/
noncomputable def findTract {σ : Type} (D : Dodecahedron) (M : SkyMapOps σ (SpherePoint ℝ) ℝ) (coord : SpherePoint ℝ) :
    PyS σ (TractRef (SpherePoint ℝ) ℝ) := do
  let ind ← PyS.lift (D.getFaceInd coord.getVector)
  M.getItem ind

end DodecaSkyMap
end Skymap
