import Verif.Model.Dodecahedron
import Verif.Model.NonFinite

/-!
# The lookup of a dodecahedral sky map for coordinates that may be NaN

`none` is NaN.  No infinity occurs in these computations: `SpherePoint` has none (`XFloat.point`), and sine and cosine of an infinity
would be NaN.
-/

namespace Skymap
open Dodeca

namespace XFloat

/-- A function of the mathematics library that is defined for all numbers and gives NaN for NaN and infinities. -/
def app (f : ℝ → ℝ) : XFloat ℝ → Option ℝ
  | .fin x => some (f x)
  | _ => none

/-- Multiplication and addition of numbers that may be NaN. -/
def mulN (a b : Option ℝ) : Option ℝ := a.bind fun x => b.map fun y => x * y
def addN (a b : Option ℝ) : Option ℝ := a.bind fun x => b.map fun y => x + y

/-- `SpherePoint.getVector()` (not part of /repo). -/
noncomputable def getVector (p : SpherePoint (XFloat ℝ)) : Fin 3 → Option ℝ :=
  ![mulN (p.lat.app Real.cos) (p.lon.app Real.cos), mulN (p.lat.app Real.cos) (p.lon.app Real.sin), p.lat.app Real.sin]

/-- `numpy.dot` of a vector of numbers and a vector of numbers that may be NaN. -/
def dot (f : Vec3) (v : Fin 3 → Option ℝ) : Option ℝ :=
  addN (addN (mulN (some (f 0)) (v 0)) (mulN (some (f 1)) (v 1))) (mulN (some (f 2)) (v 2))

/-- `numpy.argmax`: the index of the first NaN if there is one, else of the first maximum; `ValueError` for an empty array. -/
noncomputable def npArgmax (l : List (Option ℝ)) : PyM ℕ :=
  match l.findIdx? fun x => x.isNone with
  | some i => .ok i
  | none => Dodeca.npArgmax (l.filterMap id)

end XFloat

/-- `getFaceInd` (detail/dodecahedron.py:97-110) for a vector with NaN. -/
noncomputable def Dodecahedron.getFaceIndX (D : Dodecahedron) (vec : Fin 3 → Option ℝ) : PyM ℕ :=
  XFloat.npArgmax (D.faceVecList.map fun f => XFloat.dot f vec)

/-- `DodecaSkyMap.findTract` (dodecaSkyMap.py:124-137) for a coordinate that may be NaN. -/
noncomputable def DodecaSkyMap.findTractX {σ : Type} (D : Dodecahedron) (M : SkyMapOps σ (SpherePoint ℝ) ℝ)
    (coord : SpherePoint (XFloat ℝ)) : PyS σ (TractRef (SpherePoint ℝ) ℝ) := do
  let ind ← PyS.lift (D.getFaceIndX (XFloat.getVector coord))
  M.getItem ind

end Skymap
