import Verif.Model.Dodecahedron

/-! # Lookups with inexact products: the code of `getFaceInd` and `DodecaSkyMap.findTract` for products as floats give them -/

namespace Skymap
open Dodeca

/-- `getFaceInd` (detail/dodecahedron.py:97-110) where `dot f` is the computed product of the face vector `f` with the vector. -/
noncomputable def Dodecahedron.getFaceIndWith (D : Dodecahedron) (dot : Vec3 → ℝ) : PyM ℕ := npArgmax (D.faceVecList.map dot)

/-- `DodecaSkyMap.findTract` (dodecaSkyMap.py:124-137) where `dot f` is the computed product of the face vector `f` with the vector of the
coordinate. -/
noncomputable def DodecaSkyMap.findTractWith {σ : Type} (D : Dodecahedron) (M : SkyMapOps σ (SpherePoint ℝ) ℝ) (dot : Vec3 → ℝ) :
    PyS σ (TractRef (SpherePoint ℝ) ℝ) := do
  let ind ← PyS.lift (D.getFaceIndWith dot)
  M.getItem ind

end Skymap
