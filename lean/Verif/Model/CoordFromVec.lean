import Verif.Model.Geom

/-! # detail/utils.py: `coordFromVec` -/

namespace Skymap

/-- `coordFromVec` (detail/utils.py:34-58).  `tiny` is `_TinyFloat`, `piBy2` is `90 * degrees`, and `ofVec` is
`SpherePoint(Vector3d)`, which may raise. -/
def coordFromVec {K : Type} [Field K] [LinearOrder K] (tiny piBy2 : K) (ofVec : K → K → K → PyM (SpherePoint K))
    (vec : K × K × K) (defRA : Option K) : PyM (SpherePoint K) :=
  if |vec.1| < tiny ∧ |vec.2.1| < tiny then
    match defRA with
    | none => .error .RuntimeError
    | some ra => if vec.2.2 > 0 then .ok ⟨ra, piBy2⟩ else .ok ⟨ra, -piBy2⟩
  else ofVec vec.1 vec.2.1 vec.2.2

end Skymap
