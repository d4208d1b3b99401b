import Mathlib.NumberTheory.Real.GoldenRatio
import Mathlib.Data.Matrix.Mul

/-! # Specification: the regular dodecahedron -/

namespace Skymap
open Matrix

/-- The centres of the faces of a regular dodecahedron around the origin (the vertices of a regular icosahedron), up to scale: the cyclic
permutations of (0, ±1, ±φ). -/
def StdFace (v : Fin 3 → ℝ) : Prop := ∃ k : Fin 3, v k = 0 ∧ |v (k + 1)| = 1 ∧ |v (k + 2)| = Real.goldenRatio

/-- The vertices of a regular dodecahedron around the origin: (±1, ±1, ±1) and the cyclic permutations of (0, ±φ, ±1/φ). -/
def StdVertex (v : Fin 3 → ℝ) : Prop :=
  (∀ k, |v k| = 1) ∨ ∃ k : Fin 3, v k = 0 ∧ |v (k + 1)| = Real.goldenRatio ∧ |v (k + 2)| = Real.goldenRatio⁻¹

/-- `u` is in the convex cone spanned by `vs`. -/
def InCone (vs : List (Fin 3 → ℝ)) (u : Fin 3 → ℝ) : Prop :=
  ∃ c : List ℝ, c.length = vs.length ∧ (∀ x ∈ c, 0 ≤ x) ∧ u = (List.zipWith (fun x v => x • v) c vs).sum

/-- Consecutive elements are related, also the last and the first. -/
def Cyclically {α : Type} (r : α → α → Prop) (l : List α) : Prop :=
  ∀ (i : ℕ) a b, l[i]? = some a → l[(i + 1) % l.length]? = some b → r a b

end Skymap
