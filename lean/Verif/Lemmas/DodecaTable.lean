import Verif.Props.DodecaTransform
import Verif.Lemmas.Search

/-! # The standard dodecahedron: a table with coordinates in Z[g] -/

namespace Skymap
namespace Dodeca
open Matrix Dodecahedron

/-- A number `a + b g`. -/
abbrev Zg := ℤ × ℤ

noncomputable def ev (z : Zg) : ℝ := z.1 + z.2 * g

theorem g_sq : g ^ 2 = g + 1 := by
  have h : Real.sqrt 5 ^ 2 = 5 := Real.sq_sqrt (by norm_num)
  unfold g
  linear_combination h / 4

theorem g_lo : 1.618 < g := by
  have : (2.236 : ℝ) < Real.sqrt 5 := Real.lt_sqrt_of_sq_lt (by norm_num)
  unfold g; linarith

theorem g_hi : g < 1.6181 := by
  have : Real.sqrt 5 < 2.2362 := (Real.sqrt_lt' (by norm_num)).2 (by norm_num)
  unfold g; linarith

def mulZ (u v : Zg) : Zg := (u.1 * v.1 + u.2 * v.2, u.1 * v.2 + u.2 * v.1 + u.2 * v.2)

theorem ev_mul (u v : Zg) : ev (mulZ u v) = ev u * ev v := by
  unfold ev mulZ
  push_cast
  linear_combination (-(u.2 : ℝ) * v.2) * g_sq

theorem ev_add (u v : Zg) : ev (u + v) = ev u + ev v := by
  unfold ev
  simp only [Prod.fst_add, Prod.snd_add]
  push_cast; ring

abbrev Z3 := Fin 3 → Zg

noncomputable def toVec (w : Z3) : Vec3 := fun i => ev (w i)

def dotZ (u v : Z3) : Zg := mulZ (u 0) (v 0) + mulZ (u 1) (v 1) + mulZ (u 2) (v 2)

theorem dot_toVec (u v : Z3) : toVec u ⬝ᵥ toVec v = ev (dotZ u v) := by
  simp only [dotProduct, Fin.sum_univ_three, toVec, dotZ, ev_add, ev_mul]

theorem toVec_add (u v : Z3) : toVec (u + v) = toVec u + toVec v := by
  ext i; exact ev_add _ _

/-- The face vectors, in the order of `_computeFullVecList`. -/
def faceTable : List Z3 :=
  [![(0, 0), (1, 0), (0, 1)], ![(0, 0), (-1, 0), (0, 1)], ![(0, 0), (1, 0), (0, -1)], ![(0, 0), (-1, 0), (0, -1)],
   ![(1, 0), (0, 1), (0, 0)], ![(-1, 0), (0, 1), (0, 0)], ![(1, 0), (0, -1), (0, 0)], ![(-1, 0), (0, -1), (0, 0)],
   ![(0, 1), (0, 0), (1, 0)], ![(0, -1), (0, 0), (1, 0)], ![(0, 1), (0, 0), (-1, 0)], ![(0, -1), (0, 0), (-1, 0)]]

def faceZ (i : ℕ) : Z3 := faceTable.getD i 0

noncomputable def face (i : ℕ) : Vec3 := (Real.sqrt (2 + g))⁻¹ • toVec (faceZ i)

theorem full_eq : computeFullVecList faceBases = (List.range 12).map face := by
  have hg := g_lo
  have hg0 : g ≠ 0 := by linarith
  have e1 : (1 : ℝ) + g ^ 2 = 2 + g := by rw [g_sq]; ring
  have e2 : g ^ 2 + 1 = 2 + g := by rw [g_sq]; ring
  have key : ∀ (x y z : ℝ) (i : ℕ), toVec (faceZ i) = ![x, y, z] →
      (fun j : Fin 3 => (![x, y, z] : Vec3) j / Real.sqrt (2 + g)) = face i := by
    intro x y z i h
    ext j
    simp only [face, Pi.smul_apply, smul_eq_mul, h]
    rw [div_eq_inv_mul]
  have tv : ∀ (i : ℕ) (a b c : Zg), faceZ i = ![a, b, c] → toVec (faceZ i) = ![ev a, ev b, ev c] := by
    intro i a b c h
    rw [h]; ext j; fin_cases j <;> rfl
  have l12 : List.range 12 = [0, 1, 2, 3, 4, 5, 6, 7, 8, 9, 10, 11] := rfl
  rw [l12]
  unfold computeFullVecList faceBases
  simp only [List.flatMap_cons, List.flatMap_nil, Matrix.cons_val_zero, Matrix.cons_val_one, Matrix.cons_val,
    if_true, one_ne_zero, if_false, hg0, List.map_cons, List.map_nil, List.cons_append, List.nil_append, List.append_nil,
    ne_eq, OfNat.ofNat_ne_zero, not_false_eq_true, zero_pow, one_pow, zero_add, add_zero, e1, e2]
  simp only [List.cons.injEq, and_true]
  refine ⟨?_, ?_, ?_, ?_, ?_, ?_, ?_, ?_, ?_, ?_, ?_, ?_⟩ <;> apply key <;> rw [tv _ _ _ _ rfl] <;> simp [ev]

theorem nf_pos : 0 < (Real.sqrt (2 + g))⁻¹ := by
  have := g_lo
  have : 0 < Real.sqrt (2 + g) := Real.sqrt_pos.2 (by linarith)
  positivity

theorem nf_sq : (Real.sqrt (2 + g))⁻¹ * (Real.sqrt (2 + g))⁻¹ = (2 + g)⁻¹ := by
  have := g_lo
  rw [← mul_inv, Real.mul_self_sqrt (by linarith)]

theorem face_dot (i j : ℕ) : face i ⬝ᵥ face j = ev (dotZ (faceZ i) (faceZ j)) / (2 + g) := by
  unfold face
  rw [smul_dotProduct, dotProduct_smul, dot_toVec, smul_eq_mul, smul_eq_mul, ← mul_assoc, nf_sq]
  ring

/-- The neighbours of a face. -/
def adj (i : ℕ) : List ℕ := (List.range 12).filter fun j => decide (dotZ (faceZ j) (faceZ i) = (0, 1))

theorem face_cases : ∀ i < 12, ∀ j < 12, dotZ (faceZ j) (faceZ i) = if j = i then (2, 1) else if j ∈ adj i then (0, 1) else
    if dotZ (faceZ j) (faceZ i) = (0, -1) then (0, -1) else (-2, -1) := by decide +kernel

theorem face_table : ∀ i < 12, (adj i).length = 5 ∧ ∀ j ∈ adj i, j < 12 ∧ j ≠ i ∧ i ∈ adj j ∧
    ((adj i).filter fun k => decide (k ∈ adj j)).length = 2 := by decide +kernel

/-- The triples of mutually adjacent faces. -/
def triples : List (ℕ × ℕ × ℕ) :=
  (List.range 12).flatMap fun i => (List.range 12).flatMap fun j => (List.range 12).filterMap fun k =>
    if i < j ∧ j < k ∧ j ∈ adj i ∧ k ∈ adj i ∧ k ∈ adj j then some (i, j, k) else none

def keyOf (t : ℕ × ℕ × ℕ) : Finset ℕ := {t.1, t.2.1, t.2.2}

def vertZ (t : ℕ × ℕ × ℕ) : Z3 := faceZ t.1 + faceZ t.2.1 + faceZ t.2.2

theorem triples_length : triples.length = 20 := by decide +kernel
theorem triples_nodup : triples.Nodup := by decide +kernel

theorem triples_valid : ∀ t ∈ triples, t.1 < 12 ∧ t.2.1 ∈ adj t.1 ∧ t.2.2 ∈ adj t.1 ∧ t.2.2 ∈ adj t.2.1 := by decide +kernel

theorem triples_complete : ∀ i < 12, ∀ j ∈ adj i, ∀ k ∈ adj i, k ∈ adj j →
    ∃ t ∈ triples, keyOf t = keyOf (i, j, k) ∧ vertZ t = vertZ (i, j, k) := by decide +kernel

theorem key_inj : ∀ t ∈ triples, ∀ t' ∈ triples, keyOf t = keyOf t' → t = t' := by decide +kernel

theorem vert_norm : ∀ t ∈ triples, dotZ (vertZ t) (vertZ t) = (6, 9) := by decide +kernel

end Dodeca
end Skymap
