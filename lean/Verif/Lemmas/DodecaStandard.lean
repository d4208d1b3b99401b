import Verif.Lemmas.DodecaChain
import Verif.Spec.Dodecahedron

/-! # The model's vectors are those of the regular dodecahedron -/

namespace Skymap
namespace Dodeca
open Matrix Dodecahedron

theorem g_golden : g = Real.goldenRatio := rfl

theorem golden_inv : Real.goldenRatio⁻¹ = ev (-1, 1) := by
  have h := g_sq
  have h0 := g_lo
  rw [← g_golden]
  simp only [ev]; push_cast
  rw [inv_eq_iff_eq_inv]
  apply eq_inv_of_mul_eq_one_left
  linear_combination h

/-- The sign choices. -/
def signs : List Zg := [(1, 0), (-1, 0)]

theorem abs_cases {x : ℝ} {z : Zg} (h : |x| = ev z) : ∃ s ∈ signs, x = ev (mulZ s z) := by
  rcases abs_choice x with h' | h'
  · exact ⟨(1, 0), by decide, by rw [ev_mul, ← h, h']; simp [ev]⟩
  · refine ⟨(-1, 0), by decide, ?_⟩
    rw [ev_mul, ← h, h']; simp [ev]

theorem abs_of_cases {s : Zg} (hs : s ∈ signs) {z : Zg} (hz : 0 ≤ ev z) : |ev (mulZ s z)| = ev z := by
  rw [ev_mul]
  rcases List.mem_cons.1 hs with rfl | hs
  · simp [ev] at hz ⊢; exact hz
  · rcases List.mem_cons.1 hs with rfl | hs
    · have : ev (-1, 0) = -1 := by simp [ev]
      rw [this, neg_one_mul, abs_neg, abs_of_nonneg hz]
    · simp at hs

/-- The three coordinates starting from `k`. -/
def rot3 (k : Fin 3) (a b c : Zg) : Z3 := fun i => if i = k then a else if i = k + 1 then b else c

theorem fin3 : ∀ k : Fin 3, ¬k + 1 = k ∧ ¬k + 2 = k ∧ ¬k + 2 = k + 1 ∧ ∀ i, i = k ∨ i = k + 1 ∨ i = k + 2 := by decide

theorem ext3 {k : Fin 3} {v : Vec3} {a b c : Zg} (ha : v k = ev a) (hb : v (k + 1) = ev b) (hc : v (k + 2) = ev c) :
    v = toVec (rot3 k a b c) := by
  ext i
  simp only [toVec, rot3]
  obtain ⟨f1, f2, f3, f4⟩ := fin3 k
  rcases f4 i with rfl | rfl | rfl
  · simp [ha]
  · rw [if_neg f1, if_pos rfl, hb]
  · rw [if_neg f2, if_neg f3, hc]

theorem face_signs : ∀ k : Fin 3, ∀ s ∈ signs, ∀ s' ∈ signs, ∃ i < 12, faceZ i = rot3 k (0, 0) (mulZ s (1, 0)) (mulZ s' (0, 1)) := by
  decide +kernel

theorem signs_face : ∀ i < 12, ∃ k : Fin 3, ∃ s ∈ signs, ∃ s' ∈ signs, faceZ i = rot3 k (0, 0) (mulZ s (1, 0)) (mulZ s' (0, 1)) := by
  decide +kernel

theorem rot3_at (k : Fin 3) (a b c : Zg) : rot3 k a b c k = a ∧ rot3 k a b c (k + 1) = b ∧ rot3 k a b c (k + 2) = c := by
  obtain ⟨f1, f2, f3, -⟩ := fin3 k
  refine ⟨by simp [rot3], ?_, ?_⟩
  · unfold rot3; rw [if_neg f1, if_pos rfl]
  · unfold rot3; rw [if_neg f2, if_neg f3]

theorem stdFace_iff (v : Vec3) : StdFace v ↔ ∃ i < 12, v = toVec (faceZ i) := by
  have hg := g_lo
  have e0 : ev (0, 0) = 0 := by simp [ev]
  have e1 : ev (1, 0) = 1 := by simp [ev]
  have eg : ev (0, 1) = Real.goldenRatio := by rw [← g_golden]; simp [ev]
  constructor
  · rintro ⟨k, h0, h1, h2⟩
    rw [← e1] at h1
    rw [← eg] at h2
    rw [← e0] at h0
    obtain ⟨s, hs, h1⟩ := abs_cases h1
    obtain ⟨s', hs', h2⟩ := abs_cases h2
    obtain ⟨i, hi, he⟩ := face_signs k s hs s' hs'
    exact ⟨i, hi, by rw [he]; exact ext3 h0 h1 h2⟩
  · rintro ⟨i, hi, rfl⟩
    obtain ⟨k, s, hs, s', hs', he⟩ := signs_face i hi
    obtain ⟨r0, r1, r2⟩ := rot3_at k (0, 0) (mulZ s (1, 0)) (mulZ s' (0, 1))
    refine ⟨k, ?_, ?_, ?_⟩
    · simp only [toVec, he, r0, e0]
    · simp only [toVec, he, r1]
      rw [abs_of_cases hs (by rw [e1]; norm_num), e1]
    · simp only [toVec, he, r2]
      rw [abs_of_cases hs' (by rw [eg, ← g_golden]; linarith), eg]

/-- The vertices, in the scale of the standard coordinates. -/
def stdZ (t : ℕ × ℕ × ℕ) : Z3 := fun i => mulZ (2, -1) (vertZ t i)

theorem vert_signs : (∀ s ∈ signs, ∀ s' ∈ signs, ∀ s'' ∈ signs, ∃ t ∈ triples, stdZ t = rot3 0 s s' s'') ∧
    ∀ k : Fin 3, ∀ s ∈ signs, ∀ s' ∈ signs, ∃ t ∈ triples, stdZ t = rot3 k (0, 0) (mulZ s (0, 1)) (mulZ s' (-1, 1)) := by
  decide +kernel

theorem signs_vert : ∀ t ∈ triples, (∃ s ∈ signs, ∃ s' ∈ signs, ∃ s'' ∈ signs, stdZ t = rot3 0 s s' s'') ∨
    ∃ k : Fin 3, ∃ s ∈ signs, ∃ s' ∈ signs, stdZ t = rot3 k (0, 0) (mulZ s (0, 1)) (mulZ s' (-1, 1)) := by
  decide +kernel

theorem mulZ_one (s : Zg) : mulZ s (1, 0) = s := by simp [mulZ]

theorem stdVertex_iff (v : Vec3) : StdVertex v ↔ ∃ t ∈ triples, v = toVec (stdZ t) := by
  have hg := g_lo
  have e0 : ev (0, 0) = 0 := by simp [ev]
  have e1 : ev (1, 0) = 1 := by simp [ev]
  have eg : ev (0, 1) = Real.goldenRatio := by rw [← g_golden]; simp [ev]
  have ei := golden_inv
  have ei0 : 0 ≤ ev (-1, 1) := by simp [ev]; linarith
  constructor
  · rintro (h | ⟨k, h0, h1, h2⟩)
    · obtain ⟨s, hs, h0⟩ := abs_cases ((h 0).trans e1.symm)
      obtain ⟨s', hs', h1⟩ := abs_cases ((h 1).trans e1.symm)
      obtain ⟨s'', hs'', h2⟩ := abs_cases ((h 2).trans e1.symm)
      rw [mulZ_one] at h0 h1 h2
      obtain ⟨t, ht, he⟩ := vert_signs.1 s hs s' hs' s'' hs''
      exact ⟨t, ht, by rw [he]; exact ext3 h0 h1 h2⟩
    · rw [← eg] at h1
      rw [ei] at h2
      rw [← e0] at h0
      obtain ⟨s, hs, h1⟩ := abs_cases h1
      obtain ⟨s', hs', h2⟩ := abs_cases h2
      obtain ⟨t, ht, he⟩ := vert_signs.2 k s hs s' hs'
      exact ⟨t, ht, by rw [he]; exact ext3 h0 h1 h2⟩
  · rintro ⟨t, ht, rfl⟩
    rcases signs_vert t ht with ⟨s, hs, s', hs', s'', hs'', he⟩ | ⟨k, s, hs, s', hs', he⟩
    · left
      obtain ⟨r0, r1, r2⟩ := rot3_at 0 s s' s''
      have one : ∀ s ∈ signs, |ev s| = 1 := by
        intro s hs
        have := abs_of_cases hs (z := (1, 0)) (by rw [e1]; norm_num)
        rwa [mulZ_one, e1] at this
      intro i
      simp only [toVec, he]
      fin_cases i
      · change |ev (rot3 0 s s' s'' 0)| = 1; rw [r0]; exact one s hs
      · change |ev (rot3 0 s s' s'' (0 + 1))| = 1; rw [r1]; exact one s' hs'
      · change |ev (rot3 0 s s' s'' (0 + 2))| = 1; rw [r2]; exact one s'' hs''
    · right
      obtain ⟨r0, r1, r2⟩ := rot3_at k (0, 0) (mulZ s (0, 1)) (mulZ s' (-1, 1))
      refine ⟨k, ?_, ?_, ?_⟩
      · simp only [toVec, he, r0, e0]
      · simp only [toVec, he, r1]
        rw [abs_of_cases hs (by rw [eg, ← g_golden]; linarith), eg]
      · simp only [toVec, he, r2]
        rw [abs_of_cases hs' ei0, ei]

theorem sqrt_two_g : 2 + g = Real.goldenRatio + 2 := by rw [← g_golden]; ring

/-- The vertices are those of the standard dodecahedron, scaled to unit length. -/
theorem vtx_std (t : ℕ × ℕ × ℕ) : vtx t = (Real.sqrt 3)⁻¹ • toVec (stdZ t) := by
  have h1 := g_lo
  have h2 := g_hi
  have e : toVec (stdZ t) = (2 - g) • toVec (vertZ t) := by
    ext i
    simp only [toVec, stdZ, ev_mul, Pi.smul_apply, smul_eq_mul]
    congr 1
    simp only [ev]; push_cast; ring
  rw [e, smul_smul, vtx]
  congr 1
  have h3 : (0 : ℝ) < 2 - g := by linarith
  have e3 : (3 : ℝ) = (2 - g) ^ 2 * (6 + 9 * g) := by
    have hs := g_sq
    linear_combination (-(9 : ℝ) * g + 21) * hs
  rw [e3, Real.sqrt_mul (by positivity), Real.sqrt_sq h3.le, mul_inv, mul_right_comm, inv_mul_cancel₀ h3.ne', one_mul]

/-- The cosine of the angle between two neighbouring vertices. -/
theorem edge_value : (4 + 7 * g) / (6 + 9 * g) = Real.sqrt 5 / 3 := by
  have h1 := g_lo
  have e : Real.sqrt 5 = 2 * g - 1 := by unfold g; ring
  rw [e, div_eq_div_iff (by linarith) (by norm_num)]
  linear_combination (-(18 : ℝ)) * g_sq

/-- The cosine of the angle between two neighbouring faces. -/
theorem face_value : g / (2 + g) = 1 / Real.sqrt 5 := by
  have h1 := g_lo
  have e : Real.sqrt 5 = 2 * g - 1 := by unfold g; ring
  rw [e, div_eq_div_iff (by linarith) (by linarith)]
  linear_combination (2 : ℝ) * g_sq

end Dodeca
end Skymap
