import Verif.Model.Dodecahedron
import Mathlib.LinearAlgebra.LinearIndependent.Basic
import Mathlib.LinearAlgebra.UnitaryGroup
import Mathlib.Tactic.FinCases
import Mathlib.Tactic.LinearCombination

/-! # C37: the coordinate transform of the dodecahedron -/

namespace Skymap
namespace Dodeca
open Matrix

/-- A proper rotation: it preserves dot products and orientation. -/
def IsRotation (M : Matrix (Fin 3) (Fin 3) ℝ) : Prop := Mᵀ * M = 1 ∧ M.det = 1

theorem rot_x (a : ℝ) : computeRotationMatrix a 0 =
    !![1, 0, 0; 0, Real.cos a, -Real.sin a; 0, Real.sin a, Real.cos a] := by
  ext i j
  fin_cases i <;> fin_cases j <;> simp [computeRotationMatrix, Function.update, Matrix.updateRow_apply]

theorem rot_y (a : ℝ) : computeRotationMatrix a 1 =
    !![Real.cos a, 0, Real.sin a; 0, 1, 0; -Real.sin a, 0, Real.cos a] := by
  ext i j
  fin_cases i <;> fin_cases j <;> simp [computeRotationMatrix, Function.update, Matrix.updateRow_apply]

theorem rot_z (a : ℝ) : computeRotationMatrix a 2 =
    !![Real.cos a, -Real.sin a, 0; Real.sin a, Real.cos a, 0; 0, 0, 1] := by
  ext i j
  fin_cases i <;> fin_cases j <;> simp [computeRotationMatrix, Function.update, Matrix.updateRow_apply]

/-- C37: `computeRotationMatrix` gives a proper rotation that leaves its axis fixed. -/
theorem C37_rotation_matrix (a : ℝ) (axis : Fin 3) :
    IsRotation (computeRotationMatrix a axis) ∧ computeRotationMatrix a axis *ᵥ Pi.single axis 1 = Pi.single axis 1 := by
  have h := Real.sin_sq_add_cos_sq a
  fin_cases axis
  · change IsRotation (computeRotationMatrix a 0) ∧ computeRotationMatrix a 0 *ᵥ Pi.single 0 1 = Pi.single 0 1
    rw [rot_x]
    refine ⟨⟨?_, ?_⟩, ?_⟩
    · ext i j
      fin_cases i <;> fin_cases j <;> simp [Matrix.mul_apply, Fin.sum_univ_three] <;> first | ring1 | linear_combination h
    · simp [Matrix.det_fin_three]; linear_combination h
    · ext i; fin_cases i <;> simp
  · change IsRotation (computeRotationMatrix a 1) ∧ computeRotationMatrix a 1 *ᵥ Pi.single 1 1 = Pi.single 1 1
    rw [rot_y]
    refine ⟨⟨?_, ?_⟩, ?_⟩
    · ext i j
      fin_cases i <;> fin_cases j <;> simp [Matrix.mul_apply, Fin.sum_univ_three] <;> first | ring1 | linear_combination h
    · simp [Matrix.det_fin_three]; linear_combination h
    · ext i; fin_cases i <;> simp
  · change IsRotation (computeRotationMatrix a 2) ∧ computeRotationMatrix a 2 *ᵥ Pi.single 2 1 = Pi.single 2 1
    rw [rot_z]
    refine ⟨⟨?_, ?_⟩, ?_⟩
    · ext i j
      fin_cases i <;> fin_cases j <;> simp [Matrix.mul_apply, Fin.sum_univ_three] <;> first | ring1 | linear_combination h
    · simp [Matrix.det_fin_three]; linear_combination h
    · ext i; fin_cases i <;> simp

theorem IsRotation.mul {M N : Matrix (Fin 3) (Fin 3) ℝ} (hM : IsRotation M) (hN : IsRotation N) : IsRotation (M * N) := by
  refine ⟨?_, by rw [Matrix.det_mul, hM.2, hN.2, one_mul]⟩
  rw [Matrix.transpose_mul, Matrix.mul_assoc, ← Matrix.mul_assoc Mᵀ, hM.1, Matrix.one_mul, hN.1]

theorem IsRotation.dot {M : Matrix (Fin 3) (Fin 3) ℝ} (hM : IsRotation M) (u v : Vec3) : (M *ᵥ u) ⬝ᵥ (M *ᵥ v) = u ⬝ᵥ v := by
  rw [Matrix.dotProduct_mulVec, Matrix.vecMul_mulVec, ← Matrix.dotProduct_mulVec, hM.1, Matrix.one_mulVec]

theorem IsRotation.inj {M : Matrix (Fin 3) (Fin 3) ℝ} (hM : IsRotation M) {u v : Vec3} (h : M *ᵥ u = M *ᵥ v) : u = v := by
  have : Mᵀ *ᵥ (M *ᵥ u) = Mᵀ *ᵥ (M *ᵥ v) := by rw [h]
  rwa [Matrix.mulVec_mulVec, Matrix.mulVec_mulVec, hM.1, Matrix.one_mulVec, Matrix.one_mulVec] at this

theorem IsRotation.mul_transpose {M : Matrix (Fin 3) (Fin 3) ℝ} (hM : IsRotation M) : M * Mᵀ = 1 :=
  mul_eq_one_comm.1 hM.1

/-- Polar coordinates. -/
theorem atan2_polar (y x : ℝ) : ∃ r, 0 ≤ r ∧ r ^ 2 = x ^ 2 + y ^ 2 ∧ x = r * Real.cos (atan2 y x) ∧ y = r * Real.sin (atan2 y x) := by
  refine ⟨‖(⟨x, y⟩ : ℂ)‖, norm_nonneg _, ?_, ?_, ?_⟩
  · rw [Complex.sq_norm, Complex.normSq_mk]; ring
  · exact (Complex.norm_mul_cos_arg ⟨x, y⟩).symm
  · exact (Complex.norm_mul_sin_arg ⟨x, y⟩).symm

/-- The first two rotations. -/
theorem xy_transform (vec0 : Vec3) : ∃ M, IsRotation M ∧
    computeRotationMatrix (-atan2 ((computeRotationMatrix (atan2 (vec0 1) (vec0 2)) 0 *ᵥ vec0) 0)
      ((computeRotationMatrix (atan2 (vec0 1) (vec0 2)) 0 *ᵥ vec0) 2)) 1 * computeRotationMatrix (atan2 (vec0 1) (vec0 2)) 0 = M ∧
    ∃ R, 0 ≤ R ∧ M *ᵥ vec0 = ![0, 0, R] := by
  refine ⟨_, (C37_rotation_matrix _ 1).1.mul (C37_rotation_matrix _ 0).1, rfl, ?_⟩
  obtain ⟨r, hr0, hr, h1, h2⟩ := atan2_polar (vec0 1) (vec0 2)
  set a := atan2 (vec0 1) (vec0 2)
  have hs := Real.sin_sq_add_cos_sq a
  have e1 : computeRotationMatrix a 0 *ᵥ vec0 = ![vec0 0, 0, r] := by
    rw [rot_x]
    ext i
    fin_cases i <;> simp [Matrix.mulVec, dotProduct, Fin.sum_univ_three]
    · rw [h1, h2]; ring
    · rw [h1, h2]; linear_combination r * hs
  rw [← Matrix.mulVec_mulVec, e1]
  simp only [Matrix.cons_val_zero, Matrix.cons_val]
  obtain ⟨R, hR0, hR, h3, h4⟩ := atan2_polar (vec0 0) r
  set b := atan2 (vec0 0) r
  have hs' := Real.sin_sq_add_cos_sq b
  refine ⟨R, hR0, ?_⟩
  rw [rot_y]
  ext i
  fin_cases i <;> simp [Matrix.mulVec, dotProduct, Fin.sum_univ_three]
  · rw [h3, h4]; ring
  · rw [h3, h4]; linear_combination R * hs'

/-- The transform: a rotation that puts `vec0` on +z; and where `vec1` goes. -/
theorem transform (vec0 vec1 : Vec3) (neg : Bool) : IsRotation (computeCoordTransform vec0 vec1 neg) ∧
    (∃ R, 0 ≤ R ∧ computeCoordTransform vec0 vec1 neg *ᵥ vec0 = ![0, 0, R]) ∧
    ∃ M, IsRotation M ∧ (∃ R, M *ᵥ vec0 = ![0, 0, R]) ∧ ∃ r a z, 0 ≤ r ∧ (M *ᵥ vec1) = ![(if neg then -1 else 1) * (r * Real.cos a), r * Real.sin a, z] ∧
      computeCoordTransform vec0 vec1 neg *ᵥ vec1 =
        if neg then ![-(r * Real.cos (2 * a)), r * Real.sin (2 * a), z] else ![r, 0, z] := by
  obtain ⟨M, hM, e, R, hR0, hR⟩ := xy_transform vec0
  unfold computeCoordTransform
  dsimp only
  rw [e]
  refine ⟨(C37_rotation_matrix _ 2).1.mul hM, ⟨R, hR0, ?_⟩, M, hM, ⟨R, hR⟩, ?_⟩
  · rw [← Matrix.mulVec_mulVec, hR, rot_z]
    ext i
    fin_cases i <;> simp [Matrix.mulVec, dotProduct, Fin.sum_univ_three]
  · cases neg with
    | false =>
      obtain ⟨r, hr0, hr, h1, h2⟩ := atan2_polar ((M *ᵥ vec1) 1) ((M *ᵥ vec1) 0)
      simp only [Bool.false_eq_true, if_false]
      set a := atan2 ((M *ᵥ vec1) 1) ((M *ᵥ vec1) 0)
      have hs := Real.sin_sq_add_cos_sq a
      have hv : M *ᵥ vec1 = ![r * Real.cos a, r * Real.sin a, (M *ᵥ vec1) 2] := by
        ext i; fin_cases i
        · exact h1
        · exact h2
        · rfl
      refine ⟨r, a, (M *ᵥ vec1) 2, hr0, by simpa using hv, ?_⟩
      rw [← Matrix.mulVec_mulVec, rot_z]
      generalize (M *ᵥ vec1) 2 = z at *
      rw [hv]
      ext i
      fin_cases i <;> simp [Matrix.mulVec, dotProduct, Fin.sum_univ_three]
      · linear_combination r * hs
      · ring
    | true =>
      obtain ⟨r, hr0, hr, h1, h2⟩ := atan2_polar ((M *ᵥ vec1) 1) (-(M *ᵥ vec1) 0)
      simp only [if_true]
      set a := atan2 ((M *ᵥ vec1) 1) (-(M *ᵥ vec1) 0)
      have hs := Real.sin_sq_add_cos_sq a
      have hv : M *ᵥ vec1 = ![-1 * (r * Real.cos a), r * Real.sin a, (M *ᵥ vec1) 2] := by
        ext i; fin_cases i
        · change (M *ᵥ vec1) 0 = -1 * (r * Real.cos a); linarith
        · exact h2
        · rfl
      refine ⟨r, a, (M *ᵥ vec1) 2, hr0, hv, ?_⟩
      rw [← Matrix.mulVec_mulVec, rot_z]
      generalize (M *ᵥ vec1) 2 = z at *
      rw [hv]
      ext i
      fin_cases i <;> simp [Matrix.mulVec, dotProduct, Fin.sum_univ_three]
      · rw [Real.cos_two_mul]; linear_combination r * hs
      · rw [Real.sin_two_mul]; ring

theorem len_sq {u : Vec3} : u ⬝ᵥ u = u 0 ^ 2 + u 1 ^ 2 + u 2 ^ 2 := by
  simp only [dotProduct, Fin.sum_univ_three]; ring

/-- `r = 0` would make the vectors parallel. -/
theorem radius_pos {vec0 vec1 : Vec3} (h : LinearIndependent ℝ ![vec0, vec1]) {M : Matrix (Fin 3) (Fin 3) ℝ} (hM : IsRotation M)
    {R x y z : ℝ} (h0 : M *ᵥ vec0 = ![0, 0, R]) (h1 : M *ᵥ vec1 = ![x, y, z]) : x ≠ 0 ∨ y ≠ 0 := by
  by_contra hc
  push Not at hc
  obtain ⟨rfl, rfl⟩ := hc
  rw [LinearIndependent.pair_iff] at h
  have hv : z • vec0 + (-R) • vec1 = 0 := by
    apply hM.inj
    rw [Matrix.mulVec_add, Matrix.mulVec_smul, Matrix.mulVec_smul, h0, h1, Matrix.mulVec_zero]
    ext i; fin_cases i <;> simp; ring
  obtain ⟨hz, hR⟩ := h _ _ hv
  have h2 : vec1 = 0 := by
    apply hM.inj
    rw [h1, hz, Matrix.mulVec_zero]
    ext i; fin_cases i <;> simp
  have := (h 0 1 (by rw [h2]; simp)).2
  norm_num at this

theorem on_axis {vec0 vec1 : Vec3} (h : LinearIndependent ℝ ![vec0, vec1]) {M : Matrix (Fin 3) (Fin 3) ℝ} (hM : IsRotation M)
    {R : ℝ} (hR : 0 ≤ R) (h0 : M *ᵥ vec0 = ![0, 0, R]) : R = Real.sqrt (vec0 ⬝ᵥ vec0) ∧ 0 < R := by
  have h1 : R ^ 2 = vec0 ⬝ᵥ vec0 := by
    rw [← hM.dot vec0 vec0, h0, len_sq]; simp
  have h2 : R ≠ 0 := by
    rintro rfl
    have : vec0 = 0 := by
      apply hM.inj
      rw [h0, Matrix.mulVec_zero]
      ext i; fin_cases i <;> simp
    rw [LinearIndependent.pair_iff] at h
    have := (h 1 0 (by rw [this]; simp)).1
    norm_num at this
  exact ⟨by rw [← h1, Real.sqrt_sq hR], lt_of_le_of_ne hR (Ne.symm h2)⟩

/-- C37: for every two vectors that are not parallel, the coordinate transform is a proper rotation; it puts the first vector on the
positive z axis and the second into the half-plane y = 0, x > 0. -/
theorem C37_transform (vec0 vec1 : Vec3) (h : LinearIndependent ℝ ![vec0, vec1]) :
    IsRotation (computeCoordTransform vec0 vec1 false) ∧
    computeCoordTransform vec0 vec1 false *ᵥ vec0 = ![0, 0, Real.sqrt (vec0 ⬝ᵥ vec0)] ∧ 0 < Real.sqrt (vec0 ⬝ᵥ vec0) ∧
    ∃ x z, 0 < x ∧ computeCoordTransform vec0 vec1 false *ᵥ vec1 = ![x, 0, z] := by
  obtain ⟨h1, ⟨R, hR0, hR⟩, M, hM, -, r, a, z, hr, -, h2⟩ := transform vec0 vec1 false
  obtain ⟨e, hpos⟩ := on_axis h h1 hR0 hR
  rw [← e]
  refine ⟨h1, hR, hpos, r, z, ?_, by simpa using h2⟩
  simp only [Bool.false_eq_true, if_false] at h2
  rcases radius_pos h h1 hR h2 with h3 | h3
  · exact lt_of_le_of_ne hr (Ne.symm h3)
  · exact absurd rfl h3

/-- The second row of the first two rotations. -/
theorem xy_row (vec0 vec1 : Vec3) (hne : ¬ (vec0 1 = 0 ∧ vec0 2 = 0)) :
    ((computeRotationMatrix (-atan2 ((computeRotationMatrix (atan2 (vec0 1) (vec0 2)) 0 *ᵥ vec0) 0)
      ((computeRotationMatrix (atan2 (vec0 1) (vec0 2)) 0 *ᵥ vec0) 2)) 1 * computeRotationMatrix (atan2 (vec0 1) (vec0 2)) 0) *ᵥ vec1) 1 = 0
      ↔ vec0 1 * vec1 2 = vec0 2 * vec1 1 := by
  obtain ⟨r, hr0, hr, h1, h2⟩ := atan2_polar (vec0 1) (vec0 2)
  have hr' : r ≠ 0 := by
    rintro rfl
    apply hne
    constructor <;> nlinarith [sq_nonneg (vec0 1), sq_nonneg (vec0 2)]
  rw [← Matrix.mulVec_mulVec, rot_y]
  set a := atan2 (vec0 1) (vec0 2)
  rw [rot_x]
  simp only [Matrix.mulVec, dotProduct, Fin.sum_univ_three]
  simp
  rw [h1, h2]
  constructor
  · intro h; linear_combination -r * h
  · intro h
    apply mul_left_cancel₀ hr'
    linear_combination -h

/-- C37: with `vec1NegativeX` the transform is a proper rotation that puts the first vector on the positive z axis, but the second
vector is in the half-plane y = 0, x < 0 only if the plane of the two vectors contains the x axis: otherwise the last rotation
has the wrong sign. -/
theorem C37_transform_negative (vec0 vec1 : Vec3) (h : LinearIndependent ℝ ![vec0, vec1]) :
    IsRotation (computeCoordTransform vec0 vec1 true) ∧
    computeCoordTransform vec0 vec1 true *ᵥ vec0 = ![0, 0, Real.sqrt (vec0 ⬝ᵥ vec0)] ∧ 0 < Real.sqrt (vec0 ⬝ᵥ vec0) ∧
    (¬ (vec0 1 = 0 ∧ vec0 2 = 0) → ((∃ x z, x < 0 ∧ computeCoordTransform vec0 vec1 true *ᵥ vec1 = ![x, 0, z]) ↔
      vec0 1 * vec1 2 = vec0 2 * vec1 1)) := by
  obtain ⟨h1, ⟨R, hR0, hR⟩, -⟩ := transform vec0 vec1 true
  obtain ⟨e, hpos⟩ := on_axis h h1 hR0 hR
  rw [← e]
  refine ⟨h1, hR, hpos, fun hne => ?_⟩
  rw [← xy_row vec0 vec1 hne]
  clear h1 hR hR0 e hpos R
  obtain ⟨M, hM, e, R, hR0, hR⟩ := xy_transform vec0
  unfold computeCoordTransform
  dsimp only
  rw [e]
  obtain ⟨r, hr0, hr, h1, h2⟩ := atan2_polar ((M *ᵥ vec1) 1) (-(M *ᵥ vec1) 0)
  simp only [if_true]
  have h3 := radius_pos (x := (M *ᵥ vec1) 0) (y := (M *ᵥ vec1) 1) (z := (M *ᵥ vec1) 2) h hM hR
    (by ext i; fin_cases i <;> rfl)
  set a := atan2 ((M *ᵥ vec1) 1) (-(M *ᵥ vec1) 0)
  have hs := Real.sin_sq_add_cos_sq a
  have hrp : 0 < r := by
    apply lt_of_le_of_ne hr0
    rintro rfl
    rcases h3 with h3 | h3
    · apply h3; linarith
    · apply h3; rw [h2]; ring
  have hv : (computeRotationMatrix (-a) 2 * M) *ᵥ vec1 = ![-(r * Real.cos (2 * a)), r * Real.sin (2 * a), (M *ᵥ vec1) 2] := by
    have hv : M *ᵥ vec1 = ![-1 * (r * Real.cos a), r * Real.sin a, (M *ᵥ vec1) 2] := by
      ext i; fin_cases i
      · change (M *ᵥ vec1) 0 = -1 * (r * Real.cos a); linarith
      · exact h2
      · rfl
    rw [← Matrix.mulVec_mulVec, rot_z]
    generalize (M *ᵥ vec1) 2 = z at *
    rw [hv]
    ext i
    fin_cases i <;> simp [Matrix.mulVec, dotProduct, Fin.sum_univ_three]
    · rw [Real.cos_two_mul]; linear_combination r * hs
    · rw [Real.sin_two_mul]; ring
  rw [hv, h2]
  constructor
  · rintro ⟨x, z, hx, hxz⟩
    have q0 := congrFun hxz 0
    have q1 := congrFun hxz 1
    simp only [Matrix.cons_val_zero, Matrix.cons_val_one] at q0 q1
    rw [Real.cos_two_mul] at q0
    rw [Real.sin_two_mul] at q1
    have hc : Real.cos a ≠ 0 := by
      intro hc
      rw [hc] at q0
      nlinarith
    have : r * (2 * Real.sin a * Real.cos a) = 0 := q1
    have h4 : r * Real.sin a * (2 * Real.cos a) = 0 := by linarith
    rcases mul_eq_zero.1 h4 with h5 | h5
    · exact h5
    · exact absurd (by linarith) hc
  · intro hy
    have hs0 : Real.sin a = 0 := by
      rcases mul_eq_zero.1 hy with h5 | h5
      · exact absurd h5 hrp.ne'
      · exact h5
    refine ⟨-r, (M *ᵥ vec1) 2, by linarith, ?_⟩
    rw [Real.cos_two_mul, Real.sin_two_mul, hs0]
    have : Real.cos a ^ 2 = 1 := by rw [← hs, hs0]; ring
    rw [this]
    ext i; fin_cases i <;> simp
    ring

/-- C37 fails for `vec1NegativeX`: two vectors that are not parallel, the second of which is not rotated to face negative x. -/
theorem C37_fails_negative : ∃ vec0 vec1 : Vec3, LinearIndependent ℝ ![vec0, vec1] ∧
    ¬ ∃ x z, x < 0 ∧ computeCoordTransform vec0 vec1 true *ᵥ vec1 = ![x, 0, z] := by
  have hl : LinearIndependent ℝ ![(![0, 0, 1] : Vec3), ![1, 1, 0]] := by
    rw [LinearIndependent.pair_iff]
    intro s t h
    have h0 := congrFun h 0
    have h2 := congrFun h 2
    simp at h0 h2
    exact ⟨h2, h0⟩
  refine ⟨_, _, hl, ?_⟩
  rw [(C37_transform_negative _ _ hl).2.2.2 (by simp)]
  simp

example : LinearIndependent ℝ ![(![1, 2, 3] : Vec3), ![1, 1, 0]] := by
  rw [LinearIndependent.pair_iff]
  intro s t h
  have h0 := congrFun h 0
  have h2 := congrFun h 2
  simp at h0 h2
  subst h2
  simpa using h0

end Dodeca
end Skymap
