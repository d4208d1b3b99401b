import Verif.Props.Dodeca
import Verif.Props.ExplicitCover

/-! # Sky positions as vectors: the local frame, offsets, and what a tract with a zenithal projection contains -/

namespace Skymap
open Real Matrix Dodeca

namespace SpherePoint

/-- The direction east at a position. -/
noncomputable def eastVec (c : SpherePoint ℝ) : Vec3 := ![-sin c.lon, cos c.lon, 0]

/-- The direction north at a position. -/
noncomputable def northVec (c : SpherePoint ℝ) : Vec3 := ![-(sin c.lat * cos c.lon), -(sin c.lat * sin c.lon), cos c.lat]

theorem eastOf_eq (c p : SpherePoint ℝ) : eastOf c p = c.eastVec ⬝ᵥ p.getVector := by
  simp only [eastOf, eastVec, getVector, dotProduct, Fin.sum_univ_three, Matrix.cons_val_zero, Matrix.cons_val_one, Matrix.cons_val, sin_sub]
  ring

theorem northOf_eq (c p : SpherePoint ℝ) : northOf c p = c.northVec ⬝ᵥ p.getVector := by
  simp only [northOf, northVec, getVector, dotProduct, Fin.sum_univ_three, Matrix.cons_val_zero, Matrix.cons_val_one, Matrix.cons_val, cos_sub]
  ring

theorem cosSep_eq (c p : SpherePoint ℝ) : cosSep c p = c.getVector ⬝ᵥ p.getVector := (vector_dot c p).symm

/-- East, north and the position itself are an orthonormal basis. -/
theorem frame_dot (c : SpherePoint ℝ) (W X : Vec3) : W ⬝ᵥ X = (W ⬝ᵥ c.eastVec) * (X ⬝ᵥ c.eastVec) + (W ⬝ᵥ c.northVec) * (X ⬝ᵥ c.northVec) +
    (W ⬝ᵥ c.getVector) * (X ⬝ᵥ c.getVector) := by
  have h1 := sin_sq_add_cos_sq c.lon
  have h2 := sin_sq_add_cos_sq c.lat
  simp only [eastVec, northVec, getVector, dotProduct, Fin.sum_univ_three, Matrix.cons_val_zero, Matrix.cons_val_one, Matrix.cons_val]
  set a := sin c.lon
  set b := cos c.lon
  set s := sin c.lat
  set t := cos c.lat
  linear_combination (-(W 0 * X 0 + W 1 * X 1)) * h1 + (-(W 0 * b + W 1 * a) * (X 0 * b + X 1 * a) - W 2 * X 2) * h2

theorem east_unit (c : SpherePoint ℝ) : c.eastVec ⬝ᵥ c.eastVec = 1 := by
  have h1 := sin_sq_add_cos_sq c.lon
  simp only [eastVec, dotProduct, Fin.sum_univ_three, Matrix.cons_val_zero, Matrix.cons_val_one, Matrix.cons_val]
  linear_combination h1

theorem north_unit (c : SpherePoint ℝ) : c.northVec ⬝ᵥ c.northVec = 1 := by
  have h1 := sin_sq_add_cos_sq c.lon
  have h2 := sin_sq_add_cos_sq c.lat
  simp only [northVec, dotProduct, Fin.sum_univ_three, Matrix.cons_val_zero, Matrix.cons_val_one, Matrix.cons_val]
  linear_combination sin c.lat ^ 2 * h1 + h2

theorem vec_unit (c : SpherePoint ℝ) : c.getVector ⬝ᵥ c.getVector = 1 := by
  have h1 := sin_sq_add_cos_sq c.lon
  have h2 := sin_sq_add_cos_sq c.lat
  simp only [getVector, dotProduct, Fin.sum_univ_three, Matrix.cons_val_zero, Matrix.cons_val_one, Matrix.cons_val]
  linear_combination cos c.lat ^ 2 * h1 + h2

theorem east_north (c : SpherePoint ℝ) : c.eastVec ⬝ᵥ c.northVec = 0 := by
  simp only [eastVec, northVec, dotProduct, Fin.sum_univ_three, Matrix.cons_val_zero, Matrix.cons_val_one, Matrix.cons_val]
  ring

theorem east_vec (c : SpherePoint ℝ) : c.eastVec ⬝ᵥ c.getVector = 0 := by
  simp only [eastVec, getVector, dotProduct, Fin.sum_univ_three, Matrix.cons_val_zero, Matrix.cons_val_one, Matrix.cons_val]
  ring

theorem north_vec (c : SpherePoint ℝ) : c.northVec ⬝ᵥ c.getVector = 0 := by
  have h1 := sin_sq_add_cos_sq c.lon
  simp only [northVec, getVector, dotProduct, Fin.sum_univ_three, Matrix.cons_val_zero, Matrix.cons_val_one, Matrix.cons_val]
  linear_combination -sin c.lat * cos c.lat * h1

/-- The direction of an offset position. -/
theorem offset_dot (v : SpherePoint ℝ) (b δ : ℝ) (W : Vec3) : W ⬝ᵥ (v.offset b δ).getVector = cos δ * (W ⬝ᵥ v.getVector) +
    sin δ * ((W ⬝ᵥ v.eastVec) * cos (b * (π / 180)) + (W ⬝ᵥ v.northVec) * sin (b * (π / 180))) := by
  obtain ⟨h1, h2, h3⟩ := offset_spec v b δ
  rw [eastOf_eq, dotProduct_comm] at h1
  rw [northOf_eq, dotProduct_comm] at h2
  rw [cosSep_eq, dotProduct_comm] at h3
  rw [frame_dot v, h1, h2, h3]
  ring

end SpherePoint

/-- Every direction is within 7.5 degrees of one of the 24 bearings. -/
theorem bearing_dense (A B : ℝ) : ∃ i : ℕ, i < 24 ∧
    cos (π / 24) * √(A ^ 2 + B ^ 2) ≤ A * cos (15 * (i : ℝ) * (π / 180)) + B * sin (15 * (i : ℝ) * (π / 180)) := by
  have hp := pi_pos
  set z : ℂ := ⟨A, B⟩ with hz
  have hn : ‖z‖ = √(A ^ 2 + B ^ 2) := by rw [Complex.norm_eq_sqrt_sq_add_sq]
  have hA : A = ‖z‖ * cos z.arg := by rw [Complex.norm_mul_cos_arg]
  have hB : B = ‖z‖ * sin z.arg := by rw [Complex.norm_mul_sin_arg]
  set j := round (z.arg / (π / 12)) with hj
  have hr := abs_le.1 (abs_sub_round (z.arg / (π / 12)))
  have hd : |z.arg - j * (π / 12)| ≤ π / 24 := by
    rw [← hj] at hr
    have e : z.arg - j * (π / 12) = (z.arg / (π / 12) - j) * (π / 12) := by field_simp
    rw [abs_le, e]
    have h12 : 0 ≤ π / 12 := by linarith
    have g1 := mul_le_mul_of_nonneg_right hr.1 h12
    have g2 := mul_le_mul_of_nonneg_right hr.2 h12
    constructor <;> linarith
  have h0 : 0 ≤ j % 24 := Int.emod_nonneg _ (by norm_num)
  have h1 : j % 24 < 24 := Int.emod_lt_of_pos _ (by norm_num)
  refine ⟨(j % 24).toNat, by omega, ?_⟩
  have hc : (((j % 24).toNat : ℕ) : ℝ) = ((j % 24 : ℤ) : ℝ) := by
    have : (((j % 24).toNat : ℕ) : ℤ) = j % 24 := Int.toNat_of_nonneg h0
    exact_mod_cast this
  have hdm : ((j % 24 : ℤ) : ℝ) = j - 24 * ((j / 24 : ℤ) : ℝ) := by
    have := Int.emod_add_mul_ediv j 24
    have : (((j % 24 : ℤ) : ℝ)) + 24 * ((j / 24 : ℤ) : ℝ) = j := by exact_mod_cast this
    linarith
  have ha : 15 * (((j % 24).toNat : ℕ) : ℝ) * (π / 180) = j * (π / 12) - ((j / 24 : ℤ) : ℝ) * (2 * π) := by rw [hc, hdm]; ring
  rw [ha, cos_sub_int_mul_two_pi, sin_sub_int_mul_two_pi, ← hn]
  have e : A * cos (j * (π / 12)) + B * sin (j * (π / 12)) = ‖z‖ * cos (z.arg - j * (π / 12)) := by
    rw [cos_sub]; linear_combination cos (j * (π / 12)) * hA + sin (j * (π / 12)) * hB
  rw [e, mul_comm]
  apply mul_le_mul_of_nonneg_left _ (norm_nonneg z)
  rw [← cos_abs (z.arg - _)]
  exact cos_le_cos_of_nonneg_of_le_pi (abs_nonneg _) (by linarith) hd

/-- The plane coordinate of the direction `v` along `U`, for the reference direction `C`. -/
noncomputable def Projection.along : Projection → Vec3 → Vec3 → Vec3 → ℝ
  | .TAN, C, U, v => U ⬝ᵥ v / (C ⬝ᵥ v)
  | .STG, C, U, v => 2 * (U ⬝ᵥ v) / (1 + C ⬝ᵥ v)
  | .CEA, _, _, _ => 0

/-- Where a zenithal projection is defined. -/
def Projection.Reaches : Projection → Vec3 → Vec3 → Prop
  | .TAN, C, v => 0 < C ⬝ᵥ v
  | .STG, C, v => -1 < C ⬝ᵥ v
  | .CEA, _, _ => False

/-- The axes of the pixels as directions on the sky. -/
theorem pixel_axes (c : SpherePoint ℝ) (θ : ℝ) (flipX : Bool) : ∃ X Y : Vec3, X ⬝ᵥ X = 1 ∧ Y ⬝ᵥ Y = 1 ∧ X ⬝ᵥ c.getVector = 0 ∧
    Y ⬝ᵥ c.getVector = 0 ∧ Y = sin θ • c.eastVec + cos θ • c.northVec ∧ ∀ {scale : ℝ} {code : String} {f : WcsFactory} {P : Projection} {other},
      WcsFactory.new scale code θ flipX = .ok f → 0 < scale → Projection.ofCode code = some P → ∀ p : SpherePoint ℝ,
      P.Reaches c.getVector p.getVector → (f.makeWcs other ⟨0, 0⟩ c).skyToPixel p =
        .pix ⟨P.along c.getVector X p.getVector / scale, P.along c.getVector Y p.getVector / scale⟩ := by
  have hm : ((if flipX then 1 else -1 : ℝ)) * (if flipX then 1 else -1) = 1 := by cases flipX <;> norm_num
  set m : ℝ := if flipX then 1 else -1 with hmd
  have h2 := sin_sq_add_cos_sq θ
  refine ⟨m • (cos θ • c.eastVec - sin θ • c.northVec), sin θ • c.eastVec + cos θ • c.northVec, ?_, ?_, ?_, ?_, rfl, ?_⟩
  · simp only [smul_dotProduct, dotProduct_smul, sub_dotProduct, dotProduct_sub, smul_eq_mul, c.east_unit, c.north_unit, c.east_north,
      dotProduct_comm c.northVec c.eastVec]
    linear_combination (sin θ ^ 2 + cos θ ^ 2) * hm + h2
  · simp only [smul_dotProduct, dotProduct_smul, add_dotProduct, dotProduct_add, smul_eq_mul, c.east_unit, c.north_unit, c.east_north,
      dotProduct_comm c.northVec c.eastVec]
    linear_combination h2
  · simp only [smul_dotProduct, sub_dotProduct, smul_eq_mul, c.east_vec, c.north_vec]; ring
  · simp only [smul_dotProduct, add_dotProduct, smul_eq_mul, c.east_vec, c.north_vec]; ring
  · intro scale code f P other hf hs hP p hp
    rw [WcsFactory.makeWcs_eq hf hP]
    unfold makeSkyWcs
    dsimp only
    cases P with
    | TAN =>
      simp only [Projection.Reaches] at hp
      rw [← SpherePoint.cosSep_eq] at hp
      simp only [Projection.toPlane, if_pos hp]
      rw [makeCdMatrix_solve hs.ne', ← hmd]
      simp only [Projection.along, smul_dotProduct, sub_dotProduct, add_dotProduct, smul_eq_mul, zero_add, ← SpherePoint.cosSep_eq,
        ← SpherePoint.eastOf_eq, ← SpherePoint.northOf_eq]
      congr 2 <;> ring
    | STG =>
      simp only [Projection.Reaches] at hp
      rw [← SpherePoint.cosSep_eq] at hp
      simp only [Projection.toPlane, if_pos hp]
      rw [makeCdMatrix_solve hs.ne', ← hmd]
      simp only [Projection.along, smul_dotProduct, sub_dotProduct, add_dotProduct, smul_eq_mul, zero_add, ← SpherePoint.cosSep_eq,
        ← SpherePoint.eastOf_eq, ← SpherePoint.northOf_eq]
      congr 2 <;> ring
    | CEA => exact hp.elim

theorem Projection.along_neg (P : Projection) (C U v : Vec3) : P.along C (-U) v = -P.along C U v := by
  cases P <;> simp only [Projection.along, neg_dotProduct] <;> ring

variable {env : FloatEnv ℝ} {b₀ b : TractBuilder} {a : TractArgs (SpherePoint ℝ) ℝ} {t : TractInfo (SpherePoint ℝ) ℝ}
  {other : P2 ℝ → SpherePoint ℝ → CdMatrix → String → Wcs (SpherePoint ℝ) ℝ} {f : WcsFactory} {scale θ : ℝ} {code : String}
  {flipX : Bool} {P : Projection}

/-- A tract with a zenithal projection contains a position if in every direction of the plane some of the positions that size the tract
is at least as far out. -/
theorem zenithal_covers (he : env.Ok) (h : TractInfo.new env sphereOps b₀ a = .ok (t, b))
    (hx : 0 < b₀.patchInnerDimensions.x) (hy : 0 < b₀.patchInnerDimensions.y)
    (hf : WcsFactory.new scale code θ flipX = .ok f) (hs : 0 < scale) (hP : Projection.ofCode code = some P)
    (hw : a.wcs = f.makeWcs other ⟨0, 0⟩ a.ctrCoord) {p : SpherePoint ℝ} (hp : P.Reaches a.ctrCoord.getVector p.getVector)
    (hU : ∀ U : Vec3, U ⬝ᵥ U = 1 → U ⬝ᵥ a.ctrCoord.getVector = 0 → ∃ s ∈ samplePoints sphereOps a,
      P.Reaches a.ctrCoord.getVector s.getVector ∧
      P.along a.ctrCoord.getVector U p.getVector ≤ P.along a.ctrCoord.getVector U s.getVector) : t.contains p = true := by
  obtain ⟨X, Y, x1, y1, x2, y2, -, key⟩ := pixel_axes a.ctrCoord θ flipX
  have neg : ∀ U : Vec3, U ⬝ᵥ U = 1 → U ⬝ᵥ a.ctrCoord.getVector = 0 → ∃ s ∈ samplePoints sphereOps a,
      P.Reaches a.ctrCoord.getVector s.getVector ∧
      P.along a.ctrCoord.getVector U s.getVector ≤ P.along a.ctrCoord.getVector U p.getVector := by
    intro U u1 u2
    obtain ⟨s, m, r, l⟩ := hU (-U) (by rw [neg_dotProduct, dotProduct_neg, neg_neg, u1]) (by rw [neg_dotProduct, u2, neg_zero])
    rw [P.along_neg, P.along_neg] at l
    exact ⟨s, m, r, by linarith⟩
  obtain ⟨s1, m1, r1, l1⟩ := neg X x1 x2
  obtain ⟨s2, m2, r2, l2⟩ := hU X x1 x2
  obtain ⟨s3, m3, r3, l3⟩ := neg Y y1 y2
  obtain ⟨s4, m4, r4, l4⟩ := hU Y y1 y2
  refine TractInfo.contains_between he h hx hy (by rw [hw]; exact key hf hs hP p hp) ⟨s1, m1, _, by rw [hw]; exact key hf hs hP s1 r1, ?_⟩
    ⟨s2, m2, _, by rw [hw]; exact key hf hs hP s2 r2, ?_⟩ ⟨s3, m3, _, by rw [hw]; exact key hf hs hP s3 r3, ?_⟩
    ⟨s4, m4, _, by rw [hw]; exact key hf hs hP s4 r4, ?_⟩ <;> dsimp only <;> gcongr

end Skymap
