import Verif.Model.Wcs
import Mathlib.Tactic.LinearCombination

/-! # Local components of directions -/

namespace Skymap
open Real

theorem local_sq (c p : SpherePoint ℝ) : eastOf c p ^ 2 + northOf c p ^ 2 + cosSep c p ^ 2 = 1 := by
  unfold eastOf northOf cosSep
  have e : cos (c.lon - p.lon) = cos (p.lon - c.lon) := by rw [← cos_neg]; ring_nf
  rw [e]
  have h1 := sin_sq_add_cos_sq p.lat
  have h2 := sin_sq_add_cos_sq c.lat
  have h3 := sin_sq_add_cos_sq (p.lon - c.lon)
  generalize sin (p.lon - c.lon) = s at *
  generalize cos (p.lon - c.lon) = k at *
  generalize sin p.lat = a at *
  generalize cos p.lat = b at *
  generalize sin c.lat = u at *
  generalize cos c.lat = v at *
  linear_combination (a ^ 2 + b ^ 2 * k ^ 2) * h2 + b ^ 2 * h3 + h1

theorem wrapAngle_eq (x : ℝ) : ∃ k : ℤ, wrapAngle π x = x - k * (2 * π) := ⟨_, rfl⟩

theorem wrapAngle_mem (x : ℝ) : 0 ≤ wrapAngle π x ∧ wrapAngle π x < 2 * π := by
  have hp : 0 < 2 * π := by positivity
  unfold wrapAngle
  have h1 := Int.floor_le (x / (2 * π))
  have h2 := Int.lt_floor_add_one (x / (2 * π))
  rw [le_div_iff₀ hp] at h1
  rw [div_lt_iff₀ hp] at h2
  constructor <;> linarith

theorem cos_wrap_sub (x y : ℝ) : cos (wrapAngle π x - y) = cos (x - y) := by
  obtain ⟨k, hk⟩ := wrapAngle_eq x
  rw [hk, show x - k * (2 * π) - y = x - y - k * (2 * π) by ring, cos_sub_int_mul_two_pi]

theorem sin_wrap_sub (x y : ℝ) : sin (wrapAngle π x - y) = sin (x - y) := by
  obtain ⟨k, hk⟩ := wrapAngle_eq x
  rw [hk, show x - k * (2 * π) - y = x - y - k * (2 * π) by ring, sin_sub_int_mul_two_pi]

/-- The position with given local components has them. -/
theorem fromLocal_spec (c : SpherePoint ℝ) {e n z : ℝ} (h : e ^ 2 + n ^ 2 + z ^ 2 = 1) :
    eastOf c (fromLocal c e n z) = e ∧ northOf c (fromLocal c e n z) = n ∧ cosSep c (fromLocal c e n z) = z := by
  have hc := sin_sq_add_cos_sq c.lat
  set X := cos c.lat * z - sin c.lat * n with hX
  set Z := cos c.lat * n + sin c.lat * z with hZ
  have hs : X ^ 2 + e ^ 2 + Z ^ 2 = 1 := by
    rw [hX, hZ]; linear_combination h + (z ^ 2 + n ^ 2) * hc
  have hZ2 : Z ^ 2 ≤ 1 := by nlinarith [sq_nonneg X, sq_nonneg e]
  have hZ1 : -1 ≤ Z ∧ Z ≤ 1 := ⟨by nlinarith, by nlinarith⟩
  have sl : sin (arcsin Z) = Z := sin_arcsin hZ1.1 hZ1.2
  have hn : ‖(⟨X, e⟩ : ℂ)‖ = √(1 - Z ^ 2) := by
    rw [Complex.norm_eq_sqrt_sq_add_sq]
    congr 1
    dsimp only; linarith
  have cl : cos (arcsin Z) = ‖(⟨X, e⟩ : ℂ)‖ := by rw [hn, cos_arcsin]
  have c1 : cos (arcsin Z) * cos (Complex.arg ⟨X, e⟩) = X := by
    rw [cl]; exact Complex.norm_mul_cos_arg _
  have s1 : cos (arcsin Z) * sin (Complex.arg ⟨X, e⟩) = e := by
    rw [cl]; exact Complex.norm_mul_sin_arg _
  have hlon : (fromLocal c e n z).lon = wrapAngle π (c.lon + Complex.arg ⟨X, e⟩) := rfl
  have hlat : (fromLocal c e n z).lat = arcsin Z := rfl
  have dc : cos ((fromLocal c e n z).lon - c.lon) = cos (Complex.arg ⟨X, e⟩) := by
    rw [hlon, cos_wrap_sub]; congr 1; ring
  have ds : sin ((fromLocal c e n z).lon - c.lon) = sin (Complex.arg ⟨X, e⟩) := by
    rw [hlon, sin_wrap_sub]; congr 1; ring
  refine ⟨?_, ?_, ?_⟩
  · unfold eastOf; rw [ds, hlat, s1]
  · unfold northOf; rw [dc, hlat, sl, mul_assoc, c1, hX, hZ]
    linear_combination n * hc
  · unfold cosSep
    rw [show c.lon - (fromLocal c e n z).lon = -((fromLocal c e n z).lon - c.lon) by ring, cos_neg, dc, hlat, sl, mul_assoc, c1, hX, hZ]
    linear_combination z * hc

theorem offset_spec (c : SpherePoint ℝ) (b r : ℝ) :
    eastOf c (c.offset b r) = sin r * cos (b * (π / 180)) ∧ northOf c (c.offset b r) = sin r * sin (b * (π / 180)) ∧
      cosSep c (c.offset b r) = cos r := by
  apply fromLocal_spec
  have h1 := sin_sq_add_cos_sq r
  have h2 := sin_sq_add_cos_sq (b * (π / 180))
  linear_combination sin r ^ 2 * h2 + h1

/-- A position is determined by its local components. -/
theorem fromLocal_components (c : SpherePoint ℝ) {p : SpherePoint ℝ} (hlon : 0 ≤ p.lon ∧ p.lon < 2 * π) (hlat : |p.lat| < π / 2) :
    fromLocal c (eastOf c p) (northOf c p) (cosSep c p) = p := by
  have hc := sin_sq_add_cos_sq c.lat
  have hl := abs_lt.1 hlat
  have cp : 0 < cos p.lat := cos_pos_of_mem_Ioo ⟨hl.1, hl.2⟩
  have e : cos (c.lon - p.lon) = cos (p.lon - c.lon) := by rw [← cos_neg]; ring_nf
  have hX : cos c.lat * cosSep c p - sin c.lat * northOf c p = cos p.lat * cos (p.lon - c.lon) := by
    unfold cosSep northOf; rw [e]; linear_combination cos p.lat * cos (p.lon - c.lon) * hc
  have hZ : cos c.lat * northOf c p + sin c.lat * cosSep c p = sin p.lat := by
    unfold cosSep northOf; rw [e]; linear_combination sin p.lat * hc
  unfold fromLocal
  rw [hX, hZ]
  have key : ∃ k : ℤ, Complex.arg ⟨cos p.lat * cos (p.lon - c.lon), eastOf c p⟩ = p.lon - c.lon - k * (2 * π) := by
    have h1 := Complex.norm_mul_cos_arg ⟨cos p.lat * cos (p.lon - c.lon), eastOf c p⟩
    have h2 := Complex.norm_mul_sin_arg ⟨cos p.lat * cos (p.lon - c.lon), eastOf c p⟩
    have hn : ‖(⟨cos p.lat * cos (p.lon - c.lon), eastOf c p⟩ : ℂ)‖ = cos p.lat := by
      rw [Complex.norm_eq_sqrt_sq_add_sq]
      unfold eastOf
      dsimp only
      rw [show (cos p.lat * cos (p.lon - c.lon)) ^ 2 + (cos p.lat * sin (p.lon - c.lon)) ^ 2 = cos p.lat ^ 2 by
        linear_combination cos p.lat ^ 2 * sin_sq_add_cos_sq (p.lon - c.lon)]
      exact sqrt_sq cp.le
    rw [hn] at h1 h2
    have h1' := mul_left_cancel₀ cp.ne' h1
    have h2' : sin (Complex.arg ⟨cos p.lat * cos (p.lon - c.lon), eastOf c p⟩) = sin (p.lon - c.lon) := mul_left_cancel₀ cp.ne' h2
    have := Real.Angle.cos_sin_inj h1' h2'
    rw [Real.Angle.angle_eq_iff_two_pi_dvd_sub] at this
    obtain ⟨k, hk⟩ := this
    exact ⟨-k, by push_cast; linarith⟩
  obtain ⟨k, hk⟩ := key
  have hw : wrapAngle π (c.lon + Complex.arg ⟨cos p.lat * cos (p.lon - c.lon), eastOf c p⟩) = p.lon := by
    rw [hk, show c.lon + (p.lon - c.lon - k * (2 * π)) = p.lon - k * (2 * π) by ring]
    unfold wrapAngle
    have hp : (0 : ℝ) < 2 * π := by positivity
    have : ⌊(p.lon - k * (2 * π)) / (2 * π)⌋ = -k := by
      rw [Int.floor_eq_iff, sub_div, mul_div_cancel_right₀ _ hp.ne']
      have a1 : 0 ≤ p.lon / (2 * π) := div_nonneg hlon.1 hp.le
      have a2 : p.lon / (2 * π) < 1 := by rw [div_lt_one hp]; exact hlon.2
      push_cast
      constructor <;> linarith
    rw [this]; push_cast; ring
  rw [hw, arcsin_sin hl.1.le hl.2.le]

/-- The inverse of the CD matrix. -/
theorem makeCdMatrix_solve {scale θ : ℝ} (hs : scale ≠ 0) (flipX : Bool) (q : P2 ℝ) :
    (makeCdMatrix scale θ flipX).solve q =
      ⟨(if flipX then 1 else -1) * (cos θ * q.x - sin θ * q.y) / scale, (sin θ * q.x + cos θ * q.y) / scale⟩ := by
  have h := sin_sq_add_cos_sq θ
  have hm : ((if flipX then 1 else -1 : ℝ)) * (if flipX then 1 else -1) = 1 := by cases flipX <;> norm_num
  have hm0 : ((if flipX then 1 else -1 : ℝ)) ≠ 0 := by cases flipX <;> norm_num
  unfold makeCdMatrix CdMatrix.solve
  dsimp only
  set m : ℝ := if flipX then 1 else -1
  have det : cos θ * scale * m * (cos θ * scale) - sin θ * scale * (-sin θ * scale * m) = scale ^ 2 * m := by
    linear_combination scale ^ 2 * m * h
  rw [det]
  congr 1
  · rw [div_eq_div_iff (by positivity) hs]; linear_combination (-scale ^ 2 * (cos θ * q.x - sin θ * q.y)) * hm
  · rw [div_eq_div_iff (by positivity) hs]; ring

theorem CdMatrix.solve_apply {m : CdMatrix} (h : m.xx * m.yy - m.xy * m.yx ≠ 0) (q : P2 ℝ) : m.solve (m.apply q) = q := by
  unfold CdMatrix.solve CdMatrix.apply
  dsimp only
  congr 1
  · rw [div_eq_iff h]; ring
  · rw [div_eq_iff h]; ring

theorem CdMatrix.apply_solve {m : CdMatrix} (h : m.xx * m.yy - m.xy * m.yx ≠ 0) (q : P2 ℝ) : m.apply (m.solve q) = q := by
  unfold CdMatrix.solve CdMatrix.apply
  dsimp only
  congr 1 <;> rw [← mul_div_assoc, ← mul_div_assoc, ← add_div, div_eq_iff h] <;> ring

theorem makeCdMatrix_det {scale : ℝ} (hs : scale ≠ 0) (θ : ℝ) (flipX : Bool) :
    (makeCdMatrix scale θ flipX).xx * (makeCdMatrix scale θ flipX).yy - (makeCdMatrix scale θ flipX).xy * (makeCdMatrix scale θ flipX).yx ≠ 0 := by
  have h := sin_sq_add_cos_sq θ
  have hm0 : ((if flipX then 1 else -1 : ℝ)) ≠ 0 := by cases flipX <;> norm_num
  unfold makeCdMatrix
  dsimp only
  set m : ℝ := if flipX then 1 else -1
  rw [show cos θ * scale * m * (cos θ * scale) - sin θ * scale * (-sin θ * scale * m) = scale ^ 2 * m by
    linear_combination scale ^ 2 * m * h]
  positivity

end Skymap
