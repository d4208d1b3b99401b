import Verif.Lemmas.RingsExact
import Verif.Lemmas.Wcs
import Verif.Props.VertexCover

/-! # How far a square around the centre of a ring's tract reaches in latitude and longitude -/

namespace Skymap
open Real

/-- Latitude: a position in the square of half size tan(0.579 s) of the tangent plane is less than 1.5 s away. -/
theorem reach_lat {ctr p : SpherePoint ℝ} {T s : ℝ} (s0 : 0 < s) (s1 : s ≤ π / 3) (T0 : 0 ≤ T) (hT : T ≤ tan (579 / 1000 * s))
    (hc : |ctr.lat| ≤ π / 2) (hp : |p.lat| ≤ π / 2) (hZ : 0 < cosSep ctr p) (hE : |eastOf ctr p| ≤ T * cosSep ctr p)
    (hN : |northOf ctr p| ≤ T * cosSep ctr p) : |p.lat - ctr.lat| < 3 / 2 * s := by
  have hpi := pi_pos
  have sq := local_sq ctr p
  have cc : 0 ≤ cos ctr.lat := cos_nonneg_of_mem_Icc ⟨by linarith [(abs_le.1 hc).1], (abs_le.1 hc).2⟩
  have cp : 0 ≤ cos p.lat := cos_nonneg_of_mem_Icc ⟨by linarith [(abs_le.1 hp).1], (abs_le.1 hp).2⟩
  have hle : cosSep ctr p ≤ cos (p.lat - ctr.lat) := by
    unfold cosSep
    rw [cos_sub p.lat ctr.lat]
    have : cos ctr.lat * cos p.lat * cos (ctr.lon - p.lon) ≤ cos ctr.lat * cos p.lat * 1 :=
      mul_le_mul_of_nonneg_left (cos_le_one _) (mul_nonneg cc cp)
    nlinarith
  by_contra hcon
  rw [not_lt] at hcon
  have h1 := abs_le.1 hc
  have h2 := abs_le.1 hp
  have hab : |p.lat - ctr.lat| ≤ π := by rw [abs_le]; constructor <;> linarith
  have hcos : cos (p.lat - ctr.lat) ≤ cos (3 / 2 * s) := by
    rw [← cos_abs (p.lat - ctr.lat)]
    exact cos_le_cos_of_nonneg_of_le_pi (by linarith) hab hcon
  have e1 : eastOf ctr p ^ 2 ≤ (T * cosSep ctr p) ^ 2 := by rw [← sq_abs]; gcongr
  have e2 : northOf ctr p ^ 2 ≤ (T * cosSep ctr p) ^ 2 := by rw [← sq_abs]; gcongr
  have hlow : 1 ≤ cosSep ctr p ^ 2 * (1 + 2 * T ^ 2) := by nlinarith
  rcases eq_or_lt_of_le (show 3 / 2 * s ≤ π / 2 by linarith) with heq | hlt
  · rw [heq, cos_pi_div_two] at hcos
    linarith
  · have c0 : 0 < cos (3 / 2 * s) := cos_pos_of_mem_Ioo ⟨by linarith, hlt⟩
    have ht := tan_scale (k := 193 / 500) (δ := 3 / 2 * s) (by norm_num) (by norm_num) (by linarith) hlt
    rw [show 193 / 500 * (3 / 2 * s) = 579 / 1000 * s by ring] at ht
    have hTt : T ≤ 193 / 500 * tan (3 / 2 * s) := hT.trans ht
    have hTc : T * cos (3 / 2 * s) ≤ 193 / 500 * sin (3 / 2 * s) := by
      calc T * cos (3 / 2 * s) ≤ 193 / 500 * tan (3 / 2 * s) * cos (3 / 2 * s) := by gcongr
        _ = 193 / 500 * sin (3 / 2 * s) := by rw [mul_assoc, tan_mul_cos c0.ne']
    have hz : cosSep ctr p ^ 2 ≤ cos (3 / 2 * s) ^ 2 := by
      have := hle.trans hcos
      gcongr
    have k1 : cosSep ctr p ^ 2 * (1 + 2 * T ^ 2) ≤ cos (3 / 2 * s) ^ 2 * (1 + 2 * T ^ 2) := by gcongr
    have k2 : (T * cos (3 / 2 * s)) ^ 2 ≤ (193 / 500 * sin (3 / 2 * s)) ^ 2 := by gcongr
    have k3 := sin_sq_add_cos_sq (3 / 2 * s)
    have k4 : 0 < sin (3 / 2 * s) := sin_pos_of_pos_of_lt_pi (by linarith) (by linarith)
    nlinarith

/-- Longitude: in the square of half size tan h, the tangent of the difference in longitude is at most sin h / sin (γ - h), where
γ > h is the distance of the centre from the nearer pole. -/
theorem reach_lon {ctr p : SpherePoint ℝ} {h γ x : ℝ} (h0 : 0 ≤ h) (h1 : h < γ) (h2 : γ ≤ π / 2) (hsin : cos ctr.lat = sin γ)
    (hcos : |sin ctr.lat| = cos γ) (hp : |p.lat| ≤ π / 2)
    (hx : cos (p.lon - ctr.lon) = cos x ∧ sin (p.lon - ctr.lon) = sin x)
    (hZ : 0 < cosSep ctr p) (hE : |eastOf ctr p| ≤ tan h * cosSep ctr p) (hN : |northOf ctr p| ≤ tan h * cosSep ctr p) :
    0 < cos x ∧ |sin x| * sin (γ - h) ≤ sin h * cos x := by
  have hpi := pi_pos
  have ch : 0 < cos h := cos_pos_of_mem_Ioo ⟨by linarith, by linarith⟩
  have sd : 0 < sin (γ - h) := sin_pos_of_pos_of_lt_pi (by linarith) (by linarith)
  have cp : 0 ≤ cos p.lat := cos_nonneg_of_mem_Icc ⟨by linarith [(abs_le.1 hp).1], (abs_le.1 hp).2⟩
  set Z := cosSep ctr p with hZd
  -- the component across the axis of the poles
  have eC : cos p.lat * cos x = cos ctr.lat * Z - sin ctr.lat * northOf ctr p := by
    rw [hZd]
    unfold cosSep northOf
    rw [show ctr.lon - p.lon = -(p.lon - ctr.lon) by ring, cos_neg, hx.1]
    have := sin_sq_add_cos_sq ctr.lat
    linear_combination (-(cos p.lat * cos x)) * this
  have eE : eastOf ctr p = cos p.lat * sin x := by unfold eastOf; rw [hx.2]
  have hNs : sin ctr.lat * northOf ctr p ≤ cos γ * (tan h * Z) := by
    refine (le_abs_self _).trans ?_
    rw [abs_mul, hcos]
    refine mul_le_mul_of_nonneg_left hN ?_
    exact cos_nonneg_of_mem_Icc ⟨by linarith, h2⟩
  have hlow : Z * sin (γ - h) ≤ cos p.lat * cos x * cos h := by
    rw [eC, hsin, sin_sub]
    have e : tan h * cos h = sin h := tan_mul_cos ch.ne'
    have := mul_le_mul_of_nonneg_right hNs ch.le
    have e2 : cos γ * (tan h * Z) * cos h = cos γ * Z * sin h := by rw [← e]; ring
    nlinarith
  have hpos : 0 < cos p.lat * cos x := by
    have : 0 < Z * sin (γ - h) := mul_pos hZ sd
    exact pos_of_mul_pos_left (lt_of_lt_of_le this hlow) ch.le
  have cp' : 0 < cos p.lat := by
    rcases cp.lt_or_eq with h | h
    · exact h
    · rw [← h] at hpos; simp at hpos
  have cx : 0 < cos x := pos_of_mul_pos_right hpos cp
  refine ⟨cx, ?_⟩
  rw [eE, abs_mul, abs_of_nonneg cp] at hE
  have hE' : cos p.lat * |sin x| * cos h ≤ sin h * Z := by
    have := mul_le_mul_of_nonneg_right hE ch.le
    have e : tan h * Z * cos h = sin h * Z := by rw [← tan_mul_cos ch.ne']; ring
    linarith
  have sh : 0 ≤ sin h := sin_nonneg_of_nonneg_of_le_pi h0 (by linarith)
  have k : cos p.lat * cos h * (|sin x| * sin (γ - h)) ≤ cos p.lat * cos h * (sin h * cos x) := by
    have a1 := mul_le_mul_of_nonneg_right hE' sd.le
    have a2 := mul_le_mul_of_nonneg_left hlow sh
    nlinarith
  exact le_of_mul_le_mul_left k (mul_pos cp' ch)

theorem tan_54 : 1.376 < tan (3 * π / 10) := by
  have hpi := pi_pos
  have e1 : sin (3 * π / 10) = cos (π / 5) := by rw [← cos_pi_div_two_sub]; ring_nf
  have e2 : cos (3 * π / 10) = sin (π / 5) := by rw [← cos_pi_div_two_sub]; ring_nf
  have s0 : 0 < sin (π / 5) := sin_pos_of_pos_of_lt_pi (by positivity) (by linarith)
  rw [tan_eq_sin_div_cos, e1, e2, lt_div_iff₀ s0]
  have sq := sin_sq_add_cos_sq (π / 5)
  rw [cos_pi_div_five] at *
  have h5 := Real.sq_sqrt (show (0 : ℝ) ≤ 5 by norm_num)
  have h6 : 2.236 < √5 := by rw [lt_sqrt (by norm_num)]; norm_num
  have h7 : √5 < 2.2361 := by rw [sqrt_lt' (by norm_num)]; norm_num
  by_contra hc
  nlinarith

/-- Comparing the difference in longitude with one and a half times the spacing of the tracts, 0.579 s being half the size of a tract. -/
theorem reach_spacing {s γ x n : ℝ} (s0 : 0 < s) (s1 : s ≤ π / 3) (g2 : γ ≤ π / 2) (n0 : 0 < n) (hn : n ≤ 2 * π * sin (γ + s / 2) / s + 1)
    (hg : γ = s ∧ n ≤ 10 ∨ 2 * s ≤ γ) (hx : |x| ≤ π) (cx : 0 < cos x)
    (hk : |sin x| * sin (γ - 579 / 1000 * s) ≤ sin (579 / 1000 * s) * cos x) : |x| < 3 * π / n := by
  have hpi := pi_pos
  have hpi4 := pi_lt_d2
  have hpi3 := pi_gt_d2
  have x2 : |x| < π / 2 := by
    by_contra hc
    rw [← cos_abs] at cx
    have := cos_nonpos_of_pi_div_two_le_of_le (not_lt.mp hc) (by linarith)
    linarith
  have hs : |sin x| = sin |x| := by
    rcases le_total 0 x with h | h
    · rw [abs_of_nonneg h] at x2 ⊢
      rw [abs_of_nonneg (sin_nonneg_of_nonneg_of_le_pi h (by linarith))]
    · rw [abs_of_nonpos h] at x2 ⊢
      rw [sin_neg, abs_of_nonpos (sin_nonpos_of_nonpos_of_neg_pi_le h (by linarith))]
  rw [hs, ← cos_abs x] at hk
  rw [← cos_abs x] at cx
  by_contra hcon
  rw [not_lt] at hcon
  have w0 : 0 < 3 * π / n := by positivity
  have ht : tan (3 * π / n) ≤ tan |x| := by
    rcases hcon.eq_or_lt with h | h
    · rw [h]
    · exact (tan_lt_tan_of_lt_of_lt_pi_div_two (by linarith) x2 h).le
  have hkt : tan |x| * sin (γ - 579 / 1000 * s) ≤ sin (579 / 1000 * s) := by
    rw [tan_eq_sin_div_cos, div_mul_eq_mul_div, div_le_iff₀ cx]; exact hk
  have hpos : 0 < sin (579 / 1000 * s) := sin_pos_of_pos_of_lt_pi (by linarith) (by linarith)
  rcases hg with ⟨rfl, hn10⟩ | hg
  · have hw : 3 * π / 10 ≤ 3 * π / n := by gcongr
    have h54 := tan_54
    have ht' : tan (3 * π / 10) ≤ tan (3 * π / n) := by
      rcases hw.eq_or_lt with h | h
      · rw [h]
      · exact (tan_lt_tan_of_lt_of_lt_pi_div_two (by linarith) (by linarith) h).le
    have hsc := sin_scale (l := 421 / 579) (x := 579 / 1000 * γ) (by norm_num) (by norm_num) (by linarith) (by linarith)
    rw [show 421 / 579 * (579 / 1000 * γ) = γ - 579 / 1000 * γ by ring] at hsc
    have : 0 < sin (γ - 579 / 1000 * γ) := by linarith
    nlinarith
  · have hy1 : 1421 / 1000 * s ≤ γ - 579 / 1000 * s := by linarith
    have hm := mul_le_sin (x := γ - 579 / 1000 * s) (by linarith) (by linarith)
    have hsy : 9 / 10 * s ≤ sin (γ - 579 / 1000 * s) := by
      refine le_trans ?_ hm
      rw [div_mul_eq_mul_div (2 : ℝ) π, le_div_iff₀ hpi]
      nlinarith
    have hlip : sin (γ + s / 2) ≤ sin (γ - 579 / 1000 * s) + 1079 / 1000 * s := by
      have e : γ + s / 2 = (γ - 579 / 1000 * s) + 1079 / 1000 * s := by ring
      rw [e, sin_add]
      have a1 := sin_le (x := 1079 / 1000 * s) (by linarith)
      have a2 : 0 ≤ sin (1079 / 1000 * s) := sin_nonneg_of_nonneg_of_le_pi (by linarith) (by linarith)
      have a3 := cos_le_one (γ - 579 / 1000 * s)
      have a4 := cos_le_one (1079 / 1000 * s)
      have a5 : 0 ≤ sin (γ - 579 / 1000 * s) := by linarith
      nlinarith
    have htw : 3 * π / n ≤ tan (3 * π / n) := le_tan w0.le (by linarith)
    have hS : sin (579 / 1000 * s) ≤ 579 / 1000 * s := sin_le (by linarith)
    have hfin : 3 * π / n * sin (γ - 579 / 1000 * s) ≤ 579 / 1000 * s := by
      have : 0 ≤ sin (γ - 579 / 1000 * s) := by linarith
      calc _ ≤ tan |x| * sin (γ - 579 / 1000 * s) := by gcongr; linarith
        _ ≤ _ := hkt.trans hS
    rw [div_mul_eq_mul_div, div_le_iff₀ n0] at hfin
    have hn' : s * n ≤ 2 * π * sin (γ + s / 2) + s := by
      have := mul_le_mul_of_nonneg_left hn s0.le
      have e : s * (2 * π * sin (γ + s / 2) / s + 1) = 2 * π * sin (γ + s / 2) + s := by field_simp
      linarith
    set y := sin (γ - 579 / 1000 * s)
    have b1 : 2 * π * sin (γ + s / 2) ≤ 2 * π * (y + 1079 / 1000 * s) := by gcongr
    have b2 : 2 * π * (y + 1079 / 1000 * s) ≤ 2 * π * (y + 1079 / 1000 * (10 / 9 * y)) := by gcongr; linarith
    have b3 : 0 < y := by linarith
    have b4 : π * y ≥ 3.14 * y := by gcongr
    nlinarith

end Skymap
