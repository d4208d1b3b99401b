import Verif.Props.RingsCoverRounding

/-!
# Which part of the sky a tract of a rings sky map is sure to contain

The square of half size `H` around the centre of a tract, in the tangent plane.  `S/2 = h` is half the height of a ring; the square is a little
larger than the ring is high: `H = h + h/24`.
-/

set_option linter.unusedSectionVars false

namespace Skymap
open Real

/-- The square of half size `H` in the tangent plane, written with latitudes and the difference of longitudes. -/
theorem square_of {ctr p : SpherePoint ℝ} {x H : ℝ} (hx : cos (p.lon - ctr.lon) = cos x ∧ sin (p.lon - ctr.lon) = sin x)
    (H0 : 0 < H) (H1 : H < π / 2) (ca : 0 ≤ cos p.lat)
    (hD : 0 < cos (p.lat - ctr.lat) - cos p.lat * cos ctr.lat * (1 - cos x))
    (up : cos p.lat * (1 - cos x) * sin (ctr.lat + H) ≤ sin (ctr.lat + H - p.lat))
    (dn : 0 ≤ sin (p.lat - ctr.lat + H) + cos p.lat * (1 - cos x) * sin (ctr.lat - H))
    (ea : cos p.lat * |sin x| * cos H ≤ (cos (p.lat - ctr.lat) - cos p.lat * cos ctr.lat * (1 - cos x)) * sin H) :
    ∃ q, Projection.TAN.toPlane ctr p = some q ∧ |q.x| ≤ tan H ∧ |q.y| ≤ tan H := by
  have ch : 0 < cos H := cos_pos_of_mem_Ioo ⟨by linarith, H1⟩
  have eD : cosSep ctr p = cos (p.lat - ctr.lat) - cos p.lat * cos ctr.lat * (1 - cos x) := by
    unfold cosSep
    rw [show ctr.lon - p.lon = -(p.lon - ctr.lon) by ring, cos_neg, hx.1, cos_sub]
    ring
  have eN : northOf ctr p = sin p.lat * cos ctr.lat - cos p.lat * sin ctr.lat * cos x := by
    unfold northOf; rw [hx.1]; ring
  rw [← eD] at hD ea
  have up' : northOf ctr p * cos H ≤ cosSep ctr p * sin H := by
    have e : cosSep ctr p * sin H - northOf ctr p * cos H =
        sin (ctr.lat + H - p.lat) - cos p.lat * (1 - cos x) * sin (ctr.lat + H) := by
      rw [eD, eN, sin_sub (ctr.lat + H), sin_add, cos_add, cos_sub]; ring
    linarith
  have dn' : -(cosSep ctr p * sin H) ≤ northOf ctr p * cos H := by
    have e : cosSep ctr p * sin H + northOf ctr p * cos H =
        sin (p.lat - ctr.lat + H) + cos p.lat * (1 - cos x) * sin (ctr.lat - H) := by
      rw [eD, eN, sin_add, sin_sub p.lat, sin_sub ctr.lat, cos_sub]; ring
    linarith
  have eE : |eastOf ctr p| * cos H ≤ cosSep ctr p * sin H := by
    unfold eastOf
    rw [hx.2, abs_mul, abs_of_nonneg ca]; exact ea
  have eN' : |northOf ctr p| * cos H ≤ cosSep ctr p * sin H := by
    have : |northOf ctr p * cos H| ≤ cosSep ctr p * sin H := abs_le.2 ⟨dn', up'⟩
    rwa [abs_mul, abs_of_pos ch] at this
  refine ⟨⟨eastOf ctr p / cosSep ctr p, northOf ctr p / cosSep ctr p⟩, ?_, ?_, ?_⟩
  · unfold Projection.toPlane; dsimp only; rw [if_pos hD]
  · dsimp only
    rw [abs_div, abs_of_pos hD, tan_eq_sin_div_cos, div_le_div_iff₀ hD ch, mul_comm (sin H)]
    exact eE
  · dsimp only
    rw [abs_div, abs_of_pos hD, tan_eq_sin_div_cos, div_le_div_iff₀ hD ch, mul_comm (sin H)]
    exact eN'

/-- The eastward part: cosine of the separation and width. -/
theorem union_east {h a b x w H : ℝ} (h0 : 0 < h) (h1 : h ≤ 1 / 20) (hd : |a - b| ≤ 1.05 * h) (ca : 0 ≤ cos a) (cb : 0 ≤ cos b) (hw : 0 ≤ w)
    (hxw : |x| ≤ w) (w1 : cos a * w ≤ 1.02 * h) (w2 : cos b * w ≤ 1.02 * h) (hH : H = h + h / 24) :
    0 < cos (a - b) - cos a * cos b * (1 - cos x) ∧
    cos a * |sin x| * cos H ≤ (cos (a - b) - cos a * cos b * (1 - cos x)) * sin H := by
  have hD := ring_cosSep (s := 2.1 * h) (a := a) (b := b) (x := x) (w := w) (by linarith) (by linarith) ca cb hw hxw (by linarith) (by linarith)
  have hh : h ^ 2 ≤ (1 / 20) ^ 2 := by gcongr
  have hD' : 0.997 ≤ cos (a - b) - cos a * cos b * (1 - cos x) := by nlinarith
  refine ⟨by linarith, ?_⟩
  have p3 := pi_gt_three
  have hH0 : 0 < H := by rw [hH]; linarith
  have hH1 : H < π / 2 := by rw [hH]; linarith
  have ch : 0 < cos H := cos_pos_of_mem_Ioo ⟨by linarith, hH1⟩
  have ht : H * cos H ≤ sin H := by
    have := (lt_tan hH0 hH1).le
    rw [tan_eq_sin_div_cos, le_div_iff₀ ch] at this
    exact this
  have hs : 0 < sin H := lt_of_lt_of_le (by positivity) ht
  have k1 : cos a * |sin x| ≤ 1.02 * h := le_trans (mul_le_mul_of_nonneg_left (abs_sin_le_abs.trans hxw) ca) w1
  calc cos a * |sin x| * cos H ≤ 1.02 * h * cos H := by gcongr
    _ ≤ 0.997 * H * cos H := by
      apply mul_le_mul_of_nonneg_right _ ch.le
      rw [hH]; linarith
    _ = 0.997 * (H * cos H) := by ring
    _ ≤ 0.997 * sin H := by linarith
    _ ≤ _ := by gcongr

/-- How much the parallels of a ring bulge: the colatitude `a` of the upper edge against the one of the lower edge. -/
theorem union_bulge {h a : ℝ} (h0 : 0 < h) (h1 : h ≤ 1 / 20) (a0 : h ≤ a) (a1 : a + 2 * h ≤ π / 2) :
    6.6 * h * sin a ≤ sin (a + 2 * h) ^ 2 := by
  have p3 := pi_gt_three
  have sa : 0 < sin a := sin_pos_of_pos_of_lt_pi (by linarith) (by linarith)
  have sb : sin a ≤ sin (a + 2 * h) := sin_le_sin_of_le_of_le_pi_div_two (by linarith) a1 (by linarith)
  rcases le_total (8 * h) (sin a) with h8 | h8
  · nlinarith
  · have e : sin (a + 2 * h) = sin a * cos (2 * h) + cos a * sin (2 * h) := sin_add _ _
    have c2 := one_sub_sq_div_two_le_cos (x := 2 * h)
    have s2 := sin_gt_sub_cube (x := 2 * h) (by linarith)
    have ca : 0 ≤ cos a := cos_nonneg_of_mem_Icc ⟨by linarith, by linarith⟩
    have ca1 : 1 - sin a ^ 2 ≤ cos a := by
      have := sin_sq_add_cos_sq a
      have := cos_le_one a
      nlinarith
    have hh : h ^ 2 ≤ (1 / 20) ^ 2 := by gcongr
    have c2' : 0.995 ≤ cos (2 * h) := by nlinarith
    have s2' : 1.99 * h ≤ sin (2 * h) := by nlinarith
    have l1 : sin a * 0.995 + (1 - sin a ^ 2) * (1.99 * h) ≤ sin (a + 2 * h) := by
      rw [e]
      have q1 : sin a * 0.995 ≤ sin a * cos (2 * h) := by gcongr
      have q2 : (1 - sin a ^ 2) * (1.99 * h) ≤ cos a * sin (2 * h) := by
        calc (1 - sin a ^ 2) * (1.99 * h) ≤ cos a * (1.99 * h) := by gcongr
          _ ≤ cos a * sin (2 * h) := by gcongr
      linarith
    have l2 : 0.9085 * (sin a + 2 * h) ≤ sin (a + 2 * h) := by
      have : sin a ^ 2 * h ≤ 8 * h * sin a * (1 / 20) := by nlinarith
      nlinarith
    have l3 : (0.9085 * (sin a + 2 * h)) ^ 2 ≤ sin (a + 2 * h) ^ 2 := by gcongr
    nlinarith [sq_nonneg (sin a - 2 * h)]

/-- The northward part. -/
theorem union_up {h β a b x w ε H : ℝ} (h0 : 0 < h) (h1 : h ≤ 1 / 20) (ε0 : 0 ≤ ε) (ε1 : ε ≤ h / 1000) (hβ : h ≤ β) (hβ' : β + 2 * h ≤ π / 2)
    (hb : |b - β| ≤ ε) (a1 : β - h - h / 25 ≤ a) (a2 : a ≤ β + h - h / 25) (hw : 0 ≤ w) (hx : |x| ≤ w)
    (hwb : cos (β - h) * w ≤ h + ε) (hH : H = h + h / 24) (w0 : w ≤ 0.336) (ca : 0 ≤ cos a) :
    cos a * (1 - cos x) * sin (b + H) ≤ sin (b + H - a) := by
  have p3 := pi_gt_three
  have hb' := abs_le.1 hb
  have cx := one_sub_sq_div_two_le_cos (x := x)
  have cx1 := cos_le_one x
  have x2 : x ^ 2 ≤ w ^ 2 := by rw [← sq_abs x]; gcongr
  have hη : 0 ≤ sin (π / 2 - (b + H)) := sin_nonneg_of_nonneg_of_le_pi (by rw [hH]; linarith) (by rw [hH]; linarith)
  have hθ : 0 ≤ sin (b + H - a) := sin_nonneg_of_nonneg_of_le_pi (by rw [hH]; linarith) (by rw [hH]; linarith)
  have k1 : cos a ≤ sin (b + H - a) + sin (π / 2 - (b + H)) := by
    have e : cos a = sin ((b + H - a) + (π / 2 - (b + H))) := by rw [← sin_pi_div_two_sub]; congr 1; ring
    rw [e, sin_add]
    have c1 := cos_le_one (π / 2 - (b + H))
    have c2 := cos_le_one (b + H - a)
    nlinarith
  have k2 : sin (π / 2 - (b + H)) ≤ sin (π / 2 - β - h) :=
    sin_le_sin_of_le_of_le_pi_div_two (by rw [hH]; linarith) (by linarith) (by rw [hH]; linarith)
  have k3 : 0.08059 * h ≤ sin (b + H - a) := by
    have q1 : sin (0.0806 * h) ≤ sin (b + H - a) :=
      sin_le_sin_of_le_of_le_pi_div_two (by linarith) (by rw [hH]; linarith) (by rw [hH]; linarith)
    have q2 := sin_gt_sub_cube (x := 0.0806 * h) (by linarith)
    have h3 : h ^ 3 ≤ h * (1 / 20) ^ 2 := by
      rw [pow_succ, mul_comm]; gcongr
    rw [mul_pow] at q2
    norm_num at q1 q2 h3 ⊢
    linarith
  have k4 := union_bulge (h := h) (a := π / 2 - β - h) h0 h1 (by linarith) (by linarith)
  rw [show π / 2 - β - h + 2 * h = π / 2 - (β - h) by ring, sin_pi_div_two_sub] at k4
  -- the bulge at the upper edge
  have k5 : sin (π / 2 - β - h) * w ^ 2 ≤ 0.15184 * h := by
    have q0 : 0 ≤ sin (π / 2 - β - h) := hη.trans k2
    have q00 : 0 ≤ cos (β - h) * w := mul_nonneg (cos_nonneg_of_mem_Icc ⟨by linarith, by linarith⟩) hw
    have q1 : (cos (β - h) * w) ^ 2 ≤ (h + ε) ^ 2 := by gcongr
    have q2 : 6.6 * h * sin (π / 2 - β - h) * w ^ 2 ≤ cos (β - h) ^ 2 * w ^ 2 := by gcongr
    have q3 : (h + ε) ^ 2 ≤ 1.0021 * h ^ 2 := by nlinarith
    have q4 : h * (6.6 * (sin (π / 2 - β - h) * w ^ 2)) ≤ h * (1.0021 * h) := by
      rw [mul_pow] at q1
      calc h * (6.6 * (sin (π / 2 - β - h) * w ^ 2)) = 6.6 * h * sin (π / 2 - β - h) * w ^ 2 := by ring
        _ ≤ 1.0021 * h ^ 2 := q2.trans (q1.trans q3)
        _ = _ := by ring
    have := le_of_mul_le_mul_left q4 h0
    linarith
  have w2 : w ^ 2 ≤ 0.113 := by
    have : w ^ 2 ≤ 0.336 ^ 2 := by gcongr
    norm_num at this ⊢; linarith
  have k6 : cos a * (1 - cos x) ≤ sin (b + H - a) := by
    have q1 : cos a * (1 - cos x) ≤ (sin (b + H - a) + sin (π / 2 - β - h)) * (w ^ 2 / 2) := by
      apply mul_le_mul (by linarith) (by linarith) (by linarith) (by linarith [hη.trans k2])
    have q2 : sin (b + H - a) * w ^ 2 ≤ sin (b + H - a) * 0.113 := by gcongr
    linarith
  calc cos a * (1 - cos x) * sin (b + H) ≤ cos a * (1 - cos x) * 1 := by
        apply mul_le_mul_of_nonneg_left (sin_le_one _)
        exact mul_nonneg ca (by linarith)
    _ ≤ _ := by linarith

/-- The southward part. -/
theorem union_down {h β a b x w ε H : ℝ} (h0 : 0 < h) (h1 : h ≤ 1 / 20) (ε0 : 0 ≤ ε) (ε1 : ε ≤ h / 1000) (hβ : h ≤ β) (hβ' : β + 2 * h ≤ π / 2)
    (hb : |b - β| ≤ ε) (a1 : β - h - h / 25 ≤ a) (a2 : a ≤ β + h - h / 25) (hw : 0 ≤ w) (hx : |x| ≤ w)
    (hwb : cos (β - h) * w ≤ h + ε) (hH : H = h + h / 24) (ca : 0 ≤ cos a) :
    0 ≤ sin (a - b + H) + cos a * (1 - cos x) * sin (b - H) := by
  have p3 := pi_gt_three
  have hb' := abs_le.1 hb
  have hh : h ^ 2 ≤ (1 / 20) ^ 2 := by gcongr
  have cx := one_sub_sq_div_two_le_cos (x := x)
  have cx1 := cos_le_one x
  have x2 : x ^ 2 ≤ w ^ 2 := by rw [← sq_abs x]; gcongr
  have κ0 : 0 ≤ cos a * (1 - cos x) := mul_nonneg ca (by linarith)
  have l : 0.0006 * h ≤ sin (a - b + H) := by
    have q1 : sin (0.00065 * h) ≤ sin (a - b + H) := by
      apply sin_le_sin_of_le_of_le_pi_div_two (by linarith) (by rw [hH]; linarith) (by rw [hH]; linarith)
    have q2 := sin_gt_sub_cube (x := 0.00065 * h) (by linarith)
    nlinarith
  rcases le_total 0 (b - H) with g | g
  · have := sin_nonneg_of_nonneg_of_le_pi g (by rw [hH] at g ⊢; linarith)
    have := mul_nonneg κ0 this
    linarith [h0]
  · -- the centre is nearer to the equator than the tract is high: the ring starts there
    have g1 : cos (β - h) ≥ 0.99 := by
      have := one_sub_sq_div_two_le_cos (x := β - h)
      have g2 : (β - h) ^ 2 ≤ h ^ 2 := by
        have : β - h ≤ h := by rw [hH] at g; linarith
        nlinarith
      nlinarith
    have g3 : w ≤ 1.02 * h := by
      by_contra hc
      nlinarith
    have g4 : w ^ 2 ≤ 0.0027 := by nlinarith
    have g5 : -sin (b - H) ≤ 0.05 * h := by
      rw [← sin_neg]
      have := sin_le (x := -(b - H)) (by linarith)
      rw [hH] at this ⊢
      linarith
    have g6 : cos a * (1 - cos x) ≤ 0.0014 := by
      have := cos_le_one a
      nlinarith
    nlinarith

/-- A tract of a ring north of the equator contains, as far as it is wide, the latitudes of its ring moved south by a little less than
the overlap.  `β` is the latitude of the middle of the ring, `b` the one of the tract's centre. -/
theorem union_north {h β a b x w ε H : ℝ} (h0 : 0 < h) (h1 : h ≤ 1 / 20) (ε0 : 0 ≤ ε) (ε1 : ε ≤ h / 1000) (hβ : h ≤ β) (hβ' : β + 2 * h ≤ π / 2)
    (hb : |b - β| ≤ ε) (a1 : β - h - h / 25 ≤ a) (a2 : a ≤ β + h - h / 25) (hw : 0 ≤ w) (hx : |x| ≤ w)
    (hwb : cos (β - h) * w ≤ h + ε) (hH : H = h + h / 24) :
    0 ≤ cos a ∧ 0 < cos (a - b) - cos a * cos b * (1 - cos x) ∧
    cos a * (1 - cos x) * sin (b + H) ≤ sin (b + H - a) ∧
    0 ≤ sin (a - b + H) + cos a * (1 - cos x) * sin (b - H) ∧
    cos a * |sin x| * cos H ≤ (cos (a - b) - cos a * cos b * (1 - cos x)) * sin H := by
  have p3 := pi_gt_three
  have hb' := abs_le.1 hb
  have hh : h ^ 2 ≤ (1 / 20) ^ 2 := by gcongr
  have cB : 2.98 * h ≤ cos (β - h) := by
    have e : cos (β - h) = sin (π / 2 - β + h) := by rw [← cos_pi_div_two_sub]; congr 1; ring
    rw [e]
    have k1 : sin (3 * h) ≤ sin (π / 2 - β + h) := sin_le_sin_of_le_of_le_pi_div_two (by linarith) (by linarith) (by linarith)
    have k2 := sin_gt_sub_cube (x := 3 * h) (by linarith)
    nlinarith
  have cB0 : 0 < cos (β - h) := by linarith
  have w0 : w ≤ 0.336 := by
    have : 2.98 * h * w ≤ h + ε := le_trans (mul_le_mul_of_nonneg_right cB hw) hwb
    by_contra hc
    nlinarith
  have ca : 0 ≤ cos a := cos_nonneg_of_mem_Icc ⟨by linarith, by linarith⟩
  have cb : 0 ≤ cos b := cos_nonneg_of_mem_Icc ⟨by linarith, by linarith⟩
  -- widths
  have wa : cos a * w ≤ 1.02 * h := by
    have k : cos a ≤ cos (β - h) + h / 25 := by
      rcases le_total (β - h) a with g | g
      · have := cos_le_cos_of_nonneg_of_le_pi (by linarith) (by linarith) g
        linarith
      · have k1 := abs_cos_sub_cos_le a (β - h)
        rw [abs_of_nonpos (by linarith : a - (β - h) ≤ 0)] at k1
        have := (abs_le.1 k1).2
        linarith
    calc cos a * w ≤ (cos (β - h) + h / 25) * w := by gcongr
      _ ≤ 1.02 * h := by nlinarith
  have wb : cos b * w ≤ 1.02 * h := by
    have : cos b ≤ cos (β - h) := cos_le_cos_of_nonneg_of_le_pi (by linarith) (by linarith) (by linarith)
    calc cos b * w ≤ cos (β - h) * w := by gcongr
      _ ≤ _ := by linarith
  obtain ⟨hD, hE⟩ := union_east h0 h1 (a := a) (b := b) (by rw [abs_le]; constructor <;> linarith) ca cb hw hx wa wb hH
  exact ⟨ca, hD, union_up h0 h1 ε0 ε1 hβ hβ' hb a1 a2 hw hx hwb hH w0 ca, union_down h0 h1 ε0 ε1 hβ hβ' hb a1 a2 hw hx hwb hH ca, hE⟩

/-- A tract of the ring around the equator contains its part of that ring. -/
theorem union_equator {h a b x w ε H : ℝ} (h0 : 0 < h) (h1 : h ≤ 1 / 20) (ε0 : 0 ≤ ε) (ε1 : ε ≤ h / 1000)
    (hb : |b| ≤ ε) (ha : |a| ≤ h) (hw : 0 ≤ w) (hx : |x| ≤ w) (hwb : cos h * w ≤ h + ε) (hH : H = h + h / 24) :
    0 ≤ cos a ∧ 0 < cos (a - b) - cos a * cos b * (1 - cos x) ∧
    cos a * (1 - cos x) * sin (b + H) ≤ sin (b + H - a) ∧
    0 ≤ sin (a - b + H) + cos a * (1 - cos x) * sin (b - H) ∧
    cos a * |sin x| * cos H ≤ (cos (a - b) - cos a * cos b * (1 - cos x)) * sin H := by
  have p3 := pi_gt_three
  have hb' := abs_le.1 hb
  have ha' := abs_le.1 ha
  have hh : h ^ 2 ≤ (1 / 20) ^ 2 := by gcongr
  have ch : 0.998 ≤ cos h := by have := one_sub_sq_div_two_le_cos (x := h); nlinarith
  have w0 : w ≤ 1.01 * h := by
    by_contra hc
    nlinarith
  have ca : 0 ≤ cos a := cos_nonneg_of_mem_Icc ⟨by linarith, by linarith⟩
  have cb : 0 ≤ cos b := cos_nonneg_of_mem_Icc ⟨by linarith, by linarith⟩
  have wle : ∀ y : ℝ, cos y * w ≤ 1.02 * h := fun y => by
    have := mul_le_mul_of_nonneg_right (cos_le_one y) hw
    linarith
  obtain ⟨hD, hE⟩ := union_east h0 h1 (a := a) (b := b) (by rw [abs_le]; constructor <;> linarith) ca cb hw hx (wle a) (wle b) hH
  have cx := one_sub_sq_div_two_le_cos (x := x)
  have cx1 := cos_le_one x
  have x2 : x ^ 2 ≤ w ^ 2 := by rw [← sq_abs x]; gcongr
  have w2 : w ^ 2 ≤ 0.0026 := by nlinarith
  have κ0 : 0 ≤ cos a * (1 - cos x) := mul_nonneg ca (by linarith)
  have κ1 : cos a * (1 - cos x) ≤ 0.0013 := by
    have := cos_le_one a
    nlinarith
  have low : ∀ y : ℝ, 0.0405 * h ≤ y → y ≤ 3 * h → 0.04 * h ≤ sin y := by
    intro y y1 y2
    have q1 : sin (0.0405 * h) ≤ sin y := sin_le_sin_of_le_of_le_pi_div_two (by linarith) (by linarith) y1
    have q2 := sin_gt_sub_cube (x := 0.0405 * h) (by linarith)
    nlinarith
  refine ⟨ca, hD, ?_, ?_, hE⟩
  · have l := low (b + H - a) (by rw [hH]; linarith) (by rw [hH]; linarith)
    have u : sin (b + H) ≤ 1.1 * h := by
      have := sin_le (x := b + H) (by rw [hH]; linarith)
      rw [hH] at this ⊢; linarith
    have u0 : 0 ≤ sin (b + H) := sin_nonneg_of_nonneg_of_le_pi (by rw [hH]; linarith) (by rw [hH]; linarith)
    nlinarith
  · have l := low (a - b + H) (by rw [hH]; linarith) (by rw [hH]; linarith)
    have u : -sin (b - H) ≤ 1.1 * h := by
      rw [← sin_neg]
      have := sin_le (x := -(b - H)) (by rw [hH]; linarith)
      rw [hH] at this ⊢; linarith
    nlinarith

/-- The three kinds of rings together. -/
theorem union_square {ctr p : SpherePoint ℝ} {h β x w ε : ℝ} (h0 : 0 < h) (h1 : h ≤ 1 / 20) (ε0 : 0 ≤ ε) (ε1 : ε ≤ h / 1000)
    (hx : cos (p.lon - ctr.lon) = cos x ∧ sin (p.lon - ctr.lon) = sin x) (hb : |ctr.lat - β| ≤ ε) (hw : 0 ≤ w) (hxw : |x| ≤ w)
    (hwb : cos (|β| - h) * w ≤ h + ε)
    (hband : (β = 0 ∧ |p.lat| ≤ h) ∨ (h ≤ β ∧ β + 2 * h ≤ π / 2 ∧ β - h - h / 25 ≤ p.lat ∧ p.lat ≤ β + h - h / 25) ∨
      (h ≤ -β ∧ -β + 2 * h ≤ π / 2 ∧ -β - h - h / 25 ≤ -p.lat ∧ -p.lat ≤ -β + h - h / 25)) :
    ∃ q, Projection.TAN.toPlane ctr p = some q ∧ |q.x| ≤ tan (h + h / 24) ∧ |q.y| ≤ tan (h + h / 24) := by
  have p3 := pi_gt_three
  rcases hband with ⟨rfl, ha⟩ | ⟨b1, b2, b3, b4⟩ | ⟨b1, b2, b3, b4⟩
  · rw [abs_zero, zero_sub, cos_neg] at hwb
    rw [sub_zero] at hb
    obtain ⟨g1, g2, g3, g4, g5⟩ := union_equator h0 h1 ε0 ε1 hb ha hw hxw hwb rfl
    exact square_of hx (by linarith) (by linarith) g1 g2 g3 g4 g5
  · rw [abs_of_nonneg (by linarith)] at hwb
    obtain ⟨g1, g2, g3, g4, g5⟩ := union_north h0 h1 ε0 ε1 b1 b2 hb b3 b4 hw hxw hwb rfl
    exact square_of hx (by linarith) (by linarith) g1 g2 g3 g4 g5
  · rw [abs_of_nonpos (by linarith)] at hwb
    obtain ⟨g1, g2, g3, g4, g5⟩ := union_north (b := -ctr.lat) h0 h1 ε0 ε1 b1 b2 (by rw [neg_sub_neg, abs_sub_comm]; exact hb) b3 b4 hw hxw hwb rfl
    rw [cos_neg, show -p.lat - -ctr.lat = -(p.lat - ctr.lat) by ring, cos_neg, cos_neg] at g2 g5
    rw [cos_neg] at g1 g3 g4
    refine square_of hx (by linarith) (by linarith) g1 g2 ?_ ?_ g5
    · rw [show -ctr.lat - (h + h / 24) = -(ctr.lat + (h + h / 24)) by ring, sin_neg,
        show -p.lat - -ctr.lat + (h + h / 24) = ctr.lat + (h + h / 24) - p.lat by ring] at g4
      linarith
    · rw [show -ctr.lat + (h + h / 24) - -p.lat = p.lat - ctr.lat + (h + h / 24) by ring,
        show -ctr.lat + (h + h / 24) = -(ctr.lat - (h + h / 24)) by ring, sin_neg] at g3
      linarith

/-- A disc is inside the square around it. -/
theorem disc_square {ctr p : SpherePoint ℝ} {H : ℝ} (H0 : 0 ≤ H) (H1 : H < π / 2) (hd : greatCircle ctr p ≤ H) :
    ∃ q, Projection.TAN.toPlane ctr p = some q ∧ |q.x| ≤ tan H ∧ |q.y| ≤ tan H := by
  have ch : 0 < cos H := cos_pos_of_mem_Ioo ⟨by linarith [pi_pos], H1⟩
  have hr := cosSep_range ctr p
  have hc : cos H ≤ cosSep ctr p := by
    rw [show cosSep ctr p = cos (greatCircle ctr p) from (cos_arccos hr.1 hr.2).symm]
    exact cos_le_cos_of_nonneg_of_le_pi (arccos_nonneg _) (by linarith [pi_pos]) hd
  have hD : 0 < cosSep ctr p := by linarith
  have hsq := local_sq ctr p
  have hs : 0 ≤ sin H := sin_nonneg_of_nonneg_of_le_pi H0 (by linarith [pi_pos])
  have key : ∀ E : ℝ, E ^ 2 ≤ 1 - cosSep ctr p ^ 2 → |E / cosSep ctr p| ≤ tan H := by
    intro E hE
    rw [abs_div, abs_of_pos hD, tan_eq_sin_div_cos, div_le_div_iff₀ hD ch]
    have e1 : |E| ≤ sin H := by
      apply abs_le_of_sq_le_sq _ hs
      have := sin_sq_add_cos_sq H
      nlinarith
    exact mul_le_mul e1 hc ch.le hs
  refine ⟨⟨eastOf ctr p / cosSep ctr p, northOf ctr p / cosSep ctr p⟩, ?_, key _ (by nlinarith), key _ (by nlinarith)⟩
  unfold Projection.toPlane; dsimp only; rw [if_pos hD]

/-- The latitudes of the bands: each latitude of the northern hemisphere is in the cap or in a band. -/
theorem band_choice {N : Nat} {h a : ℝ} (h0 : 0 < h) (hN : h * (2 * (N + 1)) = π) (a0 : 0 ≤ a) :
    π / 2 - h - h / 25 ≤ a ∨ ∃ k : Nat, k < N ∧ ∃ β, β = h * (2 * (k + 1)) - π / 2 ∧
      ((β = 0 ∧ |a| ≤ h) ∨ (h ≤ β ∧ β + 2 * h ≤ π / 2 ∧ β - h - h / 25 ≤ a ∧ a ≤ β + h - h / 25)) := by
  rcases le_or_gt (π / 2 - h - h / 25) a with g | g
  · exact .inl g
  refine .inr ?_
  have hp := pi_pos
  have hS : 0 < 2 * h := by linarith
  have hq : 1 / 2 ≤ (a + h / 25 + π / 2) / (2 * h) := by
    rw [le_div_iff₀ hS]
    have : h * 2 ≤ π := by
      have : (0 : ℝ) ≤ N := by positivity
      nlinarith
    linarith
  set z := (a + h / 25 + π / 2) / (2 * h) - 1 / 2 with hz
  have ez : a = (z + 1 / 2) * (2 * h) - h / 25 - π / 2 := by rw [hz]; field_simp; ring
  have z0 : 0 ≤ z := by rw [hz]; linarith
  have f1 := Nat.floor_le z0
  have f2 := Nat.lt_floor_add_one z
  rcases lt_or_ge ⌊z⌋₊ N with hk | hk
  · refine ⟨⌊z⌋₊, hk, _, rfl, ?_⟩
    generalize ⌊z⌋₊ = k at *
    have hk' : (k : ℝ) + 1 ≤ N := by exact_mod_cast hk
    have eβ : h * (2 * (k + 1)) - π / 2 = h * ((2 * k + 1 - N : Int) : ℝ) := by push_cast; rw [← hN]; ring
    have band : h * (2 * (k + 1)) - π / 2 - h - h / 25 ≤ a ∧ a ≤ h * (2 * (k + 1)) - π / 2 + h - h / 25 := by
      rw [ez]
      constructor <;> nlinarith
    have top : h * (2 * (k + 1)) - π / 2 + 2 * h ≤ π / 2 := by rw [← hN]; nlinarith
    rcases lt_trichotomy (2 * (k : Int) + 1 - N) 0 with hs | hs | hs
    · exfalso
      have : ((2 * k + 1 - N : Int) : ℝ) ≤ -1 := by exact_mod_cast (by omega : 2 * (k : Int) + 1 - N ≤ -1)
      nlinarith
    · left
      rw [hs] at eβ
      simp only [Int.cast_zero, mul_zero] at eβ
      refine ⟨eβ, ?_⟩
      rw [abs_of_nonneg a0]; linarith
    · right
      have : (1 : ℝ) ≤ ((2 * k + 1 - N : Int) : ℝ) := by exact_mod_cast (by omega : 1 ≤ 2 * (k : Int) + 1 - N)
      exact ⟨by rw [eβ]; nlinarith, top, band⟩
  · -- so far north that the cap is reached
    exfalso
    have : (N : ℝ) ≤ z := le_trans (by exact_mod_cast hk) f1
    have g' : (N + 1 / 2) * (2 * h) ≤ (z + 1 / 2) * (2 * h) := by gcongr
    linarith

end Skymap
