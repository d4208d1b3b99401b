import Verif.Props.SkyPolygonOther
import Verif.Props.EquatCover

/-! # C66: on-sky polygons with the projection CEA, on the equator and without rotation -/

set_option linter.unusedSectionVars false

namespace Skymap
open Real Matrix Dodeca SpherePoint

/-- On which side of a plane a position is, from its longitude relative to a position on the equator and its latitude. -/
theorem equator_dot {c : SpherePoint ℝ} (hc : c.lat = 0) (W : Vec3) (p : SpherePoint ℝ) : W ⬝ᵥ p.getVector =
    cos p.lat * ((W ⬝ᵥ c.getVector) * cos (p.lon - c.lon) + (W ⬝ᵥ c.eastVec) * sin (p.lon - c.lon)) + (W ⬝ᵥ c.northVec) * sin p.lat := by
  rw [frame_dot c W p.getVector, dotProduct_comm p.getVector, ← eastOf_eq, dotProduct_comm p.getVector, ← northOf_eq, dotProduct_comm p.getVector,
    ← cosSep_eq]
  unfold eastOf northOf cosSep
  rw [hc, sin_zero, cos_zero, show c.lon - p.lon = -(p.lon - c.lon) by ring, cos_neg]
  ring

/-- Between two meridians a function that is not negative at the ends of two arcs of equal latitude is not negative between the great circles
through the ends. -/
theorem cea_arc {P Q D δ u φ φ0 φ1 : ℝ} (hδ : 0 < δ) (hδ1 : δ < π / 2) (c0 : 0 < cos φ0) (c1 : 0 < cos φ1) (cφ : 0 < cos φ)
    (w00 : 0 ≤ cos φ0 * (P * cos δ - Q * sin δ) + D * sin φ0) (w10 : 0 ≤ cos φ0 * (P * cos δ + Q * sin δ) + D * sin φ0)
    (w01 : 0 ≤ cos φ1 * (P * cos δ - Q * sin δ) + D * sin φ1) (w11 : 0 ≤ cos φ1 * (P * cos δ + Q * sin δ) + D * sin φ1)
    (hu : |u| ≤ δ) (lo : tan φ0 * cos u ≤ tan φ * cos δ) (hi : tan φ * cos δ ≤ tan φ1 * cos u) :
    0 ≤ cos φ * (P * cos u + Q * sin u) + D * sin φ := by
  have hp := pi_pos
  obtain ⟨u0, u1⟩ := abs_le.1 hu
  have sδ : 0 < sin δ := sin_pos_of_pos_of_lt_pi hδ (by linarith)
  have cδ : 0 < cos δ := cos_pos_of_mem_Ioo ⟨by linarith, hδ1⟩
  have s1 : 0 ≤ sin (δ - u) := sin_nonneg_of_nonneg_of_le_pi (by linarith) (by linarith)
  have s2 : 0 ≤ sin (δ + u) := sin_nonneg_of_nonneg_of_le_pi (by linarith) (by linarith)
  rw [sin_sub] at s1
  rw [sin_add] at s2
  -- the great circles, at the meridian of `u`
  have I : ∀ x : ℝ, 0 < cos x → 0 ≤ cos x * (P * cos δ - Q * sin δ) + D * sin x → 0 ≤ cos x * (P * cos δ + Q * sin δ) + D * sin x →
      0 ≤ cos δ * (P * cos u + Q * sin u) + D * (tan x * cos u) := by
    intro x hx h1 h2
    have e : tan x * cos x = sin x := tan_mul_cos hx.ne'
    have h3 := add_nonneg (mul_nonneg s1 h1) (mul_nonneg s2 h2)
    have e3 : (sin δ * cos u - cos δ * sin u) * (cos x * (P * cos δ - Q * sin δ) + D * sin x) +
        (sin δ * cos u + cos δ * sin u) * (cos x * (P * cos δ + Q * sin δ) + D * sin x) =
        (2 * sin δ * cos x) * (cos δ * (P * cos u + Q * sin u) + D * (tan x * cos u)) := by
      rw [← e]; ring
    rw [e3] at h3
    exact nonneg_of_mul_nonneg_right h3 (by positivity)
  have i0 := I φ0 c0 w00 w10
  have i1 := I φ1 c1 w01 w11
  have e : tan φ * cos φ = sin φ := tan_mul_cos cφ.ne'
  have key : 0 ≤ cos δ * (P * cos u + Q * sin u) + D * (tan φ * cos δ) := by
    rcases le_total 0 D with h | h
    · have := mul_le_mul_of_nonneg_left lo h
      linarith
    · have := mul_le_mul_of_nonpos_left hi h
      linarith
  have e2 : cos δ * (cos φ * (P * cos u + Q * sin u) + D * sin φ) = cos φ * (cos δ * (P * cos u + Q * sin u) + D * (tan φ * cos δ)) := by
    rw [← e]; ring
  have h3 := mul_nonneg cφ.le key
  rw [← e2] at h3
  exact nonneg_of_mul_nonneg_right h3 cδ

/-- An angle with two sines that are not negative is between the ends of an interval, up to full turns. -/
theorem between_meridians {δ x : ℝ} (hδ : 0 < δ) (h1 : 0 ≤ sin (δ + x)) (h2 : 0 ≤ sin (δ - x)) :
    ∃ u, |u| ≤ δ ∧ ∃ k : ℤ, x = u + k * (2 * π) := by
  have hp := pi_pos
  have hm := toIocMod_mem_Ioc (by positivity : (0 : ℝ) < 2 * π) (-π) x
  have hk : x = toIocMod (by positivity : (0 : ℝ) < 2 * π) (-π) x + (toIocDiv (by positivity : (0 : ℝ) < 2 * π) (-π) x : ℤ) * (2 * π) := by
    have := toIocMod_add_toIocDiv_zsmul (by positivity : (0 : ℝ) < 2 * π) (-π) x
    rw [zsmul_eq_mul] at this
    exact this.symm
  generalize toIocMod (by positivity : (0 : ℝ) < 2 * π) (-π) x = u at *
  generalize toIocDiv (by positivity : (0 : ℝ) < 2 * π) (-π) x = k at *
  refine ⟨u, ?_, k, hk⟩
  rw [hk, ← add_assoc, sin_add_int_mul_two_pi] at h1
  rw [hk, ← sub_sub, sin_sub_int_mul_two_pi] at h2
  obtain ⟨m1, m2⟩ := hm
  rw [abs_le]
  constructor
  · by_contra h
    have := sin_neg_of_neg_of_neg_pi_lt (x := δ + u) (by linarith) (by linarith)
    linarith
  · by_contra h
    have := sin_neg_of_neg_of_neg_pi_lt (x := δ - u) (by linarith) (by linarith)
    linarith

/-- The sign of the first pixel axis. -/
noncomputable def xmult (flipX : Bool) : ℝ := if flipX then 1 else -1

theorem cea_pixelToSky (crpix : P2 ℝ) (c : SpherePoint ℝ) (scale : ℝ) (flipX : Bool) (x y : ℝ) :
    (makeSkyWcs crpix c (makeCdMatrix scale 0 flipX) .CEA).pixelToSky ⟨x, y⟩ =
      ⟨wrapAngle π (c.lon + xmult flipX * scale * (x - crpix.x)), arcsin (scale * (y - crpix.y))⟩ := by
  unfold makeSkyWcs Projection.fromPlane CdMatrix.apply makeCdMatrix xmult
  simp only [cos_zero, sin_zero, one_mul, zero_mul, add_zero, neg_zero, zero_add]
  congr 2
  ring_nf

/-- C66 for one box: the polygon of a box, exactly. -/
theorem cea_polygon {crpix : P2 ℝ} {c : SpherePoint ℝ} (hc : c.lat = 0) {scale : ℝ} (hs : 0 < scale) (flipX : Bool) {bbox : Box2I}
    (hdim : 0 < bbox.dim.x ∧ 0 < bbox.dim.y) (hw : scale * bbox.dim.x < π) {φ0 φ1 m : ℝ}
    (e0 : φ0 = arcsin (scale * ((bbox.min.y : ℝ) - 1 / 2 - crpix.y)))
    (e1 : φ1 = arcsin (scale * ((bbox.min.y : ℝ) + bbox.dim.y - 1 / 2 - crpix.y)))
    (em : m = xmult flipX * scale * ((bbox.min.x : ℝ) + bbox.dim.x / 2 - 1 / 2 - crpix.x))
    (l0 : |φ0| < π / 2) (l1 : |φ1| < π / 2) (s : SpherePoint ℝ) (hs1 : |s.lat| ≤ π / 2) :
    InPolygon (makeSkyPolygonFromBBox bbox (makeSkyWcs crpix c (makeCdMatrix scale 0 flipX) .CEA)) s ↔
      |s.lat| < π / 2 ∧ ∃ u, |u| ≤ scale * bbox.dim.x / 2 ∧ (∃ k : ℤ, s.lon = c.lon + m + u + k * (2 * π)) ∧
        tan φ0 * cos u ≤ tan s.lat * cos (scale * bbox.dim.x / 2) ∧ tan s.lat * cos (scale * bbox.dim.x / 2) ≤ tan φ1 * cos u := by
  have hp := pi_pos
  have hbox : bbox.isEmpty = false := by unfold Box2I.isEmpty; simp; omega
  have d1 : (0 : ℝ) < bbox.dim.x := by exact_mod_cast hdim.1
  have d2 : (0 : ℝ) < bbox.dim.y := by exact_mod_cast hdim.2
  have c0 : 0 < cos φ0 := cos_pos_of_mem_Ioo (abs_lt.1 l0)
  have c1 : 0 < cos φ1 := cos_pos_of_mem_Ioo (abs_lt.1 l1)
  have hδ : 0 < scale * bbox.dim.x / 2 := by positivity
  have hδ1 : scale * bbox.dim.x / 2 < π / 2 := by linarith
  have sδ : 0 < sin (scale * bbox.dim.x / 2) := sin_pos_of_pos_of_lt_pi hδ (by linarith)
  have cδ : 0 < cos (scale * bbox.dim.x / 2) := cos_pos_of_mem_Ioo ⟨by linarith, hδ1⟩
  have hlt : φ0 < φ1 := by
    rcases lt_or_ge φ0 φ1 with h | h
    · exact h
    · exfalso
      have r0 : -1 < scale * ((bbox.min.y : ℝ) - 1 / 2 - crpix.y) := by
        by_contra hh
        rw [e0, arcsin_of_le_neg_one (not_lt.1 hh), abs_neg, abs_of_pos (by positivity)] at l0
        exact lt_irrefl _ l0
      have r1 : scale * ((bbox.min.y : ℝ) + bbox.dim.y - 1 / 2 - crpix.y) < 1 := by
        by_contra hh
        rw [e1, arcsin_of_one_le (not_lt.1 hh), abs_of_pos (by positivity)] at l1
        exact lt_irrefl _ l1
      have r2 : scale * ((bbox.min.y : ℝ) - 1 / 2 - crpix.y) < scale * ((bbox.min.y : ℝ) + bbox.dim.y - 1 / 2 - crpix.y) :=
        mul_lt_mul_of_pos_left (by linarith) hs
      have := strictMonoOn_arcsin ⟨r0.le, (r2.trans r1).le⟩ ⟨(r0.trans r2).le, r1.le⟩ r2
      rw [← e0, ← e1] at this
      exact absurd this (not_lt.2 h)
  -- the corners, in the frame at the middle meridian
  set P : Vec3 → ℝ := fun W => (W ⬝ᵥ c.getVector) * cos m + (W ⬝ᵥ c.eastVec) * sin m with hP
  set Q : Vec3 → ℝ := fun W => (W ⬝ᵥ c.eastVec) * cos m - (W ⬝ᵥ c.getVector) * sin m with hQ
  have turn : ∀ (W : Vec3) (u : ℝ), (W ⬝ᵥ c.getVector) * cos (m + u) + (W ⬝ᵥ c.eastVec) * sin (m + u) = P W * cos u + Q W * sin u := by
    intro W u
    rw [cos_add, sin_add, hP, hQ]
    ring
  have side : ∀ (W : Vec3) (lon lat u : ℝ), cos (lon - c.lon) = cos (m + u) → sin (lon - c.lon) = sin (m + u) →
      W ⬝ᵥ (⟨lon, lat⟩ : SpherePoint ℝ).getVector = cos lat * (P W * cos u + Q W * sin u) + (W ⬝ᵥ c.northVec) * sin lat := by
    intro W lon lat u h1 h2
    rw [equator_dot hc W ⟨lon, lat⟩]
    dsimp only
    rw [h1, h2, turn]
  have corner : ∀ (W : Vec3) (x y u : ℝ), xmult flipX * scale * (x - crpix.x) = m + u →
      W ⬝ᵥ ((makeSkyWcs crpix c (makeCdMatrix scale 0 flipX) .CEA).pixelToSky ⟨x, y⟩).getVector =
        cos (arcsin (scale * (y - crpix.y))) * (P W * cos u + Q W * sin u) + (W ⬝ᵥ c.northVec) * sin (arcsin (scale * (y - crpix.y))) := by
    intro W x y u h
    rw [cea_pixelToSky]
    refine side W _ _ u ?_ ?_
    · rw [cos_wrap_sub, add_sub_cancel_left, h]
    · rw [sin_wrap_sub, add_sub_cancel_left, h]
  have ends : ∀ W : Vec3, (∀ p ∈ makeSkyPolygonFromBBox bbox (makeSkyWcs crpix c (makeCdMatrix scale 0 flipX) .CEA), 0 ≤ W ⬝ᵥ p.getVector) ↔
      (0 ≤ cos φ0 * (P W * cos (scale * bbox.dim.x / 2) - Q W * sin (scale * bbox.dim.x / 2)) + (W ⬝ᵥ c.northVec) * sin φ0 ∧
       0 ≤ cos φ0 * (P W * cos (scale * bbox.dim.x / 2) + Q W * sin (scale * bbox.dim.x / 2)) + (W ⬝ᵥ c.northVec) * sin φ0) ∧
      (0 ≤ cos φ1 * (P W * cos (scale * bbox.dim.x / 2) - Q W * sin (scale * bbox.dim.x / 2)) + (W ⬝ᵥ c.northVec) * sin φ1 ∧
       0 ≤ cos φ1 * (P W * cos (scale * bbox.dim.x / 2) + Q W * sin (scale * bbox.dim.x / 2)) + (W ⬝ᵥ c.northVec) * sin φ1) := by
    intro W
    rw [mem_polygon hbox,
      corner W _ _ (-(xmult flipX * (scale * bbox.dim.x / 2))) (by rw [em]; ring),
      corner W _ _ (xmult flipX * (scale * bbox.dim.x / 2)) (by rw [em]; ring),
      corner W _ _ (xmult flipX * (scale * bbox.dim.x / 2)) (by rw [em]; ring),
      corner W _ _ (-(xmult flipX * (scale * bbox.dim.x / 2))) (by rw [em]; ring), ← e0, ← e1]
    cases flipX with
    | true => simp only [xmult, if_true, one_mul, cos_neg, sin_neg, mul_neg, ← sub_eq_add_neg]; tauto
    | false => simp only [xmult, Bool.false_eq_true, if_false, neg_mul, one_mul, neg_neg, cos_neg, sin_neg, mul_neg, ← sub_eq_add_neg]; tauto
  constructor
  · intro hin
    -- planes, given in the frame at the middle meridian
    have plane : ∀ p q d : ℝ, ∃ W : Vec3, P W = p ∧ Q W = q ∧ W ⬝ᵥ c.northVec = d := by
      intro p q d
      obtain ⟨f1, f2, f3⟩ := frameVec_dot c (p * sin m + q * cos m) d (p * cos m - q * sin m)
      have hm := sin_sq_add_cos_sq m
      refine ⟨frameVec c (p * sin m + q * cos m) d (p * cos m - q * sin m), ?_, ?_, f2⟩
      · rw [hP]; dsimp only; rw [f1, f3]; linear_combination p * hm
      · rw [hQ]; dsimp only; rw [f1, f3]; linear_combination q * hm
    have use : ∀ p q d : ℝ, 0 ≤ cos φ0 * (p * cos (scale * bbox.dim.x / 2) - q * sin (scale * bbox.dim.x / 2)) + d * sin φ0 →
        0 ≤ cos φ0 * (p * cos (scale * bbox.dim.x / 2) + q * sin (scale * bbox.dim.x / 2)) + d * sin φ0 →
        0 ≤ cos φ1 * (p * cos (scale * bbox.dim.x / 2) - q * sin (scale * bbox.dim.x / 2)) + d * sin φ1 →
        0 ≤ cos φ1 * (p * cos (scale * bbox.dim.x / 2) + q * sin (scale * bbox.dim.x / 2)) + d * sin φ1 →
        0 ≤ cos s.lat * (p * cos (s.lon - c.lon - m) + q * sin (s.lon - c.lon - m)) + d * sin s.lat := by
      intro p q d h1 h2 h3 h4
      obtain ⟨W, rfl, rfl, rfl⟩ := plane p q d
      have := hin W ((ends W).2 ⟨⟨h1, h2⟩, h3, h4⟩)
      rwa [side W s.lon s.lat (s.lon - c.lon - m) (by congr 1; ring) (by congr 1; ring)] at this
    generalize scale * bbox.dim.x / 2 = δ at *
    have hd : 0 < sin (φ1 - φ0) := by
      have a0 := abs_lt.1 l0; have a1 := abs_lt.1 l1
      exact sin_pos_of_pos_of_lt_pi (by linarith) (by linarith)
    rw [sin_sub] at hd
    have hlo := use (-sin φ0) 0 (cos δ * cos φ0) (by ring_nf; rfl) (by ring_nf; rfl)
      (by have := mul_pos cδ hd; linarith) (by have := mul_pos cδ hd; linarith)
    have hhi := use (sin φ1) 0 (-(cos δ * cos φ1)) (by have := mul_pos cδ hd; linarith) (by have := mul_pos cδ hd; linarith)
      (by ring_nf; rfl) (by ring_nf; rfl)
    have hW := use (sin δ) (cos δ) 0 (by ring_nf; rfl) (by have := mul_pos (mul_pos c0 sδ) cδ; linarith)
      (by ring_nf; rfl) (by have := mul_pos (mul_pos c1 sδ) cδ; linarith)
    have hE := use (sin δ) (-cos δ) 0 (by have := mul_pos (mul_pos c0 sδ) cδ; linarith) (by ring_nf; rfl)
      (by have := mul_pos (mul_pos c1 sδ) cδ; linarith) (by ring_nf; rfl)
    have hcs : 0 ≤ cos s.lat := cos_nonneg_of_mem_Icc (abs_le.1 hs1)
    have hne : cos s.lat ≠ 0 := by
      intro h
      rw [h] at hlo hhi
      have hsin := sin_sq_add_cos_sq s.lat
      rw [h] at hsin
      have p0 : 0 ≤ sin s.lat := by
        have : 0 ≤ (cos δ * cos φ0) * sin s.lat := by linarith
        exact nonneg_of_mul_nonneg_right this (by positivity)
      have p1 : sin s.lat ≤ 0 := by
        have : 0 ≤ (cos δ * cos φ1) * (-sin s.lat) := by linarith
        have := nonneg_of_mul_nonneg_right this (by positivity)
        linarith
      have : sin s.lat = 0 := le_antisymm p1 p0
      rw [this] at hsin
      norm_num at hsin
    have hcs' : 0 < cos s.lat := lt_of_le_of_ne hcs hne.symm
    have hlat : |s.lat| < π / 2 := by
      refine lt_of_le_of_ne hs1 fun h => hne ?_
      rw [← cos_abs, h, cos_pi_div_two]
    obtain ⟨u, hu, k, hk⟩ := between_meridians (x := s.lon - c.lon - m) hδ
      (by rw [sin_add]; exact nonneg_of_mul_nonneg_right (by linarith) hcs')
      (by rw [sin_sub]; exact nonneg_of_mul_nonneg_right (by linarith) hcs')
    have hcu : cos (s.lon - c.lon - m) = cos u := by rw [hk, cos_add_int_mul_two_pi]
    rw [hcu] at hlo hhi
    have t0 : tan φ0 * cos φ0 = sin φ0 := tan_mul_cos c0.ne'
    have t1 : tan φ1 * cos φ1 = sin φ1 := tan_mul_cos c1.ne'
    have ts : tan s.lat * cos s.lat = sin s.lat := tan_mul_cos hne
    refine ⟨hlat, u, hu, ⟨k, by linarith⟩, ?_, ?_⟩
    · have : 0 ≤ (cos s.lat * cos φ0) * (tan s.lat * cos δ - tan φ0 * cos u) := by
        have e : (cos s.lat * cos φ0) * (tan s.lat * cos δ - tan φ0 * cos u) =
          cos δ * cos φ0 * (tan s.lat * cos s.lat) - (tan φ0 * cos φ0) * cos s.lat * cos u := by ring
        rw [e, t0, ts]; linarith
      have := nonneg_of_mul_nonneg_right this (by positivity)
      linarith
    · have : 0 ≤ (cos s.lat * cos φ1) * (tan φ1 * cos u - tan s.lat * cos δ) := by
        have e : (cos s.lat * cos φ1) * (tan φ1 * cos u - tan s.lat * cos δ) =
          (tan φ1 * cos φ1) * cos s.lat * cos u - cos δ * cos φ1 * (tan s.lat * cos s.lat) := by ring
        rw [e, t1, ts]; linarith
      have := nonneg_of_mul_nonneg_right this (by positivity)
      linarith
  · rintro ⟨hlat, u, hu, ⟨k, hk⟩, lo, hi⟩ W hW
    obtain ⟨⟨w00, w10⟩, w01, w11⟩ := (ends W).1 hW
    have e : s.lon - c.lon = m + u + k * (2 * π) := by linarith
    rw [show s = ⟨s.lon, s.lat⟩ from rfl, side W s.lon s.lat u (by rw [e, cos_add_int_mul_two_pi]) (by rw [e, sin_add_int_mul_two_pi])]
    exact cea_arc hδ hδ1 c0 c1 (cos_pos_of_mem_Ioo (abs_lt.1 hlat)) w00 w10 w01 w11 hu lo hi


/-- The pixel position of a position, with the projection CEA. -/
theorem cea_skyToPixel {crpix : P2 ℝ} {c : SpherePoint ℝ} (hc : c.lat = 0) {scale : ℝ} (hs : 0 < scale) {flipX : Bool} {s : SpherePoint ℝ} {q : P2 ℝ}
    (hq : (makeSkyWcs crpix c (makeCdMatrix scale 0 flipX) .CEA).skyToPixel s = .pix q) :
    sin s.lat = scale * (q.y - crpix.y) ∧ ∃ k : ℤ, s.lon = c.lon + xmult flipX * scale * (q.x - crpix.x) + k * (2 * π) := by
  have hp := pi_pos
  have hm := toIocMod_mem_Ioc (by positivity : (0 : ℝ) < 2 * π) (-π) (s.lon - c.lon)
  have hk : s.lon - c.lon = toIocMod (by positivity : (0 : ℝ) < 2 * π) (-π) (s.lon - c.lon) +
      (toIocDiv (by positivity : (0 : ℝ) < 2 * π) (-π) (s.lon - c.lon) : ℤ) * (2 * π) := by
    have := toIocMod_add_toIocDiv_zsmul (by positivity : (0 : ℝ) < 2 * π) (-π) (s.lon - c.lon)
    rw [zsmul_eq_mul] at this
    exact this.symm
  generalize toIocMod (by positivity : (0 : ℝ) < 2 * π) (-π) (s.lon - c.lon) = y at *
  generalize toIocDiv (by positivity : (0 : ℝ) < 2 * π) (-π) (s.lon - c.lon) = k at *
  unfold makeSkyWcs Projection.toPlane at hq
  dsimp only at hq
  rw [if_pos hc] at hq
  dsimp only at hq
  rw [hk, cos_add_int_mul_two_pi, sin_add_int_mul_two_pi, arg_cos_sin hm.1 (by linarith [hm.2]), makeCdMatrix_solve hs.ne'] at hq
  simp only [cos_zero, sin_zero, zero_add, one_mul, zero_mul, sub_zero, PixRes.pix.injEq] at hq
  subst hq
  dsimp only
  refine ⟨by field_simp; ring, k, ?_⟩
  rw [eq_add_of_sub_eq hk]
  unfold xmult
  cases flipX with
  | true => simp only [if_true]; field_simp; ring
  | false => simp only [Bool.false_eq_true, if_false]; field_simp; ring

theorem cea_crval {crpix : P2 ℝ} {c : SpherePoint ℝ} (hc : c.lat = 0) {scale : ℝ} (hs : 0 < scale) {flipX : Bool} :
    (makeSkyWcs crpix c (makeCdMatrix scale 0 flipX) .CEA).skyToPixel c = .pix crpix := by
  unfold makeSkyWcs Projection.toPlane
  dsimp only
  rw [if_pos hc]
  dsimp only
  rw [sub_self, arg_cos_sin (by linarith [pi_pos]) pi_pos.le, makeCdMatrix_solve hs.ne', hc]
  simp

/-- A position is above the great circle through the ends of an arc of equal latitude if the arc is on the other side of the equator, or if
there is enough margin. -/
theorem cea_margin {φ0 φ u δ : ℝ} (h0 : |φ0| < π / 2) (h1 : |φ| < π / 2) (hle : φ0 ≤ φ) (hδ1 : δ < π / 2) (hu : |u| ≤ δ)
    (h : φ0 ≤ 0 ∨ δ ^ 2 / 2 ≤ sin φ - sin φ0) : tan φ0 * cos u ≤ tan φ * cos δ := by
  have hp := pi_pos
  obtain ⟨a0, a1⟩ := abs_lt.1 h0
  obtain ⟨b0, b1⟩ := abs_lt.1 h1
  have hδ : 0 ≤ δ := (abs_nonneg u).trans hu
  have cδ : 0 < cos δ := cos_pos_of_mem_Ioo ⟨by linarith, hδ1⟩
  have mono : tan φ0 ≤ tan φ := strictMonoOn_tan.monotoneOn ⟨a0, a1⟩ ⟨b0, b1⟩ hle
  rcases le_or_gt φ0 0 with hz | hz
  · have t0 : tan φ0 ≤ 0 := tan_nonpos_of_nonpos_of_neg_pi_div_two_le hz (by linarith)
    have hcu : cos δ ≤ cos u := by
      rw [← cos_abs u]
      exact cos_le_cos_of_nonneg_of_le_pi (abs_nonneg u) (by linarith) hu
    have e1 := mul_le_mul_of_nonpos_left hcu t0
    have e2 := mul_le_mul_of_nonneg_right mono cδ.le
    linarith
  · have h' := h.resolve_left (not_le.2 hz)
    have c0 : 0 < cos φ0 := cos_pos_of_mem_Ioo ⟨a0, a1⟩
    have c1 : 0 < cos φ := cos_pos_of_mem_Ioo ⟨b0, b1⟩
    have cle : cos φ ≤ cos φ0 := cos_le_cos_of_nonneg_of_le_pi hz.le (by linarith) hle
    have t0 : 0 ≤ tan φ0 := tan_nonneg_of_nonneg_of_le_pi_div_two hz.le (by linarith)
    have s1 := sin_le_one φ
    have s0 : 0 ≤ sin φ := sin_nonneg_of_nonneg_of_le_pi (by linarith) (by linarith)
    have cq := one_sub_sq_div_two_le_cos (x := δ)
    have key : sin φ0 ≤ sin φ * cos δ := by
      have e1 := mul_le_mul_of_nonneg_left cq s0
      have e2 : sin φ * (δ ^ 2 / 2) ≤ δ ^ 2 / 2 := mul_le_of_le_one_left (by positivity) s1
      linarith
    have e3 : tan φ0 * cos u ≤ tan φ0 := mul_le_of_le_one_right t0 (cos_le_one u)
    refine e3.trans ?_
    rw [tan_eq_sin_div_cos, tan_eq_sin_div_cos, div_mul_eq_mul_div, div_le_div_iff₀ c0 c1]
    have s00 : 0 ≤ sin φ0 := sin_nonneg_of_nonneg_of_le_pi hz.le (by linarith)
    calc sin φ0 * cos φ ≤ sin φ0 * cos φ0 := mul_le_mul_of_nonneg_left cle s00
      _ ≤ sin φ * cos δ * cos φ0 := mul_le_mul_of_nonneg_right key c0.le

/-- The same, below. -/
theorem cea_margin' {φ1 φ u δ : ℝ} (h0 : |φ1| < π / 2) (h1 : |φ| < π / 2) (hle : φ ≤ φ1) (hδ1 : δ < π / 2) (hu : |u| ≤ δ)
    (h : 0 ≤ φ1 ∨ δ ^ 2 / 2 ≤ sin φ1 - sin φ) : tan φ * cos δ ≤ tan φ1 * cos u := by
  have := cea_margin (φ0 := -φ1) (φ := -φ) (u := u) (δ := δ) (by rwa [abs_neg]) (by rwa [abs_neg]) (by linarith) hδ1 hu
    (h.imp (fun h => by linarith) (fun h => by rw [sin_neg, sin_neg]; linarith))
  rw [tan_neg, tan_neg] at this
  linarith

/-- C66 for one box and a box around it: the polygon of the outer box contains the positions in the area of the inner box. -/
theorem cea_outer {crpix : P2 ℝ} {c : SpherePoint ℝ} (hc : c.lat = 0) {scale : ℝ} (hs : 0 < scale) {flipX : Bool} {bbox inner : Box2I} {border : ℝ}
    (hdim : 0 < bbox.dim.x ∧ 0 < bbox.dim.y) (hw : scale * bbox.dim.x < π)
    (l0 : |arcsin (scale * ((bbox.min.y : ℝ) - 1 / 2 - crpix.y))| < π / 2)
    (l1 : |arcsin (scale * ((bbox.min.y : ℝ) + bbox.dim.y - 1 / 2 - crpix.y))| < π / 2)
    (ix0 : bbox.min.x ≤ inner.min.x) (ix1 : inner.min.x + inner.dim.x ≤ bbox.min.x + bbox.dim.x)
    (iy0 : bbox.min.y ≤ inner.min.y) (iy1 : inner.min.y + inner.dim.y ≤ bbox.min.y + bbox.dim.y)
    (sb : (bbox.min.y : ℝ) - 1 / 2 ≤ crpix.y ∨ (border ≤ (inner.min.y : ℝ) - bbox.min.y ∧ scale * (bbox.dim.x : ℝ) ^ 2 ≤ 8 * border))
    (st : crpix.y ≤ (bbox.min.y : ℝ) + bbox.dim.y - 1 / 2 ∨
      (border ≤ (bbox.min.y : ℝ) + bbox.dim.y - (inner.min.y + inner.dim.y) ∧ scale * (bbox.dim.x : ℝ) ^ 2 ≤ 8 * border))
    {s : SpherePoint ℝ} (hs1 : |s.lat| ≤ π / 2) {q : P2 ℝ}
    (hq : (makeSkyWcs crpix c (makeCdMatrix scale 0 flipX) .CEA).skyToPixel s = .pix q) (ha : inner.Area q) :
    InPolygon (makeSkyPolygonFromBBox bbox (makeSkyWcs crpix c (makeCdMatrix scale 0 flipX) .CEA)) s := by
  have hp := pi_pos
  obtain ⟨hsin, k, hlon⟩ := cea_skyToPixel hc hs hq
  unfold Box2I.Area at ha
  obtain ⟨ax0, ax1, ay0, ay1⟩ := ha
  have r1 : (bbox.min.x : ℝ) ≤ inner.min.x := by exact_mod_cast ix0
  have r2 : (inner.min.x : ℝ) + inner.dim.x ≤ bbox.min.x + bbox.dim.x := by exact_mod_cast ix1
  have r3 : (bbox.min.y : ℝ) ≤ inner.min.y := by exact_mod_cast iy0
  have r4 : (inner.min.y : ℝ) + inner.dim.y ≤ bbox.min.y + bbox.dim.y := by exact_mod_cast iy1
  have d1 : (0 : ℝ) < bbox.dim.x := by exact_mod_cast hdim.1
  -- the latitude
  have g0 : -1 < scale * ((bbox.min.y : ℝ) - 1 / 2 - crpix.y) := by
    by_contra hh
    rw [arcsin_of_le_neg_one (not_lt.1 hh), abs_neg, abs_of_pos (by positivity)] at l0
    exact lt_irrefl _ l0
  have g1 : scale * ((bbox.min.y : ℝ) + bbox.dim.y - 1 / 2 - crpix.y) < 1 := by
    by_contra hh
    rw [arcsin_of_one_le (not_lt.1 hh), abs_of_pos (by positivity)] at l1
    exact lt_irrefl _ l1
  have y0 : scale * ((bbox.min.y : ℝ) - 1 / 2 - crpix.y) ≤ sin s.lat := by
    rw [hsin]; exact mul_le_mul_of_nonneg_left (by linarith) hs.le
  have y1 : sin s.lat ≤ scale * ((bbox.min.y : ℝ) + bbox.dim.y - 1 / 2 - crpix.y) := by
    rw [hsin]; exact mul_le_mul_of_nonneg_left (by linarith) hs.le
  have es : arcsin (sin s.lat) = s.lat := arcsin_sin (abs_le.1 hs1).1 (abs_le.1 hs1).2
  have m0 : arcsin (scale * ((bbox.min.y : ℝ) - 1 / 2 - crpix.y)) ≤ s.lat := by
    rw [← es]; exact monotone_arcsin y0
  have m1 : s.lat ≤ arcsin (scale * ((bbox.min.y : ℝ) + bbox.dim.y - 1 / 2 - crpix.y)) := by
    rw [← es]; exact monotone_arcsin y1
  have hlat : |s.lat| < π / 2 := by
    rw [abs_lt] at *
    constructor <;> linarith
  have n0 : sin (arcsin (scale * ((bbox.min.y : ℝ) - 1 / 2 - crpix.y))) = scale * ((bbox.min.y : ℝ) - 1 / 2 - crpix.y) :=
    sin_arcsin g0.le (by linarith [sin_le_one s.lat])
  have n1 : sin (arcsin (scale * ((bbox.min.y : ℝ) + bbox.dim.y - 1 / 2 - crpix.y))) = scale * ((bbox.min.y : ℝ) + bbox.dim.y - 1 / 2 - crpix.y) :=
    sin_arcsin (by linarith [neg_one_le_sin s.lat]) g1.le
  rw [cea_polygon hc hs flipX hdim hw rfl rfl rfl l0 l1 s hs1]
  have hu : |xmult flipX * scale * (q.x - ((bbox.min.x : ℝ) + bbox.dim.x / 2 - 1 / 2))| ≤ scale * bbox.dim.x / 2 := by
    have hx : |xmult flipX| = 1 := by unfold xmult; cases flipX <;> simp
    rw [abs_mul, abs_mul, hx, one_mul, abs_of_pos hs, mul_div_assoc]
    refine mul_le_mul_of_nonneg_left ?_ hs.le
    rw [abs_le]
    constructor <;> linarith
  have hδ : scale * bbox.dim.x / 2 < π / 2 := by linarith
  have hsq : ∀ β : ℝ, scale * (bbox.dim.x : ℝ) ^ 2 ≤ 8 * β → (scale * (bbox.dim.x : ℝ) / 2) ^ 2 / 2 ≤ scale * β := by
    intro β h
    have := mul_le_mul_of_nonneg_left h hs.le
    have e : (scale * (bbox.dim.x : ℝ) / 2) ^ 2 / 2 = scale * (scale * (bbox.dim.x : ℝ) ^ 2) / 8 := by ring
    rw [e]; linarith
  refine ⟨hlat, _, hu, ⟨k, by rw [hlon]; ring⟩, cea_margin l0 hlat m0 hδ hu ?_, cea_margin' l1 hlat m1 hδ hu ?_⟩
  · refine sb.imp (fun h => ?_) (fun h => ?_)
    · rw [arcsin_nonpos]; exact mul_nonpos_of_nonneg_of_nonpos hs.le (by linarith)
    · rw [n0, hsin]
      refine (hsq _ h.2).trans ?_
      rw [← mul_sub]
      exact mul_le_mul_of_nonneg_left (by linarith [h.1]) hs.le
  · refine st.imp (fun h => ?_) (fun h => ?_)
    · rw [arcsin_nonneg]; exact mul_nonneg hs.le (by linarith)
    · rw [n1, hsin]
      refine (hsq _ h.2).trans ?_
      rw [← mul_sub]
      exact mul_le_mul_of_nonneg_left (by linarith [h.1]) hs.le

/-! ## Tracts and patches -/

section tract
variable {env : FloatEnv ℝ} {ops : SkyOps (SpherePoint ℝ) ℝ} {b₀ b : TractBuilder} {a : TractArgs (SpherePoint ℝ) ℝ}
  {t : TractInfo (SpherePoint ℝ) ℝ} {scale : ℝ} {flipX : Bool} {f : WcsFactory}
  {other : P2 ℝ → SpherePoint ℝ → CdMatrix → String → Wcs (SpherePoint ℝ) ℝ} {crpix : P2 ℝ} {crval : SpherePoint ℝ}

/-- The latitudes of the corners of a polygon. -/
theorem cea_corner_lats {crpix : P2 ℝ} {c : SpherePoint ℝ} {bbox : Box2I} (hdim : 0 < bbox.dim.x ∧ 0 < bbox.dim.y) :
    (∀ v ∈ makeSkyPolygonFromBBox bbox (makeSkyWcs crpix c (makeCdMatrix scale 0 flipX) .CEA), |v.lat| < π / 2) ↔
      |arcsin (scale * ((bbox.min.y : ℝ) - 1 / 2 - crpix.y))| < π / 2 ∧
      |arcsin (scale * ((bbox.min.y : ℝ) + bbox.dim.y - 1 / 2 - crpix.y))| < π / 2 := by
  rw [makeSkyPolygon_eq bbox _ (by unfold Box2I.isEmpty; simp; omega)]
  simp only [rectangle, pixelCorner, List.mem_cons, List.not_mem_nil, or_false, forall_eq_or_imp, forall_eq]
  push_cast
  rw [cea_pixelToSky, cea_pixelToSky, cea_pixelToSky, cea_pixelToSky]
  tauto

/-- C66: with the projection CEA, a reference position on the equator and no rotation, the polygon of a box that is less than 180 degrees wide
and does not reach a pole contains exactly the positions between its western and eastern meridian and between two great circles: those
through its two bottom corners and its two top corners (at the distance `u` in longitude from its middle, these circles have the tangent of the latitude
`tan bottom * cos u / cos (width / 2)` and `tan top * cos u / cos (width / 2)`). -/
theorem C66_polygon (h : TractInfo.new env ops b₀ a = .ok (t, b)) (hf : WcsFactory.new scale "CEA" 0 flipX = .ok f) (hs : 0 < scale)
    (hw : a.wcs = f.makeWcs other crpix crval) (h0 : crval.lat = 0) {bbox : Box2I} (hdim : 0 < bbox.dim.x ∧ 0 < bbox.dim.y)
    (hwidth : scale * bbox.dim.x < π) (hpole : ∀ v ∈ makeSkyPolygonFromBBox bbox t.wcs, |v.lat| < π / 2) {bottom top middle : SpherePoint ℝ}
    (hbottom : bottom = t.wcs.pixelToSky ⟨(bbox.min.x : ℝ) - 1 / 2, (bbox.min.y : ℝ) - 1 / 2⟩)
    (htop : top = t.wcs.pixelToSky ⟨(bbox.min.x : ℝ) + bbox.dim.x - 1 / 2, (bbox.min.y : ℝ) + bbox.dim.y - 1 / 2⟩)
    (hmiddle : middle = t.wcs.pixelToSky ⟨(bbox.min.x : ℝ) + bbox.dim.x / 2 - 1 / 2, (bbox.min.y : ℝ) + bbox.dim.y / 2 - 1 / 2⟩)
    {s : SpherePoint ℝ} (hs1 : |s.lat| ≤ π / 2) :
    InPolygon (makeSkyPolygonFromBBox bbox t.wcs) s ↔
      |s.lat| < π / 2 ∧ ∃ u, |u| ≤ scale * bbox.dim.x / 2 ∧ (∃ k : ℤ, s.lon = middle.lon + u + k * (2 * π)) ∧
        tan bottom.lat * cos u / cos (scale * bbox.dim.x / 2) ≤ tan s.lat ∧ tan s.lat ≤ tan top.lat * cos u / cos (scale * bbox.dim.x / 2) := by
  rw [WcsFactory.makeWcs_eq (P := .CEA) hf rfl] at hw
  obtain ⟨crpix', e⟩ := TractInfo.new_wcs h hw
  rw [e] at hpole hbottom htop hmiddle ⊢
  obtain ⟨l0, l1⟩ := (cea_corner_lats hdim).1 hpole
  rw [cea_pixelToSky] at hbottom htop hmiddle
  have d1 : (0 : ℝ) < bbox.dim.x := by exact_mod_cast hdim.1
  have hc : 0 < cos (scale * bbox.dim.x / 2) := cos_pos_of_mem_Ioo ⟨by have := mul_pos hs d1; linarith [pi_pos], by linarith⟩
  rw [cea_polygon h0 hs flipX hdim hwidth rfl rfl rfl l0 l1 s hs1]
  subst hbottom htop hmiddle
  obtain ⟨j, hj⟩ := wrapAngle_eq (crval.lon + xmult flipX * scale * ((bbox.min.x : ℝ) + bbox.dim.x / 2 - 1 / 2 - crpix'.x))
  dsimp only
  rw [hj]
  refine and_congr_right fun _ => exists_congr fun u => and_congr_right fun _ => and_congr ?_ ?_
  · constructor
    · rintro ⟨k, hk⟩
      exact ⟨k + j, by push_cast; linarith⟩
    · rintro ⟨k, hk⟩
      exact ⟨k - j, by push_cast; linarith⟩
  · rw [div_le_iff₀ hc, le_div_iff₀ hc]

/-- C66: with the projection CEA, a reference position on the equator and no rotation, the outer polygon of a tract contains every position that
the tract contains, if the tract contains its reference position, is less than 180 degrees wide and does not reach a pole. -/
theorem C66_tract (h : TractInfo.new env ops b₀ a = .ok (t, b)) (hf : WcsFactory.new scale "CEA" 0 flipX = .ok f) (hs : 0 < scale)
    (hw : a.wcs = f.makeWcs other crpix crval) (h0 : crval.lat = 0) (hc : t.contains crval = true) (hwidth : scale * t.getBBox.dim.x < π)
    (hpole : ∀ v ∈ t.getOuterSkyPolygon, |v.lat| < π / 2) {s : SpherePoint ℝ} (hs1 : |s.lat| ≤ π / 2) (hin : t.contains s = true) :
    InPolygon t.getOuterSkyPolygon s := by
  rw [WcsFactory.makeWcs_eq (P := .CEA) hf rfl] at hw
  obtain ⟨crpix', e⟩ := TractInfo.new_wcs h hw
  unfold TractInfo.contains at hc hin
  rw [e, cea_crval h0 hs] at hc
  rw [e] at hin
  change InPolygon (makeSkyPolygonFromBBox t.getBBox t.wcs) s
  change ∀ c ∈ makeSkyPolygonFromBBox t.getBBox t.wcs, _ at hpole
  rw [e] at hpole ⊢
  obtain ⟨l0, l1⟩ := (cea_corner_lats (Box2I.contains_dim hc)).1 hpole
  have hac := Box2I.area_of_contains hc
  cases hq : (makeSkyWcs crpix' crval (makeCdMatrix scale 0 flipX) .CEA).skyToPixel s with
  | raises => rw [hq] at hin; simp at hin
  | nonfinite => rw [hq] at hin; simp at hin
  | pix q =>
    rw [hq] at hin
    exact cea_outer (border := 0) h0 hs (Box2I.contains_dim hc) hwidth l0 l1 le_rfl le_rfl le_rfl le_rfl (.inl hac.2.2.1) (.inl hac.2.2.2) hs1 hq
      (Box2I.area_of_contains hin)

/-- C66: with the projection CEA, the outer polygon of a patch contains every position whose pixel is in the patch's inner box, if the tract
contains its reference position, the patch does not reach a pole, and its border is not too small for its width. -/
theorem C66_patch (h : TractInfo.new env ops b₀ a = .ok (t, b)) (hx : 0 < b₀.patchInnerDimensions.x) (hy : 0 < b₀.patchInnerDimensions.y)
    (hb : 0 ≤ b₀.patchBorder) (hf : WcsFactory.new scale "CEA" 0 flipX = .ok f) (hs : 0 < scale)
    (hw : a.wcs = f.makeWcs other crpix crval) (h0 : crval.lat = 0) (hc : t.contains crval = true) {i : Index2D}
    {p : PatchInfo (Wcs (SpherePoint ℝ) ℝ)} (hp : t.getPatchInfo b (.index2D i) = .ok p)
    (hwidth : scale * (b₀.patchInnerDimensions.x + 2 * b₀.patchBorder) < π)
    (hbx : scale * ((b₀.patchInnerDimensions.x : ℝ) + 2 * b₀.patchBorder) ^ 2 ≤ 8 * b₀.patchBorder)
    {w : Option (Wcs (SpherePoint ℝ) ℝ)} (hw' : w = none ∨ w = some t.wcs)
    (hpole : ∀ v ∈ p.getOuterSkyPolygon w, |v.lat| < π / 2) {s : SpherePoint ℝ} (hs1 : |s.lat| ≤ π / 2)
    {px : Point2I} (hpx : t.wcs.PixelOf s px) (hin : p.innerBBox.contains px = true) : InPolygon (p.getOuterSkyPolygon w) s := by
  obtain ⟨S, e2, e3⟩ := (TractInfo.new_built h hx hy).patchSides hb hp
  rw [WcsFactory.makeWcs_eq (P := .CEA) hf rfl] at hw
  obtain ⟨crpix', e⟩ := TractInfo.new_wcs h hw
  have ew : w.getD p.wcs = t.wcs := by
    rw [e2]
    rcases hw' with rfl | rfl <;> rfl
  unfold PatchInfo.getOuterSkyPolygon getSkyPolygon at hpole ⊢
  rw [ew, e] at hpole ⊢
  unfold TractInfo.contains at hc
  rw [e, cea_crval h0 hs] at hc
  have ha : t.bbox.Area crpix' := Box2I.area_of_contains hc
  obtain ⟨q, hq, rfl⟩ := hpx
  rw [e] at hq
  obtain ⟨l0, l1⟩ := (cea_corner_lats ⟨S.dx, S.dy⟩).1 hpole
  have d1 : (p.outerBBox.dim.x : ℝ) ≤ b₀.patchInnerDimensions.x + 2 * b₀.patchBorder := by
    have := S.wx
    rw [e3] at this
    exact_mod_cast this
  have p1 : (0 : ℝ) < p.outerBBox.dim.x := by exact_mod_cast S.dx
  have hbx' : scale * (p.outerBBox.dim.x : ℝ) ^ 2 ≤ 8 * b₀.patchBorder :=
    (mul_le_mul_of_nonneg_left (pow_le_pow_left₀ p1.le d1 2) hs.le).trans hbx
  refine cea_outer (border := b₀.patchBorder) h0 hs ⟨S.dx, S.dy⟩ ((mul_le_mul_of_nonneg_left d1 hs.le).trans_lt hwidth) l0 l1
    S.x0 S.x1 S.y0 S.y1 ?_ ?_ hs1 hq (Box2I.area_of_contains hin)
  · exact S.bottom.symm.imp (fun h => by rw [h]; exact ha.2.2.1) (fun h => ⟨by exact_mod_cast h, hbx'⟩)
  · refine S.top.symm.imp (fun h => ?_) (fun h => ⟨by exact_mod_cast h, hbx'⟩)
    have : (p.outerBBox.min.y : ℝ) + p.outerBBox.dim.y = t.bbox.min.y + t.bbox.dim.y := by exact_mod_cast h
    rw [this]; exact ha.2.2.2

/-- The middle of the bottom edge of a box north of the equator. -/
theorem cea_gap {crpix : P2 ℝ} {c : SpherePoint ℝ} (hc : c.lat = 0) {scale : ℝ} (hs : 0 < scale) {flipX : Bool} {bbox : Box2I}
    (hdim : 0 < bbox.dim.x ∧ 0 < bbox.dim.y) (hw : scale * bbox.dim.x < π) (hnorth : crpix.y < (bbox.min.y : ℝ) - 1 / 2)
    (l0 : |arcsin (scale * ((bbox.min.y : ℝ) - 1 / 2 - crpix.y))| < π / 2)
    (l1 : |arcsin (scale * ((bbox.min.y : ℝ) + bbox.dim.y - 1 / 2 - crpix.y))| < π / 2) {s : SpherePoint ℝ}
    (es : s = (makeSkyWcs crpix c (makeCdMatrix scale 0 flipX) .CEA).pixelToSky
      ⟨(bbox.min.x : ℝ) + bbox.dim.x / 2 - 1 / 2, (bbox.min.y : ℝ) - 1 / 2⟩) :
    ¬ InPolygon (makeSkyPolygonFromBBox bbox (makeSkyWcs crpix c (makeCdMatrix scale 0 flipX) .CEA)) s := by
  have hp := pi_pos
  rw [cea_pixelToSky] at es
  have hs1 : |s.lat| ≤ π / 2 := by rw [es]; exact l0.le
  rw [cea_polygon hc hs flipX hdim hw rfl rfl rfl l0 l1 s hs1]
  rintro ⟨-, u, hu, ⟨k, hk⟩, hlo, -⟩
  have d1 : (0 : ℝ) < bbox.dim.x := by exact_mod_cast hdim.1
  have hδ : 0 < scale * bbox.dim.x / 2 := by positivity
  have hcu : cos u = 1 := by
    have e1 : u = s.lon - (c.lon + xmult flipX * scale * ((bbox.min.x : ℝ) + bbox.dim.x / 2 - 1 / 2 - crpix.x)) - k * (2 * π) := by linarith
    rw [e1, cos_sub_int_mul_two_pi, es]
    dsimp only
    rw [cos_wrap_sub, sub_self, cos_zero]
  have hlt : cos (scale * bbox.dim.x / 2) < 1 := by
    have := cos_lt_cos_of_nonneg_of_le_pi le_rfl (by linarith) hδ
    rwa [cos_zero] at this
  have ht : 0 < tan s.lat := by
    refine tan_pos_of_pos_of_lt_pi_div_two ?_ ?_
    · rw [es]; exact arcsin_pos.2 (mul_pos hs (by linarith))
    · rw [es]; exact (abs_lt.1 l0).2
  have e2 : arcsin (scale * ((bbox.min.y : ℝ) - 1 / 2 - crpix.y)) = s.lat := by rw [es]
  rw [e2, hcu] at hlo
  have := mul_lt_mul_of_pos_left hlt ht
  linarith

/-- Just below the top edge of a box south of the equator, in the middle: a position with a pixel of the top row that is not in the polygon. -/
theorem cea_gap_south {crpix : P2 ℝ} {c : SpherePoint ℝ} (hc : c.lat = 0) {scale : ℝ} (hs : 0 < scale) {flipX : Bool} {bbox : Box2I}
    (hdim : 0 < bbox.dim.x ∧ 0 < bbox.dim.y) (hw : scale * bbox.dim.x < π) (hsouth : (bbox.min.y : ℝ) + bbox.dim.y - 1 / 2 < crpix.y)
    (l0 : |arcsin (scale * ((bbox.min.y : ℝ) - 1 / 2 - crpix.y))| < π / 2)
    (l1 : |arcsin (scale * ((bbox.min.y : ℝ) + bbox.dim.y - 1 / 2 - crpix.y))| < π / 2) :
    ∃ y : ℝ, (bbox.min.y : ℝ) + bbox.dim.y - 3 / 2 ≤ y ∧ y < (bbox.min.y : ℝ) + bbox.dim.y - 1 / 2 ∧ |scale * (y - crpix.y)| < 1 ∧
      ¬ InPolygon (makeSkyPolygonFromBBox bbox (makeSkyWcs crpix c (makeCdMatrix scale 0 flipX) .CEA))
        ((makeSkyWcs crpix c (makeCdMatrix scale 0 flipX) .CEA).pixelToSky ⟨(bbox.min.x : ℝ) + bbox.dim.x / 2 - 1 / 2, y⟩) := by
  have hp := pi_pos
  have d1 : (0 : ℝ) < bbox.dim.x := by exact_mod_cast hdim.1
  have d2 : (1 : ℝ) ≤ bbox.dim.y := by exact_mod_cast hdim.2
  have hδ : 0 < scale * bbox.dim.x / 2 := by positivity
  have hcos : 0 < cos (scale * bbox.dim.x / 2) := cos_pos_of_mem_Ioo ⟨by linarith, by linarith⟩
  have hlt : cos (scale * bbox.dim.x / 2) < 1 := by
    have := cos_lt_cos_of_nonneg_of_le_pi le_rfl (by linarith) hδ
    rwa [cos_zero] at this
  -- the bounds of the projection
  have b0 : -1 < scale * ((bbox.min.y : ℝ) - 1 / 2 - crpix.y) := neg_pi_div_two_lt_arcsin.1 (abs_lt.1 l0).1
  have top : scale * ((bbox.min.y : ℝ) + bbox.dim.y - 1 / 2 - crpix.y) < 0 := mul_neg_of_pos_of_neg hs (by linarith)
  have below : ∀ y : ℝ, (bbox.min.y : ℝ) + bbox.dim.y - 3 / 2 ≤ y → y < (bbox.min.y : ℝ) + bbox.dim.y - 1 / 2 → |scale * (y - crpix.y)| < 1 := by
    intro y h1 h2
    have h3 := mul_le_mul_of_nonneg_left (show (bbox.min.y : ℝ) - 1 / 2 - crpix.y ≤ y - crpix.y by linarith) hs.le
    have h4 := mul_lt_mul_of_pos_left (show y - crpix.y < (bbox.min.y : ℝ) + bbox.dim.y - 1 / 2 - crpix.y by linarith) hs
    rw [abs_lt]; constructor <;> linarith
  -- continuity at the top edge
  set Y : ℝ := (bbox.min.y : ℝ) + bbox.dim.y - 1 / 2 with hY
  have hφ : arcsin (scale * (Y - crpix.y)) < 0 := arcsin_lt_zero.2 top
  have htan : tan (arcsin (scale * (Y - crpix.y))) < 0 := tan_neg_of_neg_of_pi_div_two_lt hφ (abs_lt.1 l1).1
  have hcont : ContinuousAt (fun y : ℝ => tan (arcsin (scale * (y - crpix.y))) * cos (scale * bbox.dim.x / 2)) Y := by
    have h1 : ContinuousAt tan (arcsin (scale * (Y - crpix.y))) :=
      continuousAt_tan.2 (cos_pos_of_mem_Ioo (abs_lt.1 l1)).ne'
    have h2 : ContinuousAt (fun y : ℝ => arcsin (scale * (y - crpix.y))) Y := by fun_prop
    exact (ContinuousAt.comp (f := fun y : ℝ => arcsin (scale * (y - crpix.y))) h1 h2).mul continuousAt_const
  have hgt : tan (arcsin (scale * (Y - crpix.y))) < tan (arcsin (scale * (Y - crpix.y))) * cos (scale * bbox.dim.x / 2) := by
    nlinarith
  have ev := hcont.eventually (lt_mem_nhds hgt)
  obtain ⟨ε, hε, hball⟩ := Metric.eventually_nhds_iff.1 ev
  refine ⟨Y - min (ε / 2) 1, by have := min_le_right (ε / 2) 1; linarith, by have : 0 < min (ε / 2) 1 := by positivity
                                                                             linarith, ?_, ?_⟩
  · exact below _ (by have := min_le_right (ε / 2) 1; linarith) (by have : 0 < min (ε / 2) 1 := by positivity
                                                                    linarith)
  · have hm : 0 < min (ε / 2) 1 := by positivity
    have hm2 := min_le_left (ε / 2) 1
    have hm3 := min_le_right (ε / 2) 1
    have hyt := hball (y := Y - min (ε / 2) 1) (by rw [Real.dist_eq, show Y - min (ε / 2) 1 - Y = -min (ε / 2) 1 by ring, abs_neg, abs_of_pos hm]; linarith)
    have hb := below (Y - min (ε / 2) 1) (by linarith) (by linarith)
    generalize Y - min (ε / 2) 1 = y at hyt hb ⊢
    obtain ⟨s, es⟩ : ∃ s, s = (makeSkyWcs crpix c (makeCdMatrix scale 0 flipX) .CEA).pixelToSky ⟨(bbox.min.x : ℝ) + bbox.dim.x / 2 - 1 / 2, y⟩ := ⟨_, rfl⟩
    rw [← es]
    rw [cea_pixelToSky] at es
    have hsl : s.lat = arcsin (scale * (y - crpix.y)) := by rw [es]
    have hs1 : |s.lat| ≤ π / 2 := by rw [hsl]; exact abs_le.2 ⟨neg_pi_div_two_le_arcsin _, arcsin_le_pi_div_two _⟩
    rw [cea_polygon hc hs flipX hdim hw rfl rfl rfl l0 l1 s hs1]
    rintro ⟨-, u, hu, ⟨k, hk⟩, -, hhi⟩
    have hcu : cos u = 1 := by
      have e1 : u = s.lon - (c.lon + xmult flipX * scale * ((bbox.min.x : ℝ) + bbox.dim.x / 2 - 1 / 2 - crpix.x)) - k * (2 * π) := by linarith
      rw [e1, cos_sub_int_mul_two_pi, es]
      dsimp only
      rw [cos_wrap_sub, sub_self, cos_zero]
    rw [hcu, hsl, mul_one, ← hY] at hhi
    linarith

/-- C66: the tract has to reach the equator: with the projection CEA, every tract north of the equator (less than 180 degrees wide, not reaching
the pole, its middle in the range of the projection) contains a position that is not in its polygon. -/
theorem C66_tract_gap (h : TractInfo.new env ops b₀ a = .ok (t, b)) (hf : WcsFactory.new scale "CEA" 0 flipX = .ok f) (hs : 0 < scale)
    (hw : a.wcs = f.makeWcs other crpix crval) (h0 : crval.lat = 0) (hd : 0 < t.getBBox.dim.x ∧ 0 < t.getBBox.dim.y) (hwidth : scale * t.getBBox.dim.x < π)
    (hpole : ∀ v ∈ t.getOuterSkyPolygon, |v.lat| < π / 2) {r : P2 ℝ} (hr : t.wcs.skyToPixel crval = .pix r)
    (hnorth : r.y < (t.getBBox.min.y : ℝ) - 1 / 2) (hmid : |scale * ((t.getBBox.min.x : ℝ) + t.getBBox.dim.x / 2 - 1 / 2 - r.x)| < π) :
    ∃ s, t.contains s = true ∧ ¬ InPolygon t.getOuterSkyPolygon s := by
  rw [WcsFactory.makeWcs_eq (P := .CEA) hf rfl] at hw
  obtain ⟨crpix', e⟩ := TractInfo.new_wcs h hw
  rw [e, cea_crval h0 hs, PixRes.pix.injEq] at hr
  subst hr
  change ∀ c ∈ makeSkyPolygonFromBBox t.getBBox t.wcs, _ at hpole
  rw [e] at hpole
  obtain ⟨l0, l1⟩ := (cea_corner_lats hd).1 hpole
  have hrt := WcsFactory.C56_pixel_roundtrip (other := other) (P := .CEA) hf hs.ne' rfl crpix' crval
    ⟨(t.getBBox.min.x : ℝ) + t.getBBox.dim.x / 2 - 1 / 2, (t.getBBox.min.y : ℝ) - 1 / 2⟩ (fun _ => ⟨rfl, h0, by rwa [mul_comm], by
      dsimp only
      rw [mul_comm, abs_of_pos (mul_pos hs (by linarith))]
      by_contra hh
      rw [arcsin_of_one_le (not_le.1 hh).le, abs_of_pos (by positivity)] at l0
      exact lt_irrefl _ l0⟩)
  rw [WcsFactory.makeWcs_eq (P := .CEA) hf rfl] at hrt
  refine ⟨(makeSkyWcs crpix' crval (makeCdMatrix scale 0 flipX) .CEA).pixelToSky
    ⟨(t.getBBox.min.x : ℝ) + t.getBBox.dim.x / 2 - 1 / 2, (t.getBBox.min.y : ℝ) - 1 / 2⟩, ?_, ?_⟩
  · unfold TractInfo.contains
    rw [e, hrt]
    change t.getBBox.contains _ = true
    have d1 : (1 : ℝ) ≤ t.getBBox.dim.x := by exact_mod_cast hd.1
    rw [Box2I.contains_iff]
    unfold toPoint2I
    dsimp only
    have a1 : ⌊(t.getBBox.min.y : ℝ) - 1 / 2 + 1 / 2⌋ = t.getBBox.min.y := by rw [sub_add_cancel, Int.floor_intCast]
    refine ⟨Int.le_floor.2 (by linarith), Int.floor_lt.2 (by push_cast; linarith), a1.ge, by rw [a1]; omega⟩
  · change ¬ InPolygon (makeSkyPolygonFromBBox t.getBBox t.wcs) _
    rw [e]
    exact cea_gap h0 hs hd hwidth hnorth l0 l1 rfl

/-- C66: borders are needed: with the projection CEA there is, for every patch north of the equator (less than 180 degrees wide, not reaching the
pole, its middle in the range of the projection), a position whose pixel is in the patch's inner box, for which `findPatch` finds the patch, but which is
not in its inner polygon; without border it is not in its outer polygon either. -/
theorem C66_patch_gap (he : env.Ok) (h : TractInfo.new env ops b₀ a = .ok (t, b)) (hx : 0 < b₀.patchInnerDimensions.x) (hy : 0 < b₀.patchInnerDimensions.y)
    (hb : 0 ≤ b₀.patchBorder) (hf : WcsFactory.new scale "CEA" 0 flipX = .ok f) (hs : 0 < scale)
    (hw : a.wcs = f.makeWcs other crpix crval) (h0 : crval.lat = 0) (sx : t.getBBox.dim.x < 2 ^ 53) (sy : t.getBBox.dim.y < 2 ^ 53)
    {i : Index2D} {p : PatchInfo (Wcs (SpherePoint ℝ) ℝ)} (hp : t.getPatchInfo b (.index2D i) = .ok p)
    (hwidth : scale * b₀.patchInnerDimensions.x < π) (hpole : ∀ v ∈ p.getInnerSkyPolygon none, |v.lat| < π / 2)
    {r : P2 ℝ} (hr : t.wcs.skyToPixel crval = .pix r) (hnorth : r.y < (p.innerBBox.min.y : ℝ) - 1 / 2)
    (hmid : |scale * ((p.innerBBox.min.x : ℝ) + p.innerBBox.dim.x / 2 - 1 / 2 - r.x)| < π) :
    ∃ s px, t.wcs.PixelOf s px ∧ p.innerBBox.contains px = true ∧ t.findPatch env b s = .ok p ∧ ¬ InPolygon (p.getInnerSkyPolygon none) s ∧
      (b₀.patchBorder = 0 → ¬ InPolygon (p.getOuterSkyPolygon none) s) := by
  have B := TractInfo.new_built h hx hy
  obtain ⟨S, e2, e3⟩ := B.patchSides hb hp
  rw [WcsFactory.makeWcs_eq (P := .CEA) hf rfl] at hw
  obtain ⟨crpix', e⟩ := TractInfo.new_wcs h hw
  rw [e, cea_crval h0 hs, PixRes.pix.injEq] at hr
  subst hr
  have hdx : 0 < p.innerBBox.dim.x := by rw [e3]; exact hx
  have hdy : 0 < p.innerBBox.dim.y := by rw [e3]; exact hy
  have d1 : (1 : ℝ) ≤ p.innerBBox.dim.x := by exact_mod_cast hdx
  unfold PatchInfo.getInnerSkyPolygon getSkyPolygon at hpole
  rw [Option.getD_none, e2, e] at hpole
  obtain ⟨l0, l1⟩ := (cea_corner_lats ⟨hdx, hdy⟩).1 hpole
  have hrt := WcsFactory.C56_pixel_roundtrip (other := other) (P := .CEA) hf hs.ne' rfl crpix' crval
    ⟨(p.innerBBox.min.x : ℝ) + p.innerBBox.dim.x / 2 - 1 / 2, (p.innerBBox.min.y : ℝ) - 1 / 2⟩ (fun _ => ⟨rfl, h0, by rwa [mul_comm], by
      dsimp only
      rw [mul_comm, abs_of_pos (mul_pos hs (by linarith))]
      by_contra hh
      rw [arcsin_of_one_le (not_le.1 hh).le, abs_of_pos (by positivity)] at l0
      exact lt_irrefl _ l0⟩)
  rw [WcsFactory.makeWcs_eq (P := .CEA) hf rfl] at hrt
  have hgap := cea_gap h0 hs ⟨hdx, hdy⟩ (by rw [e3]; exact hwidth) hnorth l0 l1 (s := (makeSkyWcs crpix' crval (makeCdMatrix scale 0 flipX) .CEA).pixelToSky
    ⟨(p.innerBBox.min.x : ℝ) + p.innerBBox.dim.x / 2 - 1 / 2, (p.innerBBox.min.y : ℝ) - 1 / 2⟩) rfl
  generalize (makeSkyWcs crpix' crval (makeCdMatrix scale 0 flipX) .CEA).pixelToSky
    ⟨(p.innerBBox.min.x : ℝ) + p.innerBBox.dim.x / 2 - 1 / 2, (p.innerBBox.min.y : ℝ) - 1 / 2⟩ = s at hrt hgap
  have hin : p.innerBBox.contains (toPoint2I (⟨(p.innerBBox.min.x : ℝ) + p.innerBBox.dim.x / 2 - 1 / 2, (p.innerBBox.min.y : ℝ) - 1 / 2⟩ : P2 ℝ)) = true := by
    rw [Box2I.contains_iff]
    unfold toPoint2I
    dsimp only
    have a1 : ⌊(p.innerBBox.min.y : ℝ) - 1 / 2 + 1 / 2⌋ = p.innerBBox.min.y := by
      rw [sub_add_cancel, Int.floor_intCast]
    refine ⟨Int.le_floor.2 (by linarith), Int.floor_lt.2 (by push_cast; linarith), a1.ge, by rw [a1]; omega⟩
  have hpx : t.wcs.PixelOf s (toPoint2I (⟨(p.innerBBox.min.x : ℝ) + p.innerBBox.dim.x / 2 - 1 / 2, (p.innerBBox.min.y : ℝ) - 1 / 2⟩ : P2 ℝ)) :=
    ⟨_, by rw [e]; exact hrt, rfl⟩
  have hpoly : ¬ InPolygon (p.getInnerSkyPolygon none) s := by
    unfold PatchInfo.getInnerSkyPolygon getSkyPolygon
    rw [Option.getD_none, e2, e]
    exact hgap
  refine ⟨s, _, hpx, hin, B.findPatch_of_inner he h hx hy hb sx sy hp hpx hin, hpoly, fun h0 => ?_⟩
  unfold PatchInfo.getOuterSkyPolygon
  rw [S.outer_eq h0]
  exact hpoly

/-- C66: likewise every tract south of the equator (less than 180 degrees wide, not reaching
the pole, its middle in the range of the projection) contains a position that is not in its polygon. -/
theorem C66_tract_gap_south (h : TractInfo.new env ops b₀ a = .ok (t, b)) (hf : WcsFactory.new scale "CEA" 0 flipX = .ok f) (hs : 0 < scale)
    (hw : a.wcs = f.makeWcs other crpix crval) (h0 : crval.lat = 0) (hd : 0 < t.getBBox.dim.x ∧ 0 < t.getBBox.dim.y) (hwidth : scale * t.getBBox.dim.x < π)
    (hpole : ∀ v ∈ t.getOuterSkyPolygon, |v.lat| < π / 2) {r : P2 ℝ} (hr : t.wcs.skyToPixel crval = .pix r)
    (hsouth : (t.getBBox.min.y : ℝ) + t.getBBox.dim.y - 1 / 2 < r.y) (hmid : |scale * ((t.getBBox.min.x : ℝ) + t.getBBox.dim.x / 2 - 1 / 2 - r.x)| < π) :
    ∃ s, t.contains s = true ∧ ¬ InPolygon t.getOuterSkyPolygon s := by
  rw [WcsFactory.makeWcs_eq (P := .CEA) hf rfl] at hw
  obtain ⟨crpix', e⟩ := TractInfo.new_wcs h hw
  rw [e, cea_crval h0 hs, PixRes.pix.injEq] at hr
  subst hr
  change ∀ c ∈ makeSkyPolygonFromBBox t.getBBox t.wcs, _ at hpole
  rw [e] at hpole
  obtain ⟨l0, l1⟩ := (cea_corner_lats hd).1 hpole
  obtain ⟨y, y0, y1, HY, hgap⟩ := cea_gap_south (flipX := flipX) h0 hs hd hwidth hsouth l0 l1
  have hrt := WcsFactory.C56_pixel_roundtrip (other := other) (P := .CEA) hf hs.ne' rfl crpix' crval
    ⟨(t.getBBox.min.x : ℝ) + t.getBBox.dim.x / 2 - 1 / 2, y⟩ (fun _ => ⟨rfl, h0, by rwa [mul_comm], by rw [mul_comm]; exact HY.le⟩)
  rw [WcsFactory.makeWcs_eq (P := .CEA) hf rfl] at hrt
  refine ⟨(makeSkyWcs crpix' crval (makeCdMatrix scale 0 flipX) .CEA).pixelToSky ⟨(t.getBBox.min.x : ℝ) + t.getBBox.dim.x / 2 - 1 / 2, y⟩, ?_, ?_⟩
  · unfold TractInfo.contains
    rw [e, hrt]
    change t.getBBox.contains _ = true
    have d1 : (1 : ℝ) ≤ t.getBBox.dim.x := by exact_mod_cast hd.1
    have d2 : (1 : ℝ) ≤ t.getBBox.dim.y := by exact_mod_cast hd.2
    rw [Box2I.contains_iff]
    unfold toPoint2I
    dsimp only
    exact ⟨Int.le_floor.2 (by linarith), Int.floor_lt.2 (by push_cast; linarith), Int.le_floor.2 (by linarith), Int.floor_lt.2 (by push_cast; linarith)⟩
  · change ¬ InPolygon (makeSkyPolygonFromBBox t.getBBox t.wcs) _
    rw [e]
    exact hgap

/-- C66: likewise for every patch south of the equator (less than 180 degrees wide, not reaching the
pole, its middle in the range of the projection), a position whose pixel is in the patch's inner box, for which `findPatch` finds the patch, but which is
not in its inner polygon; without border it is not in its outer polygon either. -/
theorem C66_patch_gap_south (he : env.Ok) (h : TractInfo.new env ops b₀ a = .ok (t, b)) (hx : 0 < b₀.patchInnerDimensions.x) (hy : 0 < b₀.patchInnerDimensions.y)
    (hb : 0 ≤ b₀.patchBorder) (hf : WcsFactory.new scale "CEA" 0 flipX = .ok f) (hs : 0 < scale)
    (hw : a.wcs = f.makeWcs other crpix crval) (h0 : crval.lat = 0) (sx : t.getBBox.dim.x < 2 ^ 53) (sy : t.getBBox.dim.y < 2 ^ 53)
    {i : Index2D} {p : PatchInfo (Wcs (SpherePoint ℝ) ℝ)} (hp : t.getPatchInfo b (.index2D i) = .ok p)
    (hwidth : scale * b₀.patchInnerDimensions.x < π) (hpole : ∀ v ∈ p.getInnerSkyPolygon none, |v.lat| < π / 2)
    {r : P2 ℝ} (hr : t.wcs.skyToPixel crval = .pix r) (hsouth : (p.innerBBox.min.y : ℝ) + p.innerBBox.dim.y - 1 / 2 < r.y)
    (hmid : |scale * ((p.innerBBox.min.x : ℝ) + p.innerBBox.dim.x / 2 - 1 / 2 - r.x)| < π) :
    ∃ s px, t.wcs.PixelOf s px ∧ p.innerBBox.contains px = true ∧ t.findPatch env b s = .ok p ∧ ¬ InPolygon (p.getInnerSkyPolygon none) s ∧
      (b₀.patchBorder = 0 → ¬ InPolygon (p.getOuterSkyPolygon none) s) := by
  have B := TractInfo.new_built h hx hy
  obtain ⟨S, e2, e3⟩ := B.patchSides hb hp
  rw [WcsFactory.makeWcs_eq (P := .CEA) hf rfl] at hw
  obtain ⟨crpix', e⟩ := TractInfo.new_wcs h hw
  rw [e, cea_crval h0 hs, PixRes.pix.injEq] at hr
  subst hr
  have hdx : 0 < p.innerBBox.dim.x := by rw [e3]; exact hx
  have hdy : 0 < p.innerBBox.dim.y := by rw [e3]; exact hy
  have d1 : (1 : ℝ) ≤ p.innerBBox.dim.x := by exact_mod_cast hdx
  unfold PatchInfo.getInnerSkyPolygon getSkyPolygon at hpole
  rw [Option.getD_none, e2, e] at hpole
  obtain ⟨l0, l1⟩ := (cea_corner_lats ⟨hdx, hdy⟩).1 hpole
  obtain ⟨y, y0, y1, HY, hgap⟩ := cea_gap_south (flipX := flipX) h0 hs ⟨hdx, hdy⟩ (by rw [e3]; exact hwidth) hsouth l0 l1
  have hrt := WcsFactory.C56_pixel_roundtrip (other := other) (P := .CEA) hf hs.ne' rfl crpix' crval
    ⟨(p.innerBBox.min.x : ℝ) + p.innerBBox.dim.x / 2 - 1 / 2, y⟩ (fun _ => ⟨rfl, h0, by rwa [mul_comm], by rw [mul_comm]; exact HY.le⟩)
  rw [WcsFactory.makeWcs_eq (P := .CEA) hf rfl] at hrt
  generalize (makeSkyWcs crpix' crval (makeCdMatrix scale 0 flipX) .CEA).pixelToSky
    ⟨(p.innerBBox.min.x : ℝ) + p.innerBBox.dim.x / 2 - 1 / 2, y⟩ = s at hrt hgap
  have hin : p.innerBBox.contains (toPoint2I (⟨(p.innerBBox.min.x : ℝ) + p.innerBBox.dim.x / 2 - 1 / 2, y⟩ : P2 ℝ)) = true := by
    have d2 : (1 : ℝ) ≤ p.innerBBox.dim.y := by exact_mod_cast hdy
    rw [Box2I.contains_iff]
    unfold toPoint2I
    dsimp only
    exact ⟨Int.le_floor.2 (by linarith), Int.floor_lt.2 (by push_cast; linarith), Int.le_floor.2 (by linarith), Int.floor_lt.2 (by push_cast; linarith)⟩
  have hpx : t.wcs.PixelOf s (toPoint2I (⟨(p.innerBBox.min.x : ℝ) + p.innerBBox.dim.x / 2 - 1 / 2, y⟩ : P2 ℝ)) :=
    ⟨_, by rw [e]; exact hrt, rfl⟩
  have hpoly : ¬ InPolygon (p.getInnerSkyPolygon none) s := by
    unfold PatchInfo.getInnerSkyPolygon getSkyPolygon
    rw [Option.getD_none, e2, e]
    exact hgap
  refine ⟨s, _, hpx, hin, B.findPatch_of_inner he h hx hy hb sx sy hp hpx hin, hpoly, fun h0 => ?_⟩
  unfold PatchInfo.getOuterSkyPolygon
  rw [S.outer_eq h0]
  exact hpoly

end tract

end Skymap
