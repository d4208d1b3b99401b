import Verif.Lemmas.Wcs
import Mathlib.Analysis.Real.Pi.Bounds

/-!
# C56: the WCS that `WcsFactory` makes

For the projections TAN, STG and CEA, in exact arithmetic.
-/

namespace Skymap
open Real

namespace Projection

/-- The distance from the reference position up to which a zenithal projection is defined. -/
noncomputable def limit : Projection → ℝ
  | .TAN => π / 2
  | .STG => π
  | .CEA => 0

/-- The plane distance from the reference position of a position at the given angular distance (zenithal projections). -/
noncomputable def radius : Projection → ℝ → ℝ
  | .TAN, r => tan r
  | .STG, r => 2 * tan (r / 2)
  | .CEA, _ => 0

theorem radius_zero (P : Projection) : P.radius 0 = 0 := by cases P <;> simp [radius]

theorem radius_strictMono (P : Projection) {a b : ℝ} (ha : 0 ≤ a) (hab : a < b) (hb : b < P.limit) : P.radius a < P.radius b := by
  cases P with
  | TAN => exact tan_lt_tan_of_nonneg_of_lt_pi_div_two ha hb hab
  | STG =>
    have := tan_lt_tan_of_nonneg_of_lt_pi_div_two (x := a / 2) (y := b / 2) (by linarith)
      (by have : b < π := hb; linarith) (by linarith)
    simp only [radius]; linarith
  | CEA => have : b < 0 := hb; linarith

theorem radius_mono (P : Projection) {a b : ℝ} (ha : 0 ≤ a) (hab : a ≤ b) (hb : b < P.limit) : P.radius a ≤ P.radius b := by
  rcases hab.eq_or_lt with rfl | h
  · exact le_rfl
  · exact (radius_strictMono P ha h hb).le

theorem radius_nonneg (P : Projection) {a : ℝ} (ha : 0 ≤ a) (hb : a < P.limit) : 0 ≤ P.radius a := by
  rw [← P.radius_zero]; exact P.radius_mono le_rfl ha hb

/-- Positions within the limit are projected along their bearing, at the distance that depends on their separation. -/
theorem toPlane_zenithal (P : Projection) {c p : SpherePoint ℝ} (h : greatCircle c p < P.limit) :
    ∃ f, 0 < f ∧ P.toPlane c p = some ⟨f * eastOf c p, f * northOf c p⟩ ∧ f * sin (greatCircle c p) = P.radius (greatCircle c p) ∧
      eastOf c p ^ 2 + northOf c p ^ 2 = sin (greatCircle c p) ^ 2 := by
  have hr := cosSep_range c p
  have hd0 : 0 ≤ greatCircle c p := arccos_nonneg _
  have hcos : cos (greatCircle c p) = cosSep c p := cos_arccos hr.1 hr.2
  have hsq : eastOf c p ^ 2 + northOf c p ^ 2 = sin (greatCircle c p) ^ 2 := by
    have := local_sq c p
    have := sin_sq_add_cos_sq (greatCircle c p)
    rw [hcos] at this; linarith
  cases P with
  | TAN =>
    have hpos : 0 < cosSep c p := by rw [← hcos]; exact cos_pos_of_mem_Ioo ⟨by linarith [pi_pos], h⟩
    refine ⟨1 / cosSep c p, by positivity, ?_, ?_, hsq⟩
    · unfold toPlane; dsimp only; rw [if_pos hpos]; congr 2 <;> ring
    · simp only [radius]; rw [tan_eq_sin_div_cos, hcos]; ring
  | STG =>
    have hpi : greatCircle c p < π := h
    have hpos : -1 < cosSep c p := by
      rw [← hcos, ← cos_pi]; exact cos_lt_cos_of_nonneg_of_le_pi hd0 le_rfl hpi
    refine ⟨2 / (1 + cosSep c p), div_pos two_pos (by linarith), ?_, ?_, hsq⟩
    · unfold toPlane; dsimp only; rw [if_pos hpos]; congr 2 <;> ring
    · simp only [radius]
      set x := greatCircle c p / 2 with hx
      have e : greatCircle c p = 2 * x := by rw [hx]; ring
      have cx : 0 < cos x := cos_pos_of_mem_Ioo ⟨by linarith [pi_pos], by linarith⟩
      rw [← hcos, e, sin_two_mul, cos_two_mul, tan_eq_sin_div_cos]
      field_simp
      ring
  | CEA => have : greatCircle c p < 0 := h; linarith

/-- The plane position of a position at a given bearing and distance. -/
theorem toPlane_offset (P : Projection) (c : SpherePoint ℝ) (b : ℝ) {r : ℝ} (h0 : 0 ≤ r) (h : r < P.limit) :
    P.toPlane c (c.offset b r) = some ⟨P.radius r * cos (b * (π / 180)), P.radius r * sin (b * (π / 180))⟩ := by
  obtain ⟨e1, e2, e3⟩ := offset_spec c b r
  have hlim : P.limit ≤ π := by cases P <;> simp only [limit] <;> linarith [pi_pos]
  have hg : greatCircle c (c.offset b r) = r := by
    unfold greatCircle; rw [e3]; exact arccos_cos h0 (by linarith)
  obtain ⟨f, -, h1, h2, -⟩ := P.toPlane_zenithal (c := c) (p := c.offset b r) (by rw [hg]; exact h)
  rw [hg] at h2
  rw [h1, e1, e2, ← h2]
  congr 2 <;> ring

/-- Every plane position is the plane position of the position it comes from: for TAN and STG everywhere, for CEA within its
rectangle. -/
theorem toPlane_fromPlane (P : Projection) (c : SpherePoint ℝ) (q : P2 ℝ)
    (hq : P = .CEA → c.lat = 0 ∧ -π < q.x ∧ q.x ≤ π ∧ -1 ≤ q.y ∧ q.y ≤ 1) : P.toPlane c (P.fromPlane c q) = some q := by
  cases P with
  | TAN =>
    have hs : 0 < √(1 + q.x ^ 2 + q.y ^ 2) := sqrt_pos.2 (by positivity)
    have hs2 := sq_sqrt (show 0 ≤ 1 + q.x ^ 2 + q.y ^ 2 by positivity)
    unfold toPlane fromPlane
    dsimp only
    set s := √(1 + q.x ^ 2 + q.y ^ 2)
    obtain ⟨h1, h2, h3⟩ := fromLocal_spec c (e := q.x / s) (n := q.y / s) (z := 1 / s) (by
      field_simp; linarith)
    rw [h1, h2, h3, if_pos (by positivity)]
    congr 2 <;> field_simp
  | STG =>
    have hs : 0 < 4 + q.x ^ 2 + q.y ^ 2 := by positivity
    unfold toPlane fromPlane
    dsimp only
    set s := 4 + q.x ^ 2 + q.y ^ 2 with hsd
    obtain ⟨h1, h2, h3⟩ := fromLocal_spec c (e := 4 * q.x / s) (n := 4 * q.y / s) (z := (4 - q.x ^ 2 - q.y ^ 2) / s) (by
      field_simp; rw [hsd]; ring)
    have h4 : 1 + (4 - q.x ^ 2 - q.y ^ 2) / s = 8 / s := by field_simp; rw [hsd]; ring
    rw [h1, h2, h3, h4, if_pos (by have : 0 < 8 / s := by positivity
                                   linarith)]
    congr 2
    · field_simp; ring
    · field_simp; ring
  | CEA =>
    obtain ⟨h0, h1, h2, h3, h4⟩ := hq rfl
    unfold toPlane fromPlane
    dsimp only
    rw [if_pos h0, cos_wrap_sub, sin_wrap_sub, sin_arcsin h3 h4, show c.lon + q.x - c.lon = q.x by ring]
    have : (⟨cos q.x, sin q.x⟩ : ℂ) = Complex.cos q.x + Complex.sin q.x * Complex.I := by
      rw [← Complex.ofReal_cos, ← Complex.ofReal_sin]
      apply Complex.ext <;> simp [-Complex.ofReal_cos, -Complex.ofReal_sin]
    rw [this, Complex.arg_cos_add_sin_mul_I ⟨h1, h2⟩]

/-- Every position that the projection is defined for comes back from its plane position. -/
theorem fromPlane_toPlane (P : Projection) {c p : SpherePoint ℝ} (hlon : 0 ≤ p.lon ∧ p.lon < 2 * π) (hlat : |p.lat| < π / 2)
    {q : P2 ℝ} (hq : P.toPlane c p = some q) : P.fromPlane c q = p := by
  have hsq := local_sq c p
  cases P with
  | TAN =>
    unfold toPlane at hq; dsimp only at hq
    split at hq
    swap; · simp at hq
    rename_i hpos
    obtain rfl := Option.some.inj hq
    unfold fromPlane
    dsimp only
    have hs : √(1 + (eastOf c p / cosSep c p) ^ 2 + (northOf c p / cosSep c p) ^ 2) = 1 / cosSep c p := by
      rw [sqrt_eq_iff_mul_self_eq (by positivity) (by positivity)]
      field_simp
      linarith
    rw [hs]
    have := fromLocal_components c hlon hlat
    convert this using 2 <;> field_simp
  | STG =>
    unfold toPlane at hq; dsimp only at hq
    split at hq
    swap; · simp at hq
    rename_i hpos
    have hpos' : 0 < 1 + cosSep c p := by linarith
    obtain rfl := Option.some.inj hq
    unfold fromPlane
    dsimp only
    have hs : (2 * eastOf c p / (1 + cosSep c p)) ^ 2 + (2 * northOf c p / (1 + cosSep c p)) ^ 2 =
        4 * (1 - cosSep c p) / (1 + cosSep c p) := by
      field_simp; linarith
    have h1 : 4 + (2 * eastOf c p / (1 + cosSep c p)) ^ 2 + (2 * northOf c p / (1 + cosSep c p)) ^ 2 = 8 / (1 + cosSep c p) := by
      rw [add_assoc, hs]; field_simp; ring
    have h2 : 4 - (2 * eastOf c p / (1 + cosSep c p)) ^ 2 - (2 * northOf c p / (1 + cosSep c p)) ^ 2 =
        8 * cosSep c p / (1 + cosSep c p) := by
      rw [sub_sub, hs]; field_simp; ring
    rw [h1, h2]
    have := fromLocal_components c hlon hlat
    convert this using 2
    · field_simp; ring
    · field_simp; ring
    · field_simp
  | CEA =>
    unfold toPlane at hq; dsimp only at hq
    split at hq
    swap; · simp at hq
    rename_i h0
    obtain rfl := Option.some.inj hq
    unfold fromPlane
    dsimp only
    have hc := fromLocal_components ⟨c.lon, 0⟩ (p := ⟨p.lon, 0⟩) hlon (by simp [pi_pos])
    unfold fromLocal eastOf northOf cosSep at hc
    simp only [sin_zero, cos_zero, mul_zero, zero_mul, zero_add, add_zero, sub_zero, one_mul, arcsin_zero, SpherePoint.mk.injEq,
      and_true] at hc
    rw [show cos (c.lon - p.lon) = cos (p.lon - c.lon) by rw [← cos_neg]; ring_nf] at hc
    have hl := abs_lt.1 hlat
    rw [hc, arcsin_sin hl.1.le hl.2.le]

end Projection

namespace WcsFactory
variable {other : P2 ℝ → SpherePoint ℝ → CdMatrix → String → Wcs (SpherePoint ℝ) ℝ} {f : WcsFactory} {scale θ : ℝ} {code : String}
  {flipX : Bool}

/-- C56: a projection code that does not have three characters is refused with RuntimeError, and no other. -/
theorem C56_projection_length (scale : ℝ) (code : String) (θ : ℝ) (flipX : Bool) :
    (code.length ≠ 3 → new scale code θ flipX = .error .RuntimeError) ∧ (code.length = 3 → ∃ f, new scale code θ flipX = .ok f) := by
  unfold new
  constructor
  · intro h; rw [if_pos h]
  · intro h; rw [if_neg (by simpa using h)]; exact ⟨_, rfl⟩

theorem new_attr (h : new scale code θ flipX = .ok f) : f.projection = code ∧ f.cdMatrix = makeCdMatrix scale θ flipX := by
  unfold new at h
  split at h
  · simp at h
  · obtain rfl := Except.ok.inj h; exact ⟨rfl, rfl⟩

theorem makeWcs_eq {P : Projection} (h : new scale code θ flipX = .ok f) (hP : Projection.ofCode code = some P) (crpix : P2 ℝ)
    (crval : SpherePoint ℝ) : f.makeWcs other crpix crval = makeSkyWcs crpix crval (makeCdMatrix scale θ flipX) P := by
  obtain ⟨h1, h2⟩ := new_attr h
  unfold makeWcs; rw [h1, hP, h2]

/-- C56: with a zenithal projection (TAN, STG), the position at distance `r` and bearing `b` (degrees from east towards north) from the
reference position is at the pixel distance `radius r / scale` from the reference pixel, in the direction `b + rotation` from the axis
that points east when there is no rotation: the negative x axis, or the positive one if `flipX`. -/
theorem C56_bearing {P : Projection} (h : new scale code θ flipX = .ok f) (hs : scale ≠ 0) (hP : Projection.ofCode code = some P)
    (crpix : P2 ℝ) (crval : SpherePoint ℝ) (b : ℝ) {r : ℝ} (h0 : 0 ≤ r) (hr : r < P.limit) :
    (f.makeWcs other crpix crval).skyToPixel (crval.offset b r) =
      .pix ⟨crpix.x + (if flipX then 1 else -1) * (P.radius r / scale * cos (b * (π / 180) + θ)),
        crpix.y + P.radius r / scale * sin (b * (π / 180) + θ)⟩ := by
  rw [makeWcs_eq h hP]
  unfold makeSkyWcs
  dsimp only
  rw [P.toPlane_offset crval b h0 hr]
  dsimp only
  rw [makeCdMatrix_solve hs, cos_add, sin_add]
  congr 2 <;> ring

/-- C56: pixel positions survive the conversion to the sky and back: all of them for TAN and STG, those of its rectangle for CEA. -/
theorem C56_pixel_roundtrip {P : Projection} (h : new scale code θ flipX = .ok f) (hs : scale ≠ 0)
    (hP : Projection.ofCode code = some P) (crpix : P2 ℝ) (crval : SpherePoint ℝ) (q : P2 ℝ)
    (hq : P = .CEA → θ = 0 ∧ crval.lat = 0 ∧ |(q.x - crpix.x) * scale| < π ∧ |(q.y - crpix.y) * scale| ≤ 1) :
    (f.makeWcs other crpix crval).skyToPixel ((f.makeWcs other crpix crval).pixelToSky q) = .pix q := by
  rw [makeWcs_eq h hP]
  unfold makeSkyWcs
  dsimp only
  rw [P.toPlane_fromPlane crval _ (by
    intro hC
    obtain ⟨a1, a2, a3, a4⟩ := hq hC
    subst a1
    unfold makeCdMatrix CdMatrix.apply
    simp only [cos_zero, sin_zero, one_mul, zero_mul, neg_zero, zero_add, add_zero]
    have a5 := abs_lt.1 a3
    have a6 := abs_le.1 a4
    refine ⟨a2, ?_, ?_, ?_, ?_⟩
    · cases flipX <;> simp only [if_true, Bool.false_eq_true, if_false] <;> linarith
    · cases flipX <;> simp only [if_true, Bool.false_eq_true, if_false] <;> linarith
    · linarith
    · linarith)]
  dsimp only
  rw [CdMatrix.solve_apply (makeCdMatrix_det hs θ flipX)]
  simp

/-- C56: sky positions (the poles excepted) survive the conversion to pixels and back wherever it gives a pixel position. -/
theorem C56_sky_roundtrip {P : Projection} (h : new scale code θ flipX = .ok f) (hs : scale ≠ 0)
    (hP : Projection.ofCode code = some P) (crpix : P2 ℝ) (crval p : SpherePoint ℝ) (hlon : 0 ≤ p.lon ∧ p.lon < 2 * π)
    (hlat : |p.lat| < π / 2) {q : P2 ℝ} (hq : (f.makeWcs other crpix crval).skyToPixel p = .pix q) :
    (f.makeWcs other crpix crval).pixelToSky q = p := by
  rw [makeWcs_eq h hP] at hq ⊢
  unfold makeSkyWcs at hq ⊢
  dsimp only at hq ⊢
  split at hq
  · simp at hq
  · rename_i w hw
    obtain rfl := PixRes.pix.inj hq
    dsimp only
    rw [add_sub_cancel_left, add_sub_cancel_left, CdMatrix.apply_solve (makeCdMatrix_det hs θ flipX)]
    exact P.fromPlane_toPlane hlon hlat hw

/-- C56 is not vacuous: an LSST tract's WCS, and a pixel that is not the reference pixel. -/
example (other) : ∃ f, new (1 / 1000000) "TAN" 0 false = .ok f ∧
    (f.makeWcs other ⟨0, 0⟩ ⟨1, 1 / 2⟩).skyToPixel ((f.makeWcs other ⟨0, 0⟩ ⟨1, 1 / 2⟩).pixelToSky ⟨100, 200⟩) = .pix ⟨100, 200⟩ := by
  obtain ⟨f, hf⟩ := (C56_projection_length (1 / 1000000) "TAN" 0 false).2 rfl
  exact ⟨f, hf, C56_pixel_roundtrip hf (by norm_num) rfl _ _ _ (by simp)⟩

/-- C56 is not vacuous: due east is towards smaller x, due north towards larger y. -/
example (other) : ∃ f, new (1 / 100) "TAN" 0 false = .ok f ∧ ∃ x y : ℝ, 0 < x ∧ 0 < y ∧
    (f.makeWcs other ⟨0, 0⟩ ⟨1, 1 / 2⟩).skyToPixel (SpherePoint.offset ⟨1, 1 / 2⟩ 0 (1 / 2)) = .pix ⟨-x, 0⟩ ∧
    (f.makeWcs other ⟨0, 0⟩ ⟨1, 1 / 2⟩).skyToPixel (SpherePoint.offset ⟨1, 1 / 2⟩ 90 (1 / 2)) = .pix ⟨0, y⟩ := by
  obtain ⟨f, hf⟩ := (C56_projection_length (1 / 100) "TAN" 0 false).2 rfl
  have hr : (1 / 2 : ℝ) < Projection.TAN.limit := by simp only [Projection.limit]; linarith [pi_gt_three]
  have ht : 0 < tan (1 / 2) := tan_pos_of_pos_of_lt_pi_div_two (by norm_num) (by linarith [pi_gt_three])
  refine ⟨f, hf, tan (1 / 2) / (1 / 100), tan (1 / 2) / (1 / 100), by positivity, by positivity, ?_, ?_⟩
  · rw [C56_bearing hf (by norm_num) rfl _ _ _ (by norm_num) hr]
    simp [Projection.radius]
  · rw [C56_bearing hf (by norm_num) rfl _ _ _ (by norm_num) hr, show (90 : ℝ) * (π / 180) = π / 2 by ring]
    simp [Projection.radius]

end WcsFactory
end Skymap
