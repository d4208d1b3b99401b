import Verif.Props.SkyPolygon

/-! # C65: on-sky polygons with the projection STG -/

set_option linter.unusedSectionVars false

namespace Skymap
open Real Matrix Dodeca SpherePoint

/-- The frame at `c`: the vector with the given components. -/
noncomputable def frameVec (c : SpherePoint ℝ) (a b k : ℝ) : Vec3 := a • c.eastVec + b • c.northVec + k • c.getVector

theorem frameVec_dot (c : SpherePoint ℝ) (a b k : ℝ) :
    frameVec c a b k ⬝ᵥ c.eastVec = a ∧ frameVec c a b k ⬝ᵥ c.northVec = b ∧ frameVec c a b k ⬝ᵥ c.getVector = k := by
  have f1 := east_unit c; have f2 := north_unit c; have f3 := vec_unit c
  have f4 := east_north c; have f5 := east_vec c; have f6 := north_vec c
  unfold frameVec
  refine ⟨?_, ?_, ?_⟩ <;> simp only [add_dotProduct, smul_dotProduct, smul_eq_mul]
  · rw [f1, dotProduct_comm c.northVec, f4, dotProduct_comm c.getVector, f5]; ring
  · rw [f4, f2, dotProduct_comm c.getVector, f6]; ring
  · rw [f5, f6, f3]; ring

/-- On which side of a plane a position with given STG plane coordinates is. -/
theorem stg_dot (c : SpherePoint ℝ) (q : P2 ℝ) (W : Vec3) : W ⬝ᵥ (Projection.STG.fromPlane c q).getVector =
    (4 * ((W ⬝ᵥ c.eastVec) * q.x + (W ⬝ᵥ c.northVec) * q.y) + (W ⬝ᵥ c.getVector) * (4 - q.x ^ 2 - q.y ^ 2)) / (4 + q.x ^ 2 + q.y ^ 2) := by
  have hs : (0 : ℝ) < 4 + q.x ^ 2 + q.y ^ 2 := by positivity
  unfold Projection.fromPlane
  dsimp only
  rw [fromLocal_dot]
  · field_simp
  · field_simp
    ring

theorem stg_sign (c : SpherePoint ℝ) (q : P2 ℝ) (W : Vec3) : 0 ≤ W ⬝ᵥ (Projection.STG.fromPlane c q).getVector ↔
    0 ≤ 4 * ((W ⬝ᵥ c.eastVec) * q.x + (W ⬝ᵥ c.northVec) * q.y) + (W ⬝ᵥ c.getVector) * (4 - q.x ^ 2 - q.y ^ 2) := by
  have hs : (0 : ℝ) < 4 + q.x ^ 2 + q.y ^ 2 := by positivity
  rw [stg_dot]
  exact ⟨fun h => by have := mul_nonneg h hs.le; rwa [div_mul_cancel₀ _ hs.ne'] at this, fun h => div_nonneg h hs.le⟩

/-- A function of two coordinates that is concave (a quadratic form subtracted from an affine function) and not negative at the corners of a
rectangle is not negative in it. -/
theorem concave_rectangle {A B C k p q r s x0 x1 y0 y1 x y : ℝ} (hk : 0 ≤ k)
    (h00 : 0 ≤ A * x0 + B * y0 + C - k * ((p * x0 + q * y0) ^ 2 + (r * x0 + s * y0) ^ 2))
    (h10 : 0 ≤ A * x1 + B * y0 + C - k * ((p * x1 + q * y0) ^ 2 + (r * x1 + s * y0) ^ 2))
    (h11 : 0 ≤ A * x1 + B * y1 + C - k * ((p * x1 + q * y1) ^ 2 + (r * x1 + s * y1) ^ 2))
    (h01 : 0 ≤ A * x0 + B * y1 + C - k * ((p * x0 + q * y1) ^ 2 + (r * x0 + s * y1) ^ 2))
    (hx0 : x0 ≤ x) (hx1 : x ≤ x1) (hy0 : y0 ≤ y) (hy1 : y ≤ y1) (hx : x0 < x1) (hy : y0 < y1) :
    0 ≤ A * x + B * y + C - k * ((p * x + q * y) ^ 2 + (r * x + s * y) ^ 2) := by
  set g : ℝ → ℝ → ℝ := fun x y => A * x + B * y + C - k * ((p * x + q * y) ^ 2 + (r * x + s * y) ^ 2) with hg
  have step1 : ∀ Y, 0 ≤ g x0 Y → 0 ≤ g x1 Y → 0 ≤ g x Y := by
    intro Y g0 g1
    have e : (x1 - x0) * g x Y = (x1 - x) * g x0 Y + (x - x0) * g x1 Y + k * (x1 - x0) * ((x - x0) * (x1 - x)) * (p ^ 2 + r ^ 2) := by
      simp only [hg]; ring
    have : 0 ≤ (x1 - x0) * g x Y := by
      rw [e]
      have := sub_nonneg.2 hx0; have := sub_nonneg.2 hx1; have := sub_pos.2 hx
      positivity
    exact nonneg_of_mul_nonneg_right this (sub_pos.2 hx)
  have e : (y1 - y0) * g x y = (y1 - y) * g x y0 + (y - y0) * g x y1 + k * (y1 - y0) * ((y - y0) * (y1 - y)) * (q ^ 2 + s ^ 2) := by
    simp only [hg]; ring
  have c0 := step1 y0 h00 h10
  have c1 := step1 y1 h01 h11
  have : 0 ≤ (y1 - y0) * g x y := by
    rw [e]
    have := sub_nonneg.2 hy0; have := sub_nonneg.2 hy1; have := sub_pos.2 hy
    positivity
  exact nonneg_of_mul_nonneg_right this (sub_pos.2 hy)

/-- Circles that stay at least the square root of `4 + |q|²` from the two left corners of a box and have their centre `q` to the left of it. -/
theorem disc_left {x0 y0 y1 x y qx qy β : ℝ} (hh : y1 - y0 ≤ 1) (hβ : (y1 - y0) ^ 2 ≤ 12 * β)
    (h0 : 4 + qx ^ 2 + qy ^ 2 ≤ (x0 - qx) ^ 2 + (y0 - qy) ^ 2) (h1 : 4 + qx ^ 2 + qy ^ 2 ≤ (x0 - qx) ^ 2 + (y1 - qy) ^ 2)
    (n0 : x0 ^ 2 + y0 ^ 2 ≤ 4) (n1 : x0 ^ 2 + y1 ^ 2 ≤ 4)
    (hx : x0 ≤ x) (hy0 : y0 ≤ y) (hy1 : y ≤ y1) (hs : β ≤ x - x0 ∨ x0 ≤ 0) (hq : qx < x0) (hq0 : y0 ≤ qy) (hq1 : qy ≤ y1) :
    4 + qx ^ 2 + qy ^ 2 ≤ (x - qx) ^ 2 + (y - qy) ^ 2 := by
  rcases hs with hs | hs
  · -- the distance of the centre from the left edge
    have hb : 0 ≤ β := by nlinarith [sq_nonneg (y1 - y0)]
    have far : 3 / 2 ≤ x0 - qx := by
      by_contra hc
      push Not at hc
      have a1 : (x0 - qx) ^ 2 ≤ (3 / 2) ^ 2 := by
        apply pow_le_pow_left₀ (by linarith) hc.le
      have a2 : (y0 - qy) ^ 2 ≤ 1 := by
        rw [← neg_sub, neg_sq]
        calc (qy - y0) ^ 2 ≤ 1 ^ 2 := pow_le_pow_left₀ (by linarith) (by linarith) 2
          _ = 1 := by norm_num
      nlinarith [sq_nonneg qx, sq_nonneg qy]
    have e1 : (y - y0) * (y1 - y) ≤ (y1 - y0) ^ 2 / 4 := by nlinarith [sq_nonneg (y1 + y0 - 2 * y)]
    -- on the left edge
    have e2 : 4 + qx ^ 2 + qy ^ 2 ≤ (x0 - qx) ^ 2 + (y - qy) ^ 2 + (y - y0) * (y1 - y) := by
      rcases hy0.eq_or_lt with e | e
      · subst e; nlinarith
      · have p : 0 < y1 - y0 := by linarith
        have i : (y1 - y0) * ((x0 - qx) ^ 2 + (y - qy) ^ 2 + (y - y0) * (y1 - y)) =
          (y1 - y) * ((x0 - qx) ^ 2 + (y0 - qy) ^ 2) + (y - y0) * ((x0 - qx) ^ 2 + (y1 - qy) ^ 2) := by ring
        have j1 := mul_le_mul_of_nonneg_left h0 (sub_nonneg.2 hy1)
        have j2 := mul_le_mul_of_nonneg_left h1 (sub_nonneg.2 hy0)
        refine le_of_mul_le_mul_left ?_ p
        rw [i]
        linarith
    have e3 : 3 * β ≤ (x - x0) * (x + x0 - 2 * qx) := by
      have : 3 ≤ x + x0 - 2 * qx := by linarith
      calc 3 * β = β * 3 := by ring
        _ ≤ _ := mul_le_mul hs this (by norm_num) (by linarith)
    nlinarith
  · exfalso
    have c0 : 2 * (x0 * qx + y0 * qy) ≤ x0 ^ 2 + y0 ^ 2 - 4 := by linarith
    have c1 : 2 * (x0 * qx + y1 * qy) ≤ x0 ^ 2 + y1 ^ 2 - 4 := by linarith
    have pq : 0 ≤ x0 * qx := mul_nonneg_of_nonpos_of_nonpos hs (by linarith)
    have d0 : y0 * qy ≤ 0 := by linarith
    have d1 : y1 * qy ≤ 0 := by linarith
    have z : qy = 0 := by
      rcases lt_trichotomy qy 0 with h | h | h
      · have : 0 < y0 * qy := mul_pos_of_neg_of_neg (by linarith) h
        linarith
      · exact h
      · have : 0 < y1 * qy := mul_pos (by linarith) h
        linarith
    subst z
    have z0 : x0 * qx = 0 := by linarith
    rcases mul_eq_zero.1 z0 with z | z
    · subst z
      nlinarith
    · linarith

/-- The same without knowing where the centre is. -/
theorem disc_box {x0 x1 y0 y1 x y qx qy β : ℝ} (hw : x1 - x0 ≤ 1) (hh : y1 - y0 ≤ 1) (hβx : (x1 - x0) ^ 2 ≤ 12 * β) (hβy : (y1 - y0) ^ 2 ≤ 12 * β)
    (h00 : 4 + qx ^ 2 + qy ^ 2 ≤ (x0 - qx) ^ 2 + (y0 - qy) ^ 2) (h10 : 4 + qx ^ 2 + qy ^ 2 ≤ (x1 - qx) ^ 2 + (y0 - qy) ^ 2)
    (h11 : 4 + qx ^ 2 + qy ^ 2 ≤ (x1 - qx) ^ 2 + (y1 - qy) ^ 2) (h01 : 4 + qx ^ 2 + qy ^ 2 ≤ (x0 - qx) ^ 2 + (y1 - qy) ^ 2)
    (n00 : x0 ^ 2 + y0 ^ 2 ≤ 4) (n10 : x1 ^ 2 + y0 ^ 2 ≤ 4) (n11 : x1 ^ 2 + y1 ^ 2 ≤ 4) (n01 : x0 ^ 2 + y1 ^ 2 ≤ 4)
    (hx0 : x0 ≤ x) (hx1 : x ≤ x1) (hy0 : y0 ≤ y) (hy1 : y ≤ y1) (sl : β ≤ x - x0 ∨ x0 ≤ 0) (sr : β ≤ x1 - x ∨ 0 ≤ x1)
    (sb : β ≤ y - y0 ∨ y0 ≤ 0) (st : β ≤ y1 - y ∨ 0 ≤ y1) :
    4 + qx ^ 2 + qy ^ 2 ≤ (x - qx) ^ 2 + (y - qy) ^ 2 := by
  have sq : ∀ {u v : ℝ}, 0 ≤ u → u ≤ v → u ^ 2 ≤ v ^ 2 := fun h0 h1 => pow_le_pow_left₀ h0 h1 2
  have neg : ∀ u v : ℝ, (-u - -v) ^ 2 = (u - v) ^ 2 := fun u v => by ring
  have neg2 : ∀ u : ℝ, (-u) ^ 2 = u ^ 2 := fun u => by ring
  rcases lt_or_ge qx x0 with a | a
  · rcases lt_or_ge qy y0 with b | b
    · have := sq (u := x0 - qx) (v := x - qx) (by linarith) (by linarith)
      have := sq (u := y0 - qy) (v := y - qy) (by linarith) (by linarith)
      linarith
    rcases lt_or_ge y1 qy with c | c
    · have := sq (u := x0 - qx) (v := x - qx) (by linarith) (by linarith)
      have := sq (u := qy - y1) (v := qy - y) (by linarith) (by linarith)
      nlinarith
    · exact disc_left hh hβy h00 h01 n00 n01 hx0 hy0 hy1 sl a b c
  rcases lt_or_ge x1 qx with a' | a'
  · rcases lt_or_ge qy y0 with b | b
    · have := sq (u := qx - x1) (v := qx - x) (by linarith) (by linarith)
      have := sq (u := y0 - qy) (v := y - qy) (by linarith) (by linarith)
      nlinarith
    rcases lt_or_ge y1 qy with c | c
    · have := sq (u := qx - x1) (v := qx - x) (by linarith) (by linarith)
      have := sq (u := qy - y1) (v := qy - y) (by linarith) (by linarith)
      nlinarith
    · have := disc_left (x0 := -x1) (x := -x) (qx := -qx) (y := y) (qy := qy) hh hβy (by rw [neg, neg2]; exact h10) (by rw [neg, neg2]; exact h11)
        (by rw [neg2]; exact n10) (by rw [neg2]; exact n11) (by linarith) hy0 hy1 (sr.imp (by intro h; linarith) (by intro h; linarith)) (by linarith) b c
      rwa [neg, neg2] at this
  rcases lt_or_ge qy y0 with b | b
  · have := disc_left (x0 := y0) (y0 := x0) (y1 := x1) (x := y) (y := x) (qx := qy) (qy := qx) hw hβx (by linarith) (by linarith)
      (by linarith) (by linarith) hy0 hx0 hx1 sb b a a'
    linarith
  rcases lt_or_ge y1 qy with c | c
  · have := disc_left (x0 := -y1) (y0 := x0) (y1 := x1) (x := -y) (y := x) (qx := -qy) (qy := qx) hw hβx (by rw [neg, neg2]; linarith)
      (by rw [neg, neg2]; linarith) (by rw [neg2]; linarith) (by rw [neg2]; linarith) (by linarith) hx0 hx1
      (st.imp (by intro h; linarith) (by intro h; linarith)) (by linarith) a a'
    rw [neg, neg2] at this
    linarith
  · exfalso
    have := sq (u := qx - x0) (v := 1) (by linarith) (by linarith)
    have := sq (u := qy - y0) (v := 1) (by linarith) (by linarith)
    nlinarith [sq_nonneg qx, sq_nonneg qy]
/-- On which side of a plane the sky position of a pixel position is. -/
theorem stg_corner (crpix : P2 ℝ) (c : SpherePoint ℝ) (cd : CdMatrix) (W : Vec3) (x y : ℝ) :
    0 ≤ W ⬝ᵥ ((makeSkyWcs crpix c cd .STG).pixelToSky ⟨x, y⟩).getVector ↔
      0 ≤ 4 * ((W ⬝ᵥ c.eastVec) * (cd.xx * (x - crpix.x) + cd.xy * (y - crpix.y)) + (W ⬝ᵥ c.northVec) * (cd.yx * (x - crpix.x) + cd.yy * (y - crpix.y))) +
        (W ⬝ᵥ c.getVector) * (4 - (cd.xx * (x - crpix.x) + cd.xy * (y - crpix.y)) ^ 2 - (cd.yx * (x - crpix.x) + cd.yy * (y - crpix.y)) ^ 2) :=
  stg_sign c (cd.apply ⟨x - crpix.x, y - crpix.y⟩) W

/-- Pixel positions of sky positions less than 90 degrees from the reference position. -/
theorem stg_near (crpix : P2 ℝ) (c : SpherePoint ℝ) (cd : CdMatrix) (x y : ℝ)
    (h : greatCircle c ((makeSkyWcs crpix c cd .STG).pixelToSky ⟨x, y⟩) < π / 2) :
    0 < 4 - (cd.xx * (x - crpix.x) + cd.xy * (y - crpix.y)) ^ 2 - (cd.yx * (x - crpix.x) + cd.yy * (y - crpix.y)) ^ 2 := by
  unfold greatCircle at h
  rw [arccos_lt_pi_div_two, cosSep_eq] at h
  have e := stg_dot c (cd.apply ⟨x - crpix.x, y - crpix.y⟩) c.getVector
  change c.getVector ⬝ᵥ ((makeSkyWcs crpix c cd .STG).pixelToSky ⟨x, y⟩).getVector = _ at e
  rw [e, vec_unit, dotProduct_comm c.getVector, east_vec, dotProduct_comm c.getVector, north_vec] at h
  have hs : (0 : ℝ) < 4 + (cd.apply ⟨x - crpix.x, y - crpix.y⟩).x ^ 2 + (cd.apply ⟨x - crpix.x, y - crpix.y⟩).y ^ 2 := by positivity
  have := mul_pos h hs
  rw [div_mul_cancel₀ _ hs.ne'] at this
  simp only [CdMatrix.apply] at this
  linarith

/-- On which side of a plane a position with a given pixel position is. -/
theorem stg_side {crpix : P2 ℝ} {c : SpherePoint ℝ} {cd : CdMatrix} (hdet : cd.xx * cd.yy - cd.xy * cd.yx ≠ 0) {p : SpherePoint ℝ} {q : P2 ℝ}
    (hq : (makeSkyWcs crpix c cd .STG).skyToPixel p = .pix q) (W : Vec3) : 0 ≤ W ⬝ᵥ p.getVector ↔
      0 ≤ 4 * ((W ⬝ᵥ c.eastVec) * (cd.xx * (q.x - crpix.x) + cd.xy * (q.y - crpix.y)) + (W ⬝ᵥ c.northVec) * (cd.yx * (q.x - crpix.x) + cd.yy * (q.y - crpix.y))) +
        (W ⬝ᵥ c.getVector) * (4 - (cd.xx * (q.x - crpix.x) + cd.xy * (q.y - crpix.y)) ^ 2 - (cd.yx * (q.x - crpix.x) + cd.yy * (q.y - crpix.y)) ^ 2) := by
  simp only [makeSkyWcs, Projection.toPlane] at hq
  by_cases zp : -1 < cosSep c p
  swap
  · rw [if_neg zp] at hq; simp at hq
  rw [if_pos zp] at hq
  simp only [PixRes.pix.injEq, CdMatrix.solve] at hq
  have hu := local_sq c p
  rw [local_dot c p]
  generalize hE : eastOf c p = E at *
  generalize hN : northOf c p = N at *
  generalize hZ : cosSep c p = Z at *
  generalize W ⬝ᵥ c.eastVec = a at *
  generalize W ⬝ᵥ c.northVec = b at *
  generalize W ⬝ᵥ c.getVector = k at *
  generalize hD : cd.xx * cd.yy - cd.xy * cd.yx = D at *
  have zp' : 0 < 1 + Z := by linarith
  have hX : cd.xx * (q.x - crpix.x) + cd.xy * (q.y - crpix.y) = 2 * E / (1 + Z) := by
    rw [← hq]
    dsimp only
    have : cd.xx * (crpix.x + (cd.yy * (2 * E / (1 + Z)) - cd.xy * (2 * N / (1 + Z))) / D - crpix.x) +
        cd.xy * (crpix.y + (cd.xx * (2 * N / (1 + Z)) - cd.yx * (2 * E / (1 + Z))) / D - crpix.y) = D / D * (2 * E / (1 + Z)) := by
      rw [← hD]; ring
    rw [this, div_self hdet, one_mul]
  have hY : cd.yx * (q.x - crpix.x) + cd.yy * (q.y - crpix.y) = 2 * N / (1 + Z) := by
    rw [← hq]
    dsimp only
    have : cd.yx * (crpix.x + (cd.yy * (2 * E / (1 + Z)) - cd.xy * (2 * N / (1 + Z))) / D - crpix.x) +
        cd.yy * (crpix.y + (cd.xx * (2 * N / (1 + Z)) - cd.yx * (2 * E / (1 + Z))) / D - crpix.y) = D / D * (2 * N / (1 + Z)) := by
      rw [← hD]; ring
    rw [this, div_self hdet, one_mul]
  have e : 4 * (a * (2 * E / (1 + Z)) + b * (2 * N / (1 + Z))) + k * (4 - (2 * E / (1 + Z)) ^ 2 - (2 * N / (1 + Z)) ^ 2) =
      8 / (1 + Z) * (a * E + b * N + k * Z) := by
    have hz : (2 * E / (1 + Z)) ^ 2 + (2 * N / (1 + Z)) ^ 2 = 4 * (1 - Z) / (1 + Z) := by
      rw [div_pow, div_pow, ← add_div, div_eq_div_iff (by positivity) (by positivity)]
      linear_combination (4 * (1 + Z)) * hu
    have : 4 - (2 * E / (1 + Z)) ^ 2 - (2 * N / (1 + Z)) ^ 2 = 8 / (1 + Z) * Z := by
      have : 4 - (2 * E / (1 + Z)) ^ 2 - (2 * N / (1 + Z)) ^ 2 = 4 - 4 * (1 - Z) / (1 + Z) := by rw [← hz]; ring
      rw [this]; field_simp; ring
    rw [this]; field_simp; ring
  rw [hX, hY, e]
  exact ⟨fun h => mul_nonneg (by positivity) h, fun h => nonneg_of_mul_nonneg_right h (by positivity)⟩

/-- With an STG WCS, the polygon of a box that contains the reference pixel, and whose corners are less than 90 degrees from the reference
position, contains every position whose pixel position is in the area of the box. -/
theorem stg_polygon {crpix : P2 ℝ} {c : SpherePoint ℝ} {cd : CdMatrix} (hdet : cd.xx * cd.yy - cd.xy * cd.yx ≠ 0) {bbox : Box2I}
    (hdim : 0 < bbox.dim.x ∧ 0 < bbox.dim.y) (hc : bbox.Area crpix)
    (h90 : ∀ s ∈ makeSkyPolygonFromBBox bbox (makeSkyWcs crpix c cd .STG), greatCircle c s < π / 2) {p : SpherePoint ℝ} {q : P2 ℝ}
    (hq : (makeSkyWcs crpix c cd .STG).skyToPixel p = .pix q) (ha : bbox.Area q) :
    InPolygon (makeSkyPolygonFromBBox bbox (makeSkyWcs crpix c cd .STG)) p := by
  have hbox : bbox.isEmpty = false := by unfold Box2I.isEmpty; simp; omega
  rw [makeSkyPolygon_eq bbox _ hbox] at h90
  simp only [rectangle, pixelCorner, List.mem_cons, List.not_mem_nil, or_false, forall_eq_or_imp, forall_eq] at h90
  push_cast at h90
  obtain ⟨s00, s10, s11, s01⟩ := h90
  replace s00 := stg_near _ _ _ _ _ s00
  replace s10 := stg_near _ _ _ _ _ s10
  replace s11 := stg_near _ _ _ _ _ s11
  replace s01 := stg_near _ _ _ _ _ s01
  intro W hW
  obtain ⟨w00, w10, w11, w01⟩ := (mem_polygon hbox _ W).1 hW
  rw [stg_corner] at w00 w10 w11 w01
  unfold Box2I.Area at hc ha
  have e1 : (bbox.min.x : ℝ) - 1 / 2 < (bbox.min.x : ℝ) + bbox.dim.x - 1 / 2 := by
    have : (0 : ℝ) < bbox.dim.x := by exact_mod_cast hdim.1
    linarith
  have e2 : (bbox.min.y : ℝ) - 1 / 2 < (bbox.min.y : ℝ) + bbox.dim.y - 1 / 2 := by
    have : (0 : ℝ) < bbox.dim.y := by exact_mod_cast hdim.2
    linarith
  rw [stg_side hdet hq]
  generalize hx0 : (bbox.min.x : ℝ) - 1 / 2 = x0 at *
  generalize hx1 : (bbox.min.x : ℝ) + bbox.dim.x - 1 / 2 = x1 at *
  generalize hy0 : (bbox.min.y : ℝ) - 1 / 2 = y0 at *
  generalize hy1 : (bbox.min.y : ℝ) + bbox.dim.y - 1 / 2 = y1 at *
  generalize W ⬝ᵥ c.eastVec = a at *
  generalize W ⬝ᵥ c.northVec = b at *
  generalize W ⬝ᵥ c.getVector = k at *
  rcases lt_or_ge k 0 with hk | hk
  · exfalso
    have neg : ∀ u v : ℝ, 0 < 4 - (cd.xx * u + cd.xy * v) ^ 2 - (cd.yx * u + cd.yy * v) ^ 2 →
        0 ≤ 4 * (a * (cd.xx * u + cd.xy * v) + b * (cd.yx * u + cd.yy * v)) +
          k * (4 - (cd.xx * u + cd.xy * v) ^ 2 - (cd.yx * u + cd.yy * v) ^ 2) → 0 < (a * cd.xx + b * cd.yx) * u + (a * cd.xy + b * cd.yy) * v := by
      intro u v h1 h2
      have := mul_neg_of_neg_of_pos hk h1
      linarith
    have n00 := neg _ _ s00 w00
    have n10 := neg _ _ s10 w10
    have n11 := neg _ _ s11 w11
    have n01 := neg _ _ s01 w01
    clear s00 s10 s11 s01 w00 w10 w11 w01 neg
    generalize a * cd.xx + b * cd.yx = A at *
    generalize a * cd.xy + b * cd.yy = B at *
    set ε := min (min (A * (x0 - crpix.x) + B * (y0 - crpix.y)) (A * (x1 - crpix.x) + B * (y0 - crpix.y)))
      (min (A * (x1 - crpix.x) + B * (y1 - crpix.y)) (A * (x0 - crpix.x) + B * (y1 - crpix.y))) with hε
    have hpos : 0 < ε := lt_min (lt_min n00 n10) (lt_min n11 n01)
    have b1 : ε ≤ A * (x0 - crpix.x) + B * (y0 - crpix.y) := (min_le_left _ _).trans (min_le_left _ _)
    have b2 : ε ≤ A * (x1 - crpix.x) + B * (y0 - crpix.y) := (min_le_left _ _).trans (min_le_right _ _)
    have b3 : ε ≤ A * (x1 - crpix.x) + B * (y1 - crpix.y) := (min_le_right _ _).trans (min_le_left _ _)
    have b4 : ε ≤ A * (x0 - crpix.x) + B * (y1 - crpix.y) := (min_le_right _ _).trans (min_le_right _ _)
    have := affine_rectangle (A := A) (B := B) (C := -(A * crpix.x) - B * crpix.y - ε) (x0 := x0) (x1 := x1) (y0 := y0) (y1 := y1)
      (x := crpix.x) (y := crpix.y) (by linarith) (by linarith) (by linarith) (by linarith) hc.1 hc.2.1 hc.2.2.1 hc.2.2.2
    linarith
  · have := concave_rectangle (A := 4 * (a * cd.xx + b * cd.yx)) (B := 4 * (a * cd.xy + b * cd.yy)) (C := 4 * k) (k := k) (p := cd.xx) (q := cd.xy)
      (r := cd.yx) (s := cd.yy) (x0 := x0 - crpix.x) (x1 := x1 - crpix.x) (y0 := y0 - crpix.y) (y1 := y1 - crpix.y) (x := q.x - crpix.x)
      (y := q.y - crpix.y) hk (by linarith) (by linarith) (by linarith) (by linarith) (by linarith [ha.1]) (by linarith [ha.2.1])
      (by linarith [ha.2.2.1]) (by linarith [ha.2.2.2]) (by linarith) (by linarith)
    linarith

/-- The matrix is a rotation, perhaps with a reflection, times the scale. -/
theorem makeCdMatrix_quad (scale θ : ℝ) (flipX : Bool) (u v : ℝ) :
    ((makeCdMatrix scale θ flipX).xx * u + (makeCdMatrix scale θ flipX).xy * v) ^ 2 +
      ((makeCdMatrix scale θ flipX).yx * u + (makeCdMatrix scale θ flipX).yy * v) ^ 2 = (scale * u) ^ 2 + (scale * v) ^ 2 := by
  have := sin_sq_add_cos_sq θ
  unfold makeCdMatrix
  dsimp only
  split <;> linear_combination (scale ^ 2 * (u ^ 2 + v ^ 2)) * this

/-- With an STG WCS, the polygon of a small box contains every position whose pixel position is in the area of a box inside it, if on every
side there is either a margin, of the size given, between the two boxes or the larger box reaches beyond the reference pixel. -/
theorem stg_outer {crpix : P2 ℝ} {c : SpherePoint ℝ} {scale θ : ℝ} {flipX : Bool} (hs : 0 < scale) {bbox inner : Box2I} {border : ℝ}
    (hdim : 0 < bbox.dim.x ∧ 0 < bbox.dim.y) (wx : scale * bbox.dim.x ≤ 1) (wy : scale * bbox.dim.y ≤ 1)
    (bx : scale * (bbox.dim.x : ℝ) ^ 2 ≤ 12 * border) (by' : scale * (bbox.dim.y : ℝ) ^ 2 ≤ 12 * border)
    (h90 : ∀ s ∈ makeSkyPolygonFromBBox bbox (makeSkyWcs crpix c (makeCdMatrix scale θ flipX) .STG), greatCircle c s < π / 2)
    (ix0 : bbox.min.x ≤ inner.min.x) (ix1 : inner.min.x + inner.dim.x ≤ bbox.min.x + bbox.dim.x)
    (iy0 : bbox.min.y ≤ inner.min.y) (iy1 : inner.min.y + inner.dim.y ≤ bbox.min.y + bbox.dim.y)
    (sl : border ≤ inner.min.x - bbox.min.x ∨ (bbox.min.x : ℝ) - 1 / 2 ≤ crpix.x)
    (sr : border ≤ bbox.min.x + bbox.dim.x - (inner.min.x + inner.dim.x) ∨ crpix.x ≤ (bbox.min.x : ℝ) + bbox.dim.x - 1 / 2)
    (sb : border ≤ inner.min.y - bbox.min.y ∨ (bbox.min.y : ℝ) - 1 / 2 ≤ crpix.y)
    (st : border ≤ bbox.min.y + bbox.dim.y - (inner.min.y + inner.dim.y) ∨ crpix.y ≤ (bbox.min.y : ℝ) + bbox.dim.y - 1 / 2)
    {p : SpherePoint ℝ} {q : P2 ℝ}
    (hq : (makeSkyWcs crpix c (makeCdMatrix scale θ flipX) .STG).skyToPixel p = .pix q) (ha : inner.Area q) :
    InPolygon (makeSkyPolygonFromBBox bbox (makeSkyWcs crpix c (makeCdMatrix scale θ flipX) .STG)) p := by
  have hbox : bbox.isEmpty = false := by unfold Box2I.isEmpty; simp; omega
  rw [makeSkyPolygon_eq bbox _ hbox] at h90
  simp only [rectangle, pixelCorner, List.mem_cons, List.not_mem_nil, or_false, forall_eq_or_imp, forall_eq] at h90
  push_cast at h90
  obtain ⟨s00, s10, s11, s01⟩ := h90
  replace s00 := stg_near _ _ _ _ _ s00
  replace s10 := stg_near _ _ _ _ _ s10
  replace s11 := stg_near _ _ _ _ _ s11
  replace s01 := stg_near _ _ _ _ _ s01
  intro W hW
  obtain ⟨w00, w10, w11, w01⟩ := (mem_polygon hbox _ W).1 hW
  rw [stg_corner] at w00 w10 w11 w01
  rw [stg_side (makeCdMatrix_det hs.ne' θ flipX) hq]
  unfold Box2I.Area at ha
  have r1 : (bbox.min.x : ℝ) ≤ inner.min.x := by exact_mod_cast ix0
  have r2 : (inner.min.x : ℝ) + inner.dim.x ≤ bbox.min.x + bbox.dim.x := by exact_mod_cast ix1
  have r3 : (bbox.min.y : ℝ) ≤ inner.min.y := by exact_mod_cast iy0
  have r4 : (inner.min.y : ℝ) + inner.dim.y ≤ bbox.min.y + bbox.dim.y := by exact_mod_cast iy1
  have d1 : (0 : ℝ) < bbox.dim.x := by exact_mod_cast hdim.1
  have d2 : (0 : ℝ) < bbox.dim.y := by exact_mod_cast hdim.2
  have quad := makeCdMatrix_quad scale θ flipX
  have near : ∀ u v : ℝ, 0 < 4 - ((makeCdMatrix scale θ flipX).xx * u + (makeCdMatrix scale θ flipX).xy * v) ^ 2 -
      ((makeCdMatrix scale θ flipX).yx * u + (makeCdMatrix scale θ flipX).yy * v) ^ 2 → (scale * u) ^ 2 + (scale * v) ^ 2 ≤ 4 := by
    intro u v h
    have := quad u v
    linarith
  replace s00 := near _ _ s00
  replace s10 := near _ _ s10
  replace s11 := near _ _ s11
  replace s01 := near _ _ s01
  set m := makeCdMatrix scale θ flipX with hm
  have form : ∀ u v : ℝ, 4 * ((W ⬝ᵥ c.eastVec) * (m.xx * u + m.xy * v) + (W ⬝ᵥ c.northVec) * (m.yx * u + m.yy * v)) +
      (W ⬝ᵥ c.getVector) * (4 - (m.xx * u + m.xy * v) ^ 2 - (m.yx * u + m.yy * v) ^ 2) =
      4 * ((W ⬝ᵥ c.eastVec) * m.xx + (W ⬝ᵥ c.northVec) * m.yx) * u + 4 * ((W ⬝ᵥ c.eastVec) * m.xy + (W ⬝ᵥ c.northVec) * m.yy) * v +
        (W ⬝ᵥ c.getVector) * (4 - (scale * u) ^ 2 - (scale * v) ^ 2) := by
    intro u v
    linear_combination (-(W ⬝ᵥ c.getVector)) * quad u v
  rw [form] at w00 w10 w11 w01 ⊢
  generalize 4 * ((W ⬝ᵥ c.eastVec) * m.xx + (W ⬝ᵥ c.northVec) * m.yx) = A at *
  generalize 4 * ((W ⬝ᵥ c.eastVec) * m.xy + (W ⬝ᵥ c.northVec) * m.yy) = B at *
  generalize W ⬝ᵥ c.getVector = k at *
  have e1 : (bbox.min.x : ℝ) - 1 / 2 < (bbox.min.x : ℝ) + bbox.dim.x - 1 / 2 := by linarith
  have e2 : (bbox.min.y : ℝ) - 1 / 2 < (bbox.min.y : ℝ) + bbox.dim.y - 1 / 2 := by linarith
  rcases lt_or_ge k 0 with hk | hk
  · have key : ∀ u v : ℝ, 0 ≤ A * u + B * v + k * (4 - (scale * u) ^ 2 - (scale * v) ^ 2) ↔
        4 + (A / (2 * scale * k)) ^ 2 + (B / (2 * scale * k)) ^ 2 ≤ (scale * u - A / (2 * scale * k)) ^ 2 + (scale * v - B / (2 * scale * k)) ^ 2 := by
      intro u v
      have e : A * u + B * v + k * (4 - (scale * u) ^ 2 - (scale * v) ^ 2) = (-k) * ((scale * u - A / (2 * scale * k)) ^ 2 +
          (scale * v - B / (2 * scale * k)) ^ 2 - (4 + (A / (2 * scale * k)) ^ 2 + (B / (2 * scale * k)) ^ 2)) := by
        have hsn := hs.ne'
        have hkn := hk.ne
        field_simp
        ring
      rw [e]
      constructor
      · intro h
        have := nonneg_of_mul_nonneg_right h (by linarith : (0 : ℝ) < -k)
        linarith
      · intro h
        exact mul_nonneg (by linarith) (by linarith)
    rw [key] at w00 w10 w11 w01 ⊢
    have mono : ∀ {u v : ℝ}, u ≤ v → scale * u ≤ scale * v := fun h => mul_le_mul_of_nonneg_left h hs.le
    refine disc_box (β := scale * border) (x0 := scale * ((bbox.min.x : ℝ) - 1 / 2 - crpix.x))
      (x1 := scale * ((bbox.min.x : ℝ) + bbox.dim.x - 1 / 2 - crpix.x)) (y0 := scale * ((bbox.min.y : ℝ) - 1 / 2 - crpix.y))
      (y1 := scale * ((bbox.min.y : ℝ) + bbox.dim.y - 1 / 2 - crpix.y)) ?_ ?_ ?_ ?_ w00 w10 w11 w01 s00 s10 s11 s01 (mono (by linarith [ha.1])) (mono (by linarith [ha.2.1]))
      (mono (by linarith [ha.2.2.1])) (mono (by linarith [ha.2.2.2])) ?_ ?_ ?_ ?_
    · linarith
    · linarith
    · have := mul_le_mul_of_nonneg_left bx hs.le
      linarith
    · have := mul_le_mul_of_nonneg_left by' hs.le
      linarith
    · refine sl.imp (fun h => ?_) (fun h => mul_nonpos_of_nonneg_of_nonpos hs.le (by linarith))
      rw [← mul_sub]
      exact mono (by linarith [ha.1])
    · refine sr.imp (fun h => ?_) (fun h => mul_nonneg hs.le (by linarith))
      rw [← mul_sub]
      exact mono (by linarith [ha.2.1])
    · refine sb.imp (fun h => ?_) (fun h => mul_nonpos_of_nonneg_of_nonpos hs.le (by linarith))
      rw [← mul_sub]
      exact mono (by linarith [ha.2.2.1])
    · refine st.imp (fun h => ?_) (fun h => mul_nonneg hs.le (by linarith))
      rw [← mul_sub]
      exact mono (by linarith [ha.2.2.2])
  · have := concave_rectangle (A := A) (B := B) (C := 4 * k) (k := k) (p := scale) (q := 0)
      (r := 0) (s := scale) (x0 := (bbox.min.x : ℝ) - 1 / 2 - crpix.x) (x1 := (bbox.min.x : ℝ) + bbox.dim.x - 1 / 2 - crpix.x)
      (y0 := (bbox.min.y : ℝ) - 1 / 2 - crpix.y) (y1 := (bbox.min.y : ℝ) + bbox.dim.y - 1 / 2 - crpix.y) (x := q.x - crpix.x)
      (y := q.y - crpix.y) hk (by linarith) (by linarith) (by linarith) (by linarith) (by linarith [ha.1]) (by linarith [ha.2.1])
      (by linarith [ha.2.2.1]) (by linarith [ha.2.2.2]) (by linarith) (by linarith)
    linarith

/-- A circle through the two left corners of a rectangle to the right of the origin, with the right corners outside. -/
theorem gap_circle {X0 X1 Y1 Y2 : ℝ} (pX : 0 < X0) (pX1 : X0 < X1) (pY : Y1 < Y2) (n1 : X0 ^ 2 + Y1 ^ 2 < 4) (n2 : X0 ^ 2 + Y2 ^ 2 < 4) :
    ∃ A, (∀ Y, (Y = Y1 ∨ Y = Y2) → ∀ X, (X = X0 ∨ X = X1) → 0 ≤ A * X - (Y1 + Y2) * Y - 4 + X ^ 2 + Y ^ 2) ∧
      A * X0 - (Y1 + Y2) * ((Y1 + Y2) / 2) - 4 + X0 ^ 2 + ((Y1 + Y2) / 2) ^ 2 < 0 := by
  have hYY : 0 < 4 + Y1 * Y2 := by nlinarith [sq_nonneg (Y1 + Y2), sq_nonneg X0]
  have hAX : (4 - X0 ^ 2 + Y1 * Y2) / X0 * X0 = 4 - X0 ^ 2 + Y1 * Y2 := by field_simp
  generalize (4 - X0 ^ 2 + Y1 * Y2) / X0 = A at hAX
  refine ⟨A, ?_, ?_⟩
  · have c0 : ∀ Y, (Y = Y1 ∨ Y = Y2) → A * X0 - (Y1 + Y2) * Y - 4 + X0 ^ 2 + Y ^ 2 = 0 := by
      rintro Y (rfl | rfl) <;> rw [hAX] <;> ring
    have inc : 0 ≤ A * (X1 - X0) + X1 ^ 2 - X0 ^ 2 := by
      have e : X0 * (A * (X1 - X0) + X1 ^ 2 - X0 ^ 2) = (X1 - X0) * (4 + Y1 * Y2 + X0 * X1) := by
        linear_combination (X1 - X0) * hAX
      have : 0 ≤ X0 * (A * (X1 - X0) + X1 ^ 2 - X0 ^ 2) := by
        rw [e]
        have : 0 < X0 * X1 := mul_pos pX (by linarith)
        exact mul_nonneg (by linarith) (by linarith)
      exact nonneg_of_mul_nonneg_right this pX
    rintro Y hY X (rfl | rfl)
    · rw [c0 Y hY]
    · have := c0 Y hY
      linarith
  · rw [hAX]
    nlinarith [sq_pos_of_pos (sub_pos.2 pY)]

/-- A plane with a given trace in pixel coordinates. -/
theorem stg_plane (c : SpherePoint ℝ) {scale : ℝ} (hs : scale ≠ 0) (θ : ℝ) (flipX : Bool) (A B : ℝ) : ∃ W : Vec3, ∀ u v : ℝ,
    4 * ((W ⬝ᵥ c.eastVec) * ((makeCdMatrix scale θ flipX).xx * u + (makeCdMatrix scale θ flipX).xy * v) +
        (W ⬝ᵥ c.northVec) * ((makeCdMatrix scale θ flipX).yx * u + (makeCdMatrix scale θ flipX).yy * v)) +
      (W ⬝ᵥ c.getVector) * (4 - ((makeCdMatrix scale θ flipX).xx * u + (makeCdMatrix scale θ flipX).xy * v) ^ 2 -
        ((makeCdMatrix scale θ flipX).yx * u + (makeCdMatrix scale θ flipX).yy * v) ^ 2) =
      A * (scale * u) - B * (scale * v) - 4 + (scale * u) ^ 2 + (scale * v) ^ 2 := by
  have quad := makeCdMatrix_quad scale θ flipX
  have hdet := makeCdMatrix_det hs θ flipX
  generalize makeCdMatrix scale θ flipX = m at *
  obtain ⟨α, hα⟩ : ∃ α, 4 * α = A * scale := ⟨A * scale / 4, by ring⟩
  obtain ⟨γ, hγ⟩ : ∃ γ, 4 * γ = -B * scale := ⟨-B * scale / 4, by ring⟩
  obtain ⟨f1, f2, f3⟩ := frameVec_dot c ((α * m.yy - γ * m.yx) / (m.xx * m.yy - m.xy * m.yx)) ((γ * m.xx - α * m.xy) / (m.xx * m.yy - m.xy * m.yx)) (-1)
  refine ⟨frameVec c ((α * m.yy - γ * m.yx) / (m.xx * m.yy - m.xy * m.yx)) ((γ * m.xx - α * m.xy) / (m.xx * m.yy - m.xy * m.yx)) (-1), fun u v => ?_⟩
  rw [f1, f2, f3]
  have e1 : (α * m.yy - γ * m.yx) / (m.xx * m.yy - m.xy * m.yx) * m.xx + (γ * m.xx - α * m.xy) / (m.xx * m.yy - m.xy * m.yx) * m.yx = α := by
    rw [div_mul_eq_mul_div, div_mul_eq_mul_div, ← add_div, div_eq_iff hdet]
    ring
  have e2 : (α * m.yy - γ * m.yx) / (m.xx * m.yy - m.xy * m.yx) * m.xy + (γ * m.xx - α * m.xy) / (m.xx * m.yy - m.xy * m.yx) * m.yy = γ := by
    rw [div_mul_eq_mul_div, div_mul_eq_mul_div, ← add_div, div_eq_iff hdet]
    ring
  have e3 := quad u v
  generalize (α * m.yy - γ * m.yx) / (m.xx * m.yy - m.xy * m.yx) = a at *
  generalize (γ * m.xx - α * m.xy) / (m.xx * m.yy - m.xy * m.yx) = b at *
  linear_combination (4 * u) * e1 + (4 * v) * e2 + e3 + u * hα + v * hγ

/-- With an STG WCS, the polygon of a box to the right of the reference pixel does not contain the position in the middle of its left edge. -/
theorem stg_gap {crpix : P2 ℝ} {c : SpherePoint ℝ} {scale θ : ℝ} {flipX : Bool} (hs : 0 < scale) {bbox : Box2I}
    (hdim : 0 < bbox.dim.x ∧ 0 < bbox.dim.y) (hr : crpix.x < (bbox.min.x : ℝ) - 1 / 2)
    (h90 : ∀ s ∈ makeSkyPolygonFromBBox bbox (makeSkyWcs crpix c (makeCdMatrix scale θ flipX) .STG), greatCircle c s < π / 2)
    {p : SpherePoint ℝ} {q : P2 ℝ} (hq : (makeSkyWcs crpix c (makeCdMatrix scale θ flipX) .STG).skyToPixel p = .pix q)
    (hqx : q.x = bbox.min.x - 1 / 2) (hqy : q.y = bbox.min.y + bbox.dim.y / 2 - 1 / 2) :
    ¬ InPolygon (makeSkyPolygonFromBBox bbox (makeSkyWcs crpix c (makeCdMatrix scale θ flipX) .STG)) p := by
  have hbox : bbox.isEmpty = false := by unfold Box2I.isEmpty; simp; omega
  rw [makeSkyPolygon_eq bbox _ hbox] at h90
  simp only [rectangle, pixelCorner, List.mem_cons, List.not_mem_nil, or_false, forall_eq_or_imp, forall_eq] at h90
  push_cast at h90
  obtain ⟨s00, s10, s11, s01⟩ := h90
  replace s00 := stg_near _ _ _ _ _ s00
  replace s01 := stg_near _ _ _ _ _ s01
  have quad := makeCdMatrix_quad scale θ flipX
  have q00 := quad ((bbox.min.x : ℝ) - 1 / 2 - crpix.x) ((bbox.min.y : ℝ) - 1 / 2 - crpix.y)
  have q01 := quad ((bbox.min.x : ℝ) - 1 / 2 - crpix.x) ((bbox.min.y : ℝ) + bbox.dim.y - 1 / 2 - crpix.y)
  have d1 : (0 : ℝ) < bbox.dim.x := by exact_mod_cast hdim.1
  have d2 : (0 : ℝ) < bbox.dim.y := by exact_mod_cast hdim.2
  have hdet := makeCdMatrix_det hs.ne' θ flipX
  intro hin
  obtain ⟨A, hpos, hneg⟩ := gap_circle (X0 := scale * ((bbox.min.x : ℝ) - 1 / 2 - crpix.x)) (X1 := scale * ((bbox.min.x : ℝ) + bbox.dim.x - 1 / 2 - crpix.x))
    (Y1 := scale * ((bbox.min.y : ℝ) - 1 / 2 - crpix.y)) (Y2 := scale * ((bbox.min.y : ℝ) + bbox.dim.y - 1 / 2 - crpix.y))
    (mul_pos hs (by linarith)) (mul_lt_mul_of_pos_left (by linarith) hs) (mul_lt_mul_of_pos_left (by linarith) hs)
    (by linarith) (by linarith)
  obtain ⟨W, form⟩ := stg_plane c hs.ne' θ flipX A (scale * ((bbox.min.y : ℝ) - 1 / 2 - crpix.y) + scale * ((bbox.min.y : ℝ) + bbox.dim.y - 1 / 2 - crpix.y))
  have key := hin W ((mem_polygon hbox _ W).2 ⟨by
    rw [stg_corner, form]; exact hpos _ (.inl rfl) _ (.inl rfl), by
    rw [stg_corner, form]; exact hpos _ (.inl rfl) _ (.inr rfl), by
    rw [stg_corner, form]; exact hpos _ (.inr rfl) _ (.inr rfl), by
    rw [stg_corner, form]; exact hpos _ (.inr rfl) _ (.inl rfl)⟩)
  rw [stg_side hdet hq, form, hqx, hqy] at key
  have e : scale * ((bbox.min.y : ℝ) + bbox.dim.y / 2 - 1 / 2 - crpix.y) =
      (scale * ((bbox.min.y : ℝ) - 1 / 2 - crpix.y) + scale * ((bbox.min.y : ℝ) + bbox.dim.y - 1 / 2 - crpix.y)) / 2 := by ring
  rw [e] at key
  linarith

/-! ## Tracts and patches -/

/-- How the outer box of a patch lies around its inner box in the tract's box. -/
structure PatchSides (tract : Box2I) (border : Int) (inner outer : Box2I) : Prop where
  dx : 0 < outer.dim.x
  dy : 0 < outer.dim.y
  x0 : outer.min.x ≤ inner.min.x
  x1 : inner.min.x + inner.dim.x ≤ outer.min.x + outer.dim.x
  y0 : outer.min.y ≤ inner.min.y
  y1 : inner.min.y + inner.dim.y ≤ outer.min.y + outer.dim.y
  wx : outer.dim.x ≤ inner.dim.x + 2 * border
  wy : outer.dim.y ≤ inner.dim.y + 2 * border
  bx0 : inner.min.x - border ≤ outer.min.x
  bx1 : outer.min.x + outer.dim.x ≤ inner.min.x + inner.dim.x + border
  by0 : inner.min.y - border ≤ outer.min.y
  by1 : outer.min.y + outer.dim.y ≤ inner.min.y + inner.dim.y + border
  left : border ≤ inner.min.x - outer.min.x ∨ outer.min.x = tract.min.x
  right : border ≤ outer.min.x + outer.dim.x - (inner.min.x + inner.dim.x) ∨ outer.min.x + outer.dim.x = tract.min.x + tract.dim.x
  bottom : border ≤ inner.min.y - outer.min.y ∨ outer.min.y = tract.min.y
  top : border ≤ outer.min.y + outer.dim.y - (inner.min.y + inner.dim.y) ∨ outer.min.y + outer.dim.y = tract.min.y + tract.dim.y

section tract
variable {env : FloatEnv ℝ} {ops : SkyOps (SpherePoint ℝ) ℝ} {b₀ b : TractBuilder} {a : TractArgs (SpherePoint ℝ) ℝ}
  {t : TractInfo (SpherePoint ℝ) ℝ} {scale θ : ℝ} {flipX : Bool} {f : WcsFactory}
  {other : P2 ℝ → SpherePoint ℝ → CdMatrix → String → Wcs (SpherePoint ℝ) ℝ} {crpix : P2 ℝ} {crval : SpherePoint ℝ}

theorem TractInfo.Built.patchSides (B : t.Built b₀ b) (hb : 0 ≤ b₀.patchBorder) {i : Index2D} {p : PatchInfo (Wcs (SpherePoint ℝ) ℝ)}
    (hp : t.getPatchInfo b (.index2D i) = .ok p) :
    PatchSides t.bbox b₀.patchBorder p.innerBBox p.outerBBox ∧ p.wcs = t.wcs ∧ p.innerBBox.dim = b₀.patchInnerDimensions := by
  have hb' : 0 ≤ b.patchBorder := by rw [B.border]; exact hb
  obtain ⟨hr, rfl⟩ := (B.ready.getPatchInfo_iff hb' _ t.wcs _).1 hp
  have dx := B.ready.dx; have dy := B.ready.dy
  obtain ⟨r1, r2, r3, r4⟩ := hr
  have mx : i.x * b.patchInnerDimensions.x + b.patchInnerDimensions.x ≤ t.numPatches.x * b.patchInnerDimensions.x := by nlinarith
  have my : i.y * b.patchInnerDimensions.y + b.patchInnerDimensions.y ≤ t.numPatches.y * b.patchInnerDimensions.y := by nlinarith
  have m0x : 0 ≤ i.x * b.patchInnerDimensions.x := mul_nonneg r1 dx.le
  have m0y : 0 ≤ i.y * b.patchInnerDimensions.y := mul_nonneg r3 dy.le
  have ht := B.ready.tractBox (by omega) (by omega)
  have hbox := B.box
  rw [ht] at hbox
  refine ⟨?_, TractBuilder.patchVal_wcs _ _ _ _, ?_⟩
  · rw [TractBuilder.patchVal_inner, TractBuilder.patchInnerBBox_eq dx dy, hbox, ← B.border]
    unfold TractBuilder.patchVal
    dsimp only
    rw [TractBuilder.patchInnerBBox_eq dx dy, Box2I.grow_pos _ dx dy _ hb']
    dsimp only
    generalize i.x * b.patchInnerDimensions.x = X at *
    generalize i.y * b.patchInnerDimensions.y = Y at *
    generalize t.numPatches.x * b.patchInnerDimensions.x = NX at *
    generalize t.numPatches.y * b.patchInnerDimensions.y = NY at *
    generalize hDX : b.patchInnerDimensions.x = DX at *
    generalize hDY : b.patchInnerDimensions.y = DY at *
    generalize b.patchBorder = β at *
    cases hk : b.kind with
    | legacy =>
      dsimp only
      rw [ht]
      have e : (⟨⟨X - β, Y - β⟩, ⟨DX + 2 * β, DY + 2 * β⟩⟩ : Box2I).clip ⟨⟨0, 0⟩, ⟨NX, NY⟩⟩ =
          ⟨⟨max (X - β) 0, max (Y - β) 0⟩, ⟨min (X + DX + β) NX - max (X - β) 0, min (Y + DY + β) NY - max (Y - β) 0⟩⟩ := by
        unfold Box2I.clip Box2I.isEmpty Box2I.getMax
        dsimp only
        rw [if_neg (by simp; omega), if_neg (by simp; omega), if_neg (by omega)]
        congr 2 <;> omega
      rw [e]
      constructor <;> dsimp only <;> omega
    | cells c =>
      constructor <;> dsimp only <;> omega
  · rw [TractBuilder.patchVal_inner, TractBuilder.patchInnerBBox_eq dx dy, B.dims]

/-- Without border the outer box of a patch is its inner box. -/
theorem PatchSides.outer_eq {tract inner outer : Box2I} {border : Int} (S : PatchSides tract border inner outer) (h0 : border = 0) : outer = inner := by
  have s1 := S.x0; have s2 := S.x1; have s3 := S.y0; have s4 := S.y1; have s5 := S.wx; have s6 := S.wy
  rw [h0] at s5 s6
  rcases outer with ⟨⟨ox, oy⟩, ⟨ow, oh⟩⟩
  rcases inner with ⟨⟨ux, uy⟩, ⟨uw, uh⟩⟩
  dsimp only at s1 s2 s3 s4 s5 s6
  congr 2 <;> omega

/-- The patch with a pixel in its inner box is the one that `findPatch` finds. -/
theorem TractInfo.Built.findPatch_of_inner (B : t.Built b₀ b) (he : env.Ok) (h : TractInfo.new env ops b₀ a = .ok (t, b))
    (hx : 0 < b₀.patchInnerDimensions.x) (hy : 0 < b₀.patchInnerDimensions.y) (hb : 0 ≤ b₀.patchBorder) (sx : t.getBBox.dim.x < 2 ^ 53)
    (sy : t.getBBox.dim.y < 2 ^ 53) {i : Index2D} {p : PatchInfo (Wcs (SpherePoint ℝ) ℝ)} (hp : t.getPatchInfo b (.index2D i) = .ok p)
    {s : SpherePoint ℝ} {px : Point2I} (hpx : t.wcs.PixelOf s px) (hin : p.innerBBox.contains px = true) : t.findPatch env b s = .ok p := by
  have hct : t.getBBox.contains px = true := by
    have hb' : 0 ≤ b.patchBorder := by rw [B.border]; exact hb
    obtain ⟨hr, hv⟩ := (B.ready.getPatchInfo_iff hb' _ t.wcs _).1 hp
    change t.bbox.contains _ = true
    rw [B.box]
    refine B.ready.inner_sub hr ?_
    rw [← TractBuilder.patchVal_inner b t.numPatches i t.wcs, ← hv]
    exact hin
  obtain ⟨p', f1, f2, f3⟩ := C08_findPatch he h hx hy hb sx sy s _ hpx hct
  obtain ⟨j, -, huniq⟩ := C02_tiling h hx hy hb _ hct
  have u1 := huniq i ⟨p, hp, hin⟩
  have u2 := huniq p'.index ⟨p', f3, f2⟩
  rw [u2, ← u1, hp, Except.ok.injEq] at f3
  rw [f1, f3]

/-- The pixel position of the reference position is the reference pixel. -/
theorem stg_crval (crpix : P2 ℝ) (c : SpherePoint ℝ) (cd : CdMatrix) : (makeSkyWcs crpix c cd .STG).skyToPixel c = .pix crpix := by
  have h1 : cosSep c c = 1 := by rw [cosSep_eq]; exact vec_unit c
  have h2 : eastOf c c = 0 := by unfold eastOf; rw [sub_self, sin_zero, mul_zero]
  have h3 : northOf c c = 0 := by unfold northOf; rw [sub_self, cos_zero]; ring
  simp only [makeSkyWcs, Projection.toPlane, h1, h2, h3, CdMatrix.solve]
  norm_num

/-- C65: with the projection STG, the outer polygon of a tract contains every position that the tract contains, if the tract contains its
reference position and its corners are less than 90 degrees from it. -/
theorem C65_stg_tract (h : TractInfo.new env ops b₀ a = .ok (t, b)) (hf : WcsFactory.new scale "STG" θ flipX = .ok f) (hs : scale ≠ 0)
    (hw : a.wcs = f.makeWcs other crpix crval) (hc : t.contains crval = true)
    (h90 : ∀ c ∈ t.getOuterSkyPolygon, greatCircle crval c < π / 2) {s : SpherePoint ℝ} (hin : t.contains s = true) :
    InPolygon t.getOuterSkyPolygon s := by
  rw [WcsFactory.makeWcs_eq (P := .STG) hf rfl] at hw
  obtain ⟨crpix', e⟩ := TractInfo.new_wcs h hw
  unfold TractInfo.contains at hc hin
  rw [e, stg_crval] at hc
  rw [e] at hin
  change InPolygon (makeSkyPolygonFromBBox t.getBBox t.wcs) s
  change ∀ c ∈ makeSkyPolygonFromBBox t.getBBox t.wcs, _ at h90
  rw [e] at h90 ⊢
  cases hq : (makeSkyWcs crpix' crval (makeCdMatrix scale θ flipX) .STG).skyToPixel s with
  | raises => rw [hq] at hin; simp at hin
  | nonfinite => rw [hq] at hin; simp at hin
  | pix q =>
    rw [hq] at hin
    exact stg_polygon (makeCdMatrix_det hs θ flipX) (Box2I.contains_dim hc) (Box2I.area_of_contains hc) h90 hq (Box2I.area_of_contains hin)

/-- C65: with the projection STG, the outer polygon of a patch contains every position whose pixel is in the patch's inner box, if the tract
contains its reference position, the patch's outer corners are less than 90 degrees from it, and the patch's border is not too small for its
size. -/
theorem C65_stg_patch (h : TractInfo.new env ops b₀ a = .ok (t, b)) (hx : 0 < b₀.patchInnerDimensions.x) (hy : 0 < b₀.patchInnerDimensions.y)
    (hb : 0 ≤ b₀.patchBorder) (hf : WcsFactory.new scale "STG" θ flipX = .ok f) (hs : 0 < scale)
    (hw : a.wcs = f.makeWcs other crpix crval) (hc : t.contains crval = true) {i : Index2D} {p : PatchInfo (Wcs (SpherePoint ℝ) ℝ)}
    (hp : t.getPatchInfo b (.index2D i) = .ok p)
    (hwx : scale * (b₀.patchInnerDimensions.x + 2 * b₀.patchBorder) ≤ 1) (hwy : scale * (b₀.patchInnerDimensions.y + 2 * b₀.patchBorder) ≤ 1)
    (hbx : scale * ((b₀.patchInnerDimensions.x : ℝ) + 2 * b₀.patchBorder) ^ 2 ≤ 12 * b₀.patchBorder)
    (hby : scale * ((b₀.patchInnerDimensions.y : ℝ) + 2 * b₀.patchBorder) ^ 2 ≤ 12 * b₀.patchBorder)
    {w : Option (Wcs (SpherePoint ℝ) ℝ)} (hw' : w = none ∨ w = some t.wcs)
    (h90 : ∀ c ∈ p.getOuterSkyPolygon w, greatCircle crval c < π / 2) {s : SpherePoint ℝ}
    {px : Point2I} (hpx : t.wcs.PixelOf s px) (hin : p.innerBBox.contains px = true) : InPolygon (p.getOuterSkyPolygon w) s := by
  obtain ⟨S, e2, e3⟩ := (TractInfo.new_built h hx hy).patchSides hb hp
  rw [WcsFactory.makeWcs_eq (P := .STG) hf rfl] at hw
  obtain ⟨crpix', e⟩ := TractInfo.new_wcs h hw
  have ew : w.getD p.wcs = t.wcs := by
    rw [e2]
    rcases hw' with rfl | rfl <;> rfl
  unfold PatchInfo.getOuterSkyPolygon getSkyPolygon at h90 ⊢
  rw [ew, e] at h90 ⊢
  unfold TractInfo.contains at hc
  rw [e, stg_crval] at hc
  have ha : t.bbox.Area crpix' := Box2I.area_of_contains hc
  obtain ⟨q, hq, rfl⟩ := hpx
  rw [e] at hq
  have d1 : (p.outerBBox.dim.x : ℝ) ≤ b₀.patchInnerDimensions.x + 2 * b₀.patchBorder := by
    have := S.wx
    rw [e3] at this
    exact_mod_cast this
  have d2 : (p.outerBBox.dim.y : ℝ) ≤ b₀.patchInnerDimensions.y + 2 * b₀.patchBorder := by
    have := S.wy
    rw [e3] at this
    exact_mod_cast this
  have p1 : (0 : ℝ) < p.outerBBox.dim.x := by exact_mod_cast S.dx
  have p2 : (0 : ℝ) < p.outerBBox.dim.y := by exact_mod_cast S.dy
  refine stg_outer (border := b₀.patchBorder) hs ⟨S.dx, S.dy⟩ ((mul_le_mul_of_nonneg_left d1 hs.le).trans hwx)
    ((mul_le_mul_of_nonneg_left d2 hs.le).trans hwy)
    ((mul_le_mul_of_nonneg_left (pow_le_pow_left₀ p1.le d1 2) hs.le).trans hbx)
    ((mul_le_mul_of_nonneg_left (pow_le_pow_left₀ p2.le d2 2) hs.le).trans hby) h90 S.x0 S.x1 S.y0 S.y1 ?_ ?_ ?_ ?_ hq (Box2I.area_of_contains hin)
  · exact S.left.imp (fun h => by exact_mod_cast h) (fun h => by rw [h]; exact ha.1)
  · refine S.right.imp (fun h => by exact_mod_cast h) (fun h => ?_)
    have : (p.outerBBox.min.x : ℝ) + p.outerBBox.dim.x = t.bbox.min.x + t.bbox.dim.x := by exact_mod_cast h
    rw [this]; exact ha.2.1
  · exact S.bottom.imp (fun h => by exact_mod_cast h) (fun h => by rw [h]; exact ha.2.2.1)
  · refine S.top.imp (fun h => by exact_mod_cast h) (fun h => ?_)
    have : (p.outerBBox.min.y : ℝ) + p.outerBBox.dim.y = t.bbox.min.y + t.bbox.dim.y := by exact_mod_cast h
    rw [this]; exact ha.2.2.2

/-- C65: borders are needed: with the projection STG there is, for every patch to the right of the reference pixel, a position whose pixel is in the
patch's inner box, for which `findPatch` finds the patch, but which is not in its inner polygon; without border it is not in its outer polygon either. -/
theorem C65_stg_gap (he : env.Ok) (h : TractInfo.new env ops b₀ a = .ok (t, b)) (hx : 0 < b₀.patchInnerDimensions.x) (hy : 0 < b₀.patchInnerDimensions.y)
    (hb : 0 ≤ b₀.patchBorder) (hf : WcsFactory.new scale "STG" θ flipX = .ok f) (hs : 0 < scale)
    (hw : a.wcs = f.makeWcs other crpix crval) (sx : t.getBBox.dim.x < 2 ^ 53) (sy : t.getBBox.dim.y < 2 ^ 53)
    {i : Index2D} {p : PatchInfo (Wcs (SpherePoint ℝ) ℝ)} (hp : t.getPatchInfo b (.index2D i) = .ok p)
    {r : P2 ℝ} (hr : t.wcs.skyToPixel crval = .pix r) (hright : r.x < (p.innerBBox.min.x : ℝ) - 1 / 2)
    (h90 : ∀ c ∈ p.getInnerSkyPolygon none, greatCircle crval c < π / 2) :
    ∃ s px, t.wcs.PixelOf s px ∧ p.innerBBox.contains px = true ∧ t.findPatch env b s = .ok p ∧ ¬ InPolygon (p.getInnerSkyPolygon none) s ∧
      (b₀.patchBorder = 0 → ¬ InPolygon (p.getOuterSkyPolygon none) s) := by
  have B := TractInfo.new_built h hx hy
  obtain ⟨S, e2, e3⟩ := B.patchSides hb hp
  have hw0 := hw
  rw [WcsFactory.makeWcs_eq (P := .STG) hf rfl] at hw
  obtain ⟨crpix', e⟩ := TractInfo.new_wcs h hw
  rw [e, stg_crval, PixRes.pix.injEq] at hr
  subst hr
  have hdx : 0 < p.innerBBox.dim.x := by rw [e3]; exact hx
  have hdy : 0 < p.innerBBox.dim.y := by rw [e3]; exact hy
  unfold PatchInfo.getInnerSkyPolygon getSkyPolygon at h90
  rw [Option.getD_none, e2, e] at h90
  have hrt := WcsFactory.C56_pixel_roundtrip (other := other) (P := .STG) hf hs.ne' rfl crpix' crval
    ⟨p.innerBBox.min.x - 1 / 2, p.innerBBox.min.y + p.innerBBox.dim.y / 2 - 1 / 2⟩ (by simp)
  rw [WcsFactory.makeWcs_eq (P := .STG) hf rfl] at hrt
  generalize (makeSkyWcs crpix' crval (makeCdMatrix scale θ flipX) .STG).pixelToSky
    ⟨p.innerBBox.min.x - 1 / 2, p.innerBBox.min.y + p.innerBBox.dim.y / 2 - 1 / 2⟩ = s at hrt
  have hgap := stg_gap hs ⟨hdx, hdy⟩ hright h90 hrt rfl rfl
  have hin : p.innerBBox.contains (toPoint2I (⟨p.innerBBox.min.x - 1 / 2, p.innerBBox.min.y + p.innerBBox.dim.y / 2 - 1 / 2⟩ : P2 ℝ)) = true := by
    rw [Box2I.contains_iff]
    unfold toPoint2I
    dsimp only
    have d2 : (1 : ℝ) ≤ p.innerBBox.dim.y := by exact_mod_cast hdy
    have a1 : ⌊(p.innerBBox.min.x : ℝ) - 1 / 2 + 1 / 2⌋ = p.innerBBox.min.x := by
      rw [sub_add_cancel, Int.floor_intCast]
    refine ⟨a1.ge, by rw [a1]; omega, Int.le_floor.2 (by linarith), Int.floor_lt.2 (by push_cast; linarith)⟩
  have hpx : t.wcs.PixelOf s (toPoint2I (⟨p.innerBBox.min.x - 1 / 2, p.innerBBox.min.y + p.innerBBox.dim.y / 2 - 1 / 2⟩ : P2 ℝ)) :=
    ⟨_, by rw [e]; exact hrt, rfl⟩
  have hpoly : ¬ InPolygon (p.getInnerSkyPolygon none) s := by
    unfold PatchInfo.getInnerSkyPolygon getSkyPolygon
    rw [Option.getD_none, e2, e]
    exact hgap
  refine ⟨s, _, hpx, hin, B.findPatch_of_inner he h hx hy hb sx sy hp hpx hin, hpoly, fun h0 => ?_⟩
  unfold PatchInfo.getOuterSkyPolygon
  rw [S.outer_eq h0]
  exact hpoly

end tract

end Skymap
