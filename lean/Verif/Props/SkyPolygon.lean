import Verif.Spec.Polygon
import Verif.Props.RegisterConcrete
import Verif.Props.Polygons
import Verif.Lemmas.Frame

/-! # C64: with the TAN projection, on-sky polygons are exactly the sky areas of their boxes -/

set_option linter.unusedSectionVars false

namespace Skymap
open Real Matrix Dodeca SpherePoint

/-- The components of any vector along the direction that has the given local components. -/
theorem fromLocal_dot (c : SpherePoint ℝ) {e n z : ℝ} (h : e ^ 2 + n ^ 2 + z ^ 2 = 1) (W : Vec3) :
    W ⬝ᵥ (fromLocal c e n z).getVector = (W ⬝ᵥ c.eastVec) * e + (W ⬝ᵥ c.northVec) * n + (W ⬝ᵥ c.getVector) * z := by
  obtain ⟨h1, h2, h3⟩ := fromLocal_spec c h
  rw [eastOf_eq, dotProduct_comm] at h1
  rw [northOf_eq, dotProduct_comm] at h2
  rw [cosSep_eq, dotProduct_comm] at h3
  rw [frame_dot c, h1, h2, h3]

/-- A vector in the local frame. -/
theorem local_dot (c p : SpherePoint ℝ) (W : Vec3) : W ⬝ᵥ p.getVector =
    (W ⬝ᵥ c.eastVec) * eastOf c p + (W ⬝ᵥ c.northVec) * northOf c p + (W ⬝ᵥ c.getVector) * cosSep c p := by
  rw [frame_dot c, eastOf_eq, northOf_eq, cosSep_eq, dotProduct_comm c.eastVec, dotProduct_comm c.northVec, dotProduct_comm c.getVector]

theorem tan_dot (c : SpherePoint ℝ) (q : P2 ℝ) (W : Vec3) : ∃ s, 0 < s ∧
    W ⬝ᵥ (Projection.TAN.fromPlane c q).getVector = ((W ⬝ᵥ c.eastVec) * q.x + (W ⬝ᵥ c.northVec) * q.y + W ⬝ᵥ c.getVector) / s := by
  have hs : 0 < √(1 + q.x ^ 2 + q.y ^ 2) := sqrt_pos.2 (by positivity)
  have hs2 := sq_sqrt (show 0 ≤ 1 + q.x ^ 2 + q.y ^ 2 by positivity)
  refine ⟨_, hs, ?_⟩
  unfold Projection.fromPlane
  dsimp only
  rw [fromLocal_dot]
  · field_simp
  · set s := √(1 + q.x ^ 2 + q.y ^ 2)
    field_simp
    linarith

/-- A function of two coordinates that is affine and not negative at the corners of a rectangle is not negative in it. -/
theorem affine_rectangle {A B C x0 x1 y0 y1 x y : ℝ} (h00 : 0 ≤ A * x0 + B * y0 + C) (h10 : 0 ≤ A * x1 + B * y0 + C)
    (h11 : 0 ≤ A * x1 + B * y1 + C) (h01 : 0 ≤ A * x0 + B * y1 + C) (hx0 : x0 ≤ x) (hx1 : x ≤ x1) (hy0 : y0 ≤ y) (hy1 : y ≤ y1) :
    0 ≤ A * x + B * y + C := by
  have ha : min (A * x0) (A * x1) ≤ A * x := by
    rcases le_total 0 A with h | h
    · exact (min_le_left _ _).trans (mul_le_mul_of_nonneg_left hx0 h)
    · exact (min_le_right _ _).trans (mul_le_mul_of_nonpos_left hx1 h)
  have hb : min (B * y0) (B * y1) ≤ B * y := by
    rcases le_total 0 B with h | h
    · exact (min_le_left _ _).trans (mul_le_mul_of_nonneg_left hy0 h)
    · exact (min_le_right _ _).trans (mul_le_mul_of_nonpos_left hy1 h)
  rcases min_choice (A * x0) (A * x1) with h | h <;> rcases min_choice (B * y0) (B * y1) with h' | h' <;> rw [h] at ha <;> rw [h'] at hb <;>
    linarith

theorem mem_polygon {bbox : Box2I} (hbox : bbox.isEmpty = false) (w : Wcs (SpherePoint ℝ) ℝ) (W : Vec3) :
    (∀ s ∈ makeSkyPolygonFromBBox bbox w, 0 ≤ W ⬝ᵥ s.getVector) ↔
      0 ≤ W ⬝ᵥ (w.pixelToSky ⟨(bbox.min.x : ℝ) - 1 / 2, (bbox.min.y : ℝ) - 1 / 2⟩).getVector ∧
      0 ≤ W ⬝ᵥ (w.pixelToSky ⟨(bbox.min.x : ℝ) + bbox.dim.x - 1 / 2, (bbox.min.y : ℝ) - 1 / 2⟩).getVector ∧
      0 ≤ W ⬝ᵥ (w.pixelToSky ⟨(bbox.min.x : ℝ) + bbox.dim.x - 1 / 2, (bbox.min.y : ℝ) + bbox.dim.y - 1 / 2⟩).getVector ∧
      0 ≤ W ⬝ᵥ (w.pixelToSky ⟨(bbox.min.x : ℝ) - 1 / 2, (bbox.min.y : ℝ) + bbox.dim.y - 1 / 2⟩).getVector := by
  rw [makeSkyPolygon_eq bbox w hbox]
  simp only [rectangle, pixelCorner, List.mem_cons, List.not_mem_nil, or_false, forall_eq_or_imp, forall_eq]
  push_cast
  rfl

/-- With a TAN WCS, a position is in the polygon of a rectangle of pixel positions exactly if it has a pixel position, in the rectangle. -/
theorem tan_rectangle {crpix : P2 ℝ} {c : SpherePoint ℝ} {cd : CdMatrix} (hdet : cd.xx * cd.yy - cd.xy * cd.yx ≠ 0) {x0 x1 y0 y1 : ℝ}
    (e1 : x0 < x1) (e2 : y0 < y1) (p : SpherePoint ℝ) :
    InPolygon ([⟨x0, y0⟩, ⟨x1, y0⟩, ⟨x1, y1⟩, ⟨x0, y1⟩].map (makeSkyWcs crpix c cd .TAN).pixelToSky) p ↔
      ∃ q, (makeSkyWcs crpix c cd .TAN).skyToPixel p = .pix q ∧ x0 ≤ q.x ∧ q.x ≤ x1 ∧ y0 ≤ q.y ∧ q.y ≤ y1 := by
  set D := cd.xx * cd.yy - cd.xy * cd.yx with hD
  have corner : ∀ (W : Vec3) (x y : ℝ), ∃ s, 0 < s ∧ W ⬝ᵥ ((makeSkyWcs crpix c cd .TAN).pixelToSky ⟨x, y⟩).getVector =
      ((W ⬝ᵥ c.eastVec) * (cd.xx * (x - crpix.x) + cd.xy * (y - crpix.y)) + (W ⬝ᵥ c.northVec) * (cd.yx * (x - crpix.x) + cd.yy * (y - crpix.y)) +
        W ⬝ᵥ c.getVector) / s := fun W x y => tan_dot c (cd.apply ⟨x - crpix.x, y - crpix.y⟩) W
  have pos : ∀ (W : Vec3) (x y : ℝ), 0 ≤ W ⬝ᵥ ((makeSkyWcs crpix c cd .TAN).pixelToSky ⟨x, y⟩).getVector ↔
      0 ≤ (W ⬝ᵥ c.eastVec) * (cd.xx * (x - crpix.x) + cd.xy * (y - crpix.y)) + (W ⬝ᵥ c.northVec) * (cd.yx * (x - crpix.x) + cd.yy * (y - crpix.y)) +
        W ⬝ᵥ c.getVector := by
    intro W x y
    obtain ⟨s, hs, e⟩ := corner W x y
    rw [e]
    exact ⟨fun h => by have := mul_nonneg h hs.le; rwa [div_mul_cancel₀ _ hs.ne'] at this, fun h => div_nonneg h hs.le⟩
  unfold InPolygon
  simp only [List.map_cons, List.map_nil, List.mem_cons, List.not_mem_nil, or_false, forall_eq_or_imp, forall_eq, pos]
  have frame : ∀ a b k : ℝ, (a • c.eastVec + b • c.northVec + k • c.getVector) ⬝ᵥ c.eastVec = a ∧
      (a • c.eastVec + b • c.northVec + k • c.getVector) ⬝ᵥ c.northVec = b ∧
      (a • c.eastVec + b • c.northVec + k • c.getVector) ⬝ᵥ c.getVector = k := by
    intro a b k
    have f1 := east_unit c; have f2 := north_unit c; have f3 := vec_unit c
    have f4 := east_north c; have f5 := east_vec c; have f6 := north_vec c
    refine ⟨?_, ?_, ?_⟩ <;> simp only [add_dotProduct, smul_dotProduct, smul_eq_mul]
    · rw [f1, dotProduct_comm c.northVec, f4, dotProduct_comm c.getVector, f5]; ring
    · rw [f4, f2, dotProduct_comm c.getVector, f6]; ring
    · rw [f5, f6, f3]; ring
  constructor
  · intro h
    have key : ∀ a b k : ℝ,
        0 ≤ a * (cd.xx * (x0 - crpix.x) + cd.xy * (y0 - crpix.y)) + b * (cd.yx * (x0 - crpix.x) + cd.yy * (y0 - crpix.y)) + k →
        0 ≤ a * (cd.xx * (x1 - crpix.x) + cd.xy * (y0 - crpix.y)) + b * (cd.yx * (x1 - crpix.x) + cd.yy * (y0 - crpix.y)) + k →
        0 ≤ a * (cd.xx * (x1 - crpix.x) + cd.xy * (y1 - crpix.y)) + b * (cd.yx * (x1 - crpix.x) + cd.yy * (y1 - crpix.y)) + k →
        0 ≤ a * (cd.xx * (x0 - crpix.x) + cd.xy * (y1 - crpix.y)) + b * (cd.yx * (x0 - crpix.x) + cd.yy * (y1 - crpix.y)) + k →
        0 ≤ a * eastOf c p + b * northOf c p + k * cosSep c p := by
      intro a b k h1 h2 h3 h4
      have := h (a • c.eastVec + b • c.northVec + k • c.getVector)
      rw [local_dot c p] at this
      simp only [frame] at this
      exact this ⟨h1, h2, h3, h4⟩
    have hu := local_sq c p
    generalize hE : eastOf c p = E at *
    generalize hN : northOf c p = N at *
    generalize hZ : cosSep c p = Z at *
    have z0 : 0 ≤ Z := by have := key 0 0 1 (by simp) (by simp) (by simp) (by simp); simpa using this
    -- the four sides
    have id1 : ∀ x y : ℝ, cd.yy / D * (cd.xx * (x - crpix.x) + cd.xy * (y - crpix.y)) + -(cd.xy / D) * (cd.yx * (x - crpix.x) + cd.yy * (y - crpix.y)) =
        x - crpix.x := by
      intro x y
      clear_value D
      field_simp
      rw [hD]; ring
    have id2 : ∀ x y : ℝ, -(cd.yx / D) * (cd.xx * (x - crpix.x) + cd.xy * (y - crpix.y)) + cd.xx / D * (cd.yx * (x - crpix.x) + cd.yy * (y - crpix.y)) =
        y - crpix.y := by
      intro x y
      clear_value D
      field_simp
      rw [hD]; ring
    have id1' : ∀ x y : ℝ, -(cd.yy / D) * (cd.xx * (x - crpix.x) + cd.xy * (y - crpix.y)) + cd.xy / D * (cd.yx * (x - crpix.x) + cd.yy * (y - crpix.y)) =
        -(x - crpix.x) := by intro x y; linear_combination -(id1 x y)
    have id2' : ∀ x y : ℝ, cd.yx / D * (cd.xx * (x - crpix.x) + cd.xy * (y - crpix.y)) + -(cd.xx / D) * (cd.yx * (x - crpix.x) + cd.yy * (y - crpix.y)) =
        -(y - crpix.y) := by intro x y; linear_combination -(id2 x y)
    have s1 := key (cd.yy / D) (-(cd.xy / D)) (crpix.x - x0) (by rw [id1]; linarith) (by rw [id1]; linarith) (by rw [id1]; linarith) (by rw [id1]; linarith)
    have s2 := key (-(cd.yy / D)) (cd.xy / D) (x1 - crpix.x) (by rw [id1']; linarith) (by rw [id1']; linarith) (by rw [id1']; linarith)
      (by rw [id1']; linarith)
    have s3 := key (-(cd.yx / D)) (cd.xx / D) (crpix.y - y0) (by rw [id2]; linarith) (by rw [id2]; linarith) (by rw [id2]; linarith) (by rw [id2]; linarith)
    have s4 := key (cd.yx / D) (-(cd.xx / D)) (y1 - crpix.y) (by rw [id2']; linarith) (by rw [id2']; linarith) (by rw [id2']; linarith)
      (by rw [id2']; linarith)
    have zp : 0 < Z := by
      rcases z0.eq_or_lt with h0 | h0
      · exfalso
        rw [← h0] at s1 s2 s3 s4 hu
        have t1 : cd.yy / D * E - cd.xy / D * N = 0 := by linarith
        have t2 : cd.xx / D * N - cd.yx / D * E = 0 := by linarith
        have t1' : cd.yy * E - cd.xy * N = 0 := by
          have : (cd.yy * E - cd.xy * N) / D = 0 := by rw [← t1]; ring
          simpa [hdet] using this
        have t2' : cd.xx * N - cd.yx * E = 0 := by
          have : (cd.xx * N - cd.yx * E) / D = 0 := by rw [← t2]; ring
          simpa [hdet] using this
        have tE : D * E = 0 := by rw [hD]; linear_combination cd.xx * t1' + cd.xy * t2'
        have tN : D * N = 0 := by rw [hD]; linear_combination cd.yx * t1' + cd.yy * t2'
        have hE0 : E = 0 := by simpa [hdet] using tE
        have hN0 : N = 0 := by simpa [hdet] using tN
        rw [hE0, hN0] at hu
        norm_num at hu
      · exact h0
    have ez : ∀ k : ℝ, k * Z / Z = k := fun k => by field_simp
    refine ⟨_, by simp only [makeSkyWcs, Projection.toPlane, hZ, if_pos zp]; rfl, ?_⟩
    simp only [CdMatrix.solve, ← hD, hE, hN]
    have r1 : (cd.yy * (E / Z) - cd.xy * (N / Z)) / D = (cd.yy / D * E + -(cd.xy / D) * N) / Z := by field_simp; ring
    have r2 : (cd.xx * (N / Z) - cd.yx * (E / Z)) / D = (-(cd.yx / D) * E + cd.xx / D * N) / Z := by field_simp; ring
    rw [r1, r2]
    have b1 : (x0 - crpix.x) ≤ (cd.yy / D * E + -(cd.xy / D) * N) / Z := by rw [le_div_iff₀ zp]; linarith
    have b2 : (cd.yy / D * E + -(cd.xy / D) * N) / Z ≤ x1 - crpix.x := by rw [div_le_iff₀ zp]; linarith
    have b3 : (y0 - crpix.y) ≤ (-(cd.yx / D) * E + cd.xx / D * N) / Z := by rw [le_div_iff₀ zp]; linarith
    have b4 : (-(cd.yx / D) * E + cd.xx / D * N) / Z ≤ y1 - crpix.y := by rw [div_le_iff₀ zp]; linarith
    exact ⟨by linarith, by linarith, by linarith, by linarith⟩
  · rintro ⟨q, hq, ha⟩ W ⟨h1, h2, h3, h4⟩
    simp only [makeSkyWcs, Projection.toPlane] at hq
    by_cases zp : 0 < cosSep c p
    swap
    · rw [if_neg zp] at hq; simp at hq
    rw [if_pos zp] at hq
    simp only [PixRes.pix.injEq, CdMatrix.solve, ← hD] at hq
    rw [local_dot c p]
    generalize hE : eastOf c p = E at *
    generalize hN : northOf c p = N at *
    generalize hZ : cosSep c p = Z at *
    generalize W ⬝ᵥ c.eastVec = a at *
    generalize W ⬝ᵥ c.northVec = b at *
    generalize W ⬝ᵥ c.getVector = k at *
    have hqx : q.x - crpix.x = (cd.yy * (E / Z) - cd.xy * (N / Z)) / D := by rw [← hq]; ring
    have hqy : q.y - crpix.y = (cd.xx * (N / Z) - cd.yx * (E / Z)) / D := by rw [← hq]; ring
    have hE' : E = Z * (cd.xx * (q.x - crpix.x) + cd.xy * (q.y - crpix.y)) := by
      rw [hqx, hqy]
      have : cd.xx * ((cd.yy * (E / Z) - cd.xy * (N / Z)) / D) + cd.xy * ((cd.xx * (N / Z) - cd.yx * (E / Z)) / D) = D / D * (E / Z) := by
        rw [hD]; ring
      rw [this, div_self hdet]; field_simp
    have hN' : N = Z * (cd.yx * (q.x - crpix.x) + cd.yy * (q.y - crpix.y)) := by
      rw [hqx, hqy]
      have : cd.yx * ((cd.yy * (E / Z) - cd.xy * (N / Z)) / D) + cd.yy * ((cd.xx * (N / Z) - cd.yx * (E / Z)) / D) = D / D * (N / Z) := by
        rw [hD]; ring
      rw [this, div_self hdet]; field_simp
    have := affine_rectangle (A := a * cd.xx + b * cd.yx) (B := a * cd.xy + b * cd.yy)
      (C := k - (a * cd.xx + b * cd.yx) * crpix.x - (a * cd.xy + b * cd.yy) * crpix.y) (x0 := x0) (x1 := x1) (y0 := y0) (y1 := y1) (x := q.x) (y := q.y)
      (by linarith) (by linarith) (by linarith) (by linarith) ha.1 ha.2.1 ha.2.2.1 ha.2.2.2
    rw [hE', hN']
    have e : a * (Z * (cd.xx * (q.x - crpix.x) + cd.xy * (q.y - crpix.y))) + b * (Z * (cd.yx * (q.x - crpix.x) + cd.yy * (q.y - crpix.y))) + k * Z =
      Z * ((a * cd.xx + b * cd.yx) * q.x + (a * cd.xy + b * cd.yy) * q.y + (k - (a * cd.xx + b * cd.yx) * crpix.x - (a * cd.xy + b * cd.yy) * crpix.y)) := by
      ring
    rw [e]
    exact mul_nonneg zp.le this

/-- C64 for one box: with a TAN WCS, a position is in the polygon of a box exactly if it has a pixel position, in the area of the box. -/
theorem tan_polygon {crpix : P2 ℝ} {c : SpherePoint ℝ} {cd : CdMatrix} (hdet : cd.xx * cd.yy - cd.xy * cd.yx ≠ 0) {bbox : Box2I}
    (hdim : 0 < bbox.dim.x ∧ 0 < bbox.dim.y) (p : SpherePoint ℝ) :
    InPolygon (makeSkyPolygonFromBBox bbox (makeSkyWcs crpix c cd .TAN)) p ↔
      ∃ q, (makeSkyWcs crpix c cd .TAN).skyToPixel p = .pix q ∧ bbox.Area q := by
  have hbox : bbox.isEmpty = false := by unfold Box2I.isEmpty; simp; omega
  have e1 : (bbox.min.x : ℝ) - 1 / 2 < (bbox.min.x : ℝ) + bbox.dim.x - 1 / 2 := by
    have : (0 : ℝ) < bbox.dim.x := by exact_mod_cast hdim.1
    linarith
  have e2 : (bbox.min.y : ℝ) - 1 / 2 < (bbox.min.y : ℝ) + bbox.dim.y - 1 / 2 := by
    have : (0 : ℝ) < bbox.dim.y := by exact_mod_cast hdim.2
    linarith
  refine Iff.trans ?_ (tan_rectangle hdet e1 e2 p)
  unfold InPolygon
  simp only [mem_polygon hbox, List.map_cons, List.map_nil, List.mem_cons, List.not_mem_nil, or_false, forall_eq_or_imp, forall_eq]


/-! ## Tracts, patches and cells -/

section tract
variable {env : FloatEnv ℝ} {ops : SkyOps (SpherePoint ℝ) ℝ} {b₀ b : TractBuilder} {a : TractArgs (SpherePoint ℝ) ℝ}
  {t : TractInfo (SpherePoint ℝ) ℝ} {scale θ : ℝ} {flipX : Bool} {f : WcsFactory}
  {other : P2 ℝ → SpherePoint ℝ → CdMatrix → String → Wcs (SpherePoint ℝ) ℝ} {crpix : P2 ℝ} {crval : SpherePoint ℝ}

theorem makeSkyWcs_shift (crpix : P2 ℝ) (c : SpherePoint ℝ) (cd : CdMatrix) (P : Projection) (s : P2 ℝ) :
    (makeSkyWcs crpix c cd P).copyAtShiftedPixelOrigin s = makeSkyWcs ⟨crpix.x + s.x, crpix.y + s.y⟩ c cd P := by
  unfold makeSkyWcs Wcs.copyAtShiftedPixelOrigin
  congr 1
  · funext p
    dsimp only
    cases P.toPlane c p with
    | none => rfl
    | some q => dsimp only; congr 2 <;> ring
  · funext p
    dsimp only
    congr 3 <;> ring

/-- The WCS of a tract is that of its constructor, with another reference pixel. -/
theorem TractInfo.new_wcs (h : TractInfo.new env ops b₀ a = .ok (t, b)) {cd : CdMatrix} {P : Projection}
    (hw : a.wcs = makeSkyWcs crpix crval cd P) : ∃ crpix', t.wcs = makeSkyWcs crpix' crval cd P := by
  obtain ⟨mb, bbox, n, -, -, rfl⟩ := TractInfo.new_inv h
  dsimp only [finalOrientation]
  rw [hw, makeSkyWcs_shift]
  exact ⟨_, rfl⟩

/-- For a tract of a sky map with TAN projection. -/
theorem TractInfo.tan_polygon (h : TractInfo.new env ops b₀ a = .ok (t, b)) (hf : WcsFactory.new scale "TAN" θ flipX = .ok f) (hs : scale ≠ 0)
    (hw : a.wcs = f.makeWcs other crpix crval) {bbox : Box2I} (hdim : 0 < bbox.dim.x ∧ 0 < bbox.dim.y) (s : SpherePoint ℝ) :
    InPolygon (makeSkyPolygonFromBBox bbox t.wcs) s ↔ ∃ q, t.wcs.skyToPixel s = .pix q ∧ bbox.Area q := by
  rw [WcsFactory.makeWcs_eq (P := .TAN) hf rfl] at hw
  obtain ⟨crpix', e⟩ := TractInfo.new_wcs h hw
  rw [e]
  exact Skymap.tan_polygon (makeCdMatrix_det hs θ flipX) hdim s

theorem Box2I.contains_dim {x : Box2I} {p : Point2I} (h : x.contains p = true) : 0 < x.dim.x ∧ 0 < x.dim.y := by
  rw [Box2I.contains_iff] at h
  omega

/-- The pixel of a point in the box: the point is in its area. -/
theorem Box2I.area_of_contains {x : Box2I} {q : P2 ℝ} (h : x.contains (toPoint2I q) = true) : x.Area q := by
  rw [Box2I.contains_iff] at h
  obtain ⟨h1, h2, h3, h4⟩ := h
  simp only [toPoint2I] at h1 h2 h3 h4
  have g1 := Int.le_floor.1 h1
  have g2 := Int.floor_lt.1 h2
  have g3 := Int.le_floor.1 h3
  have g4 := Int.floor_lt.1 h4
  push_cast at g2 g4
  unfold Box2I.Area
  exact ⟨by linarith, by linarith, by linarith, by linarith⟩

/-- A tract that is not empty has pixels in both directions. -/
theorem TractInfo.Built.dim_pos (B : t.Built b₀ b) (hne : t.getBBox.isEmpty = false) : 0 < t.bbox.dim.x ∧ 0 < t.bbox.dim.y := by
  change t.bbox.isEmpty = false at hne
  have h1 := B.ready.dx; have h2 := B.ready.dy; have h3 := B.ready.nx; have h4 := B.ready.ny
  have e := B.box
  rcases h3.eq_or_lt with z | z
  · rw [e, ← z] at hne; simp [Box2I.mk', Box2I.empty, Box2I.isEmpty] at hne
  · rcases h4.eq_or_lt with z' | z'
    · rw [e, ← z'] at hne; simp [Box2I.mk', Box2I.empty, Box2I.isEmpty] at hne
    · rw [e, Box2I.mk'_pos _ _ (mul_pos z h1) (mul_pos z' h2)]
      exact ⟨mul_pos z h1, mul_pos z' h2⟩

/-- C64: a position is in the outer polygon of a tract with TAN projection exactly if its pixel position is in the area of the tract. -/
theorem C64_tract (h : TractInfo.new env ops b₀ a = .ok (t, b)) (hx : 0 < b₀.patchInnerDimensions.x) (hy : 0 < b₀.patchInnerDimensions.y)
    (hne : t.getBBox.isEmpty = false) (hf : WcsFactory.new scale "TAN" θ flipX = .ok f) (hs : scale ≠ 0)
    (hw : a.wcs = f.makeWcs other crpix crval) (s : SpherePoint ℝ) :
    InPolygon t.getOuterSkyPolygon s ↔ ∃ q, t.wcs.skyToPixel s = .pix q ∧ t.getBBox.Area q :=
  TractInfo.tan_polygon h hf hs hw ((TractInfo.new_built h hx hy).dim_pos hne) s

/-- C64: the same for the inner and the outer polygon of each of its patches, with the stored WCS or the tract's. -/
theorem C64_patch (h : TractInfo.new env ops b₀ a = .ok (t, b)) (hx : 0 < b₀.patchInnerDimensions.x) (hy : 0 < b₀.patchInnerDimensions.y)
    (hb : 0 ≤ b₀.patchBorder) (hf : WcsFactory.new scale "TAN" θ flipX = .ok f) (hs : scale ≠ 0)
    (hw : a.wcs = f.makeWcs other crpix crval) {i : Index2D} {p : PatchInfo (Wcs (SpherePoint ℝ) ℝ)}
    (hp : t.getPatchInfo b (.index2D i) = .ok p) {w : Option (Wcs (SpherePoint ℝ) ℝ)} (hw' : w = none ∨ w = some t.wcs) (s : SpherePoint ℝ) :
    (InPolygon (p.getInnerSkyPolygon w) s ↔ ∃ q, t.wcs.skyToPixel s = .pix q ∧ p.innerBBox.Area q) ∧
    (InPolygon (p.getOuterSkyPolygon w) s ↔ ∃ q, t.wcs.skyToPixel s = .pix q ∧ p.outerBBox.Area q) := by
  have B := TractInfo.new_built h hx hy
  have hb' : 0 ≤ b.patchBorder := by rw [B.border]; exact hb
  obtain ⟨hr, rfl⟩ := (B.ready.getPatchInfo_iff hb' _ t.wcs _).1 hp
  have e : w.getD (b.patchVal t.numPatches i t.wcs).wcs = t.wcs := by
    rw [TractBuilder.patchVal_wcs]
    rcases hw' with rfl | rfl <;> rfl
  have hin := TractBuilder.patchInnerBBox_eq B.ready.dx B.ready.dy i
  have hc := B.ready.patchVal_outer_contains hb' hr t.wcs
  unfold PatchInfo.getInnerSkyPolygon PatchInfo.getOuterSkyPolygon getSkyPolygon
  rw [e]
  constructor
  · refine TractInfo.tan_polygon h hf hs hw ?_ s
    rw [TractBuilder.patchVal_inner, hin]
    exact ⟨B.ready.dx, B.ready.dy⟩
  · refine TractInfo.tan_polygon h hf hs hw ?_ s
    unfold Box2I.containsBox at hc
    rw [Bool.or_eq_true, Bool.and_eq_true] at hc
    rcases hc with hc | hc
    · rw [hin, Box2I.isEmpty_iff] at hc
      have := B.ready.dx
      dsimp only at hc
      omega
    · exact Box2I.contains_dim hc.1

/-- C64: the same for cells. -/
theorem C64_cell {cfg : CellTractBuilderConfig} {cx cy : Int} (hcfg : cfg.Sane cx cy) (hnew : CellTractBuilder.new cfg = .ok b₀)
    (h : TractInfo.new env ops b₀ a = .ok (t, b)) (hf : WcsFactory.new scale "TAN" θ flipX = .ok f) (hs : scale ≠ 0)
    (hw : a.wcs = f.makeWcs other crpix crval) {i j : Index2D} {p : PatchInfo (Wcs (SpherePoint ℝ) ℝ)} {c : CellInfo (Wcs (SpherePoint ℝ) ℝ)}
    (hp : t.getPatchInfo b (.index2D i) = .ok p) (hc : p.getCellInfo (.index2D j) = .ok c) {w : Option (Wcs (SpherePoint ℝ) ℝ)}
    (hw' : w = none ∨ w = some t.wcs) (s : SpherePoint ℝ) :
    (InPolygon (c.getInnerSkyPolygon w) s ↔ ∃ q, t.wcs.skyToPixel s = .pix q ∧ c.innerBBox.Area q) ∧
    (InPolygon (c.getOuterSkyPolygon w) s ↔ ∃ q, t.wcs.skyToPixel s = .pix q ∧ c.outerBBox.Area q) := by
  have e1 := (C52_cell_inner hcfg hnew h i j p c hp hc w)
  dsimp only at e1
  obtain ⟨C, hm, -, -, -⟩ := cellPatch_of_new hcfg hnew h hp
  obtain ⟨-, rfl⟩ := (C.getCellInfo_iff j c).1 hc
  have hx := hcfg.cx_pos
  have hy := hcfg.cy_pos
  have hcb := hcfg.cb_nonneg
  have e : w.getD t.wcs = t.wcs := by rcases hw' with rfl | rfl <;> rfl
  rw [e] at e1
  rw [e1.1, e1.2]
  have g1 := TractInfo.tan_polygon h hf hs hw (bbox := (cellVal p ⟨cx, cy⟩ cfg.numCellsInPatchBorder cfg.cellBorder j).innerBBox) ⟨hx, hy⟩ s
  have g2 := TractInfo.tan_polygon h hf hs hw (bbox := (cellVal p ⟨cx, cy⟩ cfg.numCellsInPatchBorder cfg.cellBorder j).outerBBox)
    ⟨by change 0 < cx + 2 * cfg.cellBorder; omega, by change 0 < cy + 2 * cfg.cellBorder; omega⟩ s
  rw [makeSkyPolygon_eq _ _ (by unfold Box2I.isEmpty cellVal cellBox; exact decide_eq_false (by dsimp only; omega))] at g1
  rw [makeSkyPolygon_eq _ _ (by unfold Box2I.isEmpty cellVal cellOuter; exact decide_eq_false (by dsimp only; omega))] at g2
  constructor
  · rw [← g1]
    simp only [cellVal, cellBox, hm]
    constructor <;> (intro hh; convert hh using 2 <;> ring)
  · rw [← g2]
    simp only [cellVal, cellOuter, hm]
    constructor <;> (intro hh; convert hh using 2 <;> ring)

/-- A position that the tract contains is in its outer polygon. -/
theorem C64_contains (h : TractInfo.new env ops b₀ a = .ok (t, b)) (hx : 0 < b₀.patchInnerDimensions.x) (hy : 0 < b₀.patchInnerDimensions.y)
    (hf : WcsFactory.new scale "TAN" θ flipX = .ok f) (hs : scale ≠ 0) (hw : a.wcs = f.makeWcs other crpix crval) {s : SpherePoint ℝ}
    (hc : t.contains s = true) : InPolygon t.getOuterSkyPolygon s := by
  unfold TractInfo.contains at hc
  cases hq : t.wcs.skyToPixel s with
  | raises => rw [hq] at hc; simp at hc
  | nonfinite => rw [hq] at hc; simp at hc
  | pix q =>
    rw [hq] at hc
    dsimp only at hc
    refine (C64_tract h hx hy ?_ hf hs hw s).2 ⟨q, hq, Box2I.area_of_contains hc⟩
    have := Box2I.contains_dim hc
    unfold Box2I.isEmpty
    exact decide_eq_false (by omega)

/-- The position is in the inner and outer polygon of the patch whose inner box contains its pixel. -/
theorem C64_pixel (h : TractInfo.new env ops b₀ a = .ok (t, b)) (hx : 0 < b₀.patchInnerDimensions.x) (hy : 0 < b₀.patchInnerDimensions.y)
    (hb : 0 ≤ b₀.patchBorder) (hf : WcsFactory.new scale "TAN" θ flipX = .ok f) (hs : scale ≠ 0)
    (hw : a.wcs = f.makeWcs other crpix crval) {i : Index2D} {p : PatchInfo (Wcs (SpherePoint ℝ) ℝ)}
    (hp : t.getPatchInfo b (.index2D i) = .ok p) {w : Option (Wcs (SpherePoint ℝ) ℝ)} (hw' : w = none ∨ w = some t.wcs) {s : SpherePoint ℝ}
    {px : Point2I} (hpx : t.wcs.PixelOf s px) (hin : p.innerBBox.contains px = true) :
    InPolygon (p.getInnerSkyPolygon w) s ∧ InPolygon (p.getOuterSkyPolygon w) s := by
  obtain ⟨q, hq, rfl⟩ := hpx
  obtain ⟨h1, h2⟩ := C64_patch h hx hy hb hf hs hw hp hw' s
  refine ⟨h1.2 ⟨q, hq, Box2I.area_of_contains hin⟩, h2.2 ⟨q, hq, Box2I.area_of_contains ?_⟩⟩
  have B := TractInfo.new_built h hx hy
  have hb' : 0 ≤ b.patchBorder := by rw [B.border]; exact hb
  obtain ⟨hr, rfl⟩ := (B.ready.getPatchInfo_iff hb' _ t.wcs _).1 hp
  have hc := B.ready.patchVal_outer_contains hb' hr t.wcs
  rw [TractBuilder.patchVal_inner] at hin
  rw [TractBuilder.patchInnerBBox_eq B.ready.dx B.ready.dy i] at hc hin
  unfold Box2I.containsBox at hc
  rw [Bool.or_eq_true, Bool.and_eq_true, Box2I.isEmpty_iff] at hc
  have hd := B.ready.dx
  rcases hc with hc | ⟨hc1, hc2⟩
  · dsimp only at hc; omega
  · rw [Box2I.contains_iff] at hin hc1 hc2 ⊢
    simp only [Box2I.getMin, Box2I.getMax, toPoint2I] at hin hc1 hc2 ⊢
    omega

/-- C64: the position for which a patch is found is in the patch's inner polygon and in its outer polygon. -/
theorem C64_findPatch (he : env.Ok) (h : TractInfo.new env ops b₀ a = .ok (t, b)) (hx : 0 < b₀.patchInnerDimensions.x)
    (hy : 0 < b₀.patchInnerDimensions.y) (hb : 0 ≤ b₀.patchBorder) (hf : WcsFactory.new scale "TAN" θ flipX = .ok f) (hs : scale ≠ 0)
    (hw : a.wcs = f.makeWcs other crpix crval) (sx : t.getBBox.dim.x < 2 ^ 53) (sy : t.getBBox.dim.y < 2 ^ 53) {s : SpherePoint ℝ}
    {p : PatchInfo (Wcs (SpherePoint ℝ) ℝ)} (hp : t.findPatch env b s = .ok p) {w : Option (Wcs (SpherePoint ℝ) ℝ)}
    (hw' : w = none ∨ w = some t.wcs) : InPolygon (p.getInnerSkyPolygon w) s ∧ InPolygon (p.getOuterSkyPolygon w) s := by
  by_cases hc : ∃ px, t.wcs.PixelOf s px ∧ t.getBBox.contains px = true
  · obtain ⟨px, h1, h2⟩ := hc
    obtain ⟨p', e1, e2, e3⟩ := C08_findPatch he h hx hy hb sx sy s px h1 h2
    rw [hp, Except.ok.injEq] at e1
    subst e1
    exact C64_pixel h hx hy hb hf hs hw e3 hw' h1 e2
  · rw [C08_findPatch_lookupError he h hx hy s (fun px h1 => by
      rw [Bool.eq_false_iff]; exact fun h2 => hc ⟨px, h1, h2⟩)] at hp
    simp at hp

theorem grid_index {d n : Int} (hd : 0 < d) (hn : 0 < n) {X : ℝ} (h0 : 0 ≤ X) (h1 : X ≤ n * d) :
    ∃ i : Int, 0 ≤ i ∧ i < n ∧ (i : ℝ) * d ≤ X ∧ X ≤ (i + 1) * d := by
  have hd' : (0 : ℝ) < d := by exact_mod_cast hd
  have hn' : (0 : ℝ) < n := by exact_mod_cast hn
  have hf0 : 0 ≤ ⌊X / d⌋ := Int.floor_nonneg.2 (by positivity)
  have g1 := Int.floor_le (X / d)
  have g2 := Int.lt_floor_add_one (X / d)
  rw [le_div_iff₀ hd'] at g1
  rw [div_lt_iff₀ hd'] at g2
  by_cases hlt : ⌊X / d⌋ < n
  · exact ⟨_, hf0, hlt, g1, g2.le⟩
  · refine ⟨n - 1, by omega, by omega, ?_, ?_⟩
    · have : (n : ℝ) ≤ ⌊X / d⌋ := by exact_mod_cast not_lt.1 hlt
      push_cast
      nlinarith
    · push_cast
      linarith

/-- C64: the inner polygons of the patches of a tract cover the tract's outer polygon, and nothing else. -/
theorem C64_tile (h : TractInfo.new env ops b₀ a = .ok (t, b)) (hx : 0 < b₀.patchInnerDimensions.x) (hy : 0 < b₀.patchInnerDimensions.y)
    (hb : 0 ≤ b₀.patchBorder) (hne : t.getBBox.isEmpty = false) (hf : WcsFactory.new scale "TAN" θ flipX = .ok f) (hs : scale ≠ 0)
    (hw : a.wcs = f.makeWcs other crpix crval) (s : SpherePoint ℝ) :
    InPolygon t.getOuterSkyPolygon s ↔ ∃ i p, t.getPatchInfo b (.index2D i) = .ok p ∧ InPolygon (p.getInnerSkyPolygon none) s := by
  have B := TractInfo.new_built h hx hy
  have hb' : 0 ≤ b.patchBorder := by rw [B.border]; exact hb
  have hdp := B.dim_pos hne
  have h1 := B.ready.dx; have h2 := B.ready.dy; have h3 := B.ready.nx; have h4 := B.ready.ny
  have nx : 0 < t.numPatches.x := by
    rcases h3.eq_or_lt with z | z
    · rw [B.box, ← z] at hdp; simp [Box2I.mk', Box2I.empty] at hdp
    · exact z
  have ny : 0 < t.numPatches.y := by
    rcases h4.eq_or_lt with z | z
    · rw [B.box, ← z] at hdp; simp [Box2I.mk', Box2I.empty] at hdp
    · exact z
  have hbox : t.getBBox = ⟨⟨0, 0⟩, ⟨t.numPatches.x * b.patchInnerDimensions.x, t.numPatches.y * b.patchInnerDimensions.y⟩⟩ := by
    change t.bbox = _
    rw [B.box, Box2I.mk'_pos _ _ (mul_pos nx h1) (mul_pos ny h2)]
  have hin := TractBuilder.patchInnerBBox_eq h1 h2
  rw [C64_tract h hx hy hne hf hs hw s, hbox]
  constructor
  · rintro ⟨q, hq, ha⟩
    unfold Box2I.Area at ha
    push_cast at ha
    obtain ⟨ix, i1, i2, i3, i4⟩ := grid_index (X := q.x + 1 / 2) h1 nx (by linarith) (by linarith)
    obtain ⟨iy, j1, j2, j3, j4⟩ := grid_index (X := q.y + 1 / 2) h2 ny (by linarith) (by linarith)
    have hp := (B.ready.getPatchInfo_iff hb' ⟨ix, iy⟩ t.wcs _).2 ⟨⟨i1, i2, j1, j2⟩, rfl⟩
    refine ⟨⟨ix, iy⟩, _, hp, (C64_patch h hx hy hb hf hs hw hp (.inl rfl) s).1.2 ⟨q, hq, ?_⟩⟩
    rw [TractBuilder.patchVal_inner, hin]
    unfold Box2I.Area
    push_cast
    exact ⟨by linarith, by linarith, by linarith, by linarith⟩
  · rintro ⟨i, p, hp, hin'⟩
    obtain ⟨q, hq, ha⟩ := (C64_patch h hx hy hb hf hs hw hp (.inl rfl) s).1.1 hin'
    obtain ⟨⟨r1, r2, r3, r4⟩, rfl⟩ := (B.ready.getPatchInfo_iff hb' _ t.wcs _).1 hp
    rw [TractBuilder.patchVal_inner, hin] at ha
    refine ⟨q, hq, ?_⟩
    unfold Box2I.Area at ha ⊢
    push_cast at ha ⊢
    have c1 : (0 : ℝ) ≤ i.x := by exact_mod_cast r1
    have c2 : (i.x : ℝ) + 1 ≤ t.numPatches.x := by exact_mod_cast r2
    have c3 : (0 : ℝ) ≤ i.y := by exact_mod_cast r3
    have c4 : (i.y : ℝ) + 1 ≤ t.numPatches.y := by exact_mod_cast r4
    have d1 : (0 : ℝ) < b.patchInnerDimensions.x := by exact_mod_cast h1
    have d2 : (0 : ℝ) < b.patchInnerDimensions.y := by exact_mod_cast h2
    have m1 := mul_nonneg c1 d1.le
    have m2 := mul_le_mul_of_nonneg_right c2 d1.le
    have m3 := mul_nonneg c3 d2.le
    have m4 := mul_le_mul_of_nonneg_right c4 d2.le
    exact ⟨by linarith, by linarith, by linarith, by linarith⟩

/-- C64: the inner polygons of two patches have only edges in common: a position in both is on an edge of the lattice of patches. -/
theorem C64_edges (h : TractInfo.new env ops b₀ a = .ok (t, b)) (hx : 0 < b₀.patchInnerDimensions.x) (hy : 0 < b₀.patchInnerDimensions.y)
    (hb : 0 ≤ b₀.patchBorder) (hf : WcsFactory.new scale "TAN" θ flipX = .ok f) (hs : scale ≠ 0)
    (hw : a.wcs = f.makeWcs other crpix crval) {i j : Index2D} (hij : i ≠ j) {p p' : PatchInfo (Wcs (SpherePoint ℝ) ℝ)}
    (hp : t.getPatchInfo b (.index2D i) = .ok p) (hp' : t.getPatchInfo b (.index2D j) = .ok p') {s : SpherePoint ℝ}
    (h1 : InPolygon (p.getInnerSkyPolygon none) s) (h2 : InPolygon (p'.getInnerSkyPolygon none) s) :
    ∃ q, t.wcs.skyToPixel s = .pix q ∧ ((∃ k : Int, q.x = k * b₀.patchInnerDimensions.x - 1 / 2) ∨ ∃ k : Int, q.y = k * b₀.patchInnerDimensions.y - 1 / 2) := by
  obtain ⟨q, hq, ha⟩ := (C64_patch h hx hy hb hf hs hw hp (.inl rfl) s).1.1 h1
  obtain ⟨q', hq', ha'⟩ := (C64_patch h hx hy hb hf hs hw hp' (.inl rfl) s).1.1 h2
  rw [hq, PixRes.pix.injEq] at hq'
  subst hq'
  have B := TractInfo.new_built h hx hy
  have hb' : 0 ≤ b.patchBorder := by rw [B.border]; exact hb
  obtain ⟨-, rfl⟩ := (B.ready.getPatchInfo_iff hb' _ t.wcs _).1 hp
  obtain ⟨-, rfl⟩ := (B.ready.getPatchInfo_iff hb' _ t.wcs _).1 hp'
  rw [TractBuilder.patchVal_inner, TractBuilder.patchInnerBBox_eq B.ready.dx B.ready.dy, B.dims] at ha ha'
  have d1 : (0 : ℝ) < b₀.patchInnerDimensions.x := by exact_mod_cast hx
  have d2 : (0 : ℝ) < b₀.patchInnerDimensions.y := by exact_mod_cast hy
  unfold Box2I.Area at ha ha'
  push_cast at ha ha'
  have key : ∀ {k l : Int} {d X : ℝ}, 0 < d → k ≠ l → k * d ≤ X → X ≤ k * d + d → l * d ≤ X → X ≤ l * d + d → ∃ m : Int, X = m * d := by
    intro k l d X hd hkl a1 a2 a3 a4
    rcases lt_or_gt_of_ne hkl with hlt | hlt
    · have : (k : ℝ) + 1 ≤ l := by exact_mod_cast hlt
      have := mul_le_mul_of_nonneg_right this hd.le
      exact ⟨l, le_antisymm (by linarith) a3⟩
    · have : (l : ℝ) + 1 ≤ k := by exact_mod_cast hlt
      have := mul_le_mul_of_nonneg_right this hd.le
      exact ⟨k, le_antisymm (by linarith) a1⟩
  refine ⟨q, hq, ?_⟩
  by_cases hx' : i.x = j.x
  · right
    have hy' : i.y ≠ j.y := fun e => hij (by cases i; cases j; simp_all)
    obtain ⟨m, e⟩ := key (X := q.y + 1 / 2) d2 hy' (by linarith) (by linarith) (by linarith) (by linarith)
    exact ⟨m, by linarith⟩
  · left
    obtain ⟨m, e⟩ := key (X := q.x + 1 / 2) d1 hx' (by linarith) (by linarith) (by linarith) (by linarith)
    exact ⟨m, by linarith⟩

end tract


/-! ## The regions of a registered rings sky map -/

/-- C64: after a rings sky map with enough overlap has been registered, every position on the sky is in the region of the row of the tract
that `findTract` finds for it, and in the region of a row of one of that tract's patches. -/
theorem Rings.C64_registered {H : Bytes → Bytes} {fault : Nat → Option PyErr} {name : String} {env : FloatEnv ℝ} {b₀ : TractBuilder}
    {scale : ℝ} {flipX : Bool} {f : WcsFactory} {other : P2 ℝ → SpherePoint ℝ → CdMatrix → String → Wcs (SpherePoint ℝ) ℝ}
    {w : World (MapState (SpherePoint ℝ) ℝ) (SpherePoint ℝ)} {c : RingsConfig ℝ} {R : Rings ℝ} (h : Rings.new .exact c 1 = .ok R)
    (hN : 2 ≤ c.numRings) (he : env.Ok) (hx : 0 < b₀.patchInnerDimensions.x)
    (hy : 0 < b₀.patchInnerDimensions.y) (hbord : 0 ≤ b₀.patchBorder) (hf : WcsFactory.new scale "TAN" 0 flipX = .ok f) (hsc : 0 < scale)
    (hov : 30 / ((c.numRings : ℝ) + 1) ≤ c.tractOverlap) (hlim : 90 / ((c.numRings : ℝ) + 1) + c.tractOverlap < 90)
    (hfault : ∀ n, fault n = none)
    {M : SkyMapOps (MapState (SpherePoint ℝ) ℝ) (SpherePoint ℝ) ℝ} (hM : M = Rings.skyMapOps .exact R env sphereOps (f.makeWcs other ⟨0, 0⟩))
    (ha : M.After (Rings.init .exact R env sphereOps (f.makeWcs other ⟨0, 0⟩) b₀) w.map) (hs : w.reg.Sound) {b : Bytes}
    (hb : (w.hashed.getSha1 H).1 = .ok b) (hnew : ∀ x ∈ w.reg.skymaps, x.skymap ≠ name ∧ x.hash ≠ b) :
    ∃ w', BaseSkyMap.register H fault M name w = (.ok (), w') ∧
      ∀ p : SpherePoint ℝ, 0 ≤ p.lon → p.lon < 2 * π → |p.lat| ≤ π / 2 → ∃ r, R.findTract .exact M p w'.map = (.ok r, w'.map) ∧
        (∃ x ∈ w'.reg.tracts, x.skymap = name ∧ x.tract = r.info.id ∧ InPolygon x.region p) ∧
        ∃ y ∈ w'.reg.patches, y.skymap = name ∧ y.tract = r.info.id ∧ InPolygon y.region p := by
  subst hM
  have hN0 : (0 : ℝ) < (c.numRings : ℝ) + 1 := by
    have : (2 : ℝ) ≤ c.numRings := by exact_mod_cast hN
    linarith
  have hov0 : 0 ≤ c.tractOverlap := le_trans (by positivity) hov
  obtain ⟨w', e1, ts, ht, hids, hx1, hx2, hy1, hy2, -⟩ :=
    Rings.C63_registers (other := other) (env := env) (name := name) (fault := fault) (w := w) h hx hy hbord hf hsc (P := .TAN) rfl (by decide) hov0 hlim hfault rfl ha hs hb hnew
  refine ⟨w', e1, fun p l0 l1 l2 => ?_⟩
  have ha' : (skyMapOps .exact R env sphereOps (f.makeWcs other ⟨0, 0⟩)).After (Rings.init .exact R env sphereOps (f.makeWcs other ⟨0, 0⟩) b₀) w'.map := by
    have := acc_register (M := skyMapOps .exact R env sphereOps (f.makeWcs other ⟨0, 0⟩)) H fault name w
    rw [e1] at this
    exact ha.trans this
  obtain ⟨r, s', hr⟩ := C58_total (other := other) (env := env) (b₀ := b₀) h hx hy hf hsc (P := .TAN) rfl (by decide) hov0 hlim ha' ⟨l0, l1⟩ l2
  have hc := C58_covers h hN he hx hy hf hsc (P := .TAN) rfl (by decide) hov hlim ha' ⟨l0, l1⟩ l2 hr
  obtain ⟨i, hi, hin, hfi⟩ := C27_findTract h (skyMapOps .exact R env sphereOps (f.makeWcs other ⟨0, 0⟩)) p ⟨l0, l1⟩ l2
  have hg := hr
  rw [hfi] at hg
  obtain ⟨k, a, hk, hargs, hn⟩ := CachingSkyMap.as_built hx hy
    (CachingSkyMap.uniform_of (same_pixels .exact R env (P := .TAN) hf rfl (by decide)) b₀) ha' hg (SkyMapOps.After.refl _)
  have hkl : k < ts.length := by
    obtain ⟨k', e', hk', -⟩ := fresh_of_getItem ha' hg
    rw [ht.1]
    change k < (R.cachingDef .exact env sphereOps (f.makeWcs other ⟨0, 0⟩)).numTracts
    omega
  have hts := List.getElem?_eq_getElem hkl
  have e2 := ht.2 k _ hts
  rw [← hk, hg] at e2
  simp only [Prod.mk.injEq, Except.ok.injEq] at e2
  obtain ⟨e3, rfl⟩ := e2
  have hmem : r ∈ ts := by rw [e3]; exact List.getElem_mem hkl
  have hrk : ts[k]? = some r := by rw [hts, e3]
  have uniq : ∀ t ∈ ts, t.info.id = r.info.id → t = r := by
    intro t htm hid
    obtain ⟨j, hj⟩ := List.getElem?_of_mem htm
    have i1 := hids j t hj
    have i2 := hids k r hrk
    have : j = k := by rw [hid, i2] at i1; omega
    rw [this, hrk, Option.some.injEq] at hj
    exact hj.symm
  have hw : a.wcs = f.makeWcs other ⟨0, 0⟩ a.ctrCoord := by
    simp only [cachingDef] at hargs
    obtain ⟨q, -, hargs⟩ := bindOk hargs
    obtain ⟨g, -, hargs⟩ := bindOk hargs
    simp only [pure, Except.pure, Except.ok.injEq] at hargs
    rw [← hargs]
  have hpos : ∀ {α : Type} {l : List α} {q : α → Prop} [DecidablePred q], l.countP (fun x => decide (q x)) = 1 → ∃ x ∈ l, q x := by
    intro α l q _ hcount
    obtain ⟨x, h1, h2⟩ := List.countP_pos_iff.1 (by rw [hcount]; exact Nat.one_pos)
    exact ⟨x, h1, by simpa using h2⟩
  refine ⟨r, hr, ?_, ?_⟩
  · obtain ⟨x, h1, h2⟩ := hpos (hx2 r hmem)
    simp only [Prod.mk.injEq] at h2
    obtain ⟨t, ht1, rfl⟩ := hx1 x h1 h2.1
    obtain rfl := uniq t ht1 h2.2
    exact ⟨_, h1, rfl, rfl, C64_contains hn hx hy hf hsc.ne' hw hc⟩
  · obtain ⟨px, hpx, hpc⟩ : ∃ px, r.info.wcs.PixelOf p px ∧ r.info.getBBox.contains px = true := by
      unfold TractInfo.contains at hc
      cases hq : r.info.wcs.skyToPixel p with
      | raises => rw [hq] at hc; simp at hc
      | nonfinite => rw [hq] at hc; simp at hc
      | pix q =>
        rw [hq] at hc
        exact ⟨_, ⟨q, hq, rfl⟩, hc⟩
    obtain ⟨ix, ⟨pi, hpi, hpin⟩, -⟩ := C02_tiling hn hx hy hbord px hpc
    have B := TractInfo.new_built hn hx hy
    obtain ⟨hrange, -⟩ := (B.ready.getPatchInfo_iff (by rw [B.border]; exact hbord) ix r.info.wcs pi).1 hpi
    obtain ⟨y, h1, h2⟩ := hpos (hy2 r hmem ix hrange)
    simp only [Prod.mk.injEq] at h2
    obtain ⟨t, ht1, g1, -, -, q, g2, -, g3⟩ := hy1 y h1 h2.1
    obtain rfl := uniq t ht1 (by rw [← g1, h2.2.1])
    have : q = pi := by
      rw [h2.2.2.1, h2.2.2.2] at g2
      exact Except.ok.inj (g2.symm.trans hpi)
    subst this
    refine ⟨y, h1, h2.1, h2.2.1, ?_⟩
    rw [g3]
    exact (C64_pixel hn hx hy hbord hf hsc.ne' hw hpi (.inr rfl) hpx hpin).2

/-! ## Hypotheses met -/

/-- A tract of 1/10 radian about (1, 1/2): it is not empty, has patches, and a position at distance 1/20 is in the tract's polygon and in
the inner polygon of one of its patches. -/
example (other) : ∃ f t b, WcsFactory.new (1 / 1000) "TAN" 0 false = .ok f ∧
    TractInfo.new Ex.realEnv sphereOps Ex.smallBuilder
      ⟨0, ⟨1, 1 / 2⟩, .explicit (1 / 10), 0, f.makeWcs other ⟨0, 0⟩ ⟨1, 1 / 2⟩, none⟩ = .ok (t, b) ∧
    t.getBBox.isEmpty = false ∧ InPolygon t.getOuterSkyPolygon (SpherePoint.offset ⟨1, 1 / 2⟩ 30 (1 / 20)) ∧
    ∃ i p, t.getPatchInfo b (.index2D i) = .ok p ∧ InPolygon (p.getInnerSkyPolygon none) (SpherePoint.offset ⟨1, 1 / 2⟩ 30 (1 / 20)) := by
  have hp := pi_gt_three
  have hlim : (1 / 10 : ℝ) + 0 < Projection.TAN.limit := by simp only [Projection.limit]; linarith
  obtain ⟨f, hf⟩ := (WcsFactory.C56_projection_length (1 / 1000) "TAN" 0 false).2 rfl
  obtain ⟨⟨t, b⟩, ht⟩ := explicit_total (other := other) (P := .TAN) (env := Ex.realEnv) (b₀ := Ex.smallBuilder)
    (a := ⟨0, ⟨1, 1 / 2⟩, .explicit (1 / 10), 0, f.makeWcs other ⟨0, 0⟩ ⟨1, 1 / 2⟩, none⟩) (by decide) (by decide) hf (by norm_num) (by decide)
    (r := 1 / 10) rfl rfl (by norm_num) hlim
  have hc : t.contains (SpherePoint.offset ⟨1, 1 / 2⟩ 30 (1 / 20)) = true := by
    refine C57_covers (other := other) (P := .TAN) Ex.realEnv_ok ht (by decide) (by decide) hf (by norm_num) rfl rfl rfl hlim _ ?_
    unfold greatCircle
    dsimp only
    rw [(offset_spec _ _ _).2.2, arccos_cos (by norm_num) (by linarith)]
    norm_num
  have hne : t.getBBox.isEmpty = false := by
    have hc' := hc
    unfold TractInfo.contains at hc'
    cases hq : t.wcs.skyToPixel (SpherePoint.offset ⟨1, 1 / 2⟩ 30 (1 / 20)) with
    | raises => rw [hq] at hc'; simp at hc'
    | nonfinite => rw [hq] at hc'; simp at hc'
    | pix q =>
      rw [hq] at hc'
      have := (Box2I.contains_dim hc').1
      unfold Box2I.isEmpty
      simp
      omega
  have hin := C64_contains ht (by decide) (by decide) hf (by norm_num) rfl hc
  exact ⟨f, t, b, hf, ht, hne, hin, (C64_tile ht (by decide) (by decide) (by decide) hne hf (by norm_num) rfl _).1 hin⟩

/-- A rings sky map with three rings and 8 degrees of overlap is registered, and the regions of its tracts and of its patches cover the
sky. -/
example (other) : ∃ (R : Rings ℝ) (f : WcsFactory), Rings.new .exact ⟨3, 0, 8⟩ 1 = .ok R ∧ WcsFactory.new (1 / 1000) "TAN" 0 false = .ok f ∧
    ∃ w', BaseSkyMap.register id (fun _ => none) (Rings.skyMapOps .exact R Ex.realEnv sphereOps (f.makeWcs other ⟨0, 0⟩)) "m"
      ⟨Rings.init .exact R Ex.realEnv sphereOps (f.makeWcs other ⟨0, 0⟩) Ex.smallBuilder, ⟨.rings 120 0, Ex.hashConfig, .int 1, none⟩, {}, 0⟩ =
        (.ok (), w') ∧
      ∀ p : SpherePoint ℝ, 0 ≤ p.lon → p.lon < 2 * π → |p.lat| ≤ π / 2 →
        (∃ x ∈ w'.reg.tracts, InPolygon x.region p) ∧ ∃ y ∈ w'.reg.patches, InPolygon y.region p := by
  obtain ⟨R, hR⟩ := Rings.new_ok ⟨3, 0, 8⟩ (.inr rfl)
  obtain ⟨b, hb⟩ := Ex.hashed_ok
  obtain ⟨f, hf⟩ := (WcsFactory.C56_projection_length (1 / 1000) "TAN" 0 false).2 rfl
  obtain ⟨w', e, h⟩ := Rings.C64_registered (H := id) (fault := fun _ => none) (name := "m") (other := other) (b₀ := Ex.smallBuilder)
    (w := ⟨Rings.init .exact R Ex.realEnv sphereOps (f.makeWcs other ⟨0, 0⟩) Ex.smallBuilder, ⟨.rings 120 0, Ex.hashConfig, .int 1, none⟩, {}, 0⟩)
    hR (by decide) Ex.realEnv_ok (by decide) (by decide) (by decide) hf (by norm_num) (by norm_num) (by norm_num) (fun _ => rfl) rfl
    (SkyMapOps.After.refl _) Registry.sound_empty hb (fun x hx => by simp at hx)
  refine ⟨R, f, hR, hf, w', e, fun p h1 h2 h3 => ?_⟩
  obtain ⟨r, -, ⟨x, hx, -, -, hx'⟩, y, hy, -, -, hy'⟩ := h p h1 h2 h3
  exact ⟨⟨x, hx, hx'⟩, y, hy, hy'⟩

end Skymap
