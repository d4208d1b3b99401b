import Verif.Props.FindPatch

/-! # Which positions a tract contains, in terms of the pixel positions that size it -/

namespace Skymap
variable {Sky K : Type} [Field K] [LinearOrder K] [IsStrictOrderedRing K] [FloorRing K]

/-- The pixel box of a bounding box holds the pixel of every position between those it bounds. -/
theorem BoxOf.pixel_between {tweak : K → K} {b : Box2D K} {l : List (P2 K)} (h : BoxOf tweak b l) {q : P2 K}
    (h1 : ∃ s ∈ l, s.x ≤ q.x) (h2 : ∃ s ∈ l, q.x ≤ s.x) (h3 : ∃ s ∈ l, s.y ≤ q.y) (h4 : ∃ s ∈ l, q.y ≤ s.y) :
    b.toBox2I.contains (toPoint2I q) = true := by
  obtain ⟨s1, m1, h1⟩ := h1
  obtain ⟨s2, m2, h2⟩ := h2
  obtain ⟨s3, m3, h3⟩ := h3
  obtain ⟨s4, m4, h4⟩ := h4
  have g1 := h.pixel_mem m1
  have g2 := h.pixel_mem m2
  have g3 := h.pixel_mem m3
  have g4 := h.pixel_mem m4
  rw [Box2I.contains_iff] at *
  have a1 : (toPoint2I s1).x ≤ (toPoint2I q).x := Int.floor_le_floor (by linarith)
  have a2 : (toPoint2I q).x ≤ (toPoint2I s2).x := Int.floor_le_floor (by linarith)
  have a3 : (toPoint2I s3).y ≤ (toPoint2I q).y := Int.floor_le_floor (by linarith)
  have a4 : (toPoint2I q).y ≤ (toPoint2I s4).y := Int.floor_le_floor (by linarith)
  omega

variable {env : FloatEnv K} {ops : SkyOps Sky K} {b₀ b : TractBuilder} {a : TractArgs Sky K} {t : TractInfo Sky K}

/-- What `contains` compares: the pixel in the frame of the WCS that the constructor was given, and the box that `setupPatches` made. -/
theorem TractInfo.contains_iff (h : TractInfo.new env ops b₀ a = .ok (t, b))
    (hx : 0 < b₀.patchInnerDimensions.x) (hy : 0 < b₀.patchInnerDimensions.y) (he : env.Ok) :
    ∃ (m : Box2D K) (bbox : Box2I) (n : Index2D), BoxOf env.tweak m (posList a.wcs (samplePoints ops a)) ∧
      b₀.setupPatches m.toBox2I = .ok (bbox, n, b) ∧
      ∀ c q, a.wcs.skyToPixel c = .pix q → (t.contains c = true ↔ bbox.contains (toPoint2I q) = true) := by
  obtain ⟨mb, bbox, n, s, h1, h2, h3, h4, h5, h6⟩ := C12_wcs_shift h hx hy
  unfold minimumBoundingBox at h1
  obtain ⟨i1, -⟩ := includeAll_boxOf he.tweak_gt a.wcs (samplePoints ops a) .empty mb [] rfl h1
  rw [List.nil_append] at i1
  refine ⟨mb, bbox, n, i1, h2, ?_⟩
  intro c q hq
  have hpx : t.wcs.PixelOf c ⟨(toPoint2I q).x + s.x, (toPoint2I q).y + s.y⟩ := by
    rw [h3]
    refine ⟨q, hq, ?_⟩
    change _ = toPoint2I q
    apply I2.ext' <;> dsimp only <;> omega
  obtain ⟨r, hr, hr2⟩ := hpx
  unfold TractInfo.contains
  rw [hr]
  change t.getBBox.contains (⟨⌊r.x + 1 / 2⌋, ⌊r.y + 1 / 2⌋⟩ : I2) = true ↔ _
  rw [← hr2, h6]
  have : (⟨(toPoint2I q).x + s.x - s.x, (toPoint2I q).y + s.y - s.y⟩ : I2) = toPoint2I q := by
    apply I2.ext' <;> dsimp only <;> omega
  rw [this]

/-- A tract contains every position whose pixel position is between those of the positions that size it. -/
theorem TractInfo.contains_between (he : env.Ok) (h : TractInfo.new env ops b₀ a = .ok (t, b))
    (hx : 0 < b₀.patchInnerDimensions.x) (hy : 0 < b₀.patchInnerDimensions.y) {c : Sky} {q : P2 K}
    (hq : a.wcs.skyToPixel c = .pix q)
    (h1 : ∃ s ∈ samplePoints ops a, ∃ r, a.wcs.skyToPixel s = .pix r ∧ r.x ≤ q.x)
    (h2 : ∃ s ∈ samplePoints ops a, ∃ r, a.wcs.skyToPixel s = .pix r ∧ q.x ≤ r.x)
    (h3 : ∃ s ∈ samplePoints ops a, ∃ r, a.wcs.skyToPixel s = .pix r ∧ r.y ≤ q.y)
    (h4 : ∃ s ∈ samplePoints ops a, ∃ r, a.wcs.skyToPixel s = .pix r ∧ q.y ≤ r.y) : t.contains c = true := by
  obtain ⟨mb, bbox, n, i1, h5, h6⟩ := TractInfo.contains_iff h hx hy he
  obtain ⟨bb, nn, bb', e1, -, e3, -⟩ := C01_setupPatches b₀ mb.toBox2I (toBox2I_wf mb) hx hy
  rw [e1] at h5
  simp only [Except.ok.injEq, Prod.mk.injEq] at h5
  obtain ⟨rfl, rfl, rfl⟩ := h5
  rw [h6 c q hq]
  apply e3
  obtain ⟨s1, m1, r1, p1, k1⟩ := h1
  obtain ⟨s2, m2, r2, p2, k2⟩ := h2
  obtain ⟨s3, m3, r3, p3, k3⟩ := h3
  obtain ⟨s4, m4, r4, p4, k4⟩ := h4
  exact i1.pixel_between ⟨r1, mem_posList.2 ⟨s1, m1, p1⟩, k1⟩ ⟨r2, mem_posList.2 ⟨s2, m2, p2⟩, k2⟩
    ⟨r3, mem_posList.2 ⟨s3, m3, p3⟩, k3⟩ ⟨r4, mem_posList.2 ⟨s4, m4, p4⟩, k4⟩

/-- A tract extends beyond the pixel positions that size it by less than half a patch and two pixels. -/
theorem TractInfo.contains_bound (he : env.Ok) (h : TractInfo.new env ops b₀ a = .ok (t, b))
    (hx : 0 < b₀.patchInnerDimensions.x) (hy : 0 < b₀.patchInnerDimensions.y) {c : Sky} {q : P2 K}
    (hq : a.wcs.skyToPixel c = .pix q) (hc : t.contains c = true) :
    (∃ s ∈ samplePoints ops a, ∃ r, a.wcs.skyToPixel s = .pix r ∧ r.x - (b₀.patchInnerDimensions.x : K) / 2 - 2 < q.x) ∧
    (∃ s ∈ samplePoints ops a, ∃ r, a.wcs.skyToPixel s = .pix r ∧ q.x < r.x + (b₀.patchInnerDimensions.x : K) / 2 + 2) ∧
    (∃ s ∈ samplePoints ops a, ∃ r, a.wcs.skyToPixel s = .pix r ∧ r.y - (b₀.patchInnerDimensions.y : K) / 2 - 2 < q.y) ∧
    (∃ s ∈ samplePoints ops a, ∃ r, a.wcs.skyToPixel s = .pix r ∧ q.y < r.y + (b₀.patchInnerDimensions.y : K) / 2 + 2) := by
  obtain ⟨mb, bbox, n, i1, h5, h6⟩ := TractInfo.contains_iff h hx hy he
  obtain ⟨bb, nn, bb', e1, e2, -, e4, e5, e6⟩ := C01_setupPatches b₀ mb.toBox2I (toBox2I_wf mb) hx hy
  rw [e1] at h5
  simp only [Except.ok.injEq, Prod.mk.injEq] at h5
  obtain ⟨rfl, rfl, rfl⟩ := h5
  rw [h6 c q hq, Box2I.contains_iff] at hc
  have hd : bb.dim = ⟨nn.x * b₀.patchInnerDimensions.x, nn.y * b₀.patchInnerDimensions.y⟩ := e2
  have dx : bb.dim.x = nn.x * b₀.patchInnerDimensions.x := by rw [hd]
  have dy : bb.dim.y = nn.y * b₀.patchInnerDimensions.y := by rw [hd]
  have nx : nn.x * b₀.patchInnerDimensions.x < mb.toBox2I.dim.x + b₀.patchInnerDimensions.x := by
    by_contra hn
    have := e4 (nn.x - 1) (by nlinarith)
    omega
  have ny : nn.y * b₀.patchInnerDimensions.y < mb.toBox2I.dim.y + b₀.patchInnerDimensions.y := by
    by_contra hn
    have := e5 (nn.y - 1) (by nlinarith)
    omega
  have hne : mb.toBox2I.isEmpty = false := by
    rcases toBox2I_wf mb with ⟨w1, w2⟩ | ⟨w1, w2⟩
    · exfalso
      have := e4 0 (by rw [w1]; omega)
      nlinarith
    · unfold Box2I.isEmpty; simp; omega
  obtain ⟨cx, cy⟩ := e6 hne
  rw [abs_le] at cx cy
  have wf : 1 ≤ mb.toBox2I.dim.x ∧ 1 ≤ mb.toBox2I.dim.y := by
    rcases toBox2I_wf mb with ⟨w1, w2⟩ | ⟨w1, w2⟩
    · rw [Box2I.isEmpty, decide_eq_false_iff_not] at hne; exact absurd w1 hne
    · omega
  set m := mb.toBox2I with hm
  obtain ⟨⟨l1, a1, b1⟩, -, ⟨l3, a3, b3⟩, -⟩ := i1.pixel_bound he.tweak_le (p := m.min) (by rw [← hm, Box2I.contains_iff]; omega)
  obtain ⟨-, ⟨l2, a2, b2⟩, -, ⟨l4, a4, b4⟩⟩ := i1.pixel_bound he.tweak_le (p := m.getMax)
    (by rw [← hm, Box2I.contains_iff]; unfold Box2I.getMax; dsimp only; omega)
  unfold Box2I.getMax at b2 b4
  dsimp only at b2 b4
  obtain ⟨c1, c2, c3, c4⟩ := hc
  obtain ⟨s1, m1, p1⟩ := mem_posList.1 a1
  obtain ⟨s2, m2, p2⟩ := mem_posList.1 a2
  obtain ⟨s3, m3, p3⟩ := mem_posList.1 a3
  obtain ⟨s4, m4, p4⟩ := mem_posList.1 a4
  have fl : ∀ x : K, ((⌊x + 1 / 2⌋ : Int) : K) ≤ x + 1 / 2 := fun x => Int.floor_le _
  have fu : ∀ x : K, x - 1 / 2 < ((⌊x + 1 / 2⌋ : Int) : K) := fun x => by have := Int.lt_floor_add_one (x + 1 / 2); linarith
  refine ⟨⟨s1, m1, l1, p1, ?_⟩, ⟨s2, m2, l2, p2, ?_⟩, ⟨s3, m3, l3, p3, ?_⟩, ⟨s4, m4, l4, p4, ?_⟩⟩
  · have : 2 * (toPoint2I l1).x ≤ 2 * (toPoint2I q).x + b₀.patchInnerDimensions.x := by omega
    have : (2 : K) * (toPoint2I l1).x ≤ 2 * (toPoint2I q).x + b₀.patchInnerDimensions.x := by exact_mod_cast this
    have g1 : l1.x - 1 / 2 < ((toPoint2I l1).x : K) := fu l1.x
    have g2 : ((toPoint2I q).x : K) ≤ q.x + 1 / 2 := fl q.x
    linarith
  · have : 2 * (toPoint2I q).x ≤ 2 * (toPoint2I l2).x + 2 + b₀.patchInnerDimensions.x := by omega
    have : (2 : K) * (toPoint2I q).x ≤ 2 * (toPoint2I l2).x + 2 + b₀.patchInnerDimensions.x := by exact_mod_cast this
    have g1 : q.x - 1 / 2 < ((toPoint2I q).x : K) := fu q.x
    have g2 : ((toPoint2I l2).x : K) ≤ l2.x + 1 / 2 := fl l2.x
    linarith
  · have : 2 * (toPoint2I l3).y ≤ 2 * (toPoint2I q).y + b₀.patchInnerDimensions.y := by omega
    have : (2 : K) * (toPoint2I l3).y ≤ 2 * (toPoint2I q).y + b₀.patchInnerDimensions.y := by exact_mod_cast this
    have g1 : l3.y - 1 / 2 < ((toPoint2I l3).y : K) := fu l3.y
    have g2 : ((toPoint2I q).y : K) ≤ q.y + 1 / 2 := fl q.y
    linarith
  · have : 2 * (toPoint2I q).y ≤ 2 * (toPoint2I l4).y + 2 + b₀.patchInnerDimensions.y := by omega
    have : (2 : K) * (toPoint2I q).y ≤ 2 * (toPoint2I l4).y + 2 + b₀.patchInnerDimensions.y := by exact_mod_cast this
    have g1 : q.y - 1 / 2 < ((toPoint2I q).y : K) := fu q.y
    have g2 : ((toPoint2I l4).y : K) ≤ l4.y + 1 / 2 := fl l4.y
    linarith

/-- How far up a tract extends that is sized by positions between -B and B, which fit into `k` patches. -/
theorem TractInfo.contains_sym (he : env.Ok) (h : TractInfo.new env ops b₀ a = .ok (t, b))
    (hx : 0 < b₀.patchInnerDimensions.x) (hy : 0 < b₀.patchInnerDimensions.y) {B : K}
    (h1 : ∃ s ∈ samplePoints ops a, ∃ r, a.wcs.skyToPixel s = .pix r ∧ r.y = B)
    (h2 : ∃ s ∈ samplePoints ops a, ∃ r, a.wcs.skyToPixel s = .pix r ∧ r.y = -B)
    (h3 : ∀ s ∈ samplePoints ops a, ∀ r, a.wcs.skyToPixel s = .pix r → |r.y| ≤ B) {k : Int}
    (hk : 2 * B + 3 ≤ k * b₀.patchInnerDimensions.y) {c : Sky} {q : P2 K} (hq : a.wcs.skyToPixel c = .pix q)
    (hc : t.contains c = true) : 2 * q.y < k * b₀.patchInnerDimensions.y + 3 := by
  obtain ⟨mb, bbox, n, i1, h5, h6⟩ := TractInfo.contains_iff h hx hy he
  obtain ⟨bb, nn, bb', e1, e2, -, -, e5, e6⟩ := C01_setupPatches b₀ mb.toBox2I (toBox2I_wf mb) hx hy
  rw [e1] at h5
  simp only [Except.ok.injEq, Prod.mk.injEq] at h5
  obtain ⟨rfl, rfl, rfl⟩ := h5
  rw [h6 c q hq, Box2I.contains_iff] at hc
  have dy : bb.dim.y = nn.y * b₀.patchInnerDimensions.y := by
    have hd : bb.dim = ⟨nn.x * b₀.patchInnerDimensions.x, nn.y * b₀.patchInnerDimensions.y⟩ := e2
    rw [hd]
  obtain ⟨s1, m1, r1, p1, k1⟩ := h1
  obtain ⟨s2, m2, r2, p2, k2⟩ := h2
  have c1 := i1.pixel_mem (mem_posList.2 ⟨s1, m1, p1⟩)
  have c2 := i1.pixel_mem (mem_posList.2 ⟨s2, m2, p2⟩)
  set m := mb.toBox2I with hm
  rw [Box2I.contains_iff] at c1 c2
  have hne : m.isEmpty = false := by unfold Box2I.isEmpty; simp; omega
  obtain ⟨-, cy⟩ := e6 hne
  rw [abs_le] at cy
  obtain ⟨-, -, ⟨l3, a3, b3⟩, -⟩ := i1.pixel_bound he.tweak_le (p := m.min) (by rw [← hm, Box2I.contains_iff]; omega)
  obtain ⟨-, -, -, ⟨l4, a4, b4⟩⟩ := i1.pixel_bound he.tweak_le (p := m.getMax)
    (by rw [← hm, Box2I.contains_iff]; unfold Box2I.getMax; dsimp only; omega)
  unfold Box2I.getMax at b4
  dsimp only at b4
  obtain ⟨t3, n3, o3⟩ := mem_posList.1 a3
  obtain ⟨t4, n4, o4⟩ := mem_posList.1 a4
  have g3 : (toPoint2I r2).y ≤ (toPoint2I l3).y := by
    have := (abs_le.1 (h3 t3 n3 l3 o3)).1
    exact Int.floor_le_floor (by rw [k2]; linarith)
  have g4 : (toPoint2I l4).y ≤ (toPoint2I r1).y := by
    have := (abs_le.1 (h3 t4 n4 l4 o4)).2
    exact Int.floor_le_floor (by rw [k1]; linarith)
  have f1 : ((toPoint2I r1).y : K) ≤ B + 1 / 2 := by have := Int.floor_le (r1.y + 1 / 2); rw [k1] at this; simpa [toPoint2I, k1] using this
  have f2 : ((toPoint2I r2).y : K) ≤ -B + 1 / 2 := by have := Int.floor_le (r2.y + 1 / 2); rw [k2] at this; simpa [toPoint2I, k2] using this
  have f3 : -B - 1 / 2 < ((toPoint2I r2).y : K) := by
    have := Int.lt_floor_add_one (r2.y + 1 / 2)
    have e : (toPoint2I r2).y = ⌊r2.y + 1 / 2⌋ := rfl
    rw [e]; linarith
  have f4 : q.y - 1 / 2 < ((toPoint2I q).y : K) := by
    have := Int.lt_floor_add_one (q.y + 1 / 2)
    have e : (toPoint2I q).y = ⌊q.y + 1 / 2⌋ := rfl
    rw [e]; linarith
  have f5 : (toPoint2I r1).y + (toPoint2I r2).y ≤ 1 := by
    have : (((toPoint2I r1).y + (toPoint2I r2).y : Int) : K) ≤ ((1 : Int) : K) := by push_cast; linarith
    exact_mod_cast this
  have hnk : nn.y ≤ k := by
    apply e5
    have : m.dim.y ≤ (toPoint2I r1).y - (toPoint2I r2).y + 2 := by omega
    have h' : (m.dim.y : K) ≤ ((toPoint2I r1).y : K) - (toPoint2I r2).y + 2 := by exact_mod_cast this
    have h'' : (m.dim.y : K) ≤ ((k * b₀.patchInnerDimensions.y : Int) : K) := by push_cast; linarith
    exact_mod_cast h''
  have hdk : bb.dim.y ≤ k * b₀.patchInnerDimensions.y := by rw [dy]; exact mul_le_mul_of_nonneg_right hnk hy.le
  have hfin : 2 * (toPoint2I q).y ≤ k * b₀.patchInnerDimensions.y + 2 := by omega
  have : (2 : K) * (toPoint2I q).y ≤ k * b₀.patchInnerDimensions.y + 2 := by exact_mod_cast hfin
  linarith

end Skymap
