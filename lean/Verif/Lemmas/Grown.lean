import Verif.Props.ExplicitCover

/-! # What a tract contains because its box grows to whole patches -/

set_option linter.unusedSectionVars false

namespace Skymap
open Real

/-- One axis: a box of whole patches around the pixels from -B to B has at least `k` patches, so it holds the pixels that are within half
of `k` patches. The box `m`, `d` is the minimal one, `lo` and `n` patches of `P` pixels the final one. -/
theorem grown_axis {B y : ℝ} {m d lo n P k yi : Int} (hP : 0 < P) (hlo : m ≤ ⌊-B + 1 / 2⌋) (hhi : ⌊B + 1 / 2⌋ < m + d)
    (hm : ⌊-B + 1 / 2⌋ ≤ m + 1) (hM : m + d - 1 ≤ ⌊B + 1 / 2⌋ + 1) (hd : d ≤ n * P) (hc : |(2 * lo + n * P) - (2 * m + d)| ≤ 1)
    (hk : ((k - 1 : Int) : ℝ) * P < 2 * B) (hy : |y| + 4 ≤ k * P / 2) (hyi : yi = ⌊y + 1 / 2⌋) : lo ≤ yi ∧ yi < lo + n * P := by
  have f1 := Int.floor_le (B + 1 / 2)
  have f2 := Int.lt_floor_add_one (B + 1 / 2)
  have f3 := Int.floor_le (-B + 1 / 2)
  have f4 := Int.lt_floor_add_one (-B + 1 / 2)
  have f5 := Int.floor_le (y + 1 / 2)
  have f6 := Int.lt_floor_add_one (y + 1 / 2)
  rw [← hyi] at f5 f6
  have hy' := abs_le.mp (show |y| ≤ k * P / 2 - 4 by linarith)
  have hd2 : 2 * B ≤ d := by
    have : ((⌊B + 1 / 2⌋ - ⌊-B + 1 / 2⌋ + 1 : Int) : ℝ) ≤ ((d : Int) : ℝ) := by exact_mod_cast (by omega)
    push_cast at this
    linarith
  have hnk : k ≤ n := by
    by_contra hn
    have h1 : n * P ≤ (k - 1) * P := mul_le_mul_of_nonneg_right (by omega) hP.le
    have h2 : ((d : Int) : ℝ) ≤ (((k - 1) * P : Int) : ℝ) := by exact_mod_cast hd.trans h1
    push_cast at h2 hk
    linarith
  have hnP : k * P ≤ n * P := mul_le_mul_of_nonneg_right hnk hP.le
  have hsum : |((⌊B + 1 / 2⌋ + ⌊-B + 1 / 2⌋ : Int) : ℝ)| ≤ 1 := by
    push_cast
    rw [abs_le]; constructor <;> linarith
  have hsum' : |⌊B + 1 / 2⌋ + ⌊-B + 1 / 2⌋| ≤ 1 := by exact_mod_cast hsum
  rw [abs_le] at hsum' hc
  have hy1 : -(k * P) + 7 ≤ 2 * yi := by
    have : ((-(k * P) + 7 : Int) : ℝ) ≤ ((2 * yi : Int) : ℝ) := by push_cast; linarith
    exact_mod_cast this
  have hy2 : 2 * yi ≤ k * P - 7 := by
    have : ((2 * yi : Int) : ℝ) ≤ ((k * P - 7 : Int) : ℝ) := by push_cast; linarith
    exact_mod_cast this
  generalize n * P = nP at *
  generalize k * P = kP at *
  omega

variable {Sky : Type} {env : FloatEnv ℝ} {ops : SkyOps Sky ℝ} {b₀ b : TractBuilder} {a : TractArgs Sky ℝ} {t : TractInfo Sky ℝ}

/-- A tract sized by positions between -B and B contains the pixels within half of `k` patches of its centre, if B needs `k` patches. -/
theorem TractInfo.contains_grown (he : env.Ok) (h : TractInfo.new env ops b₀ a = .ok (t, b))
    (hx : 0 < b₀.patchInnerDimensions.x) (hy : 0 < b₀.patchInnerDimensions.y) {B : ℝ}
    (h1 : ∃ s ∈ samplePoints ops a, ∃ r, a.wcs.skyToPixel s = .pix r ∧ r.x = B)
    (h2 : ∃ s ∈ samplePoints ops a, ∃ r, a.wcs.skyToPixel s = .pix r ∧ r.x = -B)
    (h3 : ∃ s ∈ samplePoints ops a, ∃ r, a.wcs.skyToPixel s = .pix r ∧ r.y = B)
    (h4 : ∃ s ∈ samplePoints ops a, ∃ r, a.wcs.skyToPixel s = .pix r ∧ r.y = -B)
    (h5 : ∀ s ∈ samplePoints ops a, ∀ r, a.wcs.skyToPixel s = .pix r → |r.x| ≤ B ∧ |r.y| ≤ B) {k l : Int}
    (hk : ((k - 1 : Int) : ℝ) * b₀.patchInnerDimensions.x < 2 * B) (hl : ((l - 1 : Int) : ℝ) * b₀.patchInnerDimensions.y < 2 * B)
    {c : Sky} {q : P2 ℝ} (hq : a.wcs.skyToPixel c = .pix q)
    (qx : |q.x| + 4 ≤ k * b₀.patchInnerDimensions.x / 2) (qy : |q.y| + 4 ≤ l * b₀.patchInnerDimensions.y / 2) : t.contains c = true := by
  obtain ⟨mb, bbox, n, i1, g5, g6⟩ := TractInfo.contains_iff h hx hy he
  obtain ⟨bb, nn, bb', e1, e2, e3, -, -, e6⟩ := C01_setupPatches b₀ mb.toBox2I (toBox2I_wf mb) hx hy
  rw [e1] at g5
  simp only [Except.ok.injEq, Prod.mk.injEq] at g5
  obtain ⟨rfl, rfl, rfl⟩ := g5
  rw [g6 c q hq, Box2I.contains_iff]
  have hd : bb.dim = ⟨nn.x * b₀.patchInnerDimensions.x, nn.y * b₀.patchInnerDimensions.y⟩ := e2
  have dx : bb.dim.x = nn.x * b₀.patchInnerDimensions.x := by rw [hd]
  have dy : bb.dim.y = nn.y * b₀.patchInnerDimensions.y := by rw [hd]
  obtain ⟨s1, m1, r1, p1, k1⟩ := h1
  obtain ⟨s2, m2, r2, p2, k2⟩ := h2
  obtain ⟨s3, m3, r3, p3, k3⟩ := h3
  obtain ⟨s4, m4, r4, p4, k4⟩ := h4
  have c1 := i1.pixel_mem (mem_posList.2 ⟨s1, m1, p1⟩)
  have c2 := i1.pixel_mem (mem_posList.2 ⟨s2, m2, p2⟩)
  have c3 := i1.pixel_mem (mem_posList.2 ⟨s3, m3, p3⟩)
  have c4 := i1.pixel_mem (mem_posList.2 ⟨s4, m4, p4⟩)
  set m := mb.toBox2I with hm
  rw [Box2I.contains_iff] at c1 c2 c3 c4
  have hne : m.isEmpty = false := by unfold Box2I.isEmpty; simp; omega
  obtain ⟨cx, cy⟩ := e6 hne
  obtain ⟨⟨l1, a1, b1⟩, -, ⟨l3, a3, b3⟩, -⟩ := i1.pixel_bound he.tweak_le (p := m.min) (by rw [← hm, Box2I.contains_iff]; omega)
  obtain ⟨-, ⟨l2, a2, b2⟩, -, ⟨l4, a4, b4⟩⟩ := i1.pixel_bound he.tweak_le (p := m.getMax)
    (by rw [← hm, Box2I.contains_iff]; unfold Box2I.getMax; dsimp only; omega)
  unfold Box2I.getMax at b2 b4
  dsimp only at b2 b4
  obtain ⟨t1, n1, o1⟩ := mem_posList.1 a1
  obtain ⟨t2, n2, o2⟩ := mem_posList.1 a2
  obtain ⟨t3, n3, o3⟩ := mem_posList.1 a3
  obtain ⟨t4, n4, o4⟩ := mem_posList.1 a4
  have g1 : ⌊-B + 1 / 2⌋ ≤ (toPoint2I l1).x := Int.floor_le_floor (by linarith [(abs_le.1 (h5 t1 n1 l1 o1).1).1])
  have g2 : (toPoint2I l2).x ≤ ⌊B + 1 / 2⌋ := Int.floor_le_floor (by linarith [(abs_le.1 (h5 t2 n2 l2 o2).1).2])
  have g3 : ⌊-B + 1 / 2⌋ ≤ (toPoint2I l3).y := Int.floor_le_floor (by linarith [(abs_le.1 (h5 t3 n3 l3 o3).2).1])
  have g4 : (toPoint2I l4).y ≤ ⌊B + 1 / 2⌋ := Int.floor_le_floor (by linarith [(abs_le.1 (h5 t4 n4 l4 o4).2).2])
  have v1 : (toPoint2I r1).x = ⌊B + 1 / 2⌋ := by rw [← k1]; rfl
  have v2 : (toPoint2I r2).x = ⌊-B + 1 / 2⌋ := by rw [← k2]; rfl
  have v3 : (toPoint2I r3).y = ⌊B + 1 / 2⌋ := by rw [← k3]; rfl
  have v4 : (toPoint2I r4).y = ⌊-B + 1 / 2⌋ := by rw [← k4]; rfl
  rw [v1] at c1
  rw [v2] at c2
  rw [v3] at c3
  rw [v4] at c4
  have inX : m.dim.x ≤ nn.x * b₀.patchInnerDimensions.x := by
    have q1 := e3 m.min (by rw [Box2I.contains_iff]; omega)
    have q2 := e3 m.getMax (by rw [Box2I.contains_iff]; unfold Box2I.getMax; dsimp only; omega)
    rw [Box2I.contains_iff] at q1 q2
    unfold Box2I.getMax at q2
    dsimp only at q2
    omega
  have inY : m.dim.y ≤ nn.y * b₀.patchInnerDimensions.y := by
    have q1 := e3 m.min (by rw [Box2I.contains_iff]; omega)
    have q2 := e3 m.getMax (by rw [Box2I.contains_iff]; unfold Box2I.getMax; dsimp only; omega)
    rw [Box2I.contains_iff] at q1 q2
    unfold Box2I.getMax at q2
    dsimp only at q2
    omega
  rw [dx] at cx
  rw [dy] at cy
  have X := grown_axis (B := B) (y := q.x) hx (by omega) (by omega) (by omega) (by omega) inX cx hk qx (rfl : (toPoint2I q).x = _)
  have Y := grown_axis (B := B) (y := q.y) hy (by omega) (by omega) (by omega) (by omega) inY cy hl qy (rfl : (toPoint2I q).y = _)
  omega

variable {code : String} {scale : ℝ} {flipX : Bool} {f : WcsFactory} {P : Projection}
variable {other : P2 ℝ → SpherePoint ℝ → CdMatrix → String → Wcs (SpherePoint ℝ) ℝ}
variable {a : TractArgs (SpherePoint ℝ) ℝ} {t : TractInfo (SpherePoint ℝ) ℝ}

/-- The square of the plane that a tract of a rings sky map contains because its box grows to `k` by `l` patches. -/
theorem explicit_grown (he : env.Ok) (h : TractInfo.new env sphereOps b₀ a = .ok (t, b))
    (hx : 0 < b₀.patchInnerDimensions.x) (hy : 0 < b₀.patchInnerDimensions.y)
    (hf : WcsFactory.new scale code 0 flipX = .ok f) (hs : 0 < scale) (hP : Projection.ofCode code = some P)
    {r : ℝ} (ha : a.shape = .explicit r) (hw : a.wcs = f.makeWcs other ⟨0, 0⟩ a.ctrCoord)
    (h0 : 0 ≤ r + a.tractOverlap) (hl : r + a.tractOverlap < P.limit) {k l : Int}
    (hk : ((k - 1 : Int) : ℝ) * b₀.patchInnerDimensions.x < 2 * (P.radius (r + a.tractOverlap) / scale))
    (hk' : ((l - 1 : Int) : ℝ) * b₀.patchInnerDimensions.y < 2 * (P.radius (r + a.tractOverlap) / scale))
    (p : SpherePoint ℝ) {q : P2 ℝ}
    (hq : P.toPlane a.ctrCoord p = some q) (q1 : |q.x| / scale + 4 ≤ k * b₀.patchInnerDimensions.x / 2)
    (q2 : |q.y| / scale + 4 ≤ l * b₀.patchInnerDimensions.y / 2) : t.contains p = true := by
  have hpix : a.wcs.skyToPixel p = .pix ⟨(if flipX then 1 else -1) * q.x / scale, q.y / scale⟩ := by
    rw [hw, WcsFactory.makeWcs_eq hf hP]
    unfold makeSkyWcs
    dsimp only
    rw [hq]
    dsimp only
    rw [makeCdMatrix_solve hs.ne']
    simp
  have key : ∀ k : Nat, a.wcs.skyToPixel (a.ctrCoord.offset (90 * (k : ℝ)) (r + a.tractOverlap)) =
      .pix ⟨(if flipX then 1 else -1) * (P.radius (r + a.tractOverlap) / scale * cos ((k : ℝ) * (π / 2) + 0)),
        P.radius (r + a.tractOverlap) / scale * sin ((k : ℝ) * (π / 2) + 0)⟩ := by
    intro k
    rw [hw, WcsFactory.C56_bearing hf hs.ne' hP _ _ _ h0 hl, show 90 * (k : ℝ) * (π / 180) = k * (π / 2) by ring]
    simp
  have all := explicit_samples (other := other) hf hs hP ha hw rfl h0 hl
  obtain ⟨c0, c1, c2, c3, s0, s1, s2, s3⟩ := four_turns 0
  have x0 := key 0
  have x1 := key 1
  have x2 := key 2
  have x3 := key 3
  rw [c0, s0] at x0
  rw [c1, s1] at x1
  rw [c2, s2] at x2
  rw [c3, s3] at x3
  rw [cos_zero, sin_zero] at x0 x1 x2 x3
  have R0 : 0 ≤ P.radius (r + a.tractOverlap) / scale := div_nonneg (P.radius_nonneg h0 hl) hs.le
  refine TractInfo.contains_grown (B := P.radius (r + a.tractOverlap) / scale) he h hx hy ?_ ?_
    ⟨_, explicit_sample_mem ha (by norm_num : 1 < 4), _, x1, by simp⟩
    ⟨_, explicit_sample_mem ha (by norm_num : 3 < 4), _, x3, by simp⟩ ?_ hk hk' hpix ?_ ?_
  · cases flipX
    · exact ⟨_, explicit_sample_mem ha (by norm_num : 2 < 4), _, x2, by simp⟩
    · exact ⟨_, explicit_sample_mem ha (by norm_num : 0 < 4), _, x0, by simp⟩
  · cases flipX
    · exact ⟨_, explicit_sample_mem ha (by norm_num : 0 < 4), _, x0, by simp⟩
    · exact ⟨_, explicit_sample_mem ha (by norm_num : 2 < 4), _, x2, by simp⟩
  · intro σ hσ ρ hρ
    obtain ⟨j, hj, e⟩ := all σ hσ
    rw [e] at hρ
    cases hρ
    dsimp only
    have sg : |(if flipX = true then 1 else -1 : ℝ)| = 1 := by cases flipX <;> simp
    rw [abs_mul, sg, one_mul, abs_mul, abs_mul, abs_of_nonneg R0]
    exact ⟨mul_le_of_le_one_right R0 (abs_cos_le_one _), mul_le_of_le_one_right R0 (abs_sin_le_one _)⟩
  · have sg : |(if flipX = true then 1 else -1 : ℝ)| = 1 := by cases flipX <;> simp
    dsimp only
    rw [abs_div, abs_mul, sg, one_mul, abs_of_pos hs]
    exact q1
  · dsimp only
    rw [abs_div, abs_of_pos hs]
    exact q2

end Skymap
