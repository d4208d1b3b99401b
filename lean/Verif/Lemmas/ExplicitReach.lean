import Verif.Props.ExplicitCover

/-! # How far an explicit tract reaches, in terms of its number of patches -/

namespace Skymap
open Real

section
variable {Sky K : Type} [Field K] [LinearOrder K] [IsStrictOrderedRing K] [FloorRing K]
variable {env : FloatEnv K} {ops : SkyOps Sky K} {b₀ b : TractBuilder} {a : TractArgs Sky K} {t : TractInfo Sky K}

/-- How far a tract extends that is sized by positions between -B and B, which fit into `k` by `l` patches. -/
theorem TractInfo.contains_sides (he : env.Ok) (h : TractInfo.new env ops b₀ a = .ok (t, b))
    (hx : 0 < b₀.patchInnerDimensions.x) (hy : 0 < b₀.patchInnerDimensions.y) {B : K}
    (x1 : ∃ s ∈ samplePoints ops a, ∃ r, a.wcs.skyToPixel s = .pix r ∧ r.x = B)
    (x2 : ∃ s ∈ samplePoints ops a, ∃ r, a.wcs.skyToPixel s = .pix r ∧ r.x = -B)
    (y1 : ∃ s ∈ samplePoints ops a, ∃ r, a.wcs.skyToPixel s = .pix r ∧ r.y = B)
    (y2 : ∃ s ∈ samplePoints ops a, ∃ r, a.wcs.skyToPixel s = .pix r ∧ r.y = -B)
    (hB : ∀ s ∈ samplePoints ops a, ∀ r, a.wcs.skyToPixel s = .pix r → |r.x| ≤ B ∧ |r.y| ≤ B) {k l : Int}
    (hk : 2 * B + 3 ≤ k * b₀.patchInnerDimensions.x) (hl : 2 * B + 3 ≤ l * b₀.patchInnerDimensions.y)
    {c : Sky} {q : P2 K} (hq : a.wcs.skyToPixel c = .pix q) (hc : t.contains c = true) :
    2 * |q.x| < k * b₀.patchInnerDimensions.x + 3 ∧ 2 * |q.y| < l * b₀.patchInnerDimensions.y + 3 := by
  obtain ⟨mb, bbox, n, i1, h5, h6⟩ := TractInfo.contains_iff h hx hy he
  obtain ⟨bb, nn, bb', e1, e2, -, e4, e5, e6⟩ := C01_setupPatches b₀ mb.toBox2I (toBox2I_wf mb) hx hy
  rw [e1] at h5
  simp only [Except.ok.injEq, Prod.mk.injEq] at h5
  obtain ⟨rfl, rfl, rfl⟩ := h5
  rw [h6 c q hq, Box2I.contains_iff] at hc
  have hd : bb.dim = ⟨nn.x * b₀.patchInnerDimensions.x, nn.y * b₀.patchInnerDimensions.y⟩ := e2
  have dx : bb.dim.x = nn.x * b₀.patchInnerDimensions.x := by rw [hd]
  have dy : bb.dim.y = nn.y * b₀.patchInnerDimensions.y := by rw [hd]
  set m := mb.toBox2I with hm
  have hne : m.isEmpty = false := by
    obtain ⟨s1, m1, r1, p1, -⟩ := x1
    have c1 := i1.pixel_mem (mem_posList.2 ⟨s1, m1, p1⟩)
    rw [← hm, Box2I.contains_iff] at c1
    unfold Box2I.isEmpty; simp; omega
  have hpos : 1 ≤ m.dim.x ∧ 1 ≤ m.dim.y := by
    obtain ⟨s1, m1, r1, p1, -⟩ := x1
    have c1 := i1.pixel_mem (mem_posList.2 ⟨s1, m1, p1⟩)
    rw [← hm, Box2I.contains_iff] at c1
    omega
  obtain ⟨cx, cy⟩ := e6 hne
  rw [abs_le] at cx cy
  obtain ⟨⟨u1, v1, w1⟩, -, ⟨u3, v3, w3⟩, -⟩ := i1.pixel_bound he.tweak_le (p := m.min) (by rw [← hm, Box2I.contains_iff]; omega)
  obtain ⟨-, ⟨u2, v2, w2⟩, -, ⟨u4, v4, w4⟩⟩ := i1.pixel_bound he.tweak_le (p := m.getMax)
    (by rw [← hm, Box2I.contains_iff]; unfold Box2I.getMax; dsimp only; omega)
  unfold Box2I.getMax at w2 w4
  dsimp only at w2 w4
  obtain ⟨t1, n1, o1⟩ := mem_posList.1 v1
  obtain ⟨t2, n2, o2⟩ := mem_posList.1 v2
  obtain ⟨t3, n3, o3⟩ := mem_posList.1 v3
  obtain ⟨t4, n4, o4⟩ := mem_posList.1 v4
  have g1 := abs_le.1 (hB t1 n1 u1 o1).1
  have g2 := abs_le.1 (hB t2 n2 u2 o2).1
  have g3 := abs_le.1 (hB t3 n3 u3 o3).2
  have g4 := abs_le.1 (hB t4 n4 u4 o4).2
  -- one axis: `lo`, `hi` the pixels of -B and B, the box from `mn` with size `d`, the tract from `bn` with size `D`
  have axis : ∀ {lo hi mn d bn D nk kk pd Q : Int} {x : K}, lo = ⌊-B + 1 / 2⌋ → hi = ⌊B + 1 / 2⌋ → mn ≤ lo → hi ≤ mn + d - 1 →
      lo ≤ mn → mn + d - 1 ≤ hi + 1 → 0 < pd → D = nk * pd → (d ≤ kk * pd → nk ≤ kk) →
      2 * B + 3 ≤ (kk : K) * pd → -1 ≤ 2 * bn + D - (2 * mn + d) → 2 * bn + D - (2 * mn + d) ≤ 1 →
      bn ≤ Q → Q ≤ bn + D - 1 → Q = ⌊x + 1 / 2⌋ → 2 * |x| < (kk : K) * pd + 3 := by
    intro lo hi mn d bn D nk kk pd Q x elo ehi a1 a2 a3 a4 a5 a6 a7 a8 a9 a10 a11 a12 eQ
    have f1 : (hi : K) ≤ B + 1 / 2 := by rw [ehi]; exact Int.floor_le _
    have f2 : (lo : K) ≤ -B + 1 / 2 := by rw [elo]; exact Int.floor_le _
    have f3 : -B - 1 / 2 < (lo : K) := by rw [elo]; have := Int.lt_floor_add_one (-B + 1 / 2); linarith
    have f3' : B - 1 / 2 < (hi : K) := by rw [ehi]; have := Int.lt_floor_add_one (B + 1 / 2); linarith
    have f4 : x - 1 / 2 < (Q : K) := by rw [eQ]; have := Int.lt_floor_add_one (x + 1 / 2); linarith
    have f4' : (Q : K) ≤ x + 1 / 2 := by rw [eQ]; exact Int.floor_le _
    have f5 : hi + lo ≤ 1 := by
      have : ((hi + lo : Int) : K) ≤ ((1 : Int) : K) := by push_cast; linarith
      exact_mod_cast this
    have f6 : -1 < hi + lo := by
      have : (((-1 : Int)) : K) < ((hi + lo : Int) : K) := by push_cast; linarith
      exact_mod_cast this
    have hd' : d ≤ kk * pd := by
      have h1 : d ≤ hi - lo + 2 := by omega
      have h2 : (d : K) ≤ hi - lo + 2 := by exact_mod_cast h1
      have h3 : (d : K) ≤ ((kk * pd : Int) : K) := by push_cast; linarith
      exact_mod_cast h3
    have hD : D ≤ kk * pd := by rw [a6]; exact mul_le_mul_of_nonneg_right (a7 hd') a5.le
    have u : 2 * Q ≤ kk * pd + 2 := by omega
    have v : -(kk * pd) ≤ 2 * Q := by omega
    have u' : (2 : K) * Q ≤ kk * pd + 2 := by exact_mod_cast u
    have v' : -((kk : K) * pd) ≤ 2 * Q := by exact_mod_cast v
    have : |2 * x| < (kk : K) * pd + 3 := by rw [abs_lt]; constructor <;> linarith
    rwa [abs_mul, abs_of_pos (by norm_num : (0 : K) < 2)] at this
  have pm := fun {r : P2 K} (hr : r ∈ posList a.wcs (samplePoints ops a)) => by
    have := i1.pixel_mem hr
    rw [← hm, Box2I.contains_iff] at this
    exact this
  obtain ⟨s1, m1, r1, p1, rfl⟩ := x1
  obtain ⟨s2, m2, r2, p2, k2⟩ := x2
  obtain ⟨s3, m3, r3, p3, k3⟩ := y1
  obtain ⟨s4, m4, r4, p4, k4⟩ := y2
  have z1 := pm (mem_posList.2 ⟨s1, m1, p1⟩)
  have z2 := pm (mem_posList.2 ⟨s2, m2, p2⟩)
  have z3 := pm (mem_posList.2 ⟨s3, m3, p3⟩)
  have z4 := pm (mem_posList.2 ⟨s4, m4, p4⟩)
  have q1 : (toPoint2I r1).x = ⌊r1.x + 1 / 2⌋ := rfl
  have q2 : (toPoint2I r2).x = ⌊-r1.x + 1 / 2⌋ := by rw [← k2]; rfl
  have q3 : (toPoint2I r3).y = ⌊r1.x + 1 / 2⌋ := by rw [← k3]; rfl
  have q4 : (toPoint2I r4).y = ⌊-r1.x + 1 / 2⌋ := by rw [← k4]; rfl
  have l1 : (toPoint2I r2).x ≤ (toPoint2I u1).x := Int.floor_le_floor (by rw [k2]; linarith)
  have l2 : (toPoint2I u2).x ≤ (toPoint2I r1).x := Int.floor_le_floor (by linarith)
  have l3 : (toPoint2I r4).y ≤ (toPoint2I u3).y := Int.floor_le_floor (by rw [k4]; linarith)
  have l4 : (toPoint2I u4).y ≤ (toPoint2I r3).y := Int.floor_le_floor (by rw [k3]; linarith)
  exact ⟨axis (mn := m.min.x) q2 q1 (by omega) (by omega) (by omega) (by omega) hx dx (e4 k) hk (by omega) (by omega) hc.1 (by omega) rfl,
    axis (mn := m.min.y) q4 q3 (by omega) (by omega) (by omega) (by omega) hy dy (e5 l) hl (by omega) (by omega) hc.2.2.1 (by omega) rfl⟩

end

variable {env : FloatEnv ℝ} {b₀ b : TractBuilder} {a : TractArgs (SpherePoint ℝ) ℝ} {t : TractInfo (SpherePoint ℝ) ℝ}
  {other : P2 ℝ → SpherePoint ℝ → CdMatrix → String → Wcs (SpherePoint ℝ) ℝ} {f : WcsFactory} {scale : ℝ} {code : String}
  {flipX : Bool} {P : Projection}

/-- The plane coordinates of the positions that an explicit tract without rotation contains, if `k` by `l` patches are enough. -/
theorem explicit_reach (he : env.Ok) (h : TractInfo.new env sphereOps b₀ a = .ok (t, b))
    (hx : 0 < b₀.patchInnerDimensions.x) (hy : 0 < b₀.patchInnerDimensions.y)
    (hf : WcsFactory.new scale code 0 flipX = .ok f) (hs : 0 < scale) (hP : Projection.ofCode code = some P)
    {r : ℝ} (ha : a.shape = .explicit r) (hw : a.wcs = f.makeWcs other ⟨0, 0⟩ a.ctrCoord)
    (h0 : 0 ≤ r + a.tractOverlap) (hlim : r + a.tractOverlap < P.limit) {k l : Int}
    (hk : 2 * (P.radius (r + a.tractOverlap) / scale) + 3 ≤ k * b₀.patchInnerDimensions.x)
    (hl : 2 * (P.radius (r + a.tractOverlap) / scale) + 3 ≤ l * b₀.patchInnerDimensions.y)
    {p : SpherePoint ℝ} (hc : t.contains p = true) :
    ∃ q, P.toPlane a.ctrCoord p = some q ∧ |q.x| ≤ scale * (k * b₀.patchInnerDimensions.x + 3) / 2 ∧
      |q.y| ≤ scale * (l * b₀.patchInnerDimensions.y + 3) / 2 := by
  have hwe : a.wcs = makeSkyWcs ⟨0, 0⟩ a.ctrCoord (makeCdMatrix scale 0 flipX) P := by
    rw [hw]; exact WcsFactory.makeWcs_eq hf hP _ _
  cases hq : P.toPlane a.ctrCoord p with
  | none =>
    exfalso
    obtain ⟨-, -, -, s, -, -, hs', -⟩ := C12_wcs_shift h hx hy
    unfold TractInfo.contains at hc
    cases ht : t.wcs.skyToPixel p with
    | raises => rw [ht] at hc; simp at hc
    | nonfinite => rw [ht] at hc; simp at hc
    | pix z =>
      obtain ⟨y, hy', -⟩ := (hs' p (toPoint2I z)).1 ⟨z, ht, rfl⟩
      rw [hwe] at hy'
      unfold makeSkyWcs at hy'
      dsimp only at hy'
      rw [hq] at hy'
      simp at hy'
  | some q =>
  refine ⟨q, rfl, ?_⟩
  have hpix : a.wcs.skyToPixel p = .pix ⟨(if flipX then 1 else -1) * q.x / scale, q.y / scale⟩ := by
    rw [hw, WcsFactory.makeWcs_eq hf hP]
    unfold makeSkyWcs
    dsimp only
    rw [hq]
    dsimp only
    rw [makeCdMatrix_solve hs.ne']
    simp
  have key : ∀ k : Nat, a.wcs.skyToPixel (a.ctrCoord.offset (90 * (k : ℝ)) (r + a.tractOverlap)) =
      .pix ⟨(if flipX then 1 else -1) * (P.radius (r + a.tractOverlap) / scale * cos ((k : ℝ) * (π / 2) + 0)),
        P.radius (r + a.tractOverlap) / scale * sin ((k : ℝ) * (π / 2) + 0)⟩ := by
    intro k
    rw [hw, WcsFactory.C56_bearing hf hs.ne' hP _ _ _ h0 hlim, show 90 * (k : ℝ) * (π / 180) = k * (π / 2) by ring]
    simp
  obtain ⟨c0, c1, c2, c3, s0, s1, s2, s3⟩ := four_turns 0
  have x0 := key 0
  have x1 := key 1
  have x2 := key 2
  have x3 := key 3
  rw [c0, s0] at x0
  rw [c1, s1] at x1
  rw [c2, s2] at x2
  rw [c3, s3] at x3
  rw [cos_zero, sin_zero] at x0 x1 x2 x3
  have hB0 : 0 ≤ P.radius (r + a.tractOverlap) / scale := div_nonneg (P.radius_nonneg h0 hlim) hs.le
  set B := P.radius (r + a.tractOverlap) / scale with hBd
  have m := fun {k : Nat} (hk : k < 4) => explicit_sample_mem (a := a) ha hk
  obtain ⟨g1, g2⟩ := TractInfo.contains_sides (B := B) he h hx hy
    (by
      cases flipX
      · exact ⟨_, m (by norm_num : 2 < 4), _, x2, by simp⟩
      · exact ⟨_, m (by norm_num : 0 < 4), _, x0, by simp⟩)
    (by
      cases flipX
      · exact ⟨_, m (by norm_num : 0 < 4), _, x0, by simp⟩
      · exact ⟨_, m (by norm_num : 2 < 4), _, x2, by simp⟩)
    ⟨_, m (by norm_num : 1 < 4), _, x1, by simp⟩ ⟨_, m (by norm_num : 3 < 4), _, x3, by simp⟩
    (by
      intro σ hσ ρ hρ
      obtain ⟨j, -, e⟩ := explicit_samples (other := other) hf hs hP ha hw rfl h0 hlim σ hσ
      rw [hρ, PixRes.pix.injEq] at e
      rw [e, ← hBd]
      dsimp only
      have a1 : |B * cos ((j : ℝ) * (π / 2) + 0)| ≤ B := by
        rw [abs_mul, abs_of_nonneg hB0]; exact mul_le_of_le_one_right hB0 (abs_cos_le_one _)
      have a2 : |B * sin ((j : ℝ) * (π / 2) + 0)| ≤ B := by
        rw [abs_mul, abs_of_nonneg hB0]; exact mul_le_of_le_one_right hB0 (abs_sin_le_one _)
      refine ⟨?_, a2⟩
      cases flipX <;> simpa using a1) hk hl hpix hc
  have gx : |(if flipX then 1 else -1) * q.x / scale| = |q.x| / scale := by
    cases flipX <;> simp [abs_div, abs_of_pos hs]
  dsimp only at g1 g2
  rw [gx] at g1
  rw [abs_div, abs_of_pos hs] at g2
  rw [← mul_div_assoc, div_lt_iff₀ hs] at g1 g2
  constructor <;> linarith

end Skymap
