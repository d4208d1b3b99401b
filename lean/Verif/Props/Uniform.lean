import Verif.Props.RingsCover
import Verif.Props.EquatCover
import Verif.Props.Search

/-! # C62: sky maps whose tracts all have the same size

The tracts of a rings sky map, of a discrete sky map with equal radii and of an equatorial sky map all have the same number of patches,
so that the history of accesses, on which patch lookups depend in general (C20), does not matter for them. -/

set_option linter.unusedSectionVars false

namespace Skymap
open Real

/-! ## Specification vocabulary -/

/-- Two tracts have the same pixel box and the same number of patches. -/
def TractInfo.SameSize {Sky K : Type} (t t' : TractInfo Sky K) : Prop := t.numPatches = t'.numPatches ∧ t.bbox = t'.bbox

/-- In pixel row/column `p` of tract `t`, with the shared builder `b`: `findPatch` returns a patch that contains `p` in its inner box and
that is also returned by `getPatchInfo` for its index. -/
def FindsPatch {Sky K : Type} [Field K] [LinearOrder K] [FloorRing K] (env : FloatEnv K) (t : TractInfo Sky K) (b : TractBuilder) (c : Sky) : Prop :=
  ∃ p pi, t.wcs.PixelOf c p ∧ t.findPatch env b c = .ok pi ∧ pi.innerBBox.contains p = true ∧
    t.getPatchInfo b (.index2D pi.index) = .ok pi

section general
variable {Sky K : Type} [Field K] [LinearOrder K] [FloorRing K] {env : FloatEnv K} {ops : SkyOps Sky K} {b₀ b b' : TractBuilder}
  {a a' : TractArgs Sky K} {t t' : TractInfo Sky K}

theorem includeAll_congr (tweak : K → K) {w w' : Wcs Sky K} {l l' : List Sky} (h : l.map w.skyToPixel = l'.map w'.skyToPixel) (x : Box2D K) :
    includeAll tweak w l x = includeAll tweak w' l' x := by
  induction l generalizing l' x with
  | nil => cases l' with
    | nil => rfl
    | cons => simp at h
  | cons p l ih => cases l' with
    | nil => simp at h
    | cons p' l' =>
      simp only [List.map_cons, List.cons.injEq] at h
      unfold includeAll
      rw [h.1]
      congr 1
      funext y
      exact ih h.2 y

/-- The size of a tract and the state of its builder depend only on the pixels of the positions that size it. -/
theorem TractInfo.new_same_size (hp : (samplePoints ops a).map a.wcs.skyToPixel = (samplePoints ops a').map a'.wcs.skyToPixel)
    (h : TractInfo.new env ops b₀ a = .ok (t, b)) (h' : TractInfo.new env ops b₀ a' = .ok (t', b')) : t.SameSize t' ∧ b = b' := by
  obtain ⟨mb, bbox, n, e1, e2, rfl⟩ := TractInfo.new_inv h
  obtain ⟨mb', bbox', n', e1', e2', rfl⟩ := TractInfo.new_inv h'
  have : minimumBoundingBox env ops a = minimumBoundingBox env ops a' := includeAll_congr _ hp _
  rw [e1, e1', Except.ok.injEq] at this
  subst this
  rw [e2] at e2'
  simp only [Except.ok.injEq, Prod.mk.injEq] at e2'
  obtain ⟨rfl, rfl, rfl⟩ := e2'
  exact ⟨⟨rfl, rfl⟩, rfl⟩

/-- The shared builder of an eagerly built sky map is left in the state for the last tract. -/
theorem EagerSkyMap.buildAll_last {l : List (TractArgs Sky K)} {n : Nat} {ts : List (TractRef Sky K)}
    (h : EagerSkyMap.buildAll env ops l n b₀ = .ok (ts, b)) (hl : l ≠ []) :
    ∃ a ∈ l, ∃ t, TractInfo.new env ops b₀ a = .ok (t, b) := by
  induction l generalizing n b₀ ts with
  | nil => exact absurd rfl hl
  | cons a l ih =>
    unfold EagerSkyMap.buildAll at h
    obtain ⟨⟨t1, b1⟩, h1, h⟩ := bindOk h
    obtain ⟨⟨ts', b2⟩, h2, h⟩ := bindOk h
    simp only [pure, Except.pure, Except.ok.injEq, Prod.mk.injEq] at h
    obtain ⟨rfl, rfl⟩ := h
    rcases eq_or_ne l [] with rfl | hne
    · simp only [EagerSkyMap.buildAll, Except.ok.injEq, Prod.mk.injEq] at h2
      obtain ⟨-, rfl⟩ := h2
      exact ⟨a, by simp, t1, h1⟩
    · obtain ⟨a', ha', t, ht⟩ := ih h2 hne
      refine ⟨a', by simp [ha'], t, ?_⟩
      have hst : ∃ st, b1 = { b₀ with state := st } := by
        obtain ⟨mb, bbox, n, -, e, -⟩ := TractInfo.new_inv h1
        unfold TractBuilder.setupPatches at e
        obtain ⟨ax, -, e⟩ := bindOk e
        obtain ⟨ay, -, e⟩ := bindOk e
        simp only [pure, Except.pure, Except.ok.injEq, Prod.mk.injEq] at e
        exact ⟨_, e.2.2.symm⟩
      obtain ⟨st, rfl⟩ := hst
      rwa [TractInfo.new_state] at ht

/-- An eagerly built sky map whose tracts are sized by the same pixels: every tract is as if it had been built alone. -/
theorem EagerSkyMap.same_size {l : List (TractArgs Sky K)} {n : Nat} {ts : List (TractRef Sky K)}
    (hp : ∀ a ∈ l, ∀ a' ∈ l, (samplePoints ops a).map a.wcs.skyToPixel = (samplePoints ops a').map a'.wcs.skyToPixel)
    (h : EagerSkyMap.buildAll env ops l n b₀ = .ok (ts, b)) :
    (∀ t ∈ ts, ∀ t' ∈ ts, t.info.SameSize t'.info) ∧
    ∀ (k : Nat) t, ts[k]? = some t → ∃ a, l[k]? = some a ∧ TractInfo.new env ops b₀ a = .ok (t.info, b) := by
  have key : ∀ (k : Nat) t, ts[k]? = some t → ∃ a, l[k]? = some a ∧ TractInfo.new env ops b₀ a = .ok (t.info, b) := by
    intro k t hk
    obtain ⟨a, b', ha, hnew⟩ := EagerSkyMap.buildAll_fresh h hk
    have hm := List.mem_of_getElem? ha
    obtain ⟨a', ha', t', ht'⟩ := EagerSkyMap.buildAll_last h (List.ne_nil_of_mem hm)
    obtain ⟨-, rfl⟩ := TractInfo.new_same_size (hp a hm a' ha') hnew ht'
    exact ⟨a, ha, hnew⟩
  refine ⟨fun t ht t' ht' => ?_, key⟩
  obtain ⟨k, hk⟩ := List.getElem?_of_mem ht
  obtain ⟨k', hk'⟩ := List.getElem?_of_mem ht'
  obtain ⟨a, ha, hnew⟩ := key k t hk
  obtain ⟨a', ha', hnew'⟩ := key k' t' hk'
  exact (TractInfo.new_same_size (hp a (List.mem_of_getElem? ha) a' (List.mem_of_getElem? ha')) hnew hnew').1

/-- In a tract that contains the position, the patch is found. -/
theorem TractInfo.findsPatch [IsStrictOrderedRing K] (he : env.Ok) (h : TractInfo.new env ops b₀ a = .ok (t, b))
    (hx : 0 < b₀.patchInnerDimensions.x) (hy : 0 < b₀.patchInnerDimensions.y) (hb : 0 ≤ b₀.patchBorder)
    (sx : t.bbox.dim.x < 2 ^ 53) (sy : t.bbox.dim.y < 2 ^ 53) {c : Sky} (hc : t.contains c = true) : FindsPatch env t b c := by
  unfold TractInfo.contains at hc
  split at hc
  · simp at hc
  · simp at hc
  · rename_i q hq
    obtain ⟨pi, h1, h2, h3⟩ := C08_findPatch he h hx hy hb sx sy c (toPoint2I q) ⟨q, hq, rfl⟩ hc
    exact ⟨_, pi, ⟨q, hq, rfl⟩, h1, h2, h3⟩

/-- A bound on the size of a tract: if the pixels that size it are within `B` of the reference pixel, then the tract is less than a patch
and three pixels larger than `2 B`. -/
theorem TractInfo.size_bound [IsStrictOrderedRing K] (he : env.Ok) (h : TractInfo.new env ops b₀ a = .ok (t, b))
    (hx : 0 < b₀.patchInnerDimensions.x) (hy : 0 < b₀.patchInnerDimensions.y) {c : Sky} (hc : t.contains c = true) {B : K}
    (hB : ∀ s ∈ samplePoints ops a, ∀ q, a.wcs.skyToPixel s = .pix q → |q.x| ≤ B ∧ |q.y| ≤ B) :
    (t.bbox.dim.x : K) < 2 * B + b₀.patchInnerDimensions.x + 3 ∧ (t.bbox.dim.y : K) < 2 * B + b₀.patchInnerDimensions.y + 3 := by
  have B' := TractInfo.new_built h hx hy
  have hn : 0 < t.numPatches.x ∧ 0 < t.numPatches.y := by
    unfold TractInfo.contains at hc
    split at hc
    · simp at hc
    · simp at hc
    · have := (B'.contains_bbox _).1 hc
      constructor
      · by_contra hh
        have := mul_nonpos_of_nonpos_of_nonneg (not_lt.1 hh) B'.ready.dx.le
        omega
      · by_contra hh
        have := mul_nonpos_of_nonpos_of_nonneg (not_lt.1 hh) B'.ready.dy.le
        omega
  have hd : t.bbox = ⟨⟨0, 0⟩, ⟨t.numPatches.x * b₀.patchInnerDimensions.x, t.numPatches.y * b₀.patchInnerDimensions.y⟩⟩ := by
    rw [B'.box, B'.dims, Box2I.mk'_pos _ _ (mul_pos hn.1 hx) (mul_pos hn.2 hy)]
  have hne : t.getBBox.isEmpty = false := by
    unfold TractInfo.getBBox Box2I.isEmpty
    rw [hd]
    have := mul_pos hn.1 hx
    dsimp only
    rw [decide_eq_false_iff_not]
    omega
  have fl : ∀ x y : K, |x| ≤ B → |y| ≤ B → ((⌊y + 1 / 2⌋ - ⌊x + 1 / 2⌋ : Int) : K) < 2 * B + 1 := by
    intro x y h1 h2
    have a1 := Int.floor_le (y + 1 / 2)
    have a2 := Int.lt_floor_add_one (x + 1 / 2)
    have := abs_le.1 h1
    have := abs_le.1 h2
    push_cast
    linarith
  obtain ⟨⟨c1, m1, c2, m2, p1, p2, ⟨q1, e1, rfl⟩, ⟨q2, e2, rfl⟩, l1⟩, ⟨c3, m3, c4, m4, p3, p4, ⟨q3, e3, rfl⟩, ⟨q4, e4, rfl⟩, l2⟩⟩ :=
    C12_not_too_large he h hx hy hne
  have f1 := fl q1.x q2.x (hB _ m1 _ e1).1 (hB _ m2 _ e2).1
  have f2 := fl q3.y q4.y (hB _ m3 _ e3).2 (hB _ m4 _ e4).2
  rw [hd]
  dsimp only
  dsimp only at l1 l2
  have k1 : ((t.numPatches.x * b₀.patchInnerDimensions.x : Int) : K) <
      ((⌊q2.x + 1 / 2⌋ - ⌊q1.x + 1 / 2⌋ : Int) : K) + 2 + b₀.patchInnerDimensions.x := by
    have : t.numPatches.x * b₀.patchInnerDimensions.x < (⌊q2.x + 1 / 2⌋ - ⌊q1.x + 1 / 2⌋) + 2 + b₀.patchInnerDimensions.x := by linarith
    exact_mod_cast this
  have k2 : ((t.numPatches.y * b₀.patchInnerDimensions.y : Int) : K) <
      ((⌊q4.y + 1 / 2⌋ - ⌊q3.y + 1 / 2⌋ : Int) : K) + 2 + b₀.patchInnerDimensions.y := by
    have : t.numPatches.y * b₀.patchInnerDimensions.y < (⌊q4.y + 1 / 2⌋ - ⌊q3.y + 1 / 2⌋) + 2 + b₀.patchInnerDimensions.y := by linarith
    exact_mod_cast this
  constructor <;> linarith

theorem CachingSkyMap.fresh_inv {m : CachingDef Sky K} {k : Nat} {x : TractInfo Sky K × TractBuilder}
    (h : CachingSkyMap.fresh m b₀ k = .ok x) : ∃ a, m.tractArgs k = .ok a ∧ TractInfo.new m.env m.ops b₀ a = .ok x := by
  unfold CachingSkyMap.fresh at h
  split at h
  · cases h
  · next a ha => exact ⟨a, ha, h⟩

/-- A caching sky map whose tracts are sized by the same pixels. -/
theorem CachingSkyMap.same_size {m : CachingDef Sky K} (hp : ∀ (i j : Nat) a a', m.tractArgs i = .ok a → m.tractArgs j = .ok a' →
      (samplePoints m.ops a).map a.wcs.skyToPixel = (samplePoints m.ops a').map a'.wcs.skyToPixel)
    {s₁ s₁' s₂ s₂' : MapState Sky K} {i j : Int} {r r' : TractRef Sky K}
    (h₁ : (CachingSkyMap.skyMapOps m).After (CachingSkyMap.init m b₀) s₁) (g₁ : CachingSkyMap.getItem m i s₁ = (.ok r, s₁'))
    (h₂ : (CachingSkyMap.skyMapOps m).After (CachingSkyMap.init m b₀) s₂) (g₂ : CachingSkyMap.getItem m j s₂ = (.ok r', s₂')) :
    r.info.SameSize r'.info := by
  obtain ⟨k, rfl, -, b, hf, -⟩ := fresh_of_getItem h₁ g₁
  obtain ⟨k', rfl, -, b', hf', -⟩ := fresh_of_getItem h₂ g₂
  obtain ⟨a, ha, hf⟩ := CachingSkyMap.fresh_inv hf
  obtain ⟨a', ha', hf'⟩ := CachingSkyMap.fresh_inv hf'
  exact (TractInfo.new_same_size (hp _ _ _ _ ha ha') hf hf').1

theorem CachingSkyMap.uniform_of {m : CachingDef Sky K} (hp : ∀ (i j : Nat) a a', m.tractArgs i = .ok a → m.tractArgs j = .ok a' →
      (samplePoints m.ops a).map a.wcs.skyToPixel = (samplePoints m.ops a').map a'.wcs.skyToPixel) (b₀ : TractBuilder) : m.Uniform b₀ :=
  fun _ _ _ _ _ _ h h' => (CachingSkyMap.same_size hp (SkyMapOps.After.refl _) h (SkyMapOps.After.refl _) h').1

/-- On a caching sky map with tracts of the same size, every tract is for ever as if it had been built alone. -/
theorem CachingSkyMap.as_built [IsStrictOrderedRing K] {m : CachingDef Sky K} (hx : 0 < b₀.patchInnerDimensions.x)
    (hy : 0 < b₀.patchInnerDimensions.y) (hu : m.Uniform b₀) {s s' s'' : MapState Sky K} {i : Int} {r : TractRef Sky K}
    (h : (CachingSkyMap.skyMapOps m).After (CachingSkyMap.init m b₀) s) (hg : CachingSkyMap.getItem m i s = (.ok r, s'))
    (h'' : (CachingSkyMap.skyMapOps m).After s' s'') :
    ∃ (k : Nat) (a : TractArgs Sky K), i = k ∧ m.tractArgs k = .ok a ∧ TractInfo.new m.env m.ops b₀ a = .ok (r.info, s''.builder) := by
  obtain ⟨k, rfl, -, b, hf, hb, hr⟩ := fresh_of_getItem h hg
  obtain ⟨a, ha, hn⟩ := CachingSkyMap.fresh_inv hf
  have := (builder_uniform hx hy hu h hg h'' (Prod.ext hr rfl)).2
  exact ⟨k, a, rfl, ha, by rw [this, hb]; exact hn⟩

end general

variable {env : FloatEnv ℝ} {b₀ b : TractBuilder} {scale θ : ℝ} {code : String} {flipX : Bool} {f : WcsFactory} {P : Projection}
  {other : P2 ℝ → SpherePoint ℝ → CdMatrix → String → Wcs (SpherePoint ℝ) ℝ}

/-- With a zenithal projection around the tract's centre, the pixel of an offset position does not depend on the centre. -/
theorem zenithal_offset (hf : WcsFactory.new scale code θ flipX = .ok f) (hP : Projection.ofCode code = some P) (hz : P ≠ .CEA)
    (c c' : SpherePoint ℝ) (x d : ℝ) :
    (f.makeWcs other ⟨0, 0⟩ c).skyToPixel (c.offset x d) = (f.makeWcs other ⟨0, 0⟩ c').skyToPixel (c'.offset x d) := by
  have : P.toPlane c (c.offset x d) = P.toPlane c' (c'.offset x d) := by
    obtain ⟨e1, e2, e3⟩ := offset_spec c x d
    obtain ⟨e1', e2', e3'⟩ := offset_spec c' x d
    cases P with
    | TAN => simp only [Projection.toPlane, e1, e2, e3, e1', e2', e3']
    | STG => simp only [Projection.toPlane, e1, e2, e3, e1', e2', e3']
    | CEA => exact absurd rfl hz
  rw [WcsFactory.makeWcs_eq hf hP, WcsFactory.makeWcs_eq hf hP]
  unfold makeSkyWcs
  dsimp only
  rw [this]

/-- Explicit tracts of the same radius and overlap are sized by the same pixels. -/
theorem explicit_same (hf : WcsFactory.new scale code θ flipX = .ok f) (hP : Projection.ofCode code = some P) (hz : P ≠ .CEA)
    {a a' : TractArgs (SpherePoint ℝ) ℝ} {r : ℝ} (h1 : a.shape = .explicit r) (h1' : a'.shape = .explicit r)
    (h2 : a.tractOverlap = a'.tractOverlap) (h3 : a.wcs = f.makeWcs other ⟨0, 0⟩ a.ctrCoord)
    (h3' : a'.wcs = f.makeWcs other ⟨0, 0⟩ a'.ctrCoord) :
    (samplePoints sphereOps a).map a.wcs.skyToPixel = (samplePoints sphereOps a').map a'.wcs.skyToPixel := by
  unfold samplePoints
  rw [h1, h1', h3, h3', h2]
  dsimp only
  rw [List.map_map, List.map_map]
  exact List.map_congr_left fun i _ => zenithal_offset hf hP hz _ _ _ _

/-- The size of an explicit tract is what double precision can count. -/
theorem explicit_dim (he : env.Ok) {a : TractArgs (SpherePoint ℝ) ℝ} {t : TractInfo (SpherePoint ℝ) ℝ}
    (h : TractInfo.new env sphereOps b₀ a = .ok (t, b))
    (hx : 0 < b₀.patchInnerDimensions.x) (hy : 0 < b₀.patchInnerDimensions.y)
    (hf : WcsFactory.new scale code θ flipX = .ok f) (hs : 0 < scale) (hP : Projection.ofCode code = some P) {r ρ : ℝ}
    (ha : a.shape = .explicit r) (hw : a.wcs = f.makeWcs other ⟨0, 0⟩ a.ctrCoord) (hρ : ρ = r + a.tractOverlap)
    (h0 : 0 ≤ ρ) (hl : ρ < P.limit) (sx : 2 * (P.radius ρ / scale) + b₀.patchInnerDimensions.x + 3 ≤ 2 ^ 53)
    (sy : 2 * (P.radius ρ / scale) + b₀.patchInnerDimensions.y + 3 ≤ 2 ^ 53) {p : SpherePoint ℝ} (hc : t.contains p = true) :
    t.bbox.dim.x < 2 ^ 53 ∧ t.bbox.dim.y < 2 ^ 53 := by
  obtain ⟨z1, z2⟩ := TractInfo.size_bound he h hx hy hc (B := P.radius ρ / scale) (by
    intro s hsm q hq
    obtain ⟨i, -, e⟩ := explicit_samples (other := other) hf hs hP ha hw hρ h0 hl s hsm
    rw [hq, PixRes.pix.injEq] at e
    subst e
    have hr : 0 ≤ P.radius ρ / scale := div_nonneg (P.radius_nonneg h0 hl) hs.le
    dsimp only
    have hm : |(if flipX then 1 else -1 : ℝ)| = 1 := by cases flipX <;> simp
    rw [abs_mul, hm, one_mul, abs_mul, abs_mul, abs_of_nonneg hr]
    exact ⟨mul_le_of_le_one_right hr (abs_cos_le_one _), mul_le_of_le_one_right hr (abs_sin_le_one _)⟩)
  constructor
  · have : (t.bbox.dim.x : ℝ) < ((2 ^ 53 : Int) : ℝ) := by push_cast; linarith
    exact_mod_cast this
  · have : (t.bbox.dim.y : ℝ) < ((2 ^ 53 : Int) : ℝ) := by push_cast; linarith
    exact_mod_cast this

/-- In an explicit tract that contains the position, the patch is found, provided that the tract is not larger than what double precision
can count. -/
theorem explicit_findsPatch (he : env.Ok) {a : TractArgs (SpherePoint ℝ) ℝ} {t : TractInfo (SpherePoint ℝ) ℝ}
    (h : TractInfo.new env sphereOps b₀ a = .ok (t, b))
    (hx : 0 < b₀.patchInnerDimensions.x) (hy : 0 < b₀.patchInnerDimensions.y) (hb : 0 ≤ b₀.patchBorder)
    (hf : WcsFactory.new scale code θ flipX = .ok f) (hs : 0 < scale) (hP : Projection.ofCode code = some P) {r ρ : ℝ}
    (ha : a.shape = .explicit r) (hw : a.wcs = f.makeWcs other ⟨0, 0⟩ a.ctrCoord) (hρ : ρ = r + a.tractOverlap)
    (h0 : 0 ≤ ρ) (hl : ρ < P.limit) (sx : 2 * (P.radius ρ / scale) + b₀.patchInnerDimensions.x + 3 ≤ 2 ^ 53)
    (sy : 2 * (P.radius ρ / scale) + b₀.patchInnerDimensions.y + 3 ≤ 2 ^ 53) {p : SpherePoint ℝ} (hc : t.contains p = true) :
    FindsPatch env t b p := by
  obtain ⟨z1, z2⟩ := explicit_dim he h hx hy hf hs hP ha hw hρ h0 hl sx sy hc
  exact TractInfo.findsPatch he h hx hy hb z1 z2 hc

/-! ## Rings -/

namespace Rings
variable {A : FloatArith ℝ} {R : Rings ℝ}

theorem same_pixels (A : FloatArith ℝ) (R : Rings ℝ) (env : FloatEnv ℝ) (hf : WcsFactory.new scale code θ flipX = .ok f)
    (hP : Projection.ofCode code = some P) (hz : P ≠ .CEA) (i j : Nat) (a a' : TractArgs (SpherePoint ℝ) ℝ)
    (h : (R.cachingDef A env sphereOps (f.makeWcs other ⟨0, 0⟩)).tractArgs i = .ok a)
    (h' : (R.cachingDef A env sphereOps (f.makeWcs other ⟨0, 0⟩)).tractArgs j = .ok a') :
    (samplePoints (R.cachingDef A env sphereOps (f.makeWcs other ⟨0, 0⟩)).ops a).map a.wcs.skyToPixel =
      (samplePoints (R.cachingDef A env sphereOps (f.makeWcs other ⟨0, 0⟩)).ops a').map a'.wcs.skyToPixel := by
  simp only [cachingDef] at h h'
  obtain ⟨q, -, h⟩ := bindOk h
  obtain ⟨g, -, h⟩ := bindOk h
  obtain ⟨q', -, h'⟩ := bindOk h'
  obtain ⟨g', -, h'⟩ := bindOk h'
  simp only [pure, Except.pure, Except.ok.injEq] at h h'
  subst h h'
  exact explicit_same (other := other) hf hP hz rfl rfl rfl rfl rfl

/-- C62: all tracts of a rings sky map (of either version, in any rounding, with a zenithal projection and any rotation) that are ever
returned, in any histories, have the same size. -/
theorem C62_same_size (hf : WcsFactory.new scale code θ flipX = .ok f) (hP : Projection.ofCode code = some P) (hz : P ≠ .CEA)
    {M : SkyMapOps (MapState (SpherePoint ℝ) ℝ) (SpherePoint ℝ) ℝ} (hM : M = skyMapOps A R env sphereOps (f.makeWcs other ⟨0, 0⟩))
    {s₁ s₁' s₂ s₂' : MapState (SpherePoint ℝ) ℝ} {i j : Int} {r r' : TractRef (SpherePoint ℝ) ℝ}
    (h₁ : M.After (init A R env sphereOps (f.makeWcs other ⟨0, 0⟩) b₀) s₁) (g₁ : M.getItem i s₁ = (.ok r, s₁'))
    (h₂ : M.After (init A R env sphereOps (f.makeWcs other ⟨0, 0⟩) b₀) s₂) (g₂ : M.getItem j s₂ = (.ok r', s₂')) :
    r.info.SameSize r'.info := by
  subst hM
  exact CachingSkyMap.same_size (same_pixels A R env hf hP hz) h₁ g₁ h₂ g₂

/-- C62: the patch lookups on a tract of a rings sky map, whatever was accessed before and after it was obtained, give what they give on
a newly built sky map. -/
theorem C62_history (hx : 0 < b₀.patchInnerDimensions.x) (hy : 0 < b₀.patchInnerDimensions.y)
    (hf : WcsFactory.new scale code θ flipX = .ok f) (hP : Projection.ofCode code = some P) (hz : P ≠ .CEA)
    {M : SkyMapOps (MapState (SpherePoint ℝ) ℝ) (SpherePoint ℝ) ℝ} (hM : M = skyMapOps A R env sphereOps (f.makeWcs other ⟨0, 0⟩))
    {new s s' s'' s₀ : MapState (SpherePoint ℝ) ℝ} (hnew : new = init A R env sphereOps (f.makeWcs other ⟨0, 0⟩) b₀)
    {i : Int} {r r₀ : TractRef (SpherePoint ℝ) ℝ}
    (h : M.After new s) (hg : M.getItem i s = (.ok r, s')) (h' : M.After s' s'') (hg₀ : M.getItem i new = (.ok r₀, s₀)) :
    (∀ index, r.info.getPatchInfo s''.builder index = r₀.info.getPatchInfo s₀.builder index) ∧
    (r.info.iter s''.builder = r₀.info.iter s₀.builder) ∧
    (∀ c, r.info.findPatch env s''.builder c = r₀.info.findPatch env s₀.builder c) ∧
    (∀ l, r.info.findPatchList env s''.builder l = r₀.info.findPatchList env s₀.builder l) ∧
    (∀ p, r.info.getSequentialPatchIndex s''.builder p = r₀.info.getSequentialPatchIndex s₀.builder p) ∧
    (∀ p, r.info.getSequentialPatchIndexFromPair s''.builder p = r₀.info.getSequentialPatchIndexFromPair s₀.builder p) ∧
    (∀ n, r.info.getPatchIndexPair s''.builder n = r₀.info.getPatchIndexPair s₀.builder n) := by
  subst hM hnew
  exact C20_uniform_partial (m := R.cachingDef A env sphereOps (f.makeWcs other ⟨0, 0⟩)) hx hy
    (CachingSkyMap.uniform_of (same_pixels A R env hf hP hz) b₀) h i r hg s'' h' r₀ s₀ hg₀

open FloatArith (exact)

/-- C62 with C58: on a rings sky map of version 1 with two rings or more, without rotation and with TAN or STG projection, whose overlap is at
least a sixth of the height of a ring, `findTract` followed, after any further accesses, by `findPatch` on the tract it returned finds,
for every position of the sky, a patch whose inner box contains the position's pixel. -/
theorem C62_findPatch {c : RingsConfig ℝ} (h : Rings.new exact c 1 = .ok R) (hN : 2 ≤ c.numRings) (he : env.Ok)
    (hx : 0 < b₀.patchInnerDimensions.x) (hy : 0 < b₀.patchInnerDimensions.y) (hbord : 0 ≤ b₀.patchBorder)
    (hf : WcsFactory.new scale code 0 flipX = .ok f) (hsc : 0 < scale) (hP : Projection.ofCode code = some P) (hz : P ≠ .CEA)
    (hov : 30 / ((c.numRings : ℝ) + 1) ≤ c.tractOverlap) (hlim : 90 / ((c.numRings : ℝ) + 1) + c.tractOverlap < 90)
    {M : SkyMapOps (MapState (SpherePoint ℝ) ℝ) (SpherePoint ℝ) ℝ} (hM : M = skyMapOps exact R env sphereOps (f.makeWcs other ⟨0, 0⟩))
    {s s' s'' : MapState (SpherePoint ℝ) ℝ} {r : TractRef (SpherePoint ℝ) ℝ}
    (hs : M.After (init exact R env sphereOps (f.makeWcs other ⟨0, 0⟩) b₀) s)
    {p : SpherePoint ℝ} (hlon : 0 ≤ p.lon ∧ p.lon < 2 * π) (hlat : |p.lat| ≤ π / 2)
    (hft : R.findTract exact M p s = (.ok r, s')) (hs'' : M.After s' s'')
    (sx : 2 * (P.radius ((90 / ((c.numRings : ℝ) + 1) + c.tractOverlap) * (π / 180)) / scale) + b₀.patchInnerDimensions.x + 3 ≤ 2 ^ 53)
    (sy : 2 * (P.radius ((90 / ((c.numRings : ℝ) + 1) + c.tractOverlap) * (π / 180)) / scale) + b₀.patchInnerDimensions.y + 3 ≤ 2 ^ 53) :
    FindsPatch env r.info s''.builder p := by
  subst hM
  have hp := pi_pos
  obtain ⟨h1, -⟩ := new_exact h
  obtain ⟨-, s1⟩ := size_pos h
  have hN0 : (0 : ℝ) < (c.numRings : ℝ) + 1 := by have : (2 : ℝ) ≤ c.numRings := by exact_mod_cast hN
                                                  linarith
  have hc := C58_covers h hN he hx hy hf hsc hP hz hov hlim hs hlon hlat hft
  obtain ⟨i, hi, hin, hfi⟩ := C27_findTract h (skyMapOps exact R env sphereOps (f.makeWcs other ⟨0, 0⟩)) p hlon hlat
  rw [hfi] at hft
  obtain ⟨k, a, -, ha, hn⟩ := CachingSkyMap.as_built hx hy
    (CachingSkyMap.uniform_of (same_pixels exact R env hf hP hz) b₀) hs hft hs''
  simp only [cachingDef] at ha
  obtain ⟨q, -, ha⟩ := bindOk ha
  obtain ⟨g, -, ha⟩ := bindOk ha
  simp only [pure, Except.pure, Except.ok.injEq] at ha
  subst ha
  have er : (90 / ((c.numRings : ℝ) + 1) + c.tractOverlap) * (π / 180) =
      exact.mul (1 / 2) R.ringSize + exact.deg2rad R.config.tractOverlap := by
    rw [h1]
    have es : R.ringSize = π / ((c.numRings : ℝ) + 1) := by rw [← s1]; field_simp
    change _ = 1 / 2 * R.ringSize + c.tractOverlap * (π / 180)
    rw [es]
    field_simp
    ring
  have hov0 : 0 ≤ c.tractOverlap := le_trans (by positivity) hov
  refine explicit_findsPatch (other := other) he hn hx hy hbord hf hsc hP rfl rfl er (by positivity) ?_ sx sy hc
  refine lt_of_lt_of_le ?_ (half_le_limit hz)
  nlinarith

/-- C62 is not vacuous: in the map with 3 rings and an overlap of 8 degrees, `findTract` of (1, 1), an access to tract 0, then `findPatch`;
tract 0 and the tract found have the same size. -/
example : ∃ (R : Rings ℝ) (f : WcsFactory) (r r₀ : TractRef (SpherePoint ℝ) ℝ) (s' s'' : MapState (SpherePoint ℝ) ℝ),
      Rings.new exact ⟨3, 0, 8⟩ 1 = .ok R ∧ WcsFactory.new (1 / 1000) "STG" 0 false = .ok f ∧
      R.findTract exact (skyMapOps exact R Ex.realEnv sphereOps (f.makeWcs other ⟨0, 0⟩)) ⟨1, 1⟩
        (init exact R Ex.realEnv sphereOps (f.makeWcs other ⟨0, 0⟩) Ex.smallBuilder) = (.ok r, s') ∧
      (skyMapOps exact R Ex.realEnv sphereOps (f.makeWcs other ⟨0, 0⟩)).getItem 0 s' = (.ok r₀, s'') ∧
      FindsPatch Ex.realEnv r.info s''.builder ⟨1, 1⟩ ∧ r.info.SameSize r₀.info := by
  have hp := pi_gt_three
  have hp2 := pi_pos
  obtain ⟨R, hR⟩ := new_ok ⟨3, 0, 8⟩ (.inr rfl)
  obtain ⟨f, hf⟩ := (WcsFactory.C56_projection_length (1 / 1000) "STG" 0 false).2 rfl
  have l1 : 0 ≤ (⟨1, 1⟩ : SpherePoint ℝ).lon ∧ (⟨1, 1⟩ : SpherePoint ℝ).lon < 2 * π := ⟨by norm_num, by dsimp only; linarith⟩
  have l2 : |(⟨1, 1⟩ : SpherePoint ℝ).lat| ≤ π / 2 := by dsimp only; rw [abs_one]; linarith
  obtain ⟨r, s', hr⟩ := C58_total (other := other) (env := Ex.realEnv) (b₀ := Ex.smallBuilder) hR (by decide) (by decide) hf (by norm_num)
    (P := .STG) rfl (by decide) (by norm_num) (by norm_num) (SkyMapOps.After.refl _) l1 l2
  obtain ⟨i, hi, -, hfi⟩ := C27_findTract hR (skyMapOps exact R Ex.realEnv sphereOps (f.makeWcs other ⟨0, 0⟩)) ⟨1, 1⟩ l1 l2
  have hg := hr
  rw [hfi] at hg
  have ha := SkyMapOps.After.step' (M := skyMapOps exact R Ex.realEnv sphereOps (f.makeWcs other ⟨0, 0⟩)) hg
  -- tract 0 is at the south pole
  obtain ⟨r₀, s'', h0⟩ := C58_total (other := other) (p := ⟨0, -(π / 2)⟩) (env := Ex.realEnv) (b₀ := Ex.smallBuilder) hR (by decide)
    (by decide) hf (by norm_num) (P := .STG) rfl (by decide) (by norm_num) (by norm_num) ha ⟨le_rfl, by dsimp only; linarith⟩
    (by dsimp only; rw [abs_neg, abs_of_pos (by linarith)])
  obtain ⟨j, hj, hin, hfj⟩ := C27_findTract hR (skyMapOps exact R Ex.realEnv sphereOps (f.makeWcs other ⟨0, 0⟩)) ⟨0, -(π / 2)⟩
    ⟨le_rfl, by dsimp only; linarith⟩ (by dsimp only; rw [abs_neg, abs_of_pos (by linarith)])
  rw [hfj] at h0
  obtain ⟨wf, -⟩ := new_wf hR
  obtain ⟨s0, -⟩ := size_pos hR
  obtain ⟨e1, -⟩ := new_exact hR
  have hj0 : j = 0 := by
    rcases wf.index_cases hj with rfl | rfl | ⟨k, n, u, hk, h3, h4, rfl⟩
    · rfl
    · obtain ⟨g, hg, -, g1, -⟩ := hin
      rw [range_north wf] at hg
      cases hg
      dsimp only at g1
      rw [e1] at g1
      norm_num at g1
      nlinarith
    · obtain ⟨g, hg, -, g1, -⟩ := hin
      rw [range_ring wf (wf.getRingIndices_ring (new_exact hR).2.1 hk h3 h4) hk] at hg
      cases hg
      dsimp only at g1
      have : (0 : ℝ) ≤ k := by positivity
      exfalso
      nlinarith
  subst hj0
  have ht : Projection.STG.radius ((90 / (((3 : Int) : ℝ) + 1) + 8) * (π / 180)) ≤ 2 := by
    have a1 : (90 / (((3 : Int) : ℝ) + 1) + 8) * (π / 180) / 2 < π / 4 := by push_cast; linarith
    have a2 : 0 < (90 / (((3 : Int) : ℝ) + 1) + 8) * (π / 180) / 2 := by positivity
    have := (tan_lt_tan_of_lt_of_lt_pi_div_two (by linarith) (by linarith) a1).le
    rw [tan_pi_div_four] at this
    simp only [Projection.radius]
    linarith
  have hb : (Ex.smallBuilder.patchInnerDimensions.x : ℝ) = 20 ∧ (Ex.smallBuilder.patchInnerDimensions.y : ℝ) = 20 := by
    norm_num [Ex.smallBuilder]
  refine ⟨R, f, r, r₀, s', s'', hR, hf, hr, h0, ?_, ?_⟩
  · refine C62_findPatch hR (by norm_num) Ex.realEnv_ok (by decide) (by decide) (by decide) hf (by norm_num) (P := .STG) rfl (by decide) (by norm_num) (by norm_num) rfl
      (SkyMapOps.After.refl _) l1 l2 hr (SkyMapOps.After.step' (M := skyMapOps exact R Ex.realEnv sphereOps (f.makeWcs other ⟨0, 0⟩)) h0) ?_ ?_
    · rw [hb.1]; linarith
    · rw [hb.2]; linarith
  · exact C62_same_size (P := .STG) hf rfl (by decide) rfl (SkyMapOps.After.refl _) hg ha h0

end Rings

/-! ## Discrete sky maps -/

theorem discrete_same_pixels (hf : WcsFactory.new scale code θ flipX = .ok f) (hP : Projection.ofCode code = some P) (hz : P ≠ .CEA)
    (point : ℝ → ℝ → PyM (SpherePoint ℝ)) (angle : ℝ → ℝ) (c : DiscreteConfig ℝ) (hr : ∀ x ∈ c.radiusList, ∀ y ∈ c.radiusList, x = y)
    (i j : Nat) (a a' : TractArgs (SpherePoint ℝ) ℝ)
    (h : (DiscreteSkyMap.cachingDef env sphereOps ⟨point, angle, f.makeWcs other ⟨0, 0⟩⟩ c).tractArgs i = .ok a)
    (h' : (DiscreteSkyMap.cachingDef env sphereOps ⟨point, angle, f.makeWcs other ⟨0, 0⟩⟩ c).tractArgs j = .ok a') :
    (samplePoints sphereOps a).map a.wcs.skyToPixel = (samplePoints sphereOps a').map a'.wcs.skyToPixel := by
  have key : ∀ (i : Nat) (x : ℝ), pyGetItem c.radiusList (i : Int) = .ok x → x ∈ c.radiusList := by
    intro i x hx
    simp only [pyGetItem, Int.not_ofNat_neg, if_false, Int.toNat_natCast] at hx
    split at hx
    · next e => cases hx; exact List.mem_of_getElem? e
    · cases hx
  simp only [DiscreteSkyMap.cachingDef] at h h'
  obtain ⟨_, -, h⟩ := bindOk h
  obtain ⟨_, -, h⟩ := bindOk h
  obtain ⟨q, -, h⟩ := bindOk h
  obtain ⟨x, hx, h⟩ := bindOk h
  obtain ⟨_, -, h'⟩ := bindOk h'
  obtain ⟨_, -, h'⟩ := bindOk h'
  obtain ⟨q', -, h'⟩ := bindOk h'
  obtain ⟨x', hx', h'⟩ := bindOk h'
  obtain rfl := hr x (key i x hx) x' (key j x' hx')
  simp only [pure, Except.pure, Except.ok.injEq] at h h'
  subst h h'
  exact explicit_same (other := other) hf hP hz rfl rfl rfl rfl rfl

/-- C62: all tracts of a discrete sky map with equal radii (a zenithal projection, any rotation) have the same size. -/
theorem C62_discrete_same_size (hf : WcsFactory.new scale code θ flipX = .ok f) (hP : Projection.ofCode code = some P) (hz : P ≠ .CEA)
    (point : ℝ → ℝ → PyM (SpherePoint ℝ)) (angle : ℝ → ℝ) (c : DiscreteConfig ℝ) (hr : ∀ x ∈ c.radiusList, ∀ y ∈ c.radiusList, x = y)
    {m : CachingDef (SpherePoint ℝ) ℝ} (hm : m = DiscreteSkyMap.cachingDef env sphereOps ⟨point, angle, f.makeWcs other ⟨0, 0⟩⟩ c)
    {s₁ s₁' s₂ s₂' : MapState (SpherePoint ℝ) ℝ} {i j : Int} {r r' : TractRef (SpherePoint ℝ) ℝ}
    (h₁ : (CachingSkyMap.skyMapOps m).After (CachingSkyMap.init m b₀) s₁) (g₁ : CachingSkyMap.getItem m i s₁ = (.ok r, s₁'))
    (h₂ : (CachingSkyMap.skyMapOps m).After (CachingSkyMap.init m b₀) s₂) (g₂ : CachingSkyMap.getItem m j s₂ = (.ok r', s₂')) :
    r.info.SameSize r'.info := by
  subst hm
  exact CachingSkyMap.same_size (discrete_same_pixels (env := env) hf hP hz point angle c hr) h₁ g₁ h₂ g₂

/-- C62: the patch lookups on a tract of a discrete sky map with equal radii, whatever was accessed before and after it was obtained,
give what they give on a newly built sky map. -/
theorem C62_discrete_history (hx : 0 < b₀.patchInnerDimensions.x) (hy : 0 < b₀.patchInnerDimensions.y)
    (hf : WcsFactory.new scale code θ flipX = .ok f) (hP : Projection.ofCode code = some P) (hz : P ≠ .CEA)
    (point : ℝ → ℝ → PyM (SpherePoint ℝ)) (angle : ℝ → ℝ) (c : DiscreteConfig ℝ) (hr : ∀ x ∈ c.radiusList, ∀ y ∈ c.radiusList, x = y)
    {m : CachingDef (SpherePoint ℝ) ℝ} (hm : m = DiscreteSkyMap.cachingDef env sphereOps ⟨point, angle, f.makeWcs other ⟨0, 0⟩⟩ c)
    {s s' s'' s₀ : MapState (SpherePoint ℝ) ℝ} {i : Int} {r r₀ : TractRef (SpherePoint ℝ) ℝ}
    (h : (CachingSkyMap.skyMapOps m).After (CachingSkyMap.init m b₀) s) (hg : CachingSkyMap.getItem m i s = (.ok r, s'))
    (h' : (CachingSkyMap.skyMapOps m).After s' s'') (hg₀ : CachingSkyMap.getItem m i (CachingSkyMap.init m b₀) = (.ok r₀, s₀)) :
    (∀ index, r.info.getPatchInfo s''.builder index = r₀.info.getPatchInfo s₀.builder index) ∧
    (r.info.iter s''.builder = r₀.info.iter s₀.builder) ∧
    (∀ c, r.info.findPatch env s''.builder c = r₀.info.findPatch env s₀.builder c) ∧
    (∀ l, r.info.findPatchList env s''.builder l = r₀.info.findPatchList env s₀.builder l) ∧
    (∀ p, r.info.getSequentialPatchIndex s''.builder p = r₀.info.getSequentialPatchIndex s₀.builder p) ∧
    (∀ p, r.info.getSequentialPatchIndexFromPair s''.builder p = r₀.info.getSequentialPatchIndexFromPair s₀.builder p) ∧
    (∀ n, r.info.getPatchIndexPair s''.builder n = r₀.info.getPatchIndexPair s₀.builder n) := by
  subst hm
  exact C20_uniform_partial hx hy (CachingSkyMap.uniform_of (discrete_same_pixels (env := env) hf hP hz point angle c hr) b₀) h i r hg s'' h'
    r₀ s₀ hg₀

/-- C62 with C57: on a discrete sky map with equal radii, without rotation, tract `i` finds, whatever is accessed before and after it is
obtained, for every position within the radius and the overlap of its centre a patch whose inner box contains the position's pixel. -/
theorem C62_discrete_findPatch (he : env.Ok) (hx : 0 < b₀.patchInnerDimensions.x) (hy : 0 < b₀.patchInnerDimensions.y)
    (hbord : 0 ≤ b₀.patchBorder) (hf : WcsFactory.new scale code 0 flipX = .ok f) (hs : 0 < scale) (hP : Projection.ofCode code = some P)
    (hz : P ≠ .CEA) (point : ℝ → ℝ → PyM (SpherePoint ℝ)) (angle : ℝ → ℝ) (c : DiscreteConfig ℝ)
    (hr : ∀ x ∈ c.radiusList, ∀ y ∈ c.radiusList, x = y) {s s' s'' : MapState (SpherePoint ℝ) ℝ}
    {m : CachingDef (SpherePoint ℝ) ℝ}
    (hm : m = DiscreteSkyMap.cachingDef env sphereOps ⟨point, angle, f.makeWcs other ⟨0, 0⟩⟩ c)
    (h : (CachingSkyMap.skyMapOps m).After (CachingSkyMap.init m b₀) s) {i : Nat} {ra dec radius : ℝ} (h1 : c.raList[i]? = some ra)
    (h2 : c.decList[i]? = some dec) (h3 : c.radiusList[i]? = some radius) {tr : TractRef (SpherePoint ℝ) ℝ}
    (hg : CachingSkyMap.getItem m i s = (.ok tr, s')) (hs'' : (CachingSkyMap.skyMapOps m).After s' s'') {ctr : SpherePoint ℝ}
    (hctr : point ra dec = .ok ctr) {ρ : ℝ} (hρ : ρ = angle radius + angle c.tractOverlap) (hl : ρ < P.limit)
    (sx : 2 * (P.radius ρ / scale) + b₀.patchInnerDimensions.x + 3 ≤ 2 ^ 53)
    (sy : 2 * (P.radius ρ / scale) + b₀.patchInnerDimensions.y + 3 ≤ 2 ^ 53) (p : SpherePoint ℝ)
    (hp : greatCircle ctr p ≤ ρ) : FindsPatch env tr.info s''.builder p := by
  have hc := C57_discrete he hx hy hf hs hP point angle c hm h h1 h2 h3 hg hctr (hρ ▸ hl) p (hρ ▸ hp)
  subst hm
  obtain ⟨k, a, hk, ha, hn⟩ := CachingSkyMap.as_built hx hy
    (CachingSkyMap.uniform_of (discrete_same_pixels (env := env) hf hP hz point angle c hr) b₀) h hg hs''
  obtain rfl : i = k := by omega
  simp only [DiscreteSkyMap.cachingDef, hctr, CachingSkyMap.pyGetItem_nat h1, CachingSkyMap.pyGetItem_nat h2,
    CachingSkyMap.pyGetItem_nat h3, bind, Except.bind, pure, Except.pure, Except.ok.injEq] at ha
  subst ha
  exact explicit_findsPatch (other := other) he hn hx hy hbord hf hs hP rfl rfl hρ ((arccos_nonneg _).trans hp) hl sx sy hc

/-! ## The equatorial sky map -/

/-- `p` is placed relative to the meridian `m` as `p'` is relative to `m'`. -/
def SamePlace (m m' : ℝ) (p p' : SpherePoint ℝ) : Prop :=
  p.lat = p'.lat ∧ cos (p.lon - m) = cos (p'.lon - m') ∧ sin (p.lon - m) = sin (p'.lon - m')

theorem SamePlace.offset {m m' : ℝ} {p p' : SpherePoint ℝ} (h : SamePlace m m' p p') (x d : ℝ) :
    SamePlace m m' (p.offset x d) (p'.offset x d) := by
  obtain ⟨h1, h2, h3⟩ := h
  unfold SpherePoint.offset fromLocal
  rw [h1]
  refine ⟨rfl, ?_, ?_⟩
  · dsimp only
    rw [cos_wrap_sub, cos_wrap_sub, add_sub_right_comm, add_sub_right_comm, cos_add, cos_add, h2, h3]
  · dsimp only
    rw [sin_wrap_sub, sin_wrap_sub, add_sub_right_comm, add_sub_right_comm, sin_add, sin_add, h2, h3]

theorem SamePlace.pixel {m m' : ℝ} {p p' : SpherePoint ℝ} (h : SamePlace m m' p p') (hf : WcsFactory.new scale code θ flipX = .ok f)
    (hP : Projection.ofCode code = some P) (l : ℝ) :
    (f.makeWcs other ⟨0, 0⟩ ⟨m, l⟩).skyToPixel p = (f.makeWcs other ⟨0, 0⟩ ⟨m', l⟩).skyToPixel p' := by
  obtain ⟨h1, h2, h3⟩ := h
  have e1 : cosSep ⟨m, l⟩ p = cosSep ⟨m', l⟩ p' := by
    unfold cosSep
    dsimp only
    rw [← cos_neg (m - p.lon), ← cos_neg (m' - p'.lon), neg_sub, neg_sub, h1, h2]
  have e2 : eastOf ⟨m, l⟩ p = eastOf ⟨m', l⟩ p' := by unfold eastOf; dsimp only; rw [h1, h3]
  have e3 : northOf ⟨m, l⟩ p = northOf ⟨m', l⟩ p' := by unfold northOf; dsimp only; rw [h1, h2]
  have : P.toPlane ⟨m, l⟩ p = P.toPlane ⟨m', l⟩ p' := by
    cases P <;> simp only [Projection.toPlane, e1, e2, e3, h1, h2, h3]
  rw [WcsFactory.makeWcs_eq hf hP, WcsFactory.makeWcs_eq hf hP]
  unfold makeSkyWcs
  dsimp only
  rw [this]

/-- Tracts whose vertices are placed alike are sized by the same pixels. -/
theorem vertices_same (hf : WcsFactory.new scale code θ flipX = .ok f) (hP : Projection.ofCode code = some P)
    {a a' : TractArgs (SpherePoint ℝ) ℝ} {l l' : List (SpherePoint ℝ)} {m m' : ℝ} (h1 : a.shape = .vertices l) (h1' : a'.shape = .vertices l')
    (h2 : a.tractOverlap = a'.tractOverlap) {d : ℝ} (h3 : a.wcs = f.makeWcs other ⟨0, 0⟩ ⟨m, d⟩)
    (h3' : a'.wcs = f.makeWcs other ⟨0, 0⟩ ⟨m', d⟩) (hl : List.Forall₂ (SamePlace m m') l l') :
    (samplePoints sphereOps a).map a.wcs.skyToPixel = (samplePoints sphereOps a').map a'.wcs.skyToPixel := by
  unfold samplePoints
  rw [h1, h1', h3, h3', h2]
  dsimp only
  clear h1 h1' h2 h3 h3'
  split
  · induction hl with
    | nil => rfl
    | cons h _ ih => rw [List.map_cons, List.map_cons, h.pixel hf hP, ih]
  · rw [List.map_flatMap, List.map_flatMap]
    induction hl with
    | nil => rfl
    | cons h _ ih =>
      rw [List.flatMap_cons, List.flatMap_cons, ih, List.map_map, List.map_map]
      congr 1
      exact List.map_congr_left fun i _ => (h.offset _ _).pixel hf hP _

namespace Equat
open FloatArith (exact)
variable {n : Nat} {d0 d1 ov : ℝ} {ts : List (TractRef (SpherePoint ℝ) ℝ)}

theorem same_pixels (hn : 1 ≤ n) (hf : WcsFactory.new scale code θ flipX = .ok f) (hP : Projection.ofCode code = some P) (k j : Nat) :
    (samplePoints sphereOps (args (f.makeWcs other ⟨0, 0⟩) n d0 d1 ov k)).map (args (f.makeWcs other ⟨0, 0⟩) n d0 d1 ov k).wcs.skyToPixel =
      (samplePoints sphereOps (args (f.makeWcs other ⟨0, 0⟩) n d0 d1 ov j)).map (args (f.makeWcs other ⟨0, 0⟩) n d0 d1 ov j).wcs.skyToPixel := by
  have hn' : (0 : ℝ) < n := by exact_mod_cast hn
  have west : ∀ k : Nat, 2 * π * k / n - (2 * k + 1) * π / n = -(π / n) := fun k => by ring
  have east : ∀ k : Nat, cos ((if k + 1 = n then 0 else 2 * π * (k + 1) / n) - (2 * k + 1) * π / n) = cos (π / n) ∧
      sin ((if k + 1 = n then 0 else 2 * π * (k + 1) / n) - (2 * k + 1) * π / n) = sin (π / n) := by
    intro k
    split
    · next hh =>
      have : (k : ℝ) = n - 1 := by rw [← hh]; push_cast; ring
      have e : (0 : ℝ) - (2 * k + 1) * π / n = π / n - 2 * π := by rw [this]; field_simp; ring
      rw [e, cos_sub_two_pi, sin_sub_two_pi]
      exact ⟨rfl, rfl⟩
    · have e : 2 * π * (k + 1) / n - (2 * k + 1) * π / n = π / n := by ring
      rw [e]
      exact ⟨rfl, rfl⟩
  refine vertices_same (other := other) (m := (2 * k + 1) * π / n) (m' := (2 * j + 1) * π / n) hf hP rfl rfl rfl rfl rfl ?_
  unfold quad
  refine .cons ⟨rfl, ?_, ?_⟩ (.cons ⟨rfl, ?_, ?_⟩ (.cons ⟨rfl, ?_, ?_⟩ (.cons ⟨rfl, ?_, ?_⟩ .nil))) <;>
    (dsimp only; first | rw [west, west] | rw [(east k).1, (east j).1] | rw [(east k).2, (east j).2])

/-- C62: all tracts of an equatorial sky map (with any of the three projections, any rotation and any number of tracts) have the same
size, and each of them, with the builder that they share, is as if it had been built alone. -/
theorem C62_same_size (hn : 1 ≤ n) (h0 : |d0| ≤ 90) (h1 : |d1| ≤ 90) (hf : WcsFactory.new scale code θ flipX = .ok f)
    (hP : Projection.ofCode code = some P) {l : List (TractArgs (SpherePoint ℝ) ℝ)}
    (hl : tracts exact (f.makeWcs other ⟨0, 0⟩) ⟨n, [d0, d1], ov⟩ = .ok l)
    (hb : EagerSkyMap.buildAll env sphereOps l 0 b₀ = .ok (ts, b)) :
    (∀ t ∈ ts, ∀ t' ∈ ts, t.info.SameSize t'.info) ∧
    ∀ (k : Nat) t, ts[k]? = some t → ∃ a, l[k]? = some a ∧ TractInfo.new env sphereOps b₀ a = .ok (t.info, b) := by
  rw [tracts_exact hn h0 h1, Except.ok.injEq] at hl
  subst hl
  refine EagerSkyMap.same_size (fun a ha a' ha' => ?_) hb
  obtain ⟨k, -, rfl⟩ := List.mem_map.1 ha
  obtain ⟨j, -, rfl⟩ := List.mem_map.1 ha'
  exact same_pixels hn hf hP k j

/-- C62 with C59: on an equatorial sky map of two tracts or more with its cylindrical projection and no rotation, `findTract` followed by
`findPatch` finds, for every position in the range of declination (half the overlap added), a patch whose inner box contains its pixel. -/
theorem C62_findPatch (hn : 2 ≤ n) (h0 : |d0| < 90) (h1 : |d1| < 90) (hov : 0 ≤ ov) (hov1 : ov < 180) (k0 : -90 ≤ d0 - ov / 2)
    (k1 : d1 + ov / 2 ≤ 90) (he : env.Ok) (hx : 0 < b₀.patchInnerDimensions.x) (hy : 0 < b₀.patchInnerDimensions.y)
    (hbord : 0 ≤ b₀.patchBorder) (hf : WcsFactory.new scale "CEA" 0 flipX = .ok f) (hs : 0 < scale)
    {l : List (TractArgs (SpherePoint ℝ) ℝ)} (hl : tracts exact (f.makeWcs other ⟨0, 0⟩) ⟨n, [d0, d1], ov⟩ = .ok l)
    (hb : EagerSkyMap.buildAll env sphereOps l 0 b₀ = .ok (ts, b))
    (sx : 2 * (π / scale) + b₀.patchInnerDimensions.x + 3 ≤ 2 ^ 53) (sy : 2 * (π / scale) + b₀.patchInnerDimensions.y + 3 ≤ 2 ^ 53)
    {p : SpherePoint ℝ} (hlon : 0 ≤ p.lon ∧ p.lon < 2 * π) (hlat : |p.lat| < π / 2) (hp0 : rad (d0 - ov / 2) ≤ p.lat)
    (hp1 : p.lat ≤ rad (d1 + ov / 2)) :
    ∃ t, BaseSkyMap.findTract sphereOps (EagerSkyMap.skyMapOps ts) p b = (.ok t, b) ∧ FindsPatch env t.info b p := by
  obtain ⟨t, e1, e2⟩ := C59_findTract hn h0 h1 hov hov1 k0 k1 he hx hy hf hs hl hb hlon hlat hp0 hp1
  obtain ⟨t1, -⟩ := C35_tracts (by omega) h0.le h1.le hl hx hy hb
  obtain ⟨k, t', e3, e4, -⟩ := eager_findTract sphereOps ts env b p (by omega)
  rw [e1] at e3
  simp only [Prod.mk.injEq, Except.ok.injEq, and_true] at e3
  subst e3
  obtain ⟨a, ha, e5⟩ := (C62_same_size (P := .CEA) (by omega) h0.le h1.le hf rfl hl hb).2 k t e4
  rw [tracts_exact (by omega) h0.le h1.le, Except.ok.injEq] at hl
  subst hl
  obtain ⟨k', -, rfl⟩ := List.mem_map.1 (List.mem_of_getElem? ha)
  obtain ⟨z1, z2⟩ := TractInfo.size_bound he e5 hx hy e2 (B := π / scale) (by
    intro s _ q hq
    change (f.makeWcs other ⟨0, 0⟩ ⟨(2 * k' + 1) * π / n, 0⟩).skyToPixel s = .pix q at hq
    have ha1 := Complex.arg_le_pi ⟨cos (s.lon - (2 * k' + 1) * π / n), sin (s.lon - (2 * k' + 1) * π / n)⟩
    have ha2 := Complex.neg_pi_lt_arg ⟨cos (s.lon - (2 * k' + 1) * π / n), sin (s.lon - (2 * k' + 1) * π / n)⟩
    have hc1 : cos (s.lon - (2 * k' + 1) * π / n) = cos (Complex.arg ⟨cos (s.lon - (2 * k' + 1) * π / n), sin (s.lon - (2 * k' + 1) * π / n)⟩) := by
      rw [Complex.cos_arg (by
        intro h0
        have e1 := congrArg Complex.re h0
        have e2 := congrArg Complex.im h0
        simp only [Complex.zero_re, Complex.zero_im] at e1 e2
        have := sin_sq_add_cos_sq (s.lon - (2 * k' + 1) * π / n)
        rw [e1, e2] at this
        norm_num at this)]
      rw [Complex.norm_eq_sqrt_sq_add_sq]
      simp
    have hc2 : sin (s.lon - (2 * k' + 1) * π / n) = sin (Complex.arg ⟨cos (s.lon - (2 * k' + 1) * π / n), sin (s.lon - (2 * k' + 1) * π / n)⟩) := by
      rw [Complex.sin_arg, Complex.norm_eq_sqrt_sq_add_sq]
      simp
    rw [cea_pixel hf hs ha2 ha1 hc1 hc2, PixRes.pix.injEq] at hq
    subst hq
    dsimp only
    have hm : |(if flipX then 1 else -1 : ℝ)| = 1 := by cases flipX <;> simp
    rw [abs_div, abs_div, abs_mul, hm, one_mul, abs_of_pos hs]
    have := pi_gt_three
    constructor
    · gcongr
      exact abs_le.2 ⟨ha2.le, ha1⟩
    · gcongr
      exact (abs_sin_le_one _).trans (by linarith))
  refine ⟨t, e1, TractInfo.findsPatch he e5 hx hy hbord ?_ ?_ e2⟩
  · have : (t.info.bbox.dim.x : ℝ) < ((2 ^ 53 : Int) : ℝ) := by push_cast; linarith
    exact_mod_cast this
  · have : (t.info.bbox.dim.y : ℝ) < ((2 ^ 53 : Int) : ℝ) := by push_cast; linarith
    exact_mod_cast this

end Equat

end Skymap
