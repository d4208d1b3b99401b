import Verif.Props.Caching
import Verif.Props.Patches

/-!
# C68: patch lookups with a shared builder, exactly

What the lookups of C20 return on a sky map whose tracts differ in size, and for which sky maps C20 holds.
-/

set_option linter.unusedSectionVars false

namespace Skymap
open CachingSkyMap TractBuilder

variable {Sky K : Type} [Field K] [LinearOrder K] [FloorRing K]
variable {m : CachingDef Sky K} {b₀ : TractBuilder} {s s' : MapState Sky K}

/-- C20 for one sky map: whatever happened before and after the access to a tract, its patches are those that it has on a newly
built sky map on which no other tract was accessed. -/
def CachingDef.HistoryFree (m : CachingDef Sky K) (b₀ : TractBuilder) : Prop :=
  ∀ (s s' s'' s₀ : MapState Sky K) (i : Int) (r r₀ : TractRef Sky K),
    (skyMapOps m).After (init m b₀) s → getItem m i s = (.ok r, s') → (skyMapOps m).After s' s'' →
    getItem m i (init m b₀) = (.ok r₀, s₀) →
    ∀ k, r.info.getPatchInfo s''.builder (.index2D k) = r₀.info.getPatchInfo s₀.builder (.index2D k)

/-- A loop all of whose failures raise the same exception raises it if one of them happens. -/
theorem pyMapM_err {α β : Type} {f : α → PyM β} {e : PyErr} {l : List α} (h : ∀ a e', f a = .error e' → e = e') {a : α}
    (ha : a ∈ l) (hf : ∃ e', f a = .error e') : pyMapM f l = .error e := by
  induction l with
  | nil => simp at ha
  | cons x l ih =>
    unfold pyMapM
    cases hx : f x with
    | error e' => rw [h x e' hx]
    | ok v =>
      rcases List.mem_cons.1 ha with rfl | ha
      · obtain ⟨e', he⟩ := hf
        rw [he] at hx
        simp at hx
      · rw [ih ha]

/-- The grid determines its size. -/
theorem inRange_inj {n n' : Index2D} (h : ∀ k, InRange n k ↔ InRange n' k) (hn : (n.x = 0 ∧ n.y = 0) ∨ (0 < n.x ∧ 0 < n.y))
    (hn' : (n'.x = 0 ∧ n'.y = 0) ∨ (0 < n'.x ∧ 0 < n'.y)) : n = n' := by
  have h0 := h ⟨0, 0⟩
  have h1 := h ⟨n.x - 1, n.y - 1⟩
  have h2 := h ⟨n'.x - 1, n'.y - 1⟩
  unfold InRange at h0 h1 h2
  dsimp only at h0 h1 h2
  have : n.x = n'.x ∧ n.y = n'.y := by omega
  obtain ⟨x, y⟩ := n
  obtain ⟨x', y'⟩ := n'
  simpa using this

namespace CachingSkyMap

/-- The builder is that of the tract created last. -/
theorem newest (h : (skyMapOps m).After (init m b₀) s) {j : Nat} {r : TractRef Sky K} (hc : s.cache[j]? = some (some r))
    (hn : r.oid + 1 = s.nextOid) : fresh m b₀ j = .ok (r.info, s.builder) := by
  have : Inv m b₀ s ∧ ∀ (j : Nat) (r : TractRef Sky K), s.cache[j]? = some (some r) → r.oid + 1 = s.nextOid →
      fresh m b₀ j = .ok (r.info, s.builder) := by
    refine h.ind (P := fun s => Inv m b₀ s ∧ ∀ (j : Nat) (r : TractRef Sky K), s.cache[j]? = some (some r) →
      r.oid + 1 = s.nextOid → fresh m b₀ j = .ok (r.info, s.builder)) ⟨Inv.init m b₀, ?_⟩ ?_
    · intro j r hc
      simp [init, List.getElem?_replicate] at hc
    rintro s1 i ⟨hi, ih⟩
    refine ⟨hi.getItem i, ?_⟩
    rw [skyMapOps_getItem]
    rcases getItem_spec hi i with ⟨-, e⟩ | ⟨k, rfl, hk, ⟨r', -, e⟩ | ⟨-, er, -, e⟩ | ⟨hc', t, b, hf, e⟩⟩
    · rw [e]; exact ih
    · rw [e]; exact ih
    · rw [e]; exact ih
    · rw [e]
      intro j r hc hn
      by_cases hkj : k = j
      · subst hkj
        rw [stored_cache_self s1 t b (by rw [hi.len]; exact hk)] at hc
        simp only [Option.some.injEq] at hc
        subst hc
        exact hf
      · rw [stored_cache_ne s1 t b hkj] at hc
        have := (hi.info j r hc).1
        change r.oid + 1 = s1.nextOid + 1 at hn
        omega
  exact this.2 j r hc hn

/-- Some tract was created last. -/
theorem newest_exists (h : (skyMapOps m).After (init m b₀) s) (hn : s.nextOid ≠ 0) :
    ∃ (j : Nat) (r : TractRef Sky K), s.cache[j]? = some (some r) ∧ r.oid + 1 = s.nextOid := by
  have : Inv m b₀ s ∧ (s.nextOid ≠ 0 → ∃ (j : Nat) (r : TractRef Sky K), s.cache[j]? = some (some r) ∧ r.oid + 1 = s.nextOid) := by
    refine h.ind (P := fun s => Inv m b₀ s ∧ (s.nextOid ≠ 0 → ∃ (j : Nat) (r : TractRef Sky K),
      s.cache[j]? = some (some r) ∧ r.oid + 1 = s.nextOid)) ⟨Inv.init m b₀, fun h => absurd rfl h⟩ ?_
    rintro s1 i ⟨hi, ih⟩
    refine ⟨hi.getItem i, ?_⟩
    rw [skyMapOps_getItem]
    rcases getItem_spec hi i with ⟨-, e⟩ | ⟨k, rfl, hk, ⟨r', -, e⟩ | ⟨-, er, -, e⟩ | ⟨hc', t, b, hf, e⟩⟩
    · rw [e]; exact ih
    · rw [e]; exact ih
    · rw [e]; exact ih
    · rw [e]
      intro _
      exact ⟨k, ⟨s1.nextOid, t⟩, stored_cache_self s1 t b (by rw [hi.len]; exact hk), rfl⟩
  exact this.2 hn

theorem newest_built (hx : 0 < b₀.patchInnerDimensions.x) (hy : 0 < b₀.patchInnerDimensions.y)
    (h : (skyMapOps m).After (init m b₀) s) {j : Int} {r' : TractRef Sky K} (hg' : getItem m j s = (.ok r', s))
    (hn : r'.oid + 1 = s.nextOid) : r'.info.Built b₀ s.builder := by
  obtain ⟨k, rfl, hk, hc⟩ := cached_after_ok ((Inv.init m b₀).after h) hg'
  exact fresh_built hx hy (newest h hc hn)

theorem built_zero {k : Int} {t : TractInfo Sky K} {b : TractBuilder} (hx : 0 < b₀.patchInnerDimensions.x)
    (hy : 0 < b₀.patchInnerDimensions.y) (hf : fresh m b₀ k = .ok (t, b)) :
    (t.numPatches.x = 0 ∧ t.numPatches.y = 0) ∨ (0 < t.numPatches.x ∧ 0 < t.numPatches.y) := by
  unfold fresh at hf
  split at hf
  · simp at hf
  · rename_i a ha
    obtain ⟨mb, bbox, n, h1, h2, rfl⟩ := TractInfo.new_inv hf
    obtain ⟨bb, nn, e1, e2, -, -⟩ := TractBuilder.setupPatches_pos b₀ _ (toBox2I_wf mb) hx hy
    rw [e1] at h2
    simp only [Except.ok.injEq, Prod.mk.injEq] at h2
    obtain ⟨-, rfl, -⟩ := h2
    dsimp only
    have sx := ceilNum_spec mb.toBox2I.dim.x b₀.patchInnerDimensions.x hx
    have sy := ceilNum_spec mb.toBox2I.dim.y b₀.patchInnerDimensions.y hy
    rw [e2]
    dsimp only
    rcases toBox2I_wf mb with ⟨w1, w2⟩ | ⟨w1, w2⟩
    · left
      rw [w1] at sx ⊢
      rw [w2] at sy ⊢
      constructor
      · unfold ceilNum; exact Int.ediv_eq_zero_of_lt (by omega) (by omega)
      · unfold ceilNum; exact Int.ediv_eq_zero_of_lt (by omega) (by omega)
    · right
      constructor
      · by_contra hc
        have := mul_nonpos_of_nonneg_of_nonpos hx.le (not_lt.1 hc)
        omega
      · by_contra hc
        have := mul_nonpos_of_nonneg_of_nonpos hy.le (not_lt.1 hc)
        omega

end CachingSkyMap

/-- C68: as soon as a tract has been returned, some tract is the one created last. -/
theorem C68_newest (h : (skyMapOps m).After (init m b₀) s) {i : Int} {r : TractRef Sky K} (hg : getItem m i s = (.ok r, s)) :
    ∃ (j : Int) (r' : TractRef Sky K), getItem m j s = (.ok r', s) ∧ r'.oid + 1 = s.nextOid := by
  have I := (Inv.init m b₀).after h
  obtain ⟨k, rfl, hk, hc⟩ := cached_after_ok I hg
  have := (I.info k r hc).1
  obtain ⟨j, r', h1, h2⟩ := newest_exists h (by omega)
  exact ⟨j, r', getItem_cached I h1, h2⟩

/-- C68: after any history, with `r'` the tract that was created last, `getPatchInfo` on any tract `r` accepts exactly the indices of
`r'`; the patch that it returns has the right index, inner box and WCS, the sequential index of `r'`, and an outer box clipped to
`r'` (not clipped by the cell builder). -/
theorem C68_getPatchInfo (hx : 0 < b₀.patchInnerDimensions.x) (hy : 0 < b₀.patchInnerDimensions.y) (hb : 0 ≤ b₀.patchBorder)
    (h : (skyMapOps m).After (init m b₀) s) {j : Int} {r' : TractRef Sky K} (hg' : getItem m j s = (.ok r', s))
    (hn : r'.oid + 1 = s.nextOid) (r : TractRef Sky K) (k : Index2D) :
    (¬ InRange r'.info.numPatches k → r.info.getPatchInfo s.builder (.index2D k) = .error .IndexError) ∧
    (InRange r'.info.numPatches k → ∃ p, r.info.getPatchInfo s.builder (.index2D k) = .ok p ∧ p.index = k ∧
      p.wcs = r.info.wcs ∧ p.sequentialIndex = r'.info.numPatches.x * k.y + k.x ∧
      p.innerBBox = ⟨⟨k.x * b₀.patchInnerDimensions.x, k.y * b₀.patchInnerDimensions.y⟩, b₀.patchInnerDimensions⟩ ∧
      ∀ q, p.outerBBox.contains q = true ↔
        p.innerBBox.Near b₀.patchBorder q ∧ (b₀.kind = .legacy → r'.info.getBBox.contains q = true)) := by
  have B := newest_built hx hy h hg' hn
  have hb' : 0 ≤ s.builder.patchBorder := by rw [B.border]; exact hb
  refine ⟨fun hk => B.ready.getPatchInfo_err hk _, fun hk => ⟨_, B.ready.getPatchInfo_ok hb' hk _, patchVal_index _ _ _ _,
    patchVal_wcs _ _ _ _, patchVal_seq _ _ _ _, ?_, fun q => ?_⟩⟩
  · rw [patchVal_inner, patchInnerBBox_eq B.ready.dx B.ready.dy, B.dims]
  · rw [patchVal_inner]
    change _ ↔ _ ∧ (_ → r'.info.bbox.contains q = true)
    rw [B.box, ← B.border, ← B.kind, ← Box2I.contains_grow _ (patchInnerBBox_wf _ _) _ hb']
    unfold patchVal
    cases hkd : s.builder.kind with
    | legacy => simp [Box2I.contains_clip]
    | cells c => simp

/-- C68: likewise sequential indices are those of the tract created last. -/
theorem C68_sequential (hx : 0 < b₀.patchInnerDimensions.x) (hy : 0 < b₀.patchInnerDimensions.y)
    (h : (skyMapOps m).After (init m b₀) s) {j : Int} {r' : TractRef Sky K} (hg' : getItem m j s = (.ok r', s))
    (hn : r'.oid + 1 = s.nextOid) (r : TractRef Sky K) (k : Index2D) (n : Int) :
    r.info.getSequentialPatchIndexFromPair s.builder (.index2D k) = .ok (r'.info.numPatches.x * k.y + k.x) ∧
    (0 < r'.info.numPatches.x → ∃ x y, r.info.getPatchIndexPair s.builder n = .ok ⟨x, y⟩ ∧ 0 ≤ x ∧ x < r'.info.numPatches.x ∧
      n = r'.info.numPatches.x * y + x) ∧
    (r'.info.numPatches.x = 0 → r.info.getPatchIndexPair s.builder n = .error .ZeroDivisionError) := by
  have B := newest_built hx hy h hg' hn
  refine ⟨?_, fun h0 => ?_, fun h0 => ?_⟩
  · simp [TractInfo.getSequentialPatchIndexFromPair, TractBuilder.getSequentialPatchIndexFromPair, TractBuilder.getState, B.st,
      bind, Except.bind, pure, Except.pure]
  · refine ⟨n % r'.info.numPatches.x, n / r'.info.numPatches.x, ?_, Int.emod_nonneg _ (by omega), Int.emod_lt_of_pos _ h0,
      (Int.mul_ediv_add_emod _ _).symm⟩
    simp [TractInfo.getPatchIndexPair, TractBuilder.getPatchIndexPair, TractBuilder.getState, B.st,
      bind, Except.bind, pure, Except.pure, pyMod, pyFloorDiv, h0.ne', Int.fmod_eq_emod_of_nonneg _ h0.le,
      Int.fdiv_eq_ediv_of_nonneg _ h0.le]
  · simp [TractInfo.getPatchIndexPair, TractBuilder.getPatchIndexPair, TractBuilder.getState, B.st,
      bind, Except.bind, pyMod, h0]

/-- C68: `findPatch` on a tract `r` of the sky map, for a position on the tract: it returns the right patch (the one whose inner box
has the pixel) if the pixel is also a pixel of the tract created last, and raises `IndexError` otherwise. -/
theorem C68_findPatch [IsStrictOrderedRing K] (he : m.env.Ok) (hx : 0 < b₀.patchInnerDimensions.x) (hy : 0 < b₀.patchInnerDimensions.y)
    (hb : 0 ≤ b₀.patchBorder) (h : (skyMapOps m).After (init m b₀) s) {i j : Int} {r r' : TractRef Sky K}
    (hg : getItem m i s = (.ok r, s)) (hg' : getItem m j s = (.ok r', s)) (hn : r'.oid + 1 = s.nextOid)
    (sx : r.info.bbox.dim.x < 2 ^ 53) (sy : r.info.bbox.dim.y < 2 ^ 53) (c : Sky) (p : Point2I) (hp : r.info.wcs.PixelOf c p)
    (hin : r.info.getBBox.contains p = true) :
    (r'.info.getBBox.contains p = true → ∃ pi, r.info.findPatch m.env s.builder c = .ok pi ∧ pi.innerBBox.contains p = true ∧
      r.info.getPatchInfo s.builder (.index2D pi.index) = .ok pi) ∧
    (r'.info.getBBox.contains p = false → r.info.findPatch m.env s.builder c = .error .IndexError) := by
  have B' := newest_built hx hy h hg' hn
  have I := (Inv.init m b₀).after h
  have hb' : 0 ≤ s.builder.patchBorder := by rw [B'.border]; exact hb
  obtain ⟨k, rfl, hk, hc⟩ := cached_after_ok I hg
  obtain ⟨-, b, hf⟩ := I.info k r hc
  have B := fresh_built hx hy hf
  obtain ⟨q, hq, rfl⟩ := hp
  have hpx : r.info.pixelIndex m.env c = some (toPoint2I q) := by simp [TractInfo.pixelIndex, hq]
  change r.info.bbox.contains (toPoint2I q) = true at hin
  have hin' := hin
  rw [B.contains_bbox, B.dims] at hin'
  rw [Box2I.contains_iff, Built.bbox_min B] at hin
  dsimp only at hin
  have hfp : r.info.findPatch m.env s.builder c = s.builder.getPatchInfo (.index2D ⟨(toPoint2I q).x / s.builder.patchInnerDimensions.x,
      (toPoint2I q).y / s.builder.patchInnerDimensions.y⟩) r.info.wcs := by
    unfold TractInfo.findPatch
    rw [hpx]
    have hc : r.info.bbox.contains (toPoint2I q) = true := (B.contains_bbox _).2 (by rw [B.dims]; exact hin')
    simp only [hc, Bool.not_true, Bool.false_eq_true, if_false]
    rw [patchOf_eq he B'.ready.dx B'.ready.dy hin'.1 hin'.2.2.1 (by omega) (by omega)]
    simp only [bind, Except.bind]
    exact getPatchInfo_seq2 _ _ _ _
  have hiff : InRange r'.info.numPatches ⟨(toPoint2I q).x / s.builder.patchInnerDimensions.x,
      (toPoint2I q).y / s.builder.patchInnerDimensions.y⟩ ↔ r'.info.bbox.contains (toPoint2I q) = true := by
    rw [B'.contains_bbox]
    unfold InRange
    dsimp only
    rw [Int.ediv_lt_iff_lt_mul B'.ready.dx, Int.ediv_lt_iff_lt_mul B'.ready.dy]
    have := Int.ediv_nonneg hin'.1 B'.ready.dx.le
    have := Int.ediv_nonneg hin'.2.2.1 B'.ready.dy.le
    exact ⟨fun ⟨_, a, _, b⟩ => ⟨hin'.1, a, hin'.2.2.1, b⟩, fun ⟨_, a, _, b⟩ => ⟨by assumption, a, by assumption, b⟩⟩
  constructor
  · intro hc
    have hr := hiff.2 hc
    refine ⟨_, hfp.trans (B'.ready.getPatchInfo_ok hb' hr _), ?_, ?_⟩
    · rw [patchVal_inner]
      exact (contains_inner_iff B'.ready.dx B'.ready.dy _ _).2 rfl
    · rw [patchVal_index]
      exact B'.ready.getPatchInfo_ok hb' hr _
  · intro hc
    have hr := mt hiff.1 (by rw [show r'.info.bbox.contains (toPoint2I q) = false from hc]; simp)
    exact hfp.trans (B'.ready.getPatchInfo_err hr _)

/-- C68: `list(tract)` succeeds exactly if the tract created last is at least as large as this one; otherwise it raises `IndexError`. -/
theorem C68_iteration (hx : 0 < b₀.patchInnerDimensions.x) (hy : 0 < b₀.patchInnerDimensions.y)
    (hb : 0 ≤ b₀.patchBorder) (h : (skyMapOps m).After (init m b₀) s) {i j : Int} {r r' : TractRef Sky K}
    (hg : getItem m i s = (.ok r, s)) (hg' : getItem m j s = (.ok r', s)) (hn : r'.oid + 1 = s.nextOid) :
    (r.info.numPatches.x ≤ r'.info.numPatches.x ∧ r.info.numPatches.y ≤ r'.info.numPatches.y →
      ∃ l, r.info.iter s.builder = .ok l ∧ (l.length : Int) = r.info.len) ∧
    (¬ (r.info.numPatches.x ≤ r'.info.numPatches.x ∧ r.info.numPatches.y ≤ r'.info.numPatches.y) →
      r.info.iter s.builder = .error .IndexError) := by
  have B' := newest_built hx hy h hg' hn
  have I := (Inv.init m b₀).after h
  have hb' : 0 ≤ s.builder.patchBorder := by rw [B'.border]; exact hb
  obtain ⟨k, rfl, hk, hc⟩ := cached_after_ok I hg
  obtain ⟨-, b, hf⟩ := I.info k r hc
  have B := fresh_built hx hy hf
  have hz := built_zero hx hy hf
  have hmem : ∀ a : Index2D, (a ∈ (pyRange 0 r.info.numPatches.y).flatMap fun y => (pyRange 0 r.info.numPatches.x).map fun x =>
      (⟨x, y⟩ : Index2D)) ↔ InRange r.info.numPatches a := by
    intro a
    simp only [List.mem_flatMap, List.mem_map, mem_pyRange, InRange]
    constructor
    · rintro ⟨y, hy, x, hx, rfl⟩
      exact ⟨hx.1, hx.2, hy.1, hy.2⟩
    · rintro ⟨h1, h2, h3, h4⟩
      exact ⟨a.y, ⟨h3, h4⟩, a.x, ⟨h1, h2⟩, rfl⟩
  constructor
  · rintro ⟨h1, h2⟩
    refine ⟨_, pyMapM_ok_of _ (fun a => s.builder.patchVal r'.info.numPatches a r.info.wcs) _ fun a ha => ?_, ?_⟩
    · obtain ⟨a1, a2, a3, a4⟩ := (hmem a).1 ha
      exact B'.ready.getPatchInfo_ok hb' ⟨a1, by omega, a3, by omega⟩ _
    · rw [grid_eq _ B.ready.nx B.ready.ny]
      simp only [List.length_map, List.length_range]
      exact Int.toNat_of_nonneg (Int.mul_nonneg B.ready.nx B.ready.ny)
  · intro hnot
    have n1 := B'.ready.nx
    have n2 := B'.ready.ny
    refine pyMapM_err (fun a e ha => ?_) (a := ⟨r.info.numPatches.x - 1, r.info.numPatches.y - 1⟩) ((hmem _).2 ?_) ?_
    · by_cases hr : InRange r'.info.numPatches a
      · have := B'.ready.getPatchInfo_ok hb' hr r.info.wcs
        rw [show r.info.getPatchInfo s.builder (.index2D a) = _ from this] at ha
        simp at ha
      · have := B'.ready.getPatchInfo_err hr r.info.wcs
        rw [show r.info.getPatchInfo s.builder (.index2D a) = _ from this] at ha
        exact Except.error.inj ha
    · unfold InRange
      dsimp only
      omega
    · refine ⟨.IndexError, B'.ready.getPatchInfo_err ?_ _⟩
      unfold InRange
      dsimp only
      omega

/-- C68: `findPatchList` on a tract, compared with the list `l₀` that it gives on a new sky map on which only that tract was accessed: it gives the patches
with the same indices, each as `getPatchInfo` gives it at the moment, if the tract created last has all of them, and raises IndexError otherwise. -/
theorem C68_findPatchList (hx : 0 < b₀.patchInnerDimensions.x) (hy : 0 < b₀.patchInnerDimensions.y)
    (hb : 0 ≤ b₀.patchBorder) (h : (skyMapOps m).After (init m b₀) s) {i j : Int} {r r' r₀ : TractRef Sky K} {s₀ : MapState Sky K}
    (hg : getItem m i s = (.ok r, s)) (hg' : getItem m j s = (.ok r', s)) (hn : r'.oid + 1 = s.nextOid)
    (hg₀ : getItem m i (init m b₀) = (.ok r₀, s₀)) (cs : List Sky) {l₀} (hl₀ : r₀.info.findPatchList m.env s₀.builder cs = .ok l₀) :
    ((∀ p ∈ l₀, InRange r'.info.numPatches p.index) → ∃ l, r.info.findPatchList m.env s.builder cs = .ok l ∧
      l.map (·.index) = l₀.map (·.index) ∧ ∀ p ∈ l, r.info.getPatchInfo s.builder (.index2D p.index) = .ok p) ∧
    ((∃ p ∈ l₀, ¬ InRange r'.info.numPatches p.index) → r.info.findPatchList m.env s.builder cs = .error .IndexError) := by
  have B' := newest_built hx hy h hg' hn
  have I := (Inv.init m b₀).after h
  have hb' : 0 ≤ s.builder.patchBorder := by rw [B'.border]; exact hb
  obtain ⟨k, rfl, hk, hc⟩ := cached_after_ok I hg
  obtain ⟨-, b, hf⟩ := I.info k r hc
  have B := fresh_built hx hy hf
  rw [getItem_gen (Inv.init m b₀) (by simp [init, hk]), hf] at hg₀
  simp only [Prod.mk.injEq, Except.ok.injEq] at hg₀
  obtain ⟨rfl, rfl⟩ := hg₀
  change r.info.findPatchList m.env b cs = .ok l₀ at hl₀
  obtain ⟨st, hst⟩ := fresh_builder hf
  obtain ⟨st', hst'⟩ := I.bld
  have hown : ∀ k p, r.info.getPatchInfo b (.seq [k.x, k.y]) = .ok p → p.index = k := by
    intro k p hp
    change r.info.getPatchInfo b (.index2D k) = .ok p at hp
    have hb1 : 0 ≤ b.patchBorder := by rw [hst]; exact hb
    by_cases hr : InRange r.info.numPatches k
    · have := B.ready.getPatchInfo_ok hb1 hr r.info.wcs
      rw [show r.info.getPatchInfo b (.index2D k) = _ from this] at hp
      obtain rfl := Except.ok.inj hp
      unfold patchVal
      cases b.kind <;> rfl
    · have := B.ready.getPatchInfo_err hr r.info.wcs
      rw [show r.info.getPatchInfo b (.index2D k) = _ from this] at hp
      simp at hp
  have hcur : ∀ k, InRange r'.info.numPatches k → r.info.getPatchInfo s.builder (.seq [k.x, k.y]) = .ok (s.builder.patchVal r'.info.numPatches k r.info.wcs) :=
    fun k hr => B'.ready.getPatchInfo_ok hb' hr r.info.wcs
  have hcur' : ∀ k, ¬ InRange r'.info.numPatches k → r.info.getPatchInfo s.builder (.seq [k.x, k.y]) = .error .IndexError :=
    fun k hr => B'.ready.getPatchInfo_err hr r.info.wcs
  have hidx : ∀ k, (s.builder.patchVal r'.info.numPatches k r.info.wcs).index = k := by
    intro k
    unfold patchVal
    cases s.builder.kind <;> rfl
  have key : ∀ L : List Index2D, pyMapM (fun i : Index2D => r.info.getPatchInfo b (.seq [i.x, i.y])) L = .ok l₀ →
      ((∀ p ∈ l₀, InRange r'.info.numPatches p.index) → ∃ l, pyMapM (fun i : Index2D => r.info.getPatchInfo s.builder (.seq [i.x, i.y])) L = .ok l ∧
        l.map (·.index) = l₀.map (·.index) ∧ ∀ p ∈ l, r.info.getPatchInfo s.builder (.index2D p.index) = .ok p) ∧
      ((∃ p ∈ l₀, ¬ InRange r'.info.numPatches p.index) →
        pyMapM (fun i : Index2D => r.info.getPatchInfo s.builder (.seq [i.x, i.y])) L = .error .IndexError) := by
    intro L hL
    have hLi : l₀.map (·.index) = L := by
      have h2 := (pyMapM_ok_iff _ _ _).1 hL
      clear hL hl₀
      induction h2 with
      | nil => rfl
      | cons h1 _ ih => rw [List.map_cons, ih, hown _ _ h1]
    have hmem : ∀ {q : Index2D → Prop}, (∀ p ∈ l₀, q p.index) ↔ ∀ k ∈ L, q k := by
      intro q
      rw [← hLi]
      simp
    constructor
    · intro hall
      have hall' := hmem.1 hall
      refine ⟨_, pyMapM_ok_of _ (fun k => s.builder.patchVal r'.info.numPatches k r.info.wcs) _ fun k hk => hcur k (hall' k hk), ?_, ?_⟩
      · rw [hLi, List.map_map]
        refine (List.map_congr_left fun k _ => ?_).trans (List.map_id L)
        exact hidx k
      · intro p hp
        obtain ⟨k, hkL, rfl⟩ := List.mem_map.1 hp
        rw [hidx]
        exact hcur k (hall' k hkL)
    · rintro ⟨p, hp, hnot⟩
      have hpL : p.index ∈ L := hLi ▸ List.mem_map_of_mem hp
      refine pyMapM_err (fun a e ha => ?_) hpL ⟨_, hcur' _ hnot⟩
      by_cases hr : InRange r'.info.numPatches a
      · rw [hcur a hr] at ha
        simp at ha
      · rw [hcur' a hr] at ha
        exact (Except.error.inj ha)
  unfold TractInfo.findPatchList at hl₀ ⊢
  have e1 : s.builder.getPatchBorder = b.getPatchBorder := by rw [hst, hst']; rfl
  have e2 : ∀ v, TractInfo.patchOf m.env s.builder v = TractInfo.patchOf m.env b v := by intro v; rw [hst, hst']; rfl
  simp only [e1, e2]
  dsimp only at hl₀
  split at hl₀
  · rename_i hE
    rw [if_pos hE]
    obtain rfl := Except.ok.inj hl₀
    exact ⟨fun _ => ⟨[], rfl, rfl, by simp⟩, by simp⟩
  · rename_i hE
    rw [if_neg hE]
    simp only [bind, Except.bind] at hl₀ ⊢
    split at hl₀
    · simp at hl₀
    · split at hl₀
      · simp at hl₀
      · exact key _ hl₀

/-- C68: C20 holds for exactly those sky maps whose tracts all have the same number of patches. -/
theorem C68_iff (hx : 0 < b₀.patchInnerDimensions.x) (hy : 0 < b₀.patchInnerDimensions.y) (hb : 0 ≤ b₀.patchBorder) :
    m.HistoryFree b₀ ↔ m.Uniform b₀ := by
  constructor
  · intro H i j r r' s s' hg hg'
    by_contra hne
    have I0 := Inv.init m b₀
    obtain ⟨i', rfl, hi, hc⟩ := cached_after_ok I0 hg
    obtain ⟨j', rfl, hj, hc'⟩ := cached_after_ok I0 hg'
    have I : Inv m b₀ s := by have := I0.getItem (i' : Int); rwa [hg] at this
    have I' : Inv m b₀ s' := by have := I0.getItem (j' : Int); rwa [hg'] at this
    obtain ⟨-, b, hf⟩ := I.info i' r hc
    obtain ⟨-, b', hf'⟩ := I'.info j' r' hc'
    rw [getItem_gen I0 (by simp [init, hi]), hf] at hg
    obtain ⟨e1, rfl⟩ := Prod.mk.inj hg
    have hij : i' ≠ j' := by
      rintro rfl
      rw [hf] at hf'
      exact hne (by rw [(Prod.mk.inj (Except.ok.inj hf')).1])
    have hs2 : getItem m j' (stored (init m b₀) i' r.info b) = (.ok ⟨(stored (init m b₀) i' r.info b).nextOid, r'.info⟩,
        stored (stored (init m b₀) i' r.info b) j' r'.info b') := by
      rw [getItem_gen I (by rw [stored_cache_ne _ _ _ hij]; simp [init, hj]), hf']
    have hg0 : getItem m i' (init m b₀) = (.ok r, stored (init m b₀) i' r.info b) := by
      rw [getItem_gen I0 (by simp [init, hi]), hf]
      exact Prod.ext e1 rfl
    have key := H (init m b₀) _ _ _ i' r r (SkyMapOps.After.refl (M := skyMapOps m) _) hg0
      (SkyMapOps.After.step' (M := skyMapOps m) hs2) hg0
    have B := fresh_built hx hy hf
    have B' := fresh_built hx hy hf'
    have hb1 : 0 ≤ b.patchBorder := by rw [B.border]; exact hb
    have hb2 : 0 ≤ b'.patchBorder := by rw [B'.border]; exact hb
    have hr : ∀ k, InRange r'.info.numPatches k ↔ InRange r.info.numPatches k := by
      intro k
      have hk : b'.getPatchInfo (.index2D k) r.info.wcs = b.getPatchInfo (.index2D k) r.info.wcs := key k
      constructor
      · intro h
        rw [B'.ready.getPatchInfo_ok hb2 h] at hk
        exact ((B.ready.getPatchInfo_iff hb1 _ _ _).1 hk.symm).1
      · intro h
        rw [B.ready.getPatchInfo_ok hb1 h] at hk
        exact ((B'.ready.getPatchInfo_iff hb2 _ _ _).1 hk).1
    exact hne (inRange_inj hr (built_zero hx hy hf') (built_zero hx hy hf)).symm
  · intro hu s s' s'' s₀ i r r₀ h hg h' hg₀ k
    exact (C20_uniform_partial hx hy hu h i r hg s'' h' r₀ s₀ hg₀).1 _

/-! ## Concrete cases -/

/-- After accesses to tracts 1 and 0 of a sky map with tracts of 3 by 4 and 6 by 8 patches, the smaller one was created last. -/
example : (skyMapOps Ex.unequalMap).After (init Ex.unequalMap Ex.legacy) (Ex.visit Ex.unequalMap [1, 0]) ∧
    ([1, 0].map fun i : Int => (getItem Ex.unequalMap i (Ex.visit Ex.unequalMap [1, 0])).1.map
      fun r => (r.oid + 1 == (Ex.visit Ex.unequalMap [1, 0]).nextOid, r.info.numPatches)) =
      [.ok (false, ⟨6, 8⟩), .ok (true, ⟨3, 4⟩)] :=
  ⟨⟨[1, 0], rfl⟩, by decide +kernel⟩

/-- On that sky map `findPatch` on tract 1 then fails for a position in its upper right part and works elsewhere, and iterating over
tract 1 fails. -/
example : ([⟨38, 33⟩, ⟨27, 22⟩] : List (P2 ℚ)).map (fun c =>
      (getItem Ex.unequalMap 1 (Ex.visit Ex.unequalMap [1, 0])).1.bind fun r =>
        (r.info.findPatch Ex.unequalMap.env (Ex.visit Ex.unequalMap [1, 0]).builder c).map (·.index)) =
      [.error .IndexError, .ok ⟨0, 1⟩] ∧
    ((getItem Ex.unequalMap 1 (Ex.visit Ex.unequalMap [1, 0])).1.bind fun r =>
        (r.info.iter (Ex.visit Ex.unequalMap [1, 0]).builder).map List.length) = .error .IndexError := by
  decide +kernel

/-- `findPatchList` on tract 1 of that sky map, for a region in its lower left part and for one that reaches its upper right part: on a new
sky map on which only tract 1 was accessed, and after accesses to tracts 1 and 0. -/
example : ([[⟨25, 21⟩, ⟨27, 22⟩], [⟨27, 22⟩, ⟨38, 33⟩]] : List (List (P2 ℚ))).map (fun cs =>
      ((getItem Ex.unequalMap 1 (init Ex.unequalMap Ex.legacy)).1.bind fun r =>
        (r.info.findPatchList Ex.unequalMap.env (getItem Ex.unequalMap 1 (init Ex.unequalMap Ex.legacy)).2.builder cs).map fun l => (l.length, l.getLast?.map (·.index)),
       (getItem Ex.unequalMap 1 (Ex.visit Ex.unequalMap [1, 0])).1.bind fun r =>
        (r.info.findPatchList Ex.unequalMap.env (Ex.visit Ex.unequalMap [1, 0]).builder cs).map fun l => (l.length, l.getLast?.map (·.index)))) =
    [(.ok (4, some ⟨1, 1⟩), .ok (4, some ⟨1, 1⟩)), (.ok (30, some ⟨4, 5⟩), .error .IndexError)] := by
  decide +kernel

/-- Both sides of `C68_iff`. -/
example : Ex.equalMap.HistoryFree Ex.legacy := (C68_iff (by decide) (by decide) (by decide)).2 Ex.equal_uniform

example : ¬ Ex.unequalMap.HistoryFree Ex.legacy := by
  rw [C68_iff (by decide) (by decide) (by decide)]
  intro h
  have e : ∀ k : Nat, k < 2 → ∃ r, (getItem Ex.unequalMap (k : Int) (init Ex.unequalMap Ex.legacy)).1 = .ok r ∧
      r.info.numPatches.x = 3 * (k + 1) := by
    intro k hk
    have e : ∀ k ∈ List.range 2, (getItem Ex.unequalMap (k : Int) (init Ex.unequalMap Ex.legacy)).1.map
        (fun r => r.info.numPatches.x) = .ok (3 * (k + 1) : Int) := by decide +kernel
    exact Except.map_ok_inv (e k (List.mem_range.2 hk))
  obtain ⟨r, h0, a0⟩ := e 0 (by omega)
  obtain ⟨r', h1, a1⟩ := e 1 (by omega)
  have := h 0 1 r r' _ _ (Prod.ext h0 rfl) (Prod.ext h1 rfl)
  rw [this] at a0
  rw [a0] at a1
  norm_num at a1

end Skymap
