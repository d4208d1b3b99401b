import Verif.Lemmas.FindPatch
import Verif.Props.Patches

/-!
# C08 - C13: looking up patches by sky position; the tract covers what it was sized for

Throughout: a tract just constructed with positive patch dimensions and a non-negative border, a
floating-point environment that satisfies `FloatEnv.Ok`, and a tract smaller than 2⁵³ pixels (pixel
coordinates of `lsst.geom` have 32 bits).
-/

set_option linter.unusedSectionVars false

namespace Skymap
open TractBuilder
variable {Sky K : Type} [Field K] [LinearOrder K] [IsStrictOrderedRing K] [FloorRing K]
variable {env : FloatEnv K} {ops : SkyOps Sky K} {b₀ b : TractBuilder} {a : TractArgs Sky K} {t : TractInfo Sky K}

theorem Built.bbox_min {t : TractInfo Sky K} {b₀ b : TractBuilder} (B : t.Built b₀ b) : t.bbox.min = ⟨0, 0⟩ := by
  rw [B.box]
  have h1 := Int.mul_nonneg B.ready.nx B.ready.dx.le
  have h2 := Int.mul_nonneg B.ready.ny B.ready.dy.le
  by_cases hz : t.numPatches.x * b.patchInnerDimensions.x = 0 ∨ t.numPatches.y * b.patchInnerDimensions.y = 0
  · rw [Box2I.mk'_zero _ _ hz]; rfl
  · rw [Box2I.mk'_pos _ _ (by dsimp only; omega) (by dsimp only; omega)]

/-! ## C08 -/

/-- C08: if the coordinate's pixel is on the tract, `findPatch` returns a patch whose inner box contains
that pixel (there is exactly one, C02), which is also what `getPatchInfo` returns for its index. -/
theorem C08_findPatch (he : env.Ok) (h : TractInfo.new env ops b₀ a = .ok (t, b))
    (hx : 0 < b₀.patchInnerDimensions.x) (hy : 0 < b₀.patchInnerDimensions.y) (hb : 0 ≤ b₀.patchBorder)
    (sx : t.bbox.dim.x < 2 ^ 53) (sy : t.bbox.dim.y < 2 ^ 53)
    (c : Sky) (p : Point2I) (hp : t.wcs.PixelOf c p) (hin : t.getBBox.contains p = true) :
    ∃ pi, t.findPatch env b c = .ok pi ∧ pi.innerBBox.contains p = true ∧
      t.getPatchInfo b (.index2D pi.index) = .ok pi := by
  have B := TractInfo.new_built h hx hy
  have hb' : 0 ≤ b.patchBorder := by rw [B.border]; exact hb
  obtain ⟨q, hq, rfl⟩ := hp
  have hpx : t.pixelIndex env c = some (toPoint2I q) := by simp [TractInfo.pixelIndex, hq]
  have hin' := hin
  change t.bbox.contains (toPoint2I q) = true at hin
  change t.bbox.contains (toPoint2I q) = true at hin'
  rw [B.contains_bbox] at hin'
  rw [Box2I.contains_iff, Built.bbox_min B] at hin
  dsimp only at hin
  have hr : InRange t.numPatches ⟨(toPoint2I q).x / b.patchInnerDimensions.x,
      (toPoint2I q).y / b.patchInnerDimensions.y⟩ :=
    ⟨Int.ediv_nonneg hin'.1 B.ready.dx.le, (Int.ediv_lt_iff_lt_mul B.ready.dx).2 hin'.2.1,
      Int.ediv_nonneg hin'.2.2.1 B.ready.dy.le, (Int.ediv_lt_iff_lt_mul B.ready.dy).2 hin'.2.2.2⟩
  refine ⟨b.patchVal t.numPatches ⟨(toPoint2I q).x / b.patchInnerDimensions.x,
      (toPoint2I q).y / b.patchInnerDimensions.y⟩ t.wcs, ?_, ?_, ?_⟩
  · unfold TractInfo.findPatch
    rw [hpx]
    have hc : t.bbox.contains (toPoint2I q) = true := (B.contains_bbox _).2 hin'
    simp only [hc, Bool.not_true, Bool.false_eq_true, if_false]
    rw [patchOf_eq he B.ready.dx B.ready.dy hin'.1 hin'.2.2.1 (by omega) (by omega)]
    simp only [bind, Except.bind]
    exact (getPatchInfo_seq2 _ _ _ _).trans (B.ready.getPatchInfo_ok hb' hr t.wcs)
  · rw [patchVal_inner]
    exact (contains_inner_iff B.ready.dx B.ready.dy _ _).2 rfl
  · rw [patchVal_index]; exact B.ready.getPatchInfo_ok hb' hr t.wcs

/-- C08: in every other case - pixel off the tract, projection failure, NaN position - `findPatch`
raises `LookupError`. -/
theorem C08_findPatch_lookupError (he : env.Ok) (h : TractInfo.new env ops b₀ a = .ok (t, b))
    (hx : 0 < b₀.patchInnerDimensions.x) (hy : 0 < b₀.patchInnerDimensions.y)
    (c : Sky) (hout : ∀ p, t.wcs.PixelOf c p → t.getBBox.contains p = false) :
    t.findPatch env b c = .error .LookupError := by
  have B := TractInfo.new_built h hx hy
  unfold TractInfo.findPatch TractInfo.pixelIndex
  cases hc : t.wcs.skyToPixel c with
  | raises => rfl
  | nonfinite =>
    have : t.bbox.contains env.nanPixel = false := by
      rw [Bool.eq_false_iff]
      intro hh
      rw [B.contains_bbox] at hh
      have := he.nan_off
      omega
    simp [this]
  | pix q =>
    have : t.bbox.contains (toPoint2I q) = false := hout _ ⟨q, hc, rfl⟩
    simp [this]

/-- Both cases occur for a 3 by 4 patch tract and a rounding that is not exact. -/
example : ∃ t b, Ex.env.Ok ∧ TractInfo.new Ex.env Ex.ops Ex.legacy Ex.args = .ok (t, b) ∧
    t.bbox.dim.x < 2 ^ 53 ∧ t.bbox.dim.y < 2 ^ 53 ∧
    (t.findPatch Ex.env b ⟨21, 29⟩).map (·.index) = .ok ⟨1, 1⟩ ∧
    t.findPatch Ex.env b ⟨2, 29⟩ = .error .LookupError ∧ t.findPatch Ex.env b ⟨2, 2000⟩ = .error .LookupError := by
  have key : (TractInfo.new Ex.env Ex.ops Ex.legacy Ex.args).map (fun r => (r.1.bbox.dim,
      (r.1.findPatch Ex.env r.2 ⟨21, 29⟩).map (·.index), (r.1.findPatch Ex.env r.2 ⟨2, 29⟩).map (·.index),
      (r.1.findPatch Ex.env r.2 ⟨2, 2000⟩).map (·.index))) =
      .ok (⟨12, 12⟩, .ok ⟨1, 1⟩, .error .LookupError, .error .LookupError) := by decide +kernel
  obtain ⟨⟨t, b⟩, h1, h2⟩ := Except.map_ok_inv key
  simp only [Prod.mk.injEq] at h2
  have err : ∀ x : PyM (PatchInfo (Wcs (P2 ℚ) ℚ)), x.map (·.index) = .error .LookupError → x = .error .LookupError := by
    intro x hx
    cases x with
    | error e => simpa [Except.map] using hx
    | ok v => simp [Except.map] at hx
  exact ⟨t, b, Ex.env_ok, h1, by rw [h2.1]; decide, by rw [h2.1]; decide, h2.2.1, err _ h2.2.2.1, err _ h2.2.2.2⟩

/-! ## C09 -/

/-- The search rectangle holds every pixel of the hull of the coordinates' pixels. -/
theorem hull_sub_coordBox (he : env.Ok) (w : Wcs Sky K) (cs : List Sky) (p : Point2I) (hp : InPixelHull w cs p) :
    ((TractInfo.coordBox env.tweak w cs).toBox2I).contains p = true := by
  have hB := coordBox_boxOf he.tweak_gt w cs
  have mem : ∀ c ∈ cs, ∀ q, w.PixelOf c q → ((TractInfo.coordBox env.tweak w cs).toBox2I).contains q = true := by
    rintro c hc q ⟨r, hr, rfl⟩
    exact hB.pixel_mem (mem_posList.2 ⟨c, hc, hr⟩)
  obtain ⟨⟨c1, m1, q1, p1, i1⟩, ⟨c2, m2, q2, p2, i2⟩, ⟨c3, m3, q3, p3, i3⟩, ⟨c4, m4, q4, p4, i4⟩⟩ := hp
  have k1 := mem c1 m1 q1 p1
  have k2 := mem c2 m2 q2 p2
  have k3 := mem c3 m3 q3 p3
  have k4 := mem c4 m4 q4 p4
  rw [Box2I.contains_iff] at *
  omega

/-- C09: every patch whose outer box holds a pixel of the coordinates' bounding rectangle is listed. -/
theorem C09_findPatchList_complete (he : env.Ok) (h : TractInfo.new env ops b₀ a = .ok (t, b))
    (hx : 0 < b₀.patchInnerDimensions.x) (hy : 0 < b₀.patchInnerDimensions.y) (hb : 0 ≤ b₀.patchBorder)
    (sx : t.bbox.dim.x < 2 ^ 53) (sy : t.bbox.dim.y < 2 ^ 53)
    (cs : List Sky) (l : List (PatchInfo (Wcs Sky K))) (hl : t.findPatchList env b cs = .ok l)
    (i : Index2D) (pi : PatchInfo (Wcs Sky K)) (hi : t.getPatchInfo b (.index2D i) = .ok pi)
    (p : Point2I) (hp : InPixelHull t.wcs cs p) (hpi : pi.outerBBox.contains p = true) : pi ∈ l := by
  have B := TractInfo.new_built h hx hy
  have hb' : 0 ≤ b.patchBorder := by rw [B.border]; exact hb
  obtain ⟨l', e1, -, e3⟩ := findPatchList_spec he B hb' sx sy cs
  rw [e1] at hl
  simp only [Except.ok.injEq] at hl
  subst hl
  rw [e3]
  refine ⟨i, hi, ?_⟩
  obtain ⟨hr, rfl⟩ := (B.ready.getPatchInfo_iff hb' _ t.wcs _).1 hi
  have hnear : (b.patchInnerBBox i).Near b.patchBorder p := by
    rw [← Box2I.contains_grow _ (patchInnerBBox_wf b i) _ hb']
    unfold patchVal at hpi
    dsimp only at hpi
    split at hpi
    · exact ((Box2I.contains_clip _ _ _).1 hpi).1
    · exact hpi
  obtain ⟨q, hq, d1, d2⟩ := hnear
  rw [patchVal_inner]
  refine ⟨q, hq, ?_⟩
  unfold searchBox
  rw [Box2I.contains_clip, Box2I.contains_grow _ (toBox2I_wf _) _ hb']
  refine ⟨⟨p, hull_sub_coordBox he t.wcs cs p hp, ?_, ?_⟩, ?_⟩
  · rw [abs_sub_comm]; exact d1
  · rw [abs_sub_comm]; exact d2
  · rw [B.box]; exact B.ready.inner_sub hr hq

/-- C09 for a single listed coordinate: every patch whose outer box contains its pixel is listed. -/
theorem C09_listed_coordinate (he : env.Ok) (h : TractInfo.new env ops b₀ a = .ok (t, b))
    (hx : 0 < b₀.patchInnerDimensions.x) (hy : 0 < b₀.patchInnerDimensions.y) (hb : 0 ≤ b₀.patchBorder)
    (sx : t.bbox.dim.x < 2 ^ 53) (sy : t.bbox.dim.y < 2 ^ 53)
    (cs : List Sky) (l : List (PatchInfo (Wcs Sky K))) (hl : t.findPatchList env b cs = .ok l)
    (c : Sky) (hc : c ∈ cs) (p : Point2I) (hp : t.wcs.PixelOf c p)
    (i : Index2D) (pi : PatchInfo (Wcs Sky K)) (hi : t.getPatchInfo b (.index2D i) = .ok pi)
    (hpi : pi.outerBBox.contains p = true) : pi ∈ l :=
  C09_findPatchList_complete he h hx hy hb sx sy cs l hl i pi hi p
    ⟨⟨c, hc, p, hp, le_rfl⟩, ⟨c, hc, p, hp, le_rfl⟩, ⟨c, hc, p, hp, le_rfl⟩, ⟨c, hc, p, hp, le_rfl⟩⟩ hpi

/-! ## C10 -/

/-- C10: `findPatchList` never raises, lists no patch twice, and lists exactly the patches whose inner
box comes within the border of the rectangle `R` spanned by the coordinates; it is empty exactly when
`R` grown by the border misses the tract.  `R` contains the pixel hull of the coordinates and exceeds
it by at most one pixel, at its upper end (the tweak of the exclusive maximum). -/
theorem C10_findPatchList_exact (he : env.Ok) (h : TractInfo.new env ops b₀ a = .ok (t, b))
    (hx : 0 < b₀.patchInnerDimensions.x) (hy : 0 < b₀.patchInnerDimensions.y) (hb : 0 ≤ b₀.patchBorder)
    (sx : t.bbox.dim.x < 2 ^ 53) (sy : t.bbox.dim.y < 2 ^ 53) (cs : List Sky) :
    ∃ (l : List (PatchInfo (Wcs Sky K))) (R : Box2I), t.findPatchList env b cs = .ok l ∧ l.Nodup ∧
      (∀ pi, pi ∈ l ↔ ∃ i, t.getPatchInfo b (.index2D i) = .ok pi ∧
        ∃ q, pi.innerBBox.contains q = true ∧ R.Near b₀.patchBorder q) ∧
      (l = [] ↔ ∀ q, t.getBBox.contains q = true → ¬ R.Near b₀.patchBorder q) ∧
      (∀ p, InPixelHull t.wcs cs p → R.contains p = true) ∧
      (∀ p, R.contains p = true →
        ∃ p', InPixelHull t.wcs cs p' ∧ (p'.x = p.x ∨ p'.x = p.x - 1) ∧ (p'.y = p.y ∨ p'.y = p.y - 1)) := by
  have B := TractInfo.new_built h hx hy
  have hb' : 0 ≤ b.patchBorder := by rw [B.border]; exact hb
  obtain ⟨l, e1, e2, e3⟩ := findPatchList_spec he B hb' sx sy cs
  have hS : ∀ q, (searchBox env t b cs).contains q = true ↔
      ((TractInfo.coordBox env.tweak t.wcs cs).toBox2I).Near b₀.patchBorder q ∧ t.bbox.contains q = true := by
    intro q
    unfold searchBox
    rw [Box2I.contains_clip, Box2I.contains_grow _ (toBox2I_wf _) _ hb', B.border]
  refine ⟨l, (TractInfo.coordBox env.tweak t.wcs cs).toBox2I, e1, e2, ?_, ?_, ?_, ?_⟩
  · intro pi
    rw [e3]
    constructor
    · rintro ⟨i, h1, q, h2, h3⟩
      exact ⟨i, h1, q, h2, ((hS q).1 h3).1⟩
    · rintro ⟨i, h1, q, h2, h3⟩
      refine ⟨i, h1, q, h2, (hS q).2 ⟨h3, ?_⟩⟩
      exact (C02_inner_in_tract h hx hy hb i pi h1).2 q h2
  · constructor
    · intro hl q hq hn
      obtain ⟨i, ⟨pi, h1, h2⟩, -⟩ := C02_tiling h hx hy hb q hq
      have : pi ∈ l := (e3 pi).2 ⟨i, h1, q, h2, (hS q).2 ⟨hn, hq⟩⟩
      rw [hl] at this
      simp at this
    · intro hn
      rw [List.eq_nil_iff_forall_not_mem]
      intro pi hpi
      obtain ⟨i, h1, q, h2, h3⟩ := (e3 pi).1 hpi
      obtain ⟨h4, h5⟩ := (hS q).1 h3
      exact hn q h5 h4
  · intro p hp; exact hull_sub_coordBox he t.wcs cs p hp
  · intro p hp
    obtain ⟨⟨q1, m1, b1⟩, ⟨q2, m2, b2⟩, ⟨q3, m3, b3⟩, ⟨q4, m4, b4⟩⟩ :=
      (coordBox_boxOf he.tweak_gt t.wcs cs).pixel_bound he.tweak_le hp
    obtain ⟨c1, n1, w1⟩ := mem_posList.1 m1
    obtain ⟨c2, n2, w2⟩ := mem_posList.1 m2
    obtain ⟨c3, n3, w3⟩ := mem_posList.1 m3
    obtain ⟨c4, n4, w4⟩ := mem_posList.1 m4
    have P : ∀ {c q}, t.wcs.skyToPixel c = .pix q → t.wcs.PixelOf c (toPoint2I q) := fun hc => ⟨_, hc, rfl⟩
    have ex : ∃ x, (x = p.x ∨ x = p.x - 1) ∧ (∃ c ∈ cs, ∃ q, t.wcs.PixelOf c q ∧ q.x ≤ x) ∧
        (∃ c ∈ cs, ∃ q, t.wcs.PixelOf c q ∧ x ≤ q.x) := by
      by_cases hc : (toPoint2I q1).x = p.x
      · exact ⟨p.x, Or.inl rfl, ⟨c1, n1, _, P w1, b1⟩, ⟨c1, n1, _, P w1, hc.ge⟩⟩
      · exact ⟨p.x - 1, Or.inr rfl, ⟨c1, n1, _, P w1, by omega⟩, ⟨c2, n2, _, P w2, by omega⟩⟩
    have ey : ∃ y, (y = p.y ∨ y = p.y - 1) ∧ (∃ c ∈ cs, ∃ q, t.wcs.PixelOf c q ∧ q.y ≤ y) ∧
        (∃ c ∈ cs, ∃ q, t.wcs.PixelOf c q ∧ y ≤ q.y) := by
      by_cases hc : (toPoint2I q3).y = p.y
      · exact ⟨p.y, Or.inl rfl, ⟨c3, n3, _, P w3, b3⟩, ⟨c3, n3, _, P w3, hc.ge⟩⟩
      · exact ⟨p.y - 1, Or.inr rfl, ⟨c3, n3, _, P w3, by omega⟩, ⟨c4, n4, _, P w4, by omega⟩⟩
    obtain ⟨x, hx1, hx2, hx3⟩ := ex
    obtain ⟨y, hy1, hy2, hy3⟩ := ey
    exact ⟨⟨x, y⟩, ⟨hx2, hx3, hy2, hy3⟩, hx1, hy1⟩

/-- A region that covers two of the twelve patches, with one unusable coordinate in the list. -/
example : ∃ t b, Ex.env.Ok ∧ TractInfo.new Ex.env Ex.ops Ex.legacy Ex.args = .ok (t, b) ∧
    (t.findPatchList Ex.env b [⟨16, 26⟩, ⟨5000, 26⟩, ⟨19, 26⟩]).map (fun l => l.map (·.index)) =
      .ok [⟨0, 0⟩, ⟨0, 1⟩, ⟨1, 0⟩, ⟨1, 1⟩] ∧
    (t.findPatchList Ex.env b [⟨-16, 26⟩]).map (fun l => l.map (·.index)) = .ok [] := by
  have key : (TractInfo.new Ex.env Ex.ops Ex.legacy Ex.args).map (fun r => (
      (r.1.findPatchList Ex.env r.2 [⟨16, 26⟩, ⟨5000, 26⟩, ⟨19, 26⟩]).map (fun l => l.map (·.index)),
      (r.1.findPatchList Ex.env r.2 [⟨-16, 26⟩]).map (fun l => l.map (·.index)))) =
      .ok (.ok [⟨0, 0⟩, ⟨0, 1⟩, ⟨1, 0⟩, ⟨1, 1⟩], .ok []) := by decide +kernel
  obtain ⟨⟨t, b⟩, h1, h2⟩ := Except.map_ok_inv key
  simp only [Prod.mk.injEq] at h2
  exact ⟨t, b, Ex.env_ok, h1, h2.1, h2.2⟩

/-! ## C11 -/

/-- C11: `contains` is true exactly when `findPatch` succeeds, for every coordinate whatever the WCS
does with it; `contains` has no error case at all. -/
theorem C11_contains_iff_findPatch (he : env.Ok) (h : TractInfo.new env ops b₀ a = .ok (t, b))
    (hx : 0 < b₀.patchInnerDimensions.x) (hy : 0 < b₀.patchInnerDimensions.y) (hb : 0 ≤ b₀.patchBorder)
    (sx : t.bbox.dim.x < 2 ^ 53) (sy : t.bbox.dim.y < 2 ^ 53) (c : Sky) :
    t.contains c = true ↔ ∃ pi, t.findPatch env b c = .ok pi := by
  have hcon : t.contains c = true ↔ ∃ p, t.wcs.PixelOf c p ∧ t.getBBox.contains p = true := by
    unfold TractInfo.contains
    constructor
    · intro hc
      split at hc
      · simp at hc
      · simp at hc
      · rename_i q hq; exact ⟨toPoint2I q, ⟨q, hq, rfl⟩, hc⟩
    · rintro ⟨p, ⟨q, hq, rfl⟩, hp⟩
      rw [hq]
      exact hp
  rw [hcon]
  constructor
  · rintro ⟨p, hp, hc⟩
    obtain ⟨pi, h1, -⟩ := C08_findPatch he h hx hy hb sx sy c p hp hc
    exact ⟨pi, h1⟩
  · rintro ⟨pi, hpi⟩
    by_contra hno
    have : ∀ p, t.wcs.PixelOf c p → t.getBBox.contains p = false := by
      intro p hp
      rw [Bool.eq_false_iff]
      intro hc
      exact hno ⟨p, hp, hc⟩
    rw [C08_findPatch_lookupError he h hx hy c this] at hpi
    simp at hpi

/-- C11: the patch found for a coordinate is in the patch list of any list holding that coordinate. -/
theorem C11_findPatch_in_list (he : env.Ok) (h : TractInfo.new env ops b₀ a = .ok (t, b))
    (hx : 0 < b₀.patchInnerDimensions.x) (hy : 0 < b₀.patchInnerDimensions.y) (hb : 0 ≤ b₀.patchBorder)
    (sx : t.bbox.dim.x < 2 ^ 53) (sy : t.bbox.dim.y < 2 ^ 53) (c : Sky) (pi : PatchInfo (Wcs Sky K))
    (hpi : t.findPatch env b c = .ok pi) (cs : List Sky) (hc : c ∈ cs) :
    ∃ l, t.findPatchList env b cs = .ok l ∧ pi ∈ l := by
  have B := TractInfo.new_built h hx hy
  have hb' : 0 ≤ b.patchBorder := by rw [B.border]; exact hb
  obtain ⟨l, R, h1, -⟩ := C10_findPatchList_exact he h hx hy hb sx sy cs
  refine ⟨l, h1, ?_⟩
  have hcon := (C11_contains_iff_findPatch he h hx hy hb sx sy c).2 ⟨pi, hpi⟩
  unfold TractInfo.contains at hcon
  split at hcon
  · simp at hcon
  · simp at hcon
  · rename_i q hq
    obtain ⟨pi', k1, k2, k3⟩ := C08_findPatch he h hx hy hb sx sy c (toPoint2I q) ⟨q, hq, rfl⟩ hcon
    rw [hpi] at k1
    simp only [Except.ok.injEq] at k1
    subst k1
    refine C09_listed_coordinate he h hx hy hb sx sy cs l h1 c hc (toPoint2I q) ⟨q, hq, rfl⟩ _ pi k3 ?_
    have k4 := k3
    obtain ⟨hr, e⟩ := (B.ready.getPatchInfo_iff hb' _ t.wcs _).1 k3
    have ho := B.ready.patchVal_outer_contains hb' hr t.wcs
    rw [← e] at ho
    apply Box2I.contains_of_containsBox _ _ ho
    rw [e, patchVal_inner] at k2
    exact k2

/-! ## C12 -/

/-- C12: the final WCS is the given WCS with the pixel origin moved by a whole number of pixels, and
the tract's box is the box found before the move, moved by the same amount. -/
theorem C12_wcs_shift (h : TractInfo.new env ops b₀ a = .ok (t, b))
    (hx : 0 < b₀.patchInnerDimensions.x) (hy : 0 < b₀.patchInnerDimensions.y) :
    ∃ (m : Box2D K) (bbox : Box2I) (n : Index2D) (s : Point2I), minimumBoundingBox env ops a = .ok m ∧
      b₀.setupPatches m.toBox2I = .ok (bbox, n, b) ∧
      (∀ c p, t.wcs.PixelOf c p ↔ a.wcs.PixelOf c ⟨p.x - s.x, p.y - s.y⟩) ∧
      (∀ c, t.wcs.skyToPixel c = .raises ↔ a.wcs.skyToPixel c = .raises) ∧
      (∀ p : P2 K, t.wcs.pixelToSky p = a.wcs.pixelToSky ⟨p.x - (s.x : K), p.y - (s.y : K)⟩) ∧
      (∀ p, t.getBBox.contains p = true ↔ bbox.contains ⟨p.x - s.x, p.y - s.y⟩ = true) := by
  obtain ⟨mb, bbox, n, h1, h2, rfl⟩ := TractInfo.new_inv h
  have hfm : (Box2I.mk' ⟨0, 0⟩ bbox.getDimensions).min = ⟨0, 0⟩ ∧
      (Box2I.mk' ⟨0, 0⟩ bbox.getDimensions).dim = bbox.dim := by
    obtain ⟨bb, nn, e1, e2, e3, e4⟩ := setupPatches_pos b₀ _ (toBox2I_wf mb) hx hy
    rw [e1] at h2
    simp only [Except.ok.injEq, Prod.mk.injEq] at h2
    obtain ⟨rfl, rfl, -⟩ := h2
    have wf : bb.WF := by rw [e3]; exact Box2I.mk'_wf _ _
    change (Box2I.mk' ⟨0, 0⟩ bb.dim).min = ⟨0, 0⟩ ∧ (Box2I.mk' ⟨0, 0⟩ bb.dim).dim = bb.dim
    rcases wf with ⟨w1, w2⟩ | ⟨w1, w2⟩
    · rw [Box2I.mk'_zero _ _ (Or.inl w1)]
      refine ⟨rfl, ?_⟩
      apply I2.ext'
      · rw [w1]; rfl
      · rw [w2]; rfl
    · rw [Box2I.mk'_pos _ _ w1 w2]; exact ⟨rfl, rfl⟩
  refine ⟨mb, bbox, n, ⟨-bbox.min.x, -bbox.min.y⟩, h1, h2, ?_, ?_, ?_, ?_⟩
  · intro c p
    simp only [finalOrientation, Wcs.PixelOf, Wcs.copyAtShiftedPixelOrigin, Box2I.getMin, hfm.1]
    constructor
    · rintro ⟨q, hq, hp⟩
      split at hq
      · simp at hq
      · simp at hq
      · rename_i r hr
        simp only [PixRes.pix.injEq] at hq
        refine ⟨r, hr, ?_⟩
        have := toPoint2I_shift r (0 - bbox.min.x) (0 - bbox.min.y)
        rw [hq] at this
        rw [hp]
        change (⟨(toPoint2I q).x - _, (toPoint2I q).y - _⟩ : I2) = toPoint2I r
        rw [this]
        apply I2.ext' <;> dsimp only <;> omega
    · rintro ⟨r, hr, hp⟩
      rw [hr]
      refine ⟨_, rfl, ?_⟩
      have := toPoint2I_shift r (0 - bbox.min.x) (0 - bbox.min.y)
      change p = toPoint2I _
      rw [this]
      change (⟨p.x - _, p.y - _⟩ : I2) = toPoint2I r at hp
      rw [← hp]
      apply I2.ext' <;> dsimp only <;> omega
  · intro c
    simp only [finalOrientation, Wcs.copyAtShiftedPixelOrigin]
    split <;> simp_all
  · intro p
    simp only [finalOrientation, Wcs.copyAtShiftedPixelOrigin, Box2I.getMin, hfm.1]
    simp
  · intro p
    simp only [TractInfo.getBBox, finalOrientation, Box2I.contains_iff, hfm.1, hfm.2]
    omega

/-- C12: every position used to size the tract is contained in the finished tract (no position for
which the projection gave NaN is used; one that raised would have aborted the construction). -/
theorem C12_covers_sample_points (he : env.Ok) (h : TractInfo.new env ops b₀ a = .ok (t, b))
    (hx : 0 < b₀.patchInnerDimensions.x) (hy : 0 < b₀.patchInnerDimensions.y)
    (c : Sky) (hc : c ∈ samplePoints ops a) (hfin : a.wcs.skyToPixel c ≠ .nonfinite) : t.contains c = true := by
  obtain ⟨mb, bbox, n, s, h1, h2, h3, h4, h5, h6⟩ := C12_wcs_shift h hx hy
  unfold minimumBoundingBox at h1
  obtain ⟨i1, i2⟩ := includeAll_boxOf he.tweak_gt a.wcs (samplePoints ops a) .empty mb [] rfl h1
  rw [List.nil_append] at i1
  cases hq : a.wcs.skyToPixel c with
  | raises => exact absurd hq (i2 c hc)
  | nonfinite => exact absurd hq hfin
  | pix q =>
    have hin := i1.pixel_mem (mem_posList.2 ⟨c, hc, hq⟩)
    obtain ⟨bb, nn, bb', e1, e2, e3, -⟩ := C01_setupPatches b₀ mb.toBox2I (toBox2I_wf mb) hx hy
    rw [e1] at h2
    simp only [Except.ok.injEq, Prod.mk.injEq] at h2
    obtain ⟨rfl, rfl, rfl⟩ := h2
    have hbb := e3 _ hin
    have hpx : t.wcs.PixelOf c ⟨(toPoint2I q).x + s.x, (toPoint2I q).y + s.y⟩ := by
      rw [h3]
      refine ⟨q, hq, ?_⟩
      change _ = toPoint2I q
      apply I2.ext' <;> dsimp only <;> omega
    obtain ⟨r, hr, hr2⟩ := hpx
    unfold TractInfo.contains
    rw [hr]
    change t.getBBox.contains (⟨⌊r.x + 1 / 2⌋, ⌊r.y + 1 / 2⌋⟩ : I2) = true
    rw [← hr2, h6]
    have : (⟨(toPoint2I q).x + s.x - s.x, (toPoint2I q).y + s.y - s.y⟩ : I2) = toPoint2I q := by
      apply I2.ext' <;> dsimp only <;> omega
    rw [this]
    exact hbb

/-- C12: the tract is no larger than needed: in x there are two of the positions used to size it whose
pixels are so far apart that one patch fewer (less two pixels for rounding) would not do, and in y. -/
theorem C12_not_too_large (he : env.Ok) (h : TractInfo.new env ops b₀ a = .ok (t, b))
    (hx : 0 < b₀.patchInnerDimensions.x) (hy : 0 < b₀.patchInnerDimensions.y)
    (hne : t.getBBox.isEmpty = false) :
    (∃ c ∈ samplePoints ops a, ∃ c' ∈ samplePoints ops a, ∃ p p', a.wcs.PixelOf c p ∧ a.wcs.PixelOf c' p' ∧
      (t.numPatches.x - 1) * b₀.patchInnerDimensions.x < p'.x - p.x + 2) ∧
    (∃ c ∈ samplePoints ops a, ∃ c' ∈ samplePoints ops a, ∃ p p', a.wcs.PixelOf c p ∧ a.wcs.PixelOf c' p' ∧
      (t.numPatches.y - 1) * b₀.patchInnerDimensions.y < p'.y - p.y + 2) := by
  obtain ⟨mb, bbox, n, h1, h2, e⟩ := TractInfo.new_inv h
  obtain ⟨i1, i2⟩ := includeAll_boxOf he.tweak_gt a.wcs (samplePoints ops a) .empty mb [] rfl h1
  rw [List.nil_append] at i1
  obtain ⟨bb, nn, e1, e2, e3, e4⟩ := setupPatches_pos b₀ _ (toBox2I_wf mb) hx hy
  rw [e1] at h2
  simp only [Except.ok.injEq, Prod.mk.injEq] at h2
  obtain ⟨rfl, rfl, rfl⟩ := h2
  have hnum : t.numPatches = nn := by rw [e]
  have sx := ceilNum_spec mb.toBox2I.dim.x _ hx
  have sy := ceilNum_spec mb.toBox2I.dim.y _ hy
  rw [← show nn.x = ceilNum mb.toBox2I.dim.x _ by rw [e2]] at sx
  rw [← show nn.y = ceilNum mb.toBox2I.dim.y _ by rw [e2]] at sy
  have hpos : 0 < mb.toBox2I.dim.x ∧ 0 < mb.toBox2I.dim.y := by
    rcases toBox2I_wf mb with ⟨w1, w2⟩ | w
    · exfalso
      have hn0 : nn.x = 0 := by
        rw [e2]
        have h0 : b₀.patchInnerDimensions.x - 1 < b₀.patchInnerDimensions.x := by omega
        simp only [ceilNum, w1, Int.zero_add]
        exact Int.ediv_eq_zero_of_lt (by omega) h0
      have hB := TractInfo.new_built h hx hy
      rw [TractInfo.getBBox, hB.box, hnum, hn0, Box2I.mk'_zero _ _ (Or.inl (by simp))] at hne
      simp [Box2I.isEmpty, Box2I.empty] at hne
    · exact w
  set B := mb.toBox2I with hB
  have c1 : B.contains B.min = true := by rw [Box2I.contains_iff]; omega
  have c2 : B.contains ⟨B.min.x + B.dim.x - 1, B.min.y + B.dim.y - 1⟩ = true := by
    rw [Box2I.contains_iff]; dsimp only; omega
  obtain ⟨⟨q1, m1, l1⟩, -, ⟨q2, m2, l2⟩, -⟩ := i1.pixel_bound he.tweak_le c1
  obtain ⟨-, ⟨q3, m3, l3⟩, -, ⟨q4, m4, l4⟩⟩ := i1.pixel_bound he.tweak_le c2
  rw [mem_posList] at m1 m2 m3 m4
  obtain ⟨d1, t1, w1⟩ := m1
  obtain ⟨d2, t2, w2⟩ := m2
  obtain ⟨d3, t3, w3⟩ := m3
  obtain ⟨d4, t4, w4⟩ := m4
  have fx : (nn.x - 1) * b₀.patchInnerDimensions.x = b₀.patchInnerDimensions.x * nn.x - b₀.patchInnerDimensions.x := by
    ring
  have fy : (nn.y - 1) * b₀.patchInnerDimensions.y = b₀.patchInnerDimensions.y * nn.y - b₀.patchInnerDimensions.y := by
    ring
  rw [hnum, fx, fy]
  refine ⟨⟨d1, t1, d3, t3, _, _, ⟨q1, w1, rfl⟩, ⟨q3, w3, rfl⟩, ?_⟩,
    ⟨d2, t2, d4, t4, _, _, ⟨q2, w2, rfl⟩, ⟨q4, w4, rfl⟩, ?_⟩⟩
  · change _ < (toPoint2I q3).x - (toPoint2I q1).x + 2
    dsimp only at l3
    omega
  · change _ < (toPoint2I q4).y - (toPoint2I q2).y + 2
    dsimp only at l4
    omega

set_option linter.unusedSectionVars false in
/-- C12: which positions are used to size a tract: the vertices without overlap; with overlap the 24
positions every 15 degrees at half the overlap around each vertex; for an explicit tract the 4
positions at radius + overlap from the centre. -/
theorem C12_sample_points (ops : SkyOps Sky K) (a : TractArgs Sky K) (c : Sky) :
    c ∈ samplePoints ops a ↔
      (∃ l, a.shape = .vertices l ∧ a.tractOverlap = 0 ∧ c ∈ l) ∨
      (∃ l, a.shape = .vertices l ∧ a.tractOverlap ≠ 0 ∧
        ∃ v ∈ l, ∃ i : Nat, i < 24 ∧ c = ops.offset v (15 * (i : K)) (a.tractOverlap / 2)) ∨
      (∃ r, a.shape = .explicit r ∧
        ∃ i : Nat, i < 4 ∧ c = ops.offset a.ctrCoord (90 * (i : K)) (r + a.tractOverlap)) := by
  unfold samplePoints
  cases hs : a.shape with
  | vertices l =>
    by_cases h0 : a.tractOverlap = 0
    · simp [h0]
    · have e : (360 : K) / 24 = 15 := by norm_num
      simp only [h0, if_false, List.mem_flatMap, List.mem_map, List.mem_range, e]
      constructor
      · rintro ⟨v, hv, i, hi, rfl⟩
        exact Or.inr (Or.inl ⟨l, rfl, h0, v, hv, i, hi, rfl⟩)
      · rintro (⟨l', -, h', -⟩ | ⟨l', h1, -, v, hv, i, hi, rfl⟩ | ⟨r, hr, -⟩)
        · exact absurd h' (by simp)
        · simp at h1; subst h1; exact ⟨v, hv, i, hi, rfl⟩
        · simp at hr
  | explicit r =>
    simp only [List.mem_map, List.mem_range]
    constructor
    · rintro ⟨i, hi, rfl⟩
      exact Or.inr (Or.inr ⟨r, rfl, i, hi, by rw [mul_comm]⟩)
    · rintro (⟨l', h', -⟩ | ⟨l', h1, -⟩ | ⟨r', hr, i, hi, rfl⟩)
      · simp at h'
      · simp at h1
      · simp at hr; subst hr; exact ⟨i, hi, by rw [mul_comm]⟩

/-- The sample points of the example tract have finite pixels, and one of them is (25, 30). -/
example : ⟨25, 30⟩ ∈ samplePoints Ex.ops Ex.args ∧ Ex.args.wcs.skyToPixel ⟨25, 30⟩ ≠ .nonfinite := by
  decide +kernel

/-! ## C13 -/

/-- C13: the vertices of an explicitly placed tract lie in the tract, if, on the tract, the WCS inverts
itself to better than a thousandth of a pixel. -/
theorem C13_explicit_vertices (h : TractInfo.new env ops b₀ a = .ok (t, b))
    (hx : 0 < b₀.patchInnerDimensions.x) (hy : 0 < b₀.patchInnerDimensions.y)
    (r : K) (hs : a.shape = .explicit r) (hne : t.getBBox.isEmpty = false)
    (hinv : ∀ p : P2 K, -1 ≤ p.x → p.x ≤ t.getBBox.dim.x → -1 ≤ p.y → p.y ≤ t.getBBox.dim.y →
      ∃ q : P2 K, t.wcs.skyToPixel (t.wcs.pixelToSky p) = .pix q ∧
      |q.x - p.x| < 1 / 1000 ∧ |q.y - p.y| < 1 / 1000) :
    t.vertexCoordList.length = 4 ∧ ∀ v ∈ t.vertexCoordList, t.contains v = true := by
  have B := TractInfo.new_built h hx hy
  have hmin := Built.bbox_min B
  have hv : t.vertexCoordList = explicitVertices t.bbox t.wcs := by
    obtain ⟨mb, bbox, n, h1, h2, rfl⟩ := TractInfo.new_inv h
    simp only [hs]
  have wf : t.bbox.WF := by rw [B.box]; exact Box2I.mk'_wf _ _
  have hd0 : t.bbox.dim.x ≠ 0 := of_decide_eq_false hne
  have hd : 1 ≤ t.bbox.dim.x ∧ 1 ≤ t.bbox.dim.y := by rcases wf with w | w <;> omega
  have kx : (1 : K) ≤ t.bbox.dim.x := by exact_mod_cast hd.1
  have ky : (1 : K) ≤ t.bbox.dim.y := by exact_mod_cast hd.2
  have hbox : (Box2D.ofBox2I t.bbox : Box2D K).grow (-(1 / 1000)) =
      .box ⟨-(499 / 1000), -(499 / 1000)⟩ ⟨t.bbox.dim.x - 501 / 1000, t.bbox.dim.y - 501 / 1000⟩ := by
    unfold Box2D.ofBox2I
    rw [show t.bbox.isEmpty = false from hne, hmin]
    simp only [Bool.false_eq_true, if_false, Box2D.grow, Int.cast_zero]
    rw [if_neg]
    · congr 2 <;> ring
    · rw [not_or, not_le, not_le]; constructor <;> linarith
  have hcorner : ∀ p : P2 K, (p.x = -(499 / 1000) ∨ p.x = t.bbox.dim.x - 501 / 1000) →
      (p.y = -(499 / 1000) ∨ p.y = t.bbox.dim.y - 501 / 1000) → t.contains (t.wcs.pixelToSky p) = true := by
    intro p hpx hpy
    obtain ⟨q, hq, dx, dy⟩ := hinv p (by rcases hpx with e | e <;> rw [e] <;> linarith)
      (by change p.x ≤ (t.bbox.dim.x : K); rcases hpx with e | e <;> rw [e] <;> linarith)
      (by rcases hpy with e | e <;> rw [e] <;> linarith)
      (by change p.y ≤ (t.bbox.dim.y : K); rcases hpy with e | e <;> rw [e] <;> linarith)
    rw [abs_lt] at dx dy
    unfold TractInfo.contains
    rw [hq]
    change t.bbox.contains (toPoint2I q) = true
    rw [Box2I.contains_iff, hmin]
    unfold toPoint2I
    dsimp only
    refine ⟨?_, ?_, ?_, ?_⟩
    · rw [Int.floor_nonneg]; rcases hpx with e | e <;> rw [e] at dx <;> linarith
    · rw [zero_add, Int.floor_lt]; rcases hpx with e | e <;> rw [e] at dx <;> linarith
    · rw [Int.floor_nonneg]; rcases hpy with e | e <;> rw [e] at dy <;> linarith
    · rw [zero_add, Int.floor_lt]; rcases hpy with e | e <;> rw [e] at dy <;> linarith
  rw [hv]
  unfold explicitVertices
  rw [hbox]
  simp only [Box2D.getCorners, List.map_cons, List.map_nil, List.length_cons, List.length_nil]
  refine ⟨trivial, ?_⟩
  intro v hv
  simp only [List.mem_cons, List.not_mem_nil, or_false] at hv
  rcases hv with rfl | rfl | rfl | rfl
  · exact hcorner _ (Or.inl rfl) (Or.inl rfl)
  · exact hcorner _ (Or.inr rfl) (Or.inl rfl)
  · exact hcorner _ (Or.inr rfl) (Or.inr rfl)
  · exact hcorner _ (Or.inl rfl) (Or.inr rfl)

/-- C13: in terms of the WCS that the tract is made with: if it inverts itself to better than a thousandth of a pixel, the vertices lie in the
tract; the shift to the final pixel frame does not spoil this. -/
theorem C13_input_wcs (h : TractInfo.new env ops b₀ a = .ok (t, b))
    (hx : 0 < b₀.patchInnerDimensions.x) (hy : 0 < b₀.patchInnerDimensions.y)
    (r : K) (hs : a.shape = .explicit r) (hne : t.getBBox.isEmpty = false)
    (hinv : ∀ p : P2 K, ∃ q : P2 K, a.wcs.skyToPixel (a.wcs.pixelToSky p) = .pix q ∧
      |q.x - p.x| < 1 / 1000 ∧ |q.y - p.y| < 1 / 1000) :
    t.vertexCoordList.length = 4 ∧ ∀ v ∈ t.vertexCoordList, t.contains v = true := by
  obtain ⟨dx, dy, hw⟩ : ∃ dx dy : K, t.wcs = a.wcs.copyAtShiftedPixelOrigin ⟨dx, dy⟩ := by
    obtain ⟨mb, bbox, n, -, -, rfl⟩ := TractInfo.new_inv h
    exact ⟨_, _, rfl⟩
  apply C13_explicit_vertices h hx hy r hs hne
  intro p _ _ _ _
  obtain ⟨q, e, d1, d2⟩ := hinv ⟨p.x - dx, p.y - dy⟩
  dsimp only at d1 d2
  refine ⟨⟨q.x + dx, q.y + dy⟩, ?_, ?_, ?_⟩
  · rw [hw]
    unfold Wcs.copyAtShiftedPixelOrigin
    dsimp only
    rw [e]
  · dsimp only
    rw [show q.x + dx - p.x = q.x - (p.x - dx) by ring]; exact d1
  · dsimp only
    rw [show q.y + dy - p.y = q.y - (p.y - dy) by ring]; exact d2

/-- The hypotheses are met by an explicit tract of 12 by 12 pixels on a plane. -/
example : ∃ t b, TractInfo.new Ex.env Ex.ops Ex.legacy { Ex.args with wcs := ⟨.pix, id⟩ } = .ok (t, b) ∧
    t.getBBox.isEmpty = false ∧ t.getBBox.dim = ⟨12, 12⟩ ∧
    ∀ p : P2 ℚ, ∃ q : P2 ℚ, t.wcs.skyToPixel (t.wcs.pixelToSky p) = .pix q ∧
      |q.x - p.x| < 1 / 1000 ∧ |q.y - p.y| < 1 / 1000 := by
  have key : (TractInfo.new Ex.env Ex.ops Ex.legacy { Ex.args with wcs := ⟨.pix, id⟩ }).map (fun r =>
    r.1.getBBox) = .ok ⟨⟨0, 0⟩, ⟨12, 12⟩⟩ := by decide +kernel
  obtain ⟨⟨t, b⟩, h1, h2⟩ := Except.map_ok_inv key
  dsimp only at h2
  refine ⟨t, b, h1, by rw [h2]; rfl, by rw [h2], ?_⟩
  obtain ⟨mb, bbox, n, e1, e2, rfl⟩ := TractInfo.new_inv h1
  intro p
  refine ⟨p, ?_, by simp, by simp⟩
  simp [finalOrientation, Wcs.copyAtShiftedPixelOrigin]

end Skymap
