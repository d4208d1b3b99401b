import Verif.Props.BuilderChoice

/-!
# C95: how patches overlap, and what the border changes

The outer boxes of the patches of one tract overlap because of the border.  Which patches share pixels, which pixels are in one patch only,
how many patches a pixel can be in, and what a larger border does to the patches and to searches.
-/

set_option linter.unusedSectionVars false

namespace Skymap
open TractBuilder
variable {Sky K : Type} [Field K] [LinearOrder K] [IsStrictOrderedRing K] [FloorRing K]

/-! ## Lemmas -/

/-- Coordinates of a grown inner box on one axis. -/
theorem outer_val_contains {W : Type} {b : TractBuilder} {n : Index2D} (r : b.Ready n) (hb : 0 ≤ b.patchBorder) (i : Index2D) (w : W)
    {q : Point2I} : (b.patchVal n i w).outerBBox.contains q = true ↔
      ((i.x * b.patchInnerDimensions.x - b.patchBorder ≤ q.x ∧
        q.x < i.x * b.patchInnerDimensions.x + b.patchInnerDimensions.x + b.patchBorder) ∧
      (i.y * b.patchInnerDimensions.y - b.patchBorder ≤ q.y ∧
        q.y < i.y * b.patchInnerDimensions.y + b.patchInnerDimensions.y + b.patchBorder)) ∧
      (b.kind = .legacy → 0 ≤ q.x ∧ q.x < n.x * b.patchInnerDimensions.x ∧ 0 ≤ q.y ∧ q.y < n.y * b.patchInnerDimensions.y) := by
  have hg : ((b.patchInnerBBox i).grow b.patchBorder).contains q = true ↔
      ((i.x * b.patchInnerDimensions.x - b.patchBorder ≤ q.x ∧
        q.x < i.x * b.patchInnerDimensions.x + b.patchInnerDimensions.x + b.patchBorder) ∧
      (i.y * b.patchInnerDimensions.y - b.patchBorder ≤ q.y ∧
        q.y < i.y * b.patchInnerDimensions.y + b.patchInnerDimensions.y + b.patchBorder)) := by
    rw [patchInnerBBox_eq r.dx r.dy, Box2I.grow_pos _ r.dx r.dy _ hb, Box2I.contains_iff]
    dsimp only
    constructor <;> intro h <;> refine ⟨?_, ?_⟩ <;> omega
  cases hk : b.kind with
  | legacy =>
    have e : (b.patchVal n i w).outerBBox = ((b.patchInnerBBox i).grow b.patchBorder).clip
        (Box2I.mk' ⟨0, 0⟩ ⟨n.x * b.patchInnerDimensions.x, n.y * b.patchInnerDimensions.y⟩) := by
      unfold patchVal; rw [hk]
    rw [e, Box2I.contains_clip, hg, r.contains_tract]
    simp
  | cells c =>
    have e : (b.patchVal n i w).outerBBox = (b.patchInnerBBox i).grow b.patchBorder := by
      unfold patchVal; rw [hk]
    rw [e, hg]
    simp

/-- One axis: the grown intervals of `i` and `j`, cut off at the ends of the tract or not, have a common point. -/
theorem axis_meet {n d β i j : Int} (hd : 0 < d) (hβ : 0 ≤ β) (hi : 0 ≤ i ∧ i < n) (hj : 0 ≤ j ∧ j < n) :
    (∃ q, (i * d - β ≤ q ∧ q < i * d + d + β) ∧ (j * d - β ≤ q ∧ q < j * d + d + β) ∧ 0 ≤ q ∧ q < n * d) ↔
      |i - j| * d < d + 2 * β := by
  have key : ∀ i j : Int, 0 ≤ i → i ≤ j → j < n → i * d ≤ j * d ∧ 0 ≤ i * d ∧ j * d + d ≤ n * d := by
    intro i j h0 h1 h2
    have e1 := Int.mul_le_mul_of_nonneg_right h1 hd.le
    have e2 := Int.mul_nonneg h0 hd.le
    have e3 : (j + 1) * d ≤ n * d := Int.mul_le_mul_of_nonneg_right (by omega) hd.le
    have e4 : (j + 1) * d = j * d + d := by ring
    exact ⟨e1, e2, by omega⟩
  rcases le_total i j with hij | hij
  · obtain ⟨k1, k2, k3⟩ := key i j hi.1 hij hj.2
    have ea : |i - j| * d = j * d - i * d := by rw [abs_of_nonpos (by omega)]; ring
    rw [ea]
    constructor
    · rintro ⟨q, h1, h2, -⟩; omega
    · intro h
      exact ⟨max 0 (j * d - β), by omega, by omega, by omega, by omega⟩
  · obtain ⟨k1, k2, k3⟩ := key j i hj.1 hij hi.2
    have ea : |i - j| * d = i * d - j * d := by rw [abs_of_nonneg (by omega)]; ring
    rw [ea]
    constructor
    · rintro ⟨q, h1, h2, -⟩; omega
    · intro h
      exact ⟨max 0 (i * d - β), by omega, by omega, by omega, by omega⟩

/-- Comparing multiples. -/
theorem mul_step {d k l : Int} (hd : 0 < d) (h : k < l) : k * d + d ≤ l * d := by
  have e3 : (k + 1) * d ≤ l * d := Int.mul_le_mul_of_nonneg_right (by omega) hd.le
  have e4 : (k + 1) * d = k * d + d := by ring
  omega

/-! ## Theorems -/

variable {env : FloatEnv K} {ops : SkyOps Sky K} {b₀ b₀' b b' : TractBuilder} {a : TractArgs Sky K} {t : TractInfo Sky K}

section
variable (h : TractInfo.new env ops b₀ a = .ok (t, b)) (hx : 0 < b₀.patchInnerDimensions.x) (hy : 0 < b₀.patchInnerDimensions.y)
  (hb : 0 ≤ b₀.patchBorder)
include h hx hy hb

/-- C95: two patches of a tract share a pixel exactly if, on each axis, their distance (in patches times the inner dimension) is smaller than an
inner dimension plus twice the border; for both builders. -/
theorem C95_share (i j : Index2D) (p q : PatchInfo (Wcs Sky K)) (hp : t.getPatchInfo b (.index2D i) = .ok p)
    (hq : t.getPatchInfo b (.index2D j) = .ok q) :
    (∃ x, p.outerBBox.contains x = true ∧ q.outerBBox.contains x = true) ↔
      |i.x - j.x| * b₀.patchInnerDimensions.x < b₀.patchInnerDimensions.x + 2 * b₀.patchBorder ∧
      |i.y - j.y| * b₀.patchInnerDimensions.y < b₀.patchInnerDimensions.y + 2 * b₀.patchBorder := by
  have B := TractInfo.new_built h hx hy
  have hb' : 0 ≤ b.patchBorder := by rw [B.border]; exact hb
  obtain ⟨hr, rfl⟩ := (B.ready.getPatchInfo_iff hb' _ t.wcs _).1 hp
  obtain ⟨hs, rfl⟩ := (B.ready.getPatchInfo_iff hb' _ t.wcs _).1 hq
  rw [← B.dims, ← B.border, ← axis_meet (n := t.numPatches.x) B.ready.dx hb' ⟨hr.1, hr.2.1⟩ ⟨hs.1, hs.2.1⟩,
    ← axis_meet (n := t.numPatches.y) B.ready.dy hb' ⟨hr.2.2.1, hr.2.2.2⟩ ⟨hs.2.2.1, hs.2.2.2⟩]
  constructor
  · rintro ⟨x, h1, h2⟩
    rw [outer_val_contains B.ready hb'] at h1 h2
    rw [axis_meet B.ready.dx hb' ⟨hr.1, hr.2.1⟩ ⟨hs.1, hs.2.1⟩,
      axis_meet B.ready.dy hb' ⟨hr.2.2.1, hr.2.2.2⟩ ⟨hs.2.2.1, hs.2.2.2⟩]
    have ax : ∀ d β i j q : Int, i * d - β ≤ q ∧ q < i * d + d + β → j * d - β ≤ q ∧ q < j * d + d + β → |i - j| * d < d + 2 * β := by
      intro d β i j q u v
      rcases le_total i j with hij | hij
      · have ea : |i - j| * d = j * d - i * d := by rw [abs_of_nonpos (by omega)]; ring
        omega
      · have ea : |i - j| * d = i * d - j * d := by rw [abs_of_nonneg (by omega)]; ring
        omega
    exact ⟨ax _ _ _ _ _ h1.1.1 h2.1.1, ax _ _ _ _ _ h1.1.2 h2.1.2⟩
  · rintro ⟨⟨u, u1, u2, u3, u4⟩, ⟨v, v1, v2, v3, v4⟩⟩
    refine ⟨⟨u, v⟩, ?_, ?_⟩ <;> rw [outer_val_contains B.ready hb']
    · exact ⟨⟨u1, v1⟩, fun _ => ⟨u3, u4, v3, v4⟩⟩
    · exact ⟨⟨u2, v2⟩, fun _ => ⟨u3, u4, v3, v4⟩⟩

/-- C95: a pixel of a patch's inner box is in no other patch exactly if it is at least a border away from every side that the patch shares
with another one, that is, from every side that is not an edge of the tract. -/
theorem C95_alone (i : Index2D) (p : PatchInfo (Wcs Sky K)) (hp : t.getPatchInfo b (.index2D i) = .ok p) (x : Point2I)
    (hin : p.innerBBox.contains x = true) :
    (∀ j q, t.getPatchInfo b (.index2D j) = .ok q → q.outerBBox.contains x = true → j = i) ↔
      (i.x = 0 ∨ i.x * b₀.patchInnerDimensions.x + b₀.patchBorder ≤ x.x) ∧
      (i.x + 1 = t.numPatches.x ∨ x.x < (i.x + 1) * b₀.patchInnerDimensions.x - b₀.patchBorder) ∧
      (i.y = 0 ∨ i.y * b₀.patchInnerDimensions.y + b₀.patchBorder ≤ x.y) ∧
      (i.y + 1 = t.numPatches.y ∨ x.y < (i.y + 1) * b₀.patchInnerDimensions.y - b₀.patchBorder) := by
  have B := TractInfo.new_built h hx hy
  have r := B.ready
  have hb' : 0 ≤ b.patchBorder := by rw [B.border]; exact hb
  obtain ⟨hr, rfl⟩ := (r.getPatchInfo_iff hb' _ t.wcs _).1 hp
  rw [patchVal_inner] at hin
  have htr := r.inner_sub hr hin
  rw [r.contains_tract] at htr
  rw [patchInnerBBox_eq r.dx r.dy, Box2I.contains_iff] at hin
  rw [← B.dims, ← B.border]
  dsimp only at hin
  have dx := r.dx
  have dy := r.dy
  obtain ⟨r1, r2, r3, r4⟩ := hr
  have ex : (i.x + 1) * b.patchInnerDimensions.x = i.x * b.patchInnerDimensions.x + b.patchInnerDimensions.x := by ring
  have ey : (i.y + 1) * b.patchInnerDimensions.y = i.y * b.patchInnerDimensions.y + b.patchInnerDimensions.y := by ring
  have ex' : (i.x - 1) * b.patchInnerDimensions.x = i.x * b.patchInnerDimensions.x - b.patchInnerDimensions.x := by ring
  have ey' : (i.y - 1) * b.patchInnerDimensions.y = i.y * b.patchInnerDimensions.y - b.patchInnerDimensions.y := by ring
  constructor
  · intro H
    have other : ∀ j : Index2D, (0 ≤ j.x ∧ j.x < t.numPatches.x ∧ 0 ≤ j.y ∧ j.y < t.numPatches.y) →
        (j.x * b.patchInnerDimensions.x - b.patchBorder ≤ x.x ∧
          x.x < j.x * b.patchInnerDimensions.x + b.patchInnerDimensions.x + b.patchBorder) →
        (j.y * b.patchInnerDimensions.y - b.patchBorder ≤ x.y ∧
          x.y < j.y * b.patchInnerDimensions.y + b.patchInnerDimensions.y + b.patchBorder) → j = i := by
      intro j hj h1 h2
      refine H j _ (r.getPatchInfo_ok hb' hj t.wcs) ?_
      rw [outer_val_contains r hb']
      exact ⟨⟨h1, h2⟩, fun _ => htr⟩
    refine ⟨?_, ?_, ?_, ?_⟩
    · by_contra hc
      push Not at hc
      have := congrArg (fun k : Index2D => k.x) (other ⟨i.x - 1, i.y⟩ (by dsimp only; omega) (by dsimp only; omega) (by dsimp only; omega))
      dsimp only at this; omega
    · by_contra hc
      push Not at hc
      have := congrArg (fun k : Index2D => k.x) (other ⟨i.x + 1, i.y⟩ (by dsimp only; omega) (by dsimp only; omega) (by dsimp only; omega))
      dsimp only at this; omega
    · by_contra hc
      push Not at hc
      have := congrArg (fun k : Index2D => k.y) (other ⟨i.x, i.y - 1⟩ (by dsimp only; omega) (by dsimp only; omega) (by dsimp only; omega))
      dsimp only at this; omega
    · by_contra hc
      push Not at hc
      have := congrArg (fun k : Index2D => k.y) (other ⟨i.x, i.y + 1⟩ (by dsimp only; omega) (by dsimp only; omega) (by dsimp only; omega))
      dsimp only at this; omega
  · rintro ⟨c1, c2, c3, c4⟩ j q hq hc
    obtain ⟨⟨s1, s2, s3, s4⟩, rfl⟩ := (r.getPatchInfo_iff hb' _ t.wcs _).1 hq
    rw [outer_val_contains r hb'] at hc
    have jx : j.x = i.x := by
      rcases lt_trichotomy j.x i.x with hl | hl | hl
      · have := mul_step dx hl; omega
      · exact hl
      · have := mul_step dx hl; omega
    have jy : j.y = i.y := by
      rcases lt_trichotomy j.y i.y with hl | hl | hl
      · have := mul_step dy hl; omega
      · exact hl
      · have := mul_step dy hl; omega
    cases j; cases i
    simp only at jx jy
    rw [jx, jy]

/-- C95: if twice the border is at most the inner dimensions, a pixel is in at most four patches, two by two neighbours. -/
theorem C95_at_most_four (hdx : 2 * b₀.patchBorder ≤ b₀.patchInnerDimensions.x) (hdy : 2 * b₀.patchBorder ≤ b₀.patchInnerDimensions.y)
    (x : Point2I) : ∃ k : Index2D, ∀ i p, t.getPatchInfo b (.index2D i) = .ok p → p.outerBBox.contains x = true →
      (i.x = k.x ∨ i.x = k.x + 1) ∧ (i.y = k.y ∨ i.y = k.y + 1) := by
  have B := TractInfo.new_built h hx hy
  have r := B.ready
  have hb' : 0 ≤ b.patchBorder := by rw [B.border]; exact hb
  rw [← B.dims, ← B.border] at hdx hdy
  have ax : ∀ d β i q : Int, 0 < d → 2 * β ≤ d → i * d - β ≤ q ∧ q < i * d + d + β →
      i = (q - β) / d ∨ i = (q - β) / d + 1 := by
    intro d β i q hd hβ hq
    have m1 := Int.emod_add_mul_ediv (q - β) d
    have m2 := Int.emod_nonneg (q - β) hd.ne'
    have m3 := Int.emod_lt_of_pos (q - β) hd
    have m4 : d * ((q - β) / d) = (q - β) / d * d := by ring
    generalize (q - β) / d = k at m1 m4 ⊢
    have l1 : ¬ i < k := fun hl => by have := mul_step hd hl; omega
    have l2 : ¬ k + 1 < i := fun hl => by
      have := mul_step hd hl
      have e : (k + 1) * d = k * d + d := by ring
      omega
    omega
  refine ⟨⟨(x.x - b.patchBorder) / b.patchInnerDimensions.x, (x.y - b.patchBorder) / b.patchInnerDimensions.y⟩, ?_⟩
  intro i p hp hc
  obtain ⟨hr, rfl⟩ := (r.getPatchInfo_iff hb' _ t.wcs _).1 hp
  rw [outer_val_contains r hb'] at hc
  exact ⟨ax _ _ _ _ r.dx hdx hc.1.1, ax _ _ _ _ r.dy hdy hc.1.2⟩

/-- C95: a builder with a larger border, and otherwise equal, gives the same tract; for each index a patch with the same indices and inner box
whose outer box contains the outer box of the other; and `findPatchList` lists at least the same patches. -/
theorem C95_larger_border (he : env.Ok) {β : Int} (hβ : b₀.patchBorder ≤ β) :
    ∃ b', TractInfo.new env ops { b₀ with patchBorder := β } a = .ok (t, b') ∧
      (∀ index, SameOutcome (fun p p' => SamePatch p p' ∧ ∀ x, p.outerBBox.contains x = true → p'.outerBBox.contains x = true)
        (t.getPatchInfo b index) (t.getPatchInfo b' index)) ∧
      (t.bbox.dim.x < 2 ^ 53 → t.bbox.dim.y < 2 ^ 53 → ∀ cs, ∃ l l', t.findPatchList env b cs = .ok l ∧ t.findPatchList env b' cs = .ok l' ∧
        ∀ p ∈ l, ∃ p' ∈ l', SamePatch p p' ∧ ∀ x, p.outerBBox.contains x = true → p'.outerBBox.contains x = true) := by
  obtain ⟨b', h'⟩ := C92_tract_exists (b₀ := b₀) (b₀' := { b₀ with patchBorder := β }) rfl h
  refine ⟨b', h', ?_⟩
  have B := TractInfo.new_built h hx hy
  have B' := TractInfo.new_built h' hx hy
  have E := exchangeable_of_new h h' rfl hx hy hb (le_trans hb hβ)
  have hb1 : 0 ≤ b.patchBorder := by rw [B.border]; exact hb
  have hb2 : b.patchBorder ≤ b'.patchBorder := by rw [B.border, B'.border]; exact hβ
  have hb3 : 0 ≤ b'.patchBorder := hb1.trans hb2
  have big : ∀ i : Index2D, SamePatch (b.patchVal t.numPatches i t.wcs) (b'.patchVal t.numPatches i t.wcs) ∧
      ∀ x, (b.patchVal t.numPatches i t.wcs).outerBBox.contains x = true →
        (b'.patchVal t.numPatches i t.wcs).outerBBox.contains x = true := by
    intro i
    refine ⟨patchVal_same E.dims _ _ _, fun x => ?_⟩
    rw [outer_val_contains B.ready hb1, outer_val_contains B'.ready hb3, ← E.dims, B.kind, B'.kind]
    rintro ⟨h1, h2⟩
    refine ⟨?_, h2⟩
    omega
  refine ⟨fun index => ?_, fun sx sy cs => ?_⟩
  · refine (getPatchInfo_exchange E index t.wcs).mono ?_
    rintro _ _ ⟨n, i, rfl, rfl, r, -⟩
    have hn : n = t.numPatches := by
      have := r.st
      rw [B.st] at this
      simp only [Option.some.injEq, BuilderState.mk.injEq] at this
      exact this.1.symm
    rw [hn]
    exact big i
  · obtain ⟨l, e1, -, e2⟩ := findPatchList_spec he B hb1 sx sy cs
    obtain ⟨l', e1', -, e2'⟩ := findPatchList_spec he B' hb3 sx sy cs
    refine ⟨l, l', e1, e1', ?_⟩
    intro p hp
    obtain ⟨i, hi, q, hq, hs⟩ := (e2 p).1 hp
    obtain ⟨hr, rfl⟩ := (B.ready.getPatchInfo_iff hb1 _ t.wcs _).1 hi
    refine ⟨_, (e2' _).2 ⟨i, B'.ready.getPatchInfo_ok hb3 hr t.wcs, q, ?_, ?_⟩, big i⟩
    · rw [← (big i).1.inner]; exact hq
    · unfold searchBox at hs ⊢
      rw [Box2I.contains_clip] at hs ⊢
      refine ⟨?_, hs.2⟩
      rw [Box2I.contains_grow _ (toBox2I_wf _) _ hb1] at hs
      rw [Box2I.contains_grow _ (toBox2I_wf _) _ hb3]
      obtain ⟨z, hz, d1, d2⟩ := hs.1
      exact ⟨z, hz, d1.trans hb2, d2.trans hb2⟩

end

/-! ## Witnesses -/

/-- The example tract has 3 by 4 patches of 4 by 3 pixels and a border of 2; neighbours share pixels and patches 0 and 2 in a row do not
(8 is not smaller than 4 + 4), but patches 0 and 2 in a column do (6 < 3 + 4); here `2 * 2 ≤ 4` but not `2 * 2 ≤ 3`, and pixel (0, 4) is
in three patches of its column. -/
example : ∃ t b, TractInfo.new Ex.env Ex.ops Ex.legacy Ex.args = .ok (t, b) ∧ t.numPatches = ⟨3, 4⟩ ∧
    Ex.legacy.patchInnerDimensions = ⟨4, 3⟩ ∧ Ex.legacy.patchBorder = 2 ∧
    (∃ p q r, t.getPatchInfo b (.index2D ⟨0, 0⟩) = .ok p ∧ t.getPatchInfo b (.index2D ⟨0, 1⟩) = .ok q ∧
      t.getPatchInfo b (.index2D ⟨0, 2⟩) = .ok r ∧ p.outerBBox.contains ⟨0, 4⟩ = true ∧ q.outerBBox.contains ⟨0, 4⟩ = true ∧
      r.outerBBox.contains ⟨0, 4⟩ = true) := by
  have hw : (TractInfo.new Ex.env Ex.ops Ex.legacy Ex.args).map (fun r => (r.1.numPatches,
      (r.1.getPatchInfo r.2 (.index2D ⟨0, 0⟩)).map fun p => p.outerBBox.contains ⟨0, 4⟩,
      (r.1.getPatchInfo r.2 (.index2D ⟨0, 1⟩)).map fun p => p.outerBBox.contains ⟨0, 4⟩,
      (r.1.getPatchInfo r.2 (.index2D ⟨0, 2⟩)).map fun p => p.outerBBox.contains ⟨0, 4⟩)) =
      .ok (⟨3, 4⟩, .ok true, .ok true, .ok true) := by
    decide +kernel
  obtain ⟨⟨t, b⟩, h1, h2⟩ := Except.map_ok_inv hw
  simp only [Prod.mk.injEq] at h2
  obtain ⟨p, e1, e2⟩ := Except.map_ok_inv h2.2.1
  obtain ⟨q, e3, e4⟩ := Except.map_ok_inv h2.2.2.1
  obtain ⟨r, e5, e6⟩ := Except.map_ok_inv h2.2.2.2
  exact ⟨t, b, h1, h2.1, by decide, by decide, p, q, r, e1, e3, e5, e2, e4, e6⟩

/-- Pixel (0, 0) is in the inner box of patch (0, 0), at the corner of the tract, and is in no other patch; pixel (2, 0) is also in patch (1, 0). -/
example : ((TractInfo.new Ex.env Ex.ops Ex.legacy Ex.args).map fun r =>
    ((r.1.getPatchInfo r.2 (.index2D ⟨0, 0⟩)).map fun p => (p.innerBBox.contains ⟨0, 0⟩, p.innerBBox.contains ⟨2, 0⟩),
      (r.1.getPatchInfo r.2 (.index2D ⟨1, 0⟩)).map fun p => (p.outerBBox.contains ⟨0, 0⟩, p.outerBBox.contains ⟨2, 0⟩))) =
      .ok (.ok (true, true), .ok (false, true)) := by
  decide +kernel

/-- A border that satisfies the condition of `C95_at_most_four`, and a larger one. -/
example : 2 * (1 : Int) ≤ 3 ∧ ({ Ex.legacy with patchBorder := 1 } : TractBuilder).patchInnerDimensions = ⟨4, 3⟩ ∧
    ((TractInfo.new Ex.env Ex.ops { Ex.legacy with patchBorder := 1 } Ex.args).map fun r => r.1.numPatches) = .ok ⟨3, 4⟩ := by
  decide +kernel

end Skymap
