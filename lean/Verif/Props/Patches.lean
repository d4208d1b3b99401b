import Verif.Lemmas.Tract
import Verif.Spec.Example

/-!
# C01 - C07: tract size, patch tiling, patch borders, patch indices

The tract `t` and the builder `b` are those produced by constructing a tract (`TractInfo.new`), with
any builder, any WCS and any way of sizing the tract.
-/

namespace Skymap
open TractBuilder

variable {Sky K : Type} [Field K] [LinearOrder K] [FloorRing K]
variable {env : FloatEnv K} {ops : SkyOps Sky K} {b₀ b : TractBuilder} {a : TractArgs Sky K} {t : TractInfo Sky K}

/-! ## C01 -/

/-- C01: `setupPatches` on any box succeeds for positive patch dimensions; the final box is a whole
number of patches, contains the requested box, is minimal, and is centred on it (twice the centre
moves by at most one pixel). -/
theorem C01_setupPatches (b : TractBuilder) (m : Box2I) (hm : m.WF)
    (hx : 0 < b.patchInnerDimensions.x) (hy : 0 < b.patchInnerDimensions.y) :
    ∃ bbox n b', b.setupPatches m = .ok (bbox, n, b') ∧
      bbox.getDimensions = ⟨n.x * b.patchInnerDimensions.x, n.y * b.patchInnerDimensions.y⟩ ∧
      (∀ p, m.contains p = true → bbox.contains p = true) ∧
      (∀ k, m.dim.x ≤ k * b.patchInnerDimensions.x → n.x ≤ k) ∧
      (∀ k, m.dim.y ≤ k * b.patchInnerDimensions.y → n.y ≤ k) ∧
      (m.isEmpty = false →
        |(2 * bbox.min.x + bbox.dim.x) - (2 * m.min.x + m.dim.x)| ≤ 1 ∧
        |(2 * bbox.min.y + bbox.dim.y) - (2 * m.min.y + m.dim.y)| ≤ 1) := by
  obtain ⟨bbox, n, h1, h2, h3, h4⟩ := setupPatches_pos b m hm hx hy
  have sx := ceilNum_spec m.dim.x b.patchInnerDimensions.x hx
  have sy := ceilNum_spec m.dim.y b.patchInnerDimensions.y hy
  have ex : n.x * b.patchInnerDimensions.x =
      b.patchInnerDimensions.x * ceilNum m.dim.x b.patchInnerDimensions.x := by rw [h2, mul_comm]
  have ey : n.y * b.patchInnerDimensions.y =
      b.patchInnerDimensions.y * ceilNum m.dim.y b.patchInnerDimensions.y := by rw [h2, mul_comm]
  have hpos : 0 < m.dim.x → 0 < m.dim.y → bbox =
      ⟨⟨newMin m.min.x m.dim.x b.patchInnerDimensions.x, newMin m.min.y m.dim.y b.patchInnerDimensions.y⟩,
        ⟨n.x * b.patchInnerDimensions.x, n.y * b.patchInnerDimensions.y⟩⟩ := by
    intro px py
    rw [h3, Box2I.mk'_pos _ _ (by dsimp only; omega) (by dsimp only; omega)]
  refine ⟨bbox, n, _, h1, h4, ?_, ?_, ?_, ?_⟩
  · intro p hp
    rw [Box2I.contains_iff] at hp
    rw [hpos (by omega) (by omega), Box2I.contains_iff]
    simp only [newMin]
    omega
  · intro k hk; rw [h2]; exact ceilNum_min _ _ _ hx hk
  · intro k hk; rw [h2]; exact ceilNum_min _ _ _ hy hk
  · intro he
    have he' : m.dim.x ≠ 0 := by simpa [Box2I.isEmpty] using he
    have hpp : 0 < m.dim.x ∧ 0 < m.dim.y := by rcases hm with h | h <;> omega
    rw [hpos hpp.1 hpp.2]
    simp only [newMin]
    constructor <;> rw [abs_le] <;> omega

/-- C01: the tract's own box starts at (0,0) and has a whole number of patches. -/
theorem C01_tract_bbox (h : TractInfo.new env ops b₀ a = .ok (t, b))
    (hx : 0 < b₀.patchInnerDimensions.x) (hy : 0 < b₀.patchInnerDimensions.y) (p : Point2I) :
    t.getBBox.contains p = true ↔
      0 ≤ p.x ∧ p.x < t.numPatches.x * b₀.patchInnerDimensions.x ∧
      0 ≤ p.y ∧ p.y < t.numPatches.y * b₀.patchInnerDimensions.y := by
  have hb := TractInfo.new_built h hx hy
  have := hb.contains_bbox p
  rw [hb.dims] at this
  exact this

/-- C01: the tract's box is as large as the box requested for it, and no patch is superfluous. -/
theorem C01_tract_minimal (h : TractInfo.new env ops b₀ a = .ok (t, b))
    (hx : 0 < b₀.patchInnerDimensions.x) (hy : 0 < b₀.patchInnerDimensions.y) :
    ∃ m, minimumBoundingBox env ops a = .ok m ∧
      m.toBox2I.dim.x ≤ t.numPatches.x * b₀.patchInnerDimensions.x ∧
      m.toBox2I.dim.y ≤ t.numPatches.y * b₀.patchInnerDimensions.y ∧
      (∀ k, m.toBox2I.dim.x ≤ k * b₀.patchInnerDimensions.x → t.numPatches.x ≤ k) ∧
      (∀ k, m.toBox2I.dim.y ≤ k * b₀.patchInnerDimensions.y → t.numPatches.y ≤ k) := by
  obtain ⟨mb, bbox, n, h1, h2, rfl⟩ := TractInfo.new_inv h
  obtain ⟨bb, nn, e1, e2, e3, e4⟩ := setupPatches_pos b₀ _ (toBox2I_wf mb) hx hy
  rw [e1] at h2
  simp only [Except.ok.injEq, Prod.mk.injEq] at h2
  obtain ⟨rfl, rfl, rfl⟩ := h2
  refine ⟨mb, h1, ?_, ?_, ?_, ?_⟩
  · have := (ceilNum_spec mb.toBox2I.dim.x b₀.patchInnerDimensions.x hx).1
    rw [e2, mul_comm]; exact this
  · have := (ceilNum_spec mb.toBox2I.dim.y b₀.patchInnerDimensions.y hy).1
    rw [e2, mul_comm]; exact this
  · intro k hk; rw [e2]; exact ceilNum_min _ _ _ hx hk
  · intro k hk; rw [e2]; exact ceilNum_min _ _ _ hy hk

/-- C01: a zero patch dimension never yields a tract. -/
theorem C01_zero_dimension (b : TractBuilder) (m : Box2I)
    (h : b.patchInnerDimensions.x = 0 ∨ (0 < b.patchInnerDimensions.x ∧ b.patchInnerDimensions.y = 0)) :
    b.setupPatches m = .error .ZeroDivisionError := by
  unfold setupPatches
  rcases h with h | ⟨hx, h⟩
  · rw [h, setupAxis_zero]; rfl
  · rw [h, setupAxis_pos _ _ _ hx, setupAxis_zero]; rfl

/-- The hypotheses are met: an 11 by 11 box and patches of 4 by 3 give 3 by 4 patches. -/
example : ∃ m : Box2I, m.WF ∧ 0 < Ex.legacy.patchInnerDimensions.x ∧ 0 < Ex.legacy.patchInnerDimensions.y ∧
    (Ex.legacy.setupPatches m).map (fun r => (r.1, r.2.1)) = .ok (⟨⟨15, 25⟩, ⟨12, 12⟩⟩, ⟨3, 4⟩) :=
  ⟨⟨⟨15, 25⟩, ⟨11, 11⟩⟩, Or.inr ⟨by decide, by decide⟩, by decide, by decide, by decide⟩

/-! ## C02 -/

/-- C02: every pixel of the tract is in the inner box of exactly one patch. -/
theorem C02_tiling (h : TractInfo.new env ops b₀ a = .ok (t, b))
    (hx : 0 < b₀.patchInnerDimensions.x) (hy : 0 < b₀.patchInnerDimensions.y) (hb : 0 ≤ b₀.patchBorder)
    (p : Point2I) (hp : t.getBBox.contains p = true) :
    ∃! i : Index2D, ∃ pi, t.getPatchInfo b (.index2D i) = .ok pi ∧ pi.innerBBox.contains p = true := by
  have B := TractInfo.new_built h hx hy
  have hb' : 0 ≤ b.patchBorder := by rw [B.border]; exact hb
  have hd := B.ready.dx
  have hd' := B.ready.dy
  have hp' := (B.contains_bbox p).1 hp
  refine ⟨⟨p.x / b.patchInnerDimensions.x, p.y / b.patchInnerDimensions.y⟩, ?_, ?_⟩
  · refine ⟨_, (B.ready.getPatchInfo_iff hb' _ t.wcs _).2 ⟨⟨?_, ?_, ?_, ?_⟩, rfl⟩, ?_⟩
    · exact Int.ediv_nonneg hp'.1 (by omega)
    · exact (Int.ediv_lt_iff_lt_mul hd).2 hp'.2.1
    · exact Int.ediv_nonneg hp'.2.2.1 (by omega)
    · exact (Int.ediv_lt_iff_lt_mul hd').2 hp'.2.2.2
    · rw [patchVal_inner, patchInnerBBox_eq hd hd', Box2I.contains_iff]
      dsimp only
      have a1 := Int.mul_ediv_add_emod p.x b.patchInnerDimensions.x
      have a2 := Int.emod_nonneg p.x (by omega : b.patchInnerDimensions.x ≠ 0)
      have a3 := Int.emod_lt_of_pos p.x hd
      have c1 := Int.mul_ediv_add_emod p.y b.patchInnerDimensions.y
      have c2 := Int.emod_nonneg p.y (by omega : b.patchInnerDimensions.y ≠ 0)
      have c3 := Int.emod_lt_of_pos p.y hd'
      rw [mul_comm] at a1 c1
      omega
  · rintro i ⟨pi, h1, h2⟩
    obtain ⟨hi, rfl⟩ := (B.ready.getPatchInfo_iff hb' _ t.wcs _).1 h1
    rw [patchVal_inner, patchInnerBBox_eq hd hd', Box2I.contains_iff] at h2
    dsimp only at h2
    apply I2.ext'
    · dsimp only
      rw [eq_comm, Int.ediv_eq_iff_of_pos hd]
      omega
    · dsimp only
      rw [eq_comm, Int.ediv_eq_iff_of_pos hd']
      omega

/-- C02: every inner box lies in the tract and has the patch dimensions. -/
theorem C02_inner_in_tract (h : TractInfo.new env ops b₀ a = .ok (t, b))
    (hx : 0 < b₀.patchInnerDimensions.x) (hy : 0 < b₀.patchInnerDimensions.y) (hb : 0 ≤ b₀.patchBorder)
    (i : Index2D) (pi : PatchInfo (Wcs Sky K)) (hi : t.getPatchInfo b (.index2D i) = .ok pi) :
    pi.innerBBox.getDimensions = b₀.patchInnerDimensions ∧
      ∀ p, pi.innerBBox.contains p = true → t.getBBox.contains p = true := by
  have B := TractInfo.new_built h hx hy
  have hb' : 0 ≤ b.patchBorder := by rw [B.border]; exact hb
  obtain ⟨hr, rfl⟩ := (B.ready.getPatchInfo_iff hb' _ t.wcs _).1 hi
  rw [patchVal_inner]
  constructor
  · rw [patchInnerBBox_eq B.ready.dx B.ready.dy, B.dims]; rfl
  · intro p hp
    change t.bbox.contains p = true
    rw [B.box]
    exact B.ready.inner_sub hr hp

/-! ## C03 -/

/-- C03: with the legacy builder, the outer box is exactly the tract pixels within the border of the
inner box; it contains the inner box. -/
theorem C03_legacy_outer (h : TractInfo.new env ops b₀ a = .ok (t, b))
    (hx : 0 < b₀.patchInnerDimensions.x) (hy : 0 < b₀.patchInnerDimensions.y) (hb : 0 ≤ b₀.patchBorder)
    (hk : b₀.kind = .legacy)
    (i : Index2D) (pi : PatchInfo (Wcs Sky K)) (hi : t.getPatchInfo b (.index2D i) = .ok pi) :
    (∀ p, pi.outerBBox.contains p = true ↔ t.getBBox.contains p = true ∧ pi.innerBBox.Near b₀.patchBorder p) ∧
      (∀ p, pi.innerBBox.contains p = true → pi.outerBBox.contains p = true) ∧
      (∀ p, pi.outerBBox.contains p = true → t.getBBox.contains p = true) := by
  have B := TractInfo.new_built h hx hy
  have hb' : 0 ≤ b.patchBorder := by rw [B.border]; exact hb
  obtain ⟨hr, rfl⟩ := (B.ready.getPatchInfo_iff hb' _ t.wcs _).1 hi
  have ho : ∀ p, (b.patchVal t.numPatches i t.wcs).outerBBox.contains p = true ↔
      t.getBBox.contains p = true ∧ (b.patchInnerBBox i).Near b₀.patchBorder p := by
    intro p
    have e : (b.patchVal t.numPatches i t.wcs).outerBBox =
        ((b.patchInnerBBox i).grow b.patchBorder).clip t.bbox := by
      unfold patchVal
      rw [B.kind, hk, B.box]
    rw [e, Box2I.contains_clip, Box2I.contains_grow _ (patchInnerBBox_wf b i) _ hb', B.border, and_comm]
    rfl
  rw [patchVal_inner]
  refine ⟨ho, ?_, fun p hp => ((ho p).1 hp).1⟩
  intro p hp
  rw [ho]
  refine ⟨?_, near_self _ _ hb _ hp⟩
  change t.bbox.contains p = true
  rw [B.box]
  exact B.ready.inner_sub hr hp

/-- C03: with a negative border no patch is returned (legacy and cells builders alike). -/
theorem C03_negative_border (h : TractInfo.new env ops b₀ a = .ok (t, b))
    (hx : 0 < b₀.patchInnerDimensions.x) (hy : 0 < b₀.patchInnerDimensions.y) (hb : b₀.patchBorder < 0)
    (index : IndexArg) (pi : PatchInfo (Wcs Sky K)) : t.getPatchInfo b index ≠ .ok pi := by
  have B := TractInfo.new_built h hx hy
  have hb' : b.patchBorder < 0 := by rw [B.border]; exact hb
  have key : ∀ i : Index2D, ∀ o : Box2I,
      (∀ p, o.contains p = true → ((b.patchInnerBBox i).grow b.patchBorder).contains p = true) →
      o.containsBox (b.patchInnerBBox i) = false := by
    intro i o ho
    rw [Bool.eq_false_iff]
    intro hc
    have hin : (b.patchInnerBBox i).contains (b.patchInnerBBox i).min = true := by
      rw [patchInnerBBox_eq B.ready.dx B.ready.dy, Box2I.contains_iff]
      have := B.ready.dx; have := B.ready.dy
      dsimp only; omega
    have h2 := ho _ (Box2I.contains_of_containsBox _ _ hc _ hin)
    have hg : ((b.patchInnerBBox i).grow b.patchBorder) =
        if b.patchInnerDimensions.x + 2 * b.patchBorder ≤ 0 ∨ b.patchInnerDimensions.y + 2 * b.patchBorder ≤ 0
        then Box2I.empty
        else ⟨⟨i.x * b.patchInnerDimensions.x - b.patchBorder, i.y * b.patchInnerDimensions.y - b.patchBorder⟩,
          ⟨b.patchInnerDimensions.x + 2 * b.patchBorder, b.patchInnerDimensions.y + 2 * b.patchBorder⟩⟩ := by
      rw [patchInnerBBox_eq B.ready.dx B.ready.dy]
      have hne : ¬ b.patchInnerDimensions.x = 0 := by have := B.ready.dx; omega
      simp [Box2I.grow, Box2I.isEmpty, hne]
    rw [hg, patchInnerBBox_eq B.ready.dx B.ready.dy] at h2
    split at h2
    · rw [Box2I.contains_iff] at h2
      simp only [Box2I.empty] at h2
      omega
    · rw [Box2I.contains_iff] at h2
      dsimp only at h2
      omega
  intro hok
  unfold TractInfo.getPatchInfo TractBuilder.getPatchInfo at hok
  rw [B.st] at hok
  simp only [bind, Except.bind] at hok
  split at hok
  · simp at hok
  rename_i i hi
  split at hok
  · simp [throw, throwThe, MonadExceptOf.throw] at hok
  · split at hok
    · simp [throw, throwThe, MonadExceptOf.throw] at hok
    · split at hok
      · simp at hok
      · split at hok
        · rw [PatchInfo.new, key i] at hok
          · simp at hok
          · intro p hp
            exact ((Box2I.contains_clip _ _ p).1 hp).1
        · rw [PatchInfo.new, key i] at hok
          · simp at hok
          · intro p hp; exact hp

/-! ## C04 -/

/-- C04: with the cells builder the outer box is exactly the pixels within the border, on or off the
tract; the border is `numCellsInPatchBorder` cells plus the cell border. -/
theorem C04_cells_outer (cfg : CellTractBuilderConfig) (cx cy : Int) (hc : cfg.cellInnerDimensions = [cx, cy])
    (hnew : CellTractBuilder.new cfg = .ok b₀)
    (h : TractInfo.new env ops b₀ a = .ok (t, b))
    (hx : 0 < b₀.patchInnerDimensions.x) (hy : 0 < b₀.patchInnerDimensions.y) (hb : 0 ≤ b₀.patchBorder)
    (i : Index2D) (pi : PatchInfo (Wcs Sky K)) (hi : t.getPatchInfo b (.index2D i) = .ok pi) (p : Point2I) :
    pi.outerBBox.contains p = true ↔ pi.innerBBox.Near (cfg.numCellsInPatchBorder * cx + cfg.cellBorder) p := by
  have B := TractInfo.new_built h hx hy
  have hb' : 0 ≤ b.patchBorder := by rw [B.border]; exact hb
  obtain ⟨hr, rfl⟩ := (B.ready.getPatchInfo_iff hb' _ t.wcs _).1 hi
  unfold CellTractBuilder.new at hnew
  rw [hc] at hnew
  simp only [Except.ok.injEq] at hnew
  have e : (b.patchVal t.numPatches i t.wcs).outerBBox = (b.patchInnerBBox i).grow b.patchBorder := by
    unfold patchVal
    rw [B.kind, ← hnew]
  have e2 : b.patchBorder = cfg.numCellsInPatchBorder * cx + cfg.cellBorder := by rw [B.border, ← hnew]
  rw [e, patchVal_inner, Box2I.contains_grow _ (patchInnerBBox_wf b i) _ hb', e2]

/-- The hypotheses of C02, C03 are met by a 3 by 4 patch tract, those of C04 by a 2 by 2 patch tract
with cells, and the border of that patch leaves the tract. -/
example : ∃ t b pi, TractInfo.new Ex.env Ex.ops Ex.legacy Ex.args = .ok (t, b) ∧
    t.getPatchInfo b (.index2D ⟨2, 0⟩) = .ok pi ∧ pi.innerBBox = ⟨⟨8, 0⟩, ⟨4, 3⟩⟩ ∧
    pi.outerBBox = ⟨⟨6, 0⟩, ⟨6, 5⟩⟩ := by
  obtain ⟨⟨t, b⟩, h1, h2⟩ := Except.map_ok_inv Ex.legacy_built
  have := TractInfo.new_built h1 (by decide) (by decide)
  refine ⟨t, b, _, h1, this.ready.getPatchInfo_ok (by rw [this.border]; decide) ?_ _, ?_, ?_⟩
  · simp only [Prod.mk.injEq] at h2
    rw [h2.1]; decide
  · rw [patchVal_inner, patchInnerBBox, this.dims]; rfl
  · simp only [Prod.mk.injEq] at h2
    unfold patchVal patchInnerBBox
    rw [this.kind, this.dims, this.border, h2.1]; rfl

example : ∃ t b pi, CellTractBuilder.new ⟨[3, 3], 1, 2, 1⟩ = .ok Ex.cells ∧
    TractInfo.new Ex.env Ex.ops Ex.cells Ex.args = .ok (t, b) ∧
    t.getPatchInfo b (.index2D ⟨1, 0⟩) = .ok pi ∧ pi.innerBBox = ⟨⟨6, 0⟩, ⟨6, 6⟩⟩ ∧
    pi.outerBBox = ⟨⟨2, -4⟩, ⟨14, 14⟩⟩ := by
  obtain ⟨⟨t, b⟩, h1, h2⟩ := Except.map_ok_inv Ex.cells_built
  have := TractInfo.new_built h1 (by decide) (by decide)
  refine ⟨t, b, _, rfl, h1, this.ready.getPatchInfo_ok (by rw [this.border]; decide) ?_ _, ?_, ?_⟩
  · simp only [Prod.mk.injEq] at h2
    rw [h2.1]; decide
  · rw [patchVal_inner, patchInnerBBox, this.dims]; rfl
  · simp only [Prod.mk.injEq] at h2
    unfold patchVal patchInnerBBox
    rw [this.kind, this.dims, this.border]; rfl

/-! ## C05 -/

/-- C05: `getPatchIndexPair` followed by `getSequentialPatchIndexFromPair` is the identity on
0 .. nx*ny-1. -/
theorem C05_seq_of_pair (h : TractInfo.new env ops b₀ a = .ok (t, b))
    (hx : 0 < b₀.patchInnerDimensions.x) (hy : 0 < b₀.patchInnerDimensions.y)
    (s : Int) (h0 : 0 ≤ s) (h1 : s < t.numPatches.x * t.numPatches.y) :
    ∃ i, t.getPatchIndexPair b s = .ok i ∧ InRange t.numPatches i ∧
      t.getSequentialPatchIndexFromPair b (.index2D i) = .ok s := by
  have B := TractInfo.new_built h hx hy
  have hn : 0 < t.numPatches.x := by
    have := B.ready.nx
    rcases Int.lt_or_eq_of_le this with h | h
    · exact h
    · rw [← h] at h1; omega
  obtain ⟨r1, r2⟩ := seq_inv (n := t.numPatches) hn h0 h1
  refine ⟨_, ?_, r1, ?_⟩
  · simp [TractInfo.getPatchIndexPair, TractBuilder.getPatchIndexPair, getState, B.st, bind, Except.bind,
      pyMod_pos hn, pyFloorDiv_pos hn, pure, Except.pure]
  · simp only [TractInfo.getSequentialPatchIndexFromPair, TractBuilder.getSequentialPatchIndexFromPair,
      getState, B.st, bind, Except.bind, pure, Except.pure, r2]

/-- C05: and the other way round: an index in range has a sequential index in range which converts
back to it. -/
theorem C05_pair_of_seq (h : TractInfo.new env ops b₀ a = .ok (t, b))
    (hx : 0 < b₀.patchInnerDimensions.x) (hy : 0 < b₀.patchInnerDimensions.y)
    (i : Index2D) (hi : InRange t.numPatches i) :
    ∃ s, t.getSequentialPatchIndexFromPair b (.index2D i) = .ok s ∧ 0 ≤ s ∧
      s < t.numPatches.x * t.numPatches.y ∧ t.getPatchIndexPair b s = .ok i := by
  have B := TractInfo.new_built h hx hy
  have hn : 0 < t.numPatches.x := by unfold InRange at hi; omega
  obtain ⟨r1, r2, r3, r4⟩ := pair_inv hi
  refine ⟨t.numPatches.x * i.y + i.x, ?_, r1, r2, ?_⟩
  · simp [TractInfo.getSequentialPatchIndexFromPair, TractBuilder.getSequentialPatchIndexFromPair,
      getState, B.st, bind, Except.bind, pure, Except.pure]
  · simp [TractInfo.getPatchIndexPair, TractBuilder.getPatchIndexPair, getState, B.st, bind, Except.bind,
      pyMod_pos hn, pyFloorDiv_pos hn, pure, Except.pure, r3, r4]

/-- C05: two patches of a tract with the same sequential index are the same patch, and a patch's own
sequential index is the tract's. -/
theorem C05_distinct (h : TractInfo.new env ops b₀ a = .ok (t, b))
    (hx : 0 < b₀.patchInnerDimensions.x) (hy : 0 < b₀.patchInnerDimensions.y) (hb : 0 ≤ b₀.patchBorder)
    (i j : Index2D) (pi pj : PatchInfo (Wcs Sky K))
    (hi : t.getPatchInfo b (.index2D i) = .ok pi) (hj : t.getPatchInfo b (.index2D j) = .ok pj) :
    (pi.sequentialIndex = pj.sequentialIndex → i = j ∧ pi = pj) ∧
      t.getSequentialPatchIndex b pi = .ok pi.sequentialIndex := by
  have B := TractInfo.new_built h hx hy
  have hb' : 0 ≤ b.patchBorder := by rw [B.border]; exact hb
  obtain ⟨hr, rfl⟩ := (B.ready.getPatchInfo_iff hb' _ t.wcs _).1 hi
  obtain ⟨hs, rfl⟩ := (B.ready.getPatchInfo_iff hb' _ t.wcs _).1 hj
  constructor
  · intro e
    rw [patchVal_seq, patchVal_seq] at e
    obtain ⟨-, -, a3, a4⟩ := pair_inv hr
    obtain ⟨-, -, b3, b4⟩ := pair_inv hs
    have : i = j := I2.ext' (by rw [← a3, ← b3, e]) (by rw [← a4, ← b4, e])
    exact ⟨this, by rw [this]⟩
  · simp [TractInfo.getSequentialPatchIndex, TractBuilder.getSequentialPatchIndex,
      TractBuilder.getSequentialPatchIndexFromPair, getState, B.st, bind, Except.bind, pure, Except.pure]

example : ∃ t b, TractInfo.new Ex.env Ex.ops Ex.legacy Ex.args = .ok (t, b) ∧
    0 < Ex.legacy.patchInnerDimensions.x ∧ 0 < Ex.legacy.patchInnerDimensions.y ∧ 0 ≤ Ex.legacy.patchBorder ∧
    (7 : Int) < t.numPatches.x * t.numPatches.y ∧ InRange t.numPatches ⟨1, 2⟩ := by
  obtain ⟨t, b, h1, h2, h3, h4, h5, h6⟩ := Ex.legacy_hyps
  exact ⟨t, b, h1, h2, h3, h4, by rw [h5]; decide, by rw [h5]; decide⟩

/-! ## C06 -/

/-- C06: lookup by `Index2D` or by a pair succeeds exactly for indices in range, with the patch that
has this index, and raises `IndexError` otherwise (in particular never `RuntimeError`). -/
theorem C06_by_pair (h : TractInfo.new env ops b₀ a = .ok (t, b))
    (hx : 0 < b₀.patchInnerDimensions.x) (hy : 0 < b₀.patchInnerDimensions.y) (hb : 0 ≤ b₀.patchBorder)
    (i : Index2D) :
    (InRange t.numPatches i →
      ∃ pi, t.getPatchInfo b (.index2D i) = .ok pi ∧ pi.index = i ∧ pi.wcs = t.wcs) ∧
    (¬ InRange t.numPatches i → t.getPatchInfo b (.index2D i) = .error .IndexError) ∧
    t.getPatchInfo b (.seq [i.x, i.y]) = t.getPatchInfo b (.index2D i) ∧
    t.getItem b (.index2D i) = t.getPatchInfo b (.index2D i) := by
  have B := TractInfo.new_built h hx hy
  have hb' : 0 ≤ b.patchBorder := by rw [B.border]; exact hb
  refine ⟨fun hi => ⟨_, B.ready.getPatchInfo_ok hb' hi t.wcs, patchVal_index _ _ _ _, patchVal_wcs _ _ _ _⟩,
    fun hi => B.ready.getPatchInfo_err hi t.wcs, getPatchInfo_seq2 _ _ _ _, rfl⟩

/-- C06: lookup by sequential index succeeds exactly for 0 <= s < nx*ny, with the patch whose
sequential index is s - the same patch as by its (x, y) index - and raises `IndexError` otherwise.
(A tract without patches, nx = 0, raises `ZeroDivisionError` instead.) -/
theorem C06_by_number (h : TractInfo.new env ops b₀ a = .ok (t, b))
    (hx : 0 < b₀.patchInnerDimensions.x) (hy : 0 < b₀.patchInnerDimensions.y) (hb : 0 ≤ b₀.patchBorder)
    (hn : 0 < t.numPatches.x) (s : Int) :
    (0 ≤ s ∧ s < t.numPatches.x * t.numPatches.y →
      ∃ pi, t.getPatchInfo b (.number s) = .ok pi ∧ pi.sequentialIndex = s ∧
        t.getPatchInfo b (.index2D pi.index) = .ok pi) ∧
    (¬ (0 ≤ s ∧ s < t.numPatches.x * t.numPatches.y) →
      t.getPatchInfo b (.number s) = .error .IndexError) := by
  have B := TractInfo.new_built h hx hy
  have hb' : 0 ≤ b.patchBorder := by rw [B.border]; exact hb
  have e : t.getPatchInfo b (.number s) =
      t.getPatchInfo b (.index2D ⟨s % t.numPatches.x, s / t.numPatches.x⟩) := by
    unfold TractInfo.getPatchInfo TractBuilder.getPatchInfo resolve TractBuilder.getPatchIndexPair getState
    simp only [B.st, bind, Except.bind, pyMod_pos hn, pyFloorDiv_pos hn, pure, Except.pure]
  constructor
  · rintro ⟨h0, h1⟩
    obtain ⟨r1, r2⟩ := seq_inv (n := t.numPatches) hn h0 h1
    refine ⟨_, e.trans (B.ready.getPatchInfo_ok hb' r1 t.wcs), ?_, ?_⟩
    · rw [patchVal_seq]; exact r2
    · rw [patchVal_index]; exact B.ready.getPatchInfo_ok hb' r1 t.wcs
  · intro hs
    rw [e]
    exact B.ready.getPatchInfo_err (seq_out hn hs) t.wcs

/-- C06: a sequence that does not have two elements is an error. -/
theorem C06_bad_sequence (h : TractInfo.new env ops b₀ a = .ok (t, b))
    (hx : 0 < b₀.patchInnerDimensions.x) (hy : 0 < b₀.patchInnerDimensions.y) (l : List Int) (hl : l.length ≠ 2) :
    t.getPatchInfo b (.seq l) = .error .TypeError ∧
      t.getSequentialPatchIndexFromPair b (.seq l) = .error .ValueError := by
  have B := TractInfo.new_built h hx hy
  constructor
  · have : Index2D.ofSeq l = .error .TypeError := by
      unfold Index2D.ofSeq
      split
      · simp at hl
      · rfl
    simp [TractInfo.getPatchInfo, TractBuilder.getPatchInfo, resolve, B.st, this, bind, Except.bind]
  · simp [TractInfo.getSequentialPatchIndexFromPair, TractBuilder.getSequentialPatchIndexFromPair, hl, bind,
      Except.bind]

example : ∃ t b, TractInfo.new Ex.env Ex.ops Ex.legacy Ex.args = .ok (t, b) ∧
    0 < t.numPatches.x ∧ InRange t.numPatches ⟨2, 3⟩ ∧ ¬ InRange t.numPatches ⟨3, 0⟩ := by
  obtain ⟨t, b, h1, h2, h3, h4, h5, h6⟩ := Ex.legacy_hyps
  exact ⟨t, b, h1, by rw [h5]; decide, by rw [h5]; decide, by rw [h5]; simp [InRange]⟩

/-! ## C07 -/

/-- C07: iterating a tract gives `len(tract)` = nx*ny patches, the k-th one being `tract[k]`, with
sequential index k. -/
theorem C07_iteration (h : TractInfo.new env ops b₀ a = .ok (t, b))
    (hx : 0 < b₀.patchInnerDimensions.x) (hy : 0 < b₀.patchInnerDimensions.y) (hb : 0 ≤ b₀.patchBorder) :
    ∃ l, t.iter b = .ok l ∧ (l.length : Int) = t.len ∧ t.len = t.numPatches.x * t.numPatches.y ∧
      ∀ k : Nat, (k : Int) < t.len → ∃ pi, l[k]? = some pi ∧ pi.sequentialIndex = k ∧
        t.getItem b (.number k) = .ok pi := by
  have B := TractInfo.new_built h hx hy
  have hb' : 0 ≤ b.patchBorder := by rw [B.border]; exact hb
  have n0 := B.ready.nx
  have n1 := B.ready.ny
  have hg := grid_eq t.numPatches n0 n1
  have hlen : 0 ≤ t.numPatches.x * t.numPatches.y := Int.mul_nonneg n0 n1
  refine ⟨((List.range (t.numPatches.x * t.numPatches.y).toNat).map fun k : Nat =>
      (⟨(k : Int) % t.numPatches.x, (k : Int) / t.numPatches.x⟩ : Index2D)).map
        (fun i => b.patchVal t.numPatches i t.wcs), ?_, ?_, rfl, ?_⟩
  · unfold TractInfo.iter
    rw [hg]
    apply pyMapM_ok_of
    intro i hi
    rw [List.mem_map] at hi
    obtain ⟨k, hk, rfl⟩ := hi
    rw [List.mem_range] at hk
    have hn : 0 < t.numPatches.x := by
      rcases Int.lt_or_eq_of_le n0 with h | h
      · exact h
      · rw [← h] at hk; simp at hk
    exact B.ready.getPatchInfo_ok hb' (seq_inv hn (by omega) (by omega)).1 t.wcs
  · simp only [List.length_map, List.length_range, TractInfo.len]; omega
  · intro k hk
    unfold TractInfo.len at hk
    have hn : 0 < t.numPatches.x := by
      rcases Int.lt_or_eq_of_le n0 with h | h
      · exact h
      · rw [← h] at hk; omega
    obtain ⟨r1, r2⟩ := seq_inv (n := t.numPatches) (s := k) hn (by omega) hk
    refine ⟨b.patchVal t.numPatches ⟨(k : Int) % t.numPatches.x, (k : Int) / t.numPatches.x⟩ t.wcs, ?_, ?_, ?_⟩
    · rw [List.getElem?_map, List.getElem?_map, List.getElem?_range (by omega)]
      rfl
    · rw [patchVal_seq]; exact r2
    · obtain ⟨pi, h1, h2, h3⟩ := (C06_by_number h hx hy hb hn k).1 ⟨by omega, hk⟩
      unfold TractInfo.getItem
      rw [h1]
      obtain ⟨hr, e⟩ := (B.ready.getPatchInfo_iff hb' _ t.wcs _).1 h3
      rw [e, patchVal_seq] at h2
      obtain ⟨-, -, a3, a4⟩ := pair_inv hr
      rw [e]
      congr 2
      apply I2.ext'
      · dsimp only; rw [← a3, h2]
      · dsimp only; rw [← a4, h2]

end Skymap
