import Verif.Model.Int32
import Verif.Props.Cells
import Verif.Props.FindPatch
import Verif.Props.Sha1

/-! # C76: pixel integers of 32 bits are enough

The functions with names ending in `32` (Model/Int32.lean) are the same code with `lsst.geom`'s checks for C++ `int`s. -/

set_option linter.unusedSectionVars false

namespace Skymap
open TractBuilder

theorem check2_ok {p : I2} (h1 : Fits32 p.x) (h2 : Fits32 p.y) : check2 p = .ok p := by
  unfold check2; rw [if_pos ⟨h1, h2⟩]

theorem Box2I.check32_ok {b : Box2I} (h : b.Fits32) : b.check32 = .ok b := by
  unfold Box2I.check32; rw [if_pos h]

theorem Box2I.empty_fits : Box2I.empty.Fits32 := by decide

/-- What the checks guarantee: a box that is accepted has a minimum, dimensions and a maximum of 32 bits. -/
theorem Box2I.check32_iff {b b' : Box2I} : b.check32 = .ok b' ↔ b' = b ∧ b.Fits32 := by
  unfold Box2I.check32
  by_cases h : b.Fits32
  · rw [if_pos h]; simp [h, eq_comm]
  · rw [if_neg h]; simp [h]

variable {Sky K : Type} [Field K] [LinearOrder K] [IsStrictOrderedRing K] [FloorRing K]
variable {env : FloatEnv K} {ops : SkyOps Sky K} {b₀ b : TractBuilder} {a : TractArgs Sky K} {t : TractInfo Sky K}

/-- The pixel box of positions within `N` pixels of the origin. -/
theorem BoxOf.bounds (he : env.Ok) {bx : Box2D K} {l : List (P2 K)} (h : BoxOf env.tweak bx l) {N : Int} (hN : 0 ≤ N)
    (hl : ∀ q ∈ l, |q.x| ≤ (N : K) ∧ |q.y| ≤ (N : K)) :
    -N ≤ bx.toBox2I.min.x ∧ bx.toBox2I.min.x + bx.toBox2I.dim.x ≤ N + 2 ∧ 0 ≤ bx.toBox2I.dim.x ∧
    -N ≤ bx.toBox2I.min.y ∧ bx.toBox2I.min.y + bx.toBox2I.dim.y ≤ N + 2 ∧ 0 ≤ bx.toBox2I.dim.y ∧
    bx.toBox2I.min.x ≤ N ∧ bx.toBox2I.min.y ≤ N := by
  cases bx with
  | empty => simp only [Box2D.toBox2I, Box2I.empty]; omega
  | box lo hi =>
    obtain ⟨-, -, -, ⟨q1, m1, e1⟩, ⟨q2, m2, e2⟩, ⟨q3, m3, e3⟩, ⟨q4, m4, e4⟩⟩ := h
    have low : ∀ x : K, |x| ≤ (N : K) → -N ≤ ⌊x + 1 / 2⌋ ∧ ⌊x + 1 / 2⌋ ≤ N := by
      intro x hx
      rw [abs_le] at hx
      constructor
      · rw [Int.le_floor]; push_cast; linarith
      · rw [← Int.lt_add_one_iff, Int.floor_lt]; push_cast; linarith
    have high : ∀ x : K, |x| ≤ (N : K) → ⌈env.tweak x - 1 / 2⌉ ≤ N + 1 := by
      intro x hx
      rw [abs_le] at hx
      rw [Int.ceil_le]; push_cast
      have := he.tweak_le x
      linarith
    have l1 := low _ (hl _ m1).1
    have l2 := low _ (hl _ m2).2
    have h1 := high _ (hl _ m3).1
    have h2 := high _ (hl _ m4).2
    rw [← e1] at l1; rw [← e2] at l2; rw [← e3] at h1; rw [← e4] at h2
    unfold Box2D.toBox2I
    dsimp only
    split
    · simp only [Box2I.empty]; omega
    · dsimp only; omega

theorem minimumBoundingBox_bounds (he : env.Ok) {mb : Box2D K} (h : minimumBoundingBox env ops a = .ok mb) {N : Int} (hN : 0 ≤ N)
    (hB : ∀ s ∈ samplePoints ops a, ∀ q, a.wcs.skyToPixel s = .pix q → |q.x| ≤ (N : K) ∧ |q.y| ≤ (N : K)) :
    -N ≤ mb.toBox2I.min.x ∧ mb.toBox2I.min.x + mb.toBox2I.dim.x ≤ N + 2 ∧ 0 ≤ mb.toBox2I.dim.x ∧
    -N ≤ mb.toBox2I.min.y ∧ mb.toBox2I.min.y + mb.toBox2I.dim.y ≤ N + 2 ∧ 0 ≤ mb.toBox2I.dim.y ∧
    mb.toBox2I.min.x ≤ N ∧ mb.toBox2I.min.y ≤ N := by
  obtain ⟨hbox, -⟩ := includeAll_boxOf he.tweak_gt a.wcs (samplePoints ops a) .empty mb [] rfl h
  rw [List.nil_append] at hbox
  refine hbox.bounds he hN ?_
  intro q hq
  unfold posList at hq
  rw [List.mem_filterMap] at hq
  obtain ⟨c, hc, hq⟩ := hq
  split at hq
  · next p hp => simp only [Option.some.injEq] at hq; subst hq; exact hB _ hc _ hp
  · cases hq

/-- C76: building a tract.  If the pixels that size the tract are within `N` of the reference pixel and twice that and one patch fit in
32 bits, then nothing overflows: the constructor with 32-bit pixels does what the one with unbounded integers does. -/
theorem C76_new (he : env.Ok) (hx : 0 < b₀.patchInnerDimensions.x) (hy : 0 < b₀.patchInnerDimensions.y) {N : Int} (hN : 0 ≤ N)
    (hB : ∀ s ∈ samplePoints ops a, ∀ q, a.wcs.skyToPixel s = .pix q → |q.x| ≤ (N : K) ∧ |q.y| ≤ (N : K))
    (sx : 2 * N + b₀.patchInnerDimensions.x + 2 ≤ 2147483647) (sy : 2 * N + b₀.patchInnerDimensions.y + 2 ≤ 2147483647) :
    TractInfo.new32 env ops b₀ a = TractInfo.new env ops b₀ a := by
  unfold TractInfo.new32 TractInfo.new
  cases hm : minimumBoundingBox env ops a with
  | error e => rfl
  | ok mb =>
    have hb := minimumBoundingBox_bounds he hm hN hB
    have wf := toBox2I_wf mb
    simp only [bind, Except.bind]
    generalize mb.toBox2I = m at hb wf
    have cx := ceilNum_spec m.dim.x _ hx
    have cy := ceilNum_spec m.dim.y _ hy
    have hset : b₀.setupPatches32 m = b₀.setupPatches m ∧ ∀ r, b₀.setupPatches m = .ok r → (Box2I.mk' ⟨0, 0⟩ r.1.getDimensions).Fits32 := by
      have fm : m.Fits32 := by unfold Box2I.Fits32 Fits32; omega
      have f1 : ∀ mn : Point2I, Fits32 mn.x → Fits32 mn.y → Fits32 (mn.x + b₀.patchInnerDimensions.x * ceilNum m.dim.x b₀.patchInnerDimensions.x - 1) →
          Fits32 (mn.y + b₀.patchInnerDimensions.y * ceilNum m.dim.y b₀.patchInnerDimensions.y - 1) →
          (Box2I.mk' mn ⟨b₀.patchInnerDimensions.x * ceilNum m.dim.x b₀.patchInnerDimensions.x,
            b₀.patchInnerDimensions.y * ceilNum m.dim.y b₀.patchInnerDimensions.y⟩).Fits32 := by
        intro mn h1 h2 h3 h4
        by_cases hz : b₀.patchInnerDimensions.x * ceilNum m.dim.x b₀.patchInnerDimensions.x = 0 ∨
            b₀.patchInnerDimensions.y * ceilNum m.dim.y b₀.patchInnerDimensions.y = 0
        · rw [Box2I.mk'_zero _ _ hz]; exact Box2I.empty_fits
        · rw [Box2I.mk'_pos _ _ (by dsimp only; omega) (by dsimp only; omega)]
          refine ⟨h1, h2, ?_, ?_, h3, h4⟩ <;> unfold Fits32 <;> dsimp only <;> omega
      have g0 := f1 ⟨0, 0⟩ (by decide) (by decide) (by unfold Fits32; dsimp only; omega) (by unfold Fits32; dsimp only; omega)
      have g1 := f1 ⟨m.min.x - (b₀.patchInnerDimensions.x * ceilNum m.dim.x b₀.patchInnerDimensions.x - m.dim.x) / 2,
        m.min.y - (b₀.patchInnerDimensions.y * ceilNum m.dim.y b₀.patchInnerDimensions.y - m.dim.y) / 2⟩
        (by unfold Fits32; dsimp only; omega) (by unfold Fits32; dsimp only; omega)
        (by unfold Fits32; dsimp only; omega) (by unfold Fits32; dsimp only; omega)
      have hd : ∀ c, (Box2I.mk' c ⟨b₀.patchInnerDimensions.x * ceilNum m.dim.x b₀.patchInnerDimensions.x,
            b₀.patchInnerDimensions.y * ceilNum m.dim.y b₀.patchInnerDimensions.y⟩).getDimensions =
          (Box2I.mk' ⟨0, 0⟩ ⟨b₀.patchInnerDimensions.x * ceilNum m.dim.x b₀.patchInnerDimensions.x,
            b₀.patchInnerDimensions.y * ceilNum m.dim.y b₀.patchInnerDimensions.y⟩).getDimensions := by
        intro c
        by_cases hz : b₀.patchInnerDimensions.x * ceilNum m.dim.x b₀.patchInnerDimensions.x = 0 ∨
            b₀.patchInnerDimensions.y * ceilNum m.dim.y b₀.patchInnerDimensions.y = 0
        · rw [Box2I.mk'_zero _ _ hz, Box2I.mk'_zero _ _ hz]
        · rw [Box2I.mk'_pos _ _ (by dsimp only; omega) (by dsimp only; omega), Box2I.mk'_pos _ _ (by dsimp only; omega) (by dsimp only; omega)]
          rfl
      have hi : Box2I.mk' ⟨0, 0⟩ (Box2I.mk' ⟨0, 0⟩ ⟨b₀.patchInnerDimensions.x * ceilNum m.dim.x b₀.patchInnerDimensions.x,
            b₀.patchInnerDimensions.y * ceilNum m.dim.y b₀.patchInnerDimensions.y⟩).getDimensions =
          Box2I.mk' ⟨0, 0⟩ ⟨b₀.patchInnerDimensions.x * ceilNum m.dim.x b₀.patchInnerDimensions.x,
            b₀.patchInnerDimensions.y * ceilNum m.dim.y b₀.patchInnerDimensions.y⟩ := by
        by_cases hz : b₀.patchInnerDimensions.x * ceilNum m.dim.x b₀.patchInnerDimensions.x = 0 ∨
            b₀.patchInnerDimensions.y * ceilNum m.dim.y b₀.patchInnerDimensions.y = 0
        · rw [Box2I.mk'_zero ⟨0, 0⟩ ⟨_, _⟩ hz]; rfl
        · rw [Box2I.mk'_pos ⟨0, 0⟩ ⟨b₀.patchInnerDimensions.x * ceilNum m.dim.x b₀.patchInnerDimensions.x,
            b₀.patchInnerDimensions.y * ceilNum m.dim.y b₀.patchInnerDimensions.y⟩ (by dsimp only; omega) (by dsimp only; omega),
            Box2I.getDimensions, Box2I.mk'_pos _ _ (by dsimp only; omega) (by dsimp only; omega)]
      unfold setupPatches32 setupPatches
      rw [Box2I.check32_ok fm]
      simp only [bind, Except.bind, Box2I.getMin]
      rw [setupAxis_pos _ _ _ hx, setupAxis_pos _ _ _ hy]
      simp only [pure, Except.pure, Box2I.getDimensions] at hd hi ⊢
      rw [check2_ok (by unfold Fits32; dsimp only; omega) (by unfold Fits32; dsimp only; omega),
        check2_ok (by unfold Fits32; dsimp only; omega) (by unfold Fits32; dsimp only; omega)]
      dsimp only
      rw [Box2I.check32_ok g1]
      dsimp only
      rw [hd, hi, Box2I.check32_ok g0]
      refine ⟨rfl, ?_⟩
      rintro r hr
      simp only [Except.ok.injEq] at hr
      subst hr
      dsimp only
      rw [hd, hi]
      exact g0
    rw [hset.1]
    cases hs : b₀.setupPatches m with
    | error e => rfl
    | ok r =>
      dsimp only
      rw [Box2I.check32_ok (hset.2 r hs)]
      rfl

/-- The size of a tract whose sizing pixels are within `N`. -/
theorem C76_size (he : env.Ok) (h : TractInfo.new env ops b₀ a = .ok (t, b)) (hx : 0 < b₀.patchInnerDimensions.x)
    (hy : 0 < b₀.patchInnerDimensions.y) {N : Int} (hN : 0 ≤ N)
    (hB : ∀ s ∈ samplePoints ops a, ∀ q, a.wcs.skyToPixel s = .pix q → |q.x| ≤ (N : K) ∧ |q.y| ≤ (N : K)) :
    t.getBBox.getDimensions.x < 2 * N + b₀.patchInnerDimensions.x + 2 ∧
      t.getBBox.getDimensions.y < 2 * N + b₀.patchInnerDimensions.y + 2 := by
  obtain ⟨mb, bbox, n, h1, h2, rfl⟩ := TractInfo.new_inv h
  have hb := minimumBoundingBox_bounds he h1 hN hB
  obtain ⟨bb, nn, e1, e2, e3, e4⟩ := setupPatches_pos b₀ _ (toBox2I_wf mb) hx hy
  rw [e1] at h2
  simp only [Except.ok.injEq, Prod.mk.injEq] at h2
  obtain ⟨rfl, rfl, -⟩ := h2
  have cx := ceilNum_spec mb.toBox2I.dim.x _ hx
  have cy := ceilNum_spec mb.toBox2I.dim.y _ hy
  have hd : bb.dim = ⟨b₀.patchInnerDimensions.x * ceilNum mb.toBox2I.dim.x b₀.patchInnerDimensions.x,
      b₀.patchInnerDimensions.y * ceilNum mb.toBox2I.dim.y b₀.patchInnerDimensions.y⟩ := by
    rw [e4, e2, mul_comm, mul_comm (ceilNum mb.toBox2I.dim.y _)]
  simp only [TractInfo.getBBox, finalOrientation, Box2I.getDimensions]
  rw [hd]
  by_cases hz : b₀.patchInnerDimensions.x * ceilNum mb.toBox2I.dim.x b₀.patchInnerDimensions.x = 0 ∨
      b₀.patchInnerDimensions.y * ceilNum mb.toBox2I.dim.y b₀.patchInnerDimensions.y = 0
  · rw [Box2I.mk'_zero _ _ hz]; simp only [Box2I.empty]; omega
  · rw [Box2I.mk'_pos _ _ (by dsimp only; omega) (by dsimp only; omega)]
    dsimp only; omega

theorem Box2I.clip_fits {b o : Box2I} (hb : b.Fits32) (ho : o.Fits32) : (b.clip o).Fits32 := by
  unfold Box2I.clip
  split
  · exact hb
  · split
    · exact Box2I.empty_fits
    · dsimp only
      split
      · exact Box2I.empty_fits
      · unfold Box2I.Fits32 at *
        unfold Skymap.Fits32 at *
        simp only [Box2I.getMax] at *
        omega

/-- The pixels of a tract with 32-bit dimensions and a border. -/
theorem TractInfo.Built.dims32 (B : t.Built b₀ b) {r : Int} (sx : t.getBBox.getDimensions.x + 2 * r ≤ 2147483647)
    (sy : t.getBBox.getDimensions.y + 2 * r ≤ 2147483647) {i : Index2D} (hi : InRange t.numPatches i) :
    t.bbox = ⟨⟨0, 0⟩, ⟨t.numPatches.x * b.patchInnerDimensions.x, t.numPatches.y * b.patchInnerDimensions.y⟩⟩ ∧
    0 ≤ i.x * b.patchInnerDimensions.x ∧
    i.x * b.patchInnerDimensions.x + b.patchInnerDimensions.x ≤ t.numPatches.x * b.patchInnerDimensions.x ∧
    0 ≤ i.y * b.patchInnerDimensions.y ∧
    i.y * b.patchInnerDimensions.y + b.patchInnerDimensions.y ≤ t.numPatches.y * b.patchInnerDimensions.y ∧
    t.numPatches.x * b.patchInnerDimensions.x + 2 * r ≤ 2147483647 ∧
    t.numPatches.y * b.patchInnerDimensions.y + 2 * r ≤ 2147483647 := by
  obtain ⟨a1, a2, a3, a4⟩ := hi
  have hbox : t.bbox = ⟨⟨0, 0⟩, ⟨t.numPatches.x * b.patchInnerDimensions.x, t.numPatches.y * b.patchInnerDimensions.y⟩⟩ := by
    rw [B.box]; exact B.ready.tractBox (by omega) (by omega)
  unfold TractInfo.getBBox Box2I.getDimensions at sx sy
  rw [hbox] at sx sy
  dsimp only at sx sy
  refine ⟨hbox, Int.mul_nonneg a1 B.ready.dx.le, ?_, Int.mul_nonneg a3 B.ready.dy.le, ?_, sx, sy⟩
  · have : (i.x + 1) * b.patchInnerDimensions.x ≤ t.numPatches.x * b.patchInnerDimensions.x :=
      Int.mul_le_mul_of_nonneg_right (by omega) B.ready.dx.le
    rw [add_mul, one_mul] at this
    exact this
  · have : (i.y + 1) * b.patchInnerDimensions.y ≤ t.numPatches.y * b.patchInnerDimensions.y :=
      Int.mul_le_mul_of_nonneg_right (by omega) B.ready.dy.le
    rw [add_mul, one_mul] at this
    exact this

/-- C76: looking up a patch.  If the tract and a border on both sides fit in 32 bits, `getPatchInfo` with 32-bit pixels does for every
argument what it does with unbounded integers. -/
theorem C76_getPatchInfo (h : TractInfo.new env ops b₀ a = .ok (t, b)) (hx : 0 < b₀.patchInnerDimensions.x)
    (hy : 0 < b₀.patchInnerDimensions.y) (hb : 0 ≤ b₀.patchBorder)
    (sx : t.getBBox.getDimensions.x + 2 * b₀.patchBorder ≤ 2147483647)
    (sy : t.getBBox.getDimensions.y + 2 * b₀.patchBorder ≤ 2147483647) (index : IndexArg) :
    t.getPatchInfo32 b index = t.getPatchInfo b index := by
  have B := TractInfo.new_built h hx hy
  unfold TractInfo.getPatchInfo32 TractInfo.getPatchInfo TractBuilder.getPatchInfo32 TractBuilder.getPatchInfo
  rw [B.st]
  dsimp only
  cases hr : b.resolve index with
  | error e => rfl
  | ok i =>
    simp only [bind, Except.bind]
    by_cases hi : InRange t.numPatches i
    · have hn : ¬ (¬ (0 ≤ i.x ∧ i.x < t.numPatches.x) ∨ ¬ (0 ≤ i.y ∧ i.y < t.numPatches.y)) := by unfold InRange at hi; omega
      obtain ⟨e0, e1, e2, e3, e4, e5, e6⟩ := B.dims32 sx sy hi
      have dx := B.ready.dx
      have dy := B.ready.dy
      rw [if_neg hn, if_neg hn]
      rw [check2_ok (by unfold Fits32; dsimp only; omega) (by unfold Fits32; dsimp only; omega),
        check2_ok (by unfold Fits32; omega) (by unfold Fits32; omega)]
      dsimp only
      have hin : Box2I.mk' ⟨i.x * b.patchInnerDimensions.x, i.y * b.patchInnerDimensions.y⟩ b.patchInnerDimensions = b.patchInnerBBox i := rfl
      have f1 : (b.patchInnerBBox i).Fits32 := by
        rw [patchInnerBBox_eq dx dy]
        unfold Box2I.Fits32 Fits32
        dsimp only
        omega
      have f2 : ((b.patchInnerBBox i).grow b.getPatchBorder).Fits32 := by
        unfold TractBuilder.getPatchBorder
        rw [B.border, patchInnerBBox_eq dx dy, Box2I.grow_pos _ dx dy _ hb]
        unfold Box2I.Fits32 Fits32
        dsimp only
        omega
      have f3 : t.bbox.Fits32 := by
        rw [e0]
        unfold Box2I.Fits32 Fits32
        dsimp only
        omega
      rw [hin, Box2I.check32_ok f1]
      dsimp only
      rw [Box2I.check32_ok f2]
      dsimp only
      rw [Box2I.check32_ok (Box2I.clip_fits f2 f3)]
      split
      · rfl
      · cases b.getSequentialPatchIndexFromPair (.index2D i) with
        | error e => rfl
        | ok s => cases b.kind <;> rfl
    · have hn : ¬ (0 ≤ i.x ∧ i.x < t.numPatches.x) ∨ ¬ (0 ≤ i.y ∧ i.y < t.numPatches.y) := by unfold InRange at hi; omega
      rw [if_pos hn, if_pos hn]
      rfl

/-- C76: looking up a cell, for every argument. -/
theorem C76_getCellInfo {cfg : CellTractBuilderConfig} {cx cy : Int} (hs : cfg.Sane cx cy) (hnew : CellTractBuilder.new cfg = .ok b₀)
    (h : TractInfo.new env ops b₀ a = .ok (t, b))
    (sx : t.getBBox.getDimensions.x + 2 * (cfg.numCellsInPatchBorder * cx + cfg.cellBorder) ≤ 2147483647)
    (sy : t.getBBox.getDimensions.y + 2 * (cfg.numCellsInPatchBorder * cy + cfg.cellBorder) ≤ 2147483647)
    (i : Index2D) (pi : PatchInfo (Wcs Sky K)) (hi : t.getPatchInfo b (.index2D i) = .ok pi) (index : IndexArg) :
    pi.getCellInfo32 index = pi.getCellInfo index := by
  obtain ⟨C, hmin, -, hr, -⟩ := cellPatch_of_new hs hnew h hi
  have hd : b₀.patchInnerDimensions = ⟨cx * cfg.numCellsPerPatchInner, cy * cfg.numCellsPerPatchInner⟩ := by
    unfold CellTractBuilder.new at hnew
    rw [hs.dims] at hnew
    simp only [Except.ok.injEq] at hnew
    rw [← hnew]
  have B := TractInfo.new_built h (by rw [hd]; exact mul_pos hs.cx_pos hs.per_pos) (by rw [hd]; exact mul_pos hs.cy_pos hs.per_pos)
  have hcx := hs.cx_pos
  have hcy := hs.cy_pos
  have hcb := hs.cb_nonneg
  have d1 := (B.dims32 (r := 0) (by have := Int.mul_nonneg hs.nb_nonneg hcx.le; omega) (by have := Int.mul_nonneg hs.nb_nonneg hcy.le; omega) hr)
  obtain ⟨e0, e1, e2, e3, e4, -, -⟩ := d1
  unfold TractInfo.getBBox Box2I.getDimensions at sx sy
  rw [e0] at sx sy
  rw [B.dims, hd] at e1 e2 e3 e4 sx sy
  dsimp only at e1 e2 e3 e4 sx sy
  unfold PatchInfo.getCellInfo32 PatchInfo.getCellInfo
  split
  · rfl
  · simp only [bind, Except.bind]
    cases hrc : pi.resolveCell index with
    | error e => rfl
    | ok j =>
      dsimp only
      split
      · rfl
      · next hj =>
        have hb := C.num
        have g1 : Fits32 ((j.x - pi.numCellsInPatchBorder) * pi.cellInnerDimensions.x + pi.innerBBox.getMin.x - cfg.cellBorder) ∧
            Fits32 ((j.x - pi.numCellsInPatchBorder) * pi.cellInnerDimensions.x + pi.innerBBox.getMin.x + cx + cfg.cellBorder) ∧
            0 ≤ cx + 2 * cfg.cellBorder ∧ cx + 2 * cfg.cellBorder ≤ 2147483647 := by
          unfold Box2I.getMin
          rw [C.nbord, C.dims, hmin]
          rw [hb] at hj
          dsimp only at hj ⊢
          have a1 : -(cfg.numCellsInPatchBorder * cx) ≤ (j.x - cfg.numCellsInPatchBorder) * cx := by
            have : (-cfg.numCellsInPatchBorder) * cx ≤ (j.x - cfg.numCellsInPatchBorder) * cx :=
              Int.mul_le_mul_of_nonneg_right (by omega) hcx.le
            rwa [neg_mul] at this
          have a2 : (j.x - cfg.numCellsInPatchBorder) * cx + cx ≤ cx * cfg.numCellsPerPatchInner + cfg.numCellsInPatchBorder * cx := by
            have : (j.x - cfg.numCellsInPatchBorder + 1) * cx ≤ (cfg.numCellsPerPatchInner + cfg.numCellsInPatchBorder) * cx :=
              Int.mul_le_mul_of_nonneg_right (by omega) hcx.le
            rw [add_mul, add_mul, one_mul, mul_comm cfg.numCellsPerPatchInner cx] at this
            exact this
          have a3 : cx ≤ cx * cfg.numCellsPerPatchInner := by
            have : cx * 1 ≤ cx * cfg.numCellsPerPatchInner := Int.mul_le_mul_of_nonneg_left (by have := hs.per_pos; omega) hcx.le
            omega
          have a4 := Int.mul_nonneg hs.nb_nonneg hcx.le
          unfold Fits32
          omega
        have g2 : Fits32 ((j.y - pi.numCellsInPatchBorder) * pi.cellInnerDimensions.y + pi.innerBBox.getMin.y - cfg.cellBorder) ∧
            Fits32 ((j.y - pi.numCellsInPatchBorder) * pi.cellInnerDimensions.y + pi.innerBBox.getMin.y + cy + cfg.cellBorder) ∧
            0 ≤ cy + 2 * cfg.cellBorder ∧ cy + 2 * cfg.cellBorder ≤ 2147483647 := by
          unfold Box2I.getMin
          rw [C.nbord, C.dims, hmin]
          rw [hb] at hj
          dsimp only at hj ⊢
          have a1 : -(cfg.numCellsInPatchBorder * cy) ≤ (j.y - cfg.numCellsInPatchBorder) * cy := by
            have : (-cfg.numCellsInPatchBorder) * cy ≤ (j.y - cfg.numCellsInPatchBorder) * cy :=
              Int.mul_le_mul_of_nonneg_right (by omega) hcy.le
            rwa [neg_mul] at this
          have a2 : (j.y - cfg.numCellsInPatchBorder) * cy + cy ≤ cy * cfg.numCellsPerPatchInner + cfg.numCellsInPatchBorder * cy := by
            have : (j.y - cfg.numCellsInPatchBorder + 1) * cy ≤ (cfg.numCellsPerPatchInner + cfg.numCellsInPatchBorder) * cy :=
              Int.mul_le_mul_of_nonneg_right (by omega) hcy.le
            rw [add_mul, add_mul, one_mul, mul_comm cfg.numCellsPerPatchInner cy] at this
            exact this
          have a3 : cy ≤ cy * cfg.numCellsPerPatchInner := by
            have : cy * 1 ≤ cy * cfg.numCellsPerPatchInner := Int.mul_le_mul_of_nonneg_left (by have := hs.per_pos; omega) hcy.le
            omega
          have a4 := Int.mul_nonneg hs.nb_nonneg hcy.le
          unfold Fits32
          omega
        unfold Fits32 at g1 g2
        unfold PatchInfo.cellInnerBBox
        rw [check2_ok (by unfold Fits32; dsimp only; omega) (by unfold Fits32; dsimp only; omega),
          check2_ok (by rw [C.dims]; unfold Fits32; dsimp only; omega) (by rw [C.dims]; unfold Fits32; dsimp only; omega)]
        dsimp only
        have hcd : 0 < pi.cellInnerDimensions.x ∧ 0 < pi.cellInnerDimensions.y := by rw [C.dims]; exact ⟨hcx, hcy⟩
        have hce : pi.cellInnerDimensions.x = cx ∧ pi.cellInnerDimensions.y = cy := by rw [C.dims]; exact ⟨rfl, rfl⟩
        rw [Box2I.mk'_pos _ _ hcd.1 hcd.2]
        rw [Box2I.check32_ok (by unfold Box2I.Fits32 Fits32; dsimp only; omega)]
        dsimp only
        rw [C.border, Box2I.grow_pos _ hcd.1 hcd.2 _ hcb]
        dsimp only
        rw [Box2I.check32_ok (by unfold Box2I.Fits32 Fits32; dsimp only; omega)]

/-- What is assumed of the C++ conversion of a rounded `double` to `int`: right for a number in range, the smallest or the largest `int`
for a number out of range. -/
structure ToInt32 (toInt : Int → Int) : Prop where
  inside : ∀ n, Fits32 n → toInt n = n
  outside : ∀ n, ¬ Fits32 n → toInt n = -2147483648 ∨ toInt n = 2147483647

theorem contains_toInt {toInt : Int → Int} (hc : ToInt32 toInt) {d : Extent2I} (sx : d.x ≤ 2147483647) (sy : d.y ≤ 2147483647)
    (p : Point2I) : (⟨⟨0, 0⟩, d⟩ : Box2I).contains ⟨toInt p.x, toInt p.y⟩ = (⟨⟨0, 0⟩, d⟩ : Box2I).contains p ∧
      ((⟨⟨0, 0⟩, d⟩ : Box2I).contains p = true → (⟨toInt p.x, toInt p.y⟩ : Point2I) = p) := by
  have key : ∀ n e : Int, e ≤ 2147483647 → ((0 ≤ toInt n ∧ toInt n < 0 + e) ↔ (0 ≤ n ∧ n < 0 + e)) ∧
      ((0 ≤ n ∧ n < 0 + e) → toInt n = n) := by
    intro n e he
    by_cases hn : Fits32 n
    · rw [hc.inside n hn]; exact ⟨Iff.rfl, fun _ => rfl⟩
    · have h1 := hc.outside n hn
      unfold Fits32 at hn
      constructor
      · constructor
        · rintro ⟨a, b⟩; omega
        · rintro ⟨a, b⟩; omega
      · rintro ⟨a, b⟩; omega
  have kx := key p.x _ sx
  have ky := key p.y _ sy
  constructor
  · rw [Bool.eq_iff_iff, Box2I.contains_iff, Box2I.contains_iff]
    dsimp only
    constructor
    · rintro ⟨h1, h2, h3, h4⟩
      have g1 := kx.1.1 ⟨h1, h2⟩
      have g2 := ky.1.1 ⟨h3, h4⟩
      exact ⟨g1.1, g1.2, g2.1, g2.2⟩
    · rintro ⟨h1, h2, h3, h4⟩
      have g1 := kx.1.2 ⟨h1, h2⟩
      have g2 := ky.1.2 ⟨h3, h4⟩
      exact ⟨g1.1, g1.2, g2.1, g2.2⟩
  · intro h
    rw [Box2I.contains_iff] at h
    obtain ⟨h1, h2, h3, h4⟩ := h
    exact I2.ext' (kx.2 ⟨h1, h2⟩) (ky.2 ⟨h3, h4⟩)

theorem TractInfo.Built.box_zero (B : t.Built b₀ b) : t.bbox = ⟨⟨0, 0⟩, t.bbox.dim⟩ := by
  rw [B.box]
  by_cases hz : t.numPatches.x * b.patchInnerDimensions.x = 0 ∨ t.numPatches.y * b.patchInnerDimensions.y = 0
  · rw [Box2I.mk'_zero _ _ hz]; rfl
  · have h1 := Int.mul_nonneg B.ready.nx B.ready.dx.le
    have h2 := Int.mul_nonneg B.ready.ny B.ready.dy.le
    rw [Box2I.mk'_pos _ _ (by dsimp only; omega) (by dsimp only; omega)]

/-- C76: whatever an out-of-range pixel position is converted to, `contains` gives the right answer for every position on the sky. -/
theorem C76_contains (h : TractInfo.new env ops b₀ a = .ok (t, b)) (hx : 0 < b₀.patchInnerDimensions.x)
    (hy : 0 < b₀.patchInnerDimensions.y) (sx : t.getBBox.getDimensions.x ≤ 2147483647) (sy : t.getBBox.getDimensions.y ≤ 2147483647)
    {toInt : Int → Int} (hc : ToInt32 toInt) (coord : Sky) : t.contains32 toInt coord = t.contains coord := by
  have B := TractInfo.new_built h hx hy
  unfold TractInfo.contains32 TractInfo.contains TractInfo.getBBox
  unfold TractInfo.getBBox Box2I.getDimensions at sx sy
  rw [B.box_zero]
  split <;> simp_all
  exact (contains_toInt hc sx sy _).1

/-- C76: and `findPatch` gives the same patch or the same error, for every position on the sky. -/
theorem C76_findPatch (h : TractInfo.new env ops b₀ a = .ok (t, b)) (hx : 0 < b₀.patchInnerDimensions.x)
    (hy : 0 < b₀.patchInnerDimensions.y) (hb : 0 ≤ b₀.patchBorder)
    (sx : t.getBBox.getDimensions.x + 2 * b₀.patchBorder ≤ 2147483647)
    (sy : t.getBBox.getDimensions.y + 2 * b₀.patchBorder ≤ 2147483647) {toInt : Int → Int} (hc : ToInt32 toInt) (coord : Sky) :
    t.findPatch32 toInt env b coord = t.findPatch env b coord := by
  have B := TractInfo.new_built h hx hy
  have hp := C76_getPatchInfo h hx hy hb sx sy
  unfold TractInfo.findPatch32 TractInfo.findPatch TractInfo.pixelIndex32 TractInfo.pixelIndex
  cases t.wcs.skyToPixel coord with
  | raises => rfl
  | nonfinite => simp only [hp]
  | pix q =>
    unfold TractInfo.getBBox Box2I.getDimensions at sx sy
    obtain ⟨c1, c2⟩ := contains_toInt hc (d := t.bbox.dim) (by omega) (by omega) (toPoint2I q)
    rw [← B.box_zero] at c1 c2
    dsimp only
    rw [c1]
    cases hcon : t.bbox.contains (toPoint2I q) with
    | false => rfl
    | true => simp only [hp, c2 hcon]

/-- C76: `findPatchList`, for positions whose pixels are within `N` of the tract's origin (or have no pixel), where twice `N` and a
border on both sides fit in 32 bits. -/
theorem C76_findPatchList (he : env.Ok) (h : TractInfo.new env ops b₀ a = .ok (t, b)) (hx : 0 < b₀.patchInnerDimensions.x)
    (hy : 0 < b₀.patchInnerDimensions.y) (hb : 0 ≤ b₀.patchBorder)
    (sx : t.getBBox.getDimensions.x + 2 * b₀.patchBorder ≤ 2147483647)
    (sy : t.getBBox.getDimensions.y + 2 * b₀.patchBorder ≤ 2147483647) (coordList : List Sky) {N : Int} (hN : 0 ≤ N)
    (hB : ∀ s ∈ coordList, ∀ q, t.wcs.skyToPixel s = .pix q → |q.x| ≤ (N : K) ∧ |q.y| ≤ (N : K))
    (sN : 2 * N + 2 + 2 * b₀.patchBorder ≤ 2147483647) :
    t.findPatchList32 env b coordList = t.findPatchList env b coordList := by
  have B := TractInfo.new_built h hx hy
  have hp := C76_getPatchInfo h hx hy hb sx sy
  unfold TractInfo.findPatchList32 TractInfo.findPatchList
  have hbox := (coordBox_boxOf he.tweak_gt t.wcs coordList).bounds he hN (by
    intro q hq
    unfold posList at hq
    rw [List.mem_filterMap] at hq
    obtain ⟨c, hc, hq⟩ := hq
    split at hq
    · next p hp => simp only [Option.some.injEq] at hq; subst hq; exact hB _ hc _ hp
    · cases hq)
  have wf := toBox2I_wf (TractInfo.coordBox env.tweak t.wcs coordList)
  generalize (TractInfo.coordBox env.tweak t.wcs coordList).toBox2I = m at hbox wf
  have f1 : m.Fits32 := by unfold Box2I.Fits32 Fits32; omega
  have f2 : (m.grow b.getPatchBorder).Fits32 := by
    unfold TractBuilder.getPatchBorder
    rw [B.border]
    rcases wf with w | w
    · have : m.isEmpty = true := by rw [Box2I.isEmpty_iff]; exact w.1
      unfold Box2I.grow
      rw [if_pos this]; exact f1
    · rw [Box2I.grow_pos _ w.1 w.2 _ hb]
      unfold Box2I.Fits32 Fits32
      dsimp only
      omega
  have f3 : t.bbox.Fits32 := by
    unfold TractInfo.getBBox Box2I.getDimensions at sx sy
    have hz : 0 ≤ t.bbox.dim.x ∧ 0 ≤ t.bbox.dim.y := by
      rw [B.box]
      rcases Box2I.mk'_wf ⟨0, 0⟩ ⟨t.numPatches.x * b.patchInnerDimensions.x, t.numPatches.y * b.patchInnerDimensions.y⟩ with w | w <;> omega
    rw [B.box_zero]
    unfold Box2I.Fits32 Fits32
    dsimp only
    omega
  simp only [bind, Except.bind]
  rw [Box2I.check32_ok f1]
  dsimp only
  rw [Box2I.check32_ok f2]
  dsimp only
  rw [Box2I.check32_ok (Box2I.clip_fits f2 f3)]
  simp only [hp]

theorem check2_iff {p p' : I2} : check2 p = .ok p' ↔ p' = p ∧ Fits32 p.x ∧ Fits32 p.y := by
  unfold check2
  by_cases h : Fits32 p.x ∧ Fits32 p.y
  · rw [if_pos h]; simp [h, eq_comm]
  · rw [if_neg h]; simp [h]

/-- C76: without any assumption on sizes, an overflow is an error and never a wrong box: a tract that is built with 32-bit pixels is the
tract of unbounded integers. -/
theorem C76_new_sound {r : TractInfo Sky K × TractBuilder} (h : TractInfo.new32 env ops b₀ a = .ok r) :
    TractInfo.new env ops b₀ a = .ok r ∧ r.1.getBBox.Fits32 := by
  unfold TractInfo.new32 at h
  obtain ⟨mb, h1, h⟩ := bindOk h
  obtain ⟨s, h2, h⟩ := bindOk h
  obtain ⟨fb, h3, h⟩ := bindOk h
  simp only [pure, Except.pure, Except.ok.injEq] at h
  obtain ⟨rfl, f3⟩ := Box2I.check32_iff.1 h3
  have hs : b₀.setupPatches mb.toBox2I = .ok s := by
    unfold setupPatches32 at h2
    obtain ⟨m, k1, h2⟩ := bindOk h2
    obtain ⟨rfl, -⟩ := Box2I.check32_iff.1 k1
    obtain ⟨ax, k2, h2⟩ := bindOk h2
    obtain ⟨ay, k3, h2⟩ := bindOk h2
    obtain ⟨mn, k4, h2⟩ := bindOk h2
    obtain ⟨rfl, -⟩ := check2_iff.1 k4
    obtain ⟨dm, k5, h2⟩ := bindOk h2
    obtain ⟨rfl, -⟩ := check2_iff.1 k5
    obtain ⟨bb, k6, h2⟩ := bindOk h2
    obtain ⟨rfl, -⟩ := Box2I.check32_iff.1 k6
    obtain ⟨tb, k7, h2⟩ := bindOk h2
    obtain ⟨rfl, -⟩ := Box2I.check32_iff.1 k7
    unfold setupPatches
    rw [k2, k3]
    exact h2
  unfold TractInfo.new
  rw [h1]
  simp only [bind, Except.bind]
  rw [hs, ← h]
  exact ⟨rfl, f3⟩

/-- C76: the same for patches, on a builder in any state. -/
theorem C76_getPatchInfo_sound {index : IndexArg} {pi : PatchInfo (Wcs Sky K)} (h : t.getPatchInfo32 b index = .ok pi) :
    t.getPatchInfo b index = .ok pi ∧ pi.innerBBox.Fits32 ∧ pi.outerBBox.Fits32 := by
  unfold TractInfo.getPatchInfo32 TractBuilder.getPatchInfo32 at h
  unfold TractInfo.getPatchInfo TractBuilder.getPatchInfo
  cases hst : b.state with
  | none => rw [hst] at h; cases h
  | some st =>
    rw [hst] at h
    dsimp only at h ⊢
    obtain ⟨i, h1, h⟩ := bindOk h
    rw [h1]
    simp only [bind, Except.bind]
    split at h
    · cases h
    · next hr =>
      rw [if_neg hr]
      obtain ⟨mn, k4, h⟩ := bindOk h
      obtain ⟨rfl, -⟩ := check2_iff.1 k4
      obtain ⟨dm, k5, h⟩ := bindOk h
      obtain ⟨rfl, -⟩ := check2_iff.1 k5
      obtain ⟨bb, k6, h⟩ := bindOk h
      obtain ⟨rfl, f1⟩ := Box2I.check32_iff.1 k6
      have hin : Box2I.mk' ⟨i.x * b.patchInnerDimensions.x, i.y * b.patchInnerDimensions.y⟩ b.patchInnerDimensions = b.patchInnerBBox i := rfl
      rw [hin] at h f1
      split at h
      · cases h
      · next hc =>
        rw [if_neg hc]
        obtain ⟨og, k7, h⟩ := bindOk h
        obtain ⟨rfl, f2⟩ := Box2I.check32_iff.1 k7
        obtain ⟨sq, k8, h⟩ := bindOk h
        rw [k8]
        dsimp only
        have inv : ∀ (outer : Box2I) (cd : List Int) (cb per nb : Int),
            PatchInfo.new i (b.patchInnerBBox i) outer sq t.wcs cd cb per nb = .ok pi → pi.innerBBox = b.patchInnerBBox i ∧ pi.outerBBox = outer := by
          intro outer cd cb per nb hp
          unfold PatchInfo.new at hp
          split at hp
          · cases hp
          · split at hp
            · simp only [Except.ok.injEq] at hp; rw [← hp]; exact ⟨rfl, rfl⟩
            · cases hp
        cases hk : b.kind with
        | legacy =>
          rw [hk] at h
          dsimp only at h ⊢
          obtain ⟨oc, k9, h⟩ := bindOk h
          obtain ⟨rfl, f3⟩ := Box2I.check32_iff.1 k9
          obtain ⟨e1, e2⟩ := inv _ _ _ _ _ h
          exact ⟨h, by rw [e1]; exact f1, by rw [e2]; exact f3⟩
        | cells c =>
          rw [hk] at h
          dsimp only at h ⊢
          obtain ⟨e1, e2⟩ := inv _ _ _ _ _ h
          exact ⟨h, by rw [e1]; exact f1, by rw [e2]; exact f2⟩

/-- C76: and for cells. -/
theorem C76_getCellInfo_sound {W : Type} {p : PatchInfo W} {index : IndexArg} {c : CellInfo W} (h : p.getCellInfo32 index = .ok c) :
    p.getCellInfo index = .ok c ∧ c.innerBBox.Fits32 ∧ c.outerBBox.Fits32 := by
  unfold PatchInfo.getCellInfo32 at h
  unfold PatchInfo.getCellInfo
  split at h
  · cases h
  · next hz =>
    rw [if_neg hz]
    obtain ⟨i, h1, h⟩ := bindOk h
    rw [h1]
    simp only [bind, Except.bind]
    split at h
    · cases h
    · next hr =>
      rw [if_neg hr]
      obtain ⟨mn, k4, h⟩ := bindOk h
      obtain ⟨rfl, -⟩ := check2_iff.1 k4
      obtain ⟨dm, k5, h⟩ := bindOk h
      obtain ⟨rfl, -⟩ := check2_iff.1 k5
      obtain ⟨bb, k6, h⟩ := bindOk h
      obtain ⟨rfl, f1⟩ := Box2I.check32_iff.1 k6
      obtain ⟨og, k7, h⟩ := bindOk h
      obtain ⟨rfl, f2⟩ := Box2I.check32_iff.1 k7
      refine ⟨h, ?_⟩
      unfold CellInfo.new at h
      split at h
      · cases h
      · simp only [Except.ok.injEq] at h
        rw [← h]
        exact ⟨f1, f2⟩

/-- C76: and for lists of patches. -/
theorem C76_findPatchList_sound {coordList : List Sky} {l : List (PatchInfo (Wcs Sky K))} (h : t.findPatchList32 env b coordList = .ok l) :
    t.findPatchList env b coordList = .ok l := by
  unfold TractInfo.findPatchList32 at h
  obtain ⟨b1, k1, h⟩ := bindOk h
  obtain ⟨rfl, -⟩ := Box2I.check32_iff.1 k1
  obtain ⟨b2, k2, h⟩ := bindOk h
  obtain ⟨rfl, -⟩ := Box2I.check32_iff.1 k2
  obtain ⟨b3, k3, h⟩ := bindOk h
  obtain ⟨rfl, -⟩ := Box2I.check32_iff.1 k3
  unfold TractInfo.findPatchList
  dsimp only
  split at h
  · next hz => rw [if_pos hz]; exact h
  · next hz =>
    rw [if_neg hz]
    obtain ⟨ll, k4, h⟩ := bindOk h
    obtain ⟨ur, k5, h⟩ := bindOk h
    rw [k4]
    simp only [bind, Except.bind]
    rw [k5]
    dsimp only
    rw [pyMapM_ok_iff] at h ⊢
    exact h.imp fun _ _ hp => (C76_getPatchInfo_sound hp).1

/-! ## The hypotheses are met, and the checks are not idle -/

/-- The tract of 3 by 4 patches of Spec/Example.lean: every patch lookup and every search is the same with 32-bit pixels. -/
example : ∃ t b, TractInfo.new32 Ex.env Ex.ops Ex.legacy Ex.args = .ok (t, b) ∧ t.numPatches = ⟨3, 4⟩ ∧
    (∀ index, t.getPatchInfo32 b index = t.getPatchInfo b index) ∧
    ∀ c, t.findPatch32 (fun n => if Fits32 n then n else -2147483648) Ex.env b c = t.findPatch Ex.env b c := by
  obtain ⟨t, b, h, hx, hy, hb, hn, hbox⟩ := Ex.legacy_hyps
  have hB : ∀ s ∈ samplePoints Ex.ops Ex.args, ∀ q, Ex.args.wcs.skyToPixel s = .pix q → |q.x| ≤ ((1000 : ℤ) : ℚ) ∧ |q.y| ≤ ((1000 : ℤ) : ℚ) := by
    intro s _ q hq
    change (if |s.x| > 1000 then PixRes.raises else if |s.y| > 1000 then .nonfinite else .pix s) = _ at hq
    split at hq
    · cases hq
    · split at hq
      · cases hq
      · next h1 h2 =>
        rw [PixRes.pix.injEq] at hq
        subst hq
        push_cast
        exact ⟨not_lt.1 h1, not_lt.1 h2⟩
  have hnew := C76_new Ex.env_ok hx hy (by norm_num) hB (by decide) (by decide)
  have sx : t.getBBox.getDimensions.x + 2 * Ex.legacy.patchBorder ≤ 2147483647 := by unfold TractInfo.getBBox; rw [hbox]; decide
  have sy : t.getBBox.getDimensions.y + 2 * Ex.legacy.patchBorder ≤ 2147483647 := by unfold TractInfo.getBBox; rw [hbox]; decide
  refine ⟨t, b, hnew.trans h, hn, C76_getPatchInfo h hx hy hb sx sy, C76_findPatch h hx hy hb sx sy ⟨?_, ?_⟩⟩
  · intro n h; rw [if_pos h]
  · intro n h; rw [if_neg h]; exact .inl rfl

/-- With a border of 2³¹ pixels the tract is still built, but no patch can be looked up. -/
example : (TractInfo.new32 Ex.env Ex.ops ⟨.legacy, ⟨4, 3⟩, 2147483648, none⟩ Ex.args).bind
    (fun r => (r.1.getPatchInfo32 r.2 (.index2D ⟨0, 0⟩)).map fun p => p.outerBBox) = .error .OverflowError := by
  decide +kernel

/-- With patches of 2³¹ pixels the tract cannot be built. -/
example : (TractInfo.new32 Ex.env Ex.ops ⟨.legacy, ⟨2147483648, 3⟩, 2, none⟩ Ex.args).map (fun r => r.1.bbox) = .error .OverflowError := by
  decide +kernel

end Skymap
