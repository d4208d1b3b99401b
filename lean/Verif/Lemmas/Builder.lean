import Verif.Lemmas.Box

/-! # Lemmas about tract builders -/

namespace Skymap
namespace TractBuilder

/-- A builder just after `setupPatches`, with positive patch dimensions. -/
structure Ready (b : TractBuilder) (n : Index2D) : Prop where
  dx : 0 < b.patchInnerDimensions.x
  dy : 0 < b.patchInnerDimensions.y
  nx : 0 ≤ n.x
  ny : 0 ≤ n.y
  st : b.state = some ⟨n, Box2I.mk' ⟨0, 0⟩ ⟨n.x * b.patchInnerDimensions.x, n.y * b.patchInnerDimensions.y⟩⟩

/-- `ceil(dim / inner)`. -/
def ceilNum (dim inner : Int) : Int := (dim + inner - 1) / inner

theorem ceilNum_spec (dim inner : Int) (h : 0 < inner) :
    dim ≤ inner * ceilNum dim inner ∧ inner * ceilNum dim inner < dim + inner := by
  unfold ceilNum
  have h1 := Int.mul_ediv_add_emod (dim + inner - 1) inner
  have h2 := Int.emod_nonneg (dim + inner - 1) (by omega : inner ≠ 0)
  have h3 := Int.emod_lt_of_pos (dim + inner - 1) h
  omega

theorem ceilNum_min (dim inner k : Int) (h : 0 < inner) (hk : dim ≤ k * inner) : ceilNum dim inner ≤ k := by
  unfold ceilNum
  rw [← Int.lt_add_one_iff, Int.ediv_lt_iff_lt_mul h]
  have : (k + 1) * inner = k * inner + inner := by ring
  omega

theorem ceilNum_nonneg (dim inner : Int) (h : 0 < inner) (hd : 0 ≤ dim) : 0 ≤ ceilNum dim inner := by
  unfold ceilNum
  exact Int.ediv_nonneg (by omega) (by omega)

theorem setupAxis_pos (m d inner : Int) (h : 0 < inner) :
    setupAxis m d inner =
      .ok (m - (inner * ceilNum d inner - d) / 2, inner * ceilNum d inner, ceilNum d inner) := by
  have hs := ceilNum_spec d inner h
  have hi : inner ≠ 0 := by omega
  unfold setupAxis pyFloorDiv
  rw [if_neg hi, Int.fdiv_eq_ediv_of_nonneg _ (by omega)]
  change (if inner * ceilNum d inner - d > 0 then _ else _) = _
  by_cases hc : inner * ceilNum d inner - d > 0
  · rw [if_pos hc]
    simp only [bind, Except.bind, pure, Except.pure]
    rw [if_neg (by decide), Int.fdiv_eq_ediv_of_nonneg _ (by omega)]
    rfl
  · rw [if_neg hc]
    have he : inner * ceilNum d inner = d := by omega
    rw [he]
    simp [pure, Except.pure, ceilNum]

theorem setupAxis_zero (m d : Int) : setupAxis m d 0 = .error .ZeroDivisionError := by
  simp [setupAxis, pyFloorDiv, bind, Except.bind]

/-- One axis of the final box. -/
def newMin (m d inner : Int) : Int := m - (inner * ceilNum d inner - d) / 2

theorem setupPatches_pos (b : TractBuilder) (m : Box2I) (hm : m.WF)
    (hx : 0 < b.patchInnerDimensions.x) (hy : 0 < b.patchInnerDimensions.y) :
    ∃ bbox n, b.setupPatches m = .ok (bbox, n, { b with state := some ⟨n, Box2I.mk' ⟨0, 0⟩
          ⟨n.x * b.patchInnerDimensions.x, n.y * b.patchInnerDimensions.y⟩⟩ }) ∧
      n = ⟨ceilNum m.dim.x b.patchInnerDimensions.x, ceilNum m.dim.y b.patchInnerDimensions.y⟩ ∧
      bbox = Box2I.mk' ⟨newMin m.min.x m.dim.x b.patchInnerDimensions.x,
          newMin m.min.y m.dim.y b.patchInnerDimensions.y⟩
        ⟨n.x * b.patchInnerDimensions.x, n.y * b.patchInnerDimensions.y⟩ ∧
      bbox.dim = ⟨n.x * b.patchInnerDimensions.x, n.y * b.patchInnerDimensions.y⟩ := by
  have sx := ceilNum_spec m.dim.x b.patchInnerDimensions.x hx
  have sy := ceilNum_spec m.dim.y b.patchInnerDimensions.y hy
  have hd : ∀ c : Point2I, (Box2I.mk' c ⟨b.patchInnerDimensions.x * ceilNum m.dim.x b.patchInnerDimensions.x,
      b.patchInnerDimensions.y * ceilNum m.dim.y b.patchInnerDimensions.y⟩).dim =
      ⟨b.patchInnerDimensions.x * ceilNum m.dim.x b.patchInnerDimensions.x,
        b.patchInnerDimensions.y * ceilNum m.dim.y b.patchInnerDimensions.y⟩ := by
    intro c
    rcases hm with ⟨h1, h2⟩ | ⟨h1, h2⟩
    · have e1 : b.patchInnerDimensions.x * ceilNum m.dim.x b.patchInnerDimensions.x = 0 := by
        rw [h1, ceilNum, Int.ediv_eq_zero_of_lt (by omega) (by omega)]; simp
      have e2 : b.patchInnerDimensions.y * ceilNum m.dim.y b.patchInnerDimensions.y = 0 := by
        rw [h2, ceilNum, Int.ediv_eq_zero_of_lt (by omega) (by omega)]; simp
      rw [Box2I.mk'_zero _ _ (Or.inl e1), e1, e2]
      rfl
    · rw [Box2I.mk'_pos _ _ (by dsimp only; omega) (by dsimp only; omega)]
  refine ⟨_, ⟨ceilNum m.dim.x b.patchInnerDimensions.x, ceilNum m.dim.y b.patchInnerDimensions.y⟩,
    ?_, rfl, rfl, ?_⟩
  · unfold setupPatches
    rw [setupAxis_pos _ _ _ hx, setupAxis_pos _ _ _ hy]
    simp only [bind, Except.bind, pure, Except.pure, Box2I.getMin, Box2I.getDimensions]
    rw [hd, mul_comm _ b.patchInnerDimensions.x, mul_comm _ b.patchInnerDimensions.y]
    rfl
  · dsimp only
    rw [mul_comm _ b.patchInnerDimensions.x, mul_comm _ b.patchInnerDimensions.y, hd]

theorem setupPatches_ready (b : TractBuilder) (m : Box2I) (hm : m.WF)
    (hx : 0 < b.patchInnerDimensions.x) (hy : 0 < b.patchInnerDimensions.y)
    {bbox : Box2I} {n : Index2D} {b' : TractBuilder} (h : b.setupPatches m = .ok (bbox, n, b')) :
    b'.Ready n ∧ b'.patchInnerDimensions = b.patchInnerDimensions ∧ b'.patchBorder = b.patchBorder ∧
      b'.kind = b.kind := by
  obtain ⟨bb, nn, h1, h2, h3, h4⟩ := setupPatches_pos b m hm hx hy
  rw [h1] at h
  simp only [Except.ok.injEq, Prod.mk.injEq] at h
  obtain ⟨rfl, rfl, rfl⟩ := h
  have wn : 0 ≤ m.dim.x ∧ 0 ≤ m.dim.y := by rcases hm with h | h <;> omega
  refine ⟨⟨hx, hy, ?_, ?_, rfl⟩, rfl, rfl, rfl⟩
  · rw [h2]; exact ceilNum_nonneg _ _ hx wn.1
  · rw [h2]; exact ceilNum_nonneg _ _ hy wn.2

/-- The value `getPatchInfo` returns for an index in range. -/
def patchVal {W : Type} (b : TractBuilder) (n i : Index2D) (w : W) : PatchInfo W :=
  let inner := b.patchInnerBBox i
  match b.kind with
  | .legacy =>
    { index := i, sequentialIndex := n.x * i.y + i.x, innerBBox := inner
      outerBBox := (inner.grow b.patchBorder).clip
        (Box2I.mk' ⟨0, 0⟩ ⟨n.x * b.patchInnerDimensions.x, n.y * b.patchInnerDimensions.y⟩)
      wcs := w, cellInnerDimensions := ⟨0, 0⟩, cellBorder := 0, numCellsInPatchBorder := 0
      numCells := ⟨0, 0⟩ }
  | .cells c =>
    { index := i, sequentialIndex := n.x * i.y + i.x, innerBBox := inner
      outerBBox := inner.grow b.patchBorder
      wcs := w, cellInnerDimensions := c.cellInnerDimensions, cellBorder := c.cellBorder
      numCellsInPatchBorder := c.numCellsInPatchBorder
      numCells := if c.numCellsPerPatchInner = 0 then ⟨0, 0⟩
        else ⟨c.numCellsPerPatchInner + 2 * c.numCellsInPatchBorder,
              c.numCellsPerPatchInner + 2 * c.numCellsInPatchBorder⟩ }

variable {W : Type}

@[simp] theorem patchVal_index (b : TractBuilder) (n i : Index2D) (w : W) : (b.patchVal n i w).index = i := by
  unfold patchVal; dsimp only; split <;> rfl
@[simp] theorem patchVal_seq (b : TractBuilder) (n i : Index2D) (w : W) :
    (b.patchVal n i w).sequentialIndex = n.x * i.y + i.x := by
  unfold patchVal; dsimp only; split <;> rfl
@[simp] theorem patchVal_inner (b : TractBuilder) (n i : Index2D) (w : W) :
    (b.patchVal n i w).innerBBox = b.patchInnerBBox i := by
  unfold patchVal; dsimp only; split <;> rfl
@[simp] theorem patchVal_wcs (b : TractBuilder) (n i : Index2D) (w : W) : (b.patchVal n i w).wcs = w := by
  unfold patchVal; dsimp only; split <;> rfl

theorem patchInnerBBox_eq {b : TractBuilder} (hx : 0 < b.patchInnerDimensions.x)
    (hy : 0 < b.patchInnerDimensions.y) (i : Index2D) : b.patchInnerBBox i =
      ⟨⟨i.x * b.patchInnerDimensions.x, i.y * b.patchInnerDimensions.y⟩, b.patchInnerDimensions⟩ :=
  Box2I.mk'_pos _ _ hx hy

theorem Ready.tractBox {b : TractBuilder} {n : Index2D} (h : b.Ready n) (hx : 0 < n.x) (hy : 0 < n.y) :
    Box2I.mk' ⟨0, 0⟩ ⟨n.x * b.patchInnerDimensions.x, n.y * b.patchInnerDimensions.y⟩ =
      ⟨⟨0, 0⟩, ⟨n.x * b.patchInnerDimensions.x, n.y * b.patchInnerDimensions.y⟩⟩ :=
  Box2I.mk'_pos _ _ (mul_pos hx h.dx) (mul_pos hy h.dy)

/-- Pixels of the tract box. -/
theorem Ready.contains_tract {b : TractBuilder} {n : Index2D} (h : b.Ready n) (p : Point2I) :
    (Box2I.mk' ⟨0, 0⟩ ⟨n.x * b.patchInnerDimensions.x, n.y * b.patchInnerDimensions.y⟩).contains p = true ↔
      0 ≤ p.x ∧ p.x < n.x * b.patchInnerDimensions.x ∧ 0 ≤ p.y ∧ p.y < n.y * b.patchInnerDimensions.y := by
  by_cases hn : n.x = 0 ∨ n.y = 0
  · have : n.x * b.patchInnerDimensions.x = 0 ∨ n.y * b.patchInnerDimensions.y = 0 := by
      rcases hn with hn | hn <;> simp [hn]
    rw [Box2I.mk'_zero _ _ this, Box2I.contains_iff]
    simp only [Box2I.empty]
    omega
  · have h1 := h.nx; have h2 := h.ny
    rw [h.tractBox (by omega) (by omega), Box2I.contains_iff]
    simp

theorem mul_range {d n k p : Int} (hd : 0 < d) (hk0 : 0 ≤ k) (hk : k < n) (h1 : k * d ≤ p) (h2 : p < k * d + d) :
    0 ≤ p ∧ p < n * d := by
  have : (k + 1) * d ≤ n * d := Int.mul_le_mul_of_nonneg_right (by omega) (by omega)
  have : (k + 1) * d = k * d + d := by ring
  have : 0 ≤ k * d := Int.mul_nonneg hk0 (by omega)
  omega

theorem Ready.inner_sub {b : TractBuilder} {n : Index2D} (h : b.Ready n) {i : Index2D} (hi : InRange n i)
    {p : Point2I} (hp : (b.patchInnerBBox i).contains p = true) :
    (Box2I.mk' ⟨0, 0⟩ ⟨n.x * b.patchInnerDimensions.x, n.y * b.patchInnerDimensions.y⟩).contains p = true := by
  rw [h.contains_tract]
  rw [patchInnerBBox_eq h.dx h.dy, Box2I.contains_iff] at hp
  obtain ⟨a1, a2, a3, a4⟩ := hi
  have := mul_range h.dx a1 a2 hp.1 hp.2.1
  have := mul_range h.dy a3 a4 hp.2.2.1 hp.2.2.2
  omega

theorem patchInnerBBox_wf (b : TractBuilder) (i : Index2D) : (b.patchInnerBBox i).WF := Box2I.mk'_wf _ _

theorem Ready.inner_containsBox {b : TractBuilder} {n : Index2D} (h : b.Ready n) {i : Index2D} (hi : InRange n i) :
    (Box2I.mk' ⟨0, 0⟩ ⟨n.x * b.patchInnerDimensions.x, n.y * b.patchInnerDimensions.y⟩).containsBox
      (b.patchInnerBBox i) = true :=
  Box2I.containsBox_of _ _ (patchInnerBBox_wf b i) fun _ hp => h.inner_sub hi hp

theorem near_self (b : Box2I) (r : Int) (hr : 0 ≤ r) (p : Point2I) (hp : b.contains p = true) : b.Near r p :=
  ⟨p, hp, by simpa, by simpa⟩

theorem Ready.patchVal_outer_contains {b : TractBuilder} {n : Index2D} (h : b.Ready n)
    (hb : 0 ≤ b.patchBorder) {i : Index2D} (hi : InRange n i) (w : W) :
    (b.patchVal n i w).outerBBox.containsBox (b.patchInnerBBox i) = true := by
  apply Box2I.containsBox_of _ _ (patchInnerBBox_wf b i)
  intro p hp
  unfold patchVal
  dsimp only
  have hg : ((b.patchInnerBBox i).grow b.patchBorder).contains p = true := by
    rw [Box2I.contains_grow _ (patchInnerBBox_wf b i) _ hb]
    exact near_self _ _ hb _ hp
  split
  · dsimp only
    rw [Box2I.contains_clip]
    exact ⟨hg, h.inner_sub hi hp⟩
  · exact hg

/-- `getPatchInfo` in range, on an `Index2D`. -/
theorem Ready.getPatchInfo_ok {b : TractBuilder} {n : Index2D} (h : b.Ready n)
    (hb : 0 ≤ b.patchBorder) {i : Index2D} (hi : InRange n i) (w : W) :
    b.getPatchInfo (.index2D i) w = .ok (b.patchVal n i w) := by
  have hc := h.inner_containsBox hi
  have ho := h.patchVal_outer_contains hb hi w
  unfold getPatchInfo
  rw [h.st]
  have hr : ¬ (¬ (0 ≤ i.x ∧ i.x < n.x) ∨ ¬ (0 ≤ i.y ∧ i.y < n.y)) := by
    unfold InRange at hi; omega
  simp only [resolve, bind, Except.bind]
  rw [if_neg hr]
  simp only [hc, Bool.not_true, Bool.false_eq_true, if_false, getSequentialPatchIndexFromPair, getState, h.st,
    bind, Except.bind, pure, Except.pure]
  unfold patchVal at ho ⊢
  cases hk : b.kind with
  | legacy =>
    rw [hk] at ho
    dsimp only at ho ⊢
    simp [PatchInfo.new, getPatchBorder, ho]
  | cells c =>
    rw [hk] at ho
    dsimp only at ho ⊢
    simp [PatchInfo.new, getPatchBorder, ho]

/-- `getPatchInfo` out of range. -/
theorem Ready.getPatchInfo_err {b : TractBuilder} {n : Index2D} (h : b.Ready n)
    {i : Index2D} (hi : ¬ InRange n i) (w : W) :
    b.getPatchInfo (.index2D i) w = .error .IndexError := by
  unfold getPatchInfo
  rw [h.st]
  have hr : (¬ (0 ≤ i.x ∧ i.x < n.x) ∨ ¬ (0 ≤ i.y ∧ i.y < n.y)) := by
    unfold InRange at hi; omega
  simp only [resolve, bind, Except.bind]
  rw [if_pos hr]
  rfl

theorem Ready.getPatchInfo_iff {b : TractBuilder} {n : Index2D} (h : b.Ready n)
    (hb : 0 ≤ b.patchBorder) (i : Index2D) (w : W) (pi : PatchInfo W) :
    b.getPatchInfo (.index2D i) w = .ok pi ↔ InRange n i ∧ pi = b.patchVal n i w := by
  by_cases hi : InRange n i
  · rw [h.getPatchInfo_ok hb hi]
    simp only [Except.ok.injEq, hi, true_and]
    exact eq_comm
  · rw [h.getPatchInfo_err hi]
    simp [hi]

theorem getPatchInfo_seq2 (b : TractBuilder) (x y : Int) (w : W) :
    b.getPatchInfo (.seq [x, y]) w = b.getPatchInfo (.index2D ⟨x, y⟩) w := by
  unfold getPatchInfo resolve Index2D.ofSeq
  rfl

end TractBuilder
end Skymap
