import Verif.Lemmas.Tract

/-! # Patches made by the cells builder, and their cells -/

namespace Skymap
open TractBuilder
variable {W : Type}

/-- A patch divided into cells, with sensible parameters: `per` cells of `c` pixels inside, `nb` border
cells on each side, cell border `cb`. -/
structure CellPatch (p : PatchInfo W) (c : Extent2I) (per nb cb : Int) : Prop where
  cx : 0 < c.x
  cy : 0 < c.y
  perPos : 0 < per
  nbNonneg : 0 ≤ nb
  cbNonneg : 0 ≤ cb
  dims : p.cellInnerDimensions = c
  border : p.cellBorder = cb
  nbord : p.numCellsInPatchBorder = nb
  num : p.numCells = ⟨per + 2 * nb, per + 2 * nb⟩
  inner : p.innerBBox.dim = ⟨c.x * per, c.y * per⟩

/-- Inner box of a cell. -/
def cellBox (p : PatchInfo W) (c : Extent2I) (nb : Int) (j : Index2D) : Box2I :=
  ⟨⟨(j.x - nb) * c.x + p.innerBBox.min.x, (j.y - nb) * c.y + p.innerBBox.min.y⟩, c⟩

/-- Outer box of a cell. -/
def cellOuter (p : PatchInfo W) (c : Extent2I) (nb cb : Int) (j : Index2D) : Box2I :=
  ⟨⟨(j.x - nb) * c.x + p.innerBBox.min.x - cb, (j.y - nb) * c.y + p.innerBBox.min.y - cb⟩,
    ⟨c.x + 2 * cb, c.y + 2 * cb⟩⟩

def cellVal (p : PatchInfo W) (c : Extent2I) (nb cb : Int) (j : Index2D) : CellInfo W :=
  ⟨j, p.numCells.x * j.y + j.x, cellBox p c nb j, cellOuter p c nb cb j, p.wcs⟩

variable {p : PatchInfo W} {c : Extent2I} {per nb cb : Int}

theorem CellPatch.cellInnerBBox_eq (h : CellPatch p c per nb cb) (j : Index2D) :
    p.cellInnerBBox j = cellBox p c nb j := by
  unfold PatchInfo.cellInnerBBox cellBox
  rw [h.dims, h.nbord, Box2I.mk'_pos _ _ h.cx h.cy]
  rfl

theorem CellPatch.grow_eq (h : CellPatch p c per nb cb) (j : Index2D) :
    (cellBox p c nb j).grow cb = cellOuter p c nb cb j :=
  Box2I.grow_pos _ h.cx h.cy _ h.cbNonneg

theorem CellPatch.getCellInfo_ok (h : CellPatch p c per nb cb) {j : Index2D} (hj : InRange p.numCells j) :
    p.getCellInfo (.index2D j) = .ok (cellVal p c nb cb j) := by
  unfold PatchInfo.getCellInfo
  have hn : ¬ (p.numCells.x = 0 ∨ p.numCells.y = 0) := by unfold InRange at hj; omega
  have hr : ¬ (¬ (0 ≤ j.x ∧ j.x < p.numCells.x) ∨ ¬ (0 ≤ j.y ∧ j.y < p.numCells.y)) := by
    unfold InRange at hj; omega
  rw [if_neg hn]
  simp only [PatchInfo.resolveCell, bind, Except.bind]
  rw [if_neg hr, h.cellInnerBBox_eq, h.border, h.grow_eq]
  unfold CellInfo.new
  have hc : (cellOuter p c nb cb j).containsBox (cellBox p c nb j) = true := by
    apply Box2I.containsBox_of
    · exact Or.inr ⟨h.cx, h.cy⟩
    · intro q hq
      rw [Box2I.contains_iff] at *
      simp only [cellBox, cellOuter] at *
      have := h.cbNonneg
      omega
  rw [hc]
  rfl

theorem getCellInfo_err {j : Index2D} (hj : ¬ InRange p.numCells j) :
    p.getCellInfo (.index2D j) = .error .IndexError := by
  unfold PatchInfo.getCellInfo
  split
  · rfl
  · have hr : (¬ (0 ≤ j.x ∧ j.x < p.numCells.x) ∨ ¬ (0 ≤ j.y ∧ j.y < p.numCells.y)) := by
      unfold InRange at hj; omega
    simp only [PatchInfo.resolveCell, bind, Except.bind]
    rw [if_pos hr]

theorem CellPatch.getCellInfo_iff (h : CellPatch p c per nb cb) (j : Index2D) (ci : CellInfo W) :
    p.getCellInfo (.index2D j) = .ok ci ↔ InRange p.numCells j ∧ ci = cellVal p c nb cb j := by
  by_cases hj : InRange p.numCells j
  · rw [h.getCellInfo_ok hj]
    simp only [Except.ok.injEq, hj, true_and]
    exact eq_comm
  · rw [getCellInfo_err hj]
    simp [hj]

theorem getCellInfo_seq2 (p : PatchInfo W) (x y : Int) :
    p.getCellInfo (.seq [x, y]) = p.getCellInfo (.index2D ⟨x, y⟩) := rfl

theorem CellPatch.numPos (h : CellPatch p c per nb cb) : 0 < p.numCells.x ∧ 0 < p.numCells.y := by
  rw [h.num]; have := h.perPos; have := h.nbNonneg; dsimp only; omega

theorem CellPatch.getCellInfo_number (h : CellPatch p c per nb cb) (s : Int) :
    p.getCellInfo (.number s) = p.getCellInfo (.index2D ⟨s % p.numCells.x, s / p.numCells.x⟩) := by
  have hn := h.numPos
  have h0 : ¬ (p.numCells.x = 0 ∨ p.numCells.y = 0) := by omega
  unfold PatchInfo.getCellInfo PatchInfo.resolveCell PatchInfo.getCellIndexPair
  simp only [h0, if_false, pyMod_pos hn.1, pyFloorDiv_pos hn.1, bind, Except.bind, pure, Except.pure]

/-- Position of a pixel in a regular grid with an offset. -/
theorem grid_cell {d o x k : Int} (hd : 0 < d) : (k * d + o ≤ x ∧ x < k * d + o + d) ↔ k = (x - o) / d := by
  rw [eq_comm, Int.ediv_eq_iff_of_pos hd]
  omega

theorem CellPatch.contains_cell (h : CellPatch p c per nb cb) (j : Index2D) (q : Point2I) :
    (cellBox p c nb j).contains q = true ↔
      j = ⟨(q.x - p.innerBBox.min.x) / c.x + nb, (q.y - p.innerBBox.min.y) / c.y + nb⟩ := by
  rw [Box2I.contains_iff]
  have g1 := grid_cell (d := c.x) (o := p.innerBBox.min.x) (x := q.x) (k := j.x - nb) h.cx
  have g2 := grid_cell (d := c.y) (o := p.innerBBox.min.y) (x := q.y) (k := j.y - nb) h.cy
  simp only [cellBox]
  constructor
  · rintro ⟨h1, h2, h3, h4⟩
    have e1 := g1.1 ⟨h1, h2⟩
    have e2 := g2.1 ⟨h3, h4⟩
    apply I2.ext' <;> dsimp only <;> omega
  · rintro rfl
    dsimp only at g1 g2 ⊢
    have e1 := g1.2 (by omega)
    have e2 := g2.2 (by omega)
    exact ⟨e1.1, e1.2, e2.1, e2.2⟩

/-- Patches from a cells builder are cell patches. -/
theorem cellPatch_of_built {b₀ b : TractBuilder} {Sky K : Type} {t : TractInfo Sky K}
    {cfg : CellTractBuilderConfig} {cx cy : Int} (hc : cfg.cellInnerDimensions = [cx, cy])
    (hnew : CellTractBuilder.new cfg = .ok b₀) (B : t.Built b₀ b)
    (hcx : 0 < cx) (hcy : 0 < cy) (hper : 0 < cfg.numCellsPerPatchInner) (hnb : 0 ≤ cfg.numCellsInPatchBorder)
    (hcb : 0 ≤ cfg.cellBorder) {i : Index2D} {w : Wcs Sky K} {pi : PatchInfo (Wcs Sky K)}
    (hi : b.getPatchInfo (.index2D i) w = .ok pi) :
    CellPatch pi ⟨cx, cy⟩ cfg.numCellsPerPatchInner cfg.numCellsInPatchBorder cfg.cellBorder ∧
      pi.innerBBox.min = ⟨i.x * (cx * cfg.numCellsPerPatchInner), i.y * (cy * cfg.numCellsPerPatchInner)⟩ ∧
      pi.outerBBox = pi.innerBBox.grow (cfg.numCellsInPatchBorder * cx + cfg.cellBorder) ∧
      InRange t.numPatches i ∧ pi.index = i := by
  unfold CellTractBuilder.new at hnew
  rw [hc] at hnew
  simp only [Except.ok.injEq] at hnew
  have hb : 0 ≤ b.patchBorder := by
    rw [B.border, ← hnew]
    have := Int.mul_nonneg hnb hcx.le
    dsimp only; omega
  obtain ⟨hr, rfl⟩ := (B.ready.getPatchInfo_iff hb _ w _).1 hi
  have hin : (b.patchVal t.numPatches i w).innerBBox =
      ⟨⟨i.x * (cx * cfg.numCellsPerPatchInner), i.y * (cy * cfg.numCellsPerPatchInner)⟩,
        ⟨cx * cfg.numCellsPerPatchInner, cy * cfg.numCellsPerPatchInner⟩⟩ := by
    rw [patchVal_inner, patchInnerBBox_eq B.ready.dx B.ready.dy, B.dims, ← hnew]
  have hk : b.kind = .cells ⟨⟨cx, cy⟩, cfg.cellBorder, cfg.numCellsPerPatchInner, cfg.numCellsInPatchBorder⟩ := by
    rw [B.kind, ← hnew]
  have hbd : b.patchBorder = cfg.numCellsInPatchBorder * cx + cfg.cellBorder := by rw [B.border, ← hnew]
  have hne : cfg.numCellsPerPatchInner ≠ 0 := by omega
  refine ⟨⟨hcx, hcy, hper, hnb, hcb, ?_, ?_, ?_, ?_, by rw [hin]⟩, by rw [hin], ?_, hr, patchVal_index _ _ _ _⟩
  · simp only [patchVal, hk]
  · simp only [patchVal, hk]
  · simp only [patchVal, hk]
  · simp only [patchVal, hk, hne, if_false]
  · rw [← hbd]; simp only [patchVal, hk]

end Skymap
