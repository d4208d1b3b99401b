import Verif.Lemmas.Cells
import Verif.Spec.Cells
import Verif.Spec.Example

/-! # C14 - C17: cells of a patch -/

set_option linter.unusedSectionVars false

namespace Skymap
open TractBuilder

variable {Sky K : Type} [Field K] [LinearOrder K] [FloorRing K]
variable {env : FloatEnv K} {ops : SkyOps Sky K} {b₀ b : TractBuilder} {a : TractArgs Sky K} {t : TractInfo Sky K}
variable {cfg : CellTractBuilderConfig} {cx cy : Int}

/-- What the lookups of a patch of a cells tract look like. -/
theorem cellPatch_of_new (hs : cfg.Sane cx cy) (hnew : CellTractBuilder.new cfg = .ok b₀)
    (h : TractInfo.new env ops b₀ a = .ok (t, b)) {i : Index2D} {pi : PatchInfo (Wcs Sky K)}
    (hi : t.getPatchInfo b (.index2D i) = .ok pi) :
    CellPatch pi ⟨cx, cy⟩ cfg.numCellsPerPatchInner cfg.numCellsInPatchBorder cfg.cellBorder ∧
      pi.innerBBox.min = ⟨i.x * (cx * cfg.numCellsPerPatchInner), i.y * (cy * cfg.numCellsPerPatchInner)⟩ ∧
      pi.outerBBox = pi.innerBBox.grow (cfg.numCellsInPatchBorder * cx + cfg.cellBorder) ∧
      InRange t.numPatches i ∧ pi.index = i := by
  have hd : b₀.patchInnerDimensions = ⟨cx * cfg.numCellsPerPatchInner, cy * cfg.numCellsPerPatchInner⟩ := by
    unfold CellTractBuilder.new at hnew
    rw [hs.dims] at hnew
    simp only [Except.ok.injEq] at hnew
    rw [← hnew]
  have B := TractInfo.new_built h (by rw [hd]; exact mul_pos hs.cx_pos hs.per_pos)
    (by rw [hd]; exact mul_pos hs.cy_pos hs.per_pos)
  exact cellPatch_of_built hs.dims hnew B hs.cx_pos hs.cy_pos hs.per_pos hs.nb_nonneg hs.cb_nonneg hi

/-! ## C14 -/

/-- C14: every pixel of the patch's inner box extended by the border cells is in the inner box of
exactly one cell, and the cells cover nothing else. -/
theorem C14_cells_tile (hs : cfg.Sane cx cy) (hnew : CellTractBuilder.new cfg = .ok b₀)
    (h : TractInfo.new env ops b₀ a = .ok (t, b)) (i : Index2D) (pi : PatchInfo (Wcs Sky K))
    (hi : t.getPatchInfo b (.index2D i) = .ok pi) :
    (∀ p, pi.innerBBox.NearXY (cfg.numCellsInPatchBorder * cx) (cfg.numCellsInPatchBorder * cy) p →
      ∃! j : Index2D, ∃ c, pi.getCellInfo (.index2D j) = .ok c ∧ c.innerBBox.contains p = true) ∧
    (∀ j c p, pi.getCellInfo (.index2D j) = .ok c → c.innerBBox.contains p = true →
      pi.innerBBox.NearXY (cfg.numCellsInPatchBorder * cx) (cfg.numCellsInPatchBorder * cy) p) ∧
    (∀ j c, pi.getCellInfo (.index2D j) = .ok c → c.innerBBox.getDimensions = ⟨cx, cy⟩) := by
  obtain ⟨C, -, -, -, -⟩ := cellPatch_of_new hs hnew h hi
  have hin := C.inner
  have hx := hs.cx_pos; have hy := hs.cy_pos; have hper := hs.per_pos; have hnb := hs.nb_nonneg
  generalize hN : cfg.numCellsInPatchBorder = nb at *
  generalize hP : cfg.numCellsPerPatchInner = per at *
  have e1 : cx * per = per * cx := mul_comm _ _
  have e2 : cy * per = per * cy := mul_comm _ _
  have e3 : (per + 2 * nb) * cx = per * cx + 2 * (nb * cx) := by ring
  have e4 : (per + 2 * nb) * cy = per * cy + 2 * (nb * cy) := by ring
  have p1 : 0 ≤ nb * cx := Int.mul_nonneg hnb hx.le
  have p2 : 0 ≤ nb * cy := Int.mul_nonneg hnb hy.le
  have p3 : 0 < per * cx := mul_pos hper hx
  have p4 : 0 < per * cy := mul_pos hper hy
  refine ⟨?_, ?_, ?_⟩
  · rintro p ⟨q, hq, hqx, hqy⟩
    rw [Box2I.contains_iff, hin] at hq
    rw [abs_le] at hqx hqy
    dsimp only at hq
    have hj : InRange pi.numCells
        ⟨(p.x - pi.innerBBox.min.x) / cx + nb, (p.y - pi.innerBBox.min.y) / cy + nb⟩ := by
      rw [C.num]
      have a1 : -nb ≤ (p.x - pi.innerBBox.min.x) / cx := by
        rw [Int.le_ediv_iff_mul_le hx]; have : -nb * cx = -(nb * cx) := by ring
        omega
      have a2 : (p.x - pi.innerBBox.min.x) / cx < per + nb := by
        rw [Int.ediv_lt_iff_lt_mul hx]; have : (per + nb) * cx = per * cx + nb * cx := by ring
        omega
      have a3 : -nb ≤ (p.y - pi.innerBBox.min.y) / cy := by
        rw [Int.le_ediv_iff_mul_le hy]; have : -nb * cy = -(nb * cy) := by ring
        omega
      have a4 : (p.y - pi.innerBBox.min.y) / cy < per + nb := by
        rw [Int.ediv_lt_iff_lt_mul hy]; have : (per + nb) * cy = per * cy + nb * cy := by ring
        omega
      refine ⟨?_, ?_, ?_, ?_⟩ <;> dsimp only <;> omega
    refine ⟨_, ⟨_, C.getCellInfo_ok hj, ?_⟩, ?_⟩
    · exact (C.contains_cell _ p).2 rfl
    · rintro j ⟨c, hc, hcp⟩
      obtain ⟨-, rfl⟩ := (C.getCellInfo_iff j c).1 hc
      exact (C.contains_cell j p).1 hcp
  · intro j c p hc hcp
    obtain ⟨hr, rfl⟩ := (C.getCellInfo_iff j c).1 hc
    rw [C.num] at hr
    obtain ⟨r1, r2, r3, r4⟩ := hr
    dsimp only at r2 r4
    simp only [cellVal, cellBox] at hcp
    rw [Box2I.contains_iff] at hcp
    dsimp only at hcp
    have b1 : -(nb * cx) ≤ (j.x - nb) * cx := by
      have := Int.mul_nonneg r1 hx.le
      have : (j.x - nb) * cx = j.x * cx - nb * cx := by ring
      omega
    have b2 : (j.x - nb) * cx + cx ≤ per * cx + nb * cx := by
      have : (j.x + 1) * cx ≤ (per + 2 * nb) * cx := Int.mul_le_mul_of_nonneg_right (by omega) hx.le
      have : (j.x - nb) * cx = j.x * cx - nb * cx := by ring
      have : (j.x + 1) * cx = j.x * cx + cx := by ring
      omega
    have b3 : -(nb * cy) ≤ (j.y - nb) * cy := by
      have := Int.mul_nonneg r3 hy.le
      have : (j.y - nb) * cy = j.y * cy - nb * cy := by ring
      omega
    have b4 : (j.y - nb) * cy + cy ≤ per * cy + nb * cy := by
      have : (j.y + 1) * cy ≤ (per + 2 * nb) * cy := Int.mul_le_mul_of_nonneg_right (by omega) hy.le
      have : (j.y - nb) * cy = j.y * cy - nb * cy := by ring
      have : (j.y + 1) * cy = j.y * cy + cy := by ring
      omega
    refine ⟨⟨max pi.innerBBox.min.x (min p.x (pi.innerBBox.min.x + pi.innerBBox.dim.x - 1)),
      max pi.innerBBox.min.y (min p.y (pi.innerBBox.min.y + pi.innerBBox.dim.y - 1))⟩, ?_, ?_, ?_⟩
    · rw [Box2I.contains_iff, hin]; dsimp only; omega
    · rw [hin, abs_le]; dsimp only; omega
    · rw [hin, abs_le]; dsimp only; omega
  · intro j c hc
    obtain ⟨hr, rfl⟩ := (C.getCellInfo_iff j c).1 hc
    rfl

/-- C14: the central cells (border cells excluded) lie in the patch's inner box, and the border cells
share no pixel with it. -/
theorem C14_central_cells_inside (hs : cfg.Sane cx cy) (hnew : CellTractBuilder.new cfg = .ok b₀)
    (h : TractInfo.new env ops b₀ a = .ok (t, b)) (i : Index2D) (pi : PatchInfo (Wcs Sky K))
    (hi : t.getPatchInfo b (.index2D i) = .ok pi) (j : Index2D) (c : CellInfo (Wcs Sky K))
    (hc : pi.getCellInfo (.index2D j) = .ok c) :
    ((cfg.numCellsInPatchBorder ≤ j.x ∧ j.x < cfg.numCellsInPatchBorder + cfg.numCellsPerPatchInner ∧
        cfg.numCellsInPatchBorder ≤ j.y ∧ j.y < cfg.numCellsInPatchBorder + cfg.numCellsPerPatchInner) →
      ∀ p, c.innerBBox.contains p = true → pi.innerBBox.contains p = true) ∧
    (¬ (cfg.numCellsInPatchBorder ≤ j.x ∧ j.x < cfg.numCellsInPatchBorder + cfg.numCellsPerPatchInner ∧
        cfg.numCellsInPatchBorder ≤ j.y ∧ j.y < cfg.numCellsInPatchBorder + cfg.numCellsPerPatchInner) →
      ∀ p, c.innerBBox.contains p = true → pi.innerBBox.contains p = false) := by
  obtain ⟨C, -, -, -, -⟩ := cellPatch_of_new hs hnew h hi
  have hin := C.inner
  have hx := hs.cx_pos; have hy := hs.cy_pos
  generalize hN : cfg.numCellsInPatchBorder = nb at *
  generalize hP : cfg.numCellsPerPatchInner = per at *
  obtain ⟨hr, rfl⟩ := (C.getCellInfo_iff j c).1 hc
  have key : ∀ {d k m x : Int}, 0 < d → k * d + m ≤ x → x < k * d + m + d →
      ((m ≤ x ∧ x < m + d * per) ↔ (0 ≤ k ∧ k < per)) := by
    intro d k m x hd h1 h2
    constructor
    · rintro ⟨h3, h4⟩
      constructor
      · by_contra hk
        have : (k + 1) * d ≤ 0 * d := Int.mul_le_mul_of_nonneg_right (by omega) hd.le
        have : (k + 1) * d = k * d + d := by ring
        omega
      · by_contra hk
        have : per * d ≤ k * d := Int.mul_le_mul_of_nonneg_right (by omega) hd.le
        have : d * per = per * d := by ring
        omega
    · rintro ⟨h3, h4⟩
      have : 0 ≤ k * d := Int.mul_nonneg h3 hd.le
      have : (k + 1) * d ≤ per * d := Int.mul_le_mul_of_nonneg_right (by omega) hd.le
      have : (k + 1) * d = k * d + d := by ring
      have : d * per = per * d := by ring
      omega
  constructor
  · intro hj p hp
    simp only [cellVal, cellBox] at hp
    rw [Box2I.contains_iff] at hp ⊢
    rw [hin]
    dsimp only at hp ⊢
    have k1 := (key hx hp.1 hp.2.1).2 (by omega)
    have k2 := (key hy hp.2.2.1 hp.2.2.2).2 (by omega)
    exact ⟨k1.1, k1.2, k2.1, k2.2⟩
  · intro hj p hp
    rw [Bool.eq_false_iff]
    intro hp2
    simp only [cellVal, cellBox] at hp
    rw [Box2I.contains_iff] at hp hp2
    rw [hin] at hp2
    dsimp only at hp hp2
    have k1 := (key hx hp.1 hp.2.1).1 ⟨hp2.1, hp2.2.1⟩
    have k2 := (key hy hp.2.2.1 hp.2.2.2).1 ⟨hp2.2.2.1, hp2.2.2.2⟩
    omega

/-- C14: the central cells exactly tile the patch's inner box: every pixel of it is in exactly one
cell, and that is a central one. -/
theorem C14_central_cells_tile (hs : cfg.Sane cx cy) (hnew : CellTractBuilder.new cfg = .ok b₀)
    (h : TractInfo.new env ops b₀ a = .ok (t, b)) (i : Index2D) (pi : PatchInfo (Wcs Sky K))
    (hi : t.getPatchInfo b (.index2D i) = .ok pi) (p : Point2I) (hp : pi.innerBBox.contains p = true) :
    ∃ j : Index2D, (cfg.numCellsInPatchBorder ≤ j.x ∧
        j.x < cfg.numCellsInPatchBorder + cfg.numCellsPerPatchInner ∧
        cfg.numCellsInPatchBorder ≤ j.y ∧ j.y < cfg.numCellsInPatchBorder + cfg.numCellsPerPatchInner) ∧
      (∃ c, pi.getCellInfo (.index2D j) = .ok c ∧ c.innerBBox.contains p = true) ∧
      ∀ j' c', pi.getCellInfo (.index2D j') = .ok c' → c'.innerBBox.contains p = true → j' = j := by
  have n1 := Int.mul_nonneg hs.nb_nonneg hs.cx_pos.le
  have n2 := Int.mul_nonneg hs.nb_nonneg hs.cy_pos.le
  obtain ⟨j, ⟨c, hc, hcp⟩, hu⟩ := (C14_cells_tile hs hnew h i pi hi).1 p
    ⟨p, hp, by simpa using n1, by simpa using n2⟩
  refine ⟨j, ?_, ⟨c, hc, hcp⟩, fun j' c' h1 h2 => hu j' ⟨c', h1, h2⟩⟩
  by_contra hj
  have := (C14_central_cells_inside hs hnew h i pi hi j c hc).2 hj p hcp
  rw [hp] at this
  exact absurd this (by decide)

/-- C14: all cells of all patches of a tract lie on one grid: two cells have the same inner box or
share no pixel. -/
theorem C14_same_or_disjoint (hs : cfg.Sane cx cy) (hnew : CellTractBuilder.new cfg = .ok b₀)
    (h : TractInfo.new env ops b₀ a = .ok (t, b)) (i i' j j' : Index2D) (pi pi' : PatchInfo (Wcs Sky K))
    (c c' : CellInfo (Wcs Sky K))
    (hi : t.getPatchInfo b (.index2D i) = .ok pi) (hi' : t.getPatchInfo b (.index2D i') = .ok pi')
    (hj : pi.getCellInfo (.index2D j) = .ok c) (hj' : pi'.getCellInfo (.index2D j') = .ok c') :
    c.innerBBox = c'.innerBBox ∨ ∀ p, ¬ (c.innerBBox.contains p = true ∧ c'.innerBBox.contains p = true) := by
  obtain ⟨C, hm, -, -, -⟩ := cellPatch_of_new hs hnew h hi
  obtain ⟨C', hm', -, -, -⟩ := cellPatch_of_new hs hnew h hi'
  have hx := hs.cx_pos; have hy := hs.cy_pos
  generalize hN : cfg.numCellsInPatchBorder = nb at *
  generalize hP : cfg.numCellsPerPatchInner = per at *
  obtain ⟨-, rfl⟩ := (C.getCellInfo_iff j c).1 hj
  obtain ⟨-, rfl⟩ := (C'.getCellInfo_iff j' c').1 hj'
  by_contra hcon
  push Not at hcon
  obtain ⟨hne, p, h1, h2⟩ := hcon
  apply hne
  simp only [cellVal, cellBox, hm, hm'] at h1 h2 ⊢
  rw [Box2I.contains_iff] at h1 h2
  dsimp only at h1 h2
  have key : ∀ {d k m k' m' x : Int}, 0 < d →
      (k - nb) * d + m * (d * per) ≤ x → x < (k - nb) * d + m * (d * per) + d →
      (k' - nb) * d + m' * (d * per) ≤ x → x < (k' - nb) * d + m' * (d * per) + d →
      (k - nb) * d + m * (d * per) = (k' - nb) * d + m' * (d * per) := by
    intro d k m k' m' x hd g1 g2 g3 g4
    have e1 : (k - nb) * d + m * (d * per) = (k - nb + m * per) * d + 0 := by ring
    have e2 : (k' - nb) * d + m' * (d * per) = (k' - nb + m' * per) * d + 0 := by ring
    rw [e1] at g1 g2
    rw [e2] at g3 g4
    have f1 := (grid_cell hd).1 ⟨g1, g2⟩
    have f2 := (grid_cell hd).1 ⟨g3, g4⟩
    rw [e1, e2, f1, f2]
  rw [key hx h1.1 h1.2.1 h2.1 h2.2.1, key hy h1.2.2.1 h1.2.2.2 h2.2.2.1 h2.2.2.2]

/-- C14: border cells of a patch coincide with cells of its neighbours: cell `j` of patch `i` and cell
`j'` of patch `i'` with the same position in the tract-wide cell grid have the same inner and outer
boxes (and only those do). -/
theorem C14_shared_grid (hs : cfg.Sane cx cy) (hnew : CellTractBuilder.new cfg = .ok b₀)
    (h : TractInfo.new env ops b₀ a = .ok (t, b)) (i i' j j' : Index2D) (pi pi' : PatchInfo (Wcs Sky K))
    (c c' : CellInfo (Wcs Sky K))
    (hi : t.getPatchInfo b (.index2D i) = .ok pi) (hi' : t.getPatchInfo b (.index2D i') = .ok pi')
    (hj : pi.getCellInfo (.index2D j) = .ok c) (hj' : pi'.getCellInfo (.index2D j') = .ok c') :
    (c.innerBBox = c'.innerBBox ∧ c.outerBBox = c'.outerBBox) ↔
      (j.x + i.x * cfg.numCellsPerPatchInner = j'.x + i'.x * cfg.numCellsPerPatchInner ∧
       j.y + i.y * cfg.numCellsPerPatchInner = j'.y + i'.y * cfg.numCellsPerPatchInner) := by
  obtain ⟨C, hm, -, -, -⟩ := cellPatch_of_new hs hnew h hi
  obtain ⟨C', hm', -, -, -⟩ := cellPatch_of_new hs hnew h hi'
  have hx := hs.cx_pos; have hy := hs.cy_pos
  generalize hN : cfg.numCellsInPatchBorder = nb at *
  generalize hP : cfg.numCellsPerPatchInner = per at *
  obtain ⟨-, rfl⟩ := (C.getCellInfo_iff j c).1 hj
  obtain ⟨-, rfl⟩ := (C'.getCellInfo_iff j' c').1 hj'
  have key : ∀ {d k m k' m' : Int}, 0 < d →
      ((k - nb) * d + m * (d * per) = (k' - nb) * d + m' * (d * per) ↔ k + m * per = k' + m' * per) := by
    intro d k m k' m' hd
    have e1 : (k - nb) * d + m * (d * per) = (k + m * per) * d - nb * d := by ring
    have e2 : (k' - nb) * d + m' * (d * per) = (k' + m' * per) * d - nb * d := by ring
    rw [e1, e2]
    constructor
    · intro he
      exact Int.eq_of_mul_eq_mul_right hd.ne' (by omega)
    · intro he; rw [he]
  rw [← key hx, ← key hy]
  simp only [cellVal, cellBox, cellOuter, hm, hm', Box2I.mk.injEq, I2.mk.injEq, and_true]
  omega

/-- The hypotheses of C14 are met: 2 by 2 patches of 2 by 2 inner cells with one border cell
(next three lemmas); the border cell (3,1) of patch (0,0) is the central cell (1,1) of patch (1,0). -/
theorem Ex.cells_sane : CellTractBuilderConfig.Sane ⟨[3, 3], 1, 2, 1⟩ 3 3 :=
  ⟨rfl, by decide, by decide, by decide, by decide, by decide⟩

theorem Ex.cells_new : CellTractBuilder.new ⟨[3, 3], 1, 2, 1⟩ = .ok Ex.cells := rfl

/-- The (x, y) patches of the example tract. -/
theorem Ex.cells_patch (i : Index2D) (hi : InRange ⟨2, 2⟩ i) : ∃ t b pi,
    TractInfo.new Ex.env Ex.ops Ex.cells Ex.args = .ok (t, b) ∧ t.getPatchInfo b (.index2D i) = .ok pi ∧
      pi.innerBBox = ⟨⟨i.x * 6, i.y * 6⟩, ⟨6, 6⟩⟩ := by
  obtain ⟨⟨t, b⟩, h1, h2⟩ := Except.map_ok_inv Ex.cells_built
  have := TractInfo.new_built h1 (by decide) (by decide)
  simp only [Prod.mk.injEq] at h2
  refine ⟨t, b, _, h1, this.ready.getPatchInfo_ok (by rw [this.border]; decide) (by rw [h2.1]; exact hi) _, ?_⟩
  rw [patchVal_inner, patchInnerBBox, this.dims]; rfl

example : ∃ t b pi pi' c c', TractInfo.new Ex.env Ex.ops Ex.cells Ex.args = .ok (t, b) ∧
    t.getPatchInfo b (.index2D ⟨0, 0⟩) = .ok pi ∧ t.getPatchInfo b (.index2D ⟨1, 0⟩) = .ok pi' ∧
    pi.getCellInfo (.index2D ⟨3, 1⟩) = .ok c ∧ pi'.getCellInfo (.index2D ⟨1, 1⟩) = .ok c' ∧
    c.innerBBox = ⟨⟨6, 0⟩, ⟨3, 3⟩⟩ ∧ c'.innerBBox = c.innerBBox ∧ c.index ≠ c'.index := by
  obtain ⟨⟨t, b⟩, h1, h2⟩ := Except.map_ok_inv Ex.cells_built
  have B := TractInfo.new_built h1 (by decide) (by decide)
  simp only [Prod.mk.injEq] at h2
  have hb : 0 ≤ b.patchBorder := by rw [B.border]; decide
  have g1 : t.getPatchInfo b (.index2D ⟨0, 0⟩) = _ :=
    B.ready.getPatchInfo_ok hb (i := ⟨0, 0⟩) (by rw [h2.1]; decide) t.wcs
  have g2 : t.getPatchInfo b (.index2D ⟨1, 0⟩) = _ :=
    B.ready.getPatchInfo_ok hb (i := ⟨1, 0⟩) (by rw [h2.1]; decide) t.wcs
  obtain ⟨C, hm, -⟩ := cellPatch_of_new Ex.cells_sane Ex.cells_new h1 g1
  obtain ⟨C', hm', -⟩ := cellPatch_of_new Ex.cells_sane Ex.cells_new h1 g2
  refine ⟨t, b, _, _, _, _, h1, g1, g2, C.getCellInfo_ok (j := ⟨3, 1⟩) (by rw [C.num]; decide),
    C'.getCellInfo_ok (j := ⟨1, 1⟩) (by rw [C'.num]; decide), ?_, ?_, ?_⟩
  · simp only [cellVal, cellBox, hm]; decide
  · simp only [cellVal, cellBox, hm, hm']; decide
  · simp only [cellVal]; decide

/-! ## C15 -/

theorem axis_cover {c N cb o x : Int} (hc : 0 < c) (hN : 0 < N) (hcb : 0 ≤ cb) (h1 : o - cb ≤ x) (h2 : x < o + N * c + cb) :
    ∃ j, 0 ≤ j ∧ j < N ∧ j * c + o - cb ≤ x ∧ x < j * c + o + c + cb := by
  have g := Int.mul_ediv_add_emod (x - o) c
  have g1 := Int.emod_nonneg (x - o) hc.ne'
  have g2 := Int.emod_lt_of_pos (x - o) hc
  rw [mul_comm] at g
  by_cases hlo : (x - o) / c < 0
  · refine ⟨0, le_refl _, hN, by omega, ?_⟩
    have : ((x - o) / c + 1) * c ≤ 0 * c := Int.mul_le_mul_of_nonneg_right (by omega) hc.le
    have : ((x - o) / c + 1) * c = (x - o) / c * c + c := by ring
    omega
  · by_cases hhi : N ≤ (x - o) / c
    · refine ⟨N - 1, by omega, by omega, ?_, ?_⟩
      · have : N * c ≤ (x - o) / c * c := Int.mul_le_mul_of_nonneg_right hhi hc.le
        have : (N - 1) * c = N * c - c := by ring
        omega
      · have : (N - 1) * c = N * c - c := by ring
        omega
    · exact ⟨(x - o) / c, by omega, by omega, by omega, by omega⟩

theorem axis_sub {c N cb o x j : Int} (hc : 0 < c) (h0 : 0 ≤ j) (hN : j < N) (h1 : j * c + o - cb ≤ x)
    (h2 : x < j * c + o + c + cb) : o - cb ≤ x ∧ x < o + N * c + cb := by
  have : 0 ≤ j * c := Int.mul_nonneg h0 hc.le
  have : (j + 1) * c ≤ N * c := Int.mul_le_mul_of_nonneg_right (by omega) hc.le
  have : (j + 1) * c = j * c + c := by ring
  omega

/-- C15: for a configuration that passes `validate`, the patch's outer box is exactly the union of the
outer boxes of its cells. -/
theorem C15_outer_is_union (hs : cfg.Sane cx cy) (hval : cfg.validate = .ok ())
    (hnew : CellTractBuilder.new cfg = .ok b₀)
    (h : TractInfo.new env ops b₀ a = .ok (t, b)) (i : Index2D) (pi : PatchInfo (Wcs Sky K))
    (hi : t.getPatchInfo b (.index2D i) = .ok pi) (p : Point2I) :
    pi.outerBBox.contains p = true ↔
      ∃ j c, pi.getCellInfo (.index2D j) = .ok c ∧ c.outerBBox.contains p = true := by
  obtain ⟨C, -, ho, -, -⟩ := cellPatch_of_new hs hnew h hi
  have hxy : cx = cy := by
    unfold CellTractBuilderConfig.validate at hval
    rw [hs.dims] at hval
    by_contra hne
    simp [hne] at hval
  subst hxy
  have hin := C.inner
  have hx := hs.cx_pos; have hper := hs.per_pos; have hnb := hs.nb_nonneg; have hcb := hs.cb_nonneg
  generalize hN : cfg.numCellsInPatchBorder = nb at *
  generalize hP : cfg.numCellsPerPatchInner = per at *
  generalize hB : cfg.cellBorder = cb at *
  have p1 : 0 ≤ nb * cx := Int.mul_nonneg hnb hx.le
  have p3 : 0 < cx * per := mul_pos hx hper
  rw [ho, Box2I.grow_pos _ (by rw [hin]; exact p3) (by rw [hin]; exact p3) _ (by omega), Box2I.contains_iff, hin]
  dsimp only
  have e : (per + 2 * nb) * cx = cx * per + 2 * (nb * cx) := by ring
  constructor
  · rintro ⟨h1, h2, h3, h4⟩
    obtain ⟨jx, a1, a2, a3, a4⟩ := axis_cover (c := cx) (N := per + 2 * nb) (cb := cb)
      (o := pi.innerBBox.min.x - nb * cx) (x := p.x) hx (by omega) hcb (by omega) (by omega)
    obtain ⟨jy, b1, b2, b3, b4⟩ := axis_cover (c := cx) (N := per + 2 * nb) (cb := cb)
      (o := pi.innerBBox.min.y - nb * cx) (x := p.y) hx (by omega) hcb (by omega) (by omega)
    refine ⟨⟨jx, jy⟩, _, C.getCellInfo_ok (by rw [C.num]; exact ⟨a1, a2, b1, b2⟩), ?_⟩
    simp only [cellVal, cellOuter]
    rw [Box2I.contains_iff]
    dsimp only
    have : (jx - nb) * cx = jx * cx - nb * cx := by ring
    have : (jy - nb) * cx = jy * cx - nb * cx := by ring
    omega
  · rintro ⟨j, c, hc, hcp⟩
    obtain ⟨hr, rfl⟩ := (C.getCellInfo_iff j c).1 hc
    rw [C.num] at hr
    obtain ⟨r1, r2, r3, r4⟩ := hr
    dsimp only at r2 r4
    simp only [cellVal, cellOuter] at hcp
    rw [Box2I.contains_iff] at hcp
    dsimp only at hcp
    have f1 : (j.x - nb) * cx = j.x * cx - nb * cx := by ring
    have f2 : (j.y - nb) * cx = j.y * cx - nb * cx := by ring
    have s1 := axis_sub (c := cx) (N := per + 2 * nb) (cb := cb) (o := pi.innerBBox.min.x - nb * cx)
      (x := p.x) (j := j.x) hx r1 r2 (by omega) (by omega)
    have s2 := axis_sub (c := cx) (N := per + 2 * nb) (cb := cb) (o := pi.innerBBox.min.y - nb * cx)
      (x := p.y) (j := j.y) hx r3 r4 (by omega) (by omega)
    omega

/-- C15: a cell's outer box is exactly the pixels within the cell border of its inner box. -/
theorem C15_cell_outer (hs : cfg.Sane cx cy) (hnew : CellTractBuilder.new cfg = .ok b₀)
    (h : TractInfo.new env ops b₀ a = .ok (t, b)) (i : Index2D) (pi : PatchInfo (Wcs Sky K))
    (hi : t.getPatchInfo b (.index2D i) = .ok pi) (j : Index2D) (c : CellInfo (Wcs Sky K))
    (hj : pi.getCellInfo (.index2D j) = .ok c) (p : Point2I) :
    c.outerBBox.contains p = true ↔ c.innerBBox.Near cfg.cellBorder p := by
  obtain ⟨C, -, -, -, -⟩ := cellPatch_of_new hs hnew h hi
  obtain ⟨-, rfl⟩ := (C.getCellInfo_iff j c).1 hj
  change (cellOuter _ _ _ _ _).contains p = true ↔ (cellBox _ _ _ _).Near _ p
  rw [← C.grow_eq, Box2I.contains_grow _ (Or.inr ⟨hs.cx_pos, hs.cy_pos⟩) _ hs.cb_nonneg]

/-- C15: without `validate` it fails.  Cells of 3 by 5 pixels: the constructor accepts them, and cell
(0,0) of a patch sticks out of the patch's outer box. -/
theorem C15_nonsquare_fails : ∃ (cfg : CellTractBuilderConfig) (b₀ : TractBuilder),
    cfg.Sane 3 5 ∧ cfg.validate = .error .ValueError ∧ CellTractBuilder.new cfg = .ok b₀ ∧
    ∃ t b pi c p, TractInfo.new Ex.env Ex.ops b₀ Ex.args = .ok (t, b) ∧
      t.getPatchInfo b (.index2D ⟨0, 0⟩) = .ok pi ∧ pi.getCellInfo (.index2D ⟨0, 0⟩) = .ok c ∧
      c.outerBBox.contains p = true ∧ pi.outerBBox.contains p = false := by
  refine ⟨⟨[3, 5], 1, 2, 1⟩, _, ⟨rfl, by decide, by decide, by decide, by decide, by decide⟩, rfl, rfl, ?_⟩
  have hb : (TractInfo.new Ex.env Ex.ops ⟨.cells ⟨⟨3, 5⟩, 1, 2, 1⟩, ⟨6, 10⟩, 4, none⟩ Ex.args).map
    (fun r => (r.1.numPatches, r.1.bbox)) = .ok (⟨2, 2⟩, ⟨⟨0, 0⟩, ⟨12, 20⟩⟩) := by decide +kernel
  obtain ⟨⟨t, b⟩, h1, h2⟩ := Except.map_ok_inv hb
  simp only [Prod.mk.injEq] at h2
  have B := TractInfo.new_built h1 (by decide) (by decide)
  have g1 : t.getPatchInfo b (.index2D ⟨0, 0⟩) = _ :=
    B.ready.getPatchInfo_ok (i := ⟨0, 0⟩) (by rw [B.border]; decide) (by rw [h2.1]; decide) t.wcs
  obtain ⟨C, hm, ho, -⟩ := cellPatch_of_new (cfg := ⟨[3, 5], 1, 2, 1⟩) (cx := 3) (cy := 5)
    ⟨rfl, by decide, by decide, by decide, by decide, by decide⟩ rfl h1 g1
  refine ⟨t, b, _, _, ⟨-4, -6⟩, h1, g1, C.getCellInfo_ok (j := ⟨0, 0⟩) (by rw [C.num]; decide), ?_, ?_⟩
  · simp only [cellVal, cellOuter, hm]; decide
  · have hin : (b.patchVal t.numPatches ⟨0, 0⟩ t.wcs).innerBBox = ⟨⟨0, 0⟩, ⟨6, 10⟩⟩ := by
      rw [patchVal_inner, patchInnerBBox, B.dims]; rfl
    rw [ho, hin]; decide

example : ∃ t b pi, CellTractBuilderConfig.Sane ⟨[3, 3], 1, 2, 1⟩ 3 3 ∧
    CellTractBuilderConfig.validate ⟨[3, 3], 1, 2, 1⟩ = .ok () ∧
    CellTractBuilder.new ⟨[3, 3], 1, 2, 1⟩ = .ok Ex.cells ∧
    TractInfo.new Ex.env Ex.ops Ex.cells Ex.args = .ok (t, b) ∧ t.getPatchInfo b (.index2D ⟨1, 1⟩) = .ok pi := by
  obtain ⟨t, b, pi, h1, h2, -⟩ := Ex.cells_patch ⟨1, 1⟩ (by decide)
  exact ⟨t, b, pi, Ex.cells_sane, rfl, rfl, h1, h2⟩

/-! ## C16 -/

/-- C16: lookup of a cell by `Index2D` or by a pair succeeds exactly for indices in range, with the
cell that has this index, and raises `IndexError` otherwise. -/
theorem C16_by_pair (hs : cfg.Sane cx cy) (hnew : CellTractBuilder.new cfg = .ok b₀)
    (h : TractInfo.new env ops b₀ a = .ok (t, b)) (i : Index2D) (pi : PatchInfo (Wcs Sky K))
    (hi : t.getPatchInfo b (.index2D i) = .ok pi) (j : Index2D) :
    pi.numCells = ⟨cfg.numCellsPerPatchInner + 2 * cfg.numCellsInPatchBorder,
      cfg.numCellsPerPatchInner + 2 * cfg.numCellsInPatchBorder⟩ ∧
    (InRange pi.numCells j → ∃ c, pi.getCellInfo (.index2D j) = .ok c ∧ c.index = j ∧ c.wcs = pi.wcs) ∧
    (¬ InRange pi.numCells j → pi.getCellInfo (.index2D j) = .error .IndexError) ∧
    pi.getCellInfo (.seq [j.x, j.y]) = pi.getCellInfo (.index2D j) ∧
    pi.getItem (.index2D j) = pi.getCellInfo (.index2D j) := by
  obtain ⟨C, -, -, -, -⟩ := cellPatch_of_new hs hnew h hi
  exact ⟨C.num, fun hj => ⟨_, C.getCellInfo_ok hj, rfl, rfl⟩, fun hj => getCellInfo_err hj, rfl, rfl⟩

/-- C16: lookup by sequential index succeeds exactly for 0 <= s < number of cells, with the cell whose
sequential index is s - the same cell as by its (x, y) index - and raises `IndexError` otherwise. -/
theorem C16_by_number (hs : cfg.Sane cx cy) (hnew : CellTractBuilder.new cfg = .ok b₀)
    (h : TractInfo.new env ops b₀ a = .ok (t, b)) (i : Index2D) (pi : PatchInfo (Wcs Sky K))
    (hi : t.getPatchInfo b (.index2D i) = .ok pi) (s : Int) :
    (0 ≤ s ∧ s < pi.len → ∃ c, pi.getCellInfo (.number s) = .ok c ∧ c.sequentialIndex = s ∧
      pi.getCellInfo (.index2D c.index) = .ok c ∧ pi.getSequentialCellIndex c = s) ∧
    (¬ (0 ≤ s ∧ s < pi.len) → pi.getCellInfo (.number s) = .error .IndexError) := by
  obtain ⟨C, -, -, -, -⟩ := cellPatch_of_new hs hnew h hi
  have hn := C.numPos
  rw [C.getCellInfo_number]
  constructor
  · rintro ⟨h0, h1⟩
    obtain ⟨r1, r2⟩ := seq_inv (n := pi.numCells) hn.1 h0 h1
    exact ⟨_, C.getCellInfo_ok r1, r2, C.getCellInfo_ok r1, r2⟩
  · intro hs'
    exact getCellInfo_err (seq_out hn.1 hs')

/-- C16: the two index conversions are inverse to each other. -/
theorem C16_index_inverse (hs : cfg.Sane cx cy) (hnew : CellTractBuilder.new cfg = .ok b₀)
    (h : TractInfo.new env ops b₀ a = .ok (t, b)) (i : Index2D) (pi : PatchInfo (Wcs Sky K))
    (hi : t.getPatchInfo b (.index2D i) = .ok pi) :
    (∀ s, 0 ≤ s ∧ s < pi.len → ∃ j, pi.getCellIndexPair s = .ok j ∧ InRange pi.numCells j ∧
      pi.getSequentialCellIndexFromPair (.index2D j) = .ok s) ∧
    (∀ j, InRange pi.numCells j → ∃ s, pi.getSequentialCellIndexFromPair (.index2D j) = .ok s ∧
      (0 ≤ s ∧ s < pi.len) ∧ pi.getCellIndexPair s = .ok j) := by
  obtain ⟨C, -, -, -, -⟩ := cellPatch_of_new hs hnew h hi
  have hn := C.numPos
  have h0 : ¬ (pi.numCells.x = 0 ∨ pi.numCells.y = 0) := by omega
  have hp : ∀ s, pi.getCellIndexPair s = .ok ⟨s % pi.numCells.x, s / pi.numCells.x⟩ := by
    intro s
    unfold PatchInfo.getCellIndexPair
    simp only [h0, if_false, pyMod_pos hn.1, pyFloorDiv_pos hn.1, bind, Except.bind, pure, Except.pure]
  constructor
  · rintro s ⟨h1, h2⟩
    obtain ⟨r1, r2⟩ := seq_inv (n := pi.numCells) hn.1 h1 h2
    refine ⟨_, hp s, r1, ?_⟩
    simp only [PatchInfo.getSequentialCellIndexFromPair, PatchInfo.seqCellIndex, r2]
  · intro j hj
    obtain ⟨r1, r2, r3, r4⟩ := pair_inv hj
    refine ⟨_, rfl, ⟨r1, r2⟩, ?_⟩
    rw [hp]
    simp only [PatchInfo.seqCellIndex, r3, r4]

/-- C16: iterating a patch gives `len(patch)` cells, the k-th one being `patch[k]`. -/
theorem C16_iteration (hs : cfg.Sane cx cy) (hnew : CellTractBuilder.new cfg = .ok b₀)
    (h : TractInfo.new env ops b₀ a = .ok (t, b)) (i : Index2D) (pi : PatchInfo (Wcs Sky K))
    (hi : t.getPatchInfo b (.index2D i) = .ok pi) :
    ∃ l, pi.iter = .ok l ∧ (l.length : Int) = pi.len ∧
      ∀ k : Nat, (k : Int) < pi.len → ∃ c, l[k]? = some c ∧ c.sequentialIndex = k ∧
        pi.getItem (.number k) = .ok c := by
  obtain ⟨C, -, -, -, -⟩ := cellPatch_of_new hs hnew h hi
  have hn := C.numPos
  have hg := grid_eq pi.numCells hn.1.le hn.2.le
  have hlen : 0 ≤ pi.numCells.x * pi.numCells.y := Int.mul_nonneg hn.1.le hn.2.le
  refine ⟨((List.range (pi.numCells.x * pi.numCells.y).toNat).map fun k : Nat =>
      (⟨(k : Int) % pi.numCells.x, (k : Int) / pi.numCells.x⟩ : Index2D)).map
        (cellVal pi ⟨cx, cy⟩ cfg.numCellsInPatchBorder cfg.cellBorder), ?_, ?_, ?_⟩
  · unfold PatchInfo.iter
    rw [hg]
    apply pyMapM_ok_of
    intro j hj
    rw [List.mem_map] at hj
    obtain ⟨k, hk, rfl⟩ := hj
    rw [List.mem_range] at hk
    exact C.getCellInfo_ok (seq_inv hn.1 (by omega) (by omega)).1
  · simp only [List.length_map, List.length_range, PatchInfo.len]; omega
  · intro k hk
    unfold PatchInfo.len at hk
    obtain ⟨r1, r2⟩ := seq_inv (n := pi.numCells) (s := k) hn.1 (by omega) hk
    refine ⟨cellVal pi ⟨cx, cy⟩ cfg.numCellsInPatchBorder cfg.cellBorder
      ⟨(k : Int) % pi.numCells.x, (k : Int) / pi.numCells.x⟩, ?_, r2, ?_⟩
    · rw [List.getElem?_map, List.getElem?_map, List.getElem?_range (by omega)]
      rfl
    · unfold PatchInfo.getItem
      rw [C.getCellInfo_number]
      exact C.getCellInfo_ok r1

/-- A patch of a legacy tract has no cells. -/
theorem legacy_numCells {lcfg : LegacyTractBuilderConfig} {dx dy : Int}
    (hd : lcfg.patchInnerDimensions = [dx, dy]) (hx : 0 < dx) (hy : 0 < dy) (hb : 0 ≤ lcfg.patchBorder)
    (hnew : LegacyTractBuilder.new lcfg = .ok b₀) (h : TractInfo.new env ops b₀ a = .ok (t, b))
    {i : Index2D} {pi : PatchInfo (Wcs Sky K)} (hi : t.getPatchInfo b (.index2D i) = .ok pi) :
    pi.numCells = ⟨0, 0⟩ := by
  unfold LegacyTractBuilder.new at hnew
  rw [hd] at hnew
  simp only [Except.ok.injEq] at hnew
  have B := TractInfo.new_built h (by rw [← hnew]; exact hx) (by rw [← hnew]; exact hy)
  obtain ⟨-, rfl⟩ := (B.ready.getPatchInfo_iff (by rw [B.border, ← hnew]; exact hb) _ t.wcs _).1 hi
  unfold patchVal
  rw [B.kind, ← hnew]

/-- C16: a patch made without cells has no cells: iteration gives nothing and every lookup raises
`IndexError`. -/
theorem C16_no_cells {lcfg : LegacyTractBuilderConfig} {dx dy : Int}
    (hd : lcfg.patchInnerDimensions = [dx, dy]) (hx : 0 < dx) (hy : 0 < dy) (hb : 0 ≤ lcfg.patchBorder)
    (hnew : LegacyTractBuilder.new lcfg = .ok b₀) (h : TractInfo.new env ops b₀ a = .ok (t, b))
    (i : Index2D) (pi : PatchInfo (Wcs Sky K)) (hi : t.getPatchInfo b (.index2D i) = .ok pi) :
    pi.len = 0 ∧ pi.iter = .ok [] ∧ (∀ index, pi.getCellInfo index = .error .IndexError) ∧
      ∀ s, pi.getCellIndexPair s = .error .IndexError := by
  have hn := legacy_numCells hd hx hy hb hnew h hi
  refine ⟨by simp [PatchInfo.len, hn], ?_, ?_, ?_⟩
  · simp [PatchInfo.iter, hn, pyRange, pyMapM]
  · intro index; simp [PatchInfo.getCellInfo, hn]
  · intro s; simp [PatchInfo.getCellIndexPair, hn]

/-- The hypotheses of `C16_no_cells` are met. -/
example : ∃ t b pi, LegacyTractBuilder.new ⟨[4, 3], 2⟩ = .ok Ex.legacy ∧
    TractInfo.new Ex.env Ex.ops Ex.legacy Ex.args = .ok (t, b) ∧ t.getPatchInfo b (.index2D ⟨2, 3⟩) = .ok pi := by
  obtain ⟨⟨t, b⟩, h1, h2⟩ := Except.map_ok_inv Ex.legacy_built
  simp only [Prod.mk.injEq] at h2
  have B := TractInfo.new_built h1 (by decide) (by decide)
  exact ⟨t, b, _, rfl, h1, B.ready.getPatchInfo_ok (by rw [B.border]; decide) (by rw [h2.1]; decide) _⟩

/-! ## C17 -/

/-- C17: cell equality is an equivalence relation and `!=` is its negation. -/
theorem C17_cell_eq {W : Type} (x y z : CellInfo W) :
    x.eq x = true ∧ (x.eq y = y.eq x) ∧ (x.eq y = true → y.eq z = true → x.eq z = true) ∧
      (x.ne y = true ↔ ¬ x.eq y = true) := by
  refine ⟨by simp [CellInfo.eq], ?_, ?_, by simp [CellInfo.ne]⟩
  · rw [Bool.eq_iff_iff]
    simp only [CellInfo.eq, Bool.and_eq_true, beq_iff_eq]
    constructor <;> rintro ⟨⟨h1, h2⟩, h3⟩ <;> exact ⟨⟨h1.symm, h2.symm⟩, h3.symm⟩
  · simp only [CellInfo.eq, Bool.and_eq_true, beq_iff_eq]
    rintro ⟨⟨h1, h2⟩, h3⟩ ⟨⟨h4, h5⟩, h6⟩
    exact ⟨⟨h1.trans h4, h2.trans h5⟩, h3.trans h6⟩

/-- C17: patch equality is an equivalence relation and `!=` is its negation. -/
theorem C17_patch_eq {W : Type} (x y z : PatchInfo W) :
    x.eq x = true ∧ (x.eq y = y.eq x) ∧ (x.eq y = true → y.eq z = true → x.eq z = true) ∧
      (x.ne y = true ↔ ¬ x.eq y = true) := by
  refine ⟨by simp [PatchInfo.eq], ?_, ?_, by simp [PatchInfo.ne]⟩
  · rw [Bool.eq_iff_iff]
    simp only [PatchInfo.eq, Bool.and_eq_true, beq_iff_eq]
    constructor <;> rintro ⟨⟨⟨⟨h1, h2⟩, h3⟩, h4⟩, h5⟩ <;>
      exact ⟨⟨⟨⟨h1.symm, h2.symm⟩, h3.symm⟩, h4.symm⟩, h5.symm⟩
  · simp only [PatchInfo.eq, Bool.and_eq_true, beq_iff_eq]
    rintro ⟨⟨⟨⟨h1, h2⟩, h3⟩, h4⟩, h5⟩ ⟨⟨⟨⟨g1, g2⟩, g3⟩, g4⟩, g5⟩
    exact ⟨⟨⟨⟨h1.trans g1, h2.trans g2⟩, h3.trans g3⟩, h4.trans g4⟩, h5.trans g5⟩

/-- C17: two patches that compare equal - of any two tracts, made by any two sensible builders - have
equal cells: every lookup gives equal cells, or the same exception. -/
theorem C17_equal_patches_equal_cells {b₀' b' : TractBuilder} {a' : TractArgs Sky K} {t' : TractInfo Sky K}
    (hb : SaneBuilder b₀) (hb' : SaneBuilder b₀')
    (h : TractInfo.new env ops b₀ a = .ok (t, b)) (h' : TractInfo.new env ops b₀' a' = .ok (t', b'))
    (i i' : Index2D) (p p' : PatchInfo (Wcs Sky K))
    (hi : t.getPatchInfo b (.index2D i) = .ok p) (hi' : t'.getPatchInfo b' (.index2D i') = .ok p')
    (he : p.eq p' = true) (j : Index2D) :
    (∃ c c', p.getCellInfo (.index2D j) = .ok c ∧ p'.getCellInfo (.index2D j) = .ok c' ∧ c.eq c' = true) ∨
    (∃ e, p.getCellInfo (.index2D j) = .error e ∧ p'.getCellInfo (.index2D j) = .error e) := by
  simp only [PatchInfo.eq, Bool.and_eq_true, beq_iff_eq] at he
  obtain ⟨⟨⟨⟨-, e2⟩, e3⟩, e4⟩, e5⟩ := he
  rcases hb with ⟨cf, dx, dy, c1, c2, c3, c4, c5⟩ | ⟨cf, x, y, hs, hnew⟩
  · have n1 := legacy_numCells c1 c2 c3 c4 c5 h hi
    right
    refine ⟨.IndexError, ?_, ?_⟩
    · simp [PatchInfo.getCellInfo, n1]
    · simp [PatchInfo.getCellInfo, ← e4, n1]
  · obtain ⟨C, -, ho, -, -⟩ := cellPatch_of_new hs hnew h hi
    rcases hb' with ⟨cf', dx, dy, c1, c2, c3, c4, c5⟩ | ⟨cf', x', y', hs', hnew'⟩
    · have n1 := legacy_numCells c1 c2 c3 c4 c5 h' hi'
      have := C.numPos
      rw [e4, n1] at this
      simp at this
    · obtain ⟨C', -, ho', -, -⟩ := cellPatch_of_new hs' hnew' h' hi'
      have i1 := C.inner
      have i2 := C'.inner
      have m1 := C.num
      have m2 := C'.num
      have k1 := C.border
      have k2 := C'.border
      have hx := hs.cx_pos; have hy := hs.cy_pos; have hper := hs.per_pos; have hnb := hs.nb_nonneg
      have hcb := hs.cb_nonneg
      have hx' := hs'.cx_pos; have hy' := hs'.cy_pos; have hper' := hs'.per_pos; have hnb' := hs'.nb_nonneg
      rw [e4, m2] at m1
      rw [e5, k2] at k1
      rw [e2, i2] at i1
      simp only [I2.mk.injEq] at m1 i1
      have og : p.outerBBox.dim.x = p'.outerBBox.dim.x := by rw [e3]
      rw [ho, ho', e2, Box2I.grow_pos, Box2I.grow_pos] at og
      · dsimp only at og
        have q1 : x * (cf.numCellsPerPatchInner + 2 * cf.numCellsInPatchBorder) =
            x * cf.numCellsPerPatchInner + 2 * (cf.numCellsInPatchBorder * x) := by ring
        have q2 : x' * (cf'.numCellsPerPatchInner + 2 * cf'.numCellsInPatchBorder) =
            x' * cf'.numCellsPerPatchInner + 2 * (cf'.numCellsInPatchBorder * x') := by ring
        have q3 : x = x' := by
          apply Int.eq_of_mul_eq_mul_right
            (a := cf.numCellsPerPatchInner + 2 * cf.numCellsInPatchBorder) (by omega)
          rw [q1, ← m1.1, q2]
          omega
        have q4 : cf.numCellsPerPatchInner = cf'.numCellsPerPatchInner := by
          apply Int.eq_of_mul_eq_mul_left hx.ne'
          rw [← i1.1, q3]
        have q5 : y = y' := by
          apply Int.eq_of_mul_eq_mul_right hper.ne'
          rw [← i1.2, q4]
        have q6 : cf.numCellsInPatchBorder = cf'.numCellsInPatchBorder := by omega
        by_cases hj : InRange p.numCells j
        · left
          refine ⟨_, _, C.getCellInfo_ok hj, C'.getCellInfo_ok (by rw [← e4]; exact hj), ?_⟩
          simp only [CellInfo.eq, cellVal, cellBox, cellOuter, Bool.and_eq_true, beq_iff_eq, e2, q3, q5, q6, k1,
            true_and]
        · right
          exact ⟨.IndexError, getCellInfo_err hj, getCellInfo_err (by rw [← e4]; exact hj)⟩
      all_goals first
        | (rw [i2]; dsimp only; exact mul_pos (by assumption) (by assumption))
        | (have g1 := Int.mul_nonneg hnb hx.le; have g2 := Int.mul_nonneg hnb' hx'.le; omega)

/-- The hypotheses of C17 are met: the patch (1,0) of a tract of half-size 5 and of a larger tract of
half-size 11, with the cells builder, compare equal. -/
example : ∃ t b t' b' p p', SaneBuilder Ex.cells ∧
    TractInfo.new Ex.env Ex.ops Ex.cells Ex.args = .ok (t, b) ∧
    TractInfo.new Ex.env Ex.ops Ex.cells { Ex.args with shape := .explicit 11 } = .ok (t', b') ∧
    t.numPatches ≠ t'.numPatches ∧
    t.getPatchInfo b (.index2D ⟨1, 0⟩) = .ok p ∧ t'.getPatchInfo b' (.index2D ⟨1, 0⟩) = .ok p' ∧
    p.eq p' = true := by
  have hb2 : (TractInfo.new Ex.env Ex.ops Ex.cells { Ex.args with shape := .explicit 11 }).map
    (fun r => r.1.numPatches) = .ok ⟨4, 4⟩ := by decide +kernel
  obtain ⟨⟨t, b⟩, h1, h2⟩ := Except.map_ok_inv Ex.cells_built
  obtain ⟨⟨t', b'⟩, h1', h2'⟩ := Except.map_ok_inv hb2
  simp only [Prod.mk.injEq] at h2
  dsimp only at h2'
  have B := TractInfo.new_built h1 (by decide) (by decide)
  have B' := TractInfo.new_built h1' (by decide) (by decide)
  have g := B.ready.getPatchInfo_ok (i := ⟨1, 0⟩) (by rw [B.border]; decide) (by rw [h2.1]; decide) t.wcs
  have g' := B'.ready.getPatchInfo_ok (i := ⟨1, 0⟩) (by rw [B'.border]; decide) (by rw [h2']; decide) t'.wcs
  refine ⟨t, b, t', b', _, _, Or.inr ⟨⟨[3, 3], 1, 2, 1⟩, 3, 3, Ex.cells_sane, rfl⟩, h1, h1', ?_, g, g', ?_⟩
  · rw [h2.1, h2']; decide
  · simp only [PatchInfo.eq, patchVal, B.kind, B'.kind, patchInnerBBox, B.dims, B'.dims, B.border, B'.border]
    rfl

end Skymap
