import Verif.Props.Cells
import Mathlib.Tactic.FieldSimp

/-!
# C52: on-sky polygons of patches and cells

A polygon is the list of its corners on the sky: (min,min), (max,min), (max,max), (min,max) in pixel x, y.
-/

namespace Skymap
open TractBuilder

variable {Sky K : Type} [Field K] [LinearOrder K] [FloorRing K]
variable {env : FloatEnv K} {ops : SkyOps Sky K} {b₀ b : TractBuilder} {a : TractArgs Sky K} {t : TractInfo Sky K}
set_option linter.unusedSectionVars false
variable {cfg : CellTractBuilderConfig} {cx cy : Int}

/-! ## Specification vocabulary -/

/-- The sky position, under a WCS, of the lower left corner of a pixel (pixel centres have integer coordinates). -/
def pixelCorner (w : Wcs Sky K) (x y : Int) : Sky := w.pixelToSky ⟨(x : K) - 1 / 2, (y : K) - 1 / 2⟩

/-- The four corners of the rectangle of pixels from `x0`, `y0` up to, not including, `x1`, `y1`. -/
def rectangle (w : Wcs Sky K) (x0 y0 x1 y1 : Int) : List Sky :=
  [pixelCorner w x0 y0, pixelCorner w x1 y0, pixelCorner w x1 y1, pixelCorner w x0 y1]

/-! ## C52 -/

theorem makeSkyPolygon_eq (bbox : Box2I) (w : Wcs Sky K) (h : bbox.isEmpty = false) :
    makeSkyPolygonFromBBox bbox w =
      rectangle w bbox.min.x bbox.min.y (bbox.min.x + bbox.dim.x) (bbox.min.y + bbox.dim.y) := by
  unfold makeSkyPolygonFromBBox Box2D.ofBox2I
  rw [h]
  simp [Box2D.getCorners, rectangle, pixelCorner]

/-- C52: the inner polygon of patch (x, y) has as corners the images, under the given WCS or else the tract's, of the
points (x, y), (x+1, y), (x+1, y+1), (x, y+1) of the lattice of patch corners. -/
theorem C52_patch_inner (h : TractInfo.new env ops b₀ a = .ok (t, b))
    (hx : 0 < b₀.patchInnerDimensions.x) (hy : 0 < b₀.patchInnerDimensions.y) (hb : 0 ≤ b₀.patchBorder)
    (i : Index2D) (p : PatchInfo (Wcs Sky K)) (hp : t.getPatchInfo b (.index2D i) = .ok p) (w : Option (Wcs Sky K)) :
    p.getInnerSkyPolygon w = rectangle (w.getD t.wcs)
      (i.x * b₀.patchInnerDimensions.x) (i.y * b₀.patchInnerDimensions.y)
      ((i.x + 1) * b₀.patchInnerDimensions.x) ((i.y + 1) * b₀.patchInnerDimensions.y) := by
  have B := TractInfo.new_built h hx hy
  obtain ⟨-, rfl⟩ := (B.ready.getPatchInfo_iff (by rw [B.border]; exact hb) _ _ _).1 hp
  unfold PatchInfo.getInnerSkyPolygon getSkyPolygon
  rw [patchVal_inner, patchVal_wcs, patchInnerBBox_eq B.ready.dx B.ready.dy, makeSkyPolygon_eq, B.dims]
  · dsimp only
    rw [show (i.x + 1) * b₀.patchInnerDimensions.x = i.x * b₀.patchInnerDimensions.x + b₀.patchInnerDimensions.x by ring,
      show (i.y + 1) * b₀.patchInnerDimensions.y = i.y * b₀.patchInnerDimensions.y + b₀.patchInnerDimensions.y by ring]
  · unfold Box2I.isEmpty
    have := B.ready.dx
    simp; omega

/-- C52: horizontally and vertically adjacent patches share exactly the two corners of their common edge, and diagonal
neighbours their common corner, whatever WCS is used for both. -/
theorem C52_adjacent_patches (h : TractInfo.new env ops b₀ a = .ok (t, b))
    (hx : 0 < b₀.patchInnerDimensions.x) (hy : 0 < b₀.patchInnerDimensions.y) (hb : 0 ≤ b₀.patchBorder)
    (x y : Int) (p r u d : PatchInfo (Wcs Sky K)) (w : Option (Wcs Sky K))
    (hp : t.getPatchInfo b (.index2D ⟨x, y⟩) = .ok p) (hr : t.getPatchInfo b (.index2D ⟨x + 1, y⟩) = .ok r)
    (hu : t.getPatchInfo b (.index2D ⟨x, y + 1⟩) = .ok u) (hd : t.getPatchInfo b (.index2D ⟨x + 1, y + 1⟩) = .ok d) :
    ((p.getInnerSkyPolygon w)[1]? = (r.getInnerSkyPolygon w)[0]? ∧
      (p.getInnerSkyPolygon w)[2]? = (r.getInnerSkyPolygon w)[3]?) ∧
    ((p.getInnerSkyPolygon w)[3]? = (u.getInnerSkyPolygon w)[0]? ∧
      (p.getInnerSkyPolygon w)[2]? = (u.getInnerSkyPolygon w)[1]?) ∧
    (p.getInnerSkyPolygon w)[2]? = (d.getInnerSkyPolygon w)[0]? ∧
    (p.getInnerSkyPolygon w).length = 4 := by
  rw [C52_patch_inner h hx hy hb _ p hp, C52_patch_inner h hx hy hb _ r hr, C52_patch_inner h hx hy hb _ u hu,
    C52_patch_inner h hx hy hb _ d hd]
  simp [rectangle]

/-- C52: the corners of the outer polygon of a patch are those of the rectangle of pixels that the patch's outer box
contains (which pixels these are is C03 and C04). -/
theorem C52_patch_outer (h : TractInfo.new env ops b₀ a = .ok (t, b))
    (hx : 0 < b₀.patchInnerDimensions.x) (hy : 0 < b₀.patchInnerDimensions.y) (hb : 0 ≤ b₀.patchBorder)
    (i : Index2D) (p : PatchInfo (Wcs Sky K)) (hp : t.getPatchInfo b (.index2D i) = .ok p) (w : Option (Wcs Sky K)) :
    ∃ x0 y0 x1 y1, p.getOuterSkyPolygon w = rectangle (w.getD t.wcs) x0 y0 x1 y1 ∧
      (∀ q : Point2I, p.outerBBox.contains q = true ↔ x0 ≤ q.x ∧ q.x < x1 ∧ y0 ≤ q.y ∧ q.y < y1) := by
  have B := TractInfo.new_built h hx hy
  obtain ⟨hr, rfl⟩ := (B.ready.getPatchInfo_iff (by rw [B.border]; exact hb) _ _ _).1 hp
  have hc := B.ready.patchVal_outer_contains (by rw [B.border]; exact hb) hr t.wcs
  have hne : (b.patchVal t.numPatches i t.wcs).outerBBox.isEmpty = false := by
    unfold Box2I.containsBox at hc
    rw [patchInnerBBox_eq B.ready.dx B.ready.dy] at hc
    have h0 : b.patchInnerDimensions.x ≠ 0 := by have := B.ready.dx; omega
    simp only [Box2I.isEmpty, decide_eq_false h0, Bool.false_or, Bool.and_eq_true, Box2I.contains_iff] at hc
    unfold Box2I.isEmpty
    simp; omega
  generalize hO : (b.patchVal t.numPatches i t.wcs).outerBBox = O at hne
  refine ⟨O.min.x, O.min.y, O.min.x + O.dim.x, O.min.y + O.dim.y, ?_, fun q => ?_⟩
  · unfold PatchInfo.getOuterSkyPolygon getSkyPolygon
    rw [patchVal_wcs, hO, makeSkyPolygon_eq _ _ hne]
  · rw [Box2I.contains_iff]

/-- C52: the tract's outer polygon has the corners of its corner patches. -/
theorem C52_tract (h : TractInfo.new env ops b₀ a = .ok (t, b))
    (hx : 0 < b₀.patchInnerDimensions.x) (hy : 0 < b₀.patchInnerDimensions.y) (hb : 0 ≤ b₀.patchBorder)
    (p00 p10 p11 p01 : PatchInfo (Wcs Sky K))
    (h00 : t.getPatchInfo b (.index2D ⟨0, 0⟩) = .ok p00)
    (h10 : t.getPatchInfo b (.index2D ⟨t.numPatches.x - 1, 0⟩) = .ok p10)
    (h11 : t.getPatchInfo b (.index2D ⟨t.numPatches.x - 1, t.numPatches.y - 1⟩) = .ok p11)
    (h01 : t.getPatchInfo b (.index2D ⟨0, t.numPatches.y - 1⟩) = .ok p01) :
    t.getOuterSkyPolygon.map some = [(p00.getInnerSkyPolygon none)[0]?, (p10.getInnerSkyPolygon none)[1]?,
      (p11.getInnerSkyPolygon none)[2]?, (p01.getInnerSkyPolygon none)[3]?] := by
  rw [C52_patch_inner h hx hy hb _ _ h00, C52_patch_inner h hx hy hb _ _ h10, C52_patch_inner h hx hy hb _ _ h11,
    C52_patch_inner h hx hy hb _ _ h01]
  have B := TractInfo.new_built h hx hy
  have hr := ((B.ready.getPatchInfo_iff (by rw [B.border]; exact hb) _ _ _).1 h00).1
  obtain ⟨-, r1, -, r2⟩ := hr
  dsimp only at r1 r2
  unfold TractInfo.getOuterSkyPolygon TractInfo.getBBox
  rw [B.box, B.ready.tractBox r1 r2, makeSkyPolygon_eq, B.dims]
  · simp [rectangle, pixelCorner]
  · unfold Box2I.isEmpty
    have := mul_pos r1 B.ready.dx
    simp only [decide_eq_false_iff_not]; omega

/-- C52: cells: the inner polygon of cell j of patch i is the rectangle at the cell's place in the lattice of cell corners
that all patches of the tract share. -/
theorem C52_cell_inner (hs : cfg.Sane cx cy) (hnew : CellTractBuilder.new cfg = .ok b₀)
    (h : TractInfo.new env ops b₀ a = .ok (t, b)) (i j : Index2D) (p : PatchInfo (Wcs Sky K)) (c : CellInfo (Wcs Sky K))
    (hp : t.getPatchInfo b (.index2D i) = .ok p) (hc : p.getCellInfo (.index2D j) = .ok c) (w : Option (Wcs Sky K)) :
    let gx := i.x * cfg.numCellsPerPatchInner + j.x - cfg.numCellsInPatchBorder
    let gy := i.y * cfg.numCellsPerPatchInner + j.y - cfg.numCellsInPatchBorder
    c.getInnerSkyPolygon w = rectangle (w.getD t.wcs) (gx * cx) (gy * cy) ((gx + 1) * cx) ((gy + 1) * cy) ∧
    c.getOuterSkyPolygon w = rectangle (w.getD t.wcs) (gx * cx - cfg.cellBorder) (gy * cy - cfg.cellBorder)
      ((gx + 1) * cx + cfg.cellBorder) ((gy + 1) * cy + cfg.cellBorder) := by
  obtain ⟨C, hm, -, -, -⟩ := cellPatch_of_new hs hnew h hp
  have hw : p.wcs = t.wcs := by
    have hd : b₀.patchInnerDimensions = ⟨cx * cfg.numCellsPerPatchInner, cy * cfg.numCellsPerPatchInner⟩ := by
      unfold CellTractBuilder.new at hnew
      rw [hs.dims] at hnew
      simp only [Except.ok.injEq] at hnew
      rw [← hnew]
    have hbd : b₀.patchBorder = cfg.numCellsInPatchBorder * cx + cfg.cellBorder := by
      unfold CellTractBuilder.new at hnew
      rw [hs.dims] at hnew
      simp only [Except.ok.injEq] at hnew
      rw [← hnew]
    have B := TractInfo.new_built h (by rw [hd]; exact mul_pos hs.cx_pos hs.per_pos)
      (by rw [hd]; exact mul_pos hs.cy_pos hs.per_pos)
    have hb : 0 ≤ b.patchBorder := by
      rw [B.border, hbd]
      have := Int.mul_nonneg hs.nb_nonneg hs.cx_pos.le
      have := hs.cb_nonneg
      omega
    obtain ⟨-, rfl⟩ := (B.ready.getPatchInfo_iff hb _ _ _).1 hp
    exact patchVal_wcs _ _ _ _
  obtain ⟨-, rfl⟩ := (C.getCellInfo_iff j c).1 hc
  have hx := hs.cx_pos
  have hcb := hs.cb_nonneg
  dsimp only
  constructor
  · unfold CellInfo.getInnerSkyPolygon getSkyPolygon
    rw [makeSkyPolygon_eq _ _ (by unfold Box2I.isEmpty cellVal cellBox; exact decide_eq_false (by dsimp only; omega))]
    simp only [cellVal, cellBox, hm, hw]
    congr 1 <;> ring
  · unfold CellInfo.getOuterSkyPolygon getSkyPolygon
    rw [makeSkyPolygon_eq _ _ (by unfold Box2I.isEmpty cellVal cellOuter; exact decide_eq_false (by dsimp only; omega))]
    simp only [cellVal, cellOuter, hm, hw]
    congr 1 <;> ring

/-- C52: adjacent cells share the corners of their common edge, also across the border between two patches: here cell
(jx, jy) of patch i and the cell to the right of it, or above it, seen from patch i'. -/
theorem C52_adjacent_cells (hs : cfg.Sane cx cy) (hnew : CellTractBuilder.new cfg = .ok b₀)
    (h : TractInfo.new env ops b₀ a = .ok (t, b)) (i i' j j' : Index2D) (p p' : PatchInfo (Wcs Sky K))
    (c c' : CellInfo (Wcs Sky K)) (w : Option (Wcs Sky K))
    (hp : t.getPatchInfo b (.index2D i) = .ok p) (hc : p.getCellInfo (.index2D j) = .ok c)
    (hp' : t.getPatchInfo b (.index2D i') = .ok p') (hc' : p'.getCellInfo (.index2D j') = .ok c') :
    (i'.x * cfg.numCellsPerPatchInner + j'.x = i.x * cfg.numCellsPerPatchInner + j.x + 1 →
      i'.y * cfg.numCellsPerPatchInner + j'.y = i.y * cfg.numCellsPerPatchInner + j.y →
      (c.getInnerSkyPolygon w)[1]? = (c'.getInnerSkyPolygon w)[0]? ∧
      (c.getInnerSkyPolygon w)[2]? = (c'.getInnerSkyPolygon w)[3]?) ∧
    (i'.x * cfg.numCellsPerPatchInner + j'.x = i.x * cfg.numCellsPerPatchInner + j.x →
      i'.y * cfg.numCellsPerPatchInner + j'.y = i.y * cfg.numCellsPerPatchInner + j.y + 1 →
      (c.getInnerSkyPolygon w)[3]? = (c'.getInnerSkyPolygon w)[0]? ∧
      (c.getInnerSkyPolygon w)[2]? = (c'.getInnerSkyPolygon w)[1]?) := by
  have e := (C52_cell_inner hs hnew h i j p c hp hc w).1
  have e' := (C52_cell_inner hs hnew h i' j' p' c' hp' hc' w).1
  rw [e, e']
  constructor
  · intro e1 e2
    rw [e1, e2]
    simp only [rectangle, List.getElem?_cons_zero, List.getElem?_cons_succ]
    constructor <;> congr 2 <;> ring
  · intro e1 e2
    rw [e1, e2]
    simp only [rectangle, List.getElem?_cons_zero, List.getElem?_cons_succ]
    constructor <;> congr 2 <;> ring

/-- The hypotheses are met: patches (0,0), (1,0), (0,1), (1,1) of the example tract, and cells (3,1) of patch (0,0) and
(2,1) of patch (1,0), which are neighbours: 0*2+3+1 = 1*2+2. -/
example : ∃ t b p r u d c c', TractInfo.new Ex.env Ex.ops Ex.cells Ex.args = .ok (t, b) ∧
    t.getPatchInfo b (.index2D ⟨0, 0⟩) = .ok p ∧ t.getPatchInfo b (.index2D ⟨0 + 1, 0⟩) = .ok r ∧
    t.getPatchInfo b (.index2D ⟨0, 0 + 1⟩) = .ok u ∧ t.getPatchInfo b (.index2D ⟨0 + 1, 0 + 1⟩) = .ok d ∧
    p.getCellInfo (.index2D ⟨3, 1⟩) = .ok c ∧ r.getCellInfo (.index2D ⟨2, 1⟩) = .ok c' := by
  obtain ⟨⟨t, b⟩, h1, h2⟩ := Except.map_ok_inv Ex.cells_built
  simp only [Prod.mk.injEq] at h2
  have B := TractInfo.new_built h1 (by decide) (by decide)
  have g : ∀ i : Index2D, InRange ⟨2, 2⟩ i → ∃ p, t.getPatchInfo b (.index2D i) = .ok p := fun i hi =>
    ⟨_, B.ready.getPatchInfo_ok (by rw [B.border]; decide) (by rw [h2.1]; exact hi) t.wcs⟩
  obtain ⟨p, hp⟩ := g ⟨0, 0⟩ (by decide)
  obtain ⟨r, hr⟩ := g ⟨0 + 1, 0⟩ (by decide)
  obtain ⟨u, hu⟩ := g ⟨0, 0 + 1⟩ (by decide)
  obtain ⟨d, hd⟩ := g ⟨0 + 1, 0 + 1⟩ (by decide)
  obtain ⟨C, -⟩ := cellPatch_of_new (cfg := ⟨[3, 3], 1, 2, 1⟩) Ex.cells_sane rfl h1 hp
  obtain ⟨C', -⟩ := cellPatch_of_new (cfg := ⟨[3, 3], 1, 2, 1⟩) Ex.cells_sane rfl h1 hr
  exact ⟨t, b, p, r, u, d, _, _, h1, hp, hr, hu, hd, C.getCellInfo_ok (by rw [C.num]; decide),
    C'.getCellInfo_ok (by rw [C'.num]; decide)⟩

end Skymap
