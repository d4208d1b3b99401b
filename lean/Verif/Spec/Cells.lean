import Verif.Spec.Basic

/-! # Specification vocabulary for cells -/

namespace Skymap

/-- The pixels within `rx` in x and `ry` in y of a pixel of `b`. -/
def Box2I.NearXY (b : Box2I) (rx ry : Int) (p : Point2I) : Prop :=
  ∃ q : Point2I, b.contains q = true ∧ |p.x - q.x| ≤ rx ∧ |p.y - q.y| ≤ ry

/-- A cells configuration with cells of `cx` by `cy` pixels and sensible numbers. -/
structure CellTractBuilderConfig.Sane (cfg : CellTractBuilderConfig) (cx cy : Int) : Prop where
  dims : cfg.cellInnerDimensions = [cx, cy]
  cx_pos : 0 < cx
  cy_pos : 0 < cy
  per_pos : 0 < cfg.numCellsPerPatchInner
  nb_nonneg : 0 ≤ cfg.numCellsInPatchBorder
  cb_nonneg : 0 ≤ cfg.cellBorder

/-- A tract builder made from a sensible configuration of either class. -/
def SaneBuilder (b₀ : TractBuilder) : Prop :=
  (∃ (cfg : LegacyTractBuilderConfig) (dx dy : Int), cfg.patchInnerDimensions = [dx, dy] ∧ 0 < dx ∧ 0 < dy ∧
    0 ≤ cfg.patchBorder ∧ LegacyTractBuilder.new cfg = .ok b₀) ∨
  (∃ (cfg : CellTractBuilderConfig) (cx cy : Int), cfg.Sane cx cy ∧ CellTractBuilder.new cfg = .ok b₀)

end Skymap
