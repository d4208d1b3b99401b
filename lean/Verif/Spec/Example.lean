import Verif.Spec.Basic
import Mathlib.Data.Rat.Floor
import Mathlib.Tactic.NormNum

/-!
# A concrete flat sky, used to show that hypotheses of theorems are met

Positions on the sky are rational points of a plane and a pixel is one unit of the plane.
-/

namespace Skymap.Ex

/-- Projection that fails for |x| > 1000, gives NaN for |y| > 1000 and otherwise is the identity. -/
def wcs : Wcs (P2 ℚ) ℚ where
  skyToPixel c := if |c.x| > 1000 then .raises else if |c.y| > 1000 then .nonfinite else .pix c
  pixelToSky p := p

/-- Offsets along the axes only: bearing 0, 90, 180, 270 degrees. -/
def ops : SkyOps (P2 ℚ) ℚ where
  offset c bearing r :=
    if bearing = 0 then ⟨c.x + r, c.y⟩ else if bearing = 90 then ⟨c.x, c.y + r⟩
    else if bearing = 180 then ⟨c.x - r, c.y⟩ else if bearing = 270 then ⟨c.x, c.y - r⟩ else c
  separation a b := |a.x - b.x| + |a.y - b.y|

/-- A rounding that is not the identity. -/
def rnd (x : ℚ) : ℚ := if x.den = 1 then x else x + x / 2 ^ 60

def env : FloatEnv ℚ := ⟨rnd, fun x => x + 1 / 1024, ⟨-2147483648, -2147483648⟩⟩

theorem env_ok : env.Ok where
  rnd :=
    { err := by
        intro x
        change |rnd x - x| ≤ _
        unfold rnd
        split
        · simp; positivity
        · have : x + x / 2 ^ 60 - x = x / 2 ^ 60 := by ring
          rw [this, abs_div, abs_of_pos (by norm_num : (0 : ℚ) < 2 ^ 60)]
          apply div_le_div_of_nonneg_left (abs_nonneg x) (by norm_num) (by norm_num)
      int_exact := by
        intro n _
        change rnd n = n
        simp [rnd] }
  tweak_gt := by intro x; change x < x + 1 / 1024; linarith
  tweak_le := by intro x; change x + 1 / 1024 ≤ x + 1; linarith
  nan_off := by decide

/-- Patches of 4 by 3 pixels with a border of 2. -/
def legacy : TractBuilder := ⟨.legacy, ⟨4, 3⟩, 2, none⟩

/-- Patches of 2 by 2 cells of 3 by 3 pixels, one border cell, cell border 1. -/
def cells : TractBuilder := ⟨.cells ⟨⟨3, 3⟩, 1, 2, 1⟩, ⟨6, 6⟩, 4, none⟩

/-- A tract of half-size 5 around (20, 30). -/
def args : TractArgs (P2 ℚ) ℚ :=
  { id := 7, ctrCoord := ⟨20, 30⟩, shape := .explicit 5, tractOverlap := 0, wcs := wcs }

/-- The tract built from `args` by the legacy builder: 3 by 4 patches. -/
theorem legacy_built : (TractInfo.new env ops legacy args).map
    (fun r => (r.1.numPatches, r.1.bbox, r.2.state)) =
      .ok (⟨3, 4⟩, ⟨⟨0, 0⟩, ⟨12, 12⟩⟩, some ⟨⟨3, 4⟩, ⟨⟨0, 0⟩, ⟨12, 12⟩⟩⟩) := by
  decide +kernel

/-- The tract built from `args` by the cells builder: 2 by 2 patches. -/
theorem cells_built : (TractInfo.new env ops cells args).map
    (fun r => (r.1.numPatches, r.1.bbox, r.2.state)) =
      .ok (⟨2, 2⟩, ⟨⟨0, 0⟩, ⟨12, 12⟩⟩, some ⟨⟨2, 2⟩, ⟨⟨0, 0⟩, ⟨12, 12⟩⟩⟩) := by
  decide +kernel

end Skymap.Ex

namespace Skymap

theorem Except.map_ok_inv {α β : Type} {x : PyM α} {f : α → β} {v : β} (h : x.map f = .ok v) :
    ∃ a, x = .ok a ∧ f a = v := by
  cases x with
  | error e => simp [Except.map] at h
  | ok a => exact ⟨a, rfl, by simpa [Except.map] using h⟩

/-- The hypotheses shared by most patch theorems are met by a tract of 3 by 4 patches. -/
theorem Ex.legacy_hyps : ∃ t b, TractInfo.new Ex.env Ex.ops Ex.legacy Ex.args = .ok (t, b) ∧
    0 < Ex.legacy.patchInnerDimensions.x ∧ 0 < Ex.legacy.patchInnerDimensions.y ∧ 0 ≤ Ex.legacy.patchBorder ∧
    t.numPatches = ⟨3, 4⟩ ∧ t.bbox = ⟨⟨0, 0⟩, ⟨12, 12⟩⟩ := by
  obtain ⟨⟨t, b⟩, h1, h2⟩ := Except.map_ok_inv Ex.legacy_built
  simp only [Prod.mk.injEq] at h2
  exact ⟨t, b, h1, by decide, by decide, by decide, h2.1, h2.2.1⟩

/-- And by a tract of 2 by 2 patches divided into cells. -/
theorem Ex.cells_hyps : ∃ t b, TractInfo.new Ex.env Ex.ops Ex.cells Ex.args = .ok (t, b) ∧
    0 < Ex.cells.patchInnerDimensions.x ∧ 0 < Ex.cells.patchInnerDimensions.y ∧ 0 ≤ Ex.cells.patchBorder ∧
    t.numPatches = ⟨2, 2⟩ ∧ t.bbox = ⟨⟨0, 0⟩, ⟨12, 12⟩⟩ := by
  obtain ⟨⟨t, b⟩, h1, h2⟩ := Except.map_ok_inv Ex.cells_built
  simp only [Prod.mk.injEq] at h2
  exact ⟨t, b, h1, by decide, by decide, by decide, h2.1, h2.2.1⟩

end Skymap
