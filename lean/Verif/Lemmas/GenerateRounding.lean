import Verif.Lemmas.Generate
import Verif.Props.RingsCenter

/-! # When tract generation succeeds, with rounded arithmetic -/

namespace Skymap
namespace Rings
variable {A : FloatArith ℝ} {c : RingsConfig ℝ} {R : Rings ℝ}
variable {env : FloatEnv ℝ} {ops : SkyOps (SpherePoint ℝ) ℝ} {mk : SpherePoint ℝ → Wcs (SpherePoint ℝ) ℝ} {b₀ : TractBuilder}
variable {s : MapState (SpherePoint ℝ) ℝ}

/-- Rounded arithmetic: the tracts of a version 1 map can be generated if the projections are defined at their sample points. -/
theorem generate_rounding (hA : A.Ieee) (hh : A.HalfPi) (h : Rings.new A c 1 = .ok R) (h1 : 1 ≤ c.numRings) (h2 : c.numRings ≤ 2 ^ 31)
    (hr : |c.raStart| ≤ 360) (hx : 0 < b₀.patchInnerDimensions.x) (hy : 0 < b₀.patchInnerDimensions.y)
    (hw : ∀ ctr b, ∃ q, (mk ctr).skyToPixel
      (ops.offset ctr b (A.mul (1 / 2) R.ringSize + A.deg2rad R.config.tractOverlap)) = .pix q) {i : Int} (hi : 0 ≤ i ∧ i < R.numTracts)
    (hs : (skyMapOps A R env ops mk).After (init A R env ops mk b₀) s) :
    ∃ r s', (skyMapOps A R env ops mk).getItem i s = (.ok r, s') := by
  obtain ⟨wf, -⟩ := new_wf_rounding hA h h1 h2
  obtain ⟨e1, e2, -⟩ := new_attr h
  have h3 := wf.numTracts_ge
  refine CachingSkyMap.getItem_total hs (by change 0 ≤ i ∧ i < ((R.numTracts.toNat : Nat) : Int); omega) ?_
  obtain ⟨q, hq, -⟩ := C28_rounding hA hh h h1 h2 hr hi
  obtain ⟨g, hg⟩ : ∃ g, R.getRaDecRange A i = .ok g := by
    unfold getRaDecRange
    rcases wf.index_cases hi with rfl | rfl | ⟨k, n, u, a1, a2, a3, rfl⟩
    · rw [getRingIndices_south]
      exact ⟨_, rfl⟩
    · rw [wf.getRingIndices_north]
      simp only [bind, Except.bind]
      rw [if_neg (by omega), if_pos trivial]
      exact ⟨_, rfl⟩
    · have := wf.lt_numRings a1
      rw [wf.getRingIndices_ring e2 a1 a2 a3]
      simp only [bind, Except.bind]
      rw [if_neg (by omega), if_neg (by omega), CachingSkyMap.pyGetItem_nat a1]
      exact ⟨_, rfl⟩
  unfold CachingSkyMap.fresh
  have ha : ∃ a, (R.cachingDef A env ops mk).tractArgs i = .ok a ∧ (∀ c ∈ samplePoints ops a, ∃ q, a.wcs.skyToPixel c = .pix q) := by
    obtain ⟨g1, g2, g3, g4⟩ := g
    refine ⟨{ id := i, ctrCoord := q, shape := .explicit (A.mul (1 / 2) R.ringSize)
              tractOverlap := A.deg2rad R.config.tractOverlap, wcs := mk q
              innerBoxCorners := some (⟨g1, g3⟩, ⟨g2, g4⟩) }, ?_, ?_⟩
    · simp only [cachingDef, hq, hg, bind, Except.bind, pure, Except.pure]
    · intro c hc
      simp only [samplePoints, List.mem_map] at hc
      obtain ⟨j, -, rfl⟩ := hc
      exact hw _ _
  obtain ⟨a, h3, h4⟩ := ha
  rw [h3]
  exact TractInfo.new_total _ _ _ _ hx hy h4

end Rings
end Skymap
