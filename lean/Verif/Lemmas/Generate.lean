import Verif.Props.RingsFind

/-! # When tract generation succeeds -/

set_option linter.unusedSectionVars false

namespace Skymap
variable {Sky K : Type} [Field K] [LinearOrder K] [FloorRing K]

theorem includeAll_total {tweak : K → K} {wcs : Wcs Sky K} (l : List Sky) (hw : ∀ c ∈ l, ∃ q, wcs.skyToPixel c = .pix q) (b : Box2D K) :
    ∃ b', includeAll tweak wcs l b = .ok b' := by
  induction l generalizing b with
  | nil => exact ⟨b, rfl⟩
  | cons c l ih =>
    obtain ⟨q, hq⟩ := hw c (by simp)
    obtain ⟨b', hb⟩ : ∃ b', b.inclRes tweak (wcs.skyToPixel c) = .ok b' := by rw [hq]; exact ⟨_, rfl⟩
    unfold includeAll
    rw [hb]
    exact ih (fun c hc => hw c (by simp [hc])) b'

/-- A tract can be built if the sample points have pixels and patches have a positive size. -/
theorem TractInfo.new_total (env : FloatEnv K) (ops : SkyOps Sky K) (b : TractBuilder) (a : TractArgs Sky K)
    (hx : 0 < b.patchInnerDimensions.x) (hy : 0 < b.patchInnerDimensions.y)
    (hw : ∀ c ∈ samplePoints ops a, ∃ q, a.wcs.skyToPixel c = .pix q) : ∃ r, TractInfo.new env ops b a = .ok r := by
  obtain ⟨mb, hm⟩ := includeAll_total (tweak := env.tweak) (samplePoints ops a) hw .empty
  unfold TractInfo.new minimumBoundingBox
  rw [hm]
  unfold TractBuilder.setupPatches
  simp only [bind, Except.bind, TractBuilder.setupAxis_pos _ _ _ hx, TractBuilder.setupAxis_pos _ _ _ hy, pure, Except.pure]
  exact ⟨_, rfl⟩

/-- All accesses of a caching sky map succeed if all tracts can be built. -/
theorem CachingSkyMap.getItem_total {m : CachingDef Sky K} {b₀ : TractBuilder} {s : MapState Sky K}
    (h : (CachingSkyMap.skyMapOps m).After (CachingSkyMap.init m b₀) s) {i : Int} (hi : 0 ≤ i ∧ i < m.numTracts)
    (hf : ∃ r, CachingSkyMap.fresh m b₀ i = .ok r) : ∃ r s', CachingSkyMap.getItem m i s = (.ok r, s') := by
  rcases getItem_spec ((Inv.init m b₀).after h) i with ⟨h1, -⟩ | ⟨k, rfl, hk, ⟨r, -, g⟩ | ⟨-, e, g, -⟩ | ⟨-, t, b, -, g⟩⟩
  · exact absurd hi h1
  · exact ⟨_, _, g⟩
  · obtain ⟨r, hr⟩ := hf
    rw [g] at hr; cases hr
  · exact ⟨_, _, g⟩

namespace Rings
open FloatArith (exact)
variable {c : RingsConfig ℝ} {R : Rings ℝ}
variable {env : FloatEnv ℝ} {ops : SkyOps (SpherePoint ℝ) ℝ} {mk : SpherePoint ℝ → Wcs (SpherePoint ℝ) ℝ} {b₀ : TractBuilder}
variable {s s' : MapState (SpherePoint ℝ) ℝ} {p : SpherePoint ℝ} {l : List (TractRef (SpherePoint ℝ) ℝ)}

/-- Exact arithmetic: the tracts of a version 1 map can be generated if the projections are defined at their sample points (at least near
the tract centre). -/
theorem generate_at (h : Rings.new exact c 1 = .ok R) (hx : 0 < b₀.patchInnerDimensions.x) (hy : 0 < b₀.patchInnerDimensions.y)
    (hw : ∀ ctr b, ∃ q, (mk ctr).skyToPixel
      (ops.offset ctr b (exact.mul (1 / 2) R.ringSize + exact.deg2rad R.config.tractOverlap)) = .pix q) {i : Int} (hi : 0 ≤ i ∧ i < R.numTracts)
    (hs : (skyMapOps exact R env ops mk).After (init exact R env ops mk b₀) s) :
    ∃ r s', (skyMapOps exact R env ops mk).getItem i s = (.ok r, s') := by
  have h2 := (new_wf h).1.numTracts_ge
  refine CachingSkyMap.getItem_total hs (by change 0 ≤ i ∧ i < ((R.numTracts.toNat : Nat) : Int); omega) ?_
  obtain ⟨q, hq, -⟩ := C28_center h hi
  obtain ⟨g, hg⟩ : ∃ g, R.getRaDecRange exact i = .ok g := by
    obtain ⟨wf, -⟩ := new_wf h
    obtain ⟨-, e2, -⟩ := new_exact h
    rcases wf.index_cases hi with rfl | rfl | ⟨k, n, u, a1, a2, a3, rfl⟩
    · exact ⟨_, range_south R⟩
    · exact ⟨_, range_north wf⟩
    · exact ⟨_, range_ring wf (wf.getRingIndices_ring e2 a1 a2 a3) a1⟩
  unfold CachingSkyMap.fresh
  have ha : ∃ a, (R.cachingDef exact env ops mk).tractArgs i = .ok a ∧ (∀ c ∈ samplePoints ops a, ∃ q, a.wcs.skyToPixel c = .pix q) := by
    obtain ⟨g1, g2, g3, g4⟩ := g
    refine ⟨{ id := i, ctrCoord := q, shape := .explicit (exact.mul (1 / 2) R.ringSize)
              tractOverlap := exact.deg2rad R.config.tractOverlap, wcs := mk q
              innerBoxCorners := some (⟨g1, g3⟩, ⟨g2, g4⟩) }, ?_, ?_⟩
    · simp only [cachingDef, hq, hg, bind, Except.bind, pure, Except.pure]
    · intro c hc
      simp only [samplePoints, List.mem_map] at hc
      obtain ⟨j, -, rfl⟩ := hc
      exact hw _ _
  obtain ⟨a, h3, h4⟩ := ha
  rw [h3]
  exact TractInfo.new_total _ _ _ _ hx hy h4

theorem generate (h : Rings.new exact c 1 = .ok R) (hx : 0 < b₀.patchInnerDimensions.x) (hy : 0 < b₀.patchInnerDimensions.y)
    (hw : ∀ ctr b r, ∃ q, (mk ctr).skyToPixel (ops.offset ctr b r) = .pix q) {i : Int} (hi : 0 ≤ i ∧ i < R.numTracts)
    (hs : (skyMapOps exact R env ops mk).After (init exact R env ops mk b₀) s) :
    ∃ r s', (skyMapOps exact R env ops mk).getItem i s = (.ok r, s') :=
  generate_at h hx hy (fun ctr b => hw ctr b _) hi hs

/-- C31 and C33 are not vacuous: with a projection that is defined everywhere, `findAllTracts` returns for every position, from every
reachable state. -/
theorem findAllTracts_returns (h : Rings.new exact c 1 = .ok R) (h1 : 1 ≤ c.numRings) (h2 : c.numRings ≤ 2 ^ 31)
    (hx : 0 < b₀.patchInnerDimensions.x) (hy : 0 < b₀.patchInnerDimensions.y)
    (hw : ∀ ctr b r, ∃ q, (mk ctr).skyToPixel (ops.offset ctr b r) = .pix q)
    (hs : (skyMapOps exact R env ops mk).After (init exact R env ops mk b₀) s) (p : SpherePoint ℝ) :
    ∃ l s', R.findAllTracts exact (skyMapOps exact R env ops mk) p s = (.ok l, s') :=
  C31_total FloatArith.exact_ieee h h1 h2 fun _ hi _ ha => generate h hx hy hw hi (hs.trans ha)

example : ∃ (R : Rings ℝ) (env : FloatEnv ℝ) (ops : SkyOps (SpherePoint ℝ) ℝ) (mk : SpherePoint ℝ → Wcs (SpherePoint ℝ) ℝ),
    Rings.new exact ⟨120, 0, 1 / 60⟩ 1 = .ok R ∧
    ∃ l s', R.findAllTracts exact (skyMapOps exact R env ops mk) ⟨1, 1⟩ (init exact R env ops mk Ex.legacy) = (.ok l, s') := by
  obtain ⟨R, hR⟩ := new_ok ⟨120, 0, 1 / 60⟩ (.inr rfl)
  refine ⟨R, ⟨id, fun x => x + 1, ⟨0, 0⟩⟩, ⟨fun c b r => ⟨c.lon + b / 1000 * r, c.lat + r⟩, fun a b => |a.lon - b.lon|⟩,
    fun _ => ⟨fun c => .pix ⟨100 * c.lon, 100 * c.lat⟩, fun q => ⟨q.x / 100, q.y / 100⟩⟩, hR, ?_⟩
  exact findAllTracts_returns hR (by norm_num) (by norm_num) (by decide) (by decide) (fun _ _ _ => ⟨_, rfl⟩)
    (SkyMapOps.After.refl _) _

end Rings
end Skymap
