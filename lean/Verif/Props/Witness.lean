import Verif.Props.RingsV0
import Verif.Props.RingsRegionRounding
import Verif.Props.RingsRegistered
import Verif.Props.Int32Maps
import Verif.Props.Defaults

/-!
# More concrete cases that meet the hypotheses of theorems

For theorems whose hypotheses are not shown to be met next to them.
-/

set_option linter.unusedSectionVars false

namespace Skymap
open Real

namespace Rings
open FloatArith (exact)

/-- A flat sky on which the first sample point of a tract is its centre, and a projection that is defined everywhere. -/
noncomputable def flatOps : SkyOps (SpherePoint ℝ) ℝ := ⟨fun c b r => ⟨c.lon + b / 1000 * r, c.lat + b * r⟩, fun a b => |a.lon - b.lon|⟩
noncomputable def flatWcs (ctr : SpherePoint ℝ) : Wcs (SpherePoint ℝ) ℝ :=
  ⟨fun c => .pix ⟨100 * (c.lon - ctr.lon), 100 * (c.lat - ctr.lat)⟩, fun q => ⟨q.x / 100 + ctr.lon, q.y / 100 + ctr.lat⟩⟩

/-- The tracts of a version 0 sky map can be generated. -/
theorem generate_v0 {c : RingsConfig ℝ} {R : Rings ℝ} (h : Rings.new exact c 0 = .ok R) {i : Int} (hi : 0 ≤ i ∧ i < R.numTracts)
    {s : MapState (SpherePoint ℝ) ℝ}
    (hs : (skyMapOps exact R Ex.realEnv flatOps flatWcs).After (init exact R Ex.realEnv flatOps flatWcs Ex.legacy) s) :
    ∃ r s', (skyMapOps exact R Ex.realEnv flatOps flatWcs).getItem i s = (.ok r, s') := by
  have h2 := (new_wf h).1.numTracts_ge
  refine CachingSkyMap.getItem_total hs (by change 0 ≤ i ∧ i < ((R.numTracts.toNat : Nat) : Int); omega) ?_
  obtain ⟨R', h'⟩ := new_ok c (v := 1) (.inr rfl)
  obtain ⟨j, hj, e1, e2⟩ := C29_tracts h h' hi
  obtain ⟨q, hq, -⟩ := C28_center h' hj
  obtain ⟨g, hg⟩ : ∃ g, R'.getRaDecRange exact j = .ok g := by
    obtain ⟨wf, -⟩ := new_wf h'
    obtain ⟨-, e3, -⟩ := new_exact h'
    rcases wf.index_cases hj with rfl | rfl | ⟨k, n, u, a1, a2, a3, rfl⟩
    · exact ⟨_, range_south R'⟩
    · exact ⟨_, range_north wf⟩
    · exact ⟨_, range_ring wf (wf.getRingIndices_ring e3 a1 a2 a3) a1⟩
  rw [← e1] at hq
  rw [← e2] at hg
  unfold CachingSkyMap.fresh
  have ha : ∃ a, (R.cachingDef exact Ex.realEnv flatOps flatWcs).tractArgs i = .ok a ∧ a.wcs = flatWcs q := by
    obtain ⟨g1, g2, g3, g4⟩ := g
    refine ⟨{ id := i, ctrCoord := q, shape := .explicit (exact.mul (1 / 2) R.ringSize)
              tractOverlap := exact.deg2rad R.config.tractOverlap, wcs := flatWcs q
              innerBoxCorners := some (⟨g1, g3⟩, ⟨g2, g4⟩) }, ?_, rfl⟩
    simp only [cachingDef, hq, hg, bind, Except.bind, pure, Except.pure]
  obtain ⟨a, h3, h4⟩ := ha
  rw [h3]
  exact TractInfo.new_total _ _ _ _ (by decide) (by decide) fun c _ => ⟨_, by rw [h4]; rfl⟩

/-- `C31_v0_duplicate`: version 0, three rings, the north pole: the tract at the north pole is listed twice. -/
example : ∃ (R : Rings ℝ) (l : List (TractRef (SpherePoint ℝ) ℝ)) (s' : MapState (SpherePoint ℝ) ℝ) (north : TractRef (SpherePoint ℝ) ℝ),
    Rings.new exact ⟨3, 0, 8⟩ 0 = .ok R ∧
    R.findAllTracts exact (skyMapOps exact R Ex.realEnv flatOps flatWcs) ⟨0, π / 2⟩ (init exact R Ex.realEnv flatOps flatWcs Ex.legacy) = (.ok l, s') ∧
    ∃ l₁ l₂ l₃, l = l₁ ++ north :: l₂ ++ north :: l₃ := by
  have hp := pi_pos
  obtain ⟨R, h⟩ := new_ok ⟨3, 0, 8⟩ (v := 0) (.inl rfl)
  obtain ⟨l, s', hl⟩ := C31_total (p := ⟨0, π / 2⟩) (s := init exact R Ex.realEnv flatOps flatWcs Ex.legacy) FloatArith.exact_ieee h (by norm_num)
    (by norm_num) fun i hi s₁ hs₁ => generate_v0 h hi hs₁
  obtain ⟨south, north, -, hn, -, -⟩ := C31_caps FloatArith.exact_ieee h (by norm_num) (by norm_num) (SkyMapOps.After.refl _) hl
  refine ⟨R, l, s', north, h, hl, ?_⟩
  obtain ⟨s0, s1⟩ := size_pos h
  obtain ⟨e1, -, -, -, -, e6⟩ := new_exact h
  refine C31_v0_duplicate FloatArith.exact_ieee h (by norm_num) (by norm_num) (SkyMapOps.After.refl _) hl ?_ ?_ hn ?_
  · have : R.decToRingNum exact (π / 2) = ((3 : ℕ) : ℤ) := (dec_north h _).2 (by push_cast at *; linarith)
    dsimp only
    rw [this]
    norm_num
  · obtain ⟨n, hn1, hn2⟩ := getNum (new_wf h).1 (k := 2) (by rw [e1]; norm_num)
    have := ra_exact (new_wf h).1 hn1 (0 : ℝ)
    rw [e6] at this
    have e : ⌊(0 - (⟨3, 0, 8⟩ : RingsConfig ℝ).raStart * (π / 180)) * n / (2 * π) + 1 / 2⌋ = 0 := by norm_num
    rw [e] at this
    simpa using this
  · obtain ⟨k, hk, -, b, hf, -⟩ := fresh_of_getItem ((findAll_spec FloatArith.exact_ieee h (by norm_num) (by norm_num) (permanent_of_reachable (SkyMapOps.After.refl _)) hl).1) hn
    unfold CachingSkyMap.fresh at hf
    rw [← hk] at hf
    cases ha : (R.cachingDef exact Ex.realEnv flatOps flatWcs).tractArgs (R.numTracts - 1) with
    | error e => rw [ha] at hf; cases hf
    | ok a =>
      rw [ha] at hf
      have hf : TractInfo.new Ex.realEnv flatOps Ex.legacy a = .ok (north.info, b) := hf
      simp only [cachingDef] at ha
      obtain ⟨q, hq, ha⟩ := bindOk ha
      obtain ⟨g, hg, ha⟩ := bindOk ha
      rw [center_north h] at hq
      obtain rfl := Except.ok.inj hq
      simp only [pure, Except.pure, Except.ok.injEq] at ha
      refine C12_covers_sample_points Ex.realEnv_ok hf (by decide) (by decide) _ ?_ ?_
      · rw [← ha]
        simp only [samplePoints, List.mem_map]
        exact ⟨0, by decide, by simp [flatOps]⟩
      · rw [← ha]
        exact fun h => by cases h

/-- `C55_disjoint`: the tract at the south pole and a tract of the first ring share positions of the parallel between them. -/
example : ∃ (R : Rings ℝ) (r₁ r₂ : TractRef (SpherePoint ℝ) ℝ) (c₁ c₂ d₁ d₂ : SpherePoint ℝ),
    Rings.new exact ⟨3, 0, 8⟩ 1 = .ok R ∧ r₁.info.getInnerSkyRegion = .inl (c₁, c₂) ∧ r₂.info.getInnerSkyRegion = .inl (d₁, d₂) ∧
    r₁.info.id ≠ r₂.info.id ∧ OnEdge c₁ c₂ ⟨1, R.ringSize * (1 / 2) - π / 2⟩ ∧ OnEdge d₁ d₂ ⟨1, R.ringSize * (1 / 2) - π / 2⟩ := by
  have hp := pi_gt_three
  obtain ⟨R, h⟩ := new_ok ⟨3, 0, 8⟩ (v := 1) (.inr rfl)
  obtain ⟨s0, s1⟩ := size_pos h
  push_cast at s1
  have hlat : |R.ringSize * (1 / 2) - π / 2| ≤ π / 2 := by rw [abs_le]; constructor <;> linarith
  have h0 := (new_wf h).1.numTracts_ge
  have gen : ∀ i, 0 ≤ i ∧ i < R.numTracts → ∃ r s', (skyMapOps exact R Ex.realEnv flatOps flatWcs).getItem i
      (init exact R Ex.realEnv flatOps flatWcs Ex.legacy) = (.ok r, s') := fun i hi =>
    generate h (by decide) (by decide) (fun _ _ _ => ⟨_, rfl⟩) hi (SkyMapOps.After.refl _)
  obtain ⟨i, hi, hin, hf⟩ := C27_findTract h (skyMapOps exact R Ex.realEnv flatOps flatWcs) ⟨1, R.ringSize * (1 / 2) - π / 2⟩
    ⟨by norm_num, by dsimp only; linarith⟩ hlat
  obtain ⟨r₁, s₁, g1⟩ := gen 0 (by omega)
  obtain ⟨r₂, s₂, g2⟩ := gen i hi
  have hi0 : i ≠ 0 := by
    rintro rfl
    obtain ⟨g, hg, h1⟩ := hin
    rw [range_south] at hg
    obtain rfl := Except.ok.inj hg
    rcases h1.2.2 with h2 | h2
    · omega
    · dsimp only at h2; linarith
  have g2' := g2
  rw [← hf] at g2'
  obtain ⟨d₁, d₂, e2, b2⟩ := C55_covers h (SkyMapOps.After.refl _) (p := ⟨1, R.ringSize * (1 / 2) - π / 2⟩)
    ⟨by norm_num, by dsimp only; linarith⟩ hlat g2'
  obtain ⟨g, hg, e1⟩ := region_of_getItem (SkyMapOps.After.refl _) g1
  rw [range_south] at hg
  obtain rfl := Except.ok.inj hg
  obtain ⟨o1, o2⟩ := C55_disjoint h (SkyMapOps.After.refl _) (SkyMapOps.After.refl _) (Ne.symm hi0) g1 g2
    (p := ⟨1, R.ringSize * (1 / 2) - π / 2⟩) ⟨by norm_num, by dsimp only; linarith⟩ e1 e2 (by
      refine ⟨?_, ?_, ?_⟩
      · dsimp only
        rw [if_pos (by linarith)]
        constructor <;> linarith
      · dsimp only; linarith
      · dsimp only; linarith) b2
  refine ⟨R, r₁, r₂, _, _, d₁, d₂, h, e1, e2, ?_, o1, o2⟩
  rw [(item (new_wf h).1 (SkyMapOps.After.refl _) g1).2, (item (new_wf h).1 (SkyMapOps.After.refl _) g2).2]
  exact hi0.symm

/-- `C34_total`: double precision, the 120 rings of the LSST sky map. -/
example (p : SpherePoint ℝ) : ∃ R : Rings ℝ, Rings.new FloatArith.double ⟨120, 0, 1 / 60⟩ 1 = .ok R ∧
    ∃ i, R.findIndex FloatArith.double p = .ok i ∧ 0 ≤ i ∧ i < R.numTracts :=
  ⟨_, rfl, (C34_total (c := ⟨120, 0, 1 / 60⟩) (v := 1) FloatArith.double_ieee rfl (by norm_num) (by norm_num) p).2.2⟩

end Rings

/-- `C76_explicit`: a tract with a radius of 1 degree, pixels of 0.2 arc seconds and patches of 4000 by 4000 pixels. -/
example (other) : ∃ f t b, WcsFactory.new (π / 3240000) "TAN" 0 false = .ok f ∧
    TractInfo.new32 Ex.realEnv sphereOps ⟨.legacy, ⟨4000, 4000⟩, 100, none⟩ ⟨0, ⟨1, 1⟩, .explicit (π / 180), 0, f.makeWcs other ⟨0, 0⟩ ⟨1, 1⟩, none⟩ = .ok (t, b) ∧
    t.getBBox.getDimensions.x + 200 ≤ 2147483647 := by
  have hp := pi_pos
  obtain ⟨f, hf⟩ := (WcsFactory.C56_projection_length (π / 3240000) "TAN" 0 false).2 rfl
  obtain ⟨h1, h2⟩ := C76_explicit (other := other) (env := Ex.realEnv) (b₀ := ⟨.legacy, ⟨4000, 4000⟩, 100, none⟩) (P := .TAN) Ex.realEnv_ok
    (a := ⟨0, ⟨1, 1⟩, .explicit (π / 180), 0, f.makeWcs other ⟨0, 0⟩ ⟨1, 1⟩, none⟩) (by norm_num) (by norm_num) (by norm_num) (by norm_num)
    (by norm_num) hf (by linarith) rfl (by decide) rfl rfl (by dsimp only; positivity) (by dsimp only; linarith)
  obtain ⟨⟨t, b⟩, h3⟩ := TractInfo.new_total Ex.realEnv sphereOps ⟨.legacy, ⟨4000, 4000⟩, 100, none⟩
    ⟨0, ⟨1, 1⟩, .explicit (π / 180), 0, f.makeWcs other ⟨0, 0⟩ ⟨1, 1⟩, none⟩ (by norm_num) (by norm_num) (fun c hc => by
      obtain ⟨i, -, e⟩ := explicit_samples (other := other) (P := .TAN) hf (by positivity) rfl (r := π / 180)
        (a := ⟨0, ⟨1, 1⟩, .explicit (π / 180), 0, f.makeWcs other ⟨0, 0⟩ ⟨1, 1⟩, none⟩) rfl rfl rfl (by dsimp only; positivity)
        (by simp only [Projection.limit]; linarith) c hc
      exact ⟨_, e⟩)
  exact ⟨f, t, b, hf, by rw [h1, h3], by simpa using (h2 t b h3).1⟩

/-- `C75_dodeca_patches` and `C76_dodeca`: the default dodecahedral sky map, whose tracts have 350 by 334 patches. -/
example (other) (toInt) (hc : ToInt32 toInt) (p : SpherePoint ℝ) : ∃ f D l ts b, WcsFactory.new (0.2 * (π / 648000)) "STG" 0 false = .ok f ∧
    DodecaSkyMap.tracts (1 / 1000) (f.makeWcs other ⟨0, 0⟩) Dodeca.ascending false 3.5 = .ok (D, l) ∧
    EagerSkyMap.buildAll Ex.realEnv sphereOps l 0 ⟨.legacy, ⟨4000, 4000⟩, 250, none⟩ = .ok (ts, b) ∧
    ∀ t ∈ ts, t.info.numPatches = ⟨350, 334⟩ ∧ t.info.findPatch32 toInt Ex.realEnv b p = t.info.findPatch Ex.realEnv b p := by
  have hpi := pi_pos
  obtain ⟨f, hf⟩ := (WcsFactory.C56_projection_length (0.2 * (π / 648000)) "STG" 0 false).2 rfl
  obtain ⟨D, l, ts, b, h1, h2⟩ := DodecaSkyMap.C60_builds (other := other) (tiny := 1 / 1000) (o := Dodeca.ascending) (w := false) (ov := 3.5)
    (env := Ex.realEnv) (b₀ := ⟨.legacy, ⟨4000, 4000⟩, 250, none⟩) (.inr ⟨rfl, by norm_num, by norm_num⟩) (by norm_num) (by norm_num)
    Dodeca.ascending_ok hf (by positivity) (by decide) (by decide)
  have hsc : |0.2 * (π / 648000) - 0.2 * (π / 648000)| ≤ 1e-6 * (0.2 * (π / 648000)) := by
    rw [sub_self, abs_zero]; positivity
  refine ⟨f, D, l, ts, b, hf, h1, h2, fun t ht => ⟨?_, ?_⟩⟩
  · exact DodecaSkyMap.C75_dodeca_patches Ex.realEnv_ok (by norm_num) (by norm_num) Dodeca.ascending_ok hsc hf h1 rfl h2 t ht
  · exact ((C76_dodeca Ex.realEnv_ok (by norm_num) (by norm_num) Dodeca.ascending_ok hsc hf h1 rfl (by norm_num) (by norm_num) h2 t ht).2 toInt hc p).2

end Skymap
