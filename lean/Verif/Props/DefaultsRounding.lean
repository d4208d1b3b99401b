import Verif.Props.Defaults
import Verif.Props.RingsRegisteredRounding

/-! # C75 with rounding: the rings sky map with its default configuration in double precision -/

set_option linter.unusedSectionVars false

namespace Skymap
open Real BaseSkyMap

/-- C75 with rounding: in double precision (any arithmetic with its error bounds) the rings sky map with 30 rings or more and the default
configuration otherwise can be built; whatever was accessed before, for every position on
the sky `findTract` finds a tract that contains it and `findPatch` on it, whatever is accessed in between, finds the patch with the position in its inner
box; and it can be registered under a new name in any registry, if the butler does not fail, after which the position is in the region of the row of
the tract and of the row of one of its patches. -/
theorem C75_rings_rounding {x : SkyChoice} (he : x.env.Ok) {A : FloatArith ℝ} (hA : A.Ieee) (hH : A.HalfPi) {n : ℤ} (hn : 30 ≤ n) (hn' : n < 2 ^ 31) :
    ∃ o m s₀ R, SkyMapObj.new ({ x.lib with arith := A } : SkyLib).impl (DefaultClass.rings n).fields (DefaultClass.rings n).config (.int 1) = .ok o ∧ o.tracts = .caching m s₀ ∧
      Rings.new A ⟨n.toNat, 0, 1⟩ 1 = .ok R ∧
      (∀ s, (CachingSkyMap.skyMapOps m).After s₀ s → ∀ p : SpherePoint ℝ, 0 ≤ p.lon → p.lon < A.twoPi → |p.lat| ≤ A.pi / 2 →
        ∃ r s', R.findTract A (CachingSkyMap.skyMapOps m) p s = (.ok r, s') ∧ r.info.contains p = true ∧
          ∀ s'', (CachingSkyMap.skyMapOps m).After s' s'' → FindsPatch x.env r.info s''.builder p) ∧
      ∀ (H : Bytes → Bytes) (fault : Nat → Option PyErr) (name : String) (reg : Registry (SpherePoint ℝ)) (calls : Nat) (s : MapState (SpherePoint ℝ) ℝ),
        (CachingSkyMap.skyMapOps m).After s₀ s → (∀ n, fault n = none) →
        reg.Sound → (∀ r ∈ reg.skymaps, r.skymap ≠ name ∧ ∀ h, (o.hashed.getSha1 H).1 = .ok h → r.hash ≠ h) →
        ∃ w', register H fault (CachingSkyMap.skyMapOps m) name ⟨s, o.hashed, reg, calls⟩ = (.ok (), w') ∧
          RegisteredExactly (CachingSkyMap.skyMapOps m) name w' ∧
          ∀ p : SpherePoint ℝ, 0 ≤ p.lon → p.lon < A.twoPi → |p.lat| ≤ A.pi / 2 →
            ∃ t, R.findTract A (CachingSkyMap.skyMapOps m) p w'.map = (.ok t, w'.map) ∧
              (∃ r ∈ w'.reg.tracts, r.skymap = name ∧ r.tract = t.info.id ∧ InPolygon r.region p) ∧
              ∃ r ∈ w'.reg.patches, r.skymap = name ∧ r.tract = t.info.id ∧ InPolygon r.region p := by
  have hpi := pi_pos
  have hp1 := pi_gt_d2
  have hp2 := pi_lt_d2
  obtain ⟨N, rfl⟩ := Int.eq_ofNat_of_zero_le (by omega : 0 ≤ n)
  have hN : 30 ≤ N := by omega
  have hNr : (30 : ℝ) ≤ N := by exact_mod_cast hN
  set cls : DefaultClass := .rings (N : ℤ) with hcls
  set c : SkyMapConfig Dbl := { cls.config with frozen := true } with hc
  set b₀ : TractBuilder := ⟨.legacy, ⟨4000, 4000⟩, 100, none⟩ with hb₀
  set scale : ℝ := 5998794703657501 / 2 ^ 54 * (π / 648000) with hscale
  have hs : 0 < scale := by positivity
  have hs1 : 1e-6 ≤ scale := by rw [hscale]; norm_num; linarith
  have hs2 : scale ≤ 2e-6 := by rw [hscale]; norm_num; linarith
  obtain ⟨f, hf⟩ := (WcsFactory.C56_projection_length scale "STG" 0 false).2 rfl
  have hinit : BaseSkyMap.init cls.config = (.ok b₀, c) := init_rings N
  have hwcs : ({ x.lib with arith := A } : SkyLib).wcs c = f.makeWcs x.other ⟨0, 0⟩ :=
    x.lib_wcs c (by rw [hscale]; exact congrArg (· * _) Dbl.value_third) (by
      change Dbl.value 0 * _ = 0
      rw [Dbl.value_zero, zero_mul]) hf
  have hov : x.lib.val c.tractOverlap = 1 := Dbl.value_one
  have hra : x.lib.val 0 = 0 := Dbl.value_zero
  have hx : 0 < b₀.patchInnerDimensions.x := by decide
  have hy : 0 < b₀.patchInnerDimensions.y := by decide
  obtain ⟨R, hR⟩ : ∃ R, Rings.new A ⟨N, 0, 1⟩ 1 = .ok R := ⟨_, rfl⟩
  set m := R.cachingDef A x.env sphereOps (f.makeWcs x.other ⟨0, 0⟩) with hm
  have hnew : SkyMapObj.new ({ x.lib with arith := A } : SkyLib).impl cls.fields cls.config (.int 1) = .ok ⟨⟨cls.fields, c, .int 1, none⟩, .caching m (CachingSkyMap.init m b₀)⟩ := by
    have : ({ x.lib with arith := A } : SkyLib).tracts cls.fields c (.int 1) = .ok (.inl m) := by
      unfold DefaultClass.fields SkyLib.tracts
      simp only [hcls, hwcs, hov, hra, Int.toNat_natCast]
      rw [if_neg (by omega)]
      change (Rings.new A ⟨N, 0, 1⟩ 1).map _ = _
      rw [hR]; rfl
    exact SkyMapObj.new_caching hinit this
  have hlim : 90 / ((N : ℝ) + 1) + 1 + 1 / 10 ^ 9 ≤ 5 := by
    have : 90 / ((N : ℝ) + 1) ≤ 3 := by rw [div_le_iff₀ (by linarith)]; linarith
    norm_num at this ⊢
    linarith
  have hpos : 0 ≤ 90 / ((N : ℝ) + 1) := by positivity
  have hov1 : 30 / ((N : ℝ) + 1) + 1 / 10 ^ 9 ≤ 1 := by
    have : 30 / ((N : ℝ) + 1) ≤ 30 / 31 := by gcongr; linarith
    norm_num at this ⊢
    linarith
  have htan : 2 * tan ((90 / ((N : ℝ) + 1) + 1 + 1 / 10 ^ 9) * (π / 180) / 2) ≤ 1.2 := by
    have h1 : tan ((90 / ((N : ℝ) + 1) + 1 + 1 / 10 ^ 9) * (π / 180) / 2) ≤ tan (π / 6) := by
      apply strictMonoOn_tan.monotoneOn
      · constructor <;> nlinarith
      · constructor <;> linarith
      · nlinarith
    rw [tan_pi_div_six] at h1
    have h2 : 1 / √3 ≤ 0.6 := by
      rw [div_le_iff₀ (by positivity)]
      have : (1.7 : ℝ) ≤ √3 := le_sqrt_of_sq_le (by norm_num)
      linarith
    linarith
  refine ⟨_, m, CachingSkyMap.init m b₀, R, hnew, rfl, hR, fun s ha p l0 l1 l2 => ?_, ?_⟩
  · obtain ⟨r, s', hr, hcont⟩ := Rings.C58_rounding (other := x.other) (env := x.env) (b₀ := b₀) hA hH hR (by dsimp only; omega) (by dsimp only; omega)
      (by simp) he hx hy hf hs (P := .STG) rfl (by decide) hov1 (by dsimp only; linarith) ha ⟨l0, l1⟩ l2
    refine ⟨r, s', hr, hcont, fun s'' hs'' => ?_⟩
    · have hbig : 2 * (Projection.STG.radius ((90 / ((N : ℝ) + 1) + 1 + 1 / 10 ^ 9) * (π / 180)) / scale) + (4000 : ℤ) + 3 ≤ 2 ^ 53 := by
        have : Projection.STG.radius ((90 / ((N : ℝ) + 1) + 1 + 1 / 10 ^ 9) * (π / 180)) / scale ≤ 1.2e6 := by
          rw [div_le_iff₀ hs]
          simp only [Projection.radius]
          refine htan.trans ?_
          norm_num at *
          linarith
        norm_num at *
        linarith
      exact Rings.C62_rounding hA hH hR (by dsimp only; omega) (by dsimp only; omega) (by simp) he hx hy (by decide) hf hs (P := .STG) rfl (by decide) hov1 (by dsimp only; linarith) rfl ha ⟨l0, l1⟩ l2
        hr hs'' hbig hbig
  · intro H fault name reg calls s ha hfault hsound hfresh
    obtain ⟨h, hh⟩ : ∃ h, ((⟨cls.fields, c, .int 1, none⟩ : HashedMap).getSha1 H).1 = .ok h := by
      apply sha1_fresh
      exact sha1_rings (by omega) hn'
    obtain ⟨w', r1, r2⟩ := Rings.C63_rounding (H := H) (fault := fault) (name := name) (env := x.env) (other := x.other) (b₀ := b₀)
      (w := ⟨s, ⟨cls.fields, c, .int 1, none⟩, reg, calls⟩) hA hH hR (by dsimp only; omega) (by dsimp only; omega) (by simp) hx hy (by decide) hf hs (P := .STG) rfl (by decide) (by norm_num) (by dsimp only; linarith) hfault rfl ha hsound hh
      (fun r hr => ⟨(hfresh r hr).1, (hfresh r hr).2 h hh⟩)
    obtain ⟨w'', r3, r4⟩ := Rings.C65_rounding (H := H) (fault := fault) (name := name) (env := x.env) (other := x.other) (b₀ := b₀)
      (w := ⟨s, ⟨cls.fields, c, .int 1, none⟩, reg, calls⟩) hA hH hR (by dsimp only; omega) (by dsimp only; omega) (by simp) he hx hy (by decide) hf hs hov1 (by dsimp only; linarith)
      (by dsimp only; norm_num [hb₀] at htan ⊢; linarith) (by dsimp only; norm_num [hb₀] at htan ⊢; linarith) hfault rfl ha hsound hh
      (fun r hr => ⟨(hfresh r hr).1, (hfresh r hr).2 h hh⟩)
    have : w'' = w' := by
      have h1 := r3.symm.trans r1
      exact (Prod.mk.injEq .. ▸ h1).2
    subst this
    refine ⟨w'', r1, r2, fun p l0 l1 l2 => ?_⟩
    obtain ⟨r, g1, g2, g3⟩ := r4 p l0 l1 l2
    exact ⟨r, g1, g2, g3 (by norm_num [hb₀]; linarith) (by norm_num [hb₀]; linarith) (by norm_num [hb₀]; linarith) (by norm_num [hb₀]; linarith)⟩

/-! ## Hypotheses met -/

/-- Double precision, 120 rings: the sky map is registered in an empty registry. -/
example (hp other) : ∃ x : SkyChoice, x.hp = hp ∧ x.other = other ∧
    ∃ o m s₀ w', SkyMapObj.new ({ x.lib with arith := .double } : SkyLib).impl (DefaultClass.rings 120).fields (DefaultClass.rings 120).config (.int 1) = .ok o ∧
      o.tracts = .caching m s₀ ∧ register id (fun _ => none) (CachingSkyMap.skyMapOps m) "r" ⟨s₀, o.hashed, {}, 0⟩ = (.ok (), w') := by
  refine ⟨⟨Ex.realEnv, hp, Dodeca.ascending, 1 / 1000, other⟩, rfl, rfl, ?_⟩
  obtain ⟨o, m, s₀, R, h1, h2, -, -, h3⟩ := C75_rings_rounding (x := ⟨Ex.realEnv, hp, Dodeca.ascending, 1 / 1000, other⟩) Ex.realEnv_ok
    FloatArith.double_ieee FloatArith.double_halfPi (n := 120) (by norm_num) (by norm_num)
  obtain ⟨w', h4, -⟩ := h3 id (fun _ => none) "r" {} 0 s₀ (SkyMapOps.After.refl _) (fun _ => rfl) Registry.sound_empty (fun r hr => by simp at hr)
  exact ⟨o, m, s₀, w', h1, h2, h4⟩

end Skymap
