import Verif.Props.SkyPolygon
import Verif.Props.DodecaRegion

/-! # C65: the regions of a registered rings sky map with the default projection cover the sky -/

set_option linter.unusedSectionVars false

namespace Skymap
open Real Rings SpherePoint CachingSkyMap BaseSkyMap

/-- C65: after a rings sky map with projection STG and enough overlap has been registered, every position on the sky is in the region of the
row of the tract that `findTract` finds for it and, if the patches have enough border for their size, in the region of a row of one of that
tract's patches. -/
theorem Rings.C65_registered {H : Bytes → Bytes} {fault : Nat → Option PyErr} {name : String} {env : FloatEnv ℝ} {b₀ : TractBuilder}
    {scale : ℝ} {flipX : Bool} {f : WcsFactory} {other : P2 ℝ → SpherePoint ℝ → CdMatrix → String → Wcs (SpherePoint ℝ) ℝ}
    {w : World (MapState (SpherePoint ℝ) ℝ) (SpherePoint ℝ)} {c : RingsConfig ℝ} {R : Rings ℝ} (h : Rings.new .exact c 1 = .ok R)
    (hN : 2 ≤ c.numRings) (he : env.Ok) (hx : 0 < b₀.patchInnerDimensions.x)
    (hy : 0 < b₀.patchInnerDimensions.y) (hbord : 0 ≤ b₀.patchBorder) (hf : WcsFactory.new scale "STG" 0 flipX = .ok f) (hsc : 0 < scale)
    (hov : 30 / ((c.numRings : ℝ) + 1) ≤ c.tractOverlap) (hlim : 90 / ((c.numRings : ℝ) + 1) + c.tractOverlap < 90)
    (lx : 2 * tan ((90 / ((c.numRings : ℝ) + 1) + c.tractOverlap) * (π / 180) / 2) +
      scale * ((b₀.patchInnerDimensions.x : ℝ) / 2 + 3 + b₀.patchBorder) ≤ 1.414)
    (ly : 2 * tan ((90 / ((c.numRings : ℝ) + 1) + c.tractOverlap) * (π / 180) / 2) +
      scale * ((b₀.patchInnerDimensions.y : ℝ) / 2 + 3 + b₀.patchBorder) ≤ 1.414)
    (hfault : ∀ n, fault n = none)
    {M : SkyMapOps (MapState (SpherePoint ℝ) ℝ) (SpherePoint ℝ) ℝ} (hM : M = Rings.skyMapOps .exact R env sphereOps (f.makeWcs other ⟨0, 0⟩))
    (ha : M.After (Rings.init .exact R env sphereOps (f.makeWcs other ⟨0, 0⟩) b₀) w.map) (hs : w.reg.Sound) {b : Bytes}
    (hb : (w.hashed.getSha1 H).1 = .ok b) (hnew : ∀ x ∈ w.reg.skymaps, x.skymap ≠ name ∧ x.hash ≠ b) :
    ∃ w', BaseSkyMap.register H fault M name w = (.ok (), w') ∧
      ∀ p : SpherePoint ℝ, 0 ≤ p.lon → p.lon < 2 * π → |p.lat| ≤ π / 2 → ∃ r, R.findTract .exact M p w'.map = (.ok r, w'.map) ∧
        (∃ x ∈ w'.reg.tracts, x.skymap = name ∧ x.tract = r.info.id ∧ InPolygon x.region p) ∧
        (scale * (b₀.patchInnerDimensions.x + 2 * b₀.patchBorder) ≤ 1 → scale * (b₀.patchInnerDimensions.y + 2 * b₀.patchBorder) ≤ 1 →
          scale * ((b₀.patchInnerDimensions.x : ℝ) + 2 * b₀.patchBorder) ^ 2 ≤ 12 * b₀.patchBorder →
          scale * ((b₀.patchInnerDimensions.y : ℝ) + 2 * b₀.patchBorder) ^ 2 ≤ 12 * b₀.patchBorder →
          ∃ y ∈ w'.reg.patches, y.skymap = name ∧ y.tract = r.info.id ∧ InPolygon y.region p) := by
  subst hM
  have hN0 : (0 : ℝ) < (c.numRings : ℝ) + 1 := by
    have : (2 : ℝ) ≤ c.numRings := by exact_mod_cast hN
    linarith
  have hov0 : 0 ≤ c.tractOverlap := le_trans (by positivity) hov
  obtain ⟨w', e1, ts, ht, hids, hx1, hx2, hy1, hy2, -⟩ :=
    Rings.C63_registers (other := other) (env := env) (name := name) (fault := fault) (w := w) h hx hy hbord hf hsc (P := .STG) rfl (by decide) hov0 hlim hfault rfl ha hs hb hnew
  refine ⟨w', e1, fun p l0 l1 l2 => ?_⟩
  have ha' : (skyMapOps .exact R env sphereOps (f.makeWcs other ⟨0, 0⟩)).After (Rings.init .exact R env sphereOps (f.makeWcs other ⟨0, 0⟩) b₀) w'.map := by
    have := acc_register (M := skyMapOps .exact R env sphereOps (f.makeWcs other ⟨0, 0⟩)) H fault name w
    rw [e1] at this
    exact ha.trans this
  obtain ⟨r, s', hr⟩ := C58_total (other := other) (env := env) (b₀ := b₀) h hx hy hf hsc (P := .STG) rfl (by decide) hov0 hlim ha' ⟨l0, l1⟩ l2
  have hc := C58_covers h hN he hx hy hf hsc (P := .STG) rfl (by decide) hov hlim ha' ⟨l0, l1⟩ l2 hr
  obtain ⟨i, hi, hin, hfi⟩ := C27_findTract h (skyMapOps .exact R env sphereOps (f.makeWcs other ⟨0, 0⟩)) p ⟨l0, l1⟩ l2
  have hg := hr
  rw [hfi] at hg
  obtain ⟨k, a, hk, hargs, hn⟩ := CachingSkyMap.as_built hx hy
    (CachingSkyMap.uniform_of (same_pixels .exact R env (P := .STG) hf rfl (by decide)) b₀) ha' hg (SkyMapOps.After.refl _)
  have hkl : k < ts.length := by
    obtain ⟨k', e', hk', -⟩ := fresh_of_getItem ha' hg
    rw [ht.1]
    change k < (R.cachingDef .exact env sphereOps (f.makeWcs other ⟨0, 0⟩)).numTracts
    omega
  have hts := List.getElem?_eq_getElem hkl
  have e2 := ht.2 k _ hts
  rw [← hk, hg] at e2
  simp only [Prod.mk.injEq, Except.ok.injEq] at e2
  obtain ⟨e3, rfl⟩ := e2
  have hmem : r ∈ ts := by rw [e3]; exact List.getElem_mem hkl
  have hrk : ts[k]? = some r := by rw [hts, e3]
  have uniq : ∀ t ∈ ts, t.info.id = r.info.id → t = r := by
    intro t htm hid
    obtain ⟨j, hj⟩ := List.getElem?_of_mem htm
    have i1 := hids j t hj
    have i2 := hids k r hrk
    have : j = k := by rw [hid, i2] at i1; omega
    rw [this, hrk, Option.some.injEq] at hj
    exact hj.symm
  have hp := pi_pos
  obtain ⟨h1, -⟩ := new_exact h
  obtain ⟨-, s1⟩ := size_pos h
  set ρ : ℝ := (90 / ((c.numRings : ℝ) + 1) + c.tractOverlap) * (π / 180) with hρ
  have er : ρ = FloatArith.exact.mul (1 / 2) R.ringSize + FloatArith.exact.deg2rad R.config.tractOverlap := by
    rw [h1]
    have es : R.ringSize = π / ((c.numRings : ℝ) + 1) := by rw [← s1]; field_simp
    change _ = 1 / 2 * R.ringSize + c.tractOverlap * (π / 180)
    rw [es, hρ]
    field_simp
    ring
  have h0 : 0 ≤ ρ := by positivity
  have hl : ρ < Projection.STG.limit := by simp only [Projection.limit]; nlinarith
  have hq : a.shape = .explicit (FloatArith.exact.mul (1 / 2) R.ringSize) ∧
      a.tractOverlap = FloatArith.exact.deg2rad R.config.tractOverlap ∧ a.wcs = f.makeWcs other ⟨0, 0⟩ a.ctrCoord := by
    simp only [cachingDef] at hargs
    obtain ⟨q, -, hargs⟩ := bindOk hargs
    obtain ⟨g, -, hargs⟩ := bindOk hargs
    simp only [pure, Except.pure, Except.ok.injEq] at hargs
    rw [← hargs]
    exact ⟨rfl, rfl, rfl⟩
  obtain ⟨q1, q2, hw⟩ := hq
  rw [← q2] at er
  have hctr : r.info.contains a.ctrCoord = true := by
    refine C57_covers (other := other) (P := .STG) he hn hx hy hf hsc rfl q1 hw (by rw [← er]; exact hl) _ ?_
    rw [← er]
    have : cosSep a.ctrCoord a.ctrCoord = 1 := by rw [cosSep_eq]; exact a.ctrCoord.vec_unit
    rw [greatCircle, this, arccos_one]
    exact h0
  have hT : 0 ≤ 2 * tan (ρ / 2) := by
    have := Projection.STG.radius_nonneg h0 hl
    simpa [Projection.radius] using this
  obtain ⟨p1, p2⟩ := C65_stg_sized (ρ := 2 * tan (ρ / 2)) he hn hx hy hbord hf hsc hw (fun s hsm x hr => by
      obtain ⟨i, -, e⟩ := explicit_samples (P := .STG) hf hsc rfl q1 hw er h0 hl s hsm
      rw [e, PixRes.pix.injEq] at hr
      subst hr
      simp only [Projection.radius]
      constructor
      · rw [show scale * ((if flipX = true then (1 : ℝ) else -1) * (2 * tan (ρ / 2) / scale * cos (↑i * (π / 2) + 0))) =
          (if flipX = true then (1 : ℝ) else -1) * (2 * tan (ρ / 2) * cos (↑i * (π / 2) + 0)) by field_simp, abs_mul]
        have : |if flipX = true then (1 : ℝ) else -1| = 1 := by cases flipX <;> simp
        rw [this, one_mul, abs_mul, abs_of_nonneg hT]
        exact mul_le_of_le_one_right hT (abs_cos_le_one _)
      · rw [show scale * (2 * tan (ρ / 2) / scale * sin (↑i * (π / 2) + 0)) = 2 * tan (ρ / 2) * sin (↑i * (π / 2) + 0) by field_simp, abs_mul,
          abs_of_nonneg hT]
        exact mul_le_of_le_one_right hT (abs_sin_le_one _)) lx ly hctr hc
  have hpos : ∀ {α : Type} {l : List α} {q : α → Prop} [DecidablePred q], l.countP (fun x => decide (q x)) = 1 → ∃ x ∈ l, q x := by
    intro α l q _ hcount
    obtain ⟨x, h1, h2⟩ := List.countP_pos_iff.1 (by rw [hcount]; exact Nat.one_pos)
    exact ⟨x, h1, by simpa using h2⟩
  refine ⟨r, hr, ?_, ?_⟩
  · obtain ⟨x, h1, h2⟩ := hpos (hx2 r hmem)
    simp only [Prod.mk.injEq] at h2
    obtain ⟨t, ht1, rfl⟩ := hx1 x h1 h2.1
    obtain rfl := uniq t ht1 h2.2
    exact ⟨_, h1, rfl, rfl, p1⟩
  · intro w1 w2 w3 w4
    obtain ⟨ix, pi, hpi, -, -, hin⟩ := p2 w1 w2 w3 w4
    have B := TractInfo.new_built hn hx hy
    obtain ⟨hrange, -⟩ := (B.ready.getPatchInfo_iff (by rw [B.border]; exact hbord) ix r.info.wcs pi).1 hpi
    obtain ⟨y, h1, h2⟩ := hpos (hy2 r hmem ix hrange)
    simp only [Prod.mk.injEq] at h2
    obtain ⟨t, ht1, g1, -, -, q, g2, -, g3⟩ := hy1 y h1 h2.1
    obtain rfl := uniq t ht1 (by rw [← g1, h2.2.1])
    have : q = pi := by
      rw [h2.2.2.1, h2.2.2.2] at g2
      exact Except.ok.inj (g2.symm.trans hpi)
    subst this
    refine ⟨y, h1, h2.1, h2.2.1, ?_⟩
    rw [g3]
    exact hin

/-! ## Hypotheses met -/

/-- The default configuration (projection STG, pixels of 0.333 arcseconds, patches of 4000 pixels with a border of 100, an overlap of 1 degree) with
120 rings: the registered regions of tracts and patches cover the sky. -/
example (other) : ∃ (R : Rings ℝ) (f : WcsFactory), Rings.new .exact ⟨120, 0, 1⟩ 1 = .ok R ∧
    WcsFactory.new (0.333 / 3600 * (π / 180)) "STG" 0 false = .ok f ∧
    ∃ w', BaseSkyMap.register id (fun _ => none) (Rings.skyMapOps .exact R Ex.realEnv sphereOps (f.makeWcs other ⟨0, 0⟩)) "m"
      ⟨Rings.init .exact R Ex.realEnv sphereOps (f.makeWcs other ⟨0, 0⟩) ⟨.legacy, ⟨4000, 4000⟩, 100, none⟩,
        ⟨.rings 120 0, Ex.hashConfig, .int 1, none⟩, {}, 0⟩ = (.ok (), w') ∧
      ∀ p : SpherePoint ℝ, 0 ≤ p.lon → p.lon < 2 * π → |p.lat| ≤ π / 2 → ∃ r,
        R.findTract .exact (Rings.skyMapOps .exact R Ex.realEnv sphereOps (f.makeWcs other ⟨0, 0⟩)) p w'.map = (.ok r, w'.map) ∧
        (∃ x ∈ w'.reg.tracts, x.skymap = "m" ∧ x.tract = r.info.id ∧ InPolygon x.region p) ∧
        ∃ y ∈ w'.reg.patches, y.skymap = "m" ∧ y.tract = r.info.id ∧ InPolygon y.region p := by
  have hp := pi_pos
  have hp2 := pi_lt_d2
  obtain ⟨R, hR⟩ := Rings.new_ok ⟨120, 0, 1⟩ (.inr rfl)
  obtain ⟨b, hb⟩ := Ex.hashed_ok
  have hs : 0 < 0.333 / 3600 * (π / 180) := by positivity
  have hs2 : 0.333 / 3600 * (π / 180) ≤ 1 / 100000 := by linarith
  obtain ⟨f, hf⟩ := (WcsFactory.C56_projection_length (0.333 / 3600 * (π / 180)) "STG" 0 false).2 rfl
  have ht : 2 * tan ((90 / (((120 : Int) : ℝ) + 1) + 1) * (π / 180) / 2) ≤ 1 := by
    have k1 : (90 / (((120 : Int) : ℝ) + 1) + 1) * (π / 180) / 2 ≤ 1 / 20 := by push_cast; linarith
    have k0 : 0 ≤ (90 / (((120 : Int) : ℝ) + 1) + 1) * (π / 180) / 2 := by positivity
    have k2 : tan ((90 / (((120 : Int) : ℝ) + 1) + 1) * (π / 180) / 2) ≤ tan (1 / 20) := by
      rcases k1.lt_or_eq with h | h
      · exact (tan_lt_tan_of_lt_of_lt_pi_div_two (by linarith) (by linarith [pi_gt_three]) h).le
      · rw [h]
    have k3 := sin_lt (x := (1 / 20 : ℝ)) (by norm_num)
    have k4 := one_sub_sq_div_two_le_cos (x := (1 / 20 : ℝ))
    have k5 : tan (1 / 20) ≤ 1 / 2 := by
      rw [tan_eq_sin_div_cos, div_le_iff₀ (by linarith)]
      linarith
    linarith
  obtain ⟨w', e1, e2⟩ := Rings.C65_registered (H := id) (fault := fun _ => none) (name := "m") (env := Ex.realEnv) (other := other)
    (b₀ := ⟨.legacy, ⟨4000, 4000⟩, 100, none⟩) hR (by norm_num) Ex.realEnv_ok (by decide) (by decide) (by decide) hf hs (by norm_num) (by norm_num)
    (by norm_num at ht ⊢; linarith) (by norm_num at ht ⊢; linarith) (fun _ => rfl) rfl
    (w := ⟨Rings.init .exact R Ex.realEnv sphereOps (f.makeWcs other ⟨0, 0⟩) ⟨.legacy, ⟨4000, 4000⟩, 100, none⟩,
        ⟨.rings 120 0, Ex.hashConfig, .int 1, none⟩, {}, 0⟩) (SkyMapOps.After.refl _) Registry.sound_empty hb (fun x hx => by simp at hx)
  refine ⟨R, f, hR, hf, w', e1, fun p l0 l1 l2 => ?_⟩
  obtain ⟨r, r1, r2, r3⟩ := e2 p l0 l1 l2
  exact ⟨r, r1, r2, r3 (by norm_num; linarith) (by norm_num; linarith) (by norm_num; linarith) (by norm_num; linarith)⟩

end Skymap
