import Verif.Lemmas.RingReachRounding

/-!
# C72 with rounding: when findAllTracts of a rings sky map returns every tract that contains the position

As in `RingsAll`, for every arithmetic that rounds as double precision does.
-/

namespace Skymap
open Real
namespace Rings
variable {A : FloatArith ℝ} {c : RingsConfig ℝ} {R : Rings ℝ}
variable {env : FloatEnv ℝ} {b₀ : TractBuilder}
variable {s s' : MapState (SpherePoint ℝ) ℝ} {l : List (TractRef (SpherePoint ℝ) ℝ)}
variable {scale : ℝ} {f : WcsFactory} {flipX : Bool} {other : P2 ℝ → SpherePoint ℝ → CdMatrix → String → Wcs (SpherePoint ℝ) ℝ}
variable {code : String} {P : Projection}

/-- The rounded sum of half the height of a ring and the overlap. -/
theorem reach_le (hA : A.Ieee) (h : Rings.new A c 1 = .ok R) (h1 : 1 ≤ c.numRings) (h2 : c.numRings ≤ 2 ^ 31) (hov : 0 ≤ c.tractOverlap) {ρ : ℝ}
    (hρ : ρ = (90 / ((c.numRings : ℝ) + 1) + c.tractOverlap + 1 / 10 ^ 9) * (π / 180)) (hlim : ρ ≤ π / 2) :
    0 ≤ A.mul (1 / 2) R.ringSize + A.deg2rad R.config.tractOverlap ∧ A.mul (1 / 2) R.ringSize + A.deg2rad R.config.tractOverlap < ρ := by
  have hpi := pi_pos
  have p3 := pi_gt_three
  have hN1 : (0 : ℝ) < c.numRings + 1 := by positivity
  have h90 : 0 ≤ 90 / ((c.numRings : ℝ) + 1) := by positivity
  have o90 : c.tractOverlap ≤ 90 := by
    by_contra hc
    have : 90 * (π / 180) < ρ := by rw [hρ]; gcongr; norm_num; linarith
    linarith
  have hre := abs_le.mp (reach_near hA h h1 h2 hov o90)
  obtain ⟨-, -, -, s5⟩ := size_near hA h h1 h2
  have e : ρ = π / (c.numRings + 1) / 2 + c.tractOverlap * (π / 180) + 1 / 10 ^ 9 * (π / 180) := by rw [hρ]; field_simp; ring
  have o2 : 0 ≤ c.tractOverlap * (π / 180) := by positivity
  rw [e]
  norm_num at hre s5 ⊢
  constructor <;> linarith

/-- C72 with rounding: a rings sky map of version 1 with 2 to 2^31 rings, without rotation, whose tracts are at most `kx` by `ky` patches
large.  If half that size is at most 0.578 of the height of a ring, `findAllTracts`, called after any history, returns exactly the tracts of
the sky map that contain the position. -/
theorem C72_complete_rounding (hA : A.Ieee) (hh : A.HalfPi) (h : Rings.new A c 1 = .ok R) (hN : 2 ≤ c.numRings) (hN2 : c.numRings ≤ 2 ^ 31)
    (hr : |c.raStart| ≤ 360) (he : env.Ok)
    (hx : 0 < b₀.patchInnerDimensions.x) (hy : 0 < b₀.patchInnerDimensions.y)
    (hf : WcsFactory.new scale code 0 flipX = .ok f) (hsc : 0 < scale) (hP : Projection.ofCode code = some P)
    (hov : 0 ≤ c.tractOverlap) {ρ : ℝ} (hρ : ρ = (90 / ((c.numRings : ℝ) + 1) + c.tractOverlap + 1 / 10 ^ 9) * (π / 180)) (hlim : ρ < π / 2)
    {kx ky : Int}
    (hkx : 2 * (P.radius ρ / scale) + 3 ≤ kx * b₀.patchInnerDimensions.x) (hky : 2 * (P.radius ρ / scale) + 3 ≤ ky * b₀.patchInnerDimensions.y)
    {T : ℝ} (hTx : scale * (kx * b₀.patchInnerDimensions.x + 3) / 2 ≤ T) (hTy : scale * (ky * b₀.patchInnerDimensions.y + 3) / 2 ≤ T)
    (hT : SmallReach P (578 / 579 * (π / (c.numRings + 1))) T) {M : SkyMapOps (MapState (SpherePoint ℝ) ℝ) (SpherePoint ℝ) ℝ}
    (hM : M = skyMapOps A R env sphereOps (f.makeWcs other ⟨0, 0⟩))
    (hs : M.After (init A R env sphereOps (f.makeWcs other ⟨0, 0⟩) b₀) s) {p : SpherePoint ℝ}
    (hlon : 0 ≤ p.lon ∧ p.lon < A.twoPi) (hlat : |p.lat| ≤ π / 2)
    (hfa : R.findAllTracts A M p s = (.ok l, s')) (r : TractRef (SpherePoint ℝ) ℝ) :
    r ∈ l ↔ (∃ i s'', M.getItem i s' = (.ok r, s'')) ∧ r.info.contains p = true := by
  subst hM
  have hpi := pi_pos
  have h1 : 1 ≤ c.numRings := by omega
  have hz : P ≠ .CEA := by rintro rfl; exact hT
  obtain ⟨wf, -⟩ := new_wf_rounding hA h h1 hN2
  have hN' : (2 : ℝ) ≤ c.numRings := by exact_mod_cast hN
  obtain ⟨S, hS⟩ : ∃ S, S = π / ((c.numRings : ℝ) + 1) := ⟨_, rfl⟩
  have S1 : S * (c.numRings + 1) = π := by rw [hS]; field_simp
  have s0 : 0 < S := by rw [hS]; positivity
  have s3 : S ≤ π / 3 := by
    have := mul_le_mul_of_nonneg_left (by linarith : (3 : ℝ) ≤ c.numRings + 1) s0.le
    linarith
  obtain ⟨ha, L, rs, hL, k2, hl⟩ := findAll_spec hA h h1 hN2 (Search_permanent_caching _ b₀ s hs) hfa
  constructor
  · intro hr
    obtain ⟨hc, i, -, -, hi⟩ := C31_sound hA h h1 hN2 hs hfa r hr
    exact ⟨⟨i, s', hi⟩, hc⟩
  · rintro ⟨⟨i, s'', hi⟩, hc⟩
    have hir := (item wf (hs.trans ha) hi).1
    obtain ⟨ctr, inner, b, hctr, hnew⟩ := built_of_getItem (hs.trans ha) hi
    obtain ⟨r0, r1⟩ := reach_le hA h h1 hN2 hov hρ hlim.le
    have hlP := hlim.trans_le (half_le_limit hz)
    have hrad : P.radius (A.mul (1 / 2) R.ringSize + A.deg2rad R.config.tractOverlap) / scale ≤ P.radius ρ / scale :=
      div_le_div_of_nonneg_right (P.radius_mono r0 r1.le hlP) hsc.le
    obtain ⟨q, hq, qx, qy⟩ := explicit_reach (other := other) he hnew hx hy hf hsc hP rfl rfl (by dsimp only; exact r0)
      (by dsimp only; exact r1.trans hlP) (k := kx) (l := ky) (by dsimp only; linarith) (by dsimp only; linarith) hc
    rw [← hS] at hT
    have ht : 0 < tan (579 / 1000 * (578 / 579 * S)) := tan_pos_of_pos_of_lt_pi_div_two (by linarith) (by linarith)
    have T0 : 0 < T := by
      refine lt_of_lt_of_le ?_ hTx
      have : 0 ≤ P.radius ρ / scale := div_nonneg (P.radius_nonneg (r0.trans r1.le) hlP) hsc.le
      have : 0 < (kx : ℝ) * b₀.patchInnerDimensions.x := by linarith
      positivity
    obtain ⟨hZ, hE, hNo⟩ := hT.gnomonic T0 ht hq (qx.trans hTx) (qy.trans hTy)
    rw [show 579 / 1000 * (578 / 579 * S) = 578 / 1000 * S by ring] at hE hNo
    have near := near_of_square_rounding hA hh h hN hN2 hr hS hlon hlat hir hctr hZ hE hNo
    rw [← near_iff hA h h1 hN2 hL] at near
    obtain ⟨r', m', g'⟩ := forall₂_mem' k2 near
    rw [hi] at g'
    simp only [Prod.mk.injEq, Except.ok.injEq] at g'
    rw [hl, List.mem_filter, g'.1]
    exact ⟨m', by rw [← g'.1]; exact hc⟩

/-- C72 with rounding: under the same conditions, with a patch border that is not negative and tracts that double precision can count, the
answer of `findTractPatchList`, called after any history, has exactly one entry for each tract of the sky map that contains at least one of
the positions, namely the tract with the answer of its own `findPatchList`, which is not empty. -/
theorem C72_patch_list_rounding (hA : A.Ieee) (hh : A.HalfPi) (h : Rings.new A c 1 = .ok R) (hN : 2 ≤ c.numRings) (hN2 : c.numRings ≤ 2 ^ 31)
    (hr : |c.raStart| ≤ 360) (he : env.Ok)
    (hx : 0 < b₀.patchInnerDimensions.x) (hy : 0 < b₀.patchInnerDimensions.y) (hbord : 0 ≤ b₀.patchBorder)
    (hf : WcsFactory.new scale code 0 flipX = .ok f) (hsc : 0 < scale) (hP : Projection.ofCode code = some P)
    (hov : 0 ≤ c.tractOverlap) {ρ : ℝ} (hρ : ρ = (90 / ((c.numRings : ℝ) + 1) + c.tractOverlap + 1 / 10 ^ 9) * (π / 180)) (hlim : ρ < π / 2)
    {kx ky : Int}
    (hkx : 2 * (P.radius ρ / scale) + 3 ≤ kx * b₀.patchInnerDimensions.x) (hky : 2 * (P.radius ρ / scale) + 3 ≤ ky * b₀.patchInnerDimensions.y)
    {T : ℝ} (hTx : scale * (kx * b₀.patchInnerDimensions.x + 3) / 2 ≤ T) (hTy : scale * (ky * b₀.patchInnerDimensions.y + 3) / 2 ≤ T)
    (hT : SmallReach P (578 / 579 * (π / (c.numRings + 1))) T)
    (sx : 2 * (P.radius ρ / scale) + b₀.patchInnerDimensions.x + 3 ≤ 2 ^ 53) (sy : 2 * (P.radius ρ / scale) + b₀.patchInnerDimensions.y + 3 ≤ 2 ^ 53)
    {M : SkyMapOps (MapState (SpherePoint ℝ) ℝ) (SpherePoint ℝ) ℝ}
    (hM : M = skyMapOps A R env sphereOps (f.makeWcs other ⟨0, 0⟩))
    (hs : M.After (init A R env sphereOps (f.makeWcs other ⟨0, 0⟩) b₀) s) {ps : List (SpherePoint ℝ)}
    (hps : ∀ p ∈ ps, (0 ≤ p.lon ∧ p.lon < A.twoPi) ∧ |p.lat| ≤ π / 2)
    {es : List Entry} (hft : R.findTractPatchList A env M ps s = (.ok es, s')) :
    (es.map (·.1.info.id)).Nodup ∧
    (∀ r : TractRef (SpherePoint ℝ) ℝ, (∃ pl, (r, pl) ∈ es) ↔
      (∃ i s'', M.getItem i s' = (.ok r, s'')) ∧ ∃ p ∈ ps, r.info.contains p = true) ∧
    ∀ e ∈ es, e.1.info.findPatchList env s'.builder ps = .ok e.2 ∧ e.2 ≠ [] := by
  have h1 : 1 ≤ c.numRings := by omega
  have hz : P ≠ .CEA := by rintro rfl; exact hT
  have hun := CachingSkyMap.uniform_of (same_pixels (other := other) A R env hf hP hz) b₀
  have hB : M.StableBuilder s := by
    rw [hM] at hs ⊢
    exact Search_stable_uniform _ b₀ s hx hy hun hs
  obtain ⟨nd, ex⟩ := C33_exact hA h h1 hN2 (hM ▸ hs) (hM ▸ hB) (hM ▸ hft)
  have hPm := Search_permanent_caching (R.cachingDef A env sphereOps (f.makeWcs other ⟨0, 0⟩)) b₀ s (by rw [hM] at hs; exact hs)
  obtain ⟨ha, ess, g1, -⟩ := outer_loop hA h h1 hN2 ps ps s s' [] es hPm (hM ▸ hft)
  have hall : ∀ p ∈ ps, ∀ l, R.findAllTracts A M p s' = (.ok l, s') → ∀ r : TractRef (SpherePoint ℝ) ℝ,
      r ∈ l ↔ (∃ i s'', M.getItem i s' = (.ok r, s'')) ∧ r.info.contains p = true := by
    intro p hp l hl r
    refine C72_complete_rounding (other := other) hA hh h hN hN2 hr he hx hy hf hsc hP hov hρ hlim hkx hky hTx hTy hT hM (s := s') ?_
      (hps p hp).1 (hps p hp).2 hl r
    rw [hM] at hs ⊢
    exact hs.trans ha
  obtain ⟨r0, r1⟩ := reach_le hA h h1 hN2 hov hρ hlim.le
  have hlP := hlim.trans_le (half_le_limit hz)
  have hrad : P.radius (A.mul (1 / 2) R.ringSize + A.deg2rad R.config.tractOverlap) / scale ≤ P.radius ρ / scale :=
    div_le_div_of_nonneg_right (P.radius_mono r0 r1.le hlP) hsc.le
  refine ⟨nd, ?_, ?_⟩
  · intro r
    constructor
    · rintro ⟨pl, hpl⟩
      obtain ⟨⟨p, hp, ts, a1, a2⟩, -⟩ := (ex r pl).1 hpl
      rw [← hM] at a1
      obtain ⟨b1, b2⟩ := (hall p hp ts a1 r).1 a2
      exact ⟨b1, p, hp, b2⟩
    · rintro ⟨hi, p, hp, hc⟩
      obtain ⟨es', hes, ts, k1, k2⟩ := forall₂_mem' g1 hp
      have hr := (hall p hp ts (by rw [hM]; exact k1) r).2 ⟨hi, hc⟩
      obtain ⟨i, s'', hi⟩ := hi
      subst hM
      -- the tract as built, with the shared builder as it is for ever
      have hi' : (skyMapOps A R env sphereOps (f.makeWcs other ⟨0, 0⟩)).getItem i s' = (.ok r, s') := by
        obtain ⟨e, he', q0, j, s₁, q1, q2, q3, q4⟩ := forall₂_mem' k2 hr
        obtain ⟨wf, -⟩ := new_wf_rounding hA h h1 hN2
        have e1 := hPm s₁ q1 j e.1 s₁ q3 s' q2
        have e2 := (item wf (hs.trans ha) e1).2
        have e3 := (item wf (hs.trans ha) hi).2
        rw [← e3, ← q0, e2]
        exact e1
      obtain ⟨k, a, -, hka, hn⟩ := CachingSkyMap.as_built hx hy hun (hs.trans ha) hi' (SkyMapOps.After.refl s')
      simp only [cachingDef] at hka
      obtain ⟨q, -, hka⟩ := bindOk hka
      obtain ⟨g, -, hka⟩ := bindOk hka
      simp only [pure, Except.pure, Except.ok.injEq] at hka
      subst hka
      obtain ⟨d1, d2⟩ := explicit_dim (other := other) he hn hx hy hf hsc hP rfl rfl rfl r0 (r1.trans hlP) (by dsimp only; linarith)
        (by dsimp only; linarith) hc
      obtain ⟨pi, hpi⟩ := (C11_contains_iff_findPatch he hn hx hy hbord d1 d2 p).1 hc
      obtain ⟨pl, hpl, hm⟩ := C11_findPatch_in_list he hn hx hy hbord d1 d2 p pi hpi ps hp
      refine ⟨pl, (ex r pl).2 ⟨⟨p, hp, ts, k1, hr⟩, hpl, ?_⟩⟩
      rintro rfl
      simp at hm
  · rintro ⟨r, pl⟩ he'
    obtain ⟨-, q2, q3⟩ := (ex r pl).1 he'
    exact ⟨q2, q3⟩

/-- With rounding too, `findAllTracts` always answers, after any history. -/
theorem C72_total_rounding (hA : A.Ieee) (hh : A.HalfPi) (h : Rings.new A c 1 = .ok R) (h1 : 1 ≤ c.numRings) (hN2 : c.numRings ≤ 2 ^ 31)
    (hr : |c.raStart| ≤ 360) (hx : 0 < b₀.patchInnerDimensions.x) (hy : 0 < b₀.patchInnerDimensions.y)
    (hf : WcsFactory.new scale code 0 flipX = .ok f) (hsc : 0 < scale) (hP : Projection.ofCode code = some P) (hz : P ≠ .CEA)
    (hov : 0 ≤ c.tractOverlap) {ρ : ℝ} (hρ : ρ = (90 / ((c.numRings : ℝ) + 1) + c.tractOverlap + 1 / 10 ^ 9) * (π / 180)) (hlim : ρ ≤ π / 2)
    {M : SkyMapOps (MapState (SpherePoint ℝ) ℝ) (SpherePoint ℝ) ℝ}
    (hM : M = skyMapOps A R env sphereOps (f.makeWcs other ⟨0, 0⟩))
    (hs : M.After (init A R env sphereOps (f.makeWcs other ⟨0, 0⟩) b₀) s) (p : SpherePoint ℝ) :
    ∃ l s', R.findAllTracts A M p s = (.ok l, s') := by
  subst hM
  obtain ⟨r0, r1⟩ := reach_le hA h h1 hN2 hov hρ hlim
  refine C31_total hA h h1 hN2 fun i hi s₁ hs₁ => generate_rounding hA hh h h1 hN2 hr hx hy ?_ hi (hs.trans hs₁)
  intro ctr b
  exact ⟨_, WcsFactory.C56_bearing (other := other) hf hsc.ne' hP ⟨0, 0⟩ ctr b r0 ((r1.trans_le hlim).trans_le (half_le_limit hz))⟩

/-- C72 with rounding is not vacuous: double precision, 120 rings, an overlap of one arc minute and pixels of 0.2 arc seconds in patches of
4000 pixels, 7 by 7 patches per tract. -/
example : ∃ (R : Rings ℝ) (f : WcsFactory), Rings.new FloatArith.double ⟨120, 0, 1 / 60⟩ 1 = .ok R ∧
      WcsFactory.new (π / 3240000) "TAN" 0 false = .ok f ∧
      ∀ p : SpherePoint ℝ, 0 ≤ p.lon ∧ p.lon < FloatArith.double.twoPi → |p.lat| ≤ π / 2 → ∃ l s',
        R.findAllTracts FloatArith.double (skyMapOps FloatArith.double R Ex.realEnv sphereOps (f.makeWcs other ⟨0, 0⟩)) p
          (init FloatArith.double R Ex.realEnv sphereOps (f.makeWcs other ⟨0, 0⟩) ⟨.legacy, ⟨4000, 4000⟩, 100, none⟩) = (.ok l, s') ∧
        ∀ r, r ∈ l ↔ (∃ i s'', (skyMapOps FloatArith.double R Ex.realEnv sphereOps (f.makeWcs other ⟨0, 0⟩)).getItem i s' = (.ok r, s'')) ∧
          r.info.contains p = true := by
  have hp := pi_gt_three
  have hp2 := pi_pos
  have hp4 := pi_lt_d4
  have hp5 := pi_gt_d4
  obtain ⟨R, hR⟩ : ∃ R, Rings.new FloatArith.double ⟨120, 0, 1 / 60⟩ 1 = .ok R := ⟨_, rfl⟩
  obtain ⟨f, hf⟩ := (WcsFactory.C56_projection_length (π / 3240000) "TAN" 0 false).2 rfl
  refine ⟨R, f, hR, hf, fun p hlon hlat => ?_⟩
  have er : (90 / (((120 : ℕ) : ℝ) + 1) + 1 / 60 + 1 / 10 ^ 9) * (π / 180) = π / 121 / 2 + π / 10800 + π / 180 / 10 ^ 9 := by push_cast; ring
  have htan : tan (π / 121 / 2 + π / 10800 + π / 180 / 10 ^ 9) ≤ 13998 * (π / 3240000) := by
    set y := π / 121 / 2 + π / 10800 + π / 180 / 10 ^ 9 with hy
    have y0 : 0 < y := by positivity
    have y1 : y ≤ 0.0133 := by rw [hy]; norm_num at hp4 ⊢; linarith
    have c0 := one_sub_sq_div_two_le_cos (x := y)
    have c1 : 0.9999 ≤ cos y := by nlinarith
    have s1 := sin_le y0.le
    rw [tan_eq_sin_div_cos, div_le_iff₀ (by linarith)]
    have : 13998 * (π / 3240000) * 0.9999 ≤ 13998 * (π / 3240000) * cos y := by gcongr
    refine le_trans ?_ this
    rw [hy] at s1
    refine s1.trans ?_
    norm_num
    linarith
  have hb : 2 * (tan (π / 121 / 2 + π / 10800 + π / 180 / 10 ^ 9) / (π / 3240000)) + 3 ≤ 28000 := by
    have : tan (π / 121 / 2 + π / 10800 + π / 180 / 10 ^ 9) / (π / 3240000) ≤ 13998 := by
      rw [div_le_iff₀ (by positivity)]; exact htan
    linarith
  have hlim : π / 121 / 2 + π / 10800 + π / 180 / 10 ^ 9 < π / 2 := by norm_num; linarith
  obtain ⟨l, s', hl⟩ := C72_total_rounding (other := other) (env := Ex.realEnv) (b₀ := ⟨.legacy, ⟨4000, 4000⟩, 100, none⟩) (P := .TAN)
    FloatArith.double_ieee FloatArith.double_halfPi hR (by norm_num) (by norm_num) (by simp) (by norm_num) (by norm_num) hf (by positivity) rfl
    (by decide) (by norm_num) er.symm hlim.le rfl (SkyMapOps.After.refl _) p
  refine ⟨l, s', hl, fun r => ?_⟩
  refine C72_complete_rounding (other := other) (kx := 7) (ky := 7) (T := π / 3240000 * 28003 / 2) (P := .TAN)
    FloatArith.double_ieee FloatArith.double_halfPi hR (by norm_num) (by norm_num) (by simp) Ex.realEnv_ok (by norm_num) (by norm_num) hf
    (by positivity) rfl (by norm_num) er.symm hlim ?_ ?_ ?_ ?_ ?_ rfl (SkyMapOps.After.refl _) hlon hlat hl r
  · simp only [Projection.radius]; push_cast; linarith
  · simp only [Projection.radius]; push_cast; linarith
  · push_cast; linarith
  · push_cast; linarith
  · simp only [SmallReach]
    push_cast
    rw [show (120 : ℝ) + 1 = 121 by norm_num]
    refine le_trans ?_ (le_tan (x := 579 / 1000 * (578 / 579 * (π / 121))) (by positivity) (by linarith))
    linarith

end Rings
end Skymap
