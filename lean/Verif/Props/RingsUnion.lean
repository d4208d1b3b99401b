import Verif.Lemmas.RingsUnion
import Verif.Lemmas.Grown

/-!
# C78: every position is in a tract of a rings sky map

The tract that `findTract` returns need not contain the position (C58_gap), but with a small overlap some tract of the sky map does.
-/

set_option linter.unusedSectionVars false

namespace Skymap
open Real

namespace Rings
variable {A : FloatArith ℝ} {c : RingsConfig ℝ} {R : Rings ℝ}
variable {env : FloatEnv ℝ} {ops : SkyOps (SpherePoint ℝ) ℝ} {mk : SpherePoint ℝ → Wcs (SpherePoint ℝ) ℝ} {b₀ : TractBuilder}
variable {s s' : MapState (SpherePoint ℝ) ℝ} {r : TractRef (SpherePoint ℝ) ℝ}
variable {scale : ℝ} {f : WcsFactory} {flipX : Bool} {code : String} {P : Projection} {other : P2 ℝ → SpherePoint ℝ → CdMatrix → String → Wcs (SpherePoint ℝ) ℝ}

/-- With at least 31 rings each position is in the square around the centre of some tract, whose side is 25/24 of the height of a ring. -/
theorem some_square (hA : A.Ieee) (hh : A.HalfPi) (h : Rings.new A c 1 = .ok R) (hN : 31 ≤ c.numRings) (h2 : c.numRings ≤ 2 ^ 31)
    (hr : |c.raStart| ≤ 360) {p : SpherePoint ℝ} (hlon : 0 ≤ p.lon ∧ p.lon < A.twoPi) (hlat : |p.lat| ≤ A.pi / 2) {η : ℝ}
    (hη : η = π / (c.numRings + 1) / 2) :
    ∃ i, 0 ≤ i ∧ i < R.numTracts ∧ ∃ ctr, R.center A i = .ok ctr ∧
      ∃ q, Projection.TAN.toPlane ctr p = some q ∧ |q.x| ≤ tan (η + η / 24) ∧ |q.y| ≤ tan (η + η / 24) := by
  have hp := pi_pos
  have p4 := pi_lt_d4
  have p3 := pi_gt_three
  have h1 : 1 ≤ c.numRings := by omega
  have hN' : (31 : ℝ) ≤ c.numRings := by exact_mod_cast hN
  obtain ⟨wf, w33⟩ := new_wf_rounding hA h h1 h2
  obtain ⟨e1, hv, -⟩ := new_attr h
  obtain ⟨-, -, -, s5⟩ := size_near hA h h1 h2
  have hN1 : (0 : ℝ) < c.numRings + 1 := by positivity
  have hlonU : p.lon ≤ 6.4 := by linarith [hlon.2, hA.twoPi_range.2]
  have hpi := abs_le.mp hA.pi_err
  have hla := abs_le.mp hlat
  have eS : π / ((c.numRings : ℝ) + 1) = 2 * η := by rw [hη]; ring
  rw [eS] at s5
  have η0 : 0 < η := by rw [hη]; positivity
  have eN : η * (2 * (c.numRings + 1)) = π := by rw [hη]; field_simp
  have η1 : η ≤ 1 / 20 := by
    have := mul_le_mul_of_nonneg_left (by linarith : (64 : ℝ) ≤ 2 * (c.numRings + 1)) η0.le
    norm_num at p4 ⊢
    linarith
  have hNt := wf.numTracts_ge
  obtain ⟨cS, cN⟩ := center_caps_rounding hA hh h h1 h2
  -- a position in the band of a ring
  have ring : ∀ (k : Nat) (β : ℝ), k < c.numRings → β = η * (2 * (k + 1)) - π / 2 →
      ((β = 0 ∧ |p.lat| ≤ η) ∨ (η ≤ β ∧ β + 2 * η ≤ π / 2 ∧ β - η - η / 25 ≤ p.lat ∧ p.lat ≤ β + η - η / 25) ∨
      (η ≤ -β ∧ -β + 2 * η ≤ π / 2 ∧ -β - η - η / 25 ≤ -p.lat ∧ -p.lat ≤ -β + η - η / 25)) →
      ∃ i, 0 ≤ i ∧ i < R.numTracts ∧ ∃ ctr, R.center A i = .ok ctr ∧
        ∃ q, Projection.TAN.toPlane ctr p = some q ∧ |q.x| ≤ tan (η + η / 24) ∧ |q.y| ≤ tan (η + η / 24) := by
    intro k β hk hβ hband
    obtain ⟨n, hn, hn0⟩ := getNum wf (k := k) (by rw [e1]; exact hk)
    obtain ⟨t, ht, t0, t1⟩ := (C34_total hA h h1 h2 p).2.1 k n hn
    have hb := wf.block_range hn t0 t1
    refine ⟨_, by omega, by omega, _, center_ring_rounding hA hh h h1 h2 hn t0 t1, ?_⟩
    have hn1 : (1 : ℝ) ≤ n := by exact_mod_cast (by omega : 1 ≤ n)
    obtain ⟨x, x1, x2, x3⟩ := ra_near hA wf hn (w33 n (List.mem_of_getElem? hn)) (raStart_bound hA h hr) hlon.1 hlonU ht
    have cd := center_dec_near hA hh h h1 h2 hk
    rw [eS, show 2 * η * ((k : ℝ) + 1) - π / 2 = β by rw [hβ]; ring] at cd
    have wd : cos (|β| - η) * (π / n) ≤ η + 1 / 2 ^ 43 := by
      have key : ∀ lat, |lat - β| ≤ η → cos lat * (π / n) ≤ η + 1 / 2 ^ 43 := by
        intro lat hl
        have := width_near hA h (by omega) h2 hn (lat := lat) (by
          rw [eS, show 2 * η * ((k : ℝ) + 1) - π / 2 = β by rw [hβ]; ring]
          norm_num at hl ⊢; linarith)
        rw [eS] at this
        linarith
      rcases abs_cases β with ⟨g1, -⟩ | ⟨g1, -⟩
      · rw [g1]
        refine key _ ?_
        rw [show β - η - β = -η by ring, abs_neg, abs_of_pos η0]
      · rw [g1, ← cos_neg]
        refine key _ ?_
        rw [show -(-β - η) - β = η by ring, abs_of_pos η0]
    refine union_square (ε := 1 / 2 ^ 42) (w := π / n + 1 / 2 ^ 44) (x := x) η0 η1 (by positivity) (by norm_num at s5 ⊢; linarith) ⟨x1, x2⟩
      (cd.trans (by norm_num)) (by positivity) x3 ?_ hband
    have := cos_le_one (|β| - η)
    rw [mul_add]
    norm_num at wd ⊢
    linarith
  rcases le_total 0 p.lat with hs | hs
  · rcases band_choice (N := c.numRings) η0 eN hs with g | ⟨k, hk, β, hβ, hb⟩
    · refine ⟨R.numTracts - 1, by omega, by omega, _, cN, ?_⟩
      refine disc_square (by linarith) (by linarith) ((near_north (u := η + η / 25 + 1 / 2 ^ 50) (w := 1 / 2 ^ 52) ?_ ?_ ?_).trans ?_)
      · rw [abs_le]; norm_num at hpi hla ⊢; constructor <;> linarith
      · dsimp only; rw [abs_le]; norm_num at hpi ⊢; constructor <;> linarith
      · norm_num; linarith
      · norm_num at s5 ⊢; linarith
    · exact ring k β hk hβ (hb.elim .inl fun g => .inr (.inl g))
  · rcases band_choice (N := c.numRings) (a := -p.lat) η0 eN (by linarith) with g | ⟨k, hk, β, hβ, hb⟩
    · refine ⟨0, by omega, by omega, _, cS, ?_⟩
      refine disc_square (by linarith) (by linarith) ((near_south (u := η + η / 25 + 1 / 2 ^ 50) (w := 1 / 2 ^ 52) ?_ ?_ ?_).trans ?_)
      · rw [abs_le]; norm_num at hpi hla ⊢; constructor <;> linarith
      · dsimp only; rw [abs_le]; norm_num at hpi ⊢; constructor <;> linarith
      · norm_num; linarith
      · norm_num at s5 ⊢; linarith
    · have hk' : ((c.numRings - 1 - k : Nat) : ℝ) = c.numRings - 1 - k := by
        rw [Nat.sub_sub, Nat.cast_sub (by omega)]; push_cast; ring
      refine ring (c.numRings - 1 - k) (-β) (by omega) (by rw [hk', hβ]; linear_combination -eN) ?_
      rcases hb with ⟨g1, g2⟩ | g
      · left; rw [abs_neg] at g2; exact ⟨by rw [g1, neg_zero], g2⟩
      · right; right
        rw [neg_neg]; exact g

/-- C78: a rings sky map of version 1 with 31 to 2^31 rings, without rotation and with TAN or STG projection, whose overlap is at least
1/48 of the height of a ring and 10^-9 degrees: whatever was accessed before, every position of the sky is in some tract. -/
theorem C78_covers (hA : A.Ieee) (hh : A.HalfPi) (h : Rings.new A c 1 = .ok R) (hN : 31 ≤ c.numRings) (h2 : c.numRings ≤ 2 ^ 31)
    (hr : |c.raStart| ≤ 360) (he : env.Ok)
    (hx : 0 < b₀.patchInnerDimensions.x) (hy : 0 < b₀.patchInnerDimensions.y)
    (hf : WcsFactory.new scale code 0 flipX = .ok f) (hsc : 0 < scale)
    (hP : Projection.ofCode code = some P) (hz : P ≠ .CEA)
    (hov : 15 / 4 / ((c.numRings : ℝ) + 1) + 1 / 10 ^ 9 ≤ c.tractOverlap)
    (hlim : 90 / ((c.numRings : ℝ) + 1) + c.tractOverlap + 1 / 10 ^ 9 ≤ 90)
    (hs : (skyMapOps A R env sphereOps (f.makeWcs other ⟨0, 0⟩)).After
      (init A R env sphereOps (f.makeWcs other ⟨0, 0⟩) b₀) s)
    {p : SpherePoint ℝ} (hlon : 0 ≤ p.lon ∧ p.lon < A.twoPi) (hlat : |p.lat| ≤ A.pi / 2) :
    ∃ i r s', (0 ≤ i ∧ i < R.numTracts) ∧
      (skyMapOps A R env sphereOps (f.makeWcs other ⟨0, 0⟩)).getItem i s = (.ok r, s') ∧ r.info.contains p = true := by
  have hp := pi_pos
  have h1 : 1 ≤ c.numRings := by omega
  have hN' : (31 : ℝ) ≤ c.numRings := by exact_mod_cast hN
  have hN1 : (0 : ℝ) < c.numRings + 1 := by positivity
  have h90 : 0 ≤ 90 / ((c.numRings : ℝ) + 1) := by positivity
  have h30 : 0 ≤ 15 / 4 / ((c.numRings : ℝ) + 1) := by positivity
  have hre := abs_le.mp (reach_near hA h h1 h2 (by norm_num at hov ⊢; linarith) (by norm_num at hlim ⊢; linarith))
  have e30 : 15 / 4 / ((c.numRings : ℝ) + 1) * (π / 180) = π / (c.numRings + 1) / 48 := by field_simp; ring
  have e90 : 90 / ((c.numRings : ℝ) + 1) * (π / 180) = π / (c.numRings + 1) / 2 := by field_simp; ring
  have o1 := mul_le_mul_of_nonneg_right hov (by positivity : 0 ≤ π / 180)
  have o2 := mul_le_mul_of_nonneg_right hlim (by positivity : 0 ≤ π / 180)
  rw [add_mul, e30] at o1
  rw [add_mul, add_mul, e90] at o2
  have p3 := pi_gt_three
  have p4 := pi_lt_d4
  obtain ⟨i, i0, i1, ctr, hctr, q, hq, q1, q2⟩ := some_square hA hh h hN h2 hr hlon hlat rfl
  set η := π / ((c.numRings : ℝ) + 1) / 2 with hη
  have η0 : 0 < η := by rw [hη]; positivity
  have eS : π / ((c.numRings : ℝ) + 1) = 2 * η := by rw [hη]; ring
  rw [eS] at o1
  have H1 : η + η / 24 ≤ A.mul (1 / 2) R.ringSize + A.deg2rad R.config.tractOverlap := by
    norm_num at hre o1 ⊢; linarith
  have H2 : A.mul (1 / 2) R.ringSize + A.deg2rad R.config.tractOverlap < π / 2 := by
    norm_num at hre o2 ⊢; linarith
  have H0 : 0 ≤ A.mul (1 / 2) R.ringSize + A.deg2rad R.config.tractOverlap := by linarith
  obtain ⟨r, s', hg⟩ := generate_rounding (env := env) (ops := sphereOps) (mk := f.makeWcs other ⟨0, 0⟩) hA hh h h1 h2 hr hx hy (fun ctr b =>
      ⟨_, WcsFactory.C56_bearing (other := other) hf hsc.ne' hP ⟨0, 0⟩ ctr b H0 (H2.trans_le (half_le_limit hz))⟩) ⟨i0, i1⟩ hs
  refine ⟨i, r, s', ⟨i0, i1⟩, hg, ?_⟩
  obtain ⟨ctr', inner, b, hctr', hnew⟩ := built_of_getItem hs hg
  obtain rfl : ctr = ctr' := Except.ok.inj (hctr.symm.trans hctr')
  have ht : tan (η + η / 24) ≤ tan (A.mul (1 / 2) R.ringSize + A.deg2rad R.config.tractOverlap) :=
    strictMonoOn_tan.monotoneOn ⟨by linarith, by linarith⟩ ⟨by linarith, H2⟩ H1
  exact explicit_gnomonic (other := other) he hnew hx hy hf hsc hP hz rfl rfl H0 H2 p hq (q1.trans ht) (q2.trans ht)

/-- C78 is not vacuous: double precision arithmetic, 120 rings and an overlap of 1/30 degree. -/
example : ∃ (R : Rings ℝ) (f : WcsFactory), Rings.new FloatArith.double ⟨120, 0, 1 / 30⟩ 1 = .ok R ∧ WcsFactory.new (1 / 1000) "TAN" 0 false = .ok f ∧
    ∀ p : SpherePoint ℝ, 0 ≤ p.lon ∧ p.lon < FloatArith.double.twoPi → |p.lat| ≤ FloatArith.double.pi / 2 →
    ∃ i r s', (0 ≤ i ∧ i < R.numTracts) ∧ (skyMapOps FloatArith.double R Ex.realEnv sphereOps (f.makeWcs other ⟨0, 0⟩)).getItem i
      (init FloatArith.double R Ex.realEnv sphereOps (f.makeWcs other ⟨0, 0⟩) Ex.smallBuilder) = (.ok r, s') ∧ r.info.contains p = true := by
  obtain ⟨f, hf⟩ := (WcsFactory.C56_projection_length (1 / 1000) "TAN" 0 false).2 rfl
  refine ⟨_, f, rfl, hf, fun p hlon hlat => ?_⟩
  exact C78_covers (c := ⟨120, 0, 1 / 30⟩) (P := .TAN) FloatArith.double_ieee FloatArith.double_halfPi rfl (by norm_num) (by norm_num) (by simp)
    Ex.realEnv_ok (by decide) (by decide) hf (by norm_num) rfl (by decide) (by norm_num) (by norm_num) (SkyMapOps.After.refl _) hlon hlat

/-- C78 where the overlap is smaller, because the box of a tract grows to whole patches: TAN projection, 31 to 2^31 rings, and the reach ρ of the
tracts (up to 10^-9 radians) needs `k` by `l` patches, and half of those, less 4 pixels, is at least 25/24 of half the height of a ring. -/
theorem C78_grown (hA : A.Ieee) (hh : A.HalfPi) (h : Rings.new A c 1 = .ok R) (hN : 31 ≤ c.numRings) (h2 : c.numRings ≤ 2 ^ 31)
    (hr : |c.raStart| ≤ 360) (he : env.Ok)
    (hx : 0 < b₀.patchInnerDimensions.x) (hy : 0 < b₀.patchInnerDimensions.y)
    (hf : WcsFactory.new scale "TAN" 0 flipX = .ok f) (hsc : 0 < scale)
    (hov : 0 ≤ c.tractOverlap) (hlim : 90 / ((c.numRings : ℝ) + 1) + c.tractOverlap + 1 / 10 ^ 9 ≤ 90)
    {ρ : ℝ} (ρ0 : 0 ≤ ρ) (hρ : ρ + 1 / 10 ^ 9 ≤ (90 / ((c.numRings : ℝ) + 1) + c.tractOverlap) * (π / 180)) {k l : Int}
    (hk : ((k : ℝ) - 1) * b₀.patchInnerDimensions.x < 2 * (tan ρ / scale)) (hl : ((l : ℝ) - 1) * b₀.patchInnerDimensions.y < 2 * (tan ρ / scale))
    (hk' : tan (25 / 24 * (90 / ((c.numRings : ℝ) + 1) * (π / 180))) / scale + 4 ≤ k * b₀.patchInnerDimensions.x / 2)
    (hl' : tan (25 / 24 * (90 / ((c.numRings : ℝ) + 1) * (π / 180))) / scale + 4 ≤ l * b₀.patchInnerDimensions.y / 2)
    (hs : (skyMapOps A R env sphereOps (f.makeWcs other ⟨0, 0⟩)).After
      (init A R env sphereOps (f.makeWcs other ⟨0, 0⟩) b₀) s)
    {p : SpherePoint ℝ} (hlon : 0 ≤ p.lon ∧ p.lon < A.twoPi) (hlat : |p.lat| ≤ A.pi / 2) :
    ∃ i r s', (0 ≤ i ∧ i < R.numTracts) ∧
      (skyMapOps A R env sphereOps (f.makeWcs other ⟨0, 0⟩)).getItem i s = (.ok r, s') ∧ r.info.contains p = true := by
  have hp := pi_pos
  have h1 : 1 ≤ c.numRings := by omega
  have hN' : (31 : ℝ) ≤ c.numRings := by exact_mod_cast hN
  have hN1 : (0 : ℝ) < c.numRings + 1 := by positivity
  have h90 : 0 ≤ 90 / ((c.numRings : ℝ) + 1) := by positivity
  have hre := abs_le.mp (reach_near hA h h1 h2 hov (by norm_num at hlim ⊢; linarith))
  have e90 : 90 / ((c.numRings : ℝ) + 1) * (π / 180) = π / (c.numRings + 1) / 2 := by field_simp; ring
  have o2 := mul_le_mul_of_nonneg_right hlim (by positivity : 0 ≤ π / 180)
  rw [add_mul, add_mul, e90] at o2
  rw [add_mul, e90] at hρ
  rw [e90] at hk' hl'
  have p3 := pi_gt_three
  have p4 := pi_lt_d4
  obtain ⟨i, i0, i1, ctr, hctr, q, hq, q1, q2⟩ := some_square hA hh h hN h2 hr hlon hlat rfl
  set η := π / ((c.numRings : ℝ) + 1) / 2 with hη
  have η0 : 0 < η := by rw [hη]; positivity
  rw [show 25 / 24 * η = η + η / 24 by ring] at hk' hl'
  have H1 : ρ ≤ A.mul (1 / 2) R.ringSize + A.deg2rad R.config.tractOverlap := by
    norm_num at hre hρ ⊢; linarith
  have H2 : A.mul (1 / 2) R.ringSize + A.deg2rad R.config.tractOverlap < π / 2 := by
    norm_num at hre o2 ⊢; linarith
  have H0 : 0 ≤ A.mul (1 / 2) R.ringSize + A.deg2rad R.config.tractOverlap := by linarith
  obtain ⟨r, s', hg⟩ := generate_rounding (env := env) (ops := sphereOps) (mk := f.makeWcs other ⟨0, 0⟩) hA hh h h1 h2 hr hx hy (fun ctr b =>
      ⟨_, WcsFactory.C56_bearing (other := other) (P := .TAN) hf hsc.ne' rfl ⟨0, 0⟩ ctr b H0 H2⟩) ⟨i0, i1⟩ hs
  refine ⟨i, r, s', ⟨i0, i1⟩, hg, ?_⟩
  obtain ⟨ctr', inner, b, hctr', hnew⟩ := built_of_getItem hs hg
  obtain rfl : ctr = ctr' := Except.ok.inj (hctr.symm.trans hctr')
  have ht : tan ρ / scale ≤ tan (A.mul (1 / 2) R.ringSize + A.deg2rad R.config.tractOverlap) / scale := by
    gcongr
    exact strictMonoOn_tan.monotoneOn ⟨by linarith, by linarith⟩ ⟨by linarith, H2⟩ H1
  have d1 : |q.x| / scale ≤ tan (η + η / 24) / scale := by gcongr
  have d2 : |q.y| / scale ≤ tan (η + η / 24) / scale := by gcongr
  exact explicit_grown (other := other) (P := .TAN) he hnew hx hy hf hsc rfl rfl rfl H0 H2 (k := k) (l := l)
    (by push_cast; dsimp only [Projection.radius]; linarith) (by push_cast; dsimp only [Projection.radius]; linarith) p hq
    (by linarith) (by linarith)

/-- The numbers for 120 rings with an overlap of an arc minute, in units of 10^-9 radians. -/
theorem rubin_bounds : 0.01327 < tan 0.01327 ∧ tan (25 / 24 * (90 / ((120 : ℕ) + 1) * (π / 180))) < 0.01353 ∧
    0.01327 + 1 / 10 ^ 9 ≤ (90 / (((120 : ℕ) : ℝ) + 1) + 1 / 60) * (π / 180) := by
  have h1 := pi_gt_d4
  have h2 := pi_lt_d4
  refine ⟨lt_tan (by norm_num) (by linarith), ?_, ?_⟩
  · set x := 25 / 24 * (90 / (((120 : ℕ) : ℝ) + 1) * (π / 180)) with hx
    have x1 : 0 < x := by positivity
    have x2 : x < 0.013524 := by rw [hx]; norm_num; linarith
    have c0 : 0 < cos x := cos_pos_of_mem_Ioo ⟨by linarith, by linarith⟩
    rw [tan_eq_sin_div_cos, div_lt_iff₀ c0]
    have k1 := sin_lt x1
    have k2 := one_sub_sq_div_two_le_cos (x := x)
    have k3 : x ^ 2 ≤ 0.013524 ^ 2 := by gcongr
    linarith
  · norm_num; linarith

/-- C78 for the sky map of the Rubin Observatory: 120 rings, an overlap of an arc minute, pixels of 0.2 arc seconds, TAN projection and patches
of 4000 pixels. Although the tract that `findTract` returns does not always contain the position (C58_gap), some tract always does. -/
theorem C78_lsst (hA : A.Ieee) (hh : A.HalfPi) (h : Rings.new A ⟨120, 0, 1 / 60⟩ 1 = .ok R) (he : env.Ok)
    (hb : b₀.patchInnerDimensions = ⟨4000, 4000⟩) (hf : WcsFactory.new (π / 3240000) "TAN" 0 flipX = .ok f)
    (hs : (skyMapOps A R env sphereOps (f.makeWcs other ⟨0, 0⟩)).After
      (init A R env sphereOps (f.makeWcs other ⟨0, 0⟩) b₀) s)
    {p : SpherePoint ℝ} (hlon : 0 ≤ p.lon ∧ p.lon < A.twoPi) (hlat : |p.lat| ≤ A.pi / 2) :
    ∃ i r s', (0 ≤ i ∧ i < R.numTracts) ∧
      (skyMapOps A R env sphereOps (f.makeWcs other ⟨0, 0⟩)).getItem i s = (.ok r, s') ∧ r.info.contains p = true := by
  have h1 := pi_gt_d4
  have h2 := pi_lt_d4
  obtain ⟨r1, r2, r3⟩ := rubin_bounds
  have k1 : (6 : ℝ) * 4000 < 2 * (tan 0.01327 / (π / 3240000)) := by
    rw [div_div_eq_mul_div, ← mul_div_assoc, lt_div_iff₀ pi_pos]; linarith
  have k2 : tan (25 / 24 * (90 / ((120 : ℕ) + 1) * (π / 180))) / (π / 3240000) + 4 ≤ (7 : ℝ) * 4000 / 2 := by
    have : tan (25 / 24 * (90 / ((120 : ℕ) + 1) * (π / 180))) / (π / 3240000) ≤ 13996 := by
      rw [div_le_iff₀ (by positivity)]; linarith
    linarith
  have hx : 0 < b₀.patchInnerDimensions.x := by rw [hb]; norm_num
  have hy : 0 < b₀.patchInnerDimensions.y := by rw [hb]; norm_num
  refine C78_grown (ρ := 0.01327) (k := 7) (l := 7) hA hh h (by norm_num) (by norm_num) (by simp) he hx hy hf (by positivity) (by norm_num) (by norm_num)
    (by norm_num) r3 ?_ ?_ ?_ ?_ hs hlon hlat
  · rw [hb]; norm_num at k1 ⊢; linarith
  · rw [hb]; norm_num at k1 ⊢; linarith
  · rw [hb]; push_cast at k2 ⊢; exact k2
  · rw [hb]; push_cast at k2 ⊢; exact k2

/-- `C78_lsst` is not vacuous: double precision arithmetic. -/
example : ∃ (R : Rings ℝ) (f : WcsFactory), Rings.new FloatArith.double ⟨120, 0, 1 / 60⟩ 1 = .ok R ∧
    WcsFactory.new (π / 3240000) "TAN" 0 false = .ok f ∧
    ∀ p : SpherePoint ℝ, 0 ≤ p.lon ∧ p.lon < FloatArith.double.twoPi → |p.lat| ≤ FloatArith.double.pi / 2 →
    ∃ i r s', (0 ≤ i ∧ i < R.numTracts) ∧ (skyMapOps FloatArith.double R Ex.realEnv sphereOps (f.makeWcs other ⟨0, 0⟩)).getItem i
      (init FloatArith.double R Ex.realEnv sphereOps (f.makeWcs other ⟨0, 0⟩) ⟨.legacy, ⟨4000, 4000⟩, 100, none⟩) = (.ok r, s') ∧
      r.info.contains p = true := by
  obtain ⟨f, hf⟩ := (WcsFactory.C56_projection_length (π / 3240000) "TAN" 0 false).2 rfl
  refine ⟨_, f, rfl, hf, fun p hlon hlat => ?_⟩
  exact C78_lsst FloatArith.double_ieee FloatArith.double_halfPi rfl Ex.realEnv_ok rfl hf (SkyMapOps.After.refl _) hlon hlat

end Rings
end Skymap
