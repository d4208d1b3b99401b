import Verif.Props.ExplicitCover
import Verif.Props.RingsRegion
import Mathlib.Analysis.SpecialFunctions.Trigonometric.Bounds

/-!
# C58: does the tract that `RingsSkyMap.findTract` returns contain the position?

TAN or STG projection, no rotation, exact arithmetic.
-/

set_option linter.unusedSectionVars false

namespace Skymap
open Real

/-- Bounds of sines of angles up to 60 degrees. -/
theorem sin_ring_bounds {s : ℝ} (s0 : 0 < s) (hp : s < 1.0472) :
    801 / 1000 * s ≤ sin s ∧ 4 / 25 * s ≤ sin (s / 6) ∧ s / 2 * cos (2 * s / 3) ≤ sin (2 * s / 3) * (1 - s ^ 2 / 4) := by
  have hs2 : s ^ 2 < 1.0967 := by nlinarith
  have e1 := sin_gt_sub_cube (x := s / 2) (by linarith)
  have e2 := one_sub_sq_div_two_le_cos (x := s / 2)
  have e3 := sin_gt_sub_cube (x := s / 6) (by linarith)
  have e4 := sin_gt_sub_cube (x := 2 * s / 3) (by linarith)
  have e5 := sin_gt_sub_cube (x := s / 3) (by linarith)
  have c1 : s / 2 * 0.93 ≤ sin (s / 2) := by nlinarith
  have c2 : 0.862 ≤ cos (s / 2) := by nlinarith
  have c3 : sin s = 2 * sin (s / 2) * cos (s / 2) := by rw [← sin_two_mul]; ring_nf
  refine ⟨?_, ?_, ?_⟩
  · rw [c3]
    have : s / 2 * 0.93 * 0.862 ≤ sin (s / 2) * cos (s / 2) := by
      apply mul_le_mul c1 c2 (by norm_num); linarith
    linarith
  · nlinarith
  · have c4 : cos (2 * s / 3) = 1 - 2 * sin (s / 3) ^ 2 := by
      rw [show 2 * s / 3 = 2 * (s / 3) by ring, cos_two_mul]
      have := sin_sq_add_cos_sq (s / 3); linarith
    have c5 : s / 3 * 0.969 ≤ sin (s / 3) := by nlinarith
    have c6 : (s / 3 * 0.969) ^ 2 ≤ sin (s / 3) ^ 2 := by gcongr
    have c7 : 2 * s / 3 * (1 - 2 * s ^ 2 / 27) ≤ sin (2 * s / 3) := by nlinarith
    have c8 : 2 * s / 3 * (1 - 2 * s ^ 2 / 27) * (1 - s ^ 2 / 4) ≤ sin (2 * s / 3) * (1 - s ^ 2 / 4) := by
      apply mul_le_mul_of_nonneg_right c7; linarith
    refine le_trans ?_ c8
    have c9 : cos (2 * s / 3) ≤ 1 - 0.2086 * s ^ 2 := by rw [c4]; nlinarith
    have c10 : (1 / 2 : ℝ) * (1 - 0.2086 * s ^ 2) ≤ 2 / 3 * (1 - 2 * s ^ 2 / 27) * (1 - s ^ 2 / 4) := by nlinarith [sq_nonneg (s ^ 2)]
    have c11 := mul_le_mul_of_nonneg_left c9 (by positivity : 0 ≤ s / 2)
    have c12 := mul_le_mul_of_nonneg_left c10 s0.le
    linarith

/-- The cosine of the separation, from below. -/
theorem ring_cosSep {s w a b x : ℝ} (s0 : 0 < s) (hd : |a - b| ≤ s / 2) (ca : 0 ≤ cos a) (cb : 0 ≤ cos b) (hw : 0 ≤ w)
    (hxw : |x| ≤ w) (w1 : cos a * w ≤ s / 2) (w2 : cos b * w ≤ s / 2) :
    1 - s ^ 2 / 4 ≤ cos (a - b) - cos a * cos b * (1 - cos x) := by
  have cx := one_sub_sq_div_two_le_cos (x := x)
  have x2 : x ^ 2 ≤ w ^ 2 := by rw [← sq_abs x]; gcongr
  have hD1 : 1 - s ^ 2 / 8 ≤ cos (a - b) := by
    have h1 := one_sub_sq_div_two_le_cos (x := a - b)
    have h2 : (a - b) ^ 2 ≤ (s / 2) ^ 2 := by rw [← sq_abs]; gcongr
    linarith
  have k1 : cos a * cos b * (1 - cos x) ≤ cos a * cos b * (w ^ 2 / 2) := by
    apply mul_le_mul_of_nonneg_left _ (by positivity); linarith
  have k2 : (cos a * w) * (cos b * w) ≤ (s / 2) * (s / 2) := by
    apply mul_le_mul w1 w2 (by positivity) (by linarith)
  have k3 : cos a * cos b * (w ^ 2 / 2) = (cos a * w) * (cos b * w) / 2 := by ring
  linarith

/-- How far the parallel bulges. -/
theorem ring_bulge {s w a b x : ℝ} (s0 : 0 < s) (hb : 4 / 5 * s ≤ cos b) (ca : 0 ≤ cos a) (hw : 0 ≤ w)
    (hxw : |x| ≤ w) (w1 : cos a * w ≤ s / 2) (w2 : cos b * w ≤ s / 2) :
    0 ≤ cos a * (1 - cos x) ∧ cos a * (1 - cos x) ≤ 4 / 25 * s := by
  have cx := one_sub_sq_div_two_le_cos (x := x)
  have x2 : x ^ 2 ≤ w ^ 2 := by rw [← sq_abs x]; gcongr
  have w58 : w ≤ 5 / 8 := by
    have h1 : 4 / 5 * s * w ≤ s / 2 := le_trans (mul_le_mul_of_nonneg_right hb hw) w2
    have h2 : s * w ≤ s * (5 / 8) := by linarith
    exact le_of_mul_le_mul_left h2 s0
  refine ⟨mul_nonneg ca (by linarith [cos_le_one x]), ?_⟩
  have k1 : cos a * (1 - cos x) ≤ cos a * (w ^ 2 / 2) := mul_le_mul_of_nonneg_left (by linarith) ca
  have k2 : (cos a * w) * w ≤ (s / 2) * (5 / 8) := mul_le_mul w1 w58 hw (by linarith)
  have k3 : cos a * (w ^ 2 / 2) = (cos a * w) * w / 2 := by ring
  linarith

/-- A lower bound of the sine between s/6 and π/2 + s/2. -/
theorem ring_low {s y : ℝ} (s0 : 0 < s) (s1 : s < 1.0472) (b2 : 4 / 25 * s ≤ sin (s / 6)) (y1 : s / 6 ≤ y) (y2 : y ≤ π / 2 + s / 2) :
    4 / 25 * s ≤ sin y := by
  have := pi_gt_d2
  rcases le_total y (π / 2) with h' | h'
  · exact b2.trans (sin_le_sin_of_le_of_le_pi_div_two (by linarith) h' y1)
  · rw [← sin_pi_sub]
    exact b2.trans (sin_le_sin_of_le_of_le_pi_div_two (by linarith) (by linarith) (by linarith))

/-- The northward part. -/
theorem ring_north {s a b x h : ℝ} (s0 : 0 < s) (s1 : s < 1.0472) (hd : |a - b| ≤ s / 2) (h1 : 2 * s / 3 ≤ h) (h2 : h < π / 2)
    (κ0 : 0 ≤ cos a * (1 - cos x)) (κ1 : cos a * (1 - cos x) ≤ 4 / 25 * s) :
    (sin a * cos b - cos a * sin b * cos x) * cos h ≤ (cos (a - b) - cos a * cos b * (1 - cos x)) * sin h ∧
    -((cos (a - b) - cos a * cos b * (1 - cos x)) * sin h) ≤ (sin a * cos b - cos a * sin b * cos x) * cos h := by
  obtain ⟨-, b2, -⟩ := sin_ring_bounds s0 s1
  have hd' := abs_le.1 hd
  constructor
  · have e : (cos (a - b) - cos a * cos b * (1 - cos x)) * sin h - (sin a * cos b - cos a * sin b * cos x) * cos h =
        sin (b + h - a) - cos a * (1 - cos x) * sin (b + h) := by
      rw [sin_sub (b + h), sin_add, cos_add, cos_sub]; ring
    have l := ring_low (y := b + h - a) s0 s1 b2 (by linarith) (by linarith)
    have := mul_le_mul_of_nonneg_left (sin_le_one (b + h)) κ0
    linarith
  · have e : (cos (a - b) - cos a * cos b * (1 - cos x)) * sin h + (sin a * cos b - cos a * sin b * cos x) * cos h =
        sin (a - b + h) + cos a * (1 - cos x) * sin (b - h) := by
      rw [sin_add, sin_sub a, sin_sub b, cos_sub]; ring
    have l := ring_low (y := a - b + h) s0 s1 b2 (by linarith) (by linarith)
    have := mul_le_mul_of_nonneg_left (neg_one_le_sin (b - h)) κ0
    linarith

/-- The part of a ring around the centre of a tract, as far as the tracts of that ring are wide, is inside the square of half size 2/3
of the ring's height around the centre, in the tangent plane. -/
theorem ring_square {s w h : ℝ} {ctr p : SpherePoint ℝ} (s0 : 0 < s) (s1 : s < 1.0472) (hd : |p.lat - ctr.lat| ≤ s / 2)
    (hlat : |p.lat| ≤ π / 2) (hw : 0 ≤ w) {x : ℝ} (hx : cos (p.lon - ctr.lon) = cos x ∧ sin (p.lon - ctr.lon) = sin x) (hxw : |x| ≤ w)
    (w1 : cos p.lat * w ≤ s / 2) (w2 : cos ctr.lat * w ≤ s / 2) (hc : 4 / 5 * s ≤ cos ctr.lat) (h1 : 2 * s / 3 ≤ h) (h2 : h < π / 2) :
    ∃ q, Projection.TAN.toPlane ctr p = some q ∧ |q.x| ≤ tan h ∧ |q.y| ≤ tan h := by
  have hp := pi_pos
  obtain ⟨b1, b2, b3⟩ := sin_ring_bounds s0 s1
  have cp : 0 ≤ cos p.lat := cos_nonneg_of_mem_Icc ⟨by linarith [(abs_le.1 hlat).1], (abs_le.1 hlat).2⟩
  have cc : 0 ≤ cos ctr.lat := by linarith
  have eD : cosSep ctr p = cos (p.lat - ctr.lat) - cos p.lat * cos ctr.lat * (1 - cos x) := by
    unfold cosSep
    rw [show ctr.lon - p.lon = -(p.lon - ctr.lon) by ring, cos_neg, hx.1, cos_sub]
    ring
  have eN : northOf ctr p = sin p.lat * cos ctr.lat - cos p.lat * sin ctr.lat * cos x := by
    unfold northOf; rw [hx.1]; ring
  have hD := ring_cosSep s0 hd cp cc hw hxw w1 w2
  obtain ⟨κ0, κ1⟩ := ring_bulge s0 hc cp hw hxw w1 w2
  obtain ⟨up, dn⟩ := ring_north s0 s1 hd h1 h2 κ0 κ1
  rw [← eD] at hD up dn
  rw [← eN] at up dn
  have k1 : |eastOf ctr p| ≤ s / 2 := by
    unfold eastOf
    rw [hx.2, abs_mul, abs_of_nonneg cp]
    exact le_trans (mul_le_mul_of_nonneg_left ((abs_sin_le_abs).trans hxw) cp) w1
  have hs2 : s ^ 2 / 4 < 1 := by
    have : s < 2 := by have := pi_lt_d4; linarith
    nlinarith
  have hD0 : 0 < cosSep ctr p := by linarith
  have ch : 0 < cos h := cos_pos_of_mem_Ioo ⟨by linarith, h2⟩
  have sh : 0 < sin h := sin_pos_of_pos_of_lt_pi (by linarith) (by linarith)
  have chs : cos h ≤ cos (2 * s / 3) := cos_le_cos_of_nonneg_of_le_pi (by linarith) (by linarith) h1
  have shs : sin (2 * s / 3) ≤ sin h := sin_le_sin_of_le_of_le_pi_div_two (by linarith) h2.le h1
  have eE : |eastOf ctr p| * cos h ≤ cosSep ctr p * sin h := by
    calc |eastOf ctr p| * cos h ≤ s / 2 * cos (2 * s / 3) := mul_le_mul k1 chs ch.le (by linarith)
      _ ≤ sin (2 * s / 3) * (1 - s ^ 2 / 4) := b3
      _ ≤ sin h * cosSep ctr p := mul_le_mul shs hD (by linarith) sh.le
      _ = _ := mul_comm _ _
  have eN' : |northOf ctr p| * cos h ≤ cosSep ctr p * sin h := by
    have : |northOf ctr p * cos h| ≤ cosSep ctr p * sin h := abs_le.2 ⟨dn, up⟩
    rwa [abs_mul, abs_of_pos ch] at this
  refine ⟨⟨eastOf ctr p / cosSep ctr p, northOf ctr p / cosSep ctr p⟩, ?_, ?_, ?_⟩
  · unfold Projection.toPlane; dsimp only; rw [if_pos hD0]
  · dsimp only
    rw [abs_div, abs_of_pos hD0, tan_eq_sin_div_cos, div_le_div_iff₀ hD0 ch, mul_comm (sin h)]
    exact eE
  · dsimp only
    rw [abs_div, abs_of_pos hD0, tan_eq_sin_div_cos, div_le_div_iff₀ hD0 ch, mul_comm (sin h)]
    exact eN'

namespace Rings
open FloatArith (exact)
variable {A : FloatArith ℝ} {c : RingsConfig ℝ} {R : Rings ℝ} {v : Int}
variable {env : FloatEnv ℝ} {ops : SkyOps (SpherePoint ℝ) ℝ} {mk : SpherePoint ℝ → Wcs (SpherePoint ℝ) ℝ} {b₀ : TractBuilder}
variable {s s' : MapState (SpherePoint ℝ) ℝ} {r : TractRef (SpherePoint ℝ) ℝ}

/-- A tract that was accessed after any history was built with the arguments of its centre and range. -/
theorem built_of_getItem (hs : (skyMapOps A R env ops mk).After (init A R env ops mk b₀) s) {i : Int}
    (h : (skyMapOps A R env ops mk).getItem i s = (.ok r, s')) :
    ∃ ctr inner b, R.center A i = .ok ctr ∧ TractInfo.new env ops b₀
      ⟨i, ctr, .explicit (A.mul (1 / 2) R.ringSize), A.deg2rad R.config.tractOverlap, mk ctr, inner⟩ = .ok (r.info, b) := by
  obtain ⟨k, rfl, hk, b, hf, -⟩ := fresh_of_getItem hs h
  unfold CachingSkyMap.fresh at hf
  cases ha : (R.cachingDef A env ops mk).tractArgs k with
  | error e => rw [ha] at hf; cases hf
  | ok a =>
    rw [ha] at hf
    simp only [cachingDef] at ha
    obtain ⟨q, hq, ha⟩ := bindOk ha
    obtain ⟨g, hg, ha⟩ := bindOk ha
    simp only [pure, Except.pure, Except.ok.injEq] at ha
    rw [← ha] at hf
    exact ⟨q, _, b, hq, hf⟩

/-- A position inside a tract of a ring: how far it is from the tract's centre in latitude and longitude. -/
theorem Inside.near (h : Rings.new exact c 1 = .ok R) {p : SpherePoint ℝ} (hlon : 0 ≤ p.lon ∧ p.lon < 2 * π)
    {k : Nat} {n u : Int} (hk : R.ringNums[k]? = some n) (h3 : 0 ≤ u) (h4 : u < n)
    (hin : R.Inside exact (1 + (R.ringNums.take k).sum + u) p) :
    ∃ ctr, R.center exact (1 + (R.ringNums.take k).sum + u) = .ok ctr ∧ ctr.lat = R.ringSize * (k + 1) - π / 2 ∧
      |p.lat - ctr.lat| ≤ R.ringSize / 2 ∧ ∃ x, cos (p.lon - ctr.lon) = cos x ∧ sin (p.lon - ctr.lon) = sin x ∧ |x| ≤ π / n := by
  obtain ⟨wf, w3⟩ := new_wf h
  obtain ⟨h1, hv, -⟩ := new_exact h
  obtain ⟨s0, s1⟩ := size_pos h
  have hp := pi_pos
  have hi := wf.getRingIndices_ring hv hk h3 h4
  have hn : (0 : ℝ) < n := by exact_mod_cast (by omega : 0 < n)
  have hn3 : (3 : ℝ) ≤ n := by exact_mod_cast w3 n (List.mem_of_getElem? hk)
  refine ⟨_, center_ring h hi hk, rfl, ?_, ?_⟩
  · obtain ⟨g, hg, -, g1, g2⟩ := hin
    rw [range_ring wf hi hk] at hg
    cases hg
    dsimp only at g1 g2 ⊢
    have hk2 : (k : ℝ) + 1 ≤ c.numRings := by
      have := wf.lt_numRings hk; rw [h1] at this; exact_mod_cast this
    have g3 : p.lat ≤ -π / 2 + (k + 3 / 2) * R.ringSize := by
      rcases g2 with g2 | g2
      · have hN := wf.numTracts_ge
        exfalso
        have e1 := wf.getRingIndices_north
        rw [← g2, hi] at e1
        have := wf.lt_numRings hk
        simp only [Except.ok.injEq, Prod.mk.injEq] at e1
        omega
      · exact g2.le
    rw [abs_le]
    constructor <;> linarith
  · obtain ⟨g, hg, g1, -⟩ := hin
    rw [range_ring wf hi hk] at hg
    cases hg
    dsimp only at g1
    rw [inArc_iff _ _ _ _ (by rw [div_lt_div_iff_of_pos_right hn]; nlinarith) (by
        have e : ((u : ℝ) + 1 / 2) * 2 * π / n = (u - 1 / 2) * 2 * π / n + 2 * π / n := by ring
        have : 2 * π / n ≤ 2 * π := div_le_self (by positivity) (by linarith)
        linarith) hlon] at g1
    obtain ⟨m, m1, m2⟩ := g1
    refine ⟨p.lon - R.raStart + m * (2 * π) - 2 * π * u / n, ?_, ?_, ?_⟩
    · rw [← cos_neg, neg_sub, cos_wrap_sub, ← cos_neg, neg_sub,
        show p.lon - R.raStart + m * (2 * π) - 2 * π * u / n = p.lon - (2 * π * u / n + R.raStart) + m * (2 * π) by ring,
        cos_add_int_mul_two_pi]
    · rw [← neg_sub, sin_neg, sin_wrap_sub, ← sin_neg, neg_sub,
        show p.lon - R.raStart + m * (2 * π) - 2 * π * u / n = p.lon - (2 * π * u / n + R.raStart) + m * (2 * π) by ring,
        sin_add_int_mul_two_pi]
    · have e1 : ((u : ℝ) - 1 / 2) * 2 * π / n = 2 * π * u / n - π / n := by ring
      have e2 : ((u : ℝ) + 1 / 2) * 2 * π / n = 2 * π * u / n + π / n := by ring
      rw [abs_le]
      constructor <;> linarith

variable {scale : ℝ} {f : WcsFactory} {flipX : Bool} {code : String} {P : Projection} {other : P2 ℝ → SpherePoint ℝ → CdMatrix → String → Wcs (SpherePoint ℝ) ℝ}

/-- Zenithal projections reach at least 90 degrees. -/
theorem half_le_limit (hz : P ≠ .CEA) : π / 2 ≤ P.limit := by
  cases P with
  | CEA => exact absurd rfl hz
  | TAN => exact le_rfl
  | STG => unfold Projection.limit; linarith [pi_pos]

/-- Without rotation, a tract with the projection TAN or STG contains the square of half size radius + overlap of the *gnomonic* plane
around its centre: that square is part of the one in the stereographic plane. -/
theorem explicit_gnomonic {a : TractArgs (SpherePoint ℝ) ℝ} {t : TractInfo (SpherePoint ℝ) ℝ} {b : TractBuilder}
    (he : env.Ok) (h : TractInfo.new env sphereOps b₀ a = .ok (t, b))
    (hx : 0 < b₀.patchInnerDimensions.x) (hy : 0 < b₀.patchInnerDimensions.y)
    (hf : WcsFactory.new scale code 0 flipX = .ok f) (hs : 0 < scale) (hP : Projection.ofCode code = some P) (hz : P ≠ .CEA)
    {r : ℝ} (ha : a.shape = .explicit r) (hw : a.wcs = f.makeWcs other ⟨0, 0⟩ a.ctrCoord)
    (h0 : 0 ≤ r + a.tractOverlap) (hl : r + a.tractOverlap < π / 2) (p : SpherePoint ℝ) {q : P2 ℝ}
    (hq : Projection.TAN.toPlane a.ctrCoord p = some q) (q1 : |q.x| ≤ tan (r + a.tractOverlap)) (q2 : |q.y| ≤ tan (r + a.tractOverlap)) :
    t.contains p = true := by
  have hp := pi_pos
  cases P with
  | CEA => exact absurd rfl hz
  | TAN => exact C57_covers_square (other := other) he h hx hy hf hs hP ha hw h0 hl p hq q1 q2
  | STG =>
    have hlim : r + a.tractOverlap < Projection.STG.limit := by unfold Projection.limit; linarith
    have hc : 0 < cosSep a.ctrCoord p := by
      by_contra hc
      simp [Projection.toPlane, hc] at hq
    rcases le_total (greatCircle a.ctrCoord p) (r + a.tractOverlap) with hd | hd
    · exact C57_covers (other := other) he h hx hy hf hs hP ha hw hlim p hd
    · have hc2 : cosSep a.ctrCoord p ≤ cos (r + a.tractOverlap) := by
        have hr := cosSep_range a.ctrCoord p
        rw [show cosSep a.ctrCoord p = cos (greatCircle a.ctrCoord p) from (cos_arccos hr.1 hr.2).symm]
        exact cos_le_cos_of_nonneg_of_le_pi h0 (arccos_le_pi _) hd
      have hcos : 0 < cos (r + a.tractOverlap) := cos_pos_of_mem_Ioo ⟨by linarith, by linarith⟩
      have key : ∀ E : ℝ, |E / cosSep a.ctrCoord p| ≤ tan (r + a.tractOverlap) →
          |2 * E / (1 + cosSep a.ctrCoord p)| ≤ Projection.STG.radius (r + a.tractOverlap) := by
        intro E hE
        rw [abs_div, abs_of_pos hc, div_le_iff₀ hc, tan_eq_sin_div_cos, div_mul_eq_mul_div, le_div_iff₀ hcos] at hE
        have e : Projection.STG.radius (r + a.tractOverlap) = 2 * (sin (r + a.tractOverlap) / (1 + cos (r + a.tractOverlap))) := by
          set x := (r + a.tractOverlap) / 2 with hx
          have e : r + a.tractOverlap = 2 * x := by rw [hx]; ring
          have cx : 0 < cos x := cos_pos_of_mem_Ioo ⟨by linarith, by linarith⟩
          simp only [Projection.radius]
          rw [← hx, e, sin_two_mul, cos_two_mul, tan_eq_sin_div_cos]
          field_simp
          ring
        rw [e, abs_div, abs_mul, abs_of_pos (by linarith : 0 < 1 + cosSep a.ctrCoord p), abs_two, div_le_iff₀ (by linarith), mul_assoc]
        have hsin : 0 ≤ sin (r + a.tractOverlap) := sin_nonneg_of_nonneg_of_le_pi h0 (by linarith)
        have : |E| ≤ sin (r + a.tractOverlap) / (1 + cos (r + a.tractOverlap)) * (1 + cosSep a.ctrCoord p) := by
          rw [div_mul_eq_mul_div, le_div_iff₀ (by linarith)]
          have h1 : |E| ≤ sin (r + a.tractOverlap) := by
            have := mul_le_mul_of_nonneg_left hc2 hsin
            nlinarith
          nlinarith
        linarith
      rw [Projection.toPlane, if_pos hc] at hq
      cases hq
      refine C57_covers_square (other := other) he h hx hy hf hs hP ha hw h0 hlim p
        (q := ⟨2 * eastOf a.ctrCoord p / (1 + cosSep a.ctrCoord p), 2 * northOf a.ctrCoord p / (1 + cosSep a.ctrCoord p)⟩) ?_ (key _ q1) (key _ q2)
      rw [Projection.toPlane, if_pos (by linarith)]

/-- C58: a rings sky map of version 1 with two rings or more, without rotation and with TAN or STG projection, whose overlap is at least a sixth
of the height of a ring: whatever was accessed before, the tract that `findTract` returns contains the position. -/
theorem C58_covers (h : Rings.new exact c 1 = .ok R) (hN : 2 ≤ c.numRings) (he : env.Ok)
    (hx : 0 < b₀.patchInnerDimensions.x) (hy : 0 < b₀.patchInnerDimensions.y)
    (hf : WcsFactory.new scale code 0 flipX = .ok f) (hsc : 0 < scale)
    (hP : Projection.ofCode code = some P) (hz : P ≠ .CEA)
    (hov : 30 / ((c.numRings : ℝ) + 1) ≤ c.tractOverlap) (hlim : 90 / ((c.numRings : ℝ) + 1) + c.tractOverlap < 90)
    (hs : (skyMapOps exact R env sphereOps (f.makeWcs other ⟨0, 0⟩)).After
      (init exact R env sphereOps (f.makeWcs other ⟨0, 0⟩) b₀) s)
    {p : SpherePoint ℝ} (hlon : 0 ≤ p.lon ∧ p.lon < 2 * π) (hlat : |p.lat| ≤ π / 2)
    (hft : R.findTract exact (skyMapOps exact R env sphereOps (f.makeWcs other ⟨0, 0⟩)) p s = (.ok r, s')) :
    r.info.contains p = true := by
  have hp := pi_pos
  obtain ⟨wf, w3⟩ := new_wf h
  obtain ⟨h1, hv, -⟩ := new_exact h
  obtain ⟨s0, s1⟩ := size_pos h
  have hN' : (2 : ℝ) ≤ c.numRings := by exact_mod_cast hN
  have s3 : R.ringSize ≤ π / 3 := by nlinarith
  have s3' : R.ringSize < 1.0472 := by have := pi_lt_d4; linarith
  -- the radius and the overlap
  have er : exact.mul (1 / 2) R.ringSize = R.ringSize / 2 := by simp; ring
  have eo : exact.deg2rad R.config.tractOverlap = c.tractOverlap * (π / 180) := by rw [h1]; rfl
  have es : R.ringSize = 180 / ((c.numRings : ℝ) + 1) * (π / 180) := by
    rw [← s1]; field_simp
  have o1 : R.ringSize / 6 ≤ exact.deg2rad R.config.tractOverlap := by
    rw [eo, es]
    have := mul_le_mul_of_nonneg_right hov (by positivity : 0 ≤ π / 180)
    calc _ = 30 / ((c.numRings : ℝ) + 1) * (π / 180) := by ring
      _ ≤ _ := this
  have o2 : R.ringSize / 2 + exact.deg2rad R.config.tractOverlap < π / 2 := by
    rw [eo, es]
    have := mul_lt_mul_of_pos_right hlim (by positivity : 0 < π / 180)
    calc _ = (90 / ((c.numRings : ℝ) + 1) + c.tractOverlap) * (π / 180) := by ring
      _ < _ := this
      _ = _ := by ring
  clear hov hlim eo
  obtain ⟨i, hi, hin, hfi⟩ := C27_findTract h (skyMapOps exact R env sphereOps (f.makeWcs other ⟨0, 0⟩)) p hlon hlat
  rw [hfi] at hft
  obtain ⟨ctr, inner, b, hctr, hnew⟩ := built_of_getItem hs hft
  rw [er] at hnew
  generalize exact.deg2rad R.config.tractOverlap = ov at *
  have hlat' := abs_le.1 hlat
  rcases wf.index_cases hi with rfl | rfl | ⟨k, n, u, hk, h3, h4, rfl⟩
  · rw [center_south] at hctr
    cases hctr
    obtain ⟨g, hg, -, g1, g2⟩ := hin
    rw [range_south] at hg
    cases hg
    dsimp only at g1 g2
    refine C57_covers (other := other) he hnew hx hy hf hsc hP rfl rfl (o2.trans_le (half_le_limit hz)) p ?_
    have e : cosSep ⟨0, -(π / 2)⟩ p = cos (p.lat + π / 2) := by
      unfold cosSep; simp [cos_add]
    unfold greatCircle
    dsimp only
    rw [e, arccos_cos (by linarith) (by linarith)]
    have hN0 := wf.numTracts_ge
    rcases g2 with g2 | g2
    · omega
    · linarith
  · rw [center_north h] at hctr
    cases hctr
    obtain ⟨g, hg, -, g1, -⟩ := hin
    rw [range_north wf, h1] at hg
    cases hg
    dsimp only at g1
    refine C57_covers (other := other) he hnew hx hy hf hsc hP rfl rfl (o2.trans_le (half_le_limit hz)) p ?_
    have e : cosSep ⟨0, π / 2⟩ p = cos (π / 2 - p.lat) := by
      unfold cosSep; simp [cos_sub]
    unfold greatCircle
    dsimp only
    rw [e, arccos_cos (by linarith) (by linarith)]
    linarith
  · obtain ⟨ctr', hc', hcl, hd, x, x1, x2, x3⟩ := Inside.near h hlon hk h3 h4 hin
    rw [hctr] at hc'
    cases hc'
    have hn : (0 : ℝ) < n := by exact_mod_cast (by omega : 0 < n)
    have hk2 : (k : ℝ) + 1 ≤ c.numRings := by
      have := wf.lt_numRings hk; rw [h1] at this; exact_mod_cast this
    have hk0 : (0 : ℝ) ≤ k := by positivity
    have hd' := abs_le.1 hd
    have wa := C32_width h hN hk (lat := p.lat) (by rw [hcl] at hd'; linarith) (by rw [hcl] at hd'; linarith)
    have wb := C32_width h hN hk (lat := ctr.lat) (by rw [hcl]; linarith) (by rw [hcl]; linarith)
    unfold raWidth at wa wb
    have hsin : sin R.ringSize ≤ cos ctr.lat := by
      rw [hcl, cos_sub_pi_div_two]
      have a1 : R.ringSize ≤ R.ringSize * (k + 1) := by nlinarith
      have a2 : R.ringSize * (k + 1) ≤ π - R.ringSize := by nlinarith
      rcases le_total (R.ringSize * (k + 1)) (π / 2) with b | b
      · exact sin_le_sin_of_le_of_le_pi_div_two (by linarith) b a1
      · rw [← sin_pi_sub (R.ringSize * (k + 1))]
        exact sin_le_sin_of_le_of_le_pi_div_two (by linarith) (by linarith) (by linarith)
    obtain ⟨q, q1, q2, q3⟩ := ring_square (h := R.ringSize / 2 + ov) s0 s3' hd hlat (by positivity : 0 ≤ π / n) ⟨x1, x2⟩ x3
      (by have e : 2 * π / n * cos p.lat = 2 * (cos p.lat * (π / n)) := by ring
          linarith)
      (by have e : 2 * π / n * cos ctr.lat = 2 * (cos ctr.lat * (π / n)) := by ring
          linarith) (by linarith [(sin_ring_bounds s0 s3').1]) (by linarith) o2
    exact explicit_gnomonic (other := other) he hnew hx hy hf hsc hP hz rfl rfl (by dsimp only; linarith) o2 p q1 q2 q3

/-- With such a configuration `findTract` returns a tract. -/
theorem C58_total (h : Rings.new exact c 1 = .ok R) (hx : 0 < b₀.patchInnerDimensions.x) (hy : 0 < b₀.patchInnerDimensions.y)
    (hf : WcsFactory.new scale code 0 flipX = .ok f) (hsc : 0 < scale)
    (hP : Projection.ofCode code = some P) (hz : P ≠ .CEA)
    (hov : 0 ≤ c.tractOverlap) (hlim : 90 / ((c.numRings : ℝ) + 1) + c.tractOverlap < 90)
    (hs : (skyMapOps exact R env sphereOps (f.makeWcs other ⟨0, 0⟩)).After
      (init exact R env sphereOps (f.makeWcs other ⟨0, 0⟩) b₀) s)
    {p : SpherePoint ℝ} (hlon : 0 ≤ p.lon ∧ p.lon < 2 * π) (hlat : |p.lat| ≤ π / 2) :
    ∃ r s', R.findTract exact (skyMapOps exact R env sphereOps (f.makeWcs other ⟨0, 0⟩)) p s = (.ok r, s') := by
  have hp := pi_pos
  obtain ⟨h1, -⟩ := new_exact h
  obtain ⟨s0, s1⟩ := size_pos h
  obtain ⟨i, hi, -, hfi⟩ := C27_findTract h (skyMapOps exact R env sphereOps (f.makeWcs other ⟨0, 0⟩)) p hlon hlat
  rw [hfi]
  refine generate_at h hx hy ?_ hi hs
  intro ctr b
  have er : exact.mul (1 / 2) R.ringSize = R.ringSize / 2 := by simp; ring
  have eo : exact.deg2rad R.config.tractOverlap = c.tractOverlap * (π / 180) := by rw [h1]; rfl
  have es : R.ringSize = 180 / ((c.numRings : ℝ) + 1) * (π / 180) := by
    rw [← s1]; field_simp
  have o2 : R.ringSize / 2 + c.tractOverlap * (π / 180) < π / 2 := by
    rw [es]
    have := mul_lt_mul_of_pos_right hlim (by positivity : 0 < π / 180)
    calc _ = (90 / ((c.numRings : ℝ) + 1) + c.tractOverlap) * (π / 180) := by ring
      _ < _ := this
      _ = _ := by ring
  rw [er, eo]
  exact ⟨_, WcsFactory.C56_bearing (other := other) hf hsc.ne' hP ⟨0, 0⟩ ctr b (by positivity) (o2.trans_le (half_le_limit hz))⟩

/-- Bounds of the sines and cosines of the angles below, s = π/121. -/
theorem gap_bounds {s : ℝ} (hs : s = π / 121) : 0.02596 < s ∧ s < 0.025965 ∧
    0.01297 ≤ sin (s / 2 - s / 10000) ∧ 0.01297 ≤ sin (s / 2 + s / 10000) ∧ 0.9996 ≤ cos s ∧ 0.048 ≤ 1 - cos (π / 10) ∧
    tan (s / 2 + π / 10800) < 0.01329 := by
  have h1 := pi_gt_d4
  have h2 := pi_lt_d4
  have a1 : 0.02596 < s := by rw [hs]; linarith
  have a2 : s < 0.025965 := by rw [hs]; linarith
  refine ⟨a1, a2, ?_, ?_, ?_, ?_, ?_⟩
  · have := sin_gt_sub_cube (x := s / 2 - s / 10000) (by linarith)
    have k : (s / 2 - s / 10000) ^ 3 ≤ 0.013 ^ 3 := by gcongr; · linarith
                                                       · linarith
    linarith
  · have := sin_gt_sub_cube (x := s / 2 + s / 10000) (by linarith)
    have k : (s / 2 + s / 10000) ^ 3 ≤ 0.013 ^ 3 := by gcongr; linarith
    linarith
  · have := one_sub_sq_div_two_le_cos (x := s)
    nlinarith
  · have e1 : cos (π / 5) = 2 * cos (π / 10) ^ 2 - 1 := by rw [← cos_two_mul]; ring_nf
    rw [cos_pi_div_five] at e1
    have h5 : √5 < 2.2361 := by rw [sqrt_lt' (by norm_num)]; norm_num
    have : cos (π / 10) ≤ 0.952 := by
      by_contra hc
      nlinarith
    linarith
  · have c0 : 0 < cos (s / 2 + π / 10800) := cos_pos_of_mem_Ioo ⟨by linarith, by linarith⟩
    rw [tan_eq_sin_div_cos, div_lt_iff₀ c0]
    have k1 := sin_lt (x := s / 2 + π / 10800) (by linarith)
    have k2 := one_sub_sq_div_two_le_cos (x := s / 2 + π / 10800)
    have k3 : (s / 2 + π / 10800) ^ 2 ≤ 0.0133 ^ 2 := by gcongr; linarith
    nlinarith

/-- The ring next to the north pole has ten tracts if there are 120 rings. -/
theorem gap_count (h : Rings.new exact ⟨120, 0, 1 / 60⟩ 1 = .ok R) {n : Int} (hn : R.ringNums[119]? = some n) : n = 10 := by
  obtain ⟨-, -, -, -, e5, -⟩ := new_exact h
  rw [e5, List.getElem?_map, List.getElem?_range (by norm_num)] at hn
  simp only [Option.map_some, Option.some.injEq] at hn
  rw [← hn]
  have p1 := pi_gt_d4
  have p2 := pi_lt_d4
  have a1 : |exact.sub (exact.mul (π / ((120 : ℕ) + 1)) (exact.add (119 : ℕ) (1 / 2))) (exact.mul (1 / 2) exact.pi)| =
      π / 2 - 3 / 2 * (π / 121) := by
    simp only [FloatArith.exact_sub, FloatArith.exact_mul, FloatArith.exact_add, FloatArith.exact_pi]
    rw [abs_of_pos (by norm_num; linarith)]
    norm_num; ring
  have a2 : |exact.add (exact.sub (exact.mul (π / ((120 : ℕ) + 1)) (exact.add (119 : ℕ) (1 / 2))) (exact.mul (1 / 2) exact.pi))
      (π / ((120 : ℕ) + 1))| = π / 2 - 1 / 2 * (π / 121) := by
    simp only [FloatArith.exact_sub, FloatArith.exact_mul, FloatArith.exact_add, FloatArith.exact_pi]
    rw [abs_of_pos (by norm_num; linarith)]
    norm_num; ring
  unfold ringCount
  dsimp only
  rw [a1, a2, min_eq_left (by linarith), FloatArith.exact_cos, cos_pi_div_two_sub]
  simp only [FloatArith.exact_mul, FloatArith.exact_div, FloatArith.exact_pi]
  have e : 2 * π * sin (3 / 2 * (π / 121)) / (π / ((120 : ℕ) + 1)) = 242 * sin (3 / 2 * (π / 121)) := by
    norm_num; field_simp; ring
  rw [e]
  have l := sin_gt_sub_cube (x := 3 / 2 * (π / 121)) (by linarith)
  have u := sin_lt (x := 3 / 2 * (π / 121)) (by linarith)
  have k : (3 / 2 * (π / 121)) ^ 3 ≤ 0.039 ^ 3 := by gcongr; linarith
  have t : pyTrunc (242 * sin (3 / 2 * (π / 121))) = 9 := by
    unfold pyTrunc
    rw [if_pos (by linarith), Int.floor_eq_iff]
    constructor <;> push_cast <;> linarith
  rw [t]; norm_num

/-- C58 cannot do without the overlap: with 120 rings, an overlap of one arc minute, pixels of 0.2 arc seconds and patches of 4000
pixels, there is a position such that the tract that `findTract` returns never contains it. -/
theorem C58_gap (h : Rings.new exact ⟨120, 0, 1 / 60⟩ 1 = .ok R) (he : env.Ok) (hb : b₀.patchInnerDimensions = ⟨4000, 4000⟩)
    (hf : WcsFactory.new (π / 3240000) "TAN" 0 flipX = .ok f) :
    ∃ p : SpherePoint ℝ, (0 ≤ p.lon ∧ p.lon < 2 * π) ∧ |p.lat| ≤ π / 2 ∧
      ∀ s r s', (skyMapOps exact R env sphereOps (f.makeWcs other ⟨0, 0⟩)).After
          (init exact R env sphereOps (f.makeWcs other ⟨0, 0⟩) b₀) s →
        R.findTract exact (skyMapOps exact R env sphereOps (f.makeWcs other ⟨0, 0⟩)) p s = (.ok r, s') → r.info.contains p = false := by
  have hp := pi_pos
  obtain ⟨wf, w3⟩ := new_wf h
  obtain ⟨h1, hv, -, -, -, hra⟩ := new_exact h
  obtain ⟨s0, s1⟩ := size_pos h
  have hra0 : R.raStart = 0 := by rw [hra]; simp
  norm_num at s1
  have hS : R.ringSize = π / 121 := by linarith
  obtain ⟨b1, b2, b3, b4, b5, b6, b7⟩ := gap_bounds hS
  refine ⟨⟨π / 10, π / 2 - (R.ringSize / 2 + R.ringSize / 10000)⟩, ⟨by dsimp only; positivity, by dsimp only; linarith⟩,
    by dsimp only; rw [abs_le]; constructor <;> linarith, ?_⟩
  intro s r s' hs hft
  set p : SpherePoint ℝ := ⟨π / 10, π / 2 - (R.ringSize / 2 + R.ringSize / 10000)⟩ with hpd
  have hlon : 0 ≤ p.lon ∧ p.lon < 2 * π := ⟨by rw [hpd]; positivity, by rw [hpd]; dsimp only; linarith⟩
  have hlat : |p.lat| ≤ π / 2 := by rw [hpd]; dsimp only; rw [abs_le]; constructor <;> linarith
  obtain ⟨i, hi, hin, hfi⟩ := C27_findTract h (skyMapOps exact R env sphereOps (f.makeWcs other ⟨0, 0⟩)) p hlon hlat
  rw [hfi] at hft
  obtain ⟨ctr, inner, b, hctr, hnew⟩ := built_of_getItem hs hft
  have hctr' : ∃ m : Int, ctr = ⟨wrapAngle π (π / 5 + m * (2 * π)), π / 2 - R.ringSize⟩ := by
    obtain ⟨g, hg, g1, g2, g3⟩ := hin
    rcases wf.index_cases hi with rfl | rfl | ⟨k, n, u, hk, h3, h4, rfl⟩
    · rw [range_south] at hg
      cases hg
      dsimp only at g3
      have hN0 := wf.numTracts_ge
      rcases g3 with g3 | g3
      · omega
      · rw [hpd] at g3; dsimp only at g3; linarith
    · rw [range_north wf, h1] at hg
      cases hg
      rw [hpd] at g2
      norm_num at g2
      linarith
    · have hi := wf.getRingIndices_ring hv hk h3 h4
      rw [range_ring wf hi hk] at hg
      cases hg
      rw [hpd] at g2 g3
      dsimp only at g2 g3
      have hk1 := wf.lt_numRings hk
      rw [h1] at hk1
      dsimp only at hk1
      rcases g3 with g3 | g3
      · exfalso
        have e1 := wf.getRingIndices_north
        rw [← g3, hi, h1] at e1
        simp only [Except.ok.injEq, Prod.mk.injEq] at e1
        omega
      have hk2 : k = 119 := by
        by_contra hne
        have : (k : ℝ) ≤ 118 := by exact_mod_cast (by omega : k ≤ 118)
        nlinarith
      subst hk2
      obtain rfl := gap_count h hk
      rw [inArc_iff _ _ _ _ (by push_cast; linarith) (by push_cast; linarith) hlon, hra0, hpd] at g1
      obtain ⟨m, m1, m2⟩ := g1
      dsimp only at m1 m2
      push_cast at m1 m2
      have q1 : (u : ℝ) ≤ ((1 + 10 * m : Int) : ℝ) := by
        push_cast
        by_contra hc; nlinarith
      have q2 : ((1 + 10 * m : Int) : ℝ) < ((u + 1 : Int) : ℝ) := by
        push_cast
        by_contra hc; nlinarith
      have q1' : u ≤ 1 + 10 * m := by exact_mod_cast q1
      have q2' : 1 + 10 * m < u + 1 := by exact_mod_cast q2
      obtain rfl : u = 1 := by omega
      rw [center_ring h hi hk] at hctr
      cases hctr
      refine ⟨0, ?_⟩
      rw [hra0]
      congr 1
      · congr 1; push_cast; ring
      · push_cast; linarith
  obtain ⟨m, rfl⟩ := hctr'
  rw [Bool.eq_false_iff]
  intro hc
  have er : exact.mul (1 / 2) R.ringSize = R.ringSize / 2 := by simp; ring
  have eo : exact.deg2rad R.config.tractOverlap = π / 10800 := by
    rw [h1]; change (1 / 60 : ℝ) * (π / 180) = _; ring
  rw [er, eo] at hnew
  set ctr : SpherePoint ℝ := ⟨wrapAngle π (π / 5 + m * (2 * π)), π / 2 - R.ringSize⟩ with hcd
  -- the pixel of p
  have ecos : cos (p.lon - ctr.lon) = cos (π / 10) := by
    rw [hpd, hcd]
    dsimp only
    rw [← cos_neg, neg_sub, cos_wrap_sub, show π / 5 + m * (2 * π) - π / 10 = π / 10 + m * (2 * π) by ring, cos_add_int_mul_two_pi]
  have hN : 0.01358 ≤ northOf ctr p := by
    unfold northOf
    rw [ecos, hpd, hcd]
    dsimp only
    rw [cos_pi_div_two_sub, cos_pi_div_two_sub, sin_pi_div_two_sub, sin_pi_div_two_sub]
    have e : sin (R.ringSize / 2 - R.ringSize / 10000) = sin R.ringSize * cos (R.ringSize / 2 + R.ringSize / 10000) -
        cos R.ringSize * sin (R.ringSize / 2 + R.ringSize / 10000) := by
      rw [← sin_sub]; congr 1; ring
    have k : 0.9996 * 0.01297 * 0.048 ≤ cos R.ringSize * sin (R.ringSize / 2 + R.ringSize / 10000) * (1 - cos (π / 10)) := by
      gcongr
    linarith
  have hD : 0 < cosSep ctr p ∧ cosSep ctr p ≤ 1 := by
    refine ⟨?_, (cosSep_range _ _).2⟩
    unfold cosSep
    rw [show ctr.lon - p.lon = -(p.lon - ctr.lon) by ring, cos_neg, ecos, hpd, hcd]
    dsimp only
    rw [cos_pi_div_two_sub, cos_pi_div_two_sub, sin_pi_div_two_sub, sin_pi_div_two_sub]
    have k1 : 0 < cos (R.ringSize / 2 + R.ringSize / 10000) := cos_pos_of_mem_Ioo ⟨by linarith, by linarith⟩
    have k2 : 0 < cos R.ringSize := by linarith
    have k3 : 0 < sin R.ringSize := sin_pos_of_pos_of_lt_pi s0 (by linarith)
    have k4 : 0 < sin (R.ringSize / 2 + R.ringSize / 10000) := by linarith
    have k5 : 0 < cos (π / 10) := cos_pos_of_mem_Ioo ⟨by linarith, by linarith⟩
    positivity
  have htp : Projection.TAN.toPlane ctr p = some ⟨eastOf ctr p / cosSep ctr p, northOf ctr p / cosSep ctr p⟩ := by
    unfold Projection.toPlane; dsimp only; rw [if_pos hD.1]
  have hpix : (f.makeWcs other ⟨0, 0⟩ ctr).skyToPixel p =
      .pix ⟨(if flipX then 1 else -1) * (eastOf ctr p / cosSep ctr p) / (π / 3240000), northOf ctr p / cosSep ctr p / (π / 3240000)⟩ := by
    rw [WcsFactory.makeWcs_eq hf (P := .TAN) rfl]
    unfold makeSkyWcs
    dsimp only
    rw [htp]
    dsimp only
    rw [makeCdMatrix_solve (by positivity)]
    simp
  have hlim : R.ringSize / 2 + π / 10800 < Projection.TAN.limit := by simp only [Projection.limit]; linarith
  have key := explicit_samples (other := other) (P := .TAN) (a := ⟨i, ctr, .explicit (R.ringSize / 2), π / 10800, f.makeWcs other ⟨0, 0⟩ ctr, inner⟩)
    hf (by positivity) rfl rfl rfl rfl (by positivity) hlim
  have four := four_turns 0
  rw [cos_zero, sin_zero] at four
  obtain ⟨c0, c1, c2, c3, t0, t1, t2, t3⟩ := four
  have mem := fun {k : Nat} (hk : k < 4) => explicit_sample_mem
    (a := ⟨i, ctr, .explicit (R.ringSize / 2), π / 10800, f.makeWcs other ⟨0, 0⟩ ctr, inner⟩) rfl hk
  have T0 : 0 < tan (R.ringSize / 2 + π / 10800) := tan_pos_of_pos_of_lt_pi_div_two (by positivity) hlim
  have pix := fun k : Nat => WcsFactory.C56_bearing (other := other) (P := .TAN) hf (by positivity) rfl ⟨0, 0⟩ ctr (90 * (k : ℝ))
    (by positivity : 0 ≤ R.ringSize / 2 + π / 10800) hlim
  simp only [show ∀ k : Nat, 90 * (k : ℝ) * (π / 180) = k * (π / 2) from fun k => by ring] at pix
  have p1 := pix 1
  have p3 := pix 3
  rw [t1] at p1
  rw [t3] at p3
  have hfin := TractInfo.contains_sym (B := tan (R.ringSize / 2 + π / 10800) / (π / 3240000)) (k := 7) he hnew
    (by rw [hb]; norm_num) (by rw [hb]; norm_num)
    ⟨_, mem (by norm_num : 1 < 4), _, p1, by simp [Projection.radius]⟩
    ⟨_, mem (by norm_num : 3 < 4), _, p3, by simp [Projection.radius]⟩
    (by
      intro σ hσ ρ hρ
      obtain ⟨j, hj, e⟩ := key σ hσ
      dsimp only at hρ
      dsimp only at e
      rw [e] at hρ
      cases hρ
      dsimp only [Projection.radius]
      rw [abs_mul, abs_of_pos (by positivity)]
      exact mul_le_of_le_one_right (by positivity) (abs_sin_le_one _))
    (by
      rw [hb]
      push_cast
      have g := pi_gt_d4
      have : tan (R.ringSize / 2 + π / 10800) / (π / 3240000) ≤ 13900 := by
        rw [div_le_iff₀ (by positivity)]; linarith
      linarith)
    hpix hc
  rw [hb] at hfin
  push_cast at hfin
  have g := pi_lt_d4
  have l1 : northOf ctr p ≤ northOf ctr p / cosSep ctr p := by
    rw [le_div_iff₀ hD.1]; exact mul_le_of_le_one_right (by linarith) hD.2
  have l2 : (14003 : ℝ) ≤ northOf ctr p / cosSep ctr p / (π / 3240000) := by
    rw [le_div_iff₀ (by positivity)]; linarith
  linarith

/-- C58 is not vacuous: the map with 3 rings and an overlap of 8 degrees, and the map of `C58_gap`. -/
example : (∃ (R : Rings ℝ) (f : WcsFactory) (r : TractRef (SpherePoint ℝ) ℝ) (s' : MapState (SpherePoint ℝ) ℝ),
      Rings.new exact ⟨3, 0, 8⟩ 1 = .ok R ∧ WcsFactory.new (1 / 1000) "STG" 0 false = .ok f ∧
      R.findTract exact (skyMapOps exact R Ex.realEnv sphereOps (f.makeWcs other ⟨0, 0⟩)) ⟨1, 1⟩
        (init exact R Ex.realEnv sphereOps (f.makeWcs other ⟨0, 0⟩) Ex.smallBuilder) = (.ok r, s') ∧ r.info.contains ⟨1, 1⟩ = true) ∧
    (∃ (R : Rings ℝ) (f : WcsFactory) (r : TractRef (SpherePoint ℝ) ℝ) (s' : MapState (SpherePoint ℝ) ℝ) (p : SpherePoint ℝ),
      Rings.new exact ⟨120, 0, 1 / 60⟩ 1 = .ok R ∧ WcsFactory.new (π / 3240000) "TAN" 0 false = .ok f ∧
      R.findTract exact (skyMapOps exact R Ex.realEnv sphereOps (f.makeWcs other ⟨0, 0⟩)) p
        (init exact R Ex.realEnv sphereOps (f.makeWcs other ⟨0, 0⟩) ⟨.legacy, ⟨4000, 4000⟩, 100, none⟩) = (.ok r, s') ∧
      r.info.contains p = false) := by
  have hp := pi_gt_three
  have hp2 := pi_pos
  constructor
  · obtain ⟨R, hR⟩ := new_ok ⟨3, 0, 8⟩ (.inr rfl)
    obtain ⟨f, hf⟩ := (WcsFactory.C56_projection_length (1 / 1000) "STG" 0 false).2 rfl
    have l1 : 0 ≤ (⟨1, 1⟩ : SpherePoint ℝ).lon ∧ (⟨1, 1⟩ : SpherePoint ℝ).lon < 2 * π := ⟨by norm_num, by dsimp only; linarith⟩
    have l2 : |(⟨1, 1⟩ : SpherePoint ℝ).lat| ≤ π / 2 := by dsimp only; rw [abs_one]; linarith
    obtain ⟨r, s', hr⟩ := C58_total (other := other) (env := Ex.realEnv) (b₀ := Ex.smallBuilder) hR (by decide) (by decide) hf (by norm_num)
      (P := .STG) rfl (by decide) (by norm_num) (by norm_num) (SkyMapOps.After.refl _) l1 l2
    exact ⟨R, f, r, s', hR, hf, hr, C58_covers hR (by norm_num) Ex.realEnv_ok (by decide) (by decide) hf (by norm_num) (P := .STG) rfl (by decide)
      (by norm_num) (by norm_num) (SkyMapOps.After.refl _) l1 l2 hr⟩
  · obtain ⟨R, hR⟩ := new_ok ⟨120, 0, 1 / 60⟩ (.inr rfl)
    obtain ⟨f, hf⟩ := (WcsFactory.C56_projection_length (π / 3240000) "TAN" 0 false).2 rfl
    obtain ⟨p, l1, l2, hg⟩ := C58_gap (other := other) (b₀ := ⟨.legacy, ⟨4000, 4000⟩, 100, none⟩) hR Ex.realEnv_ok rfl hf
    obtain ⟨r, s', hr⟩ := C58_total (other := other) (env := Ex.realEnv) (b₀ := ⟨.legacy, ⟨4000, 4000⟩, 100, none⟩) hR (by norm_num) (by norm_num) hf (by positivity)
      (P := .TAN) rfl (by decide) (by norm_num) (by norm_num) (SkyMapOps.After.refl _) l1 l2
    exact ⟨R, f, r, s', p, hR, hf, hr, hg _ _ _ (SkyMapOps.After.refl _) hr⟩

end Rings
end Skymap
