import Verif.Lemmas.RingsWidth

/-!
# C58 with rounding: the tract that `RingsSkyMap.findTract` returns contains the position

The arithmetic of ringsSkyMap.py is rounded (`FloatArith.Ieee`, in particular double precision), the projection and the sphere of
the libraries are exact.
-/

set_option linter.unusedSectionVars false

namespace Skymap
open Real

/-- Two positions near the south pole are no farther apart than the sum of their distances to it. -/
theorem near_south {ctr p : SpherePoint ℝ} {u w : ℝ} (hu : |p.lat + π / 2| ≤ u) (hw : |ctr.lat + π / 2| ≤ w) (h : u + w ≤ π) :
    greatCircle ctr p ≤ u + w := by
  have e1 : p.lat = (p.lat + π / 2) - π / 2 := by ring
  have e2 : ctr.lat = (ctr.lat + π / 2) - π / 2 := by ring
  set a := p.lat + π / 2
  set b := ctr.lat + π / 2
  have hc : cos (|a| + |b|) ≤ cosSep ctr p := by
    unfold cosSep
    rw [e1, e2, sin_sub_pi_div_two, sin_sub_pi_div_two, cos_sub_pi_div_two, cos_sub_pi_div_two, cos_add, cos_abs, cos_abs]
    have : |sin b * sin a * cos (ctr.lon - p.lon)| ≤ sin |a| * sin |b| := by
      rw [abs_mul, abs_mul, mul_comm |sin b|]
      have s1 : |sin a| = sin |a| := by
        rcases abs_cases a with ⟨h1, h2⟩ | ⟨h1, h2⟩
        · rw [h1, abs_of_nonneg (sin_nonneg_of_nonneg_of_le_pi h2 (by linarith [abs_nonneg b]))]
        · rw [h1, sin_neg, abs_of_nonpos]
          have := sin_nonneg_of_nonneg_of_le_pi (x := -a) (by linarith) (by linarith [abs_nonneg b])
          rw [sin_neg] at this; linarith
      have s2 : |sin b| = sin |b| := by
        rcases abs_cases b with ⟨h1, h2⟩ | ⟨h1, h2⟩
        · rw [h1, abs_of_nonneg (sin_nonneg_of_nonneg_of_le_pi h2 (by linarith [abs_nonneg a]))]
        · rw [h1, sin_neg, abs_of_nonpos]
          have := sin_nonneg_of_nonneg_of_le_pi (x := -b) (by linarith) (by linarith [abs_nonneg a])
          rw [sin_neg] at this; linarith
      rw [s1, s2]
      refine mul_le_of_le_one_right ?_ (abs_cos_le_one _)
      rw [← s1, ← s2]; positivity
    have := (abs_le.1 this).1
    linarith
  have h1 : greatCircle ctr p ≤ |a| + |b| := by
    unfold greatCircle
    calc arccos (cosSep ctr p) ≤ arccos (cos (|a| + |b|)) := antitone_arccos hc
      _ = |a| + |b| := arccos_cos (by positivity) (by linarith)
  linarith

/-- Two positions near the north pole. -/
theorem near_north {ctr p : SpherePoint ℝ} {u w : ℝ} (hu : |π / 2 - p.lat| ≤ u) (hw : |π / 2 - ctr.lat| ≤ w) (h : u + w ≤ π) :
    greatCircle ctr p ≤ u + w := by
  have := near_south (ctr := ⟨ctr.lon, -ctr.lat⟩) (p := ⟨p.lon, -p.lat⟩) (u := u) (w := w)
    (by dsimp only; rwa [neg_add_eq_sub]) (by dsimp only; rwa [neg_add_eq_sub]) h
  unfold greatCircle at this ⊢
  have e : cosSep ⟨ctr.lon, -ctr.lat⟩ ⟨p.lon, -p.lat⟩ = cosSep ctr p := by
    unfold cosSep; simp
  rwa [e] at this

namespace Rings
variable {A : FloatArith ℝ} {c : RingsConfig ℝ} {R : Rings ℝ}
variable {env : FloatEnv ℝ} {ops : SkyOps (SpherePoint ℝ) ℝ} {mk : SpherePoint ℝ → Wcs (SpherePoint ℝ) ℝ} {b₀ : TractBuilder}
variable {s s' : MapState (SpherePoint ℝ) ℝ} {r : TractRef (SpherePoint ℝ) ℝ}

/-- What is found at a position: a polar cap, or a tract of a ring. -/
theorem find_cases (hA : A.Ieee) (h : Rings.new A c 1 = .ok R) (h1 : 1 ≤ c.numRings) (h2 : c.numRings ≤ 2 ^ 31) (p : SpherePoint ℝ) :
    (R.decToRingNum A p.lat = -1 ∧ R.findIndex A p = .ok 0) ∨
    (R.decToRingNum A p.lat = c.numRings ∧ R.findIndex A p = .ok (R.numTracts - 1)) ∨
    ∃ (k : Nat) (n t : Int), k < c.numRings ∧ R.decToRingNum A p.lat = k ∧ R.ringNums[k]? = some n ∧
      R.raToTractNum A p.lon k = .ok t ∧ 0 ≤ t ∧ t < n ∧ R.findIndex A p = .ok (1 + (R.ringNums.take k).sum + t) := by
  obtain ⟨wf, w33⟩ := new_wf_rounding hA h h1 h2
  obtain ⟨e1, e2, -⟩ := new_attr h
  obtain ⟨⟨d1, d2⟩, hra, -⟩ := C34_total hA h h1 h2 p
  by_cases g1 : R.decToRingNum A p.lat = -1
  · exact .inl ⟨g1, by unfold findIndex; dsimp only; rw [if_pos g1]⟩
  by_cases g2 : R.decToRingNum A p.lat = c.numRings
  · refine .inr (.inl ⟨g2, ?_⟩)
    unfold findIndex; dsimp only; rw [if_neg g1, e1, if_pos g2]
  obtain ⟨k, hk⟩ := Int.eq_ofNat_of_zero_le (show 0 ≤ R.decToRingNum A p.lat by omega)
  rw [hk] at g1 g2 d2
  obtain ⟨n, hn, hn0⟩ := getNum wf (k := k) (by rw [e1]; omega)
  obtain ⟨t, ht, t0, t1⟩ := hra k n hn
  refine .inr (.inr ⟨k, n, t, by omega, hk, hn, ht, t0, t1, ?_⟩)
  unfold findIndex
  dsimp only
  rw [hk, if_neg g1, e1, if_neg g2, ht]
  simp only [bind, Except.bind, pure, Except.pure, e2]
  rw [if_neg (by omega), sumTo_nat]
  congr 1; omega

/-- The centre of a tract of a ring, with rounding. -/
theorem center_ring_rounding (hA : A.Ieee) (hh : A.HalfPi) (h : Rings.new A c 1 = .ok R) (h1 : 1 ≤ c.numRings) (h2 : c.numRings ≤ 2 ^ 31)
    {k : Nat} {n u : Int} (hk : R.ringNums[k]? = some n) (h3 : 0 ≤ u) (h4 : u < n) :
    R.center A (1 + (R.ringNums.take k).sum + u) = .ok ⟨A.wrap (A.add (A.div (A.mul (A.mul 2 A.pi) u) n) R.raStart),
      A.sub (A.mul R.ringSize ((k : ℝ) + 1)) (A.mul (1 / 2) A.pi)⟩ := by
  obtain ⟨wf, w33⟩ := new_wf_rounding hA h h1 h2
  obtain ⟨e1, hv, -, -, -, -⟩ := new_attr h
  have hk' := wf.lt_numRings hk
  rw [e1] at hk'
  obtain ⟨d1, d2⟩ := ring_center_dec hA hh h h1 h2 hk'
  obtain ⟨r1, r2⟩ := hA.wrap_range (A.add (A.div (A.mul (A.mul 2 A.pi) u) n) R.raStart)
  unfold center
  rw [wf.getRingIndices_ring hv hk h3 h4]
  have q1 : ¬ ((k : Int) = -1) := by omega
  have q2 : ¬ ((k : Int) = (R.config.numRings : Int)) := by rw [e1]; omega
  simp only [bind, Except.bind, q1, q2, if_false, CachingSkyMap.pyGetItem_nat hk, FloatArith.point, Int.cast_natCast,
    gt_iff_lt, not_lt.mpr d1, hA.wrap_id r1 r2]

/-- The centres of the caps, with rounding. -/
theorem center_caps_rounding (hA : A.Ieee) (hh : A.HalfPi) (h : Rings.new A c 1 = .ok R) (h1 : 1 ≤ c.numRings) (h2 : c.numRings ≤ 2 ^ 31) :
    R.center A 0 = .ok ⟨0, -(A.pi / 2)⟩ ∧ R.center A (R.numTracts - 1) = .ok ⟨0, A.pi / 2⟩ := by
  obtain ⟨wf, w33⟩ := new_wf_rounding hA h h1 h2
  obtain ⟨p1, p2⟩ := hA.pi_range
  obtain ⟨t1, t2⟩ := hA.twoPi_range
  have w0 : A.wrap 0 = 0 := hA.wrap_id (le_refl _) (by linarith)
  have hh' : A.mul (1 / 2) A.pi = A.pi / 2 := hh
  have hab : |A.pi / 2| = A.pi / 2 := abs_of_pos (by linarith)
  constructor
  · unfold center
    rw [getRingIndices_south]
    simp only [bind, Except.bind, if_true, FloatArith.point, hh', abs_neg, hab, gt_iff_lt, lt_irrefl, if_false, w0]
  · unfold center
    rw [wf.getRingIndices_north]
    have q1 : ¬ ((R.config.numRings : Int) = -1) := by omega
    simp only [bind, Except.bind, q1, if_false, if_true, FloatArith.point, hh', hab, gt_iff_lt, lt_irrefl, w0]

/-- With rounding: the tracts of a version 1 map can be generated if the projections are defined at their sample points. -/
theorem generate_rounding (hA : A.Ieee) (hh : A.HalfPi) (h : Rings.new A c 1 = .ok R) (h1 : 1 ≤ c.numRings) (h2 : c.numRings ≤ 2 ^ 31)
    (hr : |c.raStart| ≤ 360) (hx : 0 < b₀.patchInnerDimensions.x) (hy : 0 < b₀.patchInnerDimensions.y)
    (hw : ∀ ctr b, ∃ q, (mk ctr).skyToPixel
      (ops.offset ctr b (A.mul (1 / 2) R.ringSize + A.deg2rad R.config.tractOverlap)) = .pix q) {i : Int} (hi : 0 ≤ i ∧ i < R.numTracts)
    (hs : (skyMapOps A R env ops mk).After (init A R env ops mk b₀) s) :
    ∃ r s', (skyMapOps A R env ops mk).getItem i s = (.ok r, s') := by
  obtain ⟨wf, w33⟩ := new_wf_rounding hA h h1 h2
  have hN := wf.numTracts_ge
  refine CachingSkyMap.getItem_total hs (by change 0 ≤ i ∧ i < ((R.numTracts.toNat : Nat) : Int); omega) ?_
  obtain ⟨q, hq, -⟩ := C28_rounding hA hh h h1 h2 hr hi
  obtain ⟨g, hg⟩ : ∃ g, R.getRaDecRange A i = .ok g := by
    obtain ⟨e1, e2, -⟩ := new_attr h
    unfold getRaDecRange
    rcases wf.index_cases hi with rfl | rfl | ⟨k, n, u, a1, a2, a3, rfl⟩
    · rw [getRingIndices_south]; exact ⟨_, rfl⟩
    · rw [wf.getRingIndices_north]
      have q1 : ¬ ((R.config.numRings : Int) = -1) := by omega
      simp only [bind, Except.bind, q1, if_false, if_true]
      exact ⟨_, rfl⟩
    · rw [wf.getRingIndices_ring e2 a1 a2 a3]
      have hk' := wf.lt_numRings a1
      have q1 : ¬ ((k : Int) = -1) := by omega
      have q2 : ¬ ((k : Int) = (R.config.numRings : Int)) := by omega
      simp only [bind, Except.bind, q1, q2, if_false, CachingSkyMap.pyGetItem_nat a1]
      exact ⟨_, rfl⟩
  unfold CachingSkyMap.fresh
  have ha : ∃ a, (R.cachingDef A env ops mk).tractArgs i = .ok a ∧ (∀ c ∈ samplePoints ops a, ∃ q, a.wcs.skyToPixel c = .pix q) := by
    obtain ⟨g1, g2, g3, g4⟩ := g
    refine ⟨{ id := i, ctrCoord := q, shape := .explicit (A.mul (1 / 2) R.ringSize)
              tractOverlap := A.deg2rad R.config.tractOverlap, wcs := mk q
              innerBoxCorners := some (⟨g1, g3⟩, ⟨g2, g4⟩) }, ?_, ?_⟩
    · simp only [cachingDef, hq, hg, bind, Except.bind, pure, Except.pure]
    · intro c hc
      simp only [samplePoints, List.mem_map] at hc
      obtain ⟨j, -, rfl⟩ := hc
      exact hw _ _
  obtain ⟨a, h3, h4⟩ := ha
  rw [h3]
  exact TractInfo.new_total _ _ _ _ hx hy h4

/-- The radius of a tract and the overlap, with rounding. -/
theorem reach_near (hA : A.Ieee) (h : Rings.new A c 1 = .ok R) (h1 : 1 ≤ c.numRings) (h2 : c.numRings ≤ 2 ^ 31)
    (ho : 0 ≤ c.tractOverlap) (ho' : c.tractOverlap ≤ 90) :
    |A.mul (1 / 2) R.ringSize + A.deg2rad R.config.tractOverlap - (π / (c.numRings + 1) / 2 + c.tractOverlap * (π / 180))| ≤ 1 / 2 ^ 44 := by
  obtain ⟨e1, -⟩ := new_attr h
  obtain ⟨sn, b2, b4, s5⟩ := size_near hA h h1 h2
  obtain ⟨p1, p2⟩ := hA.pi_range
  have hpi := abs_le.mp hA.pi_err
  have h1' : (1 : ℝ) ≤ c.numRings := by exact_mod_cast h1
  have s1 := abs_le.mp (sn 1 (by norm_num) (by linarith))
  have f1 := hA.near (x := 1 / 2 * R.ringSize) (M := 0.8) (by rw [abs_of_nonneg (by linarith)]; norm_num at b4 ⊢; linarith)
  have f1' : A.mul (1 / 2) R.ringSize = A.rnd (1 / 2 * R.ringSize) := rfl
  rw [← f1'] at f1
  have g1 := hA.near (x := A.pi / 180) (M := 0.02) (by rw [abs_of_nonneg (by linarith)]; norm_num at p2 ⊢; linarith)
  have g1' : A.div A.pi 180 = A.rnd (A.pi / 180) := rfl
  rw [← g1'] at g1
  have g2 : |A.div A.pi 180 - π / 180| ≤ 1 / 2 ^ 57 := by rw [abs_le]; norm_num at g1 hpi ⊢; constructor <;> linarith
  have g3 : |c.tractOverlap * A.div A.pi 180 - c.tractOverlap * (π / 180)| ≤ 90 * (1 / 2 ^ 57) := by
    rw [← mul_sub, abs_mul, abs_of_nonneg ho]; gcongr
  have g3' := abs_le.mp g3
  have g4 : 0 ≤ c.tractOverlap * (π / 180) ∧ c.tractOverlap * (π / 180) ≤ 1.58 := by
    have := pi_lt_d2
    refine ⟨by positivity, ?_⟩
    calc c.tractOverlap * (π / 180) ≤ 90 * (3.15 / 180) := by gcongr
      _ ≤ _ := by norm_num
  have g5 := hA.near (x := c.tractOverlap * A.div A.pi 180) (M := 1.6) (by
    rw [abs_le]; norm_num at g3' g4 ⊢; constructor <;> linarith)
  have g5' : A.deg2rad c.tractOverlap = A.rnd (c.tractOverlap * A.div A.pi 180) := rfl
  rw [← g5'] at g5
  rw [e1, abs_le]
  norm_num at f1 g5 g3' s1 ⊢
  constructor <;> linarith

variable {scale : ℝ} {f : WcsFactory} {flipX : Bool} {code : String} {P : Projection} {other : P2 ℝ → SpherePoint ℝ → CdMatrix → String → Wcs (SpherePoint ℝ) ℝ}

/-- C32 with rounding: with 2 to 2^31 rings the right ascension width of a tract on the sky, at any declination of its ring, is at most the
exact height of a ring and 2^-42 radians, although the number of tracts is computed with rounding. -/
theorem C32_rounding {v : Int} (hA : A.Ieee) (h : Rings.new A c v = .ok R) (hN : 2 ≤ c.numRings) (h2 : c.numRings ≤ 2 ^ 31)
    {k : Nat} {n : Int} (hn : R.ringNums[k]? = some n) {lat : ℝ} (l1 : -(π / 2) + (k + 1 / 2) * (π / (c.numRings + 1)) ≤ lat)
    (l2 : lat ≤ -(π / 2) + (k + 3 / 2) * (π / (c.numRings + 1))) : raWidth n lat ≤ π / (c.numRings + 1) + 1 / 2 ^ 42 := by
  have := width_near hA h hN h2 hn (lat := lat) (by rw [abs_le]; norm_num; constructor <;> linarith)
  rw [raWidth, show 2 * π / (n : ℝ) * cos lat = 2 * (cos lat * (π / n)) by ring]
  norm_num at this ⊢
  linarith

/-- C32 with rounding is not vacuous: with 120 rings in double precision the equatorial ring has tracts. -/
example : ∃ (R : Rings ℝ) (n : Int), Rings.new FloatArith.double ⟨120, 0, 1⟩ 1 = .ok R ∧ R.ringNums[60]? = some n ∧
    raWidth n 0 ≤ π / 121 + 1 / 2 ^ 42 := by
  obtain ⟨R, h⟩ : ∃ R, Rings.new FloatArith.double ⟨120, 0, 1⟩ 1 = .ok R := ⟨_, rfl⟩
  obtain ⟨wf, -⟩ := new_wf_rounding FloatArith.double_ieee h (by norm_num) (by norm_num)
  have hl : 60 < R.ringNums.length := by rw [wf.length, (new_attr h).1]; norm_num
  refine ⟨R, R.ringNums[60], h, List.getElem?_eq_getElem hl, ?_⟩
  have hp := pi_pos
  have := C32_rounding FloatArith.double_ieee h (by norm_num) (by norm_num) (List.getElem?_eq_getElem hl)
    (lat := 0) (by push_cast; linarith) (by push_cast; linarith)
  norm_num at this ⊢
  exact this

/-- C58 with rounding: a rings sky map of version 1 with 2 to 2^31 rings, without rotation and with TAN or STG projection, whose overlap
is at least a sixth of the height of a ring and 10^-9 degrees: whatever was accessed before, `findTract` returns a tract and it contains
the position. -/
theorem C58_rounding (hA : A.Ieee) (hh : A.HalfPi) (h : Rings.new A c 1 = .ok R) (hN : 2 ≤ c.numRings) (h2 : c.numRings ≤ 2 ^ 31)
    (hr : |c.raStart| ≤ 360) (he : env.Ok)
    (hx : 0 < b₀.patchInnerDimensions.x) (hy : 0 < b₀.patchInnerDimensions.y)
    (hf : WcsFactory.new scale code 0 flipX = .ok f) (hsc : 0 < scale)
    (hP : Projection.ofCode code = some P) (hz : P ≠ .CEA)
    (hov : 30 / ((c.numRings : ℝ) + 1) + 1 / 10 ^ 9 ≤ c.tractOverlap)
    (hlim : 90 / ((c.numRings : ℝ) + 1) + c.tractOverlap + 1 / 10 ^ 9 ≤ 90)
    (hs : (skyMapOps A R env sphereOps (f.makeWcs other ⟨0, 0⟩)).After
      (init A R env sphereOps (f.makeWcs other ⟨0, 0⟩) b₀) s)
    {p : SpherePoint ℝ} (hlon : 0 ≤ p.lon ∧ p.lon < A.twoPi) (hlat : |p.lat| ≤ A.pi / 2) :
    ∃ r s', R.findTract A (skyMapOps A R env sphereOps (f.makeWcs other ⟨0, 0⟩)) p s = (.ok r, s') ∧ r.info.contains p = true := by
  have hp := pi_pos
  have p4 := pi_lt_d4
  have p3 := pi_gt_three
  have h1 : 1 ≤ c.numRings := by omega
  have hN' : (2 : ℝ) ≤ c.numRings := by exact_mod_cast hN
  obtain ⟨wf, w33⟩ := new_wf_rounding hA h h1 h2
  obtain ⟨e1, hv, -⟩ := new_attr h
  obtain ⟨-, -, -, s5⟩ := size_near hA h h1 h2
  have hN1 : (0 : ℝ) < c.numRings + 1 := by positivity
  have h90 : 0 ≤ 90 / ((c.numRings : ℝ) + 1) := by positivity
  have h30 : 0 ≤ 30 / ((c.numRings : ℝ) + 1) := by positivity
  have hre := abs_le.mp (reach_near hA h h1 h2 (by norm_num at hov ⊢; linarith) (by norm_num at hlim ⊢; linarith))
  have e30 : 30 / ((c.numRings : ℝ) + 1) * (π / 180) = π / (c.numRings + 1) / 6 := by field_simp; ring
  have e90 : 90 / ((c.numRings : ℝ) + 1) * (π / 180) = π / (c.numRings + 1) / 2 := by field_simp; ring
  have o1 := mul_le_mul_of_nonneg_right hov (by positivity : 0 ≤ π / 180)
  have o2 := mul_le_mul_of_nonneg_right hlim (by positivity : 0 ≤ π / 180)
  rw [add_mul, e30] at o1
  rw [add_mul, add_mul, e90] at o2
  have hlonU : p.lon ≤ 6.4 := by linarith [hlon.2, hA.twoPi_range.2]
  have hpi := abs_le.mp hA.pi_err
  have hla := abs_le.mp hlat
  set S := π / ((c.numRings : ℝ) + 1) with hS
  have S0 : 0 < S := by positivity
  have S1 : S * (c.numRings + 1) = π := by rw [hS]; field_simp
  have S3 : S ≤ π / 3 := by
    have := mul_le_mul_of_nonneg_left (by linarith : (3 : ℝ) ≤ c.numRings + 1) S0.le
    linarith
  have H1 : 2 * (S + 1 / 2 ^ 41) / 3 ≤ A.mul (1 / 2) R.ringSize + A.deg2rad R.config.tractOverlap := by
    norm_num at hre o1 ⊢; linarith
  have H2 : A.mul (1 / 2) R.ringSize + A.deg2rad R.config.tractOverlap < π / 2 := by
    norm_num at hre o2 ⊢; linarith
  have H3 : S / 2 + 1 / 2 ^ 46 + 1 / 2 ^ 52 ≤ A.mul (1 / 2) R.ringSize + A.deg2rad R.config.tractOverlap := by
    norm_num at H1 ⊢; linarith
  have H0 : 0 ≤ A.mul (1 / 2) R.ringSize + A.deg2rad R.config.tractOverlap := by
    norm_num at H1 ⊢; linarith
  clear hre o1 o2 e30 e90 hov hlim h90 h30
  -- the tract exists
  have gen : ∀ i, 0 ≤ i ∧ i < R.numTracts → R.findIndex A p = .ok i →
      (∀ ctr inner t b, R.center A i = .ok ctr → TractInfo.new env sphereOps b₀ ⟨i, ctr, .explicit (A.mul (1 / 2) R.ringSize),
        A.deg2rad R.config.tractOverlap, f.makeWcs other ⟨0, 0⟩ ctr, inner⟩ = .ok (t, b) → t.contains p = true) →
      ∃ r s', R.findTract A (skyMapOps A R env sphereOps (f.makeWcs other ⟨0, 0⟩)) p s = (.ok r, s') ∧ r.info.contains p = true := by
    intro i hi hfi hcont
    obtain ⟨r, s', hg⟩ := generate_rounding (env := env) (ops := sphereOps) (mk := f.makeWcs other ⟨0, 0⟩) hA hh h h1 h2 hr hx hy (fun ctr b =>
      ⟨_, WcsFactory.C56_bearing (other := other) hf hsc.ne' hP ⟨0, 0⟩ ctr b H0 (H2.trans_le (half_le_limit hz))⟩) hi hs
    refine ⟨r, s', ?_, ?_⟩
    · simp only [findTract, hfi]
      rw [← hg]
      exact PyS.bind_ok rfl
    · obtain ⟨ctr, inner, b, hctr, hnew⟩ := built_of_getItem hs hg
      exact hcont ctr inner r.info b hctr hnew
  have hNt := wf.numTracts_ge
  obtain ⟨dn1, dn2, dn3⟩ := lat_near hA hh h h1 h2 (lat := p.lat)
  obtain ⟨cS, cN⟩ := center_caps_rounding hA hh h h1 h2
  rcases find_cases hA h h1 h2 p with ⟨hd, hi⟩ | ⟨hd, hi⟩ | ⟨k, n, t, hk, hd, hn, ht, t0, t1, hi⟩
  · refine gen 0 (by omega) hi fun ctr inner t b hctr hnew => ?_
    rw [cS] at hctr
    cases hctr
    refine C57_covers (other := other) he hnew hx hy hf hsc hP rfl rfl (H2.trans_le (half_le_limit hz)) p ?_
    have := dn1 hd
    refine (near_south (u := S / 2 + 1 / 2 ^ 46) (w := 1 / 2 ^ 52) ?_ ?_ ?_).trans H3
    · rw [abs_le]; norm_num at this hpi hla s5 ⊢; constructor <;> linarith
    · dsimp only; rw [abs_le]; norm_num at hpi ⊢; constructor <;> linarith
    · norm_num; linarith
  · refine gen (R.numTracts - 1) (by omega) hi fun ctr inner t b hctr hnew => ?_
    rw [cN] at hctr
    cases hctr
    refine C57_covers (other := other) he hnew hx hy hf hsc hP rfl rfl (H2.trans_le (half_le_limit hz)) p ?_
    have := dn2 hd
    refine (near_north (u := S / 2 + 1 / 2 ^ 46) (w := 1 / 2 ^ 52) ?_ ?_ ?_).trans H3
    · rw [abs_le]; norm_num at this hpi hla s5 ⊢; constructor <;> linarith
    · dsimp only; rw [abs_le]; norm_num at hpi ⊢; constructor <;> linarith
    · norm_num; linarith
  · have hb := wf.block_range hn t0 t1
    refine gen _ (by omega) hi fun ctr inner tr b hctr hnew => ?_
    rw [center_ring_rounding hA hh h h1 h2 hn t0 t1] at hctr
    cases hctr
    have n33 := w33 n (List.mem_of_getElem? hn)
    have hn1 : (1 : ℝ) ≤ n := by exact_mod_cast (by omega : 1 ≤ n)
    obtain ⟨x, x1, x2, x3⟩ := ra_near hA wf hn n33 (raStart_bound hA h hr) hlon.1 hlonU ht
    have cd := center_dec_near hA hh h h1 h2 hk
    generalize A.wrap (A.add (A.div (A.mul (A.mul 2 A.pi) t) n) R.raStart) = clon at x1 x2 hnew
    generalize A.sub (A.mul R.ringSize ((k : ℝ) + 1)) (A.mul (1 / 2) A.pi) = clat at cd hnew
    have hl := dn3 k hk hd
    have hl' := abs_le.mp hl
    have cd' := abs_le.mp cd
    have wa := width_near hA h hN h2 hn hl
    have wb := width_near hA h hN h2 hn (lat := clat) (cd.trans (by norm_num; linarith))
    rw [← hS] at hl hl' cd cd' wa wb
    have hk0 : (0 : ℝ) ≤ k := by positivity
    have hk1 : (k : ℝ) + 1 ≤ c.numRings := by exact_mod_cast hk
    have a1 : S * 1 ≤ S * (k + 1) := by gcongr; linarith
    have a2 : S * (k + 1) ≤ S * c.numRings := by gcongr
    have a3 : S * c.numRings = π - S := by linarith
    have hsin : 4 / 5 * (S + 1 / 2 ^ 41) ≤ cos clat := by
      have b1 : sin S ≤ cos (S * (k + 1) - π / 2) := by
        rw [cos_sub_pi_div_two]
        rcases le_total (S * (k + 1)) (π / 2) with b | b
        · exact sin_le_sin_of_le_of_le_pi_div_two (by linarith) b (by linarith)
        · rw [← sin_pi_sub (S * (k + 1))]
          exact sin_le_sin_of_le_of_le_pi_div_two (by linarith) (by linarith) (by linarith)
      have b2 := (sin_ring_bounds S0 (by linarith)).1
      have b3 := (abs_le.mp ((abs_cos_sub_cos_le clat (S * (k + 1) - π / 2)).trans cd)).1
      norm_num at b2 b3 s5 ⊢
      linarith
    have hwx : ∀ lat : ℝ, cos lat * (π / n) ≤ S / 2 + 1 / 2 ^ 43 → cos lat * (π / n + 1 / 2 ^ 44) ≤ (S + 1 / 2 ^ 41) / 2 := by
      intro lat hw
      have := cos_le_one lat
      rw [mul_add]
      norm_num at hw ⊢
      linarith
    obtain ⟨q, q1, q2, q3⟩ := ring_square (s := S + 1 / 2 ^ 41) (w := π / n + 1 / 2 ^ 44) (ctr := ⟨clon, clat⟩) (p := p)
      (h := A.mul (1 / 2) R.ringSize + A.deg2rad R.config.tractOverlap) (by positivity) (by have := pi_lt_d6; norm_num at this ⊢; linarith)
      (by rw [abs_le]; norm_num at hl' cd' ⊢; constructor <;> linarith)
      (by rw [abs_le]; norm_num at hl' s5 ⊢; constructor <;> linarith) (by positivity) ⟨x1, x2⟩ x3
      (hwx _ wa) (hwx _ wb) hsin H1 H2
    exact explicit_gnomonic (other := other) he hnew hx hy hf hsc hP hz rfl rfl H0 H2 p q1 q2 q3

/-- C58 with rounding is not vacuous: double precision arithmetic, 120 rings and an overlap of one degree. -/
example : ∃ (R : Rings ℝ) (f : WcsFactory), Rings.new FloatArith.double ⟨120, 0, 1⟩ 1 = .ok R ∧ WcsFactory.new (1 / 1000) "STG" 0 false = .ok f ∧
    ∀ p : SpherePoint ℝ, 0 ≤ p.lon ∧ p.lon < FloatArith.double.twoPi → |p.lat| ≤ FloatArith.double.pi / 2 →
    ∃ r s', R.findTract FloatArith.double (skyMapOps FloatArith.double R Ex.realEnv sphereOps (f.makeWcs other ⟨0, 0⟩)) p
      (init FloatArith.double R Ex.realEnv sphereOps (f.makeWcs other ⟨0, 0⟩) Ex.smallBuilder) = (.ok r, s') ∧ r.info.contains p = true := by
  obtain ⟨f, hf⟩ := (WcsFactory.C56_projection_length (1 / 1000) "STG" 0 false).2 rfl
  refine ⟨_, f, rfl, hf, fun p hlon hlat => ?_⟩
  exact C58_rounding (c := ⟨120, 0, 1⟩) (P := .STG) FloatArith.double_ieee FloatArith.double_halfPi rfl (by norm_num) (by norm_num) (by simp)
    Ex.realEnv_ok (by decide) (by decide) hf (by norm_num) rfl (by decide) (by norm_num) (by norm_num) (SkyMapOps.After.refl _) hlon hlat

end Rings
end Skymap
