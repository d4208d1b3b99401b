import Verif.Lemmas.RingsExact
import Verif.Props.Rings

/-! # C27, C28, C32: the inner regions of a rings sky map in exact arithmetic -/

set_option linter.unusedSectionVars false

namespace Skymap

/-- The position is in the inner region of tract `i` as `getRaDecRange` gives it. -/
def Rings.Inside {K : Type} [Field K] [LinearOrder K] [FloorRing K] (A : FloatArith K) (R : Rings K) (i : Int)
    (p : SpherePoint K) : Prop :=
  ∃ g, R.getRaDecRange A i = .ok g ∧ InRaDec (i = R.numTracts - 1) g p

namespace Rings
open FloatArith (exact)
variable {R : Rings ℝ} {c : RingsConfig ℝ} {v : Int}

theorem size_pos (h : Rings.new exact c v = .ok R) : 0 < R.ringSize ∧ R.ringSize * (c.numRings + 1) = Real.pi := by
  obtain ⟨-, -, -, h4, -, -⟩ := new_exact h
  have hp := Real.pi_pos
  have hN : (0 : ℝ) < c.numRings + 1 := by positivity
  exact ⟨by rw [h4]; positivity, by rw [h4]; field_simp⟩

theorem dec_south (h : Rings.new exact c v = .ok R) (lat : ℝ) :
    R.decToRingNum exact lat = -1 ↔ lat < R.ringSize * (1 / 2) - Real.pi / 2 := by
  obtain ⟨s0, s1⟩ := size_pos h
  constructor
  · intro he
    rcases dec_cases h lat with ⟨h1, h2⟩ | ⟨h1, h2⟩ | ⟨k, hk, h1, h2, h3⟩
    · exact h2
    · omega
    · omega
  · intro hl
    rcases dec_cases h lat with ⟨h1, h2⟩ | ⟨h1, h2⟩ | ⟨k, hk, h1, h2, h3⟩
    · exact h1
    · have : (0 : ℝ) ≤ c.numRings := by positivity
      nlinarith
    · have : (0 : ℝ) ≤ k := by positivity
      nlinarith

theorem dec_north (h : Rings.new exact c v = .ok R) (lat : ℝ) :
    R.decToRingNum exact lat = c.numRings ↔ R.ringSize * (c.numRings + 1 / 2) - Real.pi / 2 ≤ lat := by
  obtain ⟨s0, s1⟩ := size_pos h
  constructor
  · intro he
    rcases dec_cases h lat with ⟨h1, h2⟩ | ⟨h1, h2⟩ | ⟨k, hk, h1, h2, h3⟩
    · omega
    · exact h2
    · omega
  · intro hl
    rcases dec_cases h lat with ⟨h1, h2⟩ | ⟨h1, h2⟩ | ⟨k, hk, h1, h2, h3⟩
    · have : (0 : ℝ) ≤ c.numRings := by positivity
      nlinarith
    · exact h1
    · have : (k : ℝ) + 1 ≤ c.numRings := by exact_mod_cast hk
      nlinarith

theorem dec_ring (h : Rings.new exact c v = .ok R) (lat : ℝ) {k : Nat} (hk : k < c.numRings) :
    R.decToRingNum exact lat = k ↔
      R.ringSize * (k + 1 / 2) - Real.pi / 2 ≤ lat ∧ lat < R.ringSize * (k + 3 / 2) - Real.pi / 2 := by
  obtain ⟨s0, s1⟩ := size_pos h
  constructor
  · intro he
    rcases dec_cases h lat with ⟨h1, h2⟩ | ⟨h1, h2⟩ | ⟨k', hk', h1, h2, h3⟩
    · omega
    · omega
    · obtain rfl : k' = k := by omega
      exact ⟨h2, h3⟩
  · rintro ⟨a, b⟩
    rcases dec_cases h lat with ⟨h1, h2⟩ | ⟨h1, h2⟩ | ⟨k', hk', h1, h2, h3⟩
    · have : (0 : ℝ) ≤ k := by positivity
      nlinarith
    · have : (k : ℝ) + 1 ≤ c.numRings := by exact_mod_cast hk
      nlinarith
    · rcases lt_trichotomy k k' with hlt | rfl | hgt
      · have : (k : ℝ) + 1 ≤ k' := by exact_mod_cast hlt
        nlinarith
      · exact h1
      · have : (k' : ℝ) + 1 ≤ k := by exact_mod_cast hgt
        nlinarith

theorem getNum (h : R.WF) {k : Nat} (hk : k < R.config.numRings) : ∃ n, R.ringNums[k]? = some n ∧ 0 < n := by
  have hk' : k < R.ringNums.length := by rw [h.length]; exact hk
  exact ⟨R.ringNums[k], List.getElem?_eq_getElem hk', h.pos _ (List.getElem_mem hk')⟩

theorem ra_exact (h : R.WF) {k : Nat} {n : Int} (hn : R.ringNums[k]? = some n) (ra : ℝ) :
    R.raToTractNum exact ra k = .ok (⌊(ra - R.raStart) * n / (2 * Real.pi) + 1 / 2⌋ % n) := by
  have hk := h.lt_numRings hn
  have hpos : 0 < n := h.pos n (List.mem_of_getElem? hn)
  rw [← ra_closed _ n hpos]
  unfold raToTractNum
  rw [if_neg (by omega), if_neg (by push Not; omega), CachingSkyMap.pyGetItem_nat hn]
  rw [← FloatArith.exact_wrap]
  rfl

theorem range_south (R : Rings ℝ) : R.getRaDecRange exact 0 =
    .ok (0, 2 * Real.pi, -Real.pi / 2, -Real.pi / 2 + (-1 + 3 / 2) * R.ringSize) := by
  unfold getRaDecRange
  rw [getRingIndices_south]
  simp [bind, Except.bind, pure, Except.pure]

theorem range_north (h : R.WF) : R.getRaDecRange exact (R.numTracts - 1) =
    .ok (0, 2 * Real.pi, -Real.pi / 2 + (R.config.numRings + 1 / 2) * R.ringSize, Real.pi / 2) := by
  unfold getRaDecRange
  rw [h.getRingIndices_north]
  have : ¬ ((R.config.numRings : Int) = -1) := by omega
  simp [bind, Except.bind, pure, Except.pure, this]

theorem range_ring (h : R.WF) {i : Int} {k : Nat} {t n : Int} (hi : R.getRingIndices i = .ok ((k : Int), t))
    (hn : R.ringNums[k]? = some n) : R.getRaDecRange exact i =
    .ok (wrapAngle Real.pi (R.raStart + (t - 1 / 2) * 2 * Real.pi / n), wrapAngle Real.pi (R.raStart + (t + 1 / 2) * 2 * Real.pi / n),
      -Real.pi / 2 + (k + 1 / 2) * R.ringSize, -Real.pi / 2 + (k + 3 / 2) * R.ringSize) := by
  have hk := h.lt_numRings hn
  unfold getRaDecRange
  rw [hi]
  have h1 : ¬ ((k : Int) = -1) := by omega
  have h2 : ¬ (k = R.config.numRings) := by omega
  simp [bind, Except.bind, pure, Except.pure, h1, h2, CachingSkyMap.pyGetItem_nat hn, FloatArith.exact_wrap]

/-- A position is inside tract `i` exactly if the ring and the tract number computed from it are those of `i`. -/
theorem inside_iff (h : Rings.new exact c v = .ok R) {p : SpherePoint ℝ} (hlon : 0 ≤ p.lon ∧ p.lon < 2 * Real.pi)
    (hlat : |p.lat| ≤ Real.pi / 2) :
    (R.Inside exact 0 p ↔ R.decToRingNum exact p.lat = -1) ∧
    (R.Inside exact (R.numTracts - 1) p ↔ R.decToRingNum exact p.lat = c.numRings) ∧
    (∀ (i t n : Int) (k : Nat), i < R.numTracts - 1 → R.getRingIndices i = .ok ((k : Int), t) → R.ringNums[k]? = some n →
      0 ≤ t → t < n → (R.Inside exact i p ↔ R.decToRingNum exact p.lat = k ∧ R.raToTractNum exact p.lon k = .ok t)) := by
  obtain ⟨wf, w3⟩ := new_wf h
  obtain ⟨h1, -, -, h4, -, -⟩ := new_exact h
  obtain ⟨s0, s1⟩ := size_pos h
  have hp := Real.pi_pos
  have h2 := wf.numTracts_ge
  rw [abs_le] at hlat
  have full : InArc 0 (2 * Real.pi) p.lon := by rw [InArc, if_pos (by linarith)]; exact hlon
  refine ⟨?_, ?_, ?_⟩
  · rw [dec_south h, Inside, range_south]
    simp only [Except.ok.injEq, exists_eq_left', InRaDec]
    constructor
    · rintro ⟨-, a, b | b⟩
      · omega
      · linarith
    · intro a; exact ⟨full, by linarith, .inr (by linarith)⟩
  · rw [dec_north h, Inside, range_north wf, h1]
    simp only [Except.ok.injEq, exists_eq_left', InRaDec]
    constructor
    · rintro ⟨-, a, -⟩; linarith
    · intro a; exact ⟨full, by linarith, .inl trivial⟩
  · intro i t n k hilt hi hn ht0 ht1
    have hk := wf.lt_numRings hn
    rw [h1] at hk
    have hn3 : 3 ≤ n := w3 n (List.mem_of_getElem? hn)
    have hn0 : (0 : ℝ) < n := by exact_mod_cast (by omega : 0 < n)
    rw [dec_ring h _ hk, ra_exact wf hn, Inside, range_ring wf hi hn]
    simp only [Except.ok.injEq, exists_eq_left', InRaDec]
    have e1 : (t + 1 / 2 : ℝ) * 2 * Real.pi / n = (t - 1 / 2 : ℝ) * 2 * Real.pi / n + 2 * Real.pi / n := by ring
    have e2 : 2 * Real.pi / n ≤ 2 * Real.pi := by
      rw [div_le_iff₀ hn0]
      have : (1 : ℝ) ≤ n := by exact_mod_cast (by omega : 1 ≤ n)
      nlinarith
    have e3 : 0 < 2 * Real.pi / n := by positivity
    rw [inArc_iff _ _ _ _ (by linarith) (by linarith) hlon]
    have := arc_iff (p.lon - R.raStart) n t (by omega) ⟨ht0, ht1⟩
    simp only [← mul_assoc] at this
    simp only [← mul_assoc]
    rw [this, eq_comm (a := t)]
    constructor
    · rintro ⟨a, b, d | d⟩
      · omega
      · exact ⟨⟨by linarith, by linarith⟩, a⟩
    · rintro ⟨⟨a, b⟩, d⟩; exact ⟨d, by linarith, .inr (by linarith)⟩

/-- C27: a position is in the inner region of exactly one tract, whose index is the one `findTract` computes. -/
theorem C27_partition (h : Rings.new exact c 1 = .ok R) (p : SpherePoint ℝ) (hlon : 0 ≤ p.lon ∧ p.lon < 2 * Real.pi)
    (hlat : |p.lat| ≤ Real.pi / 2) :
    ∃ i, (0 ≤ i ∧ i < R.numTracts) ∧ R.findIndex exact p = .ok i ∧
      ∀ j, 0 ≤ j ∧ j < R.numTracts → (R.Inside exact j p ↔ j = i) := by
  obtain ⟨wf, w3⟩ := new_wf h
  obtain ⟨h1, hv, -, -, -, -⟩ := new_exact h
  have h2 := wf.numTracts_ge
  obtain ⟨iS, iN, iR⟩ := inside_iff h hlon hlat
  have hrow : ∀ {k : Nat} {n : Int}, R.ringNums[k]? = some n → k < c.numRings := fun hn => by
    have := wf.lt_numRings hn; rwa [h1] at this
  unfold findIndex
  rw [h1]
  rcases dec_cases h p.lat with ⟨d, -⟩ | ⟨d, -⟩ | ⟨k, hk, d, -⟩
  · refine ⟨0, ⟨by omega, by omega⟩, by rw [d]; rfl, fun j hj => ?_⟩
    rcases wf.index_cases hj with rfl | rfl | ⟨k', n', u', hk', h3', h4', rfl⟩
    · simp [iS, d]
    · rw [iN, d]; constructor <;> intro <;> omega
    · have hb := wf.block_range hk' h3' h4'
      rw [iR _ u' n' k' (by omega) (wf.getRingIndices_ring hv hk' h3' h4') hk' h3' h4', d]
      constructor
      · rintro ⟨a, -⟩; omega
      · intro; omega
  · refine ⟨R.numTracts - 1, ⟨by omega, by omega⟩, by
      dsimp only; rw [d, if_neg (by omega), if_pos rfl], fun j hj => ?_⟩
    rcases wf.index_cases hj with rfl | rfl | ⟨k', n', u', hk', h3', h4', rfl⟩
    · rw [iS, d]; constructor <;> intro <;> omega
    · rw [iN, d]; simp
    · have hb := wf.block_range hk' h3' h4'
      have := hrow hk'
      rw [iR _ u' n' k' (by omega) (wf.getRingIndices_ring hv hk' h3' h4') hk' h3' h4', d]
      constructor
      · rintro ⟨a, -⟩; omega
      · intro; omega
  · obtain ⟨n, hn, hn0⟩ := getNum wf (by rw [h1]; exact hk)
    have hra := ra_exact wf hn p.lon
    generalize hu : ⌊(p.lon - R.raStart) * n / (2 * Real.pi) + 1 / 2⌋ % n = u at hra
    have u0 : 0 ≤ u := by rw [← hu]; exact Int.emod_nonneg _ (by omega)
    have u1 : u < n := by rw [← hu]; exact Int.emod_lt_of_pos _ hn0
    have hb := wf.block_range hn u0 u1
    refine ⟨1 + (R.ringNums.take k).sum + u, ⟨by omega, by omega⟩, ?_, fun j hj => ?_⟩
    · dsimp only
      rw [d, if_neg (by omega), if_neg (by omega), hra]
      simp only [bind, Except.bind, pure, Except.pure, hv]
      rw [if_neg (by omega), sumTo_nat]
      congr 1; omega
    · rcases wf.index_cases hj with rfl | rfl | ⟨k', n', u', hk', h3', h4', rfl⟩
      · rw [iS, d]; constructor <;> intro <;> omega
      · rw [iN, d]; constructor <;> intro <;> omega
      · have hb := wf.block_range hk' h3' h4'
        rw [iR _ u' n' k' (by omega) (wf.getRingIndices_ring hv hk' h3' h4') hk' h3' h4', d]
        constructor
        · rintro ⟨a, b⟩
          obtain rfl : k = k' := by omega
          rw [hra] at b
          simp only [Except.ok.injEq] at b
          omega
        · intro he
          have e1 := wf.getRingIndices_ring hv hk' h3' h4'
          rw [he, wf.getRingIndices_ring hv hn u0 u1] at e1
          simp only [Except.ok.injEq, Prod.mk.injEq] at e1
          obtain ⟨e2, rfl⟩ := e1
          obtain rfl : k = k' := by omega
          exact ⟨rfl, hra⟩

/-- C27: `findTract` returns that tract. -/
theorem C27_findTract {σ : Type} (h : Rings.new exact c 1 = .ok R) (M : SkyMapOps σ (SpherePoint ℝ) ℝ) (p : SpherePoint ℝ)
    (hlon : 0 ≤ p.lon ∧ p.lon < 2 * Real.pi) (hlat : |p.lat| ≤ Real.pi / 2) :
    ∃ i, (0 ≤ i ∧ i < R.numTracts) ∧ R.Inside exact i p ∧ R.findTract exact M p = M.getItem i := by
  obtain ⟨i, hi, hf, hin⟩ := C27_partition h p hlon hlat
  refine ⟨i, hi, (hin i hi).mpr rfl, ?_⟩
  funext s
  simp only [findTract, hf]
  exact PyS.bind_ok rfl

/-- The centre of a tract of a ring. -/
theorem center_ring (h : Rings.new exact c v = .ok R) {i : Int} {k : Nat} {t n : Int} (hi : R.getRingIndices i = .ok ((k : Int), t))
    (hn : R.ringNums[k]? = some n) : R.center exact i =
    .ok ⟨wrapAngle Real.pi (2 * Real.pi * t / n + R.raStart), R.ringSize * (k + 1) - Real.pi / 2⟩ := by
  obtain ⟨wf, w3⟩ := new_wf h
  obtain ⟨h1, -, -, -, -, -⟩ := new_exact h
  obtain ⟨s0, s1⟩ := size_pos h
  have hp := Real.pi_pos
  have hk := wf.lt_numRings hn
  have hk2 : (k : ℝ) + 1 ≤ c.numRings := by rw [h1] at hk; exact_mod_cast hk
  have hk3 : (0 : ℝ) ≤ k := by positivity
  unfold center
  rw [hi]
  have q1 : ¬ ((k : Int) = -1) := by omega
  have q2 : ¬ (k = R.config.numRings) := by omega
  have q3 : ¬ (Real.pi / 2 < |R.ringSize * (k + 1) - Real.pi / 2|) := by
    rw [not_lt, abs_le]; constructor <;> nlinarith
  have q4 : wrapAngle Real.pi (wrapAngle Real.pi (2 * Real.pi * t / n + R.raStart)) =
      wrapAngle Real.pi (2 * Real.pi * t / n + R.raStart) := by
    obtain ⟨a, b⟩ := wrapAngle_range hp (2 * Real.pi * t / n + R.raStart)
    have : ⌊wrapAngle Real.pi (2 * Real.pi * t / n + R.raStart) / (2 * Real.pi)⌋ = 0 := by
      rw [Int.floor_eq_zero_iff]
      exact ⟨by positivity, by rw [div_lt_one (by linarith)]; exact b⟩
    conv_lhs => rw [wrapAngle, this]
    simp
  have e : R.ringSize * (k + 1) - 1 / 2 * Real.pi = R.ringSize * (k + 1) - Real.pi / 2 := by ring
  simp only [bind, Except.bind, q1, if_false, Int.natCast_inj, q2, CachingSkyMap.pyGetItem_nat hn, FloatArith.exact_wrap,
    FloatArith.point, FloatArith.exact_sub, FloatArith.exact_mul, FloatArith.exact_pi, FloatArith.exact_add,
    FloatArith.exact_div, Int.cast_natCast, e, gt_iff_lt, q3, q4]

theorem center_south (R : Rings ℝ) : R.center exact 0 = .ok ⟨0, -(Real.pi / 2)⟩ := by
  have hp := Real.pi_pos
  unfold center
  rw [getRingIndices_south]
  have e : -(1 / 2 * Real.pi) = -(Real.pi / 2) := by ring
  have q : ¬ (Real.pi / 2 < |-(Real.pi / 2)|) := by rw [abs_neg, abs_of_pos (by positivity)]; simp
  have w : wrapAngle Real.pi 0 = 0 := by simp [wrapAngle]
  simp only [bind, Except.bind, if_true, FloatArith.point, FloatArith.exact_mul, FloatArith.exact_pi, e, gt_iff_lt, q, if_false,
    FloatArith.exact_wrap, w]

theorem center_north (h : Rings.new exact c v = .ok R) : R.center exact (R.numTracts - 1) = .ok ⟨0, Real.pi / 2⟩ := by
  have hp := Real.pi_pos
  unfold center
  rw [(new_wf h).1.getRingIndices_north]
  have e : (1 / 2 * Real.pi) = (Real.pi / 2) := by ring
  have q : ¬ (Real.pi / 2 < |(Real.pi / 2)|) := by rw [abs_of_pos (by positivity)]; simp
  have w : wrapAngle Real.pi 0 = 0 := by simp [wrapAngle]
  have q1 : ¬ ((R.config.numRings : Int) = -1) := by omega
  simp only [bind, Except.bind, q1, if_true, FloatArith.point, FloatArith.exact_mul, FloatArith.exact_pi, e, gt_iff_lt, q, if_false,
    FloatArith.exact_wrap, w]

/-- C28: every tract has a centre, a legal position, and looking it up finds the tract. -/
theorem C28_center (h : Rings.new exact c 1 = .ok R) {i : Int} (hi : 0 ≤ i ∧ i < R.numTracts) :
    ∃ p, R.center exact i = .ok p ∧ (0 ≤ p.lon ∧ p.lon < 2 * Real.pi) ∧ |p.lat| ≤ Real.pi / 2 ∧
      R.findIndex exact p = .ok i := by
  obtain ⟨wf, w3⟩ := new_wf h
  obtain ⟨h1, hv, -, -, -, -⟩ := new_exact h
  obtain ⟨s0, s1⟩ := size_pos h
  have hp := Real.pi_pos
  have hN : (0 : ℝ) ≤ c.numRings := by positivity
  rcases wf.index_cases hi with rfl | rfl | ⟨k, n, u, hk, h3, h4, rfl⟩
  · refine ⟨_, center_south R, ⟨le_refl _, by dsimp only; linarith⟩, ?_, ?_⟩
    · dsimp only; rw [abs_neg, abs_of_pos (by positivity)]
    · unfold findIndex
      dsimp only
      rw [if_pos ((dec_south h _).mpr (by nlinarith))]
  · refine ⟨_, center_north h, ⟨le_refl _, by dsimp only; linarith⟩, ?_, ?_⟩
    · dsimp only; rw [abs_of_pos (by positivity)]
    · have := (dec_north h (Real.pi / 2)).mpr (by nlinarith)
      unfold findIndex
      dsimp only
      rw [this, h1, if_neg (by omega), if_pos rfl]
  · have hk' := wf.lt_numRings hk
    rw [h1] at hk'
    have hk2 : (k : ℝ) + 1 ≤ c.numRings := by exact_mod_cast hk'
    have hk3 : (0 : ℝ) ≤ k := by positivity
    have hn : 0 < n := by omega
    have hn' : (n : ℝ) ≠ 0 := by exact_mod_cast (by omega : n ≠ 0)
    refine ⟨_, center_ring h (wf.getRingIndices_ring hv hk h3 h4) hk, wrapAngle_range hp _, ?_, ?_⟩
    · dsimp only; rw [abs_le]; constructor <;> nlinarith
    · have hd := (dec_ring h (R.ringSize * (k + 1) - Real.pi / 2) hk').mpr ⟨by nlinarith, by nlinarith⟩
      unfold findIndex
      dsimp only
      rw [hd, h1, if_neg (by omega), if_neg (by omega), ra_exact wf hk]
      have e : (wrapAngle Real.pi (2 * Real.pi * u / n + R.raStart) - R.raStart) * n / (2 * Real.pi) + 1 / 2 =
          1 / 2 + ((u - ⌊(2 * Real.pi * u / n + R.raStart) / (2 * Real.pi)⌋ * n : Int) : ℝ) := by
        rw [wrapAngle]; push_cast; field_simp; ring
      rw [e, Int.floor_add_intCast, show ⌊(1 / 2 : ℝ)⌋ = 0 by norm_num, zero_add, Int.sub_mul_emod_self_right,
        Int.emod_eq_of_lt h3 h4]
      simp only [bind, Except.bind, pure, Except.pure, hv]
      rw [if_neg (by omega), sumTo_nat]
      congr 1; omega

/-- C28: distinct tracts have distinct centres. -/
theorem C28_distinct (h : Rings.new exact c 1 = .ok R) {i j : Int} (hi : 0 ≤ i ∧ i < R.numTracts) (hj : 0 ≤ j ∧ j < R.numTracts)
    (he : R.center exact i = R.center exact j) : i = j := by
  obtain ⟨p, h1, -, -, h2⟩ := C28_center h hi
  obtain ⟨q, h3, -, -, h4⟩ := C28_center h hj
  rw [h1, h3] at he
  simp only [Except.ok.injEq] at he
  rw [he, h4] at h2
  exact (Except.ok.inj h2).symm

/-! ### C32 -/

/-- The greatest RA width on the sky of a tract of a ring of `n` tracts, at declination `lat`. -/
noncomputable def raWidth (n : Int) (lat : ℝ) : ℝ := 2 * Real.pi / n * Real.cos lat

/-- C32: with two rings or more, tracts are nowhere wider than the ring is high. -/
theorem C32_width (h : Rings.new exact c v = .ok R) (hN : 2 ≤ c.numRings) {k : Nat} {n : Int} (hn : R.ringNums[k]? = some n)
    {lat : ℝ} (h1 : -(Real.pi / 2) + (k + 1 / 2) * R.ringSize ≤ lat) (h2 : lat ≤ -(Real.pi / 2) + (k + 3 / 2) * R.ringSize) :
    raWidth n lat ≤ R.ringSize := by
  obtain ⟨wf, w3⟩ := new_wf h
  obtain ⟨e1, -, -, e4, e5, -⟩ := new_exact h
  have hk := wf.lt_numRings hn
  rw [e1] at hk
  have en : n = ringCount exact R.ringSize k := by
    rw [e5, List.getElem?_map, List.getElem?_range hk] at hn
    simp only [Option.map_some, Option.some.injEq] at hn
    rw [← hn, e4]
  obtain ⟨d, d1, d2, d3, d4, d5⟩ := ringCount_eq c.numRings k hk R.ringSize e4
  obtain ⟨s0, s1, s2, s3⟩ := ring_dec c.numRings k hk R.ringSize e4
  have hp := Real.pi_pos
  have hn0 : (0 : ℝ) < n := by exact_mod_cast (by have := w3 n (List.mem_of_getElem? hn); omega : 0 < n)
  have hfl := Int.lt_floor_add_one (2 * Real.pi * Real.cos d / R.ringSize)
  have hnd : 2 * Real.pi * Real.cos d / R.ringSize < n := by rw [en, d4]; push_cast; exact hfl
  rw [div_lt_iff₀ s0] at hnd
  unfold raWidth
  rw [div_mul_eq_mul_div, div_le_iff₀ hn0]
  -- either the ring does not straddle the equator, or it is the middle one
  by_cases hc : Real.cos lat ≤ Real.cos d
  · have : 2 * Real.pi * Real.cos lat ≤ 2 * Real.pi * Real.cos d := by gcongr
    linarith
  · have hlt : |lat| < d := by
      by_contra hge
      apply hc
      rw [← Real.cos_abs lat]
      refine Real.cos_le_cos_of_nonneg_of_le_pi d2 ?_ (not_lt.mp hge)
      rw [abs_le]; constructor <;> linarith
    rw [d1, lt_min_iff] at hlt
    have ha : R.ringSize * (k + 1 / 2) - 1 / 2 * Real.pi < 0 := by
      by_contra hge
      have h3 := hlt.1
      rw [abs_of_nonneg (not_lt.mp hge)] at h3
      have := le_abs_self lat
      linarith
    have hb : 0 < R.ringSize * (k + 1 / 2) - 1 / 2 * Real.pi + R.ringSize := by
      by_contra hge
      have h3 := hlt.2
      rw [abs_of_nonpos (not_lt.mp hge)] at h3
      have := neg_le_abs lat
      linarith
    have m1 : 2 * (k : ℝ) + 1 < c.numRings + 1 := by nlinarith
    have m2 : (c.numRings : ℝ) + 1 < 2 * k + 3 := by nlinarith
    have m3 : c.numRings = 2 * k + 1 := by
      have a1 : 2 * k + 1 < c.numRings + 1 := by exact_mod_cast m1
      have a2 : c.numRings + 1 < 2 * k + 3 := by exact_mod_cast m2
      omega
    have m4 : (c.numRings : ℝ) = 2 * k + 1 := by exact_mod_cast m3
    have d6 : d = R.ringSize / 2 := by
      rw [d1]
      have q1 : R.ringSize * (k + 1 / 2) - 1 / 2 * Real.pi = -(R.ringSize / 2) := by rw [m4] at s1; linarith
      rw [q1, abs_neg, abs_of_pos (by linarith), show -(R.ringSize / 2) + R.ringSize = R.ringSize / 2 by ring,
        abs_of_pos (by linarith)]; simp
    have hk1 : (1 : ℝ) ≤ k := by exact_mod_cast (by omega : 1 ≤ k)
    -- 2 pi / ringSize = 2 (N + 1), and n ≥ 2 (N + 1)
    have hN1 : 2 * Real.pi / R.ringSize = 2 * (c.numRings + 1) := by rw [← s1]; field_simp
    have hcos := Real.one_sub_sq_div_two_le_cos (x := R.ringSize / 2)
    have hlow : (2 * (c.numRings + 1) - 1 : ℝ) ≤ 2 * Real.pi * Real.cos d / R.ringSize := by
      rw [d6, mul_div_right_comm, hN1]
      have hs : R.ringSize ≤ 4 / (c.numRings + 1) := by
        rw [e4]; gcongr; exact Real.pi_le_four
      have hs' : R.ringSize * (c.numRings + 1) ≤ 4 := by rw [s1]; exact Real.pi_le_four
      have hs1 : R.ringSize ≤ 1 := by nlinarith
      have : 2 * (c.numRings + 1) * (1 - (R.ringSize / 2) ^ 2 / 2) ≤ 2 * (c.numRings + 1) * Real.cos (R.ringSize / 2) := by gcongr
      nlinarith
    have hge : (2 * ((c.numRings : Int) + 1) - 1) ≤ ⌊2 * Real.pi * Real.cos d / R.ringSize⌋ := by
      rw [Int.le_floor]; push_cast; exact hlow
    have hn2 : (2 * (c.numRings + 1) : ℝ) ≤ n := by
      exact_mod_cast (by rw [en, d4]; omega : 2 * ((c.numRings : Int) + 1) ≤ n)
    have hcl := Real.cos_le_one lat
    have h5 : R.ringSize * (2 * (c.numRings + 1)) ≤ R.ringSize * n := by gcongr
    have h6 : 2 * Real.pi * Real.cos lat ≤ 2 * Real.pi * 1 := by gcongr
    linarith

/-- C32: every ring has at least three tracts, and `len` counts them and the two caps. -/
theorem C32_counts (h : Rings.new exact c v = .ok R) :
    R.ringNums.length = c.numRings ∧ (∀ n ∈ R.ringNums, 3 ≤ n) ∧ R.numTracts = R.ringNums.sum + 2 ∧
      3 * (c.numRings : Int) + 2 ≤ R.numTracts := by
  obtain ⟨wf, w3⟩ := new_wf h
  obtain ⟨e1, -⟩ := new_exact h
  have hl := wf.length
  rw [e1] at hl
  refine ⟨hl, w3, rfl, ?_⟩
  have : ∀ l : List Int, (∀ n ∈ l, 3 ≤ n) → 3 * (l.length : Int) ≤ l.sum := by
    intro l
    induction l with
    | nil => simp
    | cons a l ih =>
      intro hl
      have h1 := ih fun n hn => hl n (by simp [hn])
      have h2 := hl a (by simp)
      simp; omega
  have := this _ w3
  rw [hl] at this
  simp only [numTracts]; omega

/-- C32 fails for a single ring: it gets three tracts, a third of the circle wide at the equator, but a quarter high. -/
theorem C32_fails_one_ring (h : Rings.new exact c v = .ok R) (hN : c.numRings = 1) :
    R.ringNums = [3] ∧ R.ringSize = Real.pi / 2 ∧ raWidth 3 0 = 2 * Real.pi / 3 ∧ R.ringSize < raWidth 3 0 := by
  obtain ⟨e1, -, -, e4, e5, -⟩ := new_exact h
  have hp := Real.pi_pos
  have hs : R.ringSize = Real.pi / 2 := by rw [e4, hN]; norm_num
  obtain ⟨d, d1, d2, d3, d4, d5⟩ := ringCount_eq c.numRings 0 (by omega) R.ringSize e4
  have d6 : d = Real.pi / 4 := by
    rw [d1, hs]
    have q1 : Real.pi / 2 * (((0 : Nat) : ℝ) + 1 / 2) - 1 / 2 * Real.pi = -(Real.pi / 4) := by norm_num; ring
    rw [q1, abs_neg, abs_of_pos (by positivity), show -(Real.pi / 4) + Real.pi / 2 = Real.pi / 4 by ring,
      abs_of_pos (by positivity)]; simp
  have hw : raWidth 3 0 = 2 * Real.pi / 3 := by simp [raWidth]
  refine ⟨?_, hs, hw, by rw [hw, hs]; linarith⟩
  have h5 : ringCount exact R.ringSize 0 = 3 := by
    have : ((0 : Nat) : ℝ) = 0 := by simp
    rw [d4, d6, Real.cos_pi_div_four, hs]
    have e : 2 * Real.pi * (Real.sqrt 2 / 2) / (Real.pi / 2) = 2 * Real.sqrt 2 := by field_simp
    rw [e]
    have hsq := Real.sq_sqrt (show (0 : ℝ) ≤ 2 by norm_num)
    have hs0 := Real.sqrt_nonneg (2 : ℝ)
    have : ⌊2 * Real.sqrt 2⌋ = 2 := by
      rw [Int.floor_eq_iff]; push_cast; constructor <;> nlinarith
    rw [this]; rfl
  rw [e5, hN]
  rw [e4, hN] at h5
  simpa using h5

/-- A rings sky map in exact arithmetic, with any configuration and either version. -/
theorem new_ok (c : RingsConfig ℝ) {v : Int} (hv : v = 0 ∨ v = 1) : ∃ R, Rings.new exact c v = .ok R := by
  unfold Rings.new
  rw [if_neg (by omega)]
  exact ⟨_, rfl⟩

example : ∃ R : Rings ℝ, Rings.new exact ⟨120, 0, 1 / 60⟩ 1 = .ok R := new_ok _ (.inr rfl)

end Rings
end Skymap
