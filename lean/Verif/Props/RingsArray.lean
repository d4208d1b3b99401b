import Verif.Props.RingsRounding
import Verif.Lemmas.RingsArray
import Verif.Spec.Double

/-! # C30: findTractIdArray of a rings sky map -/

set_option linter.unusedSectionVars false

namespace Skymap
namespace Rings
open FloatArith (exact)
open BaseSkyMap (NpArg)
variable {A : FloatArith ℝ} {c : RingsConfig ℝ} {v : Int} {R : Rings ℝ}

theorem trunc_bounds {x : ℝ} : (pyTrunc x : ℝ) ≤ x + 1 ∧ x - 1 ≤ pyTrunc x ∧ (0 ≤ x → (pyTrunc x : ℝ) ≤ x) ∧
    (x ≤ 0 → x ≤ (pyTrunc x : ℝ)) := by
  unfold pyTrunc
  have a := Int.floor_le x
  have b := Int.lt_floor_add_one x
  have d := Int.le_ceil x
  have e := Int.ceil_lt_add_one x
  split
  · next h =>
    refine ⟨by linarith, by linarith, fun _ => a, fun h' => ?_⟩
    have : x = 0 := le_antisymm h' h
    subst this; simp
  · next h => exact ⟨e.le, by linarith, fun h' => absurd h' h, fun _ => d⟩

theorem fmod_range {x y : ℝ} (hy : 0 < y) : -y ≤ FloatArith.fmod x y ∧ FloatArith.fmod x y < y := by
  unfold FloatArith.fmod
  have e : x / y * y = x := by field_simp
  obtain ⟨t1, -, t3, t4⟩ := trunc_bounds (x := x / y)
  constructor
  · have : (pyTrunc (x / y) : ℝ) * y ≤ (x / y + 1) * y := by gcongr
    nlinarith
  · unfold pyTrunc
    split
    · have := Int.lt_floor_add_one (x / y)
      have : (x / y) * y < (⌊x / y⌋ + 1 : ℝ) * y := by gcongr
      nlinarith
    · have := Int.le_ceil (x / y)
      have : (x / y) * y ≤ (⌈x / y⌉ : ℝ) * y := by gcongr
      nlinarith

/-- numpy's modulo, compared with `Angle.wrap`. -/
theorem npMod_wrap (hA : A.Ieee) (x : ℝ) :
    (A.wrap x = A.npMod x A.twoPi ∧ 0 ≤ A.npMod x A.twoPi ∧ A.npMod x A.twoPi < A.twoPi) ∨
    (A.wrap x = 0 ∧ A.twoPi ≤ A.npMod x A.twoPi ∧ A.npMod x A.twoPi ≤ A.twoPi * (1 + 1 / 2 ^ 51)) := by
  obtain ⟨t1, t2⟩ := hA.twoPi_range
  have hr := hA.wrap_range x
  obtain ⟨f1, f2⟩ := fmod_range (x := x) (y := A.twoPi) (by linarith)
  have hw : A.wrap x = if A.npMod x A.twoPi ≥ A.twoPi then 0 else A.npMod x A.twoPi := rfl
  rw [hw] at hr ⊢
  split at hr
  · next h =>
    rw [if_pos h]
    refine .inr ⟨rfl, h, ?_⟩
    unfold FloatArith.npMod
    dsimp only
    split
    · next hneg =>
      have : A.add (FloatArith.fmod x A.twoPi) A.twoPi ≤ A.rnd A.twoPi := hA.mono (by linarith)
      have h3 := (hA.near (x := A.twoPi) (M := 6.4) (by rw [abs_of_nonneg (by linarith)]; exact t2.le)).2
      norm_num at h3 t1 t2 ⊢
      linarith
    · norm_num at f2 t1 ⊢
      linarith
  · next h =>
    rw [if_neg h]
    exact .inl ⟨rfl, hr⟩

/-- The two tract numbers agree. -/
theorem arrayTract_eq (hA : A.Ieee) (wf : R.WF) (w33 : ∀ n ∈ R.ringNums, n ≤ 2 ^ 33) {k : Nat} {n : Int}
    (hn : R.ringNums[k]? = some n) (ra : ℝ) : R.raToTractNum A ra k = .ok (arrayTract A R ra n) := by
  rw [wf.raToTractNum_eq A hn]
  have hpos := wf.pos n (List.mem_of_getElem? hn)
  have h33 := w33 n (List.mem_of_getElem? hn)
  unfold arrayTract
  dsimp only
  congr 1
  have etp : A.mul 2 A.pi = A.twoPi := rfl
  rcases npMod_wrap hA (A.sub ra R.raStart) with ⟨a, -, -⟩ | ⟨a, b, d⟩
  · rw [a, etp]
  · have top := tract_top hA hpos h33 b d
    rw [etp] at top
    rw [etp, top, if_pos rfl, a]
    have h0 : A.div 0 (A.div A.twoPi n) = 0 := by unfold FloatArith.div; rw [zero_div, hA.zero]
    have h1 := hA.near (x := 1 / 2) (M := 1) (by norm_num [abs_le])
    have h2 : A.add 0 (1 / 2) = A.rnd (1 / 2) := by unfold FloatArith.add; rw [zero_add]
    rw [h0, h2]
    have h3 : pyTrunc (A.rnd (1 / 2)) = 0 := by
      rw [pyTrunc_nonneg (hA.nonneg (by norm_num)), Int.floor_eq_zero_iff]
      refine ⟨hA.nonneg (by norm_num), ?_⟩
      norm_num at h1 ⊢; linarith
    rw [h3]; simp

theorem arrayIndex_eq (hA : A.Ieee) (h : Rings.new A c v = .ok R) (h1 : 1 ≤ c.numRings) (h2 : c.numRings ≤ 2 ^ 31) (ra dec : ℝ) :
    R.findIndex A ⟨ra, dec⟩ = .ok (arrayIndex A R ra dec) := by
  obtain ⟨wf, w33⟩ := new_wf_rounding hA h h1 h2
  obtain ⟨e1, -⟩ := new_attr h
  have hd := dec_range hA h h1 h2 dec
  by_cases hS : R.decToRingNum A dec = -1
  · unfold findIndex arrayIndex
    simp only [hS, if_true]
    rw [if_neg (by omega)]
  by_cases hN : R.decToRingNum A dec = R.config.numRings
  · unfold findIndex arrayIndex
    simp only [hN, if_true]
    rw [if_neg (by omega)]
  obtain ⟨k, hk⟩ := Int.eq_ofNat_of_zero_le (show 0 ≤ R.decToRingNum A dec by omega)
  have hkN : k < R.config.numRings := by rw [e1]; rw [e1] at hN; omega
  obtain ⟨n, hn, -⟩ := getNum wf hkN
  rw [arrayIndex_ring A R hk hkN hn]
  unfold findIndex
  dsimp only
  rw [hk, if_neg (by omega), if_neg (by omega), arrayTract_eq hA wf w33 hn]
  rfl

/-- A legal position is kept as it is. -/
theorem point_eq {x d : ℝ} (hx : 0 ≤ x ∧ x < A.twoPi) (hd : |d| ≤ A.pi / 2) : A.point x d = .ok ⟨x, d⟩ := by
  have h0 : 0 < A.twoPi := hx.1.trans_lt hx.2
  have hf : FloatArith.fmod x A.twoPi = x := by
    unfold FloatArith.fmod
    have hq : 0 ≤ x / A.twoPi := div_nonneg hx.1 h0.le
    rw [pyTrunc_nonneg hq]
    have : ⌊x / A.twoPi⌋ = 0 := by
      rw [Int.floor_eq_zero_iff]
      exact ⟨hq, by rw [div_lt_one h0]; exact hx.2⟩
    rw [this]; simp
  unfold FloatArith.point FloatArith.wrap
  dsimp only
  rw [if_neg (not_lt.mpr hd), hf]
  rw [if_neg (not_lt.mpr hx.1), if_neg (not_le.mpr hx.2)]

/-- C30: with rounding, for arrays of the same length, `findTractIdArray` returns for each position the index that `findTract` computes for
`SpherePoint(ra, dec, radians)`. -/
theorem C30_array (hA : A.Ieee) (h : Rings.new A c v = .ok R) (h1 : 1 ≤ c.numRings) (h2 : c.numRings ≤ 2 ^ 31) (ra dec : List ℝ)
    (hl : ra.length = dec.length) :
    ∃ L, R.findTractIdArray A (.array ra) (.array dec) false = .ok L ∧ L.length = ra.length ∧
      ∀ (k : Nat) x d, ra[k]? = some x → dec[k]? = some d → 0 ≤ x → x < A.twoPi → |d| ≤ A.pi / 2 →
        ∃ p i, A.point x d = .ok p ∧ R.findIndex A p = .ok i ∧ L[k]? = some i ∧ 0 ≤ i ∧ i < R.numTracts := by
  obtain ⟨wf, w33⟩ := new_wf_rounding hA h h1 h2
  obtain ⟨e1, -⟩ := new_attr h
  refine ⟨_, lookupArray_eq A R wf (first_nonpos hA h h1 h2) ra dec hl (fun d _ => ?_) (fun x hx => by linarith), ?_, ?_⟩
  · have := dec_range hA h h1 h2 d
    rw [e1]; exact this
  · simp [hl]
  · intro k x d hx hd x0 x1 hdd
    refine ⟨_, _, point_eq ⟨x0, x1⟩ hdd, arrayIndex_eq hA h h1 h2 x d, ?_, ?_⟩
    · rw [List.getElem?_map, List.getElem?_zip_eq_some (z := (x, d)) |>.mpr ⟨hx, hd⟩]; rfl
    · obtain ⟨i, h3, h4, h5⟩ := (C34_total hA h h1 h2 ⟨x, d⟩).2.2
      rw [arrayIndex_eq hA h h1 h2 x d, Except.ok.injEq] at h3
      subst h3; exact ⟨h4, h5⟩

/-- C30: with `degrees=True`, positions are `SpherePoint(ra, dec, degrees)`. -/
theorem C30_degrees (hA : A.Ieee) (h : Rings.new A c v = .ok R) (h1 : 1 ≤ c.numRings) (h2 : c.numRings ≤ 2 ^ 31) (ra dec : List ℝ)
    (hl : ra.length = dec.length) :
    ∃ L, R.findTractIdArray A (.array ra) (.array dec) true = .ok L ∧ L.length = ra.length ∧
      ∀ (k : Nat) x d, ra[k]? = some x → dec[k]? = some d → 0 ≤ A.deg2rad x → A.deg2rad x < A.twoPi → |A.deg2rad d| ≤ A.pi / 2 →
        ∃ p i, A.point (A.deg2rad x) (A.deg2rad d) = .ok p ∧ R.findIndex A p = .ok i ∧ L[k]? = some i := by
  obtain ⟨L, h3, h4, h5⟩ := C30_array hA h h1 h2 (ra.map A.deg2rad) (dec.map A.deg2rad) (by simpa using hl)
  refine ⟨L, h3, by simpa using h4, ?_⟩
  intro k x d hx hd x0 x1 hdd
  obtain ⟨p, i, h6, h7, h8, -⟩ := h5 k (A.deg2rad x) (A.deg2rad d) (by simp [hx]) (by simp [hd]) x0 x1 hdd
  exact ⟨p, i, h6, h7, h8⟩

/-- C30: a scalar is a one-element array in radians, but fails with `degrees=True`. -/
theorem C30_scalar (A : FloatArith ℝ) (R : Rings ℝ) (x d : ℝ) (l : List ℝ) :
    R.findTractIdArray A (.scalar x) (.scalar d) false = R.findTractIdArray A (.array [x]) (.array [d]) false ∧
    R.findTractIdArray A (.scalar x) (.scalar d) true = .error .TypeError ∧
    R.findTractIdArray A (.array l) (.scalar d) true = .error .TypeError ∧
    R.findTractIdArray A (.scalar x) (.array l) true = .error .IndexError := by
  refine ⟨?_, ?_, ?_, ?_⟩ <;> simp [findTractIdArray, NpArg.atleast1d]

/-- C30: arrays of different lengths are refused. -/
theorem C30_lengths (A : FloatArith ℝ) (R : Rings ℝ) (ra dec : List ℝ) (b : Bool) (hl : ra.length ≠ dec.length) :
    R.findTractIdArray A (.array ra) (.array dec) b = .error .IndexError := by
  have key : ∀ l l' : List ℝ, l.length ≠ l'.length → R.lookupArray A l l' = .error .IndexError := by
    intro l l' h
    unfold lookupArray
    rw [if_pos h]
  cases b
  · simp only [findTractIdArray, NpArg.atleast1d, Bool.false_eq_true, if_false]
    exact key _ _ hl
  · simp only [findTractIdArray, if_true]
    exact key _ _ (by simpa using hl)

/-- C30, exact arithmetic: also for right ascensions outside [0, 2*pi), which `SpherePoint` wraps. -/
theorem C30_any_ra (h : Rings.new exact c v = .ok R) (h1 : 1 ≤ c.numRings) (h2 : c.numRings ≤ 2 ^ 31) (ra dec : List ℝ)
    (hl : ra.length = dec.length) :
    ∃ L, R.findTractIdArray exact (.array ra) (.array dec) false = .ok L ∧ L.length = ra.length ∧
      ∀ (k : Nat) x d, ra[k]? = some x → dec[k]? = some d → |d| ≤ Real.pi / 2 →
        ∃ p i, exact.point x d = .ok p ∧ R.findIndex exact p = .ok i ∧ L[k]? = some i := by
  have hA := FloatArith.exact_ieee
  obtain ⟨wf, w33⟩ := new_wf_rounding hA h h1 h2
  obtain ⟨e1, -⟩ := new_attr h
  refine ⟨_, lookupArray_eq exact R wf (first_nonpos hA h h1 h2) ra dec hl (fun d _ => ?_) (fun x hx => by linarith), ?_, ?_⟩
  · have := dec_range hA h h1 h2 d
    rw [e1]; exact this
  · simp [hl]
  · intro k x d hx hd hdd
    refine ⟨⟨wrapAngle Real.pi x, d⟩, arrayIndex exact R x d, ?_, ?_, ?_⟩
    · unfold FloatArith.point
      rw [if_neg (show ¬ |d| > exact.pi / 2 from not_lt.mpr hdd), FloatArith.exact_wrap]
    · rw [← arrayIndex_eq hA h h1 h2 x d]
      have hra : ∀ k : Int, R.raToTractNum exact (wrapAngle Real.pi x) k = R.raToTractNum exact x k := by
        intro k
        by_cases hk : 0 ≤ k ∧ k < R.config.numRings
        · obtain ⟨k', rfl⟩ := Int.eq_ofNat_of_zero_le hk.1
          obtain ⟨n, hn, hn0⟩ := getNum wf (k := k') (by omega)
          rw [ra_exact wf hn, ra_exact wf hn]
          have hp := Real.pi_pos
          have e : (wrapAngle Real.pi x - R.raStart) * n / (2 * Real.pi) + 1 / 2 =
              (x - R.raStart) * n / (2 * Real.pi) + 1 / 2 - ((⌊x / (2 * Real.pi)⌋ * n : Int) : ℝ) := by
            simp only [wrapAngle]; push_cast; field_simp; ring
          rw [e, Int.floor_sub_intCast, Int.sub_mul_emod_self_right]
        · unfold raToTractNum
          split
          · rfl
          · rfl
      unfold findIndex
      simp only [hra]
    · rw [List.getElem?_map, List.getElem?_zip_eq_some (z := (x, d)) |>.mpr ⟨hx, hd⟩]; rfl

/-- C30 and C34 apply to double precision arithmetic. -/
example : ∃ R : Rings ℝ, Rings.new FloatArith.double ⟨120, 0, 1 / 60⟩ 1 = .ok R ∧
    ∃ L, R.findTractIdArray FloatArith.double (.array [1, 2]) (.array [0, 1]) false = .ok L := by
  refine ⟨_, rfl, ?_⟩
  obtain ⟨L, hL, -⟩ := C30_array (c := ⟨120, 0, 1 / 60⟩) (v := 1) FloatArith.double_ieee rfl (by norm_num) (by norm_num)
    [1, 2] [0, 1] rfl
  exact ⟨L, hL⟩

end Rings
end Skymap
