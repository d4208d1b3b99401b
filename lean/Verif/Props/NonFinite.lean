import Verif.Props.RingsArray
import Verif.Lemmas.NonFinite
import Verif.Lemmas.SkyMap

/-! # C83: coordinates that are not positions -/

set_option linter.unusedSectionVars false

namespace Skymap
namespace Rings
open BaseSkyMap (NpArg)
variable {A : FloatArith ℝ} {c : RingsConfig ℝ} {v : Int} {R : Rings ℝ}

/-- The declination is assigned to one of the two polar caps. -/
def InCap (A : FloatArith ℝ) (R : Rings ℝ) (dec : XFloat ℝ) : Prop :=
  ∃ d, dec = .fin d ∧ (R.decToRingNum A d = -1 ∨ R.decToRingNum A d = R.config.numRings)

/-! ## Finite coordinates: the functions of the other properties -/

theorem decX_fin (A : FloatArith ℝ) (R : Rings ℝ) (d : ℝ) : R.decToRingNumX A (.fin d) = .ok (R.decToRingNum A d) := by
  unfold decToRingNumX decToRingNum
  simp only [XFloat.lt, XFloat.gt, XFloat.lift, XFloat.toInt, decide_eq_true_eq]
  split
  · rfl
  · split <;> rfl

theorem raX_fin (A : FloatArith ℝ) (R : Rings ℝ) (x : ℝ) (r : Int) : R.raToTractNumX A (.fin x) r = R.raToTractNum A x r := by
  unfold raToTractNumX raToTractNum
  split
  · rfl
  · split
    · rfl
    · cases pyGetItem R.ringNums r with
      | error e => rfl
      | ok n => rfl

/-- C83: for finite coordinates these are the functions that the other properties are about, whatever the machine makes of NaN. -/
theorem C83_finite (A : FloatArith ℝ) (R : Rings ℝ) (cast : Int) :
    (∀ x d, R.findIndexX A ⟨.fin x, .fin d⟩ = R.findIndex A ⟨x, d⟩) ∧
    (∀ x d, R.nearIndicesX A ⟨.fin x, .fin d⟩ = R.nearIndices A ⟨x, d⟩) ∧
    (∀ x d, XFloat.point A (.fin x) (.fin d) = (A.point x d).map fun p => ⟨.fin p.lon, .fin p.lat⟩) ∧
    ∀ ra dec b, R.findTractIdArrayX A cast (.array (ra.map .fin)) (.array (dec.map .fin)) b =
      R.findTractIdArray A (.array ra) (.array dec) b := by
  refine ⟨fun x d => ?_, fun x d => ?_, fun x d => ?_, ?_⟩
  · unfold findIndexX findIndex
    rw [decX_fin]
    simp only [bind, Except.bind, raX_fin]
  · unfold nearIndicesX nearIndices
    rw [decX_fin]
    simp only [bind, Except.bind, raX_fin]
  · unfold XFloat.point FloatArith.point
    simp only [XFloat.gt, XFloat.lt, XFloat.liftMod, Bool.or_eq_true, decide_eq_true_eq, gt_iff_lt, lt_abs]
    have e : (A.pi / 2 < d ∨ d < -(A.pi / 2)) ↔ (A.pi / 2 < d ∨ A.pi / 2 < -d) := by
      constructor <;> (rintro (h | h) <;> [exact .inl h; exact .inr (by linarith)])
    rw [if_congr e rfl rfl]
    split <;> rfl
  · have key : ∀ ra dec : List ℝ, R.lookupArrayX A cast (ra.map .fin) (dec.map .fin) = R.lookupArray A ra dec := by
      intro ra dec
      unfold lookupArrayX lookupArray
      simp only [List.length_map, List.map_map, Function.comp_def, XFloat.lt, XFloat.gt, XFloat.le, XFloat.ge, XFloat.lift, XFloat.astype]
      split
      · rfl
      · congr 1
        funext ns
        have e : ∀ (k : Nat), (List.map XFloat.fin ra)[k]?.getD (XFloat.fin 0) = XFloat.fin (ra[k]?.getD 0) := by
          intro k
          rw [List.getElem?_map]
          cases ra[k]? <;> rfl
        simp only [e, XFloat.liftMod]
    intro ra dec b
    cases b
    · simp only [findTractIdArrayX, findTractIdArray, NpArg.atleast1d, Bool.false_eq_true, if_false]
      exact key ra dec
    · simp only [findTractIdArrayX, findTractIdArray, if_true, List.map_map]
      rw [← key]
      simp only [List.map_map]
      rfl

/-! ## Single coordinates -/

/-- C83: `SpherePoint` refuses an infinite latitude or one beyond the poles, and nothing else; an infinite longitude becomes NaN. -/
theorem C83_point (A : FloatArith ℝ) (lon lat : XFloat ℝ) (p : SpherePoint (XFloat ℝ)) :
    XFloat.point A lon lat = .ok p ↔
      (lat = .nan ∨ ∃ d, lat = .fin d ∧ |d| ≤ A.pi / 2) ∧ p.lat = lat ∧
        ((∃ x, lon = .fin x ∧ p.lon = .fin (A.wrap x)) ∨ (∀ x, lon ≠ .fin x) ∧ p.lon = .nan) := by
  have hl : (lon.liftMod A.wrap = p.lon) ↔
      ((∃ x, lon = .fin x ∧ p.lon = .fin (A.wrap x)) ∨ (∀ x, lon ≠ .fin x) ∧ p.lon = .nan) := by
    cases lon <;> simp [XFloat.liftMod, eq_comm]
  have hp : (Except.ok ⟨lon.liftMod A.wrap, lat⟩ : PyM (SpherePoint (XFloat ℝ))) = .ok p ↔ lon.liftMod A.wrap = p.lon ∧ lat = p.lat := by
    cases p; simp
  unfold XFloat.point
  rw [← hl]
  cases lat with
  | nan => simp [XFloat.gt, XFloat.lt, hp, eq_comm, and_comm]
  | inf => simp [XFloat.gt, XFloat.lt]
  | negInf => simp [XFloat.gt, XFloat.lt]
  | fin d =>
    simp only [XFloat.gt, XFloat.lt, Bool.or_eq_true, decide_eq_true_eq]
    split
    · next h =>
      constructor
      · simp
      · rintro ⟨h1, -⟩
        rcases h1 with h1 | ⟨e, h1, h2⟩
        · simp at h1
        · obtain rfl := XFloat.fin.inj h1
          have := abs_le.mp h2
          rcases h with h | h
          · exact absurd this.2 (not_le.mpr h)
          · exact absurd this.1 (not_le.mpr h)
    · next h =>
      push Not at h
      rw [hp]
      constructor
      · rintro ⟨h1, h2⟩
        exact ⟨.inr ⟨d, rfl, abs_le.mpr ⟨h.2, h.1⟩⟩, h2.symm, h1⟩
      · rintro ⟨-, h1, h2⟩
        exact ⟨h2, h1.symm⟩

theorem decX_nan (A : FloatArith ℝ) (R : Rings ℝ) : R.decToRingNumX A .nan = .error .ValueError := by
  simp [decToRingNumX, XFloat.lt, XFloat.gt, XFloat.lift, XFloat.toInt]

theorem raX_nan (A : FloatArith ℝ) {R : Rings ℝ} (wf : R.WF) {r : Nat} (hr : r < R.config.numRings) :
    R.raToTractNumX A .nan r = .error .ValueError := by
  obtain ⟨n, hn, -⟩ := getNum wf hr
  unfold raToTractNumX
  rw [if_neg (by omega), if_neg (by omega), CachingSkyMap.pyGetItem_nat hn]
  rfl

/-- C83: `findTract` raises `ValueError` for a NaN declination, and for a NaN right ascension unless the declination is in a cap; it
raises nothing else, and otherwise computes the index of a tract: in a cap the same whatever the right ascension. -/
theorem C83_findTract (hA : A.Ieee) (h : Rings.new A c v = .ok R) (h1 : 1 ≤ c.numRings) (h2 : c.numRings ≤ 2 ^ 31)
    {lon lat : XFloat ℝ} {p : SpherePoint (XFloat ℝ)} (hp : XFloat.point A lon lat = .ok p) :
    ((lat = .nan ∨ (∀ x, lon ≠ .fin x) ∧ ¬ InCap A R lat) → R.findIndexX A p = .error .ValueError) ∧
    (¬ (lat = .nan ∨ (∀ x, lon ≠ .fin x) ∧ ¬ InCap A R lat) →
      ∃ i, R.findIndexX A p = .ok i ∧ 0 ≤ i ∧ i < R.numTracts) ∧
    ∀ d, lat = .fin d → InCap A R lat → ∀ x, R.findIndexX A p = R.findIndex A ⟨x, d⟩ := by
  obtain ⟨wf, w33⟩ := new_wf_rounding hA h h1 h2
  obtain ⟨e1, -⟩ := new_attr h
  obtain ⟨hl, hlat, hlon⟩ := (C83_point A lon lat p).mp hp
  have hcap : ∀ d, lat = .fin d → InCap A R lat → ∀ x, R.findIndexX A p = R.findIndex A ⟨x, d⟩ := by
    rintro d rfl ⟨d', hd, hc⟩ x
    obtain rfl := XFloat.fin.inj hd
    unfold findIndexX findIndex
    rw [hlat, decX_fin]
    simp only [bind, Except.bind]
    rcases hc with hc | hc
    · simp [hc]
    · rw [hc, if_neg (by omega), if_pos rfl, if_neg (by omega), if_pos rfl]
  have hnan : p.lon = .nan → ∀ d, lat = .fin d → ¬ InCap A R lat → R.findIndexX A p = .error .ValueError := by
    rintro hn d rfl hc
    have hr := dec_range hA h h1 h2 d
    have hc' : ¬ (R.decToRingNum A d = -1 ∨ R.decToRingNum A d = R.config.numRings) := fun h => hc ⟨d, rfl, h⟩
    push Not at hc'
    unfold findIndexX
    rw [hlat, decX_fin]
    simp only [bind, Except.bind]
    obtain ⟨k, hk⟩ := Int.eq_ofNat_of_zero_le (show 0 ≤ R.decToRingNum A d by omega)
    rw [if_neg hc'.1, if_neg hc'.2, hk, hn, raX_nan A wf (by rw [e1]; rw [e1] at hc'; omega)]
  refine ⟨?_, ?_, hcap⟩
  · rintro (h3 | ⟨h3, h4⟩)
    · subst h3
      unfold findIndexX
      rw [hlat, decX_nan]; rfl
    · rcases hl with rfl | ⟨d, rfl, -⟩
      · unfold findIndexX
        rw [hlat, decX_nan]; rfl
      · refine hnan ?_ d rfl h4
        rcases hlon with ⟨x, h5, -⟩ | ⟨-, h5⟩
        · exact absurd h5 (h3 x)
        · exact h5
  · intro h3
    push Not at h3
    rcases hl with rfl | ⟨d, rfl, -⟩
    · exact absurd rfl h3.1
    · by_cases hc : InCap A R (.fin d)
      · obtain ⟨i, h4, h5⟩ := (C34_total hA h h1 h2 ⟨0, d⟩).2.2
        exact ⟨i, by rw [hcap d rfl hc 0]; exact h4, h5⟩
      · rcases hlon with ⟨x, -, h5⟩ | ⟨h5, -⟩
        · obtain ⟨i, h6, h7⟩ := (C34_total hA h h1 h2 ⟨A.wrap x, d⟩).2.2
          refine ⟨i, ?_, h7⟩
          have : p = ⟨.fin (A.wrap x), .fin d⟩ := by cases p; simp_all
          rw [this, (C83_finite A R 0).1]; exact h6
        · exact absurd (h3.2 h5) hc

/-- C83: `findAllTracts` raises `ValueError` whenever a coordinate is NaN, also in a cap, and otherwise the computation of the tracts to look
at is the one for finite coordinates. -/
theorem C83_findAllTracts (hA : A.Ieee) (h : Rings.new A c v = .ok R) (h1 : 1 ≤ c.numRings) (h2 : c.numRings ≤ 2 ^ 31)
    {lon lat : XFloat ℝ} {p : SpherePoint (XFloat ℝ)} (hp : XFloat.point A lon lat = .ok p) :
    ((lat = .nan ∨ ∀ x, lon ≠ .fin x) ∧ R.nearIndicesX A p = .error .ValueError) ∨
    ∃ x d, lon = .fin x ∧ lat = .fin d ∧ A.point x d = .ok ⟨A.wrap x, d⟩ ∧ R.nearIndicesX A p = R.nearIndices A ⟨A.wrap x, d⟩ := by
  obtain ⟨wf, w33⟩ := new_wf_rounding hA h h1 h2
  obtain ⟨e1, -⟩ := new_attr h
  obtain ⟨hl, hlat, hlon⟩ := (C83_point A lon lat p).mp hp
  rcases hl with rfl | ⟨d, rfl, hd⟩
  · refine .inl ⟨.inl rfl, ?_⟩
    unfold nearIndicesX
    rw [hlat, decX_nan]; rfl
  rcases hlon with ⟨x, rfl, h5⟩ | ⟨h5, h6⟩
  · refine .inr ⟨x, d, rfl, rfl, ?_, ?_⟩
    · unfold FloatArith.point; rw [if_neg (not_lt.mpr hd)]
    · have : p = ⟨.fin (A.wrap x), .fin d⟩ := by cases p; simp_all
      rw [this, (C83_finite A R 0).2.1]
  · refine .inl ⟨.inr h5, ?_⟩
    have hr := dec_range hA h h1 h2 d
    unfold nearIndicesX
    rw [hlat, decX_fin]
    simp only [bind, Except.bind, h6]
    have key : ∀ (r : Int), 0 ≤ r → r < R.config.numRings → R.raToTractNumX A .nan r = .error .ValueError := by
      intro r a b
      obtain ⟨k, rfl⟩ := Int.eq_ofNat_of_zero_le a
      exact raX_nan A wf (by omega)
    have hN : (1 : Int) ≤ R.config.numRings := by rw [e1]; omega
    rw [← e1] at hr
    generalize R.decToRingNum A d = g at hr
    simp only [pyMapM]
    by_cases g1 : g = -1
    · subst g1
      rw [if_pos (by omega), if_pos (by omega), if_neg (by omega), key _ (by omega) (by omega)]
    · by_cases g2 : g = 0
      · subst g2
        rw [if_pos (by omega), if_neg (by omega), key _ (by omega) (by omega)]
      · rw [if_neg (by omega), key _ (by omega) (by omega)]

/-! ## Arrays -/

/-- What one element of the answer of `findTractIdArray` has to be; `i` is the element for the coordinates `ra` and `dec`. -/
structure ArrayElement (A : FloatArith ℝ) (R : Rings ℝ) (cast : Int) (ra dec : XFloat ℝ) (i : Int) : Prop where
  /-- Two finite coordinates: the index for that position. -/
  finite : ∀ x d, ra = .fin x → dec = .fin d → R.findIndex A ⟨x, d⟩ = .ok i
  /-- An infinite declination: the first or the last tract. -/
  south : dec = .negInf → i = 0
  north : dec = .inf → i = R.numTracts - 1
  /-- A declination in a cap: that cap, whatever the right ascension. -/
  cap : ∀ d, dec = .fin d → InCap A R dec → ∀ y, R.findIndex A ⟨y, d⟩ = .ok i
  /-- A NaN declination and a finite right ascension: the tract of the southernmost ring at this right ascension. -/
  nan_dec : ∀ x, ra = .fin x → dec = .nan → ∃ t n, R.ringNums[0]? = some n ∧ R.raToTractNum A x 0 = .ok t ∧ 0 ≤ t ∧ t < n ∧ i = 1 + t
  /-- A right ascension that is not finite: the tract of the ring with the number that the machine makes of NaN. -/
  nan_ra : ∀ (r : Nat) n, (∀ x, ra ≠ .fin x) → (dec = .nan ∧ r = 0 ∨ ∃ d, dec = .fin d ∧ R.decToRingNum A d = r) → R.ringNums[r]? = some n →
    i = if cast = n ∨ cast = 0 then 1 + (R.ringNums.take (if R.version = 0 ∧ r ≠ 0 then r + 1 else r)).sum
      else 1 + (R.ringNums.take r).sum + cast

theorem arrayElement (hA : A.Ieee) (h : Rings.new A c v = .ok R) (h1 : 1 ≤ c.numRings) (h2 : c.numRings ≤ 2 ^ 31) (cast : Int)
    (ra dec : XFloat ℝ) : ArrayElement A R cast ra dec (arrayIndexX A R cast ra dec) := by
  obtain ⟨wf, w33⟩ := new_wf_rounding hA h h1 h2
  obtain ⟨e1, -⟩ := new_attr h
  have efin : ∀ x d, arrayIndexX A R cast (.fin x) (.fin d) = arrayIndex A R x d := fun x d => rfl
  obtain ⟨n0, hn0, hp0⟩ := getNum wf (show 0 < R.config.numRings by rw [e1]; omega)
  have hN0 : 0 < R.config.numRings := by rw [e1]; omega
  constructor
  · rintro x d rfl rfl
    rw [efin]; exact arrayIndex_eq hA h h1 h2 x d
  · rintro rfl
    unfold arrayIndexX ringX
    dsimp only
    rw [if_neg (by omega), if_pos rfl]
  · rintro rfl
    unfold arrayIndexX ringX
    dsimp only
    rw [if_pos rfl]
  · rintro d rfl ⟨d', hd, hc⟩ y
    obtain rfl := XFloat.fin.inj hd
    unfold findIndex arrayIndexX ringX
    dsimp only
    rcases hc with hc | hc
    · rw [hc, if_pos rfl, if_neg (by omega), if_pos rfl]
    · rw [hc, if_neg (by omega), if_pos rfl, if_pos rfl]
  · rintro x rfl rfl
    obtain ⟨t, ht, ht0, ht1⟩ := (C34_total hA h h1 h2 ⟨x, 0⟩).2.1 0 n0 hn0
    refine ⟨t, n0, hn0, ht, ht0, ht1, ?_⟩
    rw [arrayIndexX_ring A R cast (r := 0) rfl hN0 hn0]
    have e : arrayTractX A R cast (.fin x) n0 = t := by
      have := arrayTract_eq hA wf w33 hn0 x
      rw [ht, Except.ok.injEq] at this
      rw [this]; rfl
    rw [e]
    simp [sumTo]; ring
  · rintro r n hra hr hn
    have hrN := wf.lt_numRings hn
    have hr' : ringX A R dec = r := by
      rcases hr with ⟨rfl, rfl⟩ | ⟨d, rfl, hr⟩
      · rfl
      · exact hr
    rw [arrayIndexX_ring A R cast hr' hrN hn]
    have e : arrayTractX A R cast ra n = if cast = n then 0 else cast := by
      cases ra with
      | fin x => exact absurd rfl (hra x)
      | nan => rfl
      | inf => rfl
      | negInf => rfl
    by_cases hc : cast = n ∨ cast = 0
    · have e' : arrayTractX A R cast ra n = 0 := by
        rw [e]
        split
        · rfl
        · tauto
      rw [e', if_pos hc]
      by_cases hv : R.version = 0 ∧ r ≠ 0
      · rw [if_pos (show R.version = 0 ∧ (0 : Int) = 0 ∧ (r : Int) ≠ 0 from ⟨hv.1, rfl, by have := hv.2; omega⟩), if_pos hv,
          show ((r : Int) + 1) = ((r + 1 : Nat) : Int) by push_cast; rfl, sumTo_nat]; simp
      · rw [if_neg (show ¬ (R.version = 0 ∧ (0 : Int) = 0 ∧ (r : Int) ≠ 0) from fun h => hv ⟨h.1, by have := h.2.2; omega⟩), if_neg hv,
          sumTo_nat]; simp
    · have e' : arrayTractX A R cast ra n = cast := by
        rw [e, if_neg (by tauto)]
      rw [e', if_neg hc, if_neg (by tauto), sumTo_nat]; ring

/-- C83: `findTractIdArray` raises for no coordinates at all (arrays of the same length), in radians: each element depends only on the
coordinates in its place, and is what `ArrayElement` says. -/
theorem C83_array (hA : A.Ieee) (h : Rings.new A c v = .ok R) (h1 : 1 ≤ c.numRings) (h2 : c.numRings ≤ 2 ^ 31) (cast : Int)
    (ra dec : List (XFloat ℝ)) (hl : ra.length = dec.length) :
    ∃ L, R.findTractIdArrayX A cast (.array ra) (.array dec) false = .ok L ∧ L.length = ra.length ∧
      ∀ (k : Nat) x d, ra[k]? = some x → dec[k]? = some d → ∃ i, L[k]? = some i ∧ ArrayElement A R cast x d i := by
  obtain ⟨wf, w33⟩ := new_wf_rounding hA h h1 h2
  obtain ⟨e1, -⟩ := new_attr h
  refine ⟨_, lookupArrayX_eq A R cast wf (first_nonpos hA h h1 h2) ra dec hl (by rw [e1]; exact h1) (fun d => ?_)
    (fun x hx => by linarith), ?_, ?_⟩
  · have := dec_range hA h h1 h2 d
    rw [e1]; exact this
  · simp [hl]
  · intro k x d hx hd
    refine ⟨_, ?_, arrayElement hA h h1 h2 cast x d⟩
    rw [List.getElem?_map, List.getElem?_zip_eq_some (z := (x, d)) |>.mpr ⟨hx, hd⟩]; rfl

/-- C83: with `degrees=True`, NaN and infinities remain such, so the same holds. -/
theorem C83_array_degrees (hA : A.Ieee) (h : Rings.new A c v = .ok R) (h1 : 1 ≤ c.numRings) (h2 : c.numRings ≤ 2 ^ 31) (cast : Int)
    (ra dec : List (XFloat ℝ)) (hl : ra.length = dec.length) :
    ∃ L, R.findTractIdArrayX A cast (.array ra) (.array dec) true = .ok L ∧ L.length = ra.length ∧
      ∀ (k : Nat) x d, ra[k]? = some x → dec[k]? = some d →
        ∃ i, L[k]? = some i ∧ ArrayElement A R cast (x.lift A.deg2rad) (d.lift A.deg2rad) i := by
  obtain ⟨L, h3, h4, h5⟩ := C83_array hA h h1 h2 cast (ra.map fun x => x.lift A.deg2rad) (dec.map fun x => x.lift A.deg2rad) (by simpa using hl)
  refine ⟨L, h3, by simpa using h4, ?_⟩
  intro k x d hx hd
  exact h5 k _ _ (by simp [hx]) (by simp [hd])

/-- C83: where NaN becomes the smallest 32-bit integer (as on x86), a NaN right ascension in a ring gives a negative number, not an id. -/
theorem C83_x86 (hA : A.Ieee) (h : Rings.new A c v = .ok R) (h1 : 1 ≤ c.numRings) (h2 : c.numRings ≤ 2 ^ 31)
    (hT : R.numTracts < 2147483648) {ra dec : XFloat ℝ} {i : Int} (hi : ArrayElement A R (-2147483648) ra dec i) (hra : ∀ x, ra ≠ .fin x)
    (hd : dec = .nan ∨ ∃ d, dec = .fin d ∧ ¬ InCap A R dec) : i < 0 := by
  obtain ⟨wf, w33⟩ := new_wf_rounding hA h h1 h2
  obtain ⟨e1, -⟩ := new_attr h
  have main : ∀ r n, (dec = .nan ∧ r = 0 ∨ ∃ d, dec = .fin d ∧ R.decToRingNum A d = (r : Nat)) → R.ringNums[r]? = some n → i < 0 := by
    intro r n hr hn
    have hpos := wf.pos n (List.mem_of_getElem? hn)
    have := hi.nan_ra r n hra hr hn
    rw [if_neg (by omega)] at this
    have h3 := sum_take_le wf.pos r
    simp only [numTracts] at hT
    omega
  rcases hd with rfl | ⟨d, rfl, hc⟩
  · obtain ⟨n0, hn0, hp0⟩ := getNum wf (show 0 < R.config.numRings by rw [e1]; omega)
    exact main 0 n0 (.inl ⟨rfl, rfl⟩) hn0
  · have hr := dec_range hA h h1 h2 d
    have hc' : ¬ (R.decToRingNum A d = -1 ∨ R.decToRingNum A d = R.config.numRings) := fun h => hc ⟨d, rfl, h⟩
    push Not at hc'
    obtain ⟨k, hk⟩ := Int.eq_ofNat_of_zero_le (show 0 ≤ R.decToRingNum A d by omega)
    obtain ⟨n, hn, -⟩ := getNum wf (show k < R.config.numRings by rw [e1]; rw [e1] at hc'; omega)
    exact main k n (.inr ⟨d, rfl, hk⟩) hn

/-- C83: when the two ways of looking up one position agree.  The array version and `SpherePoint` with `findTract` give the same tract exactly when
the declination is a number between the poles and the right ascension is a number or does not matter. -/
theorem C83_agree (hA : A.Ieee) (h : Rings.new A c v = .ok R) (h1 : 1 ≤ c.numRings) (h2 : c.numRings ≤ 2 ^ 31) (cast : Int)
    (ra dec : XFloat ℝ) (hra : ∀ x, ra = .fin x → 0 ≤ x ∧ x < A.twoPi) :
    (∃ p i, XFloat.point A ra dec = .ok p ∧ R.findIndexX A p = .ok i ∧
      R.findTractIdArrayX A cast (.array [ra]) (.array [dec]) false = .ok [i]) ↔
    (∃ d, dec = .fin d ∧ |d| ≤ A.pi / 2) ∧ ((∃ x, ra = .fin x) ∨ InCap A R dec) := by
  obtain ⟨L, h3, h4, h5⟩ := C83_array hA h h1 h2 cast [ra] [dec] rfl
  obtain ⟨i, h6, h7⟩ := h5 0 ra dec rfl rfl
  have hL : L = [i] := by
    match L, h4, h6 with
    | [a], _, h6 => simpa using h6
  subst hL
  rw [h3]
  constructor
  · rintro ⟨p, j, hp, hj, -⟩
    obtain ⟨hl, hlat, hlon⟩ := (C83_point A ra dec p).mp hp
    obtain ⟨f1, f2, f3⟩ := C83_findTract hA h h1 h2 hp
    have hn : ¬ (dec = .nan ∨ (∀ x, ra ≠ .fin x) ∧ ¬ InCap A R dec) := by
      intro hb
      rw [f1 hb] at hj
      simp at hj
    push Not at hn
    refine ⟨hl.resolve_left hn.1, ?_⟩
    by_cases hx : ∃ x, ra = .fin x
    · exact .inl hx
    · exact .inr (hn.2 fun x hx' => hx ⟨x, hx'⟩)
  · rintro ⟨⟨d, rfl, hd⟩, hor⟩
    have hp : ∃ p, XFloat.point A ra (.fin d) = .ok p := by
      refine ⟨⟨ra.liftMod A.wrap, .fin d⟩, (C83_point A ra (.fin d) _).mpr ⟨.inr ⟨d, rfl, hd⟩, rfl, ?_⟩⟩
      cases ra <;> simp [XFloat.liftMod]
    obtain ⟨p, hp⟩ := hp
    obtain ⟨f1, f2, f3⟩ := C83_findTract hA h h1 h2 hp
    refine ⟨p, i, hp, ?_, rfl⟩
    by_cases hc : InCap A R (.fin d)
    · rw [f3 d rfl hc 0]
      exact h7.cap d rfl hc 0
    · obtain ⟨x, rfl⟩ := hor.resolve_right hc
      have hx := hra x rfl
      have h8 := h7.finite x d rfl rfl
      have h9 := (C83_finite A R cast).2.2.1 x d
      rw [point_eq hx hd, hp] at h9
      obtain rfl := Except.ok.inj h9
      rw [(C83_finite A R cast).1]; exact h8

/-- C83 is not vacuous: a rings sky map with double-precision arithmetic, and a NaN declination for which the array version returns the tract
of the first ring while `findTract` raises. -/
example : ∃ R, Rings.new FloatArith.double ⟨120, 0, 1 / 60⟩ 1 = .ok R ∧
    (∃ i, R.findTractIdArrayX FloatArith.double (-2147483648) (.array [.fin 1]) (.array [.nan]) false = .ok [i] ∧ 1 ≤ i) ∧
    ∃ p, XFloat.point FloatArith.double (.fin 1) .nan = .ok p ∧ R.findIndexX FloatArith.double p = .error .ValueError := by
  refine ⟨_, rfl, ?_, ?_⟩
  · obtain ⟨L, h3, h4, h5⟩ := C83_array (c := ⟨120, 0, 1 / 60⟩) (v := 1) FloatArith.double_ieee rfl (by norm_num) (by norm_num) (-2147483648) [.fin 1] [.nan] rfl
    obtain ⟨i, h6, h7⟩ := h5 0 _ _ rfl rfl
    have hL : L = [i] := by
      match L, h4, h6 with
      | [a], _, h6 => simpa using h6
    subst hL
    obtain ⟨t, n, -, -, h8, -, h9⟩ := h7.nan_dec 1 rfl rfl
    exact ⟨i, h3, by omega⟩
  · exact ⟨_, rfl, (C83_findTract (c := ⟨120, 0, 1 / 60⟩) (v := 1) FloatArith.double_ieee rfl (by norm_num) (by norm_num) (lon := .fin 1) (lat := .nan) rfl).1 (.inl rfl)⟩

end Rings

/-! ## Sky maps with the default `findTract` -/

namespace BaseSkyMap
variable {K Sky σ : Type} [Field K] [LinearOrder K] [FloorRing K]

theorem pySort_map {α β : Type} {le : α → α → Bool} {le' : β → β → Bool} (f : α → β) (hle : ∀ a b, le' (f a) (f b) = le a b) (l : List α) :
    pySort le' (l.map f) = (pySort le l).map f := by
  have ins : ∀ a (l : List α), insertBy le' (f a) (l.map f) = (insertBy le a l).map f := by
    intro a l
    induction l with
    | nil => rfl
    | cons b l ih =>
      simp only [List.map_cons, insertBy, hle]
      split
      · rfl
      · rw [ih]; rfl
  induction l with
  | nil => rfl
  | cons a l ih =>
    have e1 : pySort le (a :: l) = insertBy le a (pySort le l) := rfl
    have e2 : pySort le' ((a :: l).map f) = insertBy le' (f a) (pySort le' (l.map f)) := rfl
    rw [e1, e2, ih, ins]

theorem mapM_map {α β γ : Type} (f : α → PyS σ β) (g : β → γ) (l : List α) (s : σ) :
    PyS.mapM (fun a => f a >>= fun b => pure (g b)) l s =
      match PyS.mapM f l s with
      | (.ok bs, s') => (.ok (bs.map g), s')
      | (.error e, s') => (.error e, s') := by
  induction l generalizing s with
  | nil => rfl
  | cons a l ih =>
    rw [PyS.mapM_cons, PyS.mapM_cons, PyS.bind_apply, PyS.bind_apply, PyS.bind_apply]
    rcases f a s with ⟨r, s1⟩
    cases r with
    | error e => rfl
    | ok b =>
      simp only [PyS.pure_apply]
      rw [PyS.bind_apply, PyS.bind_apply, ih]
      rcases PyS.mapM f l s1 with ⟨r, s2⟩
      cases r <;> rfl

/-- `forTracts` with a body that only computes. -/
theorem forTracts_pure {β : Type} (M : SkyMapOps σ Sky K) (g : Nat → TractRef Sky K → β) (s : σ) :
    forTracts M (fun i t => pure (g i t)) s =
      match forTracts M (fun i t => pure (i, t)) s with
      | (.ok ts, s') => (.ok (ts.map fun x => g x.1 x.2), s')
      | (.error e, s') => (.error e, s') := by
  unfold forTracts
  have key := mapM_map (fun i : Nat => M.getItem (i : Int) >>= fun t => pure (i, t)) (fun x => g x.1 x.2) (List.range M.len) s
  dsimp only at key ⊢
  refine Eq.trans ?_ (key.trans ?_)
  swap
  · rcases PyS.mapM (fun i : Nat => M.getItem (i : Int) >>= fun t => pure (i, t)) (List.range M.len) s with ⟨r, s'⟩
    cases r <;> rfl
  congr 1
  funext i s1
  rw [PyS.bind_apply, PyS.bind_apply, PyS.bind_apply]
  rcases M.getItem i s1 with ⟨r, s2⟩
  cases r <;> rfl

/-- C83: when all separations are numbers, this is the default `findTract` of the other properties. -/
theorem C83_default_finite (ops : SkyOps Sky K) (M : SkyMapOps σ Sky K) (coord : Sky) :
    findTractX (fun ctr => some (ops.separation coord ctr)) M = findTract ops M coord := by
  funext s
  unfold findTractX findTract
  rw [PyS.bind_apply, PyS.bind_apply, forTracts_pure, forTracts_pure M (fun i t => (ops.separation coord t.info.ctrCoord, i, t))]
  rcases forTracts M (fun i t => pure (i, t)) s with ⟨r, s'⟩
  cases r with
  | error e => rfl
  | ok l =>
    dsimp only
    have e : (l.map fun x => (some (ops.separation coord x.2.info.ctrCoord), x.1, x.2)) =
        (l.map fun x => (ops.separation coord x.2.info.ctrCoord, x.1, x.2)).map
          (fun y : K × Nat × TractRef Sky K => (some y.1, y.2)) := by simp
    rw [e, pySort_map (le := tupleLe)]
    · generalize pySort tupleLe (l.map fun x => (ops.separation coord x.2.info.ctrCoord, x.1, x.2)) = l'
      cases l' <;> rfl
    · rintro ⟨x, i, t⟩ ⟨y, j, u⟩
      simp only [tupleLtX, tupleLe]
      rcases lt_trichotomy x y with hxy | hxy | hxy
      · have h1 : ¬ y < x := not_lt.mpr hxy.le
        have h2 : ¬ y = x := fun h => absurd hxy (by simp [h])
        simp [hxy, h1, h2]
      · subst hxy
        simp
        by_cases hij : i ≤ j <;> simp [hij, not_lt.mpr]
        omega
      · have h1 : ¬ x < y := not_lt.mpr hxy.le
        have h2 : ¬ x = y := fun h => absurd hxy (by simp [h])
        simp [hxy, h1, h2]

/-- C83: when no separation is a number, the default `findTract` returns the first tract (`IndexError` if there is none). -/
theorem C83_default (M : SkyMapOps σ Sky K) {s s' : σ} {ts : List (TractRef Sky K)} (hM : iter M s = (.ok ts, s')) :
    (∀ t l, ts = t :: l → findTractX (fun _ => none) M s = (.ok t, s')) ∧
    (ts = [] → findTractX (fun _ => none) M s = (.error .IndexError, s')) := by
  unfold iter at hM
  rw [forTracts_pure M (fun _ t => t)] at hM
  have e := forTracts_pure M (fun i t => ((fun _ : Sky => (none : Option K)) t.info.ctrCoord, i, t)) s
  generalize hr : forTracts M (fun i t => pure (i, t)) s = r at hM e
  obtain ⟨r, s1⟩ := r
  cases r with
  | error e => simp at hM
  | ok l =>
    simp only [Prod.mk.injEq, Except.ok.injEq] at hM
    obtain ⟨rfl, rfl⟩ := hM
    dsimp only at e
    unfold findTractX
    rw [PyS.bind_ok e]
    have hs : ∀ l' : List (Option K × Nat × TractRef Sky K), (∀ a ∈ l', a.1 = none) → pySort (fun a b => !tupleLtX b a) l' = l' := by
      intro l' hl
      induction l' with
      | nil => rfl
      | cons a l' ih =>
        have e : pySort (fun a b => !tupleLtX b a) (a :: l') = insertBy (fun a b => !tupleLtX b a) a (pySort (fun a b => !tupleLtX b a) l') := rfl
        rw [e, ih fun b hb => hl b (List.mem_cons_of_mem _ hb)]
        cases l' with
        | nil => rfl
        | cons b l' =>
          have ha := hl a (by simp)
          simp only [insertBy, tupleLtX, ha]
          cases b.1 <;> rfl
    rw [hs]
    · cases l with
      | nil => exact ⟨by simp, fun _ => rfl⟩
      | cons a l =>
        refine ⟨?_, by simp⟩
        intro t l' h
        simp only [List.map_cons, List.cons.injEq] at h
        obtain ⟨rfl, -⟩ := h
        rfl
    · intro a ha
      obtain ⟨x, -, rfl⟩ := List.mem_map.mp ha
      rfl

end BaseSkyMap
end Skymap
