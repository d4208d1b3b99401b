import Verif.Props.RingsArray
import Verif.Lemmas.RingsArray32

/-! # C77: findTractIdArray of a rings sky map on numpy's 32-bit integers -/

set_option linter.unusedSectionVars false

namespace Skymap
namespace Rings
open FloatArith (exact)
open BaseSkyMap (NpArg)
variable {A : FloatArith ℝ} {c : RingsConfig ℝ} {v : Int} {R : Rings ℝ}

theorem arrayTrunc_range (hA : A.Ieee) {n : Int} (hn : 0 < n) (h33 : n ≤ 2 ^ 33) (y : ℝ) :
    0 ≤ pyTrunc (A.add (A.div (A.npMod y (A.mul 2 A.pi)) (A.div (A.mul 2 A.pi) n)) (1 / 2)) ∧
    pyTrunc (A.add (A.div (A.npMod y (A.mul 2 A.pi)) (A.div (A.mul 2 A.pi) n)) (1 / 2)) ≤ n := by
  have etp : A.mul 2 A.pi = A.twoPi := rfl
  obtain ⟨t1, t2⟩ := hA.twoPi_range
  have hr : 0 ≤ A.npMod y A.twoPi ∧ A.npMod y A.twoPi ≤ A.twoPi * (1 + 1 / 2 ^ 51) := by
    rcases npMod_wrap hA y with ⟨-, b, d⟩ | ⟨-, b, d⟩
    · refine ⟨b, d.le.trans ?_⟩
      norm_num at t1 ⊢; linarith
    · exact ⟨by linarith, d⟩
  obtain ⟨r1, r2⟩ := tract_quot hA hn h33 hr.1 hr.2
  rw [etp] at r1 r2 ⊢
  exact ⟨r1, r2⟩

theorem lookup32_eq (hA : A.Ieee) (h : Rings.new A c v = .ok R) (h1 : 1 ≤ c.numRings) (h2 : c.numRings ≤ 2 ^ 31)
    (hT : R.numTracts ≤ 2147483648) (ra dec : List ℝ) : R.lookupArray32 A ra dec = R.lookupArray A ra dec := by
  obtain ⟨e1, -, -, -, e5, -⟩ := new_attr h
  obtain ⟨wf, w33⟩ := new_wf_rounding hA h h1 h2
  by_cases hl : ra.length = dec.length
  swap
  · unfold lookupArray32 lookupArray
    rw [if_pos hl, if_pos hl]
  have hd : ∀ d ∈ dec, -1 ≤ R.decToRingNum A d ∧ R.decToRingNum A d ≤ R.config.numRings := fun d _ => by
    have := dec_range hA h h1 h2 d
    rw [e1]; exact this
  rw [lookupArray_eq A R wf (first_nonpos hA h h1 h2) ra dec hl hd (fun x hx => by linarith)]
  refine lookupArray32_eq A R wf (first_nonpos hA h h1 h2) ra dec hl hd ?_ ?_ hT (fun x hx => by linarith)
  · intro x _ n hn
    have hpos := wf.pos n hn
    obtain ⟨r1, r2⟩ := arrayTrunc_range hA hpos (w33 n hn) (A.sub x R.raStart)
    have hle : n ≤ R.ringNums.sum := by
      obtain ⟨k, hk⟩ := List.getElem?_of_mem hn
      have h3 := sum_take_le wf.pos (k + 1)
      rw [sum_take_succ hk] at h3
      have h4 : 0 ≤ (R.ringNums.take k).sum := sum_nonneg fun n hn => wf.pos n (List.mem_of_mem_take hn)
      omega
    simp only [numTracts] at hT
    exact ⟨by omega, by omega⟩
  · intro x _ d _
    obtain ⟨i, h3, h4, h5⟩ := (C34_total hA h h1 h2 ⟨x, d⟩).2.2
    rw [arrayIndex_eq hA h h1 h2 x d, Except.ok.injEq] at h3
    subst h3; exact ⟨by omega, by omega⟩

theorem lookup32_overflow (hT : 2147483648 < R.numTracts) {ra dec : List ℝ} (hl : ra.length = dec.length) :
    R.lookupArray32 A ra dec = .error .OverflowError := by
  unfold lookupArray32
  rw [if_neg (by simpa using hl)]
  have n2 : npScalar32 (R.numTracts - 1) = .error .OverflowError := if_neg fun hc => by have := hc.2; omega
  simp only [bind, Except.bind, n2]
  unfold npScalar32
  split
  · next heq => split at heq <;> simp_all
  · rfl

theorem lookup32_sound (hA : A.Ieee) (h : Rings.new A c v = .ok R) (h1 : 1 ≤ c.numRings) {ra dec : List ℝ} {L : List Int}
    (hok : R.lookupArray32 A ra dec = .ok L) : R.lookupArray A ra dec = .ok L := by
  obtain ⟨e1, -⟩ := new_attr h
  by_cases hl : ra.length = dec.length
  swap
  · unfold lookupArray32 at hok
    rw [if_pos hl] at hok; cases hok
  by_cases hT : 2147483648 < R.numTracts
  · rw [lookup32_overflow hT hl] at hok; cases hok
  by_cases h2 : c.numRings ≤ 2 ^ 31
  · rw [← lookup32_eq hA h h1 h2 (by omega)]; exact hok
  · exfalso
    unfold lookupArray32 at hok
    rw [if_neg (by simpa using hl)] at hok
    have n1 : npScalar32 R.config.numRings = .error .OverflowError := if_neg fun hc => by
      have := hc.2; rw [e1] at this; omega
    simp only [bind, Except.bind, n1] at hok
    cases hok

/-- C77: on a sky map with at most 2^31 tracts, `findTractIdArray` on numpy's 32-bit integers is the function of C30, for every argument:
no ring number, tract number or index is wrapped. -/
theorem C77_same (hA : A.Ieee) (h : Rings.new A c v = .ok R) (h1 : 1 ≤ c.numRings) (h2 : c.numRings ≤ 2 ^ 31)
    (hT : R.numTracts ≤ 2 ^ 31) (ra dec : NpArg ℝ) (degrees : Bool) :
    R.findTractIdArray32 A ra dec degrees = R.findTractIdArray A ra dec degrees := by
  have hT' : R.numTracts ≤ 2147483648 := by norm_num at hT; exact hT
  unfold findTractIdArray32 findTractIdArray
  cases degrees
  · exact lookup32_eq hA h h1 h2 hT' _ _
  · cases ra <;> cases dec <;> simp [lookup32_eq hA h h1 h2 hT']

/-- C77: whatever the number of tracts, a call that returns returns what the unbounded function returns: no index is silently wrapped. -/
theorem C77_sound (hA : A.Ieee) (h : Rings.new A c v = .ok R) (h1 : 1 ≤ c.numRings) {ra dec : NpArg ℝ} {degrees : Bool} {L : List Int}
    (hok : R.findTractIdArray32 A ra dec degrees = .ok L) : R.findTractIdArray A ra dec degrees = .ok L := by
  unfold findTractIdArray32 at hok
  unfold findTractIdArray
  cases degrees
  · exact lookup32_sound hA h h1 hok
  · cases ra <;> cases dec <;> simp at hok ⊢
    exact lookup32_sound hA h h1 hok

/-- C77: with more than 2^31 tracts every call on two arrays of the same length fails, even on empty arrays. -/
theorem C77_overflow (A : FloatArith ℝ) (R : Rings ℝ) (hT : 2 ^ 31 < R.numTracts) {ra dec : List ℝ} (hl : ra.length = dec.length)
    (degrees : Bool) : R.findTractIdArray32 A (.array ra) (.array dec) degrees = .error .OverflowError := by
  have hT' : 2147483648 < R.numTracts := by norm_num at hT; exact hT
  unfold findTractIdArray32
  cases degrees
  · exact lookup32_overflow hT' hl
  · simpa using lookup32_overflow hT' (by simpa using hl)

/-- C77: up to 26000 rings there are at most 2^31 tracts. -/
theorem C77_size (hA : A.Ieee) (h : Rings.new A c v = .ok R) (h1 : 1 ≤ c.numRings) (h2 : c.numRings ≤ 26000) :
    R.numTracts ≤ 2 ^ 31 := by
  obtain ⟨-, -, -, -, e5, -⟩ := new_attr h
  have hb : ∀ n ∈ R.ringNums, n ≤ 78003 := by
    intro n hn
    rw [e5, List.mem_map] at hn
    obtain ⟨i, hi, rfl⟩ := hn
    have := (ringCount_bounds hA h1 (by omega) (List.mem_range.mp hi) rfl).2
    omega
  have hsum : ∀ l : List Int, (∀ n ∈ l, n ≤ 78003) → l.sum ≤ 78003 * l.length := by
    intro l hl
    induction l with
    | nil => simp
    | cons a l ih =>
      have h3 := ih fun n hn => hl n (by simp [hn])
      have h4 := hl a (by simp)
      simp only [List.length_cons, List.sum_cons]; push_cast; omega
  have h5 := hsum _ hb
  have h6 : R.ringNums.length = c.numRings := by rw [e5]; simp
  simp only [numTracts]
  rw [h6] at h5
  norm_num
  omega

/-- Sky maps with more than 2^31 tracts can be made. -/
example (c : RingsConfig ℝ) (hc : c.numRings = 2 ^ 31) : ∃ R : Rings ℝ, Rings.new FloatArith.double c 1 = .ok R ∧
    R.findTractIdArray32 FloatArith.double (.array [1, 2]) (.array [0, 1]) false = .error .OverflowError := by
  obtain ⟨R, hR⟩ : ∃ R, Rings.new FloatArith.double c 1 = .ok R := by
    unfold Rings.new
    rw [if_neg (by omega)]
    exact ⟨_, rfl⟩
  refine ⟨R, hR, ?_⟩
  apply C77_overflow FloatArith.double R ?_ (by simp)
  obtain ⟨wf, -⟩ := new_wf_rounding FloatArith.double_ieee hR (by omega) (by omega)
  have h1 := sum_ge_length wf.pos
  rw [wf.length, (new_attr hR).1, hc] at h1
  simp only [numTracts]
  have h2 : ((2 ^ 31 : Nat) : Int) = 2 ^ 31 := by norm_num
  rw [h2] at h1
  linarith

/-- C77 is about real sky maps: 120 rings in double precision, and an array that is searched. -/
example : ∃ R : Rings ℝ, Rings.new FloatArith.double ⟨120, 0, 1 / 60⟩ 1 = .ok R ∧
    ∃ L, R.findTractIdArray32 FloatArith.double (.array [1, 2]) (.array [0, 1]) false = .ok L := by
  refine ⟨_, rfl, ?_⟩
  obtain ⟨L, hL, -⟩ := C30_array (c := ⟨120, 0, 1 / 60⟩) (v := 1) FloatArith.double_ieee rfl (by norm_num) (by norm_num)
    [1, 2] [0, 1] rfl
  refine ⟨L, ?_⟩
  rw [C77_same (c := ⟨120, 0, 1 / 60⟩) (v := 1) FloatArith.double_ieee rfl (by norm_num) (by norm_num)
    (C77_size FloatArith.double_ieee (c := ⟨120, 0, 1 / 60⟩) (v := 1) rfl (by norm_num) (by norm_num))]
  exact hL

end Rings
end Skymap
