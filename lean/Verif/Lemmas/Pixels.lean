import Verif.Lemmas.Tract
import Verif.Spec.Pixels
import Mathlib.Tactic.FieldSimp
import Mathlib.Algebra.Order.Field.Basic

/-! # Pixel positions: rounding of quotients, bounding boxes of positions, shifts -/

set_option linter.unusedSectionVars false

namespace Skymap
variable {Sky K : Type} [Field K] [LinearOrder K] [IsStrictOrderedRing K] [FloorRing K]

theorem pyTrunc_eq {x : K} {n : Int} (hn : 0 ≤ n) (h1 : (n : K) ≤ x) (h2 : x < n + 1) : pyTrunc x = n := by
  have h0 : (0 : K) ≤ x := le_trans (by exact_mod_cast hn) h1
  unfold pyTrunc
  rw [if_pos h0, Int.floor_eq_iff]
  exact ⟨h1, h2⟩

/-- `int(a / b)` is the integer quotient, for sizes below 2⁵³. -/
theorem pyIntTrueDiv_eq {rnd : K → K} (hr : IsRounding rnd) {a b : Int} (ha : 0 ≤ a) (hb : 0 < b)
    (hbig : a < 2 ^ 53) : pyIntTrueDiv rnd a b = .ok (a / b) := by
  unfold pyIntTrueDiv
  rw [if_neg (by omega)]
  congr 1
  have e := Int.mul_ediv_add_emod a b
  have r0 := Int.emod_nonneg a (by omega : b ≠ 0)
  have r1 := Int.emod_lt_of_pos a hb
  have hn : 0 ≤ a / b := Int.ediv_nonneg ha (by omega)
  have hna : a / b ≤ a := Int.ediv_le_self _ ha
  set n := a / b
  have hbK : (0 : K) < b := by exact_mod_cast hb
  have haK : (0 : K) ≤ a := by exact_mod_cast ha
  by_cases hz : a % b = 0
  · have hq : (a : K) / b = n := by
      rw [div_eq_iff hbK.ne']
      have : a = n * b := by rw [mul_comm]; omega
      exact_mod_cast this
    rw [hq, hr.int_exact n (by rw [abs_of_nonneg hn]; omega)]
    exact pyTrunc_eq hn le_rfl (by linarith)
  · have herr := hr.err ((a : K) / b)
    rw [abs_of_nonneg (div_nonneg haK hbK.le)] at herr
    have hsmall : (a : K) / b / 2 ^ 53 < 1 / b := by
      rw [div_div, div_lt_div_iff₀ (by positivity) hbK]
      have : (a : K) < 2 ^ 53 := by exact_mod_cast hbig
      nlinarith
    rw [abs_le] at herr
    have hlo : (n : K) + 1 / b ≤ a / b := by
      rw [le_div_iff₀ hbK, add_mul, one_div, inv_mul_cancel₀ hbK.ne']
      have : n * b + 1 ≤ a := by rw [mul_comm]; omega
      exact_mod_cast this
    have hhi : (a : K) / b + 1 / b ≤ n + 1 := by
      rw [← add_div, div_le_iff₀ hbK]
      have : a + 1 ≤ (n + 1) * b := by rw [add_mul, mul_comm]; omega
      exact_mod_cast this
    exact pyTrunc_eq hn (by linarith) (by linarith)

/-! ### Bounding boxes -/

/-- The finite pixel positions among a list of sky positions. -/
def posList (w : Wcs Sky K) (cs : List Sky) : List (P2 K) :=
  cs.filterMap fun c => match w.skyToPixel c with
    | .pix p => some p
    | _ => none

/-- `b` is the bounding box of `l`. -/
def BoxOf (tweak : K → K) (b : Box2D K) (l : List (P2 K)) : Prop :=
  match b with
  | .empty => l = []
  | .box lo hi =>
    (∀ q ∈ l, lo.x ≤ q.x ∧ q.x < hi.x ∧ lo.y ≤ q.y ∧ q.y < hi.y) ∧
    lo.x < hi.x ∧ lo.y < hi.y ∧
    (∃ q ∈ l, lo.x = q.x) ∧ (∃ q ∈ l, lo.y = q.y) ∧ (∃ q ∈ l, hi.x = tweak q.x) ∧ (∃ q ∈ l, hi.y = tweak q.y)

omit [Field K] [IsStrictOrderedRing K] [FloorRing K] in
theorem includeAxis_spec {tweak : K → K} (ht : ∀ x, x < tweak x) {lo hi c : K} (hlh : lo < hi) :
    (Box2D.includeAxis tweak lo hi c).1 ≤ lo ∧ (Box2D.includeAxis tweak lo hi c).1 ≤ c ∧
    hi ≤ (Box2D.includeAxis tweak lo hi c).2 ∧ c < (Box2D.includeAxis tweak lo hi c).2 ∧
    ((Box2D.includeAxis tweak lo hi c).1 = lo ∨ (Box2D.includeAxis tweak lo hi c).1 = c) ∧
    ((Box2D.includeAxis tweak lo hi c).2 = hi ∨ (Box2D.includeAxis tweak lo hi c).2 = tweak c) := by
  unfold Box2D.includeAxis
  split
  · rename_i h
    exact ⟨h.le, le_rfl, le_rfl, h.trans hlh, Or.inr rfl, Or.inl rfl⟩
  · rename_i h
    split
    · rename_i h'
      exact ⟨le_rfl, not_lt.1 h, h'.trans (ht c).le, ht c, Or.inl rfl, Or.inr rfl⟩
    · rename_i h'
      exact ⟨le_rfl, not_lt.1 h, le_rfl, not_le.1 h', Or.inl rfl, Or.inl rfl⟩

omit [Field K] [IsStrictOrderedRing K] [FloorRing K] in
theorem BoxOf.incl {tweak : K → K} (ht : ∀ x, x < tweak x) {b : Box2D K} {l : List (P2 K)} (h : BoxOf tweak b l)
    (p : P2 K) : BoxOf tweak (b.incl tweak p) (l ++ [p]) := by
  cases b with
  | empty =>
    have hl : l = [] := h
    subst hl
    simp [BoxOf, Box2D.incl, ht]
  | box lo hi =>
    obtain ⟨h1, hx, hy, ⟨q1, m1, e1⟩, ⟨q2, m2, e2⟩, ⟨q3, m3, e3⟩, ⟨q4, m4, e4⟩⟩ := h
    obtain ⟨a1, a2, a3, a4, a5, a6⟩ := includeAxis_spec ht hx (c := p.x)
    obtain ⟨c1, c2, c3, c4, c5, c6⟩ := includeAxis_spec ht hy (c := p.y)
    simp only [BoxOf, Box2D.incl]
    refine ⟨?_, a1.trans_lt (hx.trans_le a3), c1.trans_lt (hy.trans_le c3), ?_, ?_, ?_, ?_⟩
    · intro q hq
      rw [List.mem_append, List.mem_singleton] at hq
      rcases hq with hq | rfl
      · obtain ⟨k1, k2, k3, k4⟩ := h1 q hq
        exact ⟨a1.trans k1, k2.trans_le a3, c1.trans k3, k4.trans_le c3⟩
      · exact ⟨a2, a4, c2, c4⟩
    · rcases a5 with e | e
      · exact ⟨q1, by simp [m1], by rw [e, e1]⟩
      · exact ⟨p, by simp, e⟩
    · rcases c5 with e | e
      · exact ⟨q2, by simp [m2], by rw [e, e2]⟩
      · exact ⟨p, by simp, e⟩
    · rcases a6 with e | e
      · exact ⟨q3, by simp [m3], by rw [e, e3]⟩
      · exact ⟨p, by simp, e⟩
    · rcases c6 with e | e
      · exact ⟨q4, by simp [m4], by rw [e, e4]⟩
      · exact ⟨p, by simp, e⟩

omit [IsStrictOrderedRing K] [FloorRing K] in
theorem coordFold_boxOf {tweak : K → K} (ht : ∀ x, x < tweak x) (w : Wcs Sky K) (cs : List Sky) :
    ∀ (b : Box2D K) (l : List (P2 K)), BoxOf tweak b l →
      BoxOf tweak (cs.foldl (fun b c => match b.inclRes tweak (w.skyToPixel c) with
        | .error _ => b
        | .ok b' => b') b) (l ++ posList w cs) := by
  induction cs with
  | nil => intro b l h; simpa [posList] using h
  | cons c cs ih =>
    intro b l h
    rw [List.foldl_cons]
    cases hc : w.skyToPixel c with
    | raises =>
      have : posList w (c :: cs) = posList w cs := by simp [posList, hc]
      rw [this]; exact ih _ _ h
    | nonfinite =>
      have : posList w (c :: cs) = posList w cs := by simp [posList, hc]
      rw [this]; exact ih _ _ h
    | pix p =>
      have : posList w (c :: cs) = p :: posList w cs := by simp [posList, hc]
      rw [this, List.append_cons]
      exact ih _ _ (h.incl ht p)

omit [IsStrictOrderedRing K] [FloorRing K] in
theorem coordBox_boxOf {tweak : K → K} (ht : ∀ x, x < tweak x) (w : Wcs Sky K) (cs : List Sky) :
    BoxOf tweak (TractInfo.coordBox tweak w cs) (posList w cs) := by
  have := coordFold_boxOf ht w cs .empty [] rfl
  rw [List.nil_append] at this
  exact this

omit [IsStrictOrderedRing K] [FloorRing K] in
/-- The sizing loop succeeds exactly when no position raises, and then gives the bounding box. -/
theorem includeAll_boxOf {tweak : K → K} (ht : ∀ x, x < tweak x) (w : Wcs Sky K) (cs : List Sky) :
    ∀ (b b' : Box2D K) (l : List (P2 K)), BoxOf tweak b l → includeAll tweak w cs b = .ok b' →
      BoxOf tweak b' (l ++ posList w cs) ∧ ∀ c ∈ cs, w.skyToPixel c ≠ .raises := by
  induction cs with
  | nil => intro b b' l h hb; simp [includeAll] at hb; subst hb; simpa [posList] using h
  | cons c cs ih =>
    intro b b' l h hb
    unfold includeAll at hb
    cases hc : w.skyToPixel c with
    | raises => rw [hc] at hb; simp [Box2D.inclRes, bind, Except.bind] at hb
    | nonfinite =>
      rw [hc] at hb
      simp only [Box2D.inclRes, bind, Except.bind] at hb
      have : posList w (c :: cs) = posList w cs := by simp [posList, hc]
      rw [this]
      obtain ⟨i1, i2⟩ := ih _ _ _ h hb
      exact ⟨i1, by simp [hc]; exact i2⟩
    | pix p =>
      rw [hc] at hb
      simp only [Box2D.inclRes, bind, Except.bind] at hb
      have : posList w (c :: cs) = p :: posList w cs := by simp [posList, hc]
      rw [this, List.append_cons]
      obtain ⟨i1, i2⟩ := ih _ _ _ (h.incl ht p) hb
      exact ⟨i1, by simp [hc]; exact i2⟩

/-- The pixel box of a bounding box holds the pixel of every position in it. -/
theorem BoxOf.pixel_mem {tweak : K → K} {b : Box2D K} {l : List (P2 K)} (h : BoxOf tweak b l) {q : P2 K} (hq : q ∈ l) :
    b.toBox2I.contains (toPoint2I q) = true := by
  cases b with
  | empty => have hl : l = [] := h; subst hl; simp at hq
  | box lo hi =>
    obtain ⟨h1, -⟩ := h
    obtain ⟨k1, k2, k3, k4⟩ := h1 q hq
    have ax : ⌊lo.x + 1 / 2⌋ ≤ ⌊q.x + 1 / 2⌋ := Int.floor_le_floor (by linarith)
    have ay : ⌊lo.y + 1 / 2⌋ ≤ ⌊q.y + 1 / 2⌋ := Int.floor_le_floor (by linarith)
    have up : ∀ c d : K, c < d → ⌊c + 1 / 2⌋ ≤ ⌈d - 1 / 2⌉ := by
      intro c d hcd
      have e1 := Int.floor_le (c + 1 / 2)
      have e2 := Int.le_ceil (d - 1 / 2)
      have : (⌊c + 1 / 2⌋ : K) < ⌈d - 1 / 2⌉ + 1 := by linarith
      have : ⌊c + 1 / 2⌋ < ⌈d - 1 / 2⌉ + 1 := by exact_mod_cast this
      omega
    have bx := up _ _ k2
    have bY := up _ _ k4
    unfold Box2D.toBox2I toPoint2I
    dsimp only
    rw [if_neg (by omega), Box2I.contains_iff]
    dsimp only
    omega

/-- Every pixel of the pixel box is at most one pixel beyond the pixels of the positions. -/
theorem BoxOf.pixel_bound {tweak : K → K} (ht : ∀ x, tweak x ≤ x + 1) {b : Box2D K} {l : List (P2 K)}
    (h : BoxOf tweak b l) {p : Point2I} (hp : b.toBox2I.contains p = true) :
    (∃ q ∈ l, (toPoint2I q).x ≤ p.x) ∧ (∃ q ∈ l, p.x ≤ (toPoint2I q).x + 1) ∧
    (∃ q ∈ l, (toPoint2I q).y ≤ p.y) ∧ (∃ q ∈ l, p.y ≤ (toPoint2I q).y + 1) := by
  cases b with
  | empty =>
    rw [Box2I.contains_iff] at hp
    simp only [Box2D.toBox2I, Box2I.empty] at hp
    omega
  | box lo hi =>
    obtain ⟨-, -, -, ⟨q1, m1, e1⟩, ⟨q2, m2, e2⟩, ⟨q3, m3, e3⟩, ⟨q4, m4, e4⟩⟩ := h
    unfold Box2D.toBox2I at hp
    dsimp only at hp
    split at hp
    · rw [Box2I.contains_iff] at hp; simp only [Box2I.empty] at hp; omega
    · rw [Box2I.contains_iff] at hp
      dsimp only at hp
      have up : ∀ c d : K, d ≤ c + 1 → ⌈d - 1 / 2⌉ ≤ ⌊c + 1 / 2⌋ + 1 := by
        intro c d hcd
        rw [Int.ceil_le]
        have e1 := Int.lt_floor_add_one (c + 1 / 2)
        push_cast
        linarith
      have u1 := up q3.x hi.x (by rw [e3]; exact ht _)
      have u2 := up q4.y hi.y (by rw [e4]; exact ht _)
      unfold toPoint2I
      dsimp only
      rw [e1, e2] at hp
      exact ⟨⟨q1, m1, by omega⟩, ⟨q3, m3, by omega⟩, ⟨q2, m2, by omega⟩,
        ⟨q4, m4, by omega⟩⟩

omit [LinearOrder K] [IsStrictOrderedRing K] [FloorRing K] [Field K] in
theorem mem_posList {w : Wcs Sky K} {cs : List Sky} {q : P2 K} :
    q ∈ posList w cs ↔ ∃ c ∈ cs, w.skyToPixel c = .pix q := by
  unfold posList
  rw [List.mem_filterMap]
  constructor
  · rintro ⟨c, hc, h⟩
    refine ⟨c, hc, ?_⟩
    split at h
    · rename_i p hp; simp at h; rw [hp, h]
    · simp at h
  · rintro ⟨c, hc, h⟩
    exact ⟨c, hc, by simp [h]⟩

/-- Pixel index after shifting by whole pixels. -/
theorem toPoint2I_shift (q : P2 K) (m n : Int) :
    toPoint2I (⟨q.x + (m : K), q.y + (n : K)⟩ : P2 K) = ⟨(toPoint2I q).x + m, (toPoint2I q).y + n⟩ := by
  unfold toPoint2I
  apply I2.ext'
  · dsimp only
    rw [show q.x + (m : K) + 1 / 2 = q.x + 1 / 2 + (m : K) by ring, Int.floor_add_intCast]
  · dsimp only
    rw [show q.y + (n : K) + 1 / 2 = q.y + 1 / 2 + (n : K) by ring, Int.floor_add_intCast]

end Skymap
