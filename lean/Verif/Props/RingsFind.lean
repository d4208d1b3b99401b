import Verif.Lemmas.RingsFind
import Verif.Props.Sha1

/-! # C31: findAllTracts of a rings sky map -/

set_option linter.unusedSectionVars false

namespace Skymap
namespace Rings
variable {A : FloatArith ℝ} {c : RingsConfig ℝ} {v : Int} {R : Rings ℝ}
variable {env : FloatEnv ℝ} {ops : SkyOps (SpherePoint ℝ) ℝ} {mk : SpherePoint ℝ → Wcs (SpherePoint ℝ) ℝ} {b₀ : TractBuilder}
variable {s s' : MapState (SpherePoint ℝ) ℝ} {p : SpherePoint ℝ} {l : List (TractRef (SpherePoint ℝ) ℝ)}

/-- `skyMap[i]` and `len(skyMap)` of a rings sky map. -/
noncomputable abbrev skyMapOps (A : FloatArith ℝ) (R : Rings ℝ) (env : FloatEnv ℝ) (ops : SkyOps (SpherePoint ℝ) ℝ)
    (mk : SpherePoint ℝ → Wcs (SpherePoint ℝ) ℝ) : SkyMapOps (MapState (SpherePoint ℝ) ℝ) (SpherePoint ℝ) ℝ :=
  CachingSkyMap.skyMapOps (R.cachingDef A env ops mk)

/-- A newly built sky map. -/
noncomputable abbrev init (A : FloatArith ℝ) (R : Rings ℝ) (env : FloatEnv ℝ) (ops : SkyOps (SpherePoint ℝ) ℝ)
    (mk : SpherePoint ℝ → Wcs (SpherePoint ℝ) ℝ) (b₀ : TractBuilder) : MapState (SpherePoint ℝ) ℝ :=
  CachingSkyMap.init (R.cachingDef A env ops mk) b₀

/-- Of a version 1 map: tract `i` is a cap, or it is in the position's ring or the next ring to the north or south, and in that ring
the position's tract or the next to the east or west. -/
def Near (A : FloatArith ℝ) (R : Rings ℝ) (p : SpherePoint ℝ) (i : Int) : Prop :=
  i = 0 ∨ i = R.numTracts - 1 ∨ ∃ (k : Nat) (n t u : Int), R.getRingIndices i = .ok ((k : Int), u) ∧ R.ringNums[k]? = some n ∧
    |(k : Int) - R.decToRingNum A p.lat| ≤ 1 ∧ R.raToTractNum A p.lon k = .ok t ∧ (u = t ∨ u = (t + 1) % n ∨ u = (t - 1) % n)

theorem total (hA : A.Ieee) (h : Rings.new A c v = .ok R) (h1 : 1 ≤ c.numRings) (h2 : c.numRings ≤ 2 ^ 31) (p : SpherePoint ℝ) :
    R.Total A p := by
  obtain ⟨a, b, -⟩ := C34_total hA h h1 h2 p
  exact ⟨by rw [(new_attr h).1]; exact a, b⟩

theorem len_eq (wf : R.WF) : ((skyMapOps A R env ops mk).len : Int) = R.numTracts := by
  have := wf.numTracts_ge
  change ((R.numTracts.toNat : Nat) : Int) = _
  omega

/-- The indices that `findAllTracts` looks at. -/
theorem indices (hA : A.Ieee) (h : Rings.new A c v = .ok R) (h1 : 1 ≤ c.numRings) (h2 : c.numRings ≤ 2 ^ 31) (p : SpherePoint ℝ) :
    ∃ L, R.nearIndices A p = .ok L ∧
      (∀ i, i ∈ L ↔ ∃ (k : Nat) (n t u : Int), R.ringNums[k]? = some n ∧ |(k : Int) - R.decToRingNum A p.lat| ≤ 1 ∧
        R.raToTractNum A p.lon k = .ok t ∧ (0 ≤ t ∧ t < n) ∧ u ∈ around n t ∧ i = R.indexOf k u) ∧
      (v = 1 → L.Nodup) := by
  obtain ⟨wf, -⟩ := new_wf_rounding hA h h1 h2
  obtain ⟨e1, e2, -⟩ := new_attr h
  have w3 := new_three hA h h1 h2
  have hT := total hA h h1 h2 p
  let t : Int → Int := fun r => match R.raToTractNum A p.lon r with | .ok t => t | .error _ => 0
  have ht : ∀ (k : Nat) n, R.ringNums[k]? = some n → R.raToTractNum A p.lon k = .ok (t k) ∧ 0 ≤ t k ∧ t k < n := by
    intro k n hn
    obtain ⟨t', h3, h4⟩ := hT.ra k n hn
    have : t k = t' := by simp only [t, h3]
    rw [this]; exact ⟨h3, h4⟩
  refine ⟨_, nearIndices_eq wf hT t fun k n hn => (ht k n hn).1, ?_, ?_⟩
  · have mem : ∀ r i, i ∈ R.ringIndices t r ↔ ∃ (k : Nat) (n t u : Int), R.ringNums[k]? = some n ∧ (k : Int) = r ∧
        R.raToTractNum A p.lon k = .ok t ∧ (0 ≤ t ∧ t < n) ∧ u ∈ around n t ∧ i = R.indexOf k u := by
      intro r i
      unfold ringIndices
      split
      · next hr =>
        simp only [List.not_mem_nil, false_iff]
        rintro ⟨k, n, t', u, hn, rfl, -⟩
        have := wf.lt_numRings hn
        omega
      · next hr =>
        obtain ⟨k, rfl⟩ := Int.eq_ofNat_of_zero_le (show 0 ≤ r by omega)
        obtain ⟨n, hn, -⟩ := getNum wf (k := k) (by omega)
        have e : (Int.toNat (k : Int)) = k := by simp
        rw [e, hn, Option.getD_some, List.mem_map]
        constructor
        · rintro ⟨u, hu, rfl⟩
          exact ⟨k, n, t k, u, hn, rfl, (ht k n hn).1, (ht k n hn).2, hu, rfl⟩
        · rintro ⟨k', n', t', u, hn', hk', h5, -, hu, rfl⟩
          have : k' = k := by omega
          subst this
          rw [hn, Option.some.injEq] at hn'
          subst hn'
          rw [(ht k' n hn).1, Except.ok.injEq] at h5
          subst h5
          exact ⟨u, hu, rfl⟩
    intro i
    simp only [List.flatMap_cons, List.flatMap_nil, List.append_nil, List.mem_append, mem]
    constructor
    · rintro (⟨k, n, t', u, a1, a2, a3⟩ | ⟨k, n, t', u, a1, a2, a3⟩ | ⟨k, n, t', u, a1, a2, a3⟩) <;>
        exact ⟨k, n, t', u, a1, by rw [abs_le]; omega, a3⟩
    · rintro ⟨k, n, t', u, a1, a2, a3⟩
      rw [abs_le] at a2
      rcases (by omega : (k : Int) = R.decToRingNum A p.lat - 1 ∨ (k : Int) = R.decToRingNum A p.lat ∨
        (k : Int) = R.decToRingNum A p.lat + 1) with a | a | a
      · exact .inl ⟨k, n, t', u, a1, a, a3⟩
      · exact .inr (.inl ⟨k, n, t', u, a1, a, a3⟩)
      · exact .inr (.inr ⟨k, n, t', u, a1, a, a3⟩)
  · intro hv
    rw [← e2] at hv
    have hidx : ∀ (k : Nat) u, R.indexOf k u = 1 + (R.ringNums.take k).sum + u := by
      intro k u; unfold indexOf; rw [if_neg (by omega)]
    rw [List.nodup_flatMap]
    constructor
    · intro r _
      unfold ringIndices
      split
      · exact List.nodup_nil
      · next hr =>
        obtain ⟨k, rfl⟩ := Int.eq_ofNat_of_zero_le (show 0 ≤ r by omega)
        obtain ⟨n, hn, -⟩ := getNum wf (k := k) (by omega)
        have e : (Int.toNat (k : Int)) = k := by simp
        rw [e, hn, Option.getD_some]
        refine List.Nodup.map ?_ (around_nodup (w3 n (List.mem_of_getElem? hn)) (ht k n hn).2)
        intro a b hab
        rw [hidx, hidx] at hab
        omega
    · have disj : ∀ r r' : Int, r ≠ r' → (R.ringIndices t r).Disjoint (R.ringIndices t r') := by
        intro r r' hne i hi hi'
        unfold ringIndices at hi hi'
        split at hi
        · simp at hi
        split at hi'
        · simp at hi'
        obtain ⟨k, rfl⟩ := Int.eq_ofNat_of_zero_le (show 0 ≤ r by omega)
        obtain ⟨k', rfl⟩ := Int.eq_ofNat_of_zero_le (show 0 ≤ r' by omega)
        obtain ⟨n, hn, -⟩ := getNum wf (k := k) (by omega)
        obtain ⟨n', hn', -⟩ := getNum wf (k := k') (by omega)
        have e : ∀ k : Nat, (Int.toNat (k : Int)) = k := by simp
        rw [e, hn, Option.getD_some, List.mem_map] at hi
        rw [e, hn', Option.getD_some, List.mem_map] at hi'
        obtain ⟨u, hu, rfl⟩ := hi
        obtain ⟨u', hu', he⟩ := hi'
        rw [hidx, hidx] at he
        have := (wf.block_inj hn' hn (around_range (ht k' n' hn').2 hu') (around_range (ht k n hn).2 hu) (by omega)).1
        omega
      simp only [List.pairwise_cons, List.mem_cons, List.not_mem_nil, or_false, forall_eq_or_imp, forall_eq, Function.onFun,
        List.Pairwise.nil, and_true, IsEmpty.forall_iff, implies_true]
      exact ⟨⟨disj _ _ (by omega), disj _ _ (by omega)⟩, disj _ _ (by omega)⟩

/-- The result of `findAllTracts`, with final answers. -/
theorem findAll_spec (hA : A.Ieee) (h : Rings.new A c v = .ok R) (h1 : 1 ≤ c.numRings) (h2 : c.numRings ≤ 2 ^ 31)
    (hP : (skyMapOps A R env ops mk).Permanent s)
    (hf : R.findAllTracts A (skyMapOps A R env ops mk) p s = (.ok l, s')) :
    (skyMapOps A R env ops mk).After s s' ∧ ∃ L rs, R.nearIndices A p = .ok L ∧
      List.Forall₂ (fun i r => (skyMapOps A R env ops mk).getItem i s' = (.ok r, s')) (L ++ [0, R.numTracts - 1]) rs ∧
      l = rs.filter fun r => r.info.contains p := by
  obtain ⟨wf, -⟩ := new_wf_rounding hA h h1 h2
  obtain ⟨L, hL, -, -⟩ := indices hA h h1 h2 p
  unfold findAllTracts at hf
  obtain ⟨x, s₁, g1, g2⟩ := PyS.bind_inv hf
  rw [hL] at g1
  simp only [PyS.lift, Prod.mk.injEq, Except.ok.injEq] at g1
  obtain ⟨rfl, rfl⟩ := g1
  rw [len_eq wf] at g2
  obtain ⟨k1, rs, k2, k3⟩ := keep_spec p _ s s' l hP g2
  exact ⟨k1, L, rs, hL, k2, k3⟩

theorem forall₂_mem {α β : Type} {P : α → β → Prop} {l : List α} {m : List β} (h : List.Forall₂ P l m) {b : β} (hb : b ∈ m) :
    ∃ a ∈ l, P a b := by
  induction h with
  | nil => simp at hb
  | cons h _ ih =>
    rcases List.mem_cons.mp hb with rfl | hb
    · exact ⟨_, by simp, h⟩
    · obtain ⟨a, h1, h2⟩ := ih hb
      exact ⟨a, by simp [h1], h2⟩

theorem forall₂_mem' {α β : Type} {P : α → β → Prop} {l : List α} {m : List β} (h : List.Forall₂ P l m) {a : α} (ha : a ∈ l) :
    ∃ b ∈ m, P a b := by
  induction h with
  | nil => simp at ha
  | cons h _ ih =>
    rcases List.mem_cons.mp ha with rfl | ha
    · exact ⟨_, by simp, h⟩
    · obtain ⟨a, h1, h2⟩ := ih ha
      exact ⟨a, by simp [h1], h2⟩

theorem forall₂_split {α β : Type} {P : α → β → Prop} {a b : List α} {m : List β} (h : List.Forall₂ P (a ++ b) m) :
    ∃ ma mb, m = ma ++ mb ∧ List.Forall₂ P a ma ∧ List.Forall₂ P b mb := by
  induction a generalizing m with
  | nil => exact ⟨[], m, rfl, .nil, h⟩
  | cons x a ih =>
    obtain ⟨y, m', h1, h2, rfl⟩ := List.forall₂_cons_left_iff.mp h
    obtain ⟨ma, mb, rfl, h3, h4⟩ := ih h2
    exact ⟨y :: ma, mb, rfl, .cons h1 h3, h4⟩

/-- Tracts of a rings sky map carry their index. -/
theorem tractArgs_id : ∀ (i : Int) a, (R.cachingDef A env ops mk).tractArgs i = .ok a → a.id = i := by
  intro i a ha
  obtain ⟨ctr, -, ha⟩ := bindOk ha
  obtain ⟨⟨x1, x2, x3, x4⟩, -, ha⟩ := bindOk ha
  simp only [pure, Except.pure, Except.ok.injEq] at ha
  rw [← ha]

theorem item (wf : R.WF) (hs : (skyMapOps A R env ops mk).After (init A R env ops mk b₀) s) {i : Int} {r : TractRef (SpherePoint ℝ) ℝ}
    (hg : (skyMapOps A R env ops mk).getItem i s = (.ok r, s')) : (0 ≤ i ∧ i < R.numTracts) ∧ r.info.id = i := by
  obtain ⟨a, b, -⟩ := C18_permanent tractArgs_id hs i r hg
  rw [len_eq wf] at a
  exact ⟨a, b⟩

/-- C31, both versions: every tract returned is a tract of the sky map that contains the position. -/
theorem C31_sound (hA : A.Ieee) (h : Rings.new A c v = .ok R) (h1 : 1 ≤ c.numRings) (h2 : c.numRings ≤ 2 ^ 31)
    (hs : (skyMapOps A R env ops mk).After (init A R env ops mk b₀) s)
    (hf : R.findAllTracts A (skyMapOps A R env ops mk) p s = (.ok l, s')) :
    ∀ r ∈ l, r.info.contains p = true ∧ ∃ i, (0 ≤ i ∧ i < R.numTracts) ∧ r.info.id = i ∧
      (skyMapOps A R env ops mk).getItem i s' = (.ok r, s') := by
  obtain ⟨wf, -⟩ := new_wf_rounding hA h h1 h2
  obtain ⟨ha, L, rs, hL, k2, rfl⟩ := findAll_spec hA h h1 h2 (Search_permanent_caching _ b₀ s hs) hf
  intro r hr
  rw [List.mem_filter] at hr
  obtain ⟨i, -, hi⟩ := forall₂_mem k2 hr.1
  obtain ⟨g1, g2⟩ := item wf (hs.trans ha) hi
  exact ⟨hr.2, i, g1, g2, hi⟩

/-- C31, both versions: the tract that `findTract` finds is returned if it contains the position. -/
theorem C31_primary (hA : A.Ieee) (h : Rings.new A c v = .ok R) (h1 : 1 ≤ c.numRings) (h2 : c.numRings ≤ 2 ^ 31)
    (hs : (skyMapOps A R env ops mk).After (init A R env ops mk b₀) s)
    (hf : R.findAllTracts A (skyMapOps A R env ops mk) p s = (.ok l, s')) :
    ∃ r, R.findTract A (skyMapOps A R env ops mk) p s' = (.ok r, s') ∧ (r.info.contains p = true → r ∈ l) := by
  obtain ⟨wf, -⟩ := new_wf_rounding hA h h1 h2
  obtain ⟨e1, -⟩ := new_attr h
  obtain ⟨ha, L, rs, hL, k2, rfl⟩ := findAll_spec hA h h1 h2 (Search_permanent_caching _ b₀ s hs) hf
  obtain ⟨L', hL', hmem, -⟩ := indices hA h h1 h2 p
  rw [hL, Except.ok.injEq] at hL'
  subst hL'
  have key : ∃ i, R.findIndex A p = .ok i ∧ i ∈ L ++ [0, R.numTracts - 1] := by
    have hT := total hA h h1 h2 p
    unfold findIndex
    dsimp only
    by_cases hS : R.decToRingNum A p.lat = -1
    · exact ⟨0, by rw [if_pos hS], by simp⟩
    by_cases hN : R.decToRingNum A p.lat = R.config.numRings
    · exact ⟨R.numTracts - 1, by rw [if_neg hS, if_pos hN], by simp⟩
    have hd := hT.dec
    obtain ⟨k, hk⟩ := Int.eq_ofNat_of_zero_le (show 0 ≤ R.decToRingNum A p.lat by omega)
    obtain ⟨n, hn, -⟩ := getNum wf (k := k) (by omega)
    obtain ⟨t, ht, ht'⟩ := hT.ra k n hn
    refine ⟨R.indexOf k t, ?_, ?_⟩
    · rw [if_neg hS, if_neg hN, hk]
      rw [ht]
      simp only [bind, Except.bind, pure, Except.pure, Except.ok.injEq, indexOf]
      split
      · next hx =>
        rw [if_pos (by omega)]
        have := sumTo_nat R (k + 1) (t + 1)
        push_cast at this
        rw [this]; ring
      · next hx => rw [if_neg (by omega), sumTo_nat]; ring
    · rw [List.mem_append, hmem]
      exact .inl ⟨k, n, t, t, hn, by rw [hk]; simp, ht, ht', by simp [around], rfl⟩
  obtain ⟨i, hi, him⟩ := key
  obtain ⟨r, hr, hg⟩ := forall₂_mem' k2 him
  refine ⟨r, ?_, fun hc => List.mem_filter.mpr ⟨hr, hc⟩⟩
  unfold findTract
  rw [PyS.bind_ok (s' := s') (a := i)]
  · exact hg
  · rw [hi]; rfl

/-- C31, both versions: the caps are returned if they contain the position. -/
theorem C31_caps (hA : A.Ieee) (h : Rings.new A c v = .ok R) (h1 : 1 ≤ c.numRings) (h2 : c.numRings ≤ 2 ^ 31)
    (hs : (skyMapOps A R env ops mk).After (init A R env ops mk b₀) s)
    (hf : R.findAllTracts A (skyMapOps A R env ops mk) p s = (.ok l, s')) :
    ∃ south north, (skyMapOps A R env ops mk).getItem 0 s' = (.ok south, s') ∧
      (skyMapOps A R env ops mk).getItem (R.numTracts - 1) s' = (.ok north, s') ∧
      (south.info.contains p = true → south ∈ l) ∧ (north.info.contains p = true → north ∈ l) := by
  obtain ⟨ha, L, rs, hL, k2, rfl⟩ := findAll_spec hA h h1 h2 (Search_permanent_caching _ b₀ s hs) hf
  obtain ⟨r0, m0, g0⟩ := forall₂_mem' k2 (a := 0) (by simp)
  obtain ⟨r1, m1, g1⟩ := forall₂_mem' k2 (a := R.numTracts - 1) (by simp)
  exact ⟨r0, r1, g0, g1, fun hc => List.mem_filter.mpr ⟨m0, hc⟩, fun hc => List.mem_filter.mpr ⟨m1, hc⟩⟩

/-- The indices that `findAllTracts` looks at, of a version 1 map. -/
theorem near_iff (hA : A.Ieee) (h : Rings.new A c 1 = .ok R) (h1 : 1 ≤ c.numRings) (h2 : c.numRings ≤ 2 ^ 31) {L : List Int}
    (hL : R.nearIndices A p = .ok L) (i : Int) : i ∈ L ++ [0, R.numTracts - 1] ↔ R.Near A p i := by
  obtain ⟨wf, -⟩ := new_wf_rounding hA h h1 h2
  obtain ⟨e1, e2, -⟩ := new_attr h
  obtain ⟨L', hL', hmem, -⟩ := indices hA h h1 h2 p
  rw [hL, Except.ok.injEq] at hL'
  subst hL'
  have hidx : ∀ (k : Nat) u, R.indexOf k u = 1 + (R.ringNums.take k).sum + u := by
    intro k u; unfold indexOf; rw [if_neg (by omega)]
  unfold Near
  simp only [List.mem_append, hmem, List.mem_cons, List.not_mem_nil, or_false]
  constructor
  · rintro (⟨k, n, t, u, a1, a2, a3, a4, a5, rfl⟩ | rfl | rfl)
    · right; right
      have hu := around_range a4 a5
      refine ⟨k, n, t, u, ?_, a1, a2, a3, ?_⟩
      · rw [hidx]; exact wf.getRingIndices_ring (by omega) a1 hu.1 hu.2
      · simp only [around, List.mem_cons, List.not_mem_nil, or_false] at a5
        tauto
    · exact .inl rfl
    · exact .inr (.inl rfl)
  · rintro (rfl | rfl | ⟨k, n, t, u, a0, a1, a2, a3, a4⟩)
    · simp
    · simp
    · left
      obtain ⟨t', h3, h4⟩ := (total hA h h1 h2 p).ra k n a1
      rw [a3, Except.ok.injEq] at h3
      subst h3
      have a5 : u ∈ around n t := by
        simp only [around, List.mem_cons, List.not_mem_nil, or_false]; tauto
      refine ⟨k, n, t, u, a1, a2, a3, h4, a5, ?_⟩
      have hu := around_range h4 a5
      have hk := wf.lt_numRings a1
      by_cases hi : 0 ≤ i ∧ i < R.numTracts
      · rcases wf.index_cases hi with rfl | rfl | ⟨k', n', u', b1, b2, b3, rfl⟩
        · rw [getRingIndices_south] at a0
          simp only [Except.ok.injEq, Prod.mk.injEq] at a0
          omega
        · rw [wf.getRingIndices_north] at a0
          simp only [Except.ok.injEq, Prod.mk.injEq] at a0
          omega
        · rw [wf.getRingIndices_ring (by omega) b1 b2 b3] at a0
          simp only [Except.ok.injEq, Prod.mk.injEq] at a0
          have : k' = k := by omega
          rw [hidx, this, a0.2]
      · rw [getRingIndices_out R wf.numTracts_ge hi] at a0
        cases a0

/-- C31, version 1: the tracts returned are exactly the caps and adjacent tracts that contain the position, each once.  (In particular
a tract further away is not returned, even if its overlap makes it contain the position.) -/
theorem C31_exact (hA : A.Ieee) (h : Rings.new A c 1 = .ok R) (h1 : 1 ≤ c.numRings) (h2 : c.numRings ≤ 2 ^ 31)
    (hs : (skyMapOps A R env ops mk).After (init A R env ops mk b₀) s)
    (hf : R.findAllTracts A (skyMapOps A R env ops mk) p s = (.ok l, s')) :
    (l.map (·.info.id)).Nodup ∧ ∀ r, r ∈ l ↔ ∃ i, (skyMapOps A R env ops mk).getItem i s' = (.ok r, s') ∧
      R.Near A p i ∧ r.info.contains p = true := by
  obtain ⟨wf, -⟩ := new_wf_rounding hA h h1 h2
  obtain ⟨e1, e2, -⟩ := new_attr h
  obtain ⟨ha, L, rs, hL, k2, rfl⟩ := findAll_spec hA h h1 h2 (Search_permanent_caching _ b₀ s hs) hf
  obtain ⟨L', hL', hmem, hnd⟩ := indices hA h h1 h2 p
  rw [hL, Except.ok.injEq] at hL'
  subst hL'
  have hidx : ∀ (k : Nat) u, R.indexOf k u = 1 + (R.ringNums.take k).sum + u := by
    intro k u; unfold indexOf; rw [if_neg (by omega)]
  have near := near_iff hA h h1 h2 hL
  constructor
  · have hids : rs.map (·.info.id) = L ++ [0, R.numTracts - 1] := by
      clear hmem near hnd hf hL
      generalize L ++ [0, R.numTracts - 1] = L' at k2
      induction k2 with
      | nil => rfl
      | cons h _ ih => rw [List.map_cons, ih, (item wf (hs.trans ha) h).2]
    have hN : (L ++ [0, R.numTracts - 1]).Nodup := by
      have h3 := wf.numTracts_ge
      have h0 : 3 ≤ R.numTracts := by
        obtain ⟨n, hn, hn0⟩ := getNum wf (k := 0) (by rw [e1]; omega)
        have := wf.block_range hn (le_refl 0) hn0
        omega
      have hr : ∀ i ∈ L, 0 < i ∧ i < R.numTracts - 1 := by
        intro i hi
        obtain ⟨k, n, t, u, a1, a2, a3, a4, a5, rfl⟩ := (hmem i).mp hi
        obtain ⟨q1, -, q2⟩ := indexOf_range wf a1 (around_range a4 a5)
        exact ⟨q1, q2 (by omega)⟩
      rw [List.nodup_append]
      refine ⟨hnd rfl, ?_, ?_⟩
      · simp; omega
      · intro a ha b hb
        have := hr a ha
        simp only [List.mem_cons, List.not_mem_nil, or_false] at hb
        omega
    rw [← hids] at hN
    exact hN.sublist (List.Sublist.map _ List.filter_sublist)
  · intro r
    rw [List.mem_filter]
    constructor
    · rintro ⟨hr, hc⟩
      obtain ⟨i, hi, hg⟩ := forall₂_mem k2 hr
      exact ⟨i, hg, (near i).mp hi, hc⟩
    · rintro ⟨i, hg, hi, hc⟩
      obtain ⟨r', hr', hg'⟩ := forall₂_mem' k2 ((near i).mpr hi)
      rw [hg] at hg'
      simp only [Prod.mk.injEq, Except.ok.injEq, and_true] at hg'
      rw [hg']
      exact ⟨hr', hg' ▸ hc⟩

/-- C31, version 0, two rings or more: a position next to the start of the last ring, contained in the north cap, finds the north cap
twice. -/
theorem C31_v0_duplicate (hA : A.Ieee) (h : Rings.new A c 0 = .ok R) (h1 : 2 ≤ c.numRings) (h2 : c.numRings ≤ 2 ^ 31)
    (hs : (skyMapOps A R env ops mk).After (init A R env ops mk b₀) s)
    (hf : R.findAllTracts A (skyMapOps A R env ops mk) p s = (.ok l, s'))
    (hd : R.decToRingNum A p.lat ≥ c.numRings - 2) (hr : R.raToTractNum A p.lon (c.numRings - 1) = .ok 0)
    {north : TractRef (SpherePoint ℝ) ℝ} (hn : (skyMapOps A R env ops mk).getItem (R.numTracts - 1) s' = (.ok north, s'))
    (hc : north.info.contains p = true) : ∃ l₁ l₂ l₃, l = l₁ ++ north :: l₂ ++ north :: l₃ := by
  obtain ⟨wf, -⟩ := new_wf_rounding hA h (by omega) h2
  obtain ⟨e1, e2, -⟩ := new_attr h
  obtain ⟨ha, L, rs, hL, k2, rfl⟩ := findAll_spec hA h (by omega) h2 (Search_permanent_caching _ b₀ s hs) hf
  obtain ⟨L', hL', hmem, hnd⟩ := indices hA h (by omega) h2 p
  rw [hL, Except.ok.injEq] at hL'
  subst hL'
  have hT := total hA h (by omega) h2 p
  have hdd := hT.dec
  rw [e1] at hdd
  have hin : R.numTracts - 1 ∈ L := by
    rw [hmem]
    obtain ⟨n, hn, hn0⟩ := getNum wf (k := c.numRings - 1) (by rw [e1]; omega)
    have hcast : ((c.numRings - 1 : Nat) : Int) = (c.numRings : Int) - 1 := by omega
    refine ⟨c.numRings - 1, n, 0, 0, hn, ?_, by rw [hcast]; exact hr, ⟨le_refl _, hn0⟩, by simp [around], ?_⟩
    · rw [abs_le]; omega
    · unfold indexOf
      rw [if_pos ⟨e2, rfl, by omega⟩, show c.numRings - 1 + 1 = c.numRings by omega, wf.take_all (by rw [e1])]
      simp only [numTracts]; ring
  obtain ⟨L₁, L₂, rfl⟩ := List.append_of_mem hin
  obtain ⟨ra, rb, rfl, g1, g2⟩ := forall₂_split k2
  obtain ⟨ra1, ra2, rfl, g3, g4⟩ := forall₂_split g1
  obtain ⟨x, ra3, g5, g6, rfl⟩ := List.forall₂_cons_left_iff.mp g4
  obtain ⟨y, rb1, g7, g8, rfl⟩ := List.forall₂_cons_left_iff.mp g2
  obtain ⟨z, rb2, g9, g10, rfl⟩ := List.forall₂_cons_left_iff.mp g8
  rw [hn] at g5 g9
  simp only [Prod.mk.injEq, Except.ok.injEq, and_true] at g5 g9
  subst g5 g9
  refine ⟨ra1.filter fun r => r.info.contains p, (ra3 ++ [y]).filter fun r => r.info.contains p,
    rb2.filter fun r => r.info.contains p, ?_⟩
  by_cases hy : y.info.contains p = true <;> simp [List.filter_append, hc, hy]

/-- C31: `findAllTracts` raises only if a tract cannot be generated. -/
theorem C31_total (hA : A.Ieee) (h : Rings.new A c v = .ok R) (h1 : 1 ≤ c.numRings) (h2 : c.numRings ≤ 2 ^ 31)
    (hg : ∀ i, 0 ≤ i ∧ i < R.numTracts → ∀ s₁, (skyMapOps A R env ops mk).After s s₁ →
      ∃ r s₂, (skyMapOps A R env ops mk).getItem i s₁ = (.ok r, s₂)) :
    ∃ l s', R.findAllTracts A (skyMapOps A R env ops mk) p s = (.ok l, s') := by
  obtain ⟨wf, -⟩ := new_wf_rounding hA h h1 h2
  obtain ⟨L, hL, hmem, -⟩ := indices hA h h1 h2 p
  have h3 := wf.numTracts_ge
  obtain ⟨l, s', h4⟩ := keep_ok (M := skyMapOps A R env ops mk) p (L ++ [0, R.numTracts - 1]) s (by
    intro i hi s₁ ha
    refine hg i ?_ s₁ ha
    rw [List.mem_append, hmem] at hi
    simp only [List.mem_cons, List.not_mem_nil, or_false] at hi
    rcases hi with ⟨k, n, t, u, a1, a2, a3, a4, a5, rfl⟩ | rfl | rfl
    · obtain ⟨q1, q2, -⟩ := indexOf_range wf a1 (around_range a4 a5)
      omega
    · omega
    · omega)
  refine ⟨l, s', ?_⟩
  unfold findAllTracts
  rw [PyS.bind_ok (s' := s) (a := L) (by rw [hL]; rfl), len_eq wf]
  exact h4

/-- C30: the tract that `findTract` returns has as its id the index that `findTractIdArray` gives. -/
theorem C30_id (hA : A.Ieee) (h : Rings.new A c v = .ok R) (h1 : 1 ≤ c.numRings) (h2 : c.numRings ≤ 2 ^ 31)
    (hs : (skyMapOps A R env ops mk).After (init A R env ops mk b₀) s)
    {ra dec : List ℝ} (hl : ra.length = dec.length) {k : Nat} {x d : ℝ} (hx : ra[k]? = some x) (hd : dec[k]? = some d)
    (hx' : 0 ≤ x ∧ x < A.twoPi) (hd' : |d| ≤ A.pi / 2) {r : TractRef (SpherePoint ℝ) ℝ}
    {p : SpherePoint ℝ} (hp : A.point x d = .ok p)
    (hf : R.findTract A (skyMapOps A R env ops mk) p s = (.ok r, s')) :
    ∃ L, R.findTractIdArray A (.array ra) (.array dec) false = .ok L ∧ L.length = ra.length ∧ L[k]? = some r.info.id := by
  obtain ⟨wf, -⟩ := new_wf_rounding hA h h1 h2
  obtain ⟨L, g1, g2, g3⟩ := C30_array hA h h1 h2 ra dec hl
  obtain ⟨p', i, g4, g5, g6, -⟩ := g3 k x d hx hd hx'.1 hx'.2 hd'
  rw [hp, Except.ok.injEq] at g4
  subst g4
  unfold findTract at hf
  rw [PyS.bind_ok (s' := s) (a := i) (by rw [g5]; rfl)] at hf
  exact ⟨L, g1, g2, by rw [g6, (item wf hs hf).2]⟩

end Rings
end Skymap
