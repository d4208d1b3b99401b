import Verif.Spec.SkyMap
import Verif.Lemmas.Tract

/-! # Lemmas about sky maps as state machines -/

set_option linter.unusedSectionVars false

namespace Skymap

namespace PyS
variable {σ α β : Type}

theorem pure_apply (a : α) (s : σ) : (pure a : PyS σ α) s = (.ok a, s) := rfl
theorem bind_apply (m : PyS σ α) (f : α → PyS σ β) (s : σ) : (m >>= f) s =
    match m s with
    | (.ok a, s') => f a s'
    | (.error e, s') => (.error e, s') := rfl

theorem bind_ok {m : PyS σ α} {f : α → PyS σ β} {s s' : σ} {a : α} (h : m s = (.ok a, s')) :
    (m >>= f) s = f a s' := by rw [bind_apply, h]
theorem bind_err {m : PyS σ α} {f : α → PyS σ β} {s s' : σ} {e : PyErr} (h : m s = (.error e, s')) :
    (m >>= f) s = (.error e, s') := by rw [bind_apply, h]

/-- Inversion of a successful sequence. -/
theorem bind_inv {m : PyS σ α} {f : α → PyS σ β} {s s'' : σ} {b : β} (h : (m >>= f) s = (.ok b, s'')) :
    ∃ a s', m s = (.ok a, s') ∧ f a s' = (.ok b, s'') := by
  rw [bind_apply] at h
  rcases hm : m s with ⟨r, s'⟩
  cases r with
  | error e => rw [hm] at h; simp at h
  | ok a => rw [hm] at h; exact ⟨a, s', rfl, h⟩

theorem mapM_cons (f : α → PyS σ β) (a : α) (l : List α) : mapM f (a :: l) =
    (f a >>= fun b => mapM f l >>= fun bs => pure (b :: bs)) := rfl
theorem foldM_cons (f : β → α → PyS σ β) (a : α) (l : List α) (b : β) : foldM f (a :: l) b =
    (f b a >>= fun b' => foldM f l b') := rfl

end PyS

namespace SkyMapOps
variable {Sky K σ α β : Type} {M : SkyMapOps σ Sky K}

theorem After.refl (s : σ) : M.After s s := ⟨[], rfl⟩
theorem After.trans {s s' s'' : σ} (h : M.After s s') (h' : M.After s' s'') : M.After s s'' := by
  obtain ⟨l, rfl⟩ := h
  obtain ⟨l', rfl⟩ := h'
  exact ⟨l ++ l', by rw [List.foldl_append]⟩
theorem After.step (i : Int) (s : σ) : M.After s (M.getItem i s).2 := ⟨[i], rfl⟩
theorem After.step' {i : Int} {s s' : σ} {x : PyM (TractRef Sky K)} (h : M.getItem i s = (x, s')) : M.After s s' := by
  have := After.step (M := M) i s
  rw [h] at this
  exact this

/-- Induction over histories. -/
theorem After.ind {P : σ → Prop} {s s' : σ} (h : M.After s s') (h0 : P s)
    (hs : ∀ s i, P s → P (M.getItem i s).2) : P s' := by
  obtain ⟨l, rfl⟩ := h
  induction l generalizing s with
  | nil => exact h0
  | cons i l ih => exact ih (hs s i h0)

theorem OnlyAccesses.pure (a : α) : M.OnlyAccesses (Pure.pure a) := fun s => After.refl s
theorem OnlyAccesses.lift (x : PyM α) : M.OnlyAccesses (PyS.lift x) := fun s => After.refl s
theorem OnlyAccesses.get : M.OnlyAccesses PyS.get := fun s => After.refl s
theorem OnlyAccesses.getItem (i : Int) : M.OnlyAccesses (M.getItem i) := fun s => After.step i s
theorem OnlyAccesses.bind {m : PyS σ α} {f : α → PyS σ β} (h : M.OnlyAccesses m)
    (hf : ∀ a, M.OnlyAccesses (f a)) : M.OnlyAccesses (m >>= f) := by
  intro s
  rw [PyS.bind_apply]
  have h1 := h s
  rcases hm : m s with ⟨r, s'⟩
  rw [hm] at h1
  cases r with
  | error e => exact h1
  | ok a => exact h1.trans (hf a s')
theorem OnlyAccesses.mapM {f : α → PyS σ β} (hf : ∀ a, M.OnlyAccesses (f a)) (l : List α) :
    M.OnlyAccesses (PyS.mapM f l) := by
  induction l with
  | nil => exact OnlyAccesses.pure _
  | cons a l ih =>
    rw [PyS.mapM_cons]
    exact (hf a).bind fun b => ih.bind fun bs => OnlyAccesses.pure _
theorem OnlyAccesses.foldM {f : β → α → PyS σ β} (hf : ∀ b a, M.OnlyAccesses (f b a)) (l : List α) (b : β) :
    M.OnlyAccesses (PyS.foldM f l b) := by
  induction l generalizing b with
  | nil => exact OnlyAccesses.pure _
  | cons a l ih =>
    rw [PyS.foldM_cons]
    exact (hf b a).bind fun b => ih b

end SkyMapOps

section
variable {Sky K : Type} [Field K] [LinearOrder K] [FloorRing K]

/-- Constructing a tract overwrites the builder's state and does not look at the old one. -/
theorem TractInfo.new_state (env : FloatEnv K) (ops : SkyOps Sky K) (b : TractBuilder) (st : Option BuilderState)
    (a : TractArgs Sky K) : TractInfo.new env ops { b with state := st } a = TractInfo.new env ops b a := rfl

namespace CachingSkyMap

/-- The tract that a newly built sky map generates for an index. -/
def fresh (m : CachingDef Sky K) (b₀ : TractBuilder) (i : Int) : PyM (TractInfo Sky K × TractBuilder) :=
  match m.tractArgs i with
  | .error e => .error e
  | .ok a => TractInfo.new m.env m.ops b₀ a

/-- Invariant of every reachable state. -/
structure Inv (m : CachingDef Sky K) (b₀ : TractBuilder) (s : MapState Sky K) : Prop where
  len : s.cache.length = m.numTracts
  bld : ∃ st, s.builder = { b₀ with state := st }
  info : ∀ (i : Nat) r, s.cache[i]? = some (some r) → r.oid < s.nextOid ∧ ∃ b', fresh m b₀ i = .ok (r.info, b')
  inj : ∀ (i j : Nat) r r', s.cache[i]? = some (some r) → s.cache[j]? = some (some r') → r.oid = r'.oid → i = j
  count : s.nextOid = s.cache.countP Option.isSome

theorem Inv.init (m : CachingDef Sky K) (b₀ : TractBuilder) : Inv m b₀ (init m b₀) where
  len := by simp [CachingSkyMap.init]
  bld := ⟨b₀.state, rfl⟩
  info := by
    intro i r h
    simp [CachingSkyMap.init, List.getElem?_replicate] at h
  inj := by
    intro i j r r' h
    simp [CachingSkyMap.init, List.getElem?_replicate] at h
  count := by simp [CachingSkyMap.init, List.countP_replicate]

/-- State after generating tract `i`. -/
def stored (s : MapState Sky K) (i : Nat) (t : TractInfo Sky K) (b : TractBuilder) : MapState Sky K :=
  ⟨b, s.cache.set i (some ⟨s.nextOid, t⟩), s.nextOid + 1⟩

variable {m : CachingDef Sky K} {b₀ : TractBuilder} {s : MapState Sky K}

theorem getItem_out (h : Inv m b₀ s) {i : Int} (hi : ¬ (0 ≤ i ∧ i < m.numTracts)) :
    getItem m i s = (.error .IndexError, s) := by
  unfold getItem
  by_cases h1 : i < 0 ∨ i > (m.numTracts : Int)
  · rw [if_pos h1]
  · rw [if_neg h1]
    have : i = m.numTracts := by omega
    have hg : pyGetItem s.cache i = .error .IndexError := by
      unfold pyGetItem
      have h2 : ¬ i < 0 := by omega
      simp only [h2, if_false]
      rw [List.getElem?_eq_none (by rw [h.len]; omega)]
    rw [hg]

theorem pyGetItem_nat {α : Type} {l : List α} {i : Nat} {a : α} (h : l[i]? = some a) :
    pyGetItem l (i : Int) = .ok a := by
  unfold pyGetItem
  have h2 : ¬ ((i : Int) < 0) := by omega
  simp [h2, h]

theorem getItem_cached (h : Inv m b₀ s) {i : Nat} {r : TractRef Sky K} (hr : s.cache[i]? = some (some r)) :
    getItem m i s = (.ok r, s) := by
  have hi : i < m.numTracts := by
    rw [← h.len]
    by_contra hc
    rw [List.getElem?_eq_none (by omega)] at hr
    simp at hr
  unfold getItem
  rw [if_neg (by omega), pyGetItem_nat hr]

theorem getItem_gen (h : Inv m b₀ s) {i : Nat} (hr : s.cache[i]? = some none) :
    getItem m i s = match fresh m b₀ i with
      | .error e => (.error e, s)
      | .ok (t, b) => (.ok ⟨s.nextOid, t⟩, stored s i t b) := by
  have hi : i < m.numTracts := by
    rw [← h.len]
    by_contra hc
    rw [List.getElem?_eq_none (by omega)] at hr
    simp at hr
  obtain ⟨st, hst⟩ := h.bld
  unfold getItem
  rw [if_neg (by omega), pyGetItem_nat hr]
  dsimp only
  unfold generateTract fresh
  cases m.tractArgs i with
  | error e => rfl
  | ok a =>
    dsimp only
    rw [hst, TractInfo.new_state]
    cases TractInfo.new m.env m.ops b₀ a with
    | error e => rfl
    | ok p => rfl

theorem cache_cases (h : Inv m b₀ s) {i : Nat} (hi : i < m.numTracts) :
    s.cache[i]? = some none ∨ ∃ r, s.cache[i]? = some (some r) := by
  have : i < s.cache.length := by rw [h.len]; exact hi
  rw [List.getElem?_eq_getElem this]
  cases s.cache[i] with
  | none => exact Or.inl rfl
  | some r => exact Or.inr ⟨r, rfl⟩

theorem new_builder {env : FloatEnv K} {ops : SkyOps Sky K} {b₀ b : TractBuilder} {a : TractArgs Sky K}
    {t : TractInfo Sky K} (h : TractInfo.new env ops b₀ a = .ok (t, b)) :
    ∃ st, b = { b₀ with state := st } := by
  obtain ⟨mb, bbox, n, -, h2, -⟩ := TractInfo.new_inv h
  unfold TractBuilder.setupPatches at h2
  simp only [bind, Except.bind] at h2
  split at h2
  · simp at h2
  · split at h2
    · simp at h2
    · simp only [pure, Except.pure, Except.ok.injEq, Prod.mk.injEq] at h2
      exact ⟨_, h2.2.2.symm⟩

theorem fresh_builder {i : Int} {t : TractInfo Sky K} {b : TractBuilder} (h : fresh m b₀ i = .ok (t, b)) :
    ∃ st, b = { b₀ with state := st } := by
  unfold fresh at h
  split at h
  · simp at h
  · exact new_builder h

theorem stored_cache_ne (s : MapState Sky K) {i j : Nat} (t : TractInfo Sky K) (b : TractBuilder) (h : i ≠ j) :
    (stored s i t b).cache[j]? = s.cache[j]? := by
  simp only [stored, List.getElem?_set]
  rw [if_neg h]

theorem stored_cache_self (s : MapState Sky K) {i : Nat} (t : TractInfo Sky K) (b : TractBuilder)
    (h : i < s.cache.length) : (stored s i t b).cache[i]? = some (some ⟨s.nextOid, t⟩) := by
  simp [stored, h]

theorem countP_set_none {α : Type} (l : List (Option α)) (i : Nat) (a : α) (h : l[i]? = some none) :
    (l.set i (some a)).countP Option.isSome = l.countP Option.isSome + 1 := by
  induction l generalizing i with
  | nil => simp at h
  | cons x l ih =>
    cases i with
    | zero =>
      simp only [List.getElem?_cons_zero, Option.some.injEq] at h
      subst h
      simp
    | succ i =>
      rw [List.getElem?_cons_succ] at h
      rw [List.set_cons_succ, List.countP_cons, List.countP_cons, ih i h]
      omega

theorem Inv.stored (h : Inv m b₀ s) {i : Nat} (hr : s.cache[i]? = some none) {t : TractInfo Sky K}
    {b : TractBuilder} (hf : fresh m b₀ i = .ok (t, b)) : Inv m b₀ (stored s i t b) where
  len := by simp [CachingSkyMap.stored, h.len]
  bld := fresh_builder hf
  info := by
    intro j r hj
    by_cases hij : i = j
    · subst hij
      have hl : i < s.cache.length := by
        by_contra hc
        rw [List.getElem?_eq_none (by omega)] at hr
        simp at hr
      rw [stored_cache_self s t b hl] at hj
      simp only [Option.some.injEq] at hj
      subst hj
      exact ⟨Nat.lt_succ_self _, b, hf⟩
    · rw [stored_cache_ne s t b hij] at hj
      obtain ⟨h1, h2⟩ := h.info j r hj
      exact ⟨Nat.lt_succ_of_lt h1, h2⟩
  inj := by
    have hl : i < s.cache.length := by
      by_contra hc
      rw [List.getElem?_eq_none (by omega)] at hr
      simp at hr
    intro j k r r' hj hk he
    by_cases hij : i = j <;> by_cases hik : i = k
    · omega
    · subst hij
      rw [stored_cache_self s t b hl] at hj
      rw [stored_cache_ne s t b hik] at hk
      simp only [Option.some.injEq] at hj
      subst hj
      have := (h.info k r' hk).1
      dsimp only at he
      omega
    · subst hik
      rw [stored_cache_self s t b hl] at hk
      rw [stored_cache_ne s t b hij] at hj
      simp only [Option.some.injEq] at hk
      subst hk
      have := (h.info j r hj).1
      dsimp only at he
      omega
    · rw [stored_cache_ne s t b hij] at hj
      rw [stored_cache_ne s t b hik] at hk
      exact h.inj j k r r' hj hk he
  count := by
    simp only [CachingSkyMap.stored]
    rw [countP_set_none _ _ _ hr, h.count]

/-- What one access does. -/
theorem getItem_spec (h : Inv m b₀ s) (i : Int) :
    (¬ (0 ≤ i ∧ i < m.numTracts) ∧ getItem m i s = (.error .IndexError, s)) ∨
    (∃ k : Nat, i = k ∧ k < m.numTracts ∧
      ((∃ r, s.cache[k]? = some (some r) ∧ getItem m i s = (.ok r, s)) ∨
       (s.cache[k]? = some none ∧ ∃ e, fresh m b₀ k = .error e ∧ getItem m i s = (.error e, s)) ∨
       (s.cache[k]? = some none ∧ ∃ t b, fresh m b₀ k = .ok (t, b) ∧
          getItem m i s = (.ok ⟨s.nextOid, t⟩, stored s k t b)))) := by
  by_cases hi : 0 ≤ i ∧ i < m.numTracts
  · right
    obtain ⟨k, rfl⟩ := Int.eq_ofNat_of_zero_le hi.1
    have hk : k < m.numTracts := by omega
    refine ⟨k, rfl, hk, ?_⟩
    rcases cache_cases h hk with hc | ⟨r, hc⟩
    · right
      have hg := getItem_gen h hc
      cases hf : fresh m b₀ k with
      | error e =>
        left
        rw [hf] at hg
        exact ⟨hc, e, rfl, hg⟩
      | ok p =>
        right
        rw [hf] at hg
        exact ⟨hc, p.1, p.2, rfl, hg⟩
    · exact Or.inl ⟨r, hc, getItem_cached h hc⟩
  · exact Or.inl ⟨hi, getItem_out h hi⟩

theorem Inv.getItem (h : Inv m b₀ s) (i : Int) : Inv m b₀ (getItem m i s).2 := by
  rcases getItem_spec h i with ⟨-, e⟩ | ⟨k, rfl, -, ⟨r, -, e⟩ | ⟨-, er, -, e⟩ | ⟨hc, t, b, hf, e⟩⟩
  · rw [e]; exact h
  · rw [e]; exact h
  · rw [e]; exact h
  · rw [e]; exact h.stored hc hf

theorem Inv.after {s' : MapState Sky K} (h : Inv m b₀ s) (ha : (skyMapOps m).After s s') : Inv m b₀ s' :=
  ha.ind h fun _ i hs => hs.getItem i

/-- Cached tracts stay. -/
theorem cache_stable {s' : MapState Sky K} (h : Inv m b₀ s) (ha : (skyMapOps m).After s s') {i : Nat}
    {r : TractRef Sky K} (hr : s.cache[i]? = some (some r)) : s'.cache[i]? = some (some r) := by
  have : Inv m b₀ s' ∧ s'.cache[i]? = some (some r) := by
    refine ha.ind (P := fun s' => Inv m b₀ s' ∧ s'.cache[i]? = some (some r)) ⟨h, hr⟩ ?_
    rintro s1 j ⟨hi, hc⟩
    refine ⟨hi.getItem j, ?_⟩
    change (CachingSkyMap.getItem m j s1).2.cache[i]? = _
    rcases getItem_spec hi j with ⟨-, e⟩ | ⟨k, rfl, -, ⟨r', -, e⟩ | ⟨-, er, -, e⟩ | ⟨hc', t, b, hf, e⟩⟩
    · rw [e]; exact hc
    · rw [e]; exact hc
    · rw [e]; exact hc
    · rw [e]
      by_cases hk : k = i
      · subst hk; rw [hc] at hc'; simp at hc'
      · rw [stored_cache_ne s1 t b hk]; exact hc
  exact this.2

/-- A successful access leaves its tract in the cache. -/
theorem cached_after_ok (h : Inv m b₀ s) {i : Int} {r : TractRef Sky K} {s' : MapState Sky K}
    (hg : CachingSkyMap.getItem m i s = (.ok r, s')) :
    ∃ k : Nat, i = k ∧ k < m.numTracts ∧ s'.cache[k]? = some (some r) := by
  rcases getItem_spec h i with ⟨-, e⟩ | ⟨k, rfl, hk, ⟨r', hr, e⟩ | ⟨-, er, -, e⟩ | ⟨hc', t, b, hf, e⟩⟩
  · rw [e] at hg; simp at hg
  · rw [e] at hg
    simp only [Prod.mk.injEq, Except.ok.injEq] at hg
    obtain ⟨rfl, rfl⟩ := hg
    exact ⟨k, rfl, hk, hr⟩
  · rw [e] at hg; simp at hg
  · rw [e] at hg
    simp only [Prod.mk.injEq, Except.ok.injEq] at hg
    obtain ⟨rfl, rfl⟩ := hg
    exact ⟨k, rfl, hk, stored_cache_self s t b (by rw [h.len]; exact hk)⟩

theorem skyMapOps_getItem (m : CachingDef Sky K) : (skyMapOps m).getItem = CachingSkyMap.getItem m := rfl

/-- The builder after any history is the initial one or that of some generated tract. -/
theorem builder_after {s' : MapState Sky K} (h : Inv m b₀ s) (ha : (skyMapOps m).After s s') :
    s'.builder = s.builder ∨ ∃ (k : Nat) (t : TractInfo Sky K), k < m.numTracts ∧ fresh m b₀ k = .ok (t, s'.builder) := by
  have : Inv m b₀ s' ∧ (s'.builder = s.builder ∨
      ∃ (k : Nat) (t : TractInfo Sky K), k < m.numTracts ∧ fresh m b₀ k = .ok (t, s'.builder)) := by
    refine ha.ind (P := fun s' => Inv m b₀ s' ∧ (s'.builder = s.builder ∨
      ∃ (k : Nat) (t : TractInfo Sky K), k < m.numTracts ∧ fresh m b₀ k = .ok (t, s'.builder))) ⟨h, Or.inl rfl⟩ ?_
    rintro s1 j ⟨hi, hc⟩
    refine ⟨hi.getItem j, ?_⟩
    rw [skyMapOps_getItem]
    rcases getItem_spec hi j with ⟨-, e⟩ | ⟨k, rfl, hk, ⟨r', -, e⟩ | ⟨-, er, -, e⟩ | ⟨hc', t, b, hf, e⟩⟩
    · rw [e]; exact hc
    · rw [e]; exact hc
    · rw [e]; exact hc
    · rw [e]
      exact Or.inr ⟨k, t, hk, hf⟩
  exact this.2

/-- After a history, either nothing was generated or the builder is that of a generated tract. -/
theorem builder_reachable (h : (skyMapOps m).After (CachingSkyMap.init m b₀) s) :
    (s.nextOid = 0 ∧ s.builder = b₀) ∨
      ∃ (k : Nat) (t : TractInfo Sky K), k < m.numTracts ∧ fresh m b₀ k = .ok (t, s.builder) := by
  have : Inv m b₀ s ∧ ((s.nextOid = 0 ∧ s.builder = b₀) ∨
      ∃ (k : Nat) (t : TractInfo Sky K), k < m.numTracts ∧ fresh m b₀ k = .ok (t, s.builder)) := by
    refine h.ind (P := fun s => Inv m b₀ s ∧ ((s.nextOid = 0 ∧ s.builder = b₀) ∨
      ∃ (k : Nat) (t : TractInfo Sky K), k < m.numTracts ∧ fresh m b₀ k = .ok (t, s.builder)))
      ⟨Inv.init m b₀, Or.inl ⟨rfl, rfl⟩⟩ ?_
    rintro s1 j ⟨hi, hc⟩
    refine ⟨hi.getItem j, ?_⟩
    rw [skyMapOps_getItem]
    rcases getItem_spec hi j with ⟨-, e⟩ | ⟨k, rfl, hk, ⟨r', -, e⟩ | ⟨-, er, -, e⟩ | ⟨hc', t, b, hf, e⟩⟩
    · rw [e]; exact hc
    · rw [e]; exact hc
    · rw [e]; exact hc
    · rw [e]
      exact Or.inr ⟨k, t, hk, hf⟩
  exact this.2

end CachingSkyMap
end
end Skymap
