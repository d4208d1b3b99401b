import Verif.Model.DictKey
import Verif.Props.Sha1

/-! # C90: sky maps as keys of a dictionary -/

set_option linter.unusedSimpArgs false

namespace Skymap
namespace DictWorld
variable {V : Type} {H : Bytes → Bytes} {hash : Bytes → Int} {eqOther : Nat → Nat → Bool}

/-! ## Specification -/

/-- The SHA-1 of the sky map number `i`, by its class and configuration as constructed. -/
def sha (H : Bytes → Bytes) (m₀ : Nat → HashedMap) (i : Nat) : PyM Bytes := (sha1Message (m₀ i).cls (m₀ i).config).map H

/-- The dict as a map from SHA-1 values to values, after an operation. -/
def Op.spec (H : Bytes → Bytes) (m₀ : Nat → HashedMap) (d : Bytes → Option V) : Op V → Bytes → Option V
  | .set (.map i) v => match sha H m₀ i with
    | .ok b => Function.update d b (some v)
    | .error _ => d
  | .del (.map i) => match sha H m₀ i with
    | .ok b => Function.update d b none
    | .error _ => d
  | _ => d

/-- An operation on a key that is not a sky map. -/
def Op.onOther : Op V → Bool
  | .set (.other _ _) _ => true
  | .del (.other _ _) => true
  | _ => false

/-! ## Lemmas -/

/-- The sky maps are those constructed, up to the cached SHA-1. -/
def MapsOk (H : Bytes → Bytes) (m₀ s : Nat → HashedMap) : Prop :=
  ∀ i, (s i).cls = (m₀ i).cls ∧ (s i).config = (m₀ i).config ∧ (s i).CacheOk H

variable {m₀ s : Nat → HashedMap}

theorem onMap_sha1 (hs : MapsOk H m₀ s) (i : Nat) :
    ∃ s', onMap i (HashedMap.getSha1 H) s = (sha H m₀ i, s') ∧ MapsOk H m₀ s' := by
  obtain ⟨h1, h2, h3⟩ := hs i
  obtain ⟨e1, e2, e3⟩ := getSha1_val h3
  unfold onMap
  rcases hg : HashedMap.getSha1 H (s i) with ⟨x, m⟩
  rw [hg] at e1 e2 e3
  dsimp only at e1 e2 e3 ⊢
  refine ⟨_, Prod.ext (by rw [e1, h1, h2]; rfl) rfl, fun j => ?_⟩
  by_cases hj : j = i
  · subst hj
    rw [Function.update_self]
    exact ⟨by rw [e3]; exact h1, by rw [e3]; exact h2, e2⟩
  · rw [Function.update_of_ne hj]; exact hs j

theorem keyHash_ok (hs : MapsOk H m₀ s) (k : PyKey) :
    ∃ s', keyHash H hash k s = ((match k with | .map i => (sha H m₀ i).map hash | .other _ h => .ok h), s') ∧ MapsOk H m₀ s' := by
  cases k with
  | other n h => exact ⟨s, rfl, hs⟩
  | map i =>
    obtain ⟨s', h1, h2⟩ := onMap_sha1 hs i
    refine ⟨s', ?_, h2⟩
    unfold keyHash HashedMap.pyHash
    unfold onMap at h1 ⊢
    dsimp only at h1 ⊢
    rcases hg : HashedMap.getSha1 H (s i) with ⟨x, m⟩
    rw [hg] at h1
    obtain ⟨e1, e2⟩ := Prod.mk.inj h1
    rw [← e1, ← e2]
    cases x <;> rfl

/-- The value of `a == b`. -/
def eqVal (H : Bytes → Bytes) (eqOther : Nat → Nat → Bool) (m₀ : Nat → HashedMap) : PyKey → PyKey → PyM Bool
  | .map i, .map j => do
    let a ← sha H m₀ i
    let b ← sha H m₀ j
    return a == b
  | .map i, .other _ _ => (sha H m₀ i).map fun _ => false
  | .other _ _, .map j => (sha H m₀ j).map fun _ => false
  | .other i _, .other j _ => .ok (eqOther i j)

theorem keyEq_ok (hs : MapsOk H m₀ s) (a b : PyKey) :
    ∃ s', keyEq H eqOther a b s = (eqVal H eqOther m₀ a b, s') ∧ MapsOk H m₀ s' := by
  cases a with
  | map i =>
    obtain ⟨s1, h1, h2⟩ := onMap_sha1 hs i
    cases b with
    | map j =>
      obtain ⟨s2, h3, h4⟩ := onMap_sha1 h2 j
      cases hi : sha H m₀ i with
      | error e => exact ⟨s1, by simp only [keyEq, eqVal, bind, PyS.bind, Except.bind, h1, hi], h2⟩
      | ok x =>
        refine ⟨s2, ?_, h4⟩
        simp only [keyEq, eqVal, bind, PyS.bind, Except.bind, h1, hi, h3]
        cases sha H m₀ j <;> rfl
    | other n h =>
      refine ⟨s1, ?_, h2⟩
      simp only [keyEq, eqVal, bind, PyS.bind, h1]
      cases sha H m₀ i <;> rfl
  | other n h =>
    cases b with
    | map j =>
      obtain ⟨s1, h1, h2⟩ := onMap_sha1 hs j
      refine ⟨s1, ?_, h2⟩
      simp only [keyEq, eqVal, bind, PyS.bind, h1]
      cases sha H m₀ j <;> rfl
    | other n' h' => exact ⟨s, rfl, hs⟩

/-- Whether a stored key is a sky map with this SHA-1. -/
def IsSha (H : Bytes → Bytes) (m₀ : Nat → HashedMap) (b : Bytes) : PyKey → Bool
  | .map j => match sha H m₀ j with
    | .ok a => a == b
    | .error _ => false
  | .other _ _ => false

/-- Which entry a key finds. -/
def Hit (H : Bytes → Bytes) (eqOther : Nat → Nat → Bool) (m₀ : Nat → HashedMap) (k : PyKey) (e : DictEntry V) : Bool :=
  match k with
  | .map i => match sha H m₀ i with
    | .ok b => IsSha H m₀ b e.key
    | .error _ => false
  | .other n h => match e.key with
    | .map _ => false
    | .other n' h' => decide (n' = n ∧ h' = h) || (decide (e.hash = h) && eqOther n' n)

/-- The stored hash is that of the key. -/
def EntryOk (H : Bytes → Bytes) (hash : Bytes → Int) (m₀ : Nat → HashedMap) (e : DictEntry V) : Prop :=
  match e.key with
  | .map i => ∃ b, sha H m₀ i = .ok b ∧ e.hash = hash b
  | .other _ h => e.hash = h

/-- The hash of a key. -/
def hashOf (H : Bytes → Bytes) (hash : Bytes → Int) (m₀ : Nat → HashedMap) : PyKey → PyM Int
  | .map i => (sha H m₀ i).map hash
  | .other _ h => .ok h

theorem sameKey_ok {k : PyKey} {h : Int} (hk : hashOf H hash m₀ k = .ok h) {e : DictEntry V} (he : EntryOk H hash m₀ e)
    (hs : MapsOk H m₀ s) :
    ∃ s', sameKey H eqOther k h e s = (.ok (Hit H eqOther m₀ k e), s') ∧ MapsOk H m₀ s' := by
  unfold sameKey
  by_cases h1 : e.key = k
  · rw [if_pos h1]
    refine ⟨s, Prod.ext ?_ rfl, hs⟩
    change Except.ok true = _
    congr 1
    unfold Hit
    cases k with
    | map i =>
      cases hi : sha H m₀ i with
      | error e => rw [hashOf, hi] at hk; simp [Except.map] at hk
      | ok b => simp [IsSha, h1, hi]
    | other n h' => rw [h1]; simp
  · rw [if_neg h1]
    obtain ⟨s', h3, h4⟩ := keyEq_ok (eqOther := eqOther) hs e.key k
    unfold EntryOk at he
    cases k with
    | map i =>
      cases hi : sha H m₀ i with
      | error e => rw [hashOf, hi] at hk; simp [Except.map] at hk
      | ok b =>
        rw [hashOf, hi] at hk
        obtain rfl : hash b = h := Except.ok.inj hk
        cases hkey : e.key with
        | map j =>
          rw [hkey] at he h3
          obtain ⟨a, ha, hh⟩ := he
          by_cases h2 : e.hash = hash b
          · rw [if_pos h2]
            refine ⟨s', ?_, h4⟩
            rw [h3]
            simp [eqVal, Hit, IsSha, ha, hi, hkey, bind, Except.bind, pure, Except.pure]
          · rw [if_neg h2]
            refine ⟨s, ?_, hs⟩
            have : a ≠ b := by rintro rfl; exact h2 hh
            simp [Hit, IsSha, ha, hi, hkey, this, pure, PyS.pure]
        | other n h' =>
          rw [hkey] at h3
          by_cases h2 : e.hash = hash b
          · rw [if_pos h2]
            refine ⟨s', ?_, h4⟩
            rw [h3]
            simp [eqVal, Hit, IsSha, hi, hkey, Except.map]
          · rw [if_neg h2]
            exact ⟨s, by simp [Hit, IsSha, hi, hkey, pure, PyS.pure], hs⟩
    | other n h' =>
      obtain rfl : h' = h := Except.ok.inj hk
      cases hkey : e.key with
      | map j =>
        rw [hkey] at he h3
        obtain ⟨a, ha, hh⟩ := he
        by_cases h2 : e.hash = h'
        · rw [if_pos h2]
          refine ⟨s', ?_, h4⟩
          rw [h3]
          simp [eqVal, Hit, ha, hkey, Except.map]
        · rw [if_neg h2]
          exact ⟨s, by simp [Hit, hkey, pure, PyS.pure], hs⟩
      | other n' h'' =>
        rw [hkey] at h3 h1
        have h1' : ¬ (n' = n ∧ h'' = h') := by rintro ⟨rfl, rfl⟩; exact h1 rfl
        by_cases h2 : e.hash = h'
        · rw [if_pos h2]
          refine ⟨s', ?_, h4⟩
          rw [h3]
          simp [eqVal, Hit, hkey, h1', h2]
        · rw [if_neg h2]
          exact ⟨s, by simp [Hit, hkey, h1', h2, pure, PyS.pure], hs⟩

theorem locate_ok {k : PyKey} {h : Int} (hk : hashOf H hash m₀ k = .ok h) {l : List (DictEntry V)} (hl : ∀ e ∈ l, EntryOk H hash m₀ e)
    (hs : MapsOk H m₀ s) :
    ∃ s', locate H eqOther k h l s = (.ok (l.findIdx? (Hit H eqOther m₀ k)), s') ∧ MapsOk H m₀ s' := by
  induction l generalizing s with
  | nil => exact ⟨s, rfl, hs⟩
  | cons e l ih =>
    obtain ⟨s1, h1, h2⟩ := sameKey_ok (eqOther := eqOther) hk (hl e (by simp)) hs
    rw [List.findIdx?_cons]
    unfold locate
    simp only [bind, PyS.bind, h1]
    cases hh : Hit H eqOther m₀ k e with
    | true => exact ⟨s1, rfl, h2⟩
    | false =>
      obtain ⟨s2, h3, h4⟩ := ih (fun x hx => hl x (by simp [hx])) h2
      refine ⟨s2, ?_, h4⟩
      simp only [Bool.false_eq_true, if_false, PyS.bind, h3]
      rfl

theorem find_ok (k : PyKey) {l : List (DictEntry V)} (hl : ∀ e ∈ l, EntryOk H hash m₀ e) (hs : MapsOk H m₀ s) :
    ∃ s', find H hash eqOther k l s = ((hashOf H hash m₀ k).map fun h => (h, l.findIdx? (Hit H eqOther m₀ k)), s') ∧ MapsOk H m₀ s' := by
  obtain ⟨s1, h1, h2⟩ := keyHash_ok (hash := hash) hs k
  have h1' : keyHash H hash k s = (hashOf H hash m₀ k, s1) := by rw [h1]; cases k <;> rfl
  cases hh : hashOf H hash m₀ k with
  | error e =>
    refine ⟨s1, ?_, h2⟩
    simp only [find, bind, PyS.bind, h1', hh]
    rfl
  | ok h =>
    obtain ⟨s2, h3, h4⟩ := locate_ok (eqOther := eqOther) hh hl h2
    refine ⟨s2, ?_, h4⟩
    simp only [find, bind, PyS.bind, h1', hh, h3]
    rfl

/-- `d[k] = v` on the entries. -/
def put (p : DictEntry V → Bool) (new : DictEntry V) : List (DictEntry V) → List (DictEntry V)
  | [] => [new]
  | e :: l => if p e then { e with value := new.value } :: l else e :: put p new l

theorem findIdx_isSome (p : DictEntry V → Bool) (l : List (DictEntry V)) : (l.findIdx? p).isSome = (l.find? p).isSome := by
  induction l with
  | nil => rfl
  | cons e l ih =>
    rw [List.findIdx?_cons, List.find?_cons]
    cases p e <;> simp [ih]

theorem put_eq (p : DictEntry V → Bool) (new : DictEntry V) (l : List (DictEntry V)) :
    (match l.findIdx? p with
      | some n => l.modify n fun e => { e with value := new.value }
      | none => l ++ [new]) = put p new l := by
  induction l with
  | nil => rfl
  | cons e l ih =>
    rw [List.findIdx?_cons, put]
    by_cases h : p e
    · simp [h]
    · rw [if_neg h, if_neg h, ← ih]
      cases hf : l.findIdx? p <;> simp

theorem erase_eq (p : DictEntry V → Bool) {l : List (DictEntry V)} {n : Nat} (h : l.findIdx? p = some n) : l.eraseIdx n = l.eraseP p := by
  induction l generalizing n with
  | nil => simp at h
  | cons e l ih =>
    rw [List.findIdx?_cons] at h
    by_cases hp : p e
    · rw [if_pos hp, Option.some.injEq] at h
      subst h
      simp [hp]
    · rw [if_neg hp, Option.map_eq_some_iff] at h
      obtain ⟨m, h1, rfl⟩ := h
      rw [List.eraseIdx_cons_succ, List.eraseP_cons_of_neg hp, ih h1]

/-- No two sky maps in the dict have the same SHA-1. -/
def Distinct (H : Bytes → Bytes) (m₀ : Nat → HashedMap) (l : List (DictEntry V)) : Prop :=
  l.Pairwise fun e e' => ∀ b, IsSha H m₀ b e.key = true → IsSha H m₀ b e'.key = false

/-- The state of a dict of constructed sky maps. -/
structure Inv (H : Bytes → Bytes) (hash : Bytes → Int) (m₀ : Nat → HashedMap) (w : DictWorld V) : Prop where
  maps : MapsOk H m₀ w.maps
  entries : ∀ e ∈ w.dict, EntryOk H hash m₀ e
  distinct : Distinct H m₀ w.dict

theorem isSha_unique {b b' : Bytes} {k : PyKey} (h : IsSha H m₀ b k = true) (h' : IsSha H m₀ b' k = true) : b = b' := by
  unfold IsSha at h h'
  cases k with
  | other => simp at h
  | map i => cases hi : sha H m₀ i <;> simp_all

theorem hit_map {i : Nat} {b : Bytes} (h : sha H m₀ i = .ok b) : (Hit H eqOther m₀ (.map i) : DictEntry V → Bool) = fun e => IsSha H m₀ b e.key := by
  funext e
  simp [Hit, h]

/-- The entries after an operation. -/
def entriesAfter (H : Bytes → Bytes) (hash : Bytes → Int) (eqOther : Nat → Nat → Bool) (m₀ : Nat → HashedMap) (l : List (DictEntry V)) :
    Op V → List (DictEntry V)
  | .set k v => match hashOf H hash m₀ k with
    | .ok h => put (Hit H eqOther m₀ k) ⟨h, k, v⟩ l
    | .error _ => l
  | .del k => match hashOf H hash m₀ k with
    | .ok _ => l.eraseP (Hit H eqOther m₀ k)
    | .error _ => l
  | _ => l

theorem getItem_val {w : DictWorld V} (I : Inv H hash m₀ w) (k : PyKey) :
    (getItem H hash eqOther k w).1 = (hashOf H hash m₀ k).bind (fun _ => match w.dict.find? (Hit H eqOther m₀ k) with
      | some e => .ok e.value
      | none => .error .KeyError) ∧
    (getItem H hash eqOther k w).2.dict = w.dict ∧ MapsOk H m₀ (getItem H hash eqOther k w).2.maps := by
  obtain ⟨s', h1, h2⟩ := find_ok (eqOther := eqOther) k I.entries I.maps
  unfold getItem
  rw [h1, List.find?_eq_bind_findIdx?_getElem?]
  cases hashOf H hash m₀ k with
  | error e => exact ⟨rfl, rfl, h2⟩
  | ok h => exact ⟨rfl, rfl, h2⟩

theorem contains_val {w : DictWorld V} (I : Inv H hash m₀ w) (k : PyKey) :
    (contains H hash eqOther k w).1 = (hashOf H hash m₀ k).map (fun _ => (w.dict.find? (Hit H eqOther m₀ k)).isSome) ∧
    (contains H hash eqOther k w).2.dict = w.dict ∧ MapsOk H m₀ (contains H hash eqOther k w).2.maps := by
  obtain ⟨s', h1, h2⟩ := find_ok (eqOther := eqOther) k I.entries I.maps
  unfold contains
  rw [h1]
  cases hashOf H hash m₀ k with
  | error e => exact ⟨rfl, rfl, h2⟩
  | ok h =>
    refine ⟨?_, rfl, h2⟩
    simp only [Except.map, findIdx_isSome]

theorem setItem_val {w : DictWorld V} (I : Inv H hash m₀ w) (k : PyKey) (v : V) :
    (setItem H hash eqOther k v w).1 = (hashOf H hash m₀ k).map (fun _ => ()) ∧
    (setItem H hash eqOther k v w).2.dict = entriesAfter H hash eqOther m₀ w.dict (.set k v) ∧
    MapsOk H m₀ (setItem H hash eqOther k v w).2.maps := by
  obtain ⟨s', h1, h2⟩ := find_ok (eqOther := eqOther) k I.entries I.maps
  unfold setItem
  rw [h1]
  simp only [entriesAfter]
  cases hashOf H hash m₀ k with
  | error e => exact ⟨rfl, rfl, h2⟩
  | ok h =>
    refine ⟨rfl, ?_, h2⟩
    dsimp only [Except.map]
    rw [← put_eq]
    cases w.dict.findIdx? (Hit H eqOther m₀ k) <;> rfl

theorem delItem_val {w : DictWorld V} (I : Inv H hash m₀ w) (k : PyKey) :
    (delItem H hash eqOther k w).1 = (hashOf H hash m₀ k).bind (fun _ => if (w.dict.find? (Hit H eqOther m₀ k)).isSome then .ok ()
      else .error .KeyError) ∧
    (delItem H hash eqOther k w).2.dict = entriesAfter H hash eqOther m₀ w.dict (.del k) ∧
    MapsOk H m₀ (delItem H hash eqOther k w).2.maps := by
  obtain ⟨s', h1, h2⟩ := find_ok (eqOther := eqOther) k I.entries I.maps
  unfold delItem
  rw [h1]
  simp only [entriesAfter]
  cases hashOf H hash m₀ k with
  | error e => exact ⟨rfl, rfl, h2⟩
  | ok h =>
    dsimp only [Except.map]
    rw [← findIdx_isSome]
    cases hf : w.dict.findIdx? (Hit H eqOther m₀ k) with
    | none =>
      refine ⟨rfl, ?_, h2⟩
      rw [List.findIdx?_eq_none_iff] at hf
      exact (List.eraseP_of_forall_not fun a ha => by simp [hf a ha]).symm
    | some n => exact ⟨rfl, erase_eq _ hf, h2⟩

theorem put_entry {p : DictEntry V → Bool} {new : DictEntry V} {l : List (DictEntry V)} (hn : EntryOk H hash m₀ new)
    (hl : ∀ e ∈ l, EntryOk H hash m₀ e) : ∀ e ∈ put p new l, EntryOk H hash m₀ e := by
  induction l with
  | nil => simpa [put] using hn
  | cons a l ih =>
    rw [put]
    have ha := hl a (by simp)
    split
    · intro e he
      rcases List.mem_cons.1 he with rfl | he
      · exact ha
      · exact hl e (by simp [he])
    · intro e he
      rcases List.mem_cons.1 he with rfl | he
      · exact ha
      · exact ih (fun x hx => hl x (by simp [hx])) e he

theorem put_keys {p : DictEntry V → Bool} {new : DictEntry V} {l : List (DictEntry V)} {e : DictEntry V} (h : e ∈ put p new l) :
    (∃ e' ∈ l, e'.key = e.key) ∨ e = new ∧ ∀ e' ∈ l, p e' = false := by
  induction l with
  | nil => right; simpa [put] using h
  | cons a l ih =>
    rw [put] at h
    split at h
    · left
      rcases List.mem_cons.1 h with rfl | h
      · exact ⟨a, by simp, rfl⟩
      · exact ⟨e, by simp [h], rfl⟩
    · rename_i hp
      rcases List.mem_cons.1 h with rfl | h
      · exact .inl ⟨_, by simp, rfl⟩
      · rcases ih h with ⟨e', h1, h2⟩ | ⟨h1, h2⟩
        · exact .inl ⟨e', by simp [h1], h2⟩
        · refine .inr ⟨h1, fun e' he' => ?_⟩
          rcases List.mem_cons.1 he' with rfl | he'
          · simpa using hp
          · exact h2 e' he'

theorem put_distinct {p : DictEntry V → Bool} {new : DictEntry V} {l : List (DictEntry V)} (hl : Distinct H m₀ l)
    (hnew : ∀ e ∈ l, p e = false → ∀ b, IsSha H m₀ b e.key = true → IsSha H m₀ b new.key = false) : Distinct H m₀ (put p new l) := by
  induction l with
  | nil => simp [put, Distinct]
  | cons a l ih =>
    obtain ⟨h1, h2⟩ := List.pairwise_cons.1 hl
    rw [put]
    split
    · exact List.pairwise_cons.2 ⟨h1, h2⟩
    · rename_i hp
      refine List.pairwise_cons.2 ⟨fun e he b hb => ?_, ih h2 fun e he => hnew e (by simp [he])⟩
      rcases put_keys he with ⟨e', h3, h4⟩ | ⟨rfl, -⟩
      · rw [← h4]; exact h1 e' h3 b hb
      · exact hnew a (by simp) (by simpa using hp) b hb

theorem Inv.step {w : DictWorld V} (hf : ∀ i, (m₀ i).config.frozen = true) (I : Inv H hash m₀ w) (op : Op V) :
    Inv H hash m₀ (step H hash eqOther w op) ∧ (DictWorld.step H hash eqOther w op).dict = entriesAfter H hash eqOther m₀ w.dict op := by
  cases op with
  | contains k =>
    obtain ⟨-, h2, h3⟩ := contains_val (eqOther := eqOther) I k
    exact ⟨⟨h3, by rw [DictWorld.step, h2]; exact I.entries, by rw [DictWorld.step, h2]; exact I.distinct⟩, h2⟩
  | get k =>
    obtain ⟨-, h2, h3⟩ := getItem_val (eqOther := eqOther) I k
    exact ⟨⟨h3, by rw [DictWorld.step, h2]; exact I.entries, by rw [DictWorld.step, h2]; exact I.distinct⟩, h2⟩
  | set k v =>
    obtain ⟨-, h2, h3⟩ := setItem_val (eqOther := eqOther) I k v
    refine ⟨⟨h3, ?_, ?_⟩, h2⟩
    · rw [DictWorld.step, h2, entriesAfter]
      split
      · rename_i h hh
        refine put_entry ?_ I.entries
        unfold EntryOk
        cases k with
        | other n h' => exact (Except.ok.inj hh).symm
        | map i =>
          cases hi : sha H m₀ i with
          | error e => rw [hashOf, hi] at hh; simp [Except.map] at hh
          | ok b => rw [hashOf, hi] at hh; exact ⟨b, hi, (Except.ok.inj hh).symm⟩
      · exact I.entries
    · rw [DictWorld.step, h2, entriesAfter]
      split
      · rename_i h hh
        refine put_distinct I.distinct fun e he hp b hb => ?_
        cases k with
        | other n h' => rfl
        | map i =>
          cases hi : sha H m₀ i with
          | error e => rw [hashOf, hi] at hh; simp [Except.map] at hh
          | ok b' =>
            rw [hit_map hi] at hp
            simp only [IsSha, hi, beq_eq_false_iff_ne, ne_eq]
            rintro rfl
            exact absurd hb (by simpa using hp)
      · exact I.distinct
  | del k =>
    obtain ⟨-, h2, h3⟩ := delItem_val (eqOther := eqOther) I k
    refine ⟨⟨h3, ?_, ?_⟩, h2⟩
    · rw [DictWorld.step, h2, entriesAfter]
      split
      · exact fun e he => I.entries e (List.mem_of_mem_eraseP he)
      · exact I.entries
    · rw [DictWorld.step, h2, entriesAfter]
      split
      · exact I.distinct.sublist List.eraseP_sublist
      · exact I.distinct
  | eq a b =>
    obtain ⟨s', h1, h2⟩ := keyEq_ok (eqOther := eqOther) I.maps a b
    exact ⟨⟨by rw [DictWorld.step, h1]; exact h2, I.entries, I.distinct⟩, rfl⟩
  | sha1 i =>
    obtain ⟨s', h1, h2⟩ := onMap_sha1 I.maps i
    exact ⟨⟨by rw [DictWorld.step, h1]; exact h2, I.entries, I.distinct⟩, rfl⟩
  | assign i f =>
    refine ⟨⟨?_, I.entries, I.distinct⟩, rfl⟩
    have hfr : (w.maps i).config.frozen = true := by rw [(I.maps i).2.1]; exact hf i
    have e : SkyMapConfig.assign f (w.maps i).config = (.error .FieldValidationError, (w.maps i).config) := by
      unfold SkyMapConfig.assign
      rw [if_pos hfr]
    have : (DictWorld.step H hash eqOther w (.assign i f)).maps = w.maps := by
      simp only [DictWorld.step, onMap, e, Function.update_eq_self]
    rw [this]
    exact I.maps

/-- What the entries say about SHA-1 values. -/
def lookup (H : Bytes → Bytes) (m₀ : Nat → HashedMap) (l : List (DictEntry V)) (b : Bytes) : Option V :=
  (l.find? fun e => IsSha H m₀ b e.key).map DictEntry.value

theorem lookup_put_map {i : Nat} {b : Bytes} (hi : sha H m₀ i = .ok b) (h : Int) (v : V) (l : List (DictEntry V)) :
    lookup H m₀ (put (fun e => IsSha H m₀ b e.key) ⟨h, .map i, v⟩ l) = Function.update (lookup H m₀ l) b (some v) := by
  have hn : ∀ b', IsSha H m₀ b' (.map i) = (b == b') := by intro b'; simp [IsSha, hi]
  induction l with
  | nil =>
    funext b'
    by_cases hb : b' = b
    · subst hb; simp [lookup, put, hn]
    · rw [Function.update_of_ne hb]
      simp [lookup, put, hn, Ne.symm hb]
  | cons e l ih =>
    funext b'
    have ih' := congrFun ih b'
    rw [put]
    by_cases he : IsSha H m₀ b e.key = true
    · rw [if_pos he]
      by_cases hb : b' = b
      · subst hb; simp [lookup, List.find?_cons, he]
      · rw [Function.update_of_ne hb]
        have : IsSha H m₀ b' e.key = false := by
          cases h' : IsSha H m₀ b' e.key with
          | false => rfl
          | true => exact absurd (isSha_unique h' he) hb
        simp [lookup, List.find?_cons, this]
    · rw [if_neg he]
      have he' : IsSha H m₀ b e.key = false := by simpa using he
      by_cases hb : b' = b
      · subst hb
        rw [Function.update_self] at ih' ⊢
        simpa [lookup, List.find?_cons, he'] using ih'
      · rw [Function.update_of_ne hb] at ih' ⊢
        unfold lookup at ih' ⊢
        rw [List.find?_cons, List.find?_cons]
        split
        · rfl
        · exact ih'

theorem lookup_put_other {p : DictEntry V → Bool} (hp : ∀ e b, p e = true → IsSha H m₀ b e.key = false) {new : DictEntry V}
    (hn : ∀ b, IsSha H m₀ b new.key = false) (l : List (DictEntry V)) : lookup H m₀ (put p new l) = lookup H m₀ l := by
  funext b
  induction l with
  | nil => simp [lookup, put, hn]
  | cons e l ih =>
    rw [put]
    unfold lookup at ih ⊢
    split
    · rename_i h
      simp [List.find?_cons, hp e b h]
    · rw [List.find?_cons, List.find?_cons]
      split
      · rfl
      · exact ih

theorem lookup_erase_map {b : Bytes} {l : List (DictEntry V)} (hl : Distinct H m₀ l) :
    lookup H m₀ (l.eraseP fun e => IsSha H m₀ b e.key) = Function.update (lookup H m₀ l) b none := by
  induction l with
  | nil =>
    funext b'
    by_cases hb : b' = b
    · subst hb; simp [lookup]
    · rw [Function.update_of_ne hb]; rfl
  | cons e l ih =>
    obtain ⟨h1, h2⟩ := List.pairwise_cons.1 hl
    funext b'
    have ih' := congrFun (ih h2) b'
    by_cases he : IsSha H m₀ b e.key = true
    · rw [List.eraseP_cons_of_pos (by simpa using he)]
      by_cases hb : b' = b
      · subst hb
        rw [Function.update_self]
        unfold lookup
        rw [List.find?_eq_none.2 fun x hx => by simp [h1 x hx b' he]]
        rfl
      · rw [Function.update_of_ne hb]
        have : IsSha H m₀ b' e.key = false := by
          cases h' : IsSha H m₀ b' e.key with
          | false => rfl
          | true => exact absurd (isSha_unique h' he) hb
        simp [lookup, List.find?_cons, this]
    · rw [List.eraseP_cons_of_neg (by simpa using he)]
      have he' : IsSha H m₀ b e.key = false := by simpa using he
      by_cases hb : b' = b
      · subst hb
        rw [Function.update_self] at ih' ⊢
        simpa [lookup, List.find?_cons, he'] using ih'
      · rw [Function.update_of_ne hb] at ih' ⊢
        unfold lookup at ih' ⊢
        rw [List.find?_cons, List.find?_cons]
        split
        · rfl
        · exact ih'

theorem lookup_erase_other {p : DictEntry V → Bool} (hp : ∀ e b, p e = true → IsSha H m₀ b e.key = false) (l : List (DictEntry V)) :
    lookup H m₀ (l.eraseP p) = lookup H m₀ l := by
  funext b
  induction l with
  | nil => rfl
  | cons e l ih =>
    unfold lookup at ih ⊢
    by_cases h : p e = true
    · rw [List.eraseP_cons_of_pos h, List.find?_cons, hp e b h]
    · rw [List.eraseP_cons_of_neg h, List.find?_cons, List.find?_cons]
      split
      · rfl
      · exact ih

theorem hit_other {n : Nat} {h : Int} {e : DictEntry V} {b : Bytes} (hh : Hit H eqOther m₀ (.other n h) e = true) :
    IsSha H m₀ b e.key = false := by
  unfold Hit at hh
  cases hk : e.key with
  | map i => rw [hk] at hh; simp at hh
  | other => rfl

theorem lookup_after {w : DictWorld V} (I : Inv H hash m₀ w) (op : Op V) :
    lookup H m₀ (entriesAfter H hash eqOther m₀ w.dict op) = Op.spec H m₀ (lookup H m₀ w.dict) op := by
  cases op with
  | set k v =>
    cases k with
    | map i =>
      cases hi : sha H m₀ i with
      | error e => simp [entriesAfter, hashOf, Op.spec, hi, Except.map]
      | ok b =>
        simp only [entriesAfter, hashOf, Op.spec, hi, Except.map, hit_map hi]
        exact lookup_put_map hi _ v _
    | other n h => exact lookup_put_other (fun e b he => hit_other he) (fun b => rfl) _
  | del k =>
    cases k with
    | map i =>
      cases hi : sha H m₀ i with
      | error e => simp [entriesAfter, hashOf, Op.spec, hi, Except.map]
      | ok b =>
        simp only [entriesAfter, hashOf, Op.spec, hi, Except.map, hit_map hi]
        exact lookup_erase_map I.distinct
    | other n h => exact lookup_erase_other (fun e b he => hit_other he) _
  | _ => rfl

theorem inv_run {w : DictWorld V} (hf : ∀ i, (m₀ i).config.frozen = true) (I : Inv H hash m₀ w) (ops : List (Op V)) :
    Inv H hash m₀ (run H hash eqOther w ops) ∧
      lookup H m₀ (run H hash eqOther w ops).dict = ops.foldl (Op.spec H m₀) (lookup H m₀ w.dict) := by
  induction ops generalizing w with
  | nil => exact ⟨I, rfl⟩
  | cons op ops ih =>
    obtain ⟨h1, h2⟩ := I.step (eqOther := eqOther) hf op
    obtain ⟨h3, h4⟩ := ih h1
    refine ⟨h3, ?_⟩
    change lookup H m₀ (run H hash eqOther (DictWorld.step H hash eqOther w op) ops).dict = _
    rw [h4, h2, lookup_after I]
    rfl

theorem inv_empty (hc : ∀ i, (m₀ i).CacheOk H) : Inv H hash m₀ (⟨m₀, []⟩ : DictWorld V) :=
  ⟨fun i => ⟨rfl, rfl, hc i⟩, fun e he => by simp at he, List.Pairwise.nil⟩

/-! ## Theorems -/

/-- C90: after any program, a look-up with a sky map as key gives the value last stored under a sky map with the same SHA-1 and not deleted since,
whatever hash values collide, whatever other keys the dict has, and whatever was done to the sky maps; storing never fails, and `in` and `del` agree
with it.  (If the configuration cannot be packed, all of them raise that error.) -/
theorem C90_lookup (hf : ∀ i, (m₀ i).config.frozen = true) (hc : ∀ i, (m₀ i).CacheOk H) (ops : List (Op V)) (i : Nat) (v : V) :
    let w := run H hash eqOther ⟨m₀, []⟩ ops
    let d := ops.foldl (Op.spec H m₀) fun _ => none
    match sha H m₀ i with
    | .error e => (getItem H hash eqOther (.map i) w).1 = .error e ∧ (contains H hash eqOther (.map i) w).1 = .error e ∧
        (setItem H hash eqOther (.map i) v w).1 = .error e ∧ (delItem H hash eqOther (.map i) w).1 = .error e
    | .ok b => (setItem H hash eqOther (.map i) v w).1 = .ok () ∧ match d b with
      | some x => (getItem H hash eqOther (.map i) w).1 = .ok x ∧ (contains H hash eqOther (.map i) w).1 = .ok true ∧
          (delItem H hash eqOther (.map i) w).1 = .ok ()
      | none => (getItem H hash eqOther (.map i) w).1 = .error .KeyError ∧ (contains H hash eqOther (.map i) w).1 = .ok false ∧
          (delItem H hash eqOther (.map i) w).1 = .error .KeyError := by
  intro w d
  obtain ⟨I, hl⟩ := inv_run (V := V) (eqOther := eqOther) (hash := hash) hf (inv_empty hc) ops
  rw [show (lookup H m₀ ([] : List (DictEntry V))) = fun _ => none from rfl] at hl
  have g := (getItem_val (eqOther := eqOther) I (.map i)).1
  have c := (contains_val (eqOther := eqOther) I (.map i)).1
  have s := (setItem_val (eqOther := eqOther) I (.map i) v).1
  have t := (delItem_val (eqOther := eqOther) I (.map i)).1
  cases hi : sha H m₀ i with
  | error e =>
    simp only [hashOf, hi] at g c s t
    exact ⟨g, c, s, t⟩
  | ok b =>
    simp only [hashOf, hi, hit_map hi] at g c s t
    have hd := congrFun hl b
    change _ = d b at hd
    refine ⟨s, ?_⟩
    unfold lookup at hd
    cases hfd : List.find? (fun e => IsSha H m₀ b e.key) (run H hash eqOther ⟨m₀, []⟩ ops).dict with
    | none =>
      rw [hfd] at hd g c t
      rw [← hd]
      exact ⟨g, c, t⟩
    | some e =>
      rw [hfd] at hd g c t
      rw [← hd]
      exact ⟨g, c, t⟩

/-- C90: a sky map is never equal to an object of another type, on either side, and `!=` says so; two sky maps are equal exactly if their SHA-1 are. -/
theorem C90_equality (hf : ∀ i, (m₀ i).config.frozen = true) (hc : ∀ i, (m₀ i).CacheOk H) (ops : List (Op V)) (i j : Nat) {a b : Bytes}
    (ha : sha H m₀ i = .ok a) (hb : sha H m₀ j = .ok b) (n : Nat) (h : Int) :
    let s := (run H hash eqOther ⟨m₀, []⟩ ops).maps
    (keyEq H eqOther (.map i) (.other n h) s).1 = .ok false ∧ (keyEq H eqOther (.other n h) (.map i) s).1 = .ok false ∧
      (keyNe H eqOther (.map i) (.other n h) s).1 = .ok true ∧ (keyNe H eqOther (.other n h) (.map i) s).1 = .ok true ∧
      (keyEq H eqOther (.map i) (.map j) s).1 = .ok (decide (a = b)) ∧ (keyNe H eqOther (.map i) (.map j) s).1 = .ok (decide (a ≠ b)) := by
  intro s
  obtain ⟨I, -⟩ := inv_run (V := V) (eqOther := eqOther) (hash := hash) hf (inv_empty hc) ops
  have key : ∀ x y : PyKey, (keyEq H eqOther x y s).1 = eqVal H eqOther m₀ x y ∧
      (keyNe H eqOther x y s).1 = (eqVal H eqOther m₀ x y).map (!·) := by
    intro x y
    obtain ⟨s', h1, -⟩ := keyEq_ok (eqOther := eqOther) I.maps x y
    refine ⟨by rw [h1], ?_⟩
    simp only [keyNe, bind, PyS.bind]
    rw [h1]
    cases eqVal H eqOther m₀ x y <;> rfl
  have h1 := key (.map i) (.other n h)
  have h2 := key (.other n h) (.map i)
  have h3 := key (.map i) (.map j)
  simp only [eqVal, ha, hb, Except.map, bind, Except.bind, pure, Except.pure] at h1 h2 h3
  refine ⟨h1.1, h2.1, h1.2, h2.2, ?_, ?_⟩
  · rw [h3.1]; congr 1
    by_cases hab : a = b <;> simp [hab]
  · rw [h3.2]; congr 1
    by_cases hab : a = b <;> simp [hab]

/-- The entries of other objects. -/
def others (l : List (DictEntry V)) : List (DictEntry V) := l.filter fun e => match e.key with | .map _ => false | .other _ _ => true

theorem others_put_map {p : DictEntry V → Bool} (hp : ∀ e, p e = true → ∃ i, e.key = .map i) {new : DictEntry V} {i : Nat} (hn : new.key = .map i)
    (l : List (DictEntry V)) : others (put p new l) = others l := by
  induction l with
  | nil => simp [others, put, hn]
  | cons e l ih =>
    rw [put]
    unfold others at ih ⊢
    split
    · rename_i h
      obtain ⟨j, hj⟩ := hp e h
      simp [List.filter_cons, hj]
    · rw [List.filter_cons, List.filter_cons, ih]

theorem others_erase_map {p : DictEntry V → Bool} (hp : ∀ e, p e = true → ∃ i, e.key = .map i) (l : List (DictEntry V)) :
    others (l.eraseP p) = others l := by
  induction l with
  | nil => rfl
  | cons e l ih =>
    unfold others at ih ⊢
    by_cases h : p e = true
    · obtain ⟨j, hj⟩ := hp e h
      rw [List.eraseP_cons_of_pos h]
      simp [List.filter_cons, hj]
    · rw [List.eraseP_cons_of_neg h, List.filter_cons, List.filter_cons, ih]

theorem others_put_other {p : DictEntry V → Bool} (hp : ∀ e, p e = true → ∃ i h, e.key = .other i h) {new : DictEntry V} {i : Nat} {h : Int}
    (hn : new.key = .other i h) (l : List (DictEntry V)) : others (put p new l) = put p new (others l) := by
  induction l with
  | nil => simp [others, put, hn]
  | cons e l ih =>
    rw [put]
    unfold others at ih ⊢
    split
    · rename_i h
      obtain ⟨j, g, hj⟩ := hp e h
      simp [hj, put, h]
    · rename_i h
      rw [List.filter_cons, List.filter_cons, ih]
      cases hk : (match e.key with | .map _ => false | .other _ _ => true) with
      | true => simp only [if_true, put, if_neg h]
      | false => rfl

theorem others_erase_other {p : DictEntry V → Bool} (hp : ∀ e, p e = true → ∃ i h, e.key = .other i h) (l : List (DictEntry V)) :
    others (l.eraseP p) = (others l).eraseP p := by
  induction l with
  | nil => rfl
  | cons e l ih =>
    unfold others at ih ⊢
    by_cases h : p e = true
    · obtain ⟨j, g, hj⟩ := hp e h
      rw [List.eraseP_cons_of_pos h]
      simp [List.filter_cons, hj, h]
    · rw [List.eraseP_cons_of_neg h, List.filter_cons, List.filter_cons, ih]
      cases hk : (match e.key with | .map _ => false | .other _ _ => true) with
      | true => simp only [if_true, List.eraseP_cons_of_neg h]
      | false => rfl

theorem find_others {p : DictEntry V → Bool} (hp : ∀ e, p e = true → ∃ i h, e.key = .other i h) (l : List (DictEntry V)) :
    (others l).find? p = l.find? p := by
  induction l with
  | nil => rfl
  | cons e l ih =>
    unfold others at ih ⊢
    rw [List.filter_cons, List.find?_cons]
    by_cases h : p e = true
    · obtain ⟨j, g, hj⟩ := hp e h
      simp [hj, h]
    · rw [Bool.not_eq_true] at h
      rw [h]
      cases hk : (match e.key with | .map _ => false | .other _ _ => true) with
      | true => simp only [if_true, List.find?_cons, h]; exact ih
      | false => exact ih

theorem hit_key_map {i : Nat} {e : DictEntry V} (hh : Hit H eqOther m₀ (.map i) e = true) : ∃ j, e.key = .map j := by
  unfold Hit at hh
  dsimp only at hh
  cases hi : sha H m₀ i with
  | error x => rw [hi] at hh; simp at hh
  | ok b =>
    rw [hi] at hh
    cases hk : e.key with
    | map j => exact ⟨j, rfl⟩
    | other => rw [hk] at hh; simp [IsSha] at hh

theorem hit_key_other {n : Nat} {h : Int} {e : DictEntry V} (hh : Hit H eqOther m₀ (.other n h) e = true) : ∃ j g, e.key = .other j g := by
  unfold Hit at hh
  cases hk : e.key with
  | map i => rw [hk] at hh; simp at hh
  | other j g => exact ⟨j, g, rfl⟩

theorem others_after (l : List (DictEntry V)) (op : Op V) :
    others (entriesAfter H hash eqOther m₀ l op) = if op.onOther then entriesAfter H hash eqOther m₀ (others l) op else others l := by
  cases op with
  | set k v =>
    cases k with
    | map i =>
      simp only [Op.onOther, Bool.false_eq_true, if_false, entriesAfter]
      split
      · exact others_put_map (fun e he => hit_key_map he) rfl l
      · rfl
    | other n h => exact others_put_other (fun e he => hit_key_other he) rfl l
  | del k =>
    cases k with
    | map i =>
      simp only [Op.onOther, Bool.false_eq_true, if_false, entriesAfter]
      split
      · exact others_erase_map (fun e he => hit_key_map he) l
      · rfl
    | other n h => exact others_erase_other (fun e he => hit_key_other he) l
  | _ => rfl

theorem others_run {w w' : DictWorld V} (hf : ∀ i, (m₀ i).config.frozen = true) (I : Inv H hash m₀ w) (I' : Inv H hash m₀ w')
    (hw : others w.dict = w'.dict) (ops : List (Op V)) :
    others (run H hash eqOther w ops).dict = (run H hash eqOther w' (ops.filter Op.onOther)).dict := by
  induction ops generalizing w w' with
  | nil => exact hw
  | cons op ops ih =>
    obtain ⟨h1, h2⟩ := I.step (eqOther := eqOther) hf op
    change others (run H hash eqOther (DictWorld.step H hash eqOther w op) ops).dict = _
    by_cases ho : op.onOther = true
    · rw [List.filter_cons_of_pos ho]
      obtain ⟨h3, h4⟩ := I'.step (eqOther := eqOther) hf op
      refine ih h1 h3 ?_
      rw [h2, h4, others_after, if_pos ho, hw]
    · rw [List.filter_cons_of_neg ho]
      refine ih h1 I' ?_
      rw [h2, others_after, if_neg ho, hw]

/-- C90: sky maps in a dict do not disturb its other keys, even if their hashes are equal: a look-up with another object gives what it gives after the same
program without the operations on sky maps. -/
theorem C90_others (hf : ∀ i, (m₀ i).config.frozen = true) (hc : ∀ i, (m₀ i).CacheOk H) (ops : List (Op V)) (n : Nat) (h : Int) :
    (getItem H hash eqOther (.other n h) (run H hash eqOther ⟨m₀, []⟩ ops)).1 =
      (getItem H hash eqOther (.other n h) (run H hash eqOther ⟨m₀, []⟩ (ops.filter Op.onOther))).1 := by
  have I := (inv_run (V := V) (eqOther := eqOther) (hash := hash) hf (inv_empty hc) ops).1
  have I' := (inv_run (V := V) (eqOther := eqOther) (hash := hash) hf (inv_empty hc) (ops.filter Op.onOther)).1
  rw [(getItem_val I _).1, (getItem_val I' _).1, ← others_run hf (inv_empty hc) (inv_empty hc) rfl ops,
    find_others fun e he => hit_key_other he]

/-- C90: sky maps with the same class and configuration are the same key. -/
theorem C90_copies (hf : ∀ i, (m₀ i).config.frozen = true) (hc : ∀ i, (m₀ i).CacheOk H) (ops : List (Op V)) {i j : Nat}
    (h1 : (m₀ i).cls = (m₀ j).cls) (h2 : (m₀ i).config = (m₀ j).config) :
    (getItem H hash eqOther (.map i) (run H hash eqOther ⟨m₀, []⟩ ops)).1 = (getItem H hash eqOther (.map j) (run H hash eqOther ⟨m₀, []⟩ ops)).1 := by
  have I := (inv_run (V := V) (eqOther := eqOther) (hash := hash) hf (inv_empty hc) ops).1
  rw [(getItem_val I _).1, (getItem_val I _).1]
  unfold hashOf Hit sha
  simp only [h1, h2]

/-- C90: a sky map that comes out of a pickle finds what was stored under the sky map that was pickled, at any point of the lives of both. -/
theorem C90_pickle {Sky K : Type} [Field K] [LinearOrder K] [FloorRing K] {impl : ClassImpl Sky K} {cls : MapClass} {config : SkyMapConfig Dbl}
    {version : Version} {o o' p : SkyMapObj Sky K} (h : SkyMapObj.new impl cls config version = .ok o) (hh : MapHistory H o o')
    (hp : SkyMapObj.unpickle impl (SkyMapObj.pickle o') = .ok p) (hf : ∀ i, (m₀ i).config.frozen = true) (hc : ∀ i, (m₀ i).CacheOk H) {i j : Nat}
    (hi : m₀ i = o'.hashed) (hj : m₀ j = p.hashed) (ops : List (Op V)) :
    (getItem H hash eqOther (.map i) (run H hash eqOther ⟨m₀, []⟩ ops)).1 = (getItem H hash eqOther (.map j) (run H hash eqOther ⟨m₀, []⟩ ops)).1 := by
  obtain ⟨p', h1, h2, h3, -⟩ := C40_pickle_roundtrip H impl cls config version o o' h hh
  rw [hp] at h1
  obtain rfl := Except.ok.inj h1
  exact C90_copies hf hc ops (by rw [hi, hj, h2]) (by rw [hi, hj, h3])

/-! ## Example -/

/-- Even numbers: RingsSkyMaps with 120 rings, of different versions; odd ones: with 40 rings. -/
def Ex.maps (i : Nat) : HashedMap :=
  ⟨.rings (if i % 2 = 0 then 120 else 40) 0, { Skymap.Ex.hashConfig with frozen := true }, .int i, none⟩

/-- The hypotheses are met.  All hashes are equal, there is a key of another type and attempts to change a configuration; the value of sky map 0 is found
with sky map 2. -/
example :
    let ops : List (Op Nat) := [.set (.map 0) 5, .set (.other 0 0) 6, .assign 2 (fun c => { c with rotation := 1 }), .set (.map 1) 7, .get (.map 2), .del (.map 3),
      .eq (.map 0) (.other 0 0)]
    (∀ i, (Ex.maps i).config.frozen = true) ∧ (∀ i, (Ex.maps i).CacheOk id) ∧
    let w := run id (fun _ => 0) (fun i j => i == j) ⟨Ex.maps, []⟩ ops
    (getItem id (fun _ => 0) (fun i j => i == j) (.map 2) w).1 = .ok 5 ∧
      (getItem id (fun _ => 0) (fun i j => i == j) (.map 1) w).1 = .error .KeyError ∧
      (getItem id (fun _ => 0) (fun i j => i == j) (.other 0 0) w).1 = .ok 6 := by
  refine ⟨fun i => rfl, fun i h e => by simp [Ex.maps] at e, ?_, ?_, ?_⟩ <;> rfl

end DictWorld
end Skymap
