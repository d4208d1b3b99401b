import Verif.Lemmas.Threads
import Verif.Spec.Threads
import Verif.Props.Caching
import Verif.Props.Sha1

/-! # C67: several threads using one caching sky map -/

set_option linter.unusedSectionVars false

namespace Skymap
namespace Threads
open CachingSkyMap (init fresh)

variable {Sky K : Type} [Field K] [LinearOrder K] [FloorRing K]
variable {m : CachingDef Sky K} {b₀ : TractBuilder} {H : Bytes → Bytes} {message : PyM Bytes}

/-- What every shared state satisfies. -/
structure Inv (m : CachingDef Sky K) (b₀ : TractBuilder) (H : Bytes → Bytes) (message : PyM Bytes) (s : SharedMap Sky K) : Prop where
  len : s.cache.length = m.numTracts
  info : ∀ (i : Nat) r, s.cache[i]? = some (some r) → ∃ b', fresh m b₀ i = .ok (r.info, b')
  cached : ∀ (i : Nat) r, s.cache[i]? = some (some r) → s.initialized = true
  ready : s.initialized = true → s.numPatches.isSome ∧ s.tractBBox.isSome
  num : ∀ n, s.numPatches = some n → ∃ (k : Nat) (t : TractInfo Sky K) (b : TractBuilder), k < m.numTracts ∧ fresh m b₀ k = .ok (t, b) ∧ n = t.numPatches
  box : ∀ x, s.tractBBox = some x → ∃ (k : Nat) (t : TractInfo Sky K) (b : TractBuilder), k < m.numTracts ∧ fresh m b₀ k = .ok (t, b) ∧ x = t.bbox
  sha : ∀ d, s.sha1 = some d → ∃ b, message = .ok b ∧ d = H b
  obj : ∀ (i : Nat) r, s.cache[i]? = some (some r) → s.made r.oid = some r.info
  count : ∀ o t, s.made o = some t → o < s.nextOid

/-- How shared states grow. -/
structure Grows (s s' : SharedMap Sky K) : Prop where
  cache : ∀ (i : Nat) r, s.cache[i]? = some (some r) → ∃ r', s'.cache[i]? = some (some r')
  num : s.numPatches.isSome → s'.numPatches.isSome
  box : s.tractBBox.isSome → s'.tractBBox.isSome
  ini : s.initialized = true → s'.initialized = true
  sha : s.sha1.isSome → s'.sha1.isSome
  obj : ∀ o t, s.made o = some t → s'.made o = some t

theorem Grows.refl (s : SharedMap Sky K) : Grows s s := ⟨fun _ r h => ⟨r, h⟩, id, id, id, id, fun _ _ => id⟩

theorem Grows.trans (a b c : SharedMap Sky K) (h : Grows a b) (h' : Grows b c) : Grows a c :=
  ⟨fun i r hr => by obtain ⟨r', e⟩ := h.cache i r hr; exact h'.cache i r' e, fun x => h'.num (h.num x), fun x => h'.box (h.box x),
    fun x => h'.ini (h.ini x), fun x => h'.sha (h.sha x), fun o t x => h'.obj o t (h.obj o t x)⟩

/-- A tract of the sky map, after its construction. -/
def Known (m : CachingDef Sky K) (b₀ : TractBuilder) (s : SharedMap Sky K) (t : TractRef Sky K) : Prop :=
  s.initialized = true ∧ s.made t.oid = some t.info ∧ ∃ (k : Nat) (b : TractBuilder), k < m.numTracts ∧ fresh m b₀ k = .ok (t.info, b)

theorem Known.mono {s s' : SharedMap Sky K} {t : TractRef Sky K} (h : Grows s s') (hk : Known m b₀ s t) : Known m b₀ s' t :=
  ⟨h.ini hk.1, h.obj _ _ hk.2.1, hk.2.2⟩

/-- What `skyMap[i]` gives on a newly built sky map. -/
def value (m : CachingDef Sky K) (b₀ : TractBuilder) (i : Int) : PyM (TractInfo Sky K) :=
  (CachingSkyMap.getItem m i (init m b₀)).1.map TractRef.info

theorem value_out {i : Int} (h : ¬ (0 ≤ i ∧ i < m.numTracts)) : value m b₀ i = .error .IndexError := by
  unfold value
  rw [CachingSkyMap.getItem_out (CachingSkyMap.Inv.init m b₀) h]
  rfl

theorem value_nat {k : Nat} (h : k < m.numTracts) : value m b₀ k = (fresh m b₀ k).map Prod.fst := by
  unfold value
  rw [CachingSkyMap.getItem_gen (CachingSkyMap.Inv.init m b₀) (by simp [init, h])]
  cases fresh m b₀ k with
  | error e => rfl
  | ok p => rfl

/-- Taking an element of the cache. -/
theorem cache_get {s : SharedMap Sky K} (hI : Inv m b₀ H message s) {k : Nat} (hk : k < m.numTracts) :
    ∃ x, s.cache[k]? = some x ∧ pyGetItem s.cache (k : Int) = .ok x := by
  have h : k < s.cache.length := by rw [hI.len]; exact hk
  exact ⟨_, List.getElem?_eq_getElem h, CachingSkyMap.pyGetItem_nat (List.getElem?_eq_getElem h)⟩

theorem generate_safe {k : Nat} (hk : k < m.numTracts) (s : SharedMap Sky K) :
    (generateTract m b₀ (k : Int)).Safe (Inv m b₀ H message) Grows
      (fun s r => r.map TractRef.info = (fresh m b₀ k).map Prod.fst ∧ ∀ t, r = .ok t → Known m b₀ s t) s := by
  have ef : fresh m b₀ k = match m.tractArgs k with
    | .error e => .error e
    | .ok a => TractInfo.new m.env m.ops b₀ a := rfl
  unfold generateTract
  cases ha : m.tractArgs k with
  | error e =>
    rw [ha] at ef
    exact ⟨by rw [ef]; rfl, fun t h => nomatch h⟩
  | ok a =>
    rw [ha] at ef
    dsimp only at ef
    change (newTract m.env m.ops b₀ a).Safe _ _ _ s
    unfold newTract
    have en : TractInfo.new m.env m.ops b₀ a = (minimumBoundingBox m.env m.ops a).bind fun minBBox =>
      (b₀.setupPatches minBBox.toBox2I).bind fun r => .ok (
          { id := a.id, ctrCoord := a.ctrCoord,
            vertexCoordList := (match a.shape with
              | .vertices l => l
              | .explicit _ => explicitVertices (finalOrientation r.1 a.wcs).1 (finalOrientation r.1 a.wcs).2),
            tractOverlap := a.tractOverlap, innerBoxCorners := a.innerBoxCorners,
            numPatches := r.2.1, bbox := (finalOrientation r.1 a.wcs).1, wcs := (finalOrientation r.1 a.wcs).2 }, r.2.2) := rfl
    rw [en] at ef
    cases hmb : minimumBoundingBox m.env m.ops a with
    | error e =>
      rw [hmb] at ef
      exact ⟨by rw [ef]; rfl, fun t h => nomatch h⟩
    | ok mb =>
      rw [hmb] at ef
      cases hsp : b₀.setupPatches mb.toBox2I with
      | error e =>
        simp only [Except.bind, hsp] at ef
        change (Thread.bind (setupPatches b₀ mb.toBox2I) _).Safe _ _ _ s
        unfold setupPatches
        rw [hsp]
        exact ⟨by rw [ef]; rfl, fun t h => nomatch h⟩
      | ok r =>
        simp only [Except.bind, hsp] at ef
        change (Thread.bind (setupPatches b₀ mb.toBox2I) _).Safe _ _ _ s
        unfold setupPatches
        rw [hsp]
        intro s1 g1 I1
        refine ⟨⟨I1.len, I1.info, I1.cached, fun h => ⟨rfl, (I1.ready h).2⟩, ?_, I1.box, I1.sha, I1.obj, I1.count⟩,
          ⟨fun i r h => ⟨r, h⟩, fun _ => rfl, id, id, id, fun _ _ => id⟩, ?_⟩
        · rintro n hn
          exact ⟨k, _, _, hk, ef, (Option.some.inj hn).symm⟩
        intro s2 g2 I2
        refine ⟨⟨I2.len, I2.info, I2.cached, fun h => ⟨(I2.ready h).1, rfl⟩, I2.num, ?_, I2.sha, I2.obj, I2.count⟩,
          ⟨fun i r h => ⟨r, h⟩, id, fun _ => rfl, id, id, fun _ _ => id⟩, ?_⟩
        · rintro x hx
          exact ⟨k, _, _, hk, ef, (Option.some.inj hx).symm⟩
        intro s3 g3 I3
        refine ⟨⟨I3.len, I3.info, fun _ _ _ => rfl, fun _ => ⟨g3.num (g2.num rfl), g3.box rfl⟩, I3.num, I3.box, I3.sha, I3.obj, I3.count⟩,
          ⟨fun i r h => ⟨r, h⟩, id, id, fun _ => rfl, id, fun _ _ => id⟩, ?_⟩
        intro s4 g4 I4
        have keep : ∀ o t (info : TractInfo Sky K), s4.made o = some t → (if o = s4.nextOid then some info else s4.made o) = some t := by
          intro o t info h
          have := I4.count o t h
          rw [if_neg (by omega)]
          exact h
        refine ⟨⟨I4.len, I4.info, I4.cached, I4.ready, I4.num, I4.box, I4.sha, ?_, ?_⟩,
          ⟨fun i r h => ⟨r, h⟩, id, id, id, id, fun o t h => keep o t _ h⟩, ?_, ?_⟩
        · exact fun i r h => keep _ _ _ (I4.obj i r h)
        · intro o t h
          change (if o = s4.nextOid then _ else s4.made o) = some t at h
          change o < s4.nextOid + 1
          split at h
          · omega
          · have := I4.count o t h
            omega
        · rw [ef]; rfl
        · rintro t ht
          rw [← Except.ok.inj ht]
          exact ⟨g4.ini rfl, if_pos rfl, k, _, hk, ef⟩

theorem getItem_safe (i : Int) (s : SharedMap Sky K) :
    (getItem m b₀ i).Safe (Inv m b₀ H message) Grows (fun s r => r.map TractRef.info = value m b₀ i ∧ ∀ t, r = .ok t → Known m b₀ s t) s := by
  unfold getItem
  split
  · rename_i h
    exact ⟨by rw [value_out (by omega)]; rfl, fun t h => nomatch h⟩
  · rename_i h
    by_cases hi : i = m.numTracts
    · intro s1 g1 I1
      refine ⟨I1, Grows.refl _, ?_⟩
      have : pyGetItem s1.cache i = .error .IndexError := by
        have hl : ¬ i < 0 := by omega
        unfold pyGetItem
        simp only [hl, if_false]
        rw [List.getElem?_eq_none (by rw [I1.len]; omega)]
      change (Thread.bind (Thread.done (pyGetItem s1.cache i)) _).Safe _ _ _ _
      rw [this]
      exact ⟨by rw [value_out (by omega)]; rfl, fun t h => nomatch h⟩
    · obtain ⟨k, rfl⟩ : ∃ k : Nat, i = k := ⟨i.toNat, by omega⟩
      have hk : k < m.numTracts := by omega
      rw [value_nat hk]
      intro s1 g1 I1
      refine ⟨I1, Grows.refl _, ?_⟩
      obtain ⟨x, hx, hg⟩ := cache_get I1 hk
      change (Thread.bind (Thread.done (pyGetItem s1.cache (k : Int))) _).Safe _ _ _ _
      rw [hg]
      cases x with
      | some r =>
        intro s2 g2 I2
        refine ⟨I2, Grows.refl _, ?_⟩
        obtain ⟨r', hr'⟩ := g2.cache k r hx
        obtain ⟨b', hb'⟩ := I2.info k r' hr'
        change (Thread.bind (Thread.done (pyGetItem s2.cache (k : Int))) _).Safe _ _ _ _
        rw [CachingSkyMap.pyGetItem_nat hr']
        refine ⟨by rw [hb']; rfl, ?_⟩
        rintro t ht
        rw [← Except.ok.inj ht]
        exact ⟨I2.cached k r' hr', I2.obj k r' hr', k, b', hk, hb'⟩
      | none =>
        change (Thread.bind (generateTract m b₀ (k : Int)) _).Safe _ _ _ s1
        refine Thread.Safe.bind Grows.refl Grows.trans (generate_safe hk s1) ?_ ?_
        · rintro s2 t g2 ⟨e2, k2⟩
          have hkn := k2 t rfl
          intro s3 g3 I3
          have hini : s3.initialized = true := g3.ini hkn.1
          have hset : ∀ (j : Nat) r, (s3.cache.set (k : Int).toNat (some t))[j]? = some (some r) → (j = k ∧ r = t) ∨ s3.cache[j]? = some (some r) := by
            intro j r hj
            rw [Int.toNat_natCast, List.getElem?_set] at hj
            split at hj
            · next hh =>
              split at hj
              · simp only [Option.some.injEq] at hj
                exact .inl ⟨hh.symm, hj.symm⟩
              · simp at hj
            · exact .inr hj
          have hfr : ∃ b', fresh m b₀ k = .ok (t.info, b') := by
            cases hf : fresh m b₀ k with
            | error e => rw [hf] at e2; simp [Except.map] at e2
            | ok p =>
              rw [hf] at e2
              simp only [Except.map, Except.ok.injEq] at e2
              exact ⟨p.2, by rw [e2]⟩
          refine ⟨⟨?_, ?_, fun _ _ _ => hini, I3.ready, I3.num, I3.box, I3.sha, ?_, I3.count⟩, ⟨?_, id, id, id, id, fun _ _ => id⟩, ?_, ?_⟩
          · change (s3.cache.set _ _).length = _
            rw [List.length_set]; exact I3.len
          · intro j r hj
            rcases hset j r hj with ⟨rfl, rfl⟩ | hj
            · exact hfr
            · exact I3.info j r hj
          · intro j r hj
            rcases hset j r hj with ⟨rfl, rfl⟩ | hj
            · exact g3.obj _ _ hkn.2.1
            · exact I3.obj j r hj
          · intro j r hj
            change ∃ r', (s3.cache.set _ _)[j]? = some (some r')
            rw [Int.toNat_natCast, List.getElem?_set]
            split
            · next hh =>
              have : k < s3.cache.length := by rw [I3.len]; exact hk
              rw [if_pos this]
              exact ⟨t, rfl⟩
            · exact ⟨r, hj⟩
          · exact e2
          · rintro t' ht'
            rw [← Except.ok.inj ht']
            exact ⟨hini, g3.obj _ _ hkn.2.1, hkn.2.2⟩
        · rintro s2 e g2 ⟨e2, -⟩
          exact ⟨e2, fun t h => nomatch h⟩

/-- The comparison used by `findTract`, on tracts without identity. -/
def infoLe (a b : K × Nat × TractInfo Sky K) : Bool :=
  decide (a.1 < b.1) || (decide (a.1 = b.1) && decide (a.2.1 ≤ b.2.1))

def forget (x : K × Nat × TractRef Sky K) : K × Nat × TractInfo Sky K := (x.1, x.2.1, x.2.2.info)

theorem map_insertBy (a : K × Nat × TractRef Sky K) (l : List (K × Nat × TractRef Sky K)) :
    (insertBy BaseSkyMap.tupleLe a l).map forget = insertBy infoLe (forget a) (l.map forget) := by
  induction l with
  | nil => rfl
  | cons b l ih =>
    have : BaseSkyMap.tupleLe a b = infoLe (forget a) (forget b) := rfl
    simp only [insertBy, List.map_cons, ← this]
    split
    · rfl
    · rw [List.map_cons, ih]

theorem map_pySort (l : List (K × Nat × TractRef Sky K)) : (pySort BaseSkyMap.tupleLe l).map forget = pySort infoLe (l.map forget) := by
  induction l with
  | nil => rfl
  | cons a l ih =>
    change (insertBy _ a (pySort _ l)).map forget = insertBy _ (forget a) (pySort _ (l.map forget))
    rw [map_insertBy, ih]

/-- The end of `findTract`. -/
def nearest (l : List (K × Nat × TractInfo Sky K)) : PyM (TractInfo Sky K) :=
  match (pySort infoLe l).head? with
  | some x => .ok x.2.2
  | none => .error .IndexError

theorem nearest_map (l : List (K × Nat × TractRef Sky K)) :
    (match (pySort BaseSkyMap.tupleLe l).head? with
      | some x => Except.ok x.2.2
      | none => .error PyErr.IndexError).map TractRef.info = nearest (l.map forget) := by
  unfold nearest
  rw [← map_pySort, List.head?_map]
  cases (pySort BaseSkyMap.tupleLe l).head? with
  | none => rfl
  | some x => rfl

theorem tracts_safe (s : SharedMap Sky K) :
    (tracts m b₀).Safe (Inv m b₀ H message) Grows (fun s r => r.map (List.map TractRef.info) = pyMapM (fun k : Nat => value m b₀ k) (List.range m.numTracts) ∧
      ∀ l, r = .ok l → ∀ t ∈ l, Known m b₀ s t) s :=
  Thread.Safe.mapM Grows.refl Grows.trans (fun _ _ _ h h' => h'.mono h) _ fun k _ s' _ => getItem_safe (k : Int) s'

theorem findTract_safe (c : Sky) (s : SharedMap Sky K) :
    (findTract m b₀ c).Safe (Inv m b₀ H message) Grows (fun s r => r.map TractRef.info =
      (pyMapM (fun k : Nat => (value m b₀ k).map fun t => (m.ops.separation c t.ctrCoord, k, t)) (List.range m.numTracts)).bind nearest ∧
      ∀ t, r = .ok t → Known m b₀ s t) s := by
  unfold findTract
  refine Thread.Safe.bind Grows.refl Grows.trans (Thread.Safe.mapM (φ := forget) (F := fun s x => Known m b₀ s x.2.2) Grows.refl Grows.trans
    (fun _ _ _ h h' => h'.mono h) _
    (g := fun k : Nat => (value m b₀ k).map fun t => (m.ops.separation c t.ctrCoord, k, t)) fun k _ s' _ => ?_) ?_ ?_
  · refine Thread.Safe.bind Grows.refl Grows.trans (getItem_safe (k : Int) s') ?_ ?_
    · rintro s1 t _ ⟨h1, h2⟩
      refine ⟨by rw [← h1]; rfl, ?_⟩
      rintro b hb
      rw [← Except.ok.inj hb]
      exact h2 t rfl
    · rintro s1 e _ ⟨h1, h2⟩
      exact ⟨by rw [← h1]; rfl, fun t h => nomatch h⟩
  · rintro s1 l _ ⟨h1, h2⟩
    refine ⟨by rw [← h1]; exact nearest_map l, ?_⟩
    rintro t ht
    cases hq : (pySort BaseSkyMap.tupleLe l).head? with
    | none => rw [hq] at ht; exact nomatch ht
    | some x =>
      rw [hq] at ht
      rw [← Except.ok.inj ht]
      refine h2 l rfl x ?_
      rw [← mem_pySort BaseSkyMap.tupleLe]
      exact List.mem_of_head? hq
  · rintro s1 e _ ⟨h1, h2⟩
    exact ⟨by rw [← h1]; rfl, fun t h => nomatch h⟩

theorem findTractAt_safe (index : PyM Int) (s : SharedMap Sky K) :
    (findTractAt m b₀ index).Safe (Inv m b₀ H message) Grows (fun s r => r.map TractRef.info = index.bind (value m b₀) ∧
      ∀ t, r = .ok t → Known m b₀ s t) s := by
  unfold findTractAt
  cases index with
  | error e => exact ⟨rfl, fun t h => nomatch h⟩
  | ok i => exact getItem_safe i s

/-- What `findAllTracts` gives, in terms of the contents of the tracts. -/
def containing (m : CachingDef Sky K) (b₀ : TractBuilder) (near : PyM (List Int)) (c : Sky) : PyM (List (TractInfo Sky K)) :=
  near.bind fun l => (pyMapM (fun i => (value m b₀ i).map fun t => if t.contains c then [t] else []) l).map List.flatten

theorem map_keep (c : Sky) (t : TractRef Sky K) :
    List.map TractRef.info (if t.info.contains c then [t] else []) = if t.info.contains c then [t.info] else [] := by
  split <;> rfl

theorem findAllTracts_safe (near : PyM (List Int)) (c : Sky) (s : SharedMap Sky K) :
    (findAllTracts m b₀ near c).Safe (Inv m b₀ H message) Grows (fun s r => r.map (List.map TractRef.info) = containing m b₀ near c ∧
      ∀ l, r = .ok l → ∀ t ∈ l, Known m b₀ s t) s := by
  unfold findAllTracts
  cases near with
  | error e => exact ⟨rfl, fun t h => nomatch h⟩
  | ok l =>
    change (Thread.bind (Thread.mapM _ _) _).Safe _ _ _ _
    refine Thread.Safe.bind Grows.refl Grows.trans (Thread.Safe.mapM (φ := List.map TractRef.info) (F := fun s x => ∀ t ∈ x, Known m b₀ s t) Grows.refl
      Grows.trans (fun _ _ _ h h' t ht => (h' t ht).mono h) _
      (g := fun i => (value m b₀ i).map fun t => if t.contains c then [t] else []) fun i _ s' _ => ?_) ?_ ?_
    · refine Thread.Safe.bind Grows.refl Grows.trans (getItem_safe i s') ?_ ?_
      · rintro s1 t _ ⟨h1, h2⟩
        refine ⟨by rw [← h1]; exact congrArg Except.ok (map_keep c t), ?_⟩
        rintro b hb t' ht'
        rw [← Except.ok.inj hb] at ht'
        split at ht'
        · rw [List.mem_singleton.1 ht']
          exact h2 t rfl
        · simp at ht'
      · rintro s1 e _ ⟨h1, h2⟩
        exact ⟨by rw [← h1]; rfl, fun t h => nomatch h⟩
    · rintro s1 ts _ ⟨h1, h2⟩
      refine ⟨?_, ?_⟩
      · change _ = Except.map _ _
        rw [← h1]
        exact congrArg Except.ok List.map_flatten
      · rintro l' hl' t ht
        rw [← Except.ok.inj hl'] at ht
        obtain ⟨x, hx, htx⟩ := List.mem_flatten.1 ht
        exact h2 ts rfl x hx t htx
    · rintro s1 e _ ⟨h1, h2⟩
      refine ⟨?_, fun t h => nomatch h⟩
      change _ = Except.map _ _
      rw [← h1]
      rfl

theorem sha1_safe (s : SharedMap Sky K) :
    (getSha1 H message : Thread (SharedMap Sky K) Bytes).Safe (Inv m b₀ H message) Grows (fun _ r => r = message.map H) s := by
  have last : ∀ s : SharedMap Sky K, s.sha1.isSome → ∀ s', Grows s s' → Inv m b₀ H message s' → getAttr s'.sha1 = message.map H := by
    intro s hs s' g I
    cases hq : s'.sha1 with
    | none => have := g.sha hs; rw [hq] at this; simp at this
    | some d =>
      obtain ⟨b, e1, e2⟩ := I.sha d hq
      rw [e1, e2]
      rfl
  intro s1 g1 I1
  refine ⟨I1, Grows.refl _, ?_⟩
  change (Thread.bind (Thread.done (.ok s1.sha1)) _).Safe _ _ _ s1
  cases hq : s1.sha1 with
  | some d => exact fun s2 g2 I2 => ⟨I2, Grows.refl _, last s1 (by rw [hq]; rfl) s2 g2 I2⟩
  | none =>
    cases hm : message with
    | error e => rfl
    | ok b =>
      intro s2 g2 I2
      refine ⟨⟨I2.len, I2.info, I2.cached, I2.ready, I2.num, I2.box, ?_, I2.obj, I2.count⟩, ⟨fun i r h => ⟨r, h⟩, id, id, id, fun _ => rfl, fun _ _ => id⟩, ?_⟩
      · rintro d hd
        exact ⟨b, rfl, (Option.some.inj hd).symm⟩
      · intro s3 g3 I3
        refine ⟨I3, Grows.refl _, ?_⟩
        rw [hm] at last
        exact last _ rfl s3 g3 I3

/-! ## Methods of tracts -/

/-- The builder's attributes are those of `st`. -/
def Set (st : Option BuilderState) (s : SharedMap Sky K) : Prop :=
  s.initialized = st.isSome ∧ s.numPatches = st.map (·.numPatches) ∧ s.tractBBox = st.map (·.tractBBox)

theorem some_num (st : BuilderState) :
    (readNumPatches : Thread (SharedMap Sky K) Index2D).Det (Set (some st)) (.ok st.numPatches) :=
  Thread.Det.read fun s h => by rw [h.2.1]; rfl

theorem some_box (st : BuilderState) : (readTractBBox : Thread (SharedMap Sky K) Box2I).Det (Set (some st)) (.ok st.tractBBox) :=
  Thread.Det.read fun s h => by rw [h.2.2]; rfl

theorem some_indexPair (b₀ : TractBuilder) (st : BuilderState) (n : Int) :
    (getPatchIndexPair n : Thread (SharedMap Sky K) Index2D).Det (Set (some st)) ({ b₀ with state := some st }.getPatchIndexPair n) := by
  refine Thread.Det.bind (g := fun k : Index2D => (pyMod n k.x).bind fun x => (pyFloorDiv n k.x).bind fun y => .ok (⟨x, y⟩ : Index2D))
    (some_num st) fun a _ => ?_
  exact Thread.Det.bind (Thread.Det.lift _) fun x _ => Thread.Det.bind (Thread.Det.lift _) fun y _ => rfl

theorem some_sequential (b₀ : TractBuilder) (st : BuilderState) (index : IndexArg) : (getSequentialPatchIndexFromPair index : Thread (SharedMap Sky K) Int).Det (Set (some st))
    ({ b₀ with state := some st }.getSequentialPatchIndexFromPair index) := by
  have h : ∀ x : PyM Index2D, (Thread.bind (Thread.lift x) fun i => Thread.bind (readNumPatches : Thread (SharedMap Sky K) Index2D)
      fun n => .done (.ok (n.x * i.y + i.x))).Det (Set (some st)) (x.bind fun i => .ok (st.numPatches.x * i.y + i.x)) := fun x =>
    Thread.Det.bind (Thread.Det.lift _) fun i _ => Thread.Det.bind (g := fun n : Index2D => .ok (n.x * i.y + i.x)) (some_num st) fun n _ => rfl
  cases index with
  | index2D i => exact h (.ok i)
  | number n => exact h (.error .ValueError)
  | seq l =>
    refine (congrArg _ ?_).mp (h (if l.length ≠ 2 then .error .ValueError else Index2D.ofSeq l))
    unfold TractBuilder.getSequentialPatchIndexFromPair
    dsimp only
    split
    · rfl
    · rfl

theorem some_resolve (st : BuilderState) (index : IndexArg) :
    (resolve index : Thread (SharedMap Sky K) Index2D).Det (Set (some st)) (({ b₀ with state := some st } : TractBuilder).resolve index) := by
  cases index with
  | index2D i => rfl
  | number n => exact some_indexPair b₀ st n
  | seq l => rfl

theorem some_inAxis (st : BuilderState) (v : Int) (axis : Index2D → Int) :
    (inAxis v axis : Thread (SharedMap Sky K) Bool).Det (Set (some st)) (.ok (decide (0 ≤ v ∧ v < axis st.numPatches))) := by
  unfold inAxis
  by_cases hi : 0 ≤ v
  · rw [if_pos hi, show decide (0 ≤ v ∧ v < axis st.numPatches) = decide (v < axis st.numPatches) by simp [hi]]
    exact (some_num st).bind (g := fun n => .ok (decide (v < axis n))) fun n _ => rfl
  · rw [if_neg hi, show decide (0 ≤ v ∧ v < axis st.numPatches) = false by simp [hi]]
    rfl

theorem some_getPatchInfo {W : Type} (st : BuilderState) (index : IndexArg) (w : W) :
    (getPatchInfo b₀ index w : Thread (SharedMap Sky K) (PatchInfo W)).Det (Set (some st))
      ({ b₀ with state := some st }.getPatchInfo index w) := by
  have e : ({ b₀ with state := some st } : TractBuilder).getPatchInfo index w =
      Except.bind (.ok true) fun _ => (({ b₀ with state := some st } : TractBuilder).resolve index).bind fun i =>
      Except.bind (.ok (decide (0 ≤ i.x ∧ i.x < st.numPatches.x))) fun inX =>
        if !inX then .error .IndexError else
        Except.bind (.ok (decide (0 ≤ i.y ∧ i.y < st.numPatches.y))) fun inY =>
        if !inY then .error .IndexError else
        Except.bind (.ok st.tractBBox) fun box =>
        if !box.containsBox (b₀.patchInnerBBox i) then .error .RuntimeError else
        match b₀.kind with
        | .legacy => Except.bind (.ok st.tractBBox) fun box' =>
          (({ b₀ with state := some st } : TractBuilder).getSequentialPatchIndexFromPair (.index2D i)).bind fun seq =>
          PatchInfo.new i (b₀.patchInnerBBox i) (((b₀.patchInnerBBox i).grow b₀.getPatchBorder).clip box') seq w
        | .cells c =>
          (({ b₀ with state := some st } : TractBuilder).getSequentialPatchIndexFromPair (.index2D i)).bind fun seq =>
          PatchInfo.new i (b₀.patchInnerBBox i) ((b₀.patchInnerBBox i).grow b₀.getPatchBorder) seq w
              [c.cellInnerDimensions.x, c.cellInnerDimensions.y] c.cellBorder
              c.numCellsPerPatchInner c.numCellsInPatchBorder := by
    unfold TractBuilder.getPatchInfo
    dsimp only [Except.bind, bind]
    cases ({ b₀ with state := some st } : TractBuilder).resolve index with
    | error e => rfl
    | ok i =>
      dsimp only
      by_cases hx : 0 ≤ i.x ∧ i.x < st.numPatches.x
      · by_cases hy : 0 ≤ i.y ∧ i.y < st.numPatches.y
        · simp only [hx, hy, and_self, not_true, or_self, if_false, decide_true, Bool.not_true, Bool.false_eq_true]
          change (if (!st.tractBBox.containsBox (b₀.patchInnerBBox i)) = true then _ else _) = _
          by_cases hb : st.tractBBox.containsBox (b₀.patchInnerBBox i) = true
          · simp only [hb, Bool.not_true, Bool.false_eq_true, if_false]
            cases b₀.kind <;> rfl
          · simp only [hb, Bool.not_false, if_true]
            rfl
        · simp only [hx, hy, and_self, not_true, or_true, not_false_eq_true, if_true, decide_true, decide_false, Bool.not_true, Bool.not_false, Bool.false_eq_true, if_false]
          rfl
      · simp only [hx, not_false_eq_true, true_or, if_true, decide_false, Bool.not_false]
        rfl
  rw [e]
  unfold getPatchInfo
  refine Thread.Det.bind (Thread.Det.read fun s h => by rw [h.1]; rfl) fun a ha => ?_
  cases ha
  refine Thread.Det.bind (some_resolve st index) fun i _ => Thread.Det.bind (some_inAxis st _ _) fun inX hx => ?_
  cases inX with
  | false => rfl
  | true =>
  simp only [Bool.not_true, Bool.false_eq_true, if_false]
  refine Thread.Det.bind (some_inAxis st _ _) fun inY hy => ?_
  cases inY with
  | false => rfl
  | true =>
  simp only [Bool.not_true, Bool.false_eq_true, if_false]
  refine Thread.Det.bind (some_box st) fun box _ => ?_
  by_cases hb : box.containsBox (b₀.patchInnerBBox i) = true
  · simp only [hb, Bool.not_true, Bool.false_eq_true, if_false]
    cases b₀.kind with
    | legacy => exact (some_box st).bind fun box' _ => (some_sequential b₀ st _).bind fun seq _ => rfl
    | cells c => exact (some_sequential b₀ st _).bind fun seq _ => rfl
  · simp only [hb, Bool.not_false, if_true]
    rfl

theorem det_indexPair (b₀ : TractBuilder) (st : Option BuilderState) (n : Int) :
    (getPatchIndexPair n : Thread (SharedMap Sky K) Index2D).Det (Set st) ({ b₀ with state := st }.getPatchIndexPair n) := by
  cases st with
  | some st => exact some_indexPair b₀ st n
  | none => exact fun s h => ⟨rfl, by dsimp only; rw [h.2.1]; rfl⟩

theorem det_sequential (b₀ : TractBuilder) (st : Option BuilderState) (index : IndexArg) :
    (getSequentialPatchIndexFromPair index : Thread (SharedMap Sky K) Int).Det (Set st) ({ b₀ with state := st }.getSequentialPatchIndexFromPair index) := by
  cases st with
  | some st => exact some_sequential b₀ st index
  | none =>
    have h : ∀ x : PyM Index2D, (Thread.bind (Thread.lift x) fun i => Thread.bind (readNumPatches : Thread (SharedMap Sky K) Index2D)
        fun n => .done (.ok (n.x * i.y + i.x))).Det (Set none) (x.bind fun _ => (.error .AttributeError : PyM Int)) := fun x =>
      Thread.Det.bind (Thread.Det.lift _) fun i _ s h => ⟨rfl, by dsimp only; rw [h.2.1]; rfl⟩
    cases index with
    | index2D i => exact h (.ok i)
    | number n => exact h (.error .ValueError)
    | seq l =>
      refine (congrArg _ ?_).mp (h (if l.length ≠ 2 then .error .ValueError else Index2D.ofSeq l))
      unfold TractBuilder.getSequentialPatchIndexFromPair
      dsimp only
      split
      · rfl
      · rfl

theorem det_getPatchInfo {W : Type} (st : Option BuilderState) (index : IndexArg) (w : W) :
    (getPatchInfo b₀ index w : Thread (SharedMap Sky K) (PatchInfo W)).Det (Set st) ({ b₀ with state := st }.getPatchInfo index w) := by
  cases st with
  | some st => exact some_getPatchInfo st index w
  | none => exact fun s h => ⟨rfl, by dsimp only; rw [h.1]; rfl⟩

theorem det_findPatch (st : Option BuilderState) (t : TractInfo Sky K) (env : FloatEnv K) (c : Sky) :
    (findPatch env b₀ t c).Det (Set st) (t.findPatch env { b₀ with state := st } c) := by
  unfold findPatch TractInfo.findPatch
  cases t.pixelIndex env c with
  | none => rfl
  | some p =>
    dsimp only
    split
    · rfl
    · exact (Thread.Det.lift _).bind fun i _ => det_getPatchInfo st _ _

theorem det_findPatchList (st : Option BuilderState) (t : TractInfo Sky K) (env : FloatEnv K) (l : List Sky) :
    (findPatchList env b₀ t l).Det (Set st) (t.findPatchList env { b₀ with state := st } l) := by
  unfold findPatchList TractInfo.findPatchList
  dsimp only
  change (if (((((TractInfo.coordBox env.tweak t.wcs l).toBox2I).grow b₀.getPatchBorder).clip t.bbox).isEmpty = true) then _ else _ : Thread _ _).Det _
    (if (((((TractInfo.coordBox env.tweak t.wcs l).toBox2I).grow b₀.getPatchBorder).clip t.bbox).isEmpty = true) then _ else _)
  split
  · rfl
  · exact (Thread.Det.lift _).bind fun ll _ => (Thread.Det.lift _).bind fun ur _ => Thread.Det.mapM _ fun i _ => det_getPatchInfo st _ _

theorem det_patches (st : Option BuilderState) (t : TractInfo Sky K) :
    (patches b₀ t).Det (Set st) (t.iter { b₀ with state := st }) :=
  Thread.Det.mapM _ fun _ _ => det_getPatchInfo st _ _

/-! ## Methods of tracts only read -/

theorem ro_num : (readNumPatches : Thread (SharedMap Sky K) Index2D).ReadOnly := Thread.ReadOnly.read _
theorem ro_box : (readTractBBox : Thread (SharedMap Sky K) Box2I).ReadOnly := Thread.ReadOnly.read _
theorem ro_lift {α : Type} (x : PyM α) : (Thread.lift x : Thread (SharedMap Sky K) α).ReadOnly := trivial

theorem ro_indexPair (n : Int) : (getPatchIndexPair n : Thread (SharedMap Sky K) Index2D).ReadOnly :=
  ro_num.bind fun _ => (ro_lift _).bind fun _ => (ro_lift _).bind fun _ => trivial

theorem ro_sequential (index : IndexArg) : (getSequentialPatchIndexFromPair index : Thread (SharedMap Sky K) Int).ReadOnly :=
  (ro_lift _).bind fun _ => ro_num.bind fun _ => trivial

theorem ro_resolve (index : IndexArg) : (resolve index : Thread (SharedMap Sky K) Index2D).ReadOnly := by
  cases index with
  | index2D i => trivial
  | number n => exact ro_indexPair n
  | seq l => trivial

theorem ro_inAxis (v : Int) (axis : Index2D → Int) : (inAxis v axis : Thread (SharedMap Sky K) Bool).ReadOnly := by
  unfold inAxis
  split
  · exact ro_num.bind fun _ => trivial
  · trivial

theorem ro_getPatchInfo {W : Type} (b : TractBuilder) (index : IndexArg) (w : W) :
    (getPatchInfo b index w : Thread (SharedMap Sky K) (PatchInfo W)).ReadOnly := by
  unfold getPatchInfo
  refine Thread.ReadOnly.bind (Thread.ReadOnly.read _) fun a => ?_
  split
  · trivial
  refine Thread.ReadOnly.bind (ro_resolve _) fun i => Thread.ReadOnly.bind (ro_inAxis _ _) fun x => ?_
  split
  · trivial
  refine Thread.ReadOnly.bind (ro_inAxis _ _) fun y => ?_
  split
  · trivial
  refine Thread.ReadOnly.bind ro_box fun box => ?_
  split
  · trivial
  dsimp only
  split
  · exact ro_box.bind fun _ => (ro_sequential _).bind fun _ => trivial
  · exact (ro_sequential _).bind fun _ => trivial

theorem ro_findPatch (env : FloatEnv K) (b : TractBuilder) (t : TractInfo Sky K) (c : Sky) : (findPatch env b t c).ReadOnly := by
  unfold findPatch
  split
  · trivial
  · split
    · trivial
    · exact (ro_lift _).bind fun _ => ro_getPatchInfo _ _ _

theorem ro_findPatchList (env : FloatEnv K) (b : TractBuilder) (t : TractInfo Sky K) (l : List Sky) : (findPatchList env b t l).ReadOnly := by
  unfold findPatchList
  dsimp only
  split
  · trivial
  · exact (ro_lift _).bind fun _ => (ro_lift _).bind fun _ => Thread.ReadOnly.mapM (fun _ => ro_getPatchInfo _ _ _) _

theorem ro_patches (b : TractBuilder) (t : TractInfo Sky K) : (patches b t).ReadOnly := Thread.ReadOnly.mapM (fun _ => ro_getPatchInfo _ _ _) _

/-! ## The sequential sky map -/

theorem fresh_state {k : Int} {t : TractInfo Sky K} {b : TractBuilder} (h : fresh m b₀ k = .ok (t, b)) :
    b = { b₀ with state := some ⟨t.numPatches, t.bbox⟩ } := by
  unfold fresh at h
  split at h
  · simp at h
  · obtain ⟨mb, bbox, n, -, h2, e⟩ := TractInfo.new_inv h
    unfold TractBuilder.setupPatches at h2
    obtain ⟨ax, -, h2⟩ := bindOk h2
    obtain ⟨ay, -, h2⟩ := bindOk h2
    simp only [pure, Except.pure, Except.ok.injEq, Prod.mk.injEq] at h2
    obtain ⟨rfl, rfl, rfl⟩ := h2
    rw [e]
    rfl

theorem objects_mem {cache : List (Option (TractRef Sky K))} {o : Nat} {t : TractInfo Sky K} (h : objects cache o = some t) :
    ∃ (i : Nat) (r : TractRef Sky K), cache[i]? = some (some r) ∧ r.oid = o ∧ r.info = t := by
  obtain ⟨x, hx, hxo⟩ := List.exists_of_findSome?_eq_some h
  obtain ⟨r, rfl, hr⟩ := Option.bind_eq_some_iff.1 hxo
  split at hr
  · next e =>
    obtain ⟨i, hi⟩ := List.mem_iff_getElem?.1 hx
    exact ⟨i, r, hi, e, Option.some.inj hr⟩
  · exact nomatch hr

theorem objects_get {cache : List (Option (TractRef Sky K))}
    (inj : ∀ (i j : Nat) r r', cache[i]? = some (some r) → cache[j]? = some (some r') → r.oid = r'.oid → i = j)
    {i : Nat} {r : TractRef Sky K} (h : cache[i]? = some (some r)) : objects cache r.oid = some r.info := by
  cases hq : objects cache r.oid with
  | none =>
    have := List.findSome?_eq_none_iff.1 hq _ (List.mem_of_getElem? h)
    simp at this
  | some t =>
    obtain ⟨j, r', hj, e, rfl⟩ := objects_mem hq
    obtain rfl := inj i j r r' h hj e.symm
    rw [h] at hj
    simp only [Option.some.injEq] at hj
    rw [hj]

theorem objects_set {cache : List (Option (TractRef Sky K))} {k n : Nat} (t : TractInfo Sky K) (hk : cache[k]? = some none)
    (hn : ∀ (i : Nat) r, cache[i]? = some (some r) → r.oid < n) :
    objects (cache.set k (some ⟨n, t⟩)) = fun o => if o = n then some t else objects cache o := by
  funext o
  unfold objects
  induction cache generalizing k with
  | nil => simp at hk
  | cons x l ih =>
    cases k with
    | zero =>
      simp only [List.getElem?_cons_zero, Option.some.injEq] at hk
      subst hk
      simp only [List.set_cons_zero, List.findSome?_cons, Option.bind_some, Option.bind_none]
      by_cases ho : n = o
      · rw [if_pos ho, if_pos ho.symm]
      · rw [if_neg ho, if_neg (Ne.symm ho)]
    | succ k =>
      have := ih (k := k) (by simpa using hk) fun i r h => hn (i + 1) r (by simpa using h)
      simp only [List.set_cons_succ, List.findSome?_cons, this]
      cases x with
      | none => rfl
      | some r =>
        have hr := hn 0 r rfl
        simp only [Option.bind_some]
        by_cases ho : o = n
        · rw [if_neg (by omega), if_pos ho]
        · simp only [if_neg ho]

theorem inv_of_state (hb : b₀.state = none) {s : MapState Sky K} (h : (CachingSkyMap.skyMapOps m).After (init m b₀) s) {d : Option Bytes}
    (hd : DigestOk H message d) : Inv m b₀ H message (SharedMap.ofState s d) := by
  have I := (CachingSkyMap.Inv.init m b₀).after h
  have hst : ∀ st, s.builder.state = some st → ∃ (k : Nat) (t : TractInfo Sky K) (b : TractBuilder), k < m.numTracts ∧
      fresh m b₀ k = .ok (t, b) ∧ st = ⟨t.numPatches, t.bbox⟩ := by
    intro st hst
    rcases CachingSkyMap.builder_reachable h with ⟨-, hb'⟩ | ⟨k, t, hk, hf⟩
    · rw [hb', hb] at hst
      simp at hst
    · refine ⟨k, t, _, hk, hf, ?_⟩
      rw [fresh_state hf] at hst
      exact (Option.some.inj hst).symm
  refine ⟨I.len, fun i r hr => (I.info i r hr).2, ?_, ?_, ?_, ?_, hd, fun i r hr => objects_get I.inj hr, fun o t h => ?_⟩
  rotate_left 4
  · obtain ⟨i, r, h1, rfl, -⟩ := objects_mem h
    exact (I.info i r h1).1
  · intro i r hr
    have := (I.info i r hr).1
    change s.builder.state.isSome = true
    rcases CachingSkyMap.builder_reachable h with ⟨h0, -⟩ | ⟨k, t, hk, hf⟩
    · omega
    · rw [fresh_state hf]
      rfl
  · intro hi
    change s.builder.state.isSome = true at hi
    change (s.builder.state.map _).isSome = true ∧ (s.builder.state.map _).isSome = true
    rw [Option.isSome_map, Option.isSome_map]
    exact ⟨hi, hi⟩
  · intro n hn
    change s.builder.state.map _ = some n at hn
    obtain ⟨st, h1, rfl⟩ := Option.map_eq_some_iff.1 hn
    obtain ⟨k, t, b, hk, hf, rfl⟩ := hst st h1
    exact ⟨k, t, b, hk, hf, rfl⟩
  · intro n hn
    change s.builder.state.map _ = some n at hn
    obtain ⟨st, h1, rfl⟩ := Option.map_eq_some_iff.1 hn
    obtain ⟨k, t, b, hk, hf, rfl⟩ := hst st h1
    exact ⟨k, t, b, hk, hf, rfl⟩

/-- A sequential loop over tracts, compared with a computation on values. -/
theorem seq_mapM {α β γ : Type} {f : α → PyS (MapState Sky K) β} {φ : β → γ} {g : α → PyM γ}
    (hf : ∀ k s, (CachingSkyMap.skyMapOps m).After (init m b₀) s → (f k s).1.map φ = g k ∧ (CachingSkyMap.skyMapOps m).After (init m b₀) (f k s).2)
    (l : List α) {s : MapState Sky K} (hs : (CachingSkyMap.skyMapOps m).After (init m b₀) s) :
    (PyS.mapM f l s).1.map (List.map φ) = pyMapM g l := by
  induction l generalizing s with
  | nil => rfl
  | cons a l ih =>
    rw [PyS.mapM_cons, PyS.bind_apply]
    obtain ⟨h1, h2⟩ := hf a s hs
    rcases hfa : f a s with ⟨x, s1⟩
    rw [hfa] at h1 h2
    unfold pyMapM
    rw [← h1]
    cases x with
    | error e => rfl
    | ok b =>
      have h3 := ih h2
      dsimp only at h3 ⊢
      rw [PyS.bind_apply]
      rw [← h3]
      rcases PyS.mapM f l s1 with ⟨y, s2⟩
      cases y with
      | error e => rfl
      | ok bs => rfl

theorem seq_value {s : MapState Sky K} (h : (CachingSkyMap.skyMapOps m).After (init m b₀) s) (i : Int) :
    (CachingSkyMap.getItem m i s).1.map TractRef.info = value m b₀ i := C19_history_independent h i

theorem seq_tracts : (BaseSkyMap.iter (CachingSkyMap.skyMapOps m) (init m b₀)).1.map (List.map TractRef.info) =
    pyMapM (fun k : Nat => value m b₀ k) (List.range m.numTracts) := by
  refine seq_mapM (fun k s hs => ?_) _ (SkyMapOps.After.refl _)
  rw [PyS.bind_apply]
  have h1 := seq_value hs k
  have h2 := hs.trans (SkyMapOps.After.step (M := CachingSkyMap.skyMapOps m) k s)
  change Except.map _ ((CachingSkyMap.skyMapOps m).getItem k s).1 = _ at h1
  rcases hx : (CachingSkyMap.skyMapOps m).getItem k s with ⟨x, s1⟩
  rw [hx] at h1 h2
  cases x with
  | error e => exact ⟨h1, h2⟩
  | ok t => exact ⟨h1, h2⟩

theorem seq_findTract (c : Sky) : (BaseSkyMap.findTract m.ops (CachingSkyMap.skyMapOps m) c (init m b₀)).1.map TractRef.info =
    (pyMapM (fun k : Nat => (value m b₀ k).map fun t => (m.ops.separation c t.ctrCoord, k, t)) (List.range m.numTracts)).bind nearest := by
  have h := seq_mapM (m := m) (b₀ := b₀) (φ := forget) (g := fun k : Nat => (value m b₀ k).map fun t => (m.ops.separation c t.ctrCoord, k, t))
    (f := fun i : Nat => do
      let t ← (CachingSkyMap.skyMapOps m).getItem (i : Int)
      pure (m.ops.separation c t.info.ctrCoord, i, t)) (fun k s hs => ?_) (List.range m.numTracts) (SkyMapOps.After.refl _)
  · rw [← h]
    unfold BaseSkyMap.findTract BaseSkyMap.forTracts
    rw [PyS.bind_apply]
    change _ = Except.bind (Except.map _ (PyS.mapM _ (List.range (CachingSkyMap.skyMapOps m).len) _).1) _
    rcases PyS.mapM _ (List.range (CachingSkyMap.skyMapOps m).len) (init m b₀) with ⟨x, s1⟩
    cases x with
    | error e => rfl
    | ok l =>
      change _ = nearest (l.map forget)
      rw [← nearest_map]
      dsimp only
      cases (pySort BaseSkyMap.tupleLe l).head? with
      | none => rfl
      | some x => rfl
  · rw [PyS.bind_apply]
    have h1 := seq_value hs k
    have h2 := hs.trans (SkyMapOps.After.step (M := CachingSkyMap.skyMapOps m) k s)
    change Except.map _ ((CachingSkyMap.skyMapOps m).getItem k s).1 = _ at h1
    rcases hx : (CachingSkyMap.skyMapOps m).getItem k s with ⟨x, s1⟩
    rw [hx] at h1 h2
    rw [← h1]
    cases x with
    | error e => exact ⟨rfl, h2⟩
    | ok t => exact ⟨rfl, h2⟩

theorem seq_findTractAt (index : PyM Int) {s : MapState Sky K} (h : (CachingSkyMap.skyMapOps m).After (init m b₀) s) :
    ((PyS.lift index >>= fun i => CachingSkyMap.getItem m i) s).1.map TractRef.info = index.bind (value m b₀) := by
  cases index with
  | error e => rfl
  | ok i => exact seq_value h i

theorem seq_findAllTracts (near : PyM (List Int)) (c : Sky) {s : MapState Sky K} (h : (CachingSkyMap.skyMapOps m).After (init m b₀) s) :
    ((PyS.lift near >>= fun l => PyS.mapM (fun i : Int => CachingSkyMap.getItem m i >>= fun t =>
        (pure (if t.info.contains c then [t] else []) : PyS (MapState Sky K) _)) l >>= fun ts => pure ts.flatten) s).1.map
      (List.map TractRef.info) = containing m b₀ near c := by
  cases near with
  | error e => rfl
  | ok l =>
    have hl := seq_mapM (m := m) (b₀ := b₀) (φ := List.map TractRef.info)
      (g := fun i => (value m b₀ i).map fun t => if t.contains c then [t] else [])
      (f := fun i : Int => CachingSkyMap.getItem m i >>= fun t => (pure (if t.info.contains c then [t] else []) : PyS (MapState Sky K) _))
      (fun i s hs => ?_) l h
    · unfold containing
      change _ = Except.map _ (pyMapM _ _)
      rw [← hl, PyS.bind_apply]
      dsimp only [PyS.lift]
      rw [PyS.bind_apply]
      rcases PyS.mapM _ l s with ⟨x, s1⟩
      cases x with
      | error e => rfl
      | ok ts => exact congrArg Except.ok List.map_flatten
    · rw [PyS.bind_apply]
      have h1 := seq_value hs i
      have h2 := hs.trans (SkyMapOps.After.step (M := CachingSkyMap.skyMapOps m) i s)
      change (CachingSkyMap.skyMapOps m).After _ (CachingSkyMap.getItem m i s).2 at h2
      rcases hx : CachingSkyMap.getItem m i s with ⟨x, s1⟩
      rw [hx] at h1 h2
      rw [← h1]
      cases x with
      | error e => exact ⟨rfl, h2⟩
      | ok t => exact ⟨congrArg Except.ok (map_keep c t), h2⟩

/-! ## All threads together -/

/-- What a method of tract `t` returns on a newly built sky map in which only `t` was accessed (`x t b` is its result when the builder
is `b`). -/
def AsAlone (m : CachingDef Sky K) (b₀ : TractBuilder) (t : TractRef Sky K) (x : TractInfo Sky K → TractBuilder → PyM (Value Sky K))
    (r : PyM (Value Sky K)) : Prop :=
  ∃ (k : Nat) (b : TractBuilder), k < m.numTracts ∧ fresh m b₀ k = .ok (t.info, b) ∧
    (m.Uniform b₀ → 0 < b₀.patchInnerDimensions.x → 0 < b₀.patchInnerDimensions.y → r = x t.info b)

/-- What holds of a call that has ended. -/
def Post (m : CachingDef Sky K) (b₀ : TractBuilder) (H : Bytes → Bytes) (message : PyM Bytes) :
    Call Sky K → PyM (Value Sky K) → Prop
  | .item i, r => r.map Value.plain = (value m b₀ i).map fun t => .tract ⟨0, t⟩
  | .tracts, r => r.map Value.plain =
      (pyMapM (fun k : Nat => value m b₀ k) (List.range m.numTracts)).map fun l => .tracts (l.map fun t => ⟨0, t⟩)
  | .findTract c, r => r.map Value.plain =
      ((pyMapM (fun k : Nat => (value m b₀ k).map fun t => (m.ops.separation c t.ctrCoord, k, t)) (List.range m.numTracts)).bind nearest).map
        fun t => .tract ⟨0, t⟩
  | .findTractAt index, r => r.map Value.plain = (index.bind (value m b₀)).map fun t => .tract ⟨0, t⟩
  | .findAllTracts near c, r => r.map Value.plain = (containing m b₀ near c).map fun l => .tracts (l.map fun t => ⟨0, t⟩)
  | .sha1, r => r = (message.map H).map .digest
  | .patch t index, r => AsAlone m b₀ t (fun t b => (t.getPatchInfo b index).map .patch) r
  | .findPatch t c, r => AsAlone m b₀ t (fun t b => (t.findPatch m.env b c).map .patch) r
  | .findPatchList t l, r => AsAlone m b₀ t (fun t b => (t.findPatchList m.env b l).map .patches) r
  | .patches t, r => AsAlone m b₀ t (fun t b => (t.iter b).map .patches) r
  | .sequentialIndex t index, r => AsAlone m b₀ t (fun t b => (t.getSequentialPatchIndexFromPair b index).map .int) r
  | .indexPair t n, r => AsAlone m b₀ t (fun t b => (t.getPatchIndexPair b n).map .pair) r

/-- The tracts that a call has returned are known. -/
def Returned (m : CachingDef Sky K) (b₀ : TractBuilder) (s : SharedMap Sky K) (r : PyM (Value Sky K)) : Prop :=
  ∀ v t, r = .ok v → (v = .tract t ∨ ∃ l, v = .tracts l ∧ t ∈ l) → Known m b₀ s t

theorem safe_map {α β : Type} {P : SharedMap Sky K → PyM α → Prop} {Q : SharedMap Sky K → PyM β → Prop} {p : Thread (SharedMap Sky K) α} {f : α → β}
    {s : SharedMap Sky K} (h : p.Safe (Inv m b₀ H message) Grows P s) (hPQ : ∀ s r, P s r → Q s (r.map f)) :
    (p.bind fun a => .done (.ok (f a))).Safe (Inv m b₀ H message) Grows Q s :=
  Thread.Safe.bind Grows.refl Grows.trans h (fun s' a _ hp => hPQ s' (.ok a) hp) fun s' e _ hp => hPQ s' (.error e) hp

theorem set_of_known (hu : m.Uniform b₀) (hx : 0 < b₀.patchInnerDimensions.x) (hy : 0 < b₀.patchInnerDimensions.y) {k : Nat} {t : TractInfo Sky K}
    {b : TractBuilder} (hk : k < m.numTracts) (hf : fresh m b₀ k = .ok (t, b)) {s : SharedMap Sky K} (hi : s.initialized = true)
    (I : Inv m b₀ H message s) : Set (some ⟨t.numPatches, t.bbox⟩) s := by
  have access : ∀ {j : Nat} {u : TractInfo Sky K} {b' : TractBuilder}, j < m.numTracts → fresh m b₀ j = .ok (u, b') → u.numPatches = t.numPatches := by
    intro j u b' hj hf'
    have g : ∀ {i : Nat} {v : TractInfo Sky K} {b'' : TractBuilder}, i < m.numTracts → fresh m b₀ i = .ok (v, b'') →
        CachingSkyMap.getItem m i (init m b₀) = (.ok ⟨0, v⟩, CachingSkyMap.stored (init m b₀) i v b'') := by
      intro i v b'' hi hv
      rw [CachingSkyMap.getItem_gen (CachingSkyMap.Inv.init m b₀) (by simp [init, hi]), hv]
      rfl
    exact hu j k _ _ _ _ (g hj hf') (g hk hf)
  obtain ⟨h1, h2⟩ := I.ready hi
  refine ⟨hi, ?_, ?_⟩
  · obtain ⟨n, hn⟩ := Option.isSome_iff_exists.1 h1
    obtain ⟨j, u, b', hj, hf', rfl⟩ := I.num n hn
    rw [hn, access hj hf']
    rfl
  · obtain ⟨n, hn⟩ := Option.isSome_iff_exists.1 h2
    obtain ⟨j, u, b', hj, hf', rfl⟩ := I.box n hn
    have B := fresh_built hx hy hf
    have B' := fresh_built hx hy hf'
    rw [hn, B'.box, access hj hf', B'.dims]
    change _ = some t.bbox
    rw [B.box, B.dims]

theorem tract_call {α : Type} {t : TractRef Sky K} {s : SharedMap Sky K} (hk : Known m b₀ s t) {p : Thread (SharedMap Sky K) α} (hro : p.ReadOnly)
    {x : TractInfo Sky K → TractBuilder → PyM α} {f : α → Value Sky K} (hf : ∀ a t', f a ≠ .tract t' ∧ ∀ l, f a ≠ .tracts l)
    (hdet : ∀ st, p.Det (Set st) (x t.info { b₀ with state := st })) :
    (p.bind fun a => .done (.ok (f a))).Safe (Inv m b₀ H message) Grows
      (fun s r => AsAlone m b₀ t (fun t b => (x t b).map f) r ∧ Returned m b₀ s r) s := by
  obtain ⟨hi, -, k, b, hkn, hfr⟩ := hk
  have hret : ∀ (s : SharedMap Sky K) (r : PyM α), Returned m b₀ s (r.map f) := by
    rintro s r v t' hv ht'
    obtain ⟨a, -, rfl⟩ := Except.map_ok_inv hv
    rcases ht' with h | ⟨l, h, -⟩
    · exact absurd h (hf a t').1
    · exact absurd h ((hf a t').2 l)
  by_cases hu : m.Uniform b₀ ∧ 0 < b₀.patchInnerDimensions.x ∧ 0 < b₀.patchInnerDimensions.y
  · obtain ⟨hu, hx, hy⟩ := hu
    refine safe_map (Thread.Det.safe Grows.refl Grows.trans (hdet (some ⟨t.info.numPatches, t.info.bbox⟩))
      fun s' hg I => set_of_known hu hx hy hkn hfr (hg.ini hi) I) ?_
    rintro s' r rfl
    refine ⟨⟨k, b, hkn, hfr, fun _ _ _ => ?_⟩, hret _ _⟩
    dsimp only
    rw [← fresh_state hfr]
  · refine safe_map (Thread.ReadOnly.safe Grows.refl hro s) ?_
    rintro s' r -
    exact ⟨⟨k, b, hkn, hfr, fun h1 h2 h3 => absurd ⟨h1, h2, h3⟩ hu⟩, hret _ _⟩

/-- Every call is safe when it is started on a tract of the sky map. -/
theorem call_safe_known {s : SharedMap Sky K} (q : Call Sky K) (known : ∀ {t}, q.on = some t → Known m b₀ s t) :
    (program m b₀ H message q).Safe (Inv m b₀ H message) Grows (fun s r => Post m b₀ H message q r ∧ Returned m b₀ s r) s := by
  cases q with
  | item i =>
    refine safe_map (getItem_safe i s) ?_
    rintro s' r ⟨h1, h2⟩
    refine ⟨?_, ?_⟩
    · change _ = (value m b₀ i).map _
      rw [← h1]
      cases r <;> rfl
    · rintro v t hv (rfl | ⟨l, rfl, -⟩)
      · obtain ⟨a, rfl, e⟩ := Except.map_ok_inv hv
        exact h2 t (by rw [Value.tract.inj e])
      · obtain ⟨a, rfl, e⟩ := Except.map_ok_inv hv
        exact nomatch e
  | tracts =>
    refine safe_map (tracts_safe s) ?_
    rintro s' r ⟨h1, h2⟩
    refine ⟨?_, ?_⟩
    · change _ = Except.map _ (pyMapM _ _)
      rw [← h1]
      cases r with
      | error e => rfl
      | ok l =>
        change Except.ok (Value.tracts (l.map _)) = Except.ok (Value.tracts ((l.map _).map _))
        rw [List.map_map]
        rfl
    · rintro v t hv (rfl | ⟨l, rfl, hl⟩)
      · obtain ⟨a, rfl, e⟩ := Except.map_ok_inv hv
        exact nomatch e
      · obtain ⟨a, rfl, e⟩ := Except.map_ok_inv hv
        exact h2 l (by rw [Value.tracts.inj e]) t hl
  | findTract c =>
    refine safe_map (findTract_safe c s) ?_
    rintro s' r ⟨h1, h2⟩
    refine ⟨?_, ?_⟩
    · change _ = Except.map _ (Except.bind (pyMapM _ _) _)
      rw [← h1]
      cases r <;> rfl
    · rintro v t hv (rfl | ⟨l, rfl, -⟩)
      · obtain ⟨a, rfl, e⟩ := Except.map_ok_inv hv
        exact h2 t (by rw [Value.tract.inj e])
      · obtain ⟨a, rfl, e⟩ := Except.map_ok_inv hv
        exact nomatch e
  | findTractAt index =>
    refine safe_map (findTractAt_safe index s) ?_
    rintro s' r ⟨h1, h2⟩
    refine ⟨?_, ?_⟩
    · change _ = Except.map _ (Except.bind _ _)
      rw [← h1]
      cases r <;> rfl
    · rintro v t hv (rfl | ⟨l, rfl, -⟩)
      · obtain ⟨a, rfl, e⟩ := Except.map_ok_inv hv
        exact h2 t (by rw [Value.tract.inj e])
      · obtain ⟨a, rfl, e⟩ := Except.map_ok_inv hv
        exact nomatch e
  | findAllTracts near c =>
    refine safe_map (findAllTracts_safe near c s) ?_
    rintro s' r ⟨h1, h2⟩
    refine ⟨?_, ?_⟩
    · change _ = Except.map _ (containing m b₀ near c)
      rw [← h1]
      cases r with
      | error e => rfl
      | ok l =>
        change Except.ok (Value.tracts (l.map _)) = Except.ok (Value.tracts ((l.map _).map _))
        rw [List.map_map]
        rfl
    · rintro v t hv (rfl | ⟨l, rfl, hl⟩)
      · obtain ⟨a, rfl, e⟩ := Except.map_ok_inv hv
        exact nomatch e
      · obtain ⟨a, rfl, e⟩ := Except.map_ok_inv hv
        exact h2 l (by rw [Value.tracts.inj e]) t hl
  | sha1 =>
    refine safe_map (sha1_safe s) ?_
    rintro s' r rfl
    refine ⟨rfl, ?_⟩
    rintro v t hv (rfl | ⟨l, rfl, -⟩)
    all_goals
      obtain ⟨a, -, e⟩ := Except.map_ok_inv hv
      exact nomatch e
  | patch t index => exact tract_call (known rfl) (ro_getPatchInfo _ _ _) (x := fun t b => t.getPatchInfo b index) (by simp) fun st => det_getPatchInfo st _ _
  | findPatch t c => exact tract_call (known rfl) (ro_findPatch _ _ _ _) (x := fun t b => t.findPatch m.env b c) (by simp) fun st => det_findPatch st _ _ _
  | findPatchList t l =>
    exact tract_call (known rfl) (ro_findPatchList _ _ _ _) (x := fun t b => t.findPatchList m.env b l) (by simp) fun st => det_findPatchList st _ _ _
  | patches t => exact tract_call (known rfl) (ro_patches _ _) (x := fun t b => t.iter b) (by simp) fun st => det_patches st _
  | sequentialIndex t index =>
    exact tract_call (known rfl) (ro_sequential _) (x := fun t b => t.getSequentialPatchIndexFromPair b index) (by simp) fun st => det_sequential _ st _
  | indexPair t n => exact tract_call (known rfl) (ro_indexPair _) (x := fun t b => t.getPatchIndexPair b n) (by simp) fun st => det_indexPair _ st _

/-- Every call is safe when it is started. -/
theorem call_safe {s : SharedMap Sky K} {ended : List (Call Sky K × PyM (Value Sky K))} (q : Call Sky K)
    (hended : ∀ x ∈ ended, Post m b₀ H message x.1 x.2 ∧ Returned m b₀ s x.2) (ha : allowed ended q) :
    (program m b₀ H message q).Safe (Inv m b₀ H message) Grows (fun s r => Post m b₀ H message q r ∧ Returned m b₀ s r) s := by
  have known : ∀ {t : TractRef Sky K}, Given ended t → Known m b₀ s t := by
    rintro t ⟨q, v, hq, hv⟩
    exact (hended _ hq).2 v t rfl hv
  refine call_safe_known q fun {t} ht => known ?_
  cases q <;> first | (rw [← Option.some.inj ht]; exact ha) | simp [Call.on] at ht

section
variable {s : MapState Sky K} {h : Option Bytes} {S : System (SharedMap Sky K) (Call Sky K) (Value Sky K)}

theorem reached_post (hb : b₀.state = none) (hs : (CachingSkyMap.skyMapOps m).After (init m b₀) s) (hh : DigestOk H message h)
    (hS : Reached m b₀ H message (.ofState s h) S) :
    Inv m b₀ H message S.shared ∧ ∀ x ∈ S.ended, Post m b₀ H message x.1 x.2 ∧ Returned m b₀ S.shared x.2 := by
  obtain ⟨h1, -, h3⟩ := System.Reached.sound (I := Inv m b₀ H message) (le := Grows)
    (post := fun q s r => Post m b₀ H message q r ∧ Returned m b₀ s r) Grows.refl Grows.trans
    (fun q s s' r hg hp => ⟨hp.1, fun v t hv ht => (hp.2 v t hv ht).mono hg⟩) (inv_of_state hb hs hh)
    (fun s ended q _ hended ha => call_safe q hended ha) hS
  exact ⟨h1, h3⟩

/-- C67: a caching sky map that has been used by one thread (or not at all) is now used by any number of threads, making any calls under
any schedule.  Every `skyMap[i]`, `list(skyMap)` and `findTract` that has ended gave what it gives on a newly built sky map used by
one thread - the same exception, or tracts with the same id, centre, vertices, overlap, number of patches, bounding box and WCS - and every
`getSha1` gave the digest. -/
theorem C67_sky_map_calls (hb : b₀.state = none) (hs : (CachingSkyMap.skyMapOps m).After (init m b₀) s) (hh : DigestOk H message h)
    (hS : Reached m b₀ H message (.ofState s h) S) :
    (∀ i r, (Call.item i, r) ∈ S.ended → r.map Value.plain =
      (CachingSkyMap.getItem m i (init m b₀)).1.map fun t => (Value.tract t).plain) ∧
    (∀ r, (Call.tracts, r) ∈ S.ended → r.map Value.plain =
      (BaseSkyMap.iter (CachingSkyMap.skyMapOps m) (init m b₀)).1.map fun l => (Value.tracts l).plain) ∧
    (∀ c r, (Call.findTract c, r) ∈ S.ended → r.map Value.plain =
      (BaseSkyMap.findTract m.ops (CachingSkyMap.skyMapOps m) c (init m b₀)).1.map fun t => (Value.tract t).plain) ∧
    (∀ r, (Call.sha1, r) ∈ S.ended → r = message.map fun x => .digest (H x)) := by
  have hp := (reached_post hb hs hh hS).2
  refine ⟨fun i r hr => ?_, fun r hr => ?_, fun c r hr => ?_, fun r hr => ?_⟩
  · have : r.map Value.plain = (value m b₀ i).map _ := (hp _ hr).1
    rw [this]
    unfold value
    cases (CachingSkyMap.getItem m i (init m b₀)).1 <;> rfl
  · have : r.map Value.plain = Except.map _ (pyMapM _ _) := (hp _ hr).1
    rw [this, ← seq_tracts]
    cases (BaseSkyMap.iter (CachingSkyMap.skyMapOps m) (init m b₀)).1 with
    | error e => rfl
    | ok l =>
      change Except.ok (Value.tracts ((l.map _).map _)) = Except.ok (Value.tracts (l.map _))
      rw [List.map_map]
      rfl
  · have : r.map Value.plain = Except.map _ (Except.bind (pyMapM _ _) _) := (hp _ hr).1
    rw [this, ← seq_findTract]
    cases (BaseSkyMap.findTract m.ops (CachingSkyMap.skyMapOps m) c (init m b₀)).1 <;> rfl
  · have : r = (message.map H).map .digest := (hp _ hr).1
    rw [this]
    cases message <;> rfl

/-- C67: if moreover all tracts have the same number of patches, then every patch lookup on a tract that any thread was given has
given what it gives on a newly built sky map in which only this tract was accessed, by one thread: `r₀` is that tract and `s₀` the state. -/
theorem C67_patch_calls (hb : b₀.state = none) (hs : (CachingSkyMap.skyMapOps m).After (init m b₀) s) (hh : DigestOk H message h)
    (hS : Reached m b₀ H message (.ofState s h) S) (hid : ∀ i a, m.tractArgs i = .ok a → a.id = i) (hu : m.Uniform b₀)
    (hx : 0 < b₀.patchInnerDimensions.x) (hy : 0 < b₀.patchInnerDimensions.y) (t : TractRef Sky K) (ht : Given S.ended t) :
    ∃ r₀ s₀, CachingSkyMap.getItem m t.info.id (init m b₀) = (.ok r₀, s₀) ∧ r₀.info = t.info ∧
      (∀ index r, (Call.patch t index, r) ∈ S.ended → r = (r₀.info.getPatchInfo s₀.builder index).map .patch) ∧
      (∀ c r, (Call.findPatch t c, r) ∈ S.ended → r = (r₀.info.findPatch m.env s₀.builder c).map .patch) ∧
      (∀ l r, (Call.findPatchList t l, r) ∈ S.ended → r = (r₀.info.findPatchList m.env s₀.builder l).map .patches) ∧
      (∀ r, (Call.patches t, r) ∈ S.ended → r = (r₀.info.iter s₀.builder).map .patches) ∧
      (∀ index r, (Call.sequentialIndex t index, r) ∈ S.ended →
        r = (r₀.info.getSequentialPatchIndexFromPair s₀.builder index).map .int) ∧
      (∀ n r, (Call.indexPair t n, r) ∈ S.ended → r = (r₀.info.getPatchIndexPair s₀.builder n).map .pair) := by
  have hp := (reached_post hb hs hh hS).2
  obtain ⟨q, v, hq, hv⟩ := ht
  obtain ⟨-, -, k, b, hk, hf⟩ := (hp _ hq).2 v t rfl hv
  have idk : ∀ {k : Nat} {b : TractBuilder}, fresh m b₀ k = .ok (t.info, b) → t.info.id = k := by
    intro k b hf
    unfold fresh at hf
    split at hf
    · simp at hf
    · rename_i a ha
      obtain ⟨mb, bbox, n, -, -, e⟩ := TractInfo.new_inv hf
      rw [e]
      exact hid _ _ ha
  have uniq : ∀ {x : TractInfo Sky K → TractBuilder → PyM (Value Sky K)} {r : PyM (Value Sky K)}, AsAlone m b₀ t x r → r = x t.info b := by
    rintro x r ⟨k', b', -, hf', h⟩
    have e := (idk hf').symm.trans (idk hf)
    rw [e, hf] at hf'
    simp only [Except.ok.injEq, Prod.mk.injEq, true_and] at hf'
    rw [hf']
    exact h hu hx hy
  refine ⟨⟨0, t.info⟩, CachingSkyMap.stored (init m b₀) k t.info b, ?_, rfl, ?_, ?_, ?_, ?_, ?_, ?_⟩
  · rw [idk hf, CachingSkyMap.getItem_gen (CachingSkyMap.Inv.init m b₀) (by simp [init, hk]), hf]
    rfl
  · exact fun index r hr => uniq (x := fun t b => (t.getPatchInfo b index).map .patch) (hp _ hr).1
  · exact fun c r hr => uniq (x := fun t b => (t.findPatch m.env b c).map .patch) (hp _ hr).1
  · exact fun l r hr => uniq (x := fun t b => (t.findPatchList m.env b l).map .patches) (hp _ hr).1
  · exact fun r hr => uniq (x := fun t b => (t.iter b).map .patches) (hp _ hr).1
  · exact fun index r hr => uniq (x := fun t b => (t.getSequentialPatchIndexFromPair b index).map .int) (hp _ hr).1
  · exact fun n r hr => uniq (x := fun t b => (t.getPatchIndexPair b n).map .pair) (hp _ hr).1

end

/-! ## A sky map whose tracts have all been accessed -/

/-- The same shared attributes, except perhaps `_sha1`. -/
def Frozen (s₀ s : SharedMap Sky K) : Prop := ∃ d, s = { s₀ with sha1 := d }

/-- A construction that fails does so before it writes anything. -/
theorem generate_err {k : Nat} {e : PyErr} (h : fresh m b₀ k = .error e) : generateTract m b₀ (k : Int) = .done (.error e) := by
  unfold fresh at h
  unfold generateTract
  cases ha : m.tractArgs k with
  | error e' =>
    rw [ha] at h
    rw [← Except.error.inj h]
    rfl
  | ok a =>
    rw [ha] at h
    dsimp only at h
    unfold TractInfo.new at h
    change newTract m.env m.ops b₀ a = _
    unfold newTract
    cases hmb : minimumBoundingBox m.env m.ops a with
    | error e' =>
      rw [hmb] at h
      rw [← Except.error.inj h]
      rfl
    | ok mb =>
      rw [hmb] at h
      change Thread.bind (setupPatches b₀ mb.toBox2I) _ = _
      unfold setupPatches
      cases hsp : b₀.setupPatches mb.toBox2I with
      | error e' =>
        simp only [bind, Except.bind, hsp] at h
        rw [← Except.error.inj h]
        rfl
      | ok r =>
        simp only [bind, Except.bind, hsp] at h
        exact nomatch h

section
variable {s : MapState Sky K} {h : Option Bytes} {S : System (SharedMap Sky K) (Call Sky K) (Value Sky K)}

theorem warm_getItem (hs : (CachingSkyMap.skyMapOps m).After (init m b₀) s) (hw : ∀ i, (CachingSkyMap.getItem m i s).2 = s) (i : Int) :
    (getItem m b₀ i).Det (Frozen (SharedMap.ofState s h)) (CachingSkyMap.getItem m i s).1 := by
  have I := (CachingSkyMap.Inv.init m b₀).after hs
  have hw' := hw i
  unfold getItem
  rcases CachingSkyMap.getItem_spec I i with ⟨hi, e1⟩ | ⟨k, rfl, hk, ⟨r', hr, e1⟩ | ⟨hn, er, hf, e1⟩ | ⟨hc', t, b, hf, e1⟩⟩
  · rw [e1]
    split
    · rfl
    · rintro s1 ⟨d, rfl⟩
      refine ⟨rfl, ?_⟩
      change (Thread.bind (Thread.done (pyGetItem s.cache i)) _).Det _ _
      have : pyGetItem s.cache i = .error .IndexError := by
        have hl : ¬ i < 0 := by omega
        unfold pyGetItem
        simp only [hl, if_false]
        rw [List.getElem?_eq_none (by rw [I.len]; omega)]
      rw [this]
      rfl
  · rw [e1, if_neg (by omega)]
    rintro s1 ⟨d, rfl⟩
    refine ⟨rfl, ?_⟩
    change (Thread.bind (Thread.done (pyGetItem s.cache (k : Int))) _).Det _ _
    rw [CachingSkyMap.pyGetItem_nat hr]
    rintro s1 ⟨d, rfl⟩
    refine ⟨rfl, ?_⟩
    change (Thread.bind (Thread.done (pyGetItem s.cache (k : Int))) _).Det _ _
    rw [CachingSkyMap.pyGetItem_nat hr]
    rfl
  · rw [e1, if_neg (by omega)]
    rintro s1 ⟨d, rfl⟩
    refine ⟨rfl, ?_⟩
    change (Thread.bind (Thread.done (pyGetItem s.cache (k : Int))) _).Det _ _
    rw [CachingSkyMap.pyGetItem_nat hn]
    change (Thread.bind (generateTract m b₀ (k : Int)) _).Det _ _
    rw [generate_err hf]
    rfl
  · rw [e1] at hw'
    have := congrArg MapState.nextOid hw'
    simp [CachingSkyMap.stored] at this

theorem warm_mapM {α β : Type} {f : α → Thread (SharedMap Sky K) β} {g : α → PyS (MapState Sky K) β} {c : SharedMap Sky K → Prop}
    (hg : ∀ k, (g k s).2 = s) (hf : ∀ k, (f k).Det c (g k s).1) (l : List α) :
    (Thread.mapM f l).Det c (PyS.mapM g l s).1 ∧ (PyS.mapM g l s).2 = s := by
  induction l with
  | nil => exact ⟨rfl, rfl⟩
  | cons k l ih =>
    rw [PyS.mapM_cons, PyS.bind_apply]
    have h1 := hg k
    have h2 := hf k
    rcases hx : g k s with ⟨x, s1⟩
    rw [hx] at h1 h2
    dsimp only at h1
    subst h1
    obtain ⟨i1, i2⟩ := ih
    rcases hy : PyS.mapM g l s1 with ⟨y, s2⟩
    rw [hy] at i1 i2
    dsimp only at i2
    subst i2
    have := h2.bind (f := fun b => (Thread.mapM f l).bind fun bs => .done (.ok (b :: bs))) (g := fun b => y.bind fun bs => .ok (b :: bs))
      fun b _ => i1.bind fun bs _ => rfl
    cases x with
    | error e => exact ⟨this, rfl⟩
    | ok b =>
      dsimp only
      rw [PyS.bind_apply, hy]
      cases y with
      | error e => exact ⟨this, rfl⟩
      | ok bs => exact ⟨this, rfl⟩

theorem warm_body {β : Type} (hs : (CachingSkyMap.skyMapOps m).After (init m b₀) s) (hw : ∀ i, (CachingSkyMap.getItem m i s).2 = s)
    (f : Int → TractRef Sky K → β) (k : Int) :
    ((getItem m b₀ k).bind fun t => .done (.ok (f k t))).Det (Frozen (SharedMap.ofState s h))
      (((CachingSkyMap.skyMapOps m).getItem k >>= fun t => pure (f k t)) s).1 ∧
    (((CachingSkyMap.skyMapOps m).getItem k >>= fun t => (pure (f k t) : PyS (MapState Sky K) β)) s).2 = s := by
  rw [PyS.bind_apply]
  have h1 := warm_getItem (h := h) hs hw k
  have h2 := hw k
  have h3 := h1.bind (f := fun t => .done (.ok (f k t))) (g := fun t => .ok (f k t)) fun b _ => rfl
  change (_ : Thread _ _).Det _ (Except.bind ((CachingSkyMap.skyMapOps m).getItem k s).1 _) at h3
  change ((CachingSkyMap.skyMapOps m).getItem k s).2 = s at h2
  rcases hx : (CachingSkyMap.skyMapOps m).getItem k s with ⟨x, s1⟩
  rw [hx] at h2 h3
  cases x with
  | error e => exact ⟨h3, h2⟩
  | ok b => exact ⟨h3, h2⟩

theorem warm_tracts (hs : (CachingSkyMap.skyMapOps m).After (init m b₀) s) (hw : ∀ i, (CachingSkyMap.getItem m i s).2 = s) :
    (tracts m b₀).Det (Frozen (SharedMap.ofState s h)) (BaseSkyMap.iter (CachingSkyMap.skyMapOps m) s).1 := by
  refine (warm_mapM (g := fun i : Nat => (CachingSkyMap.skyMapOps m).getItem (i : Int) >>= fun t => pure t)
    (fun k => (warm_body (h := h) hs hw (fun _ t => t) k).2) (fun k => ?_) _).1
  have := (warm_body (h := h) hs hw (fun _ t => t) k).1
  have e : ∀ p : Thread (SharedMap Sky K) (TractRef Sky K), (p.bind fun t => .done (.ok t)) = p := by
    intro p
    induction p with
    | done r => cases r <;> rfl
    | step u n ih =>
      change Thread.step u _ = Thread.step u n
      congr 1
      funext s
      exact ih s
  rw [e] at this
  exact this

theorem warm_findTract (hs : (CachingSkyMap.skyMapOps m).After (init m b₀) s) (hw : ∀ i, (CachingSkyMap.getItem m i s).2 = s) (c : Sky) :
    (findTract m b₀ c).Det (Frozen (SharedMap.ofState s h)) (BaseSkyMap.findTract m.ops (CachingSkyMap.skyMapOps m) c s).1 := by
  have h1 := warm_mapM (g := fun i : Nat => (CachingSkyMap.skyMapOps m).getItem (i : Int) >>= fun t => pure (m.ops.separation c t.info.ctrCoord, i, t))
    (fun k => (warm_body (h := h) hs hw (fun i t => (m.ops.separation c t.info.ctrCoord, i.toNat, t)) k).2)
    (fun k => (warm_body (h := h) hs hw (fun i t => (m.ops.separation c t.info.ctrCoord, i.toNat, t)) k).1) (List.range m.numTracts)
  have h3 := h1.1.bind (f := fun l => Thread.lift (match (pySort BaseSkyMap.tupleLe l).head? with
    | some x => .ok x.2.2
    | none => .error .IndexError)) fun l _ => Thread.Det.lift (match (pySort BaseSkyMap.tupleLe l).head? with
    | some x => .ok x.2.2
    | none => .error .IndexError)
  unfold BaseSkyMap.findTract BaseSkyMap.forTracts
  rw [PyS.bind_apply]
  change (_ : Thread _ _).Det _ (Except.bind (PyS.mapM _ (List.range (CachingSkyMap.skyMapOps m).len) s).1 _) at h3
  refine (congrArg _ ?_).mp h3
  rcases PyS.mapM _ (List.range (CachingSkyMap.skyMapOps m).len) s with ⟨x, s1⟩
  cases x with
  | error e => rfl
  | ok l =>
    dsimp only [Except.bind]
    cases (pySort BaseSkyMap.tupleLe l).head? with
    | none => rfl
    | some x => rfl

theorem warm_findTractAt (hs : (CachingSkyMap.skyMapOps m).After (init m b₀) s) (hw : ∀ i, (CachingSkyMap.getItem m i s).2 = s) (index : PyM Int) :
    (findTractAt m b₀ index).Det (Frozen (SharedMap.ofState s h)) ((PyS.lift index >>= fun i => CachingSkyMap.getItem m i) s).1 := by
  unfold findTractAt
  cases index with
  | error e => rfl
  | ok i => exact warm_getItem hs hw i

theorem warm_findAllTracts (hs : (CachingSkyMap.skyMapOps m).After (init m b₀) s) (hw : ∀ i, (CachingSkyMap.getItem m i s).2 = s)
    (near : PyM (List Int)) (c : Sky) :
    (findAllTracts m b₀ near c).Det (Frozen (SharedMap.ofState s h))
      ((PyS.lift near >>= fun l => PyS.mapM (fun i : Int => CachingSkyMap.getItem m i >>= fun t =>
        (pure (if t.info.contains c then [t] else []) : PyS (MapState Sky K) _)) l >>= fun ts => pure ts.flatten) s).1 := by
  unfold findAllTracts
  cases near with
  | error e => rfl
  | ok l =>
    have h1 := (warm_mapM (g := fun i : Int => CachingSkyMap.getItem m i >>= fun t =>
        (pure (if t.info.contains c then [t] else []) : PyS (MapState Sky K) _))
      (fun k => (warm_body (h := h) hs hw (fun _ t => if t.info.contains c then [t] else []) k).2)
      (fun k => (warm_body (h := h) hs hw (fun _ t => if t.info.contains c then [t] else []) k).1) l).1
    have h3 := h1.bind (f := fun ts => Thread.lift (.ok ts.flatten)) (g := fun ts => .ok ts.flatten) fun _ _ => Thread.Det.lift _
    rw [PyS.bind_apply]
    dsimp only [PyS.lift]
    rw [PyS.bind_apply]
    refine (congrArg _ ?_).mp h3
    rcases PyS.mapM _ l s with ⟨x, s1⟩
    cases x <;> rfl

/-- What the calls give with one thread in state `s`. -/
def InState (m : CachingDef Sky K) (s : MapState Sky K) : Call Sky K → PyM (Value Sky K) → Prop
  | .item i, r => r = (CachingSkyMap.getItem m i s).1.map .tract
  | .tracts, r => r = (BaseSkyMap.iter (CachingSkyMap.skyMapOps m) s).1.map .tracts
  | .findTract c, r => r = (BaseSkyMap.findTract m.ops (CachingSkyMap.skyMapOps m) c s).1.map .tract
  | .findTractAt index, r => r = ((PyS.lift index >>= fun i => CachingSkyMap.getItem m i) s).1.map .tract
  | .findAllTracts near c, r => r = ((PyS.lift near >>= fun l => PyS.mapM (fun i : Int => CachingSkyMap.getItem m i >>= fun t =>
      (pure (if t.info.contains c then [t] else []) : PyS (MapState Sky K) _)) l >>= fun ts => pure ts.flatten) s).1.map .tracts
  | .sha1, _ => True
  | .patch t index, r => r = (t.info.getPatchInfo s.builder index).map .patch
  | .findPatch t c, r => r = (t.info.findPatch m.env s.builder c).map .patch
  | .findPatchList t l, r => r = (t.info.findPatchList m.env s.builder l).map .patches
  | .patches t, r => r = (t.info.iter s.builder).map .patches
  | .sequentialIndex t index, r => r = (t.info.getSequentialPatchIndexFromPair s.builder index).map .int
  | .indexPair t n, r => r = (t.info.getPatchIndexPair s.builder n).map .pair

theorem warm_call (hs : (CachingSkyMap.skyMapOps m).After (init m b₀) s) (hw : ∀ i, (CachingSkyMap.getItem m i s).2 = s) (q : Call Sky K)
    (s' : SharedMap Sky K) :
    (program m b₀ H message q).Safe (Frozen (SharedMap.ofState s h)) (fun _ _ => True) (fun _ r => InState m s q r) s' := by
  obtain ⟨st, hst⟩ := ((CachingSkyMap.Inv.init m b₀).after hs).bld
  have hset : ∀ s', Frozen (SharedMap.ofState s h) s' → Set s.builder.state s' := by
    rintro s' ⟨d, rfl⟩
    exact ⟨rfl, rfl, rfl⟩
  have heq : ({ b₀ with state := s.builder.state } : TractBuilder) = s.builder := by
    rw [hst]
  have call : ∀ {α : Type} {p : Thread (SharedMap Sky K) α} {x : PyM α} {c : SharedMap Sky K → Prop} (f : α → Value Sky K), p.Det c x →
      (∀ s', Frozen (SharedMap.ofState s h) s' → c s') → ∀ s',
      (p.bind fun a => .done (.ok (f a))).Safe (Frozen (SharedMap.ofState s h)) (fun _ _ => True) (fun _ r => r = x.map f) s' := by
    intro α p x c f hd hc s'
    refine Thread.Det.safe (c := c) (x := x.map f) (fun _ => trivial) (fun _ _ _ _ _ => trivial) ?_ fun s'' _ hI => hc s'' hI
    have := hd.bind (f := fun a => .done (.ok (f a))) (g := fun a => .ok (f a)) fun a _ => rfl
    refine (congrArg _ ?_).mp this
    cases x <;> rfl
  have last : ∀ (x : PyM Bytes) (s' : SharedMap Sky K), (Thread.bind (.done x) fun a => .done (.ok (Value.digest a))).Safe (Frozen (SharedMap.ofState s h))
      (fun _ _ => True) (fun _ r => InState m s .sha1 r) s' := by
    intro x s'
    cases x <;> trivial
  · cases q with
    | item i => exact call _ (warm_getItem hs hw i) (fun _ hc => hc) s'
    | tracts => exact call _ (warm_tracts hs hw) (fun _ hc => hc) s'
    | findTract c => exact call _ (warm_findTract hs hw c) (fun _ hc => hc) s'
    | findTractAt index => exact call _ (warm_findTractAt hs hw index) (fun _ hc => hc) s'
    | findAllTracts near c => exact call _ (warm_findAllTracts hs hw near c) (fun _ hc => hc) s'
    | sha1 =>
      rintro s1 - ⟨d, rfl⟩
      refine ⟨⟨d, rfl⟩, trivial, ?_⟩
      cases d with
      | some d => exact fun s2 _ I2 => ⟨I2, trivial, last (getAttr s2.sha1) _⟩
      | none =>
        cases message with
        | error e => trivial
        | ok b =>
          rintro s2 - ⟨d, rfl⟩
          refine ⟨⟨_, rfl⟩, trivial, ?_⟩
          exact fun s3 _ I3 => ⟨I3, trivial, last (getAttr s3.sha1) _⟩
    | patch t index => exact call _ (heq ▸ det_getPatchInfo s.builder.state _ _) hset s'
    | findPatch t c => exact call _ (heq ▸ det_findPatch s.builder.state _ _ _) hset s'
    | findPatchList t l => exact call _ (heq ▸ det_findPatchList s.builder.state _ _ _) hset s'
    | patches t => exact call _ (heq ▸ det_patches s.builder.state _) hset s'
    | sequentialIndex t index => exact call _ (heq ▸ det_sequential b₀ s.builder.state _) hset s'
    | indexPair t n => exact call _ (heq ▸ det_indexPair b₀ s.builder.state _) hset s'

theorem warm_post (hs : (CachingSkyMap.skyMapOps m).After (init m b₀) s) (hw : ∀ i, (CachingSkyMap.getItem m i s).2 = s)
    (hS : Reached m b₀ H message (.ofState s h) S) : (∃ d, S.shared = .ofState s d) ∧ ∀ x ∈ S.ended, InState m s x.1 x.2 := by
  have key := System.Reached.sound (I := Frozen (SharedMap.ofState s h)) (le := fun _ _ => True) (post := fun q _ r => InState m s q r)
    (fun _ => trivial) (fun _ _ _ _ _ => trivial) (fun _ _ _ _ _ hp => hp) ⟨h, rfl⟩ (fun s' _ q _ _ _ => warm_call hs hw q s') hS
  exact ⟨key.1, key.2.2⟩

/-- C67: if every access to a tract would leave the sky map as it is - all tracts have been accessed - then nothing that any number of threads do
changes it (except that the digest is remembered), and each call gives exactly what it gives with one thread: for tracts, the identical
objects.  No assumption on the numbers of patches is needed. -/
theorem C67_warm (hs : (CachingSkyMap.skyMapOps m).After (init m b₀) s) (hw : ∀ i, (CachingSkyMap.getItem m i s).2 = s)
    (hS : Reached m b₀ H message (.ofState s h) S) :
    (∃ d, S.shared = .ofState s d) ∧
    (∀ i r, (Call.item i, r) ∈ S.ended → r = (CachingSkyMap.getItem m i s).1.map .tract) ∧
    (∀ r, (Call.tracts, r) ∈ S.ended → r = (BaseSkyMap.iter (CachingSkyMap.skyMapOps m) s).1.map .tracts) ∧
    (∀ c r, (Call.findTract c, r) ∈ S.ended →
      r = (BaseSkyMap.findTract m.ops (CachingSkyMap.skyMapOps m) c s).1.map .tract) ∧
    (∀ t index r, (Call.patch t index, r) ∈ S.ended → r = (t.info.getPatchInfo s.builder index).map .patch) ∧
    (∀ t c r, (Call.findPatch t c, r) ∈ S.ended → r = (t.info.findPatch m.env s.builder c).map .patch) ∧
    (∀ t l r, (Call.findPatchList t l, r) ∈ S.ended → r = (t.info.findPatchList m.env s.builder l).map .patches) ∧
    (∀ t r, (Call.patches t, r) ∈ S.ended → r = (t.info.iter s.builder).map .patches) ∧
    (∀ t index r, (Call.sequentialIndex t index, r) ∈ S.ended →
      r = (t.info.getSequentialPatchIndexFromPair s.builder index).map .int) ∧
    (∀ t n r, (Call.indexPair t n, r) ∈ S.ended → r = (t.info.getPatchIndexPair s.builder n).map .pair) := by
  obtain ⟨⟨d, hd⟩, hp⟩ := warm_post hs hw hS
  exact ⟨⟨d, hd⟩, fun i r hr => hp _ hr, fun r hr => hp _ hr, fun c r hr => hp _ hr, fun t i r hr => hp _ hr, fun t i r hr => hp _ hr,
    fun t i r hr => hp _ hr, fun t r hr => hp _ hr, fun t i r hr => hp _ hr, fun t i r hr => hp _ hr⟩

end

/-! ## One thread -/

/-- Run without interruption, `p` does what the sequential method `x` does, in every state that a sky map reaches. -/
def Sim (m : CachingDef Sky K) (b₀ : TractBuilder) {α : Type} (p : Thread (SharedMap Sky K) α) (x : PyS (MapState Sky K) α) : Prop :=
  ∀ s h, (CachingSkyMap.skyMapOps m).After (init m b₀) s → p.run (SharedMap.ofState s h) = ((x s).1, .ofState (x s).2 h) ∧
    (CachingSkyMap.skyMapOps m).After (init m b₀) (x s).2

theorem Sim.bind {α β : Type} {p : Thread (SharedMap Sky K) α} {x : PyS (MapState Sky K) α} {f : α → Thread (SharedMap Sky K) β}
    {g : α → PyS (MapState Sky K) β} (h : Sim m b₀ p x) (hf : ∀ a, Sim m b₀ (f a) (g a)) : Sim m b₀ (p.bind f) (x >>= g) := by
  intro s d hs
  obtain ⟨h1, h2⟩ := h s d hs
  rw [Thread.run_bind, PyS.bind_apply, h1]
  rcases hx : x s with ⟨y, s1⟩
  rw [hx] at h2
  cases y with
  | error e => exact ⟨rfl, h2⟩
  | ok a => exact hf a s1 d h2

theorem Sim.lift {α : Type} (x : PyM α) : Sim m b₀ (Thread.lift x) (PyS.lift x) := fun _ _ hs => ⟨rfl, hs⟩

theorem Sim.mapM {α β : Type} {f : α → Thread (SharedMap Sky K) β} {g : α → PyS (MapState Sky K) β} (hf : ∀ a, Sim m b₀ (f a) (g a)) (l : List α) :
    Sim m b₀ (Thread.mapM f l) (PyS.mapM g l) := by
  induction l with
  | nil => exact fun _ _ hs => ⟨rfl, hs⟩
  | cons a l ih => exact (hf a).bind fun b => ih.bind fun bs => Sim.lift (.ok (b :: bs))

theorem generate_run {k : Nat} {t : TractInfo Sky K} {b : TractBuilder} (h : fresh m b₀ k = .ok (t, b)) (s : SharedMap Sky K) :
    (generateTract m b₀ (k : Int)).run s = (.ok ⟨s.nextOid, t⟩,
      { s with numPatches := some t.numPatches, tractBBox := some t.bbox, initialized := true, nextOid := s.nextOid + 1,
               made := fun o => if o = s.nextOid then some t else s.made o }) := by
  unfold fresh at h
  unfold generateTract
  cases ha : m.tractArgs k with
  | error e' => rw [ha] at h; exact nomatch h
  | ok a =>
    rw [ha] at h
    dsimp only at h
    unfold TractInfo.new at h
    change (newTract m.env m.ops b₀ a).run s = _
    unfold newTract
    cases hmb : minimumBoundingBox m.env m.ops a with
    | error e' => rw [hmb] at h; exact nomatch h
    | ok mb =>
      rw [hmb] at h
      change (Thread.bind (setupPatches b₀ mb.toBox2I) _).run s = _
      unfold setupPatches
      cases hsp : b₀.setupPatches mb.toBox2I with
      | error e' =>
        simp only [bind, Except.bind, hsp] at h
        exact nomatch h
      | ok r =>
        simp only [bind, Except.bind, hsp] at h
        have e := congrArg Prod.fst (Except.ok.inj h)
        dsimp only at e
        rw [← e]
        rfl

theorem sim_getItem (i : Int) : Sim m b₀ (getItem m b₀ i) (CachingSkyMap.getItem m i) := by
  intro s d hs
  refine ⟨?_, hs.trans (SkyMapOps.After.step (M := CachingSkyMap.skyMapOps m) i s)⟩
  have I := (CachingSkyMap.Inv.init m b₀).after hs
  unfold getItem
  rcases CachingSkyMap.getItem_spec I i with ⟨hi, e1⟩ | ⟨k, rfl, hk, ⟨r', hr, e1⟩ | ⟨hn, er, hf, e1⟩ | ⟨hn, t, b, hf, e1⟩⟩
  · rw [e1]
    split
    · rfl
    · change (Thread.bind (Thread.done (pyGetItem s.cache i)) _).run _ = _
      have : pyGetItem s.cache i = .error .IndexError := by
        have hl : ¬ i < 0 := by omega
        unfold pyGetItem
        simp only [hl, if_false]
        rw [List.getElem?_eq_none (by rw [I.len]; omega)]
      rw [this]
      rfl
  · rw [e1, if_neg (by omega)]
    change (Thread.bind (Thread.done (pyGetItem s.cache (k : Int))) _).run _ = _
    rw [CachingSkyMap.pyGetItem_nat hr]
    change (Thread.bind (Thread.done (pyGetItem s.cache (k : Int))) _).run _ = _
    rw [CachingSkyMap.pyGetItem_nat hr]
    rfl
  · rw [e1, if_neg (by omega)]
    change (Thread.bind (Thread.done (pyGetItem s.cache (k : Int))) _).run _ = _
    rw [CachingSkyMap.pyGetItem_nat hn]
    change (Thread.bind (generateTract m b₀ (k : Int)) _).run _ = _
    rw [generate_err hf]
    rfl
  · rw [e1, if_neg (by omega)]
    change (Thread.bind (Thread.done (pyGetItem s.cache (k : Int))) _).run _ = _
    rw [CachingSkyMap.pyGetItem_nat hn]
    change (Thread.bind (generateTract m b₀ (k : Int)) _).run _ = _
    rw [Thread.run_bind, generate_run hf, fresh_state hf]
    have := objects_set t hn fun i r h => (I.info i r h).1
    refine Prod.ext rfl ?_
    unfold SharedMap.ofState CachingSkyMap.stored
    dsimp only
    rw [this]
    rfl

theorem sim_tracts : Sim m b₀ (tracts m b₀) (BaseSkyMap.iter (CachingSkyMap.skyMapOps m)) := by
  intro s d hs
  have := Sim.mapM (m := m) (b₀ := b₀) (fun i : Nat => sim_getItem (m := m) (b₀ := b₀) (i : Int)) (List.range m.numTracts) s d hs
  have e : BaseSkyMap.iter (CachingSkyMap.skyMapOps m) s = PyS.mapM (fun i : Nat => CachingSkyMap.getItem m (i : Int)) (List.range m.numTracts) s := by
    unfold BaseSkyMap.iter BaseSkyMap.forTracts
    congr 1
    funext i s
    rw [PyS.bind_apply]
    change _ = (CachingSkyMap.skyMapOps m).getItem (i : Int) s
    rcases (CachingSkyMap.skyMapOps m).getItem (i : Int) s with ⟨x, s1⟩
    cases x <;> rfl
  rw [e]
  exact this

theorem sim_findTract (c : Sky) : Sim m b₀ (findTract m b₀ c) (BaseSkyMap.findTract m.ops (CachingSkyMap.skyMapOps m) c) := by
  refine Sim.bind (Sim.mapM (fun i : Nat => (sim_getItem (i : Int)).bind fun t => Sim.lift (.ok (m.ops.separation c t.info.ctrCoord, i, t))) _) fun l => ?_
  cases (pySort BaseSkyMap.tupleLe l).head? with
  | none => exact Sim.lift _
  | some x => exact Sim.lift _

/-- C67: the threads' methods are those of the sequential model: run by one thread alone, on a sky map with any history, each call gives the same
result (the identical tract objects) and leaves the same state as the sequential method. -/
theorem C67_sequential {s : MapState Sky K} (hs : (CachingSkyMap.skyMapOps m).After (init m b₀) s) (hm : HashedMap)
    (hmsg : message = sha1Message hm.cls hm.config) :
    (∀ i, (program m b₀ H message (.item i)).run (.ofState s hm.sha1) =
      ((CachingSkyMap.getItem m i s).1.map .tract, .ofState (CachingSkyMap.getItem m i s).2 hm.sha1)) ∧
    ((program m b₀ H message .tracts).run (.ofState s hm.sha1) =
      ((BaseSkyMap.iter (CachingSkyMap.skyMapOps m) s).1.map .tracts, .ofState (BaseSkyMap.iter (CachingSkyMap.skyMapOps m) s).2 hm.sha1)) ∧
    (∀ c, (program m b₀ H message (.findTract c)).run (.ofState s hm.sha1) =
      ((BaseSkyMap.findTract m.ops (CachingSkyMap.skyMapOps m) c s).1.map .tract,
        .ofState (BaseSkyMap.findTract m.ops (CachingSkyMap.skyMapOps m) c s).2 hm.sha1)) ∧
    ((program m b₀ H message .sha1).run (.ofState s hm.sha1) = ((hm.getSha1 H).1.map .digest, .ofState s (hm.getSha1 H).2.sha1)) ∧
    (∀ t index, (program m b₀ H message (.patch t index)).run (.ofState s hm.sha1) =
      ((t.info.getPatchInfo s.builder index).map .patch, .ofState s hm.sha1)) ∧
    (∀ t c, (program m b₀ H message (.findPatch t c)).run (.ofState s hm.sha1) =
      ((t.info.findPatch m.env s.builder c).map .patch, .ofState s hm.sha1)) ∧
    (∀ t l, (program m b₀ H message (.findPatchList t l)).run (.ofState s hm.sha1) =
      ((t.info.findPatchList m.env s.builder l).map .patches, .ofState s hm.sha1)) ∧
    (∀ t, (program m b₀ H message (.patches t)).run (.ofState s hm.sha1) =
      ((t.info.iter s.builder).map .patches, .ofState s hm.sha1)) ∧
    (∀ t index, (program m b₀ H message (.sequentialIndex t index)).run (.ofState s hm.sha1) =
      ((t.info.getSequentialPatchIndexFromPair s.builder index).map .int, .ofState s hm.sha1)) ∧
    (∀ t n, (program m b₀ H message (.indexPair t n)).run (.ofState s hm.sha1) =
      ((t.info.getPatchIndexPair s.builder n).map .pair, .ofState s hm.sha1)) := by
  have fin : ∀ {α : Type} {p : Thread (SharedMap Sky K) α} {r : PyM α} {s₁ s₂ : SharedMap Sky K} (f : α → Value Sky K), p.run s₁ = (r, s₂) →
      (p.bind fun a => .done (.ok (f a))).run s₁ = (r.map f, s₂) := by
    intro α p r s₁ s₂ f hp
    rw [Thread.run_bind, hp]
    cases r <;> rfl
  obtain ⟨st, hst⟩ := ((CachingSkyMap.Inv.init m b₀).after hs).bld
  have hset : Set s.builder.state (SharedMap.ofState s hm.sha1) := ⟨rfl, rfl, rfl⟩
  have heq : ({ b₀ with state := s.builder.state } : TractBuilder) = s.builder := by
    rw [hst]
  refine ⟨fun i => fin _ (sim_getItem i s _ hs).1, fin _ (sim_tracts s _ hs).1, fun c => fin _ (sim_findTract c s _ hs).1, fin _ ?_, ?_, ?_, ?_, ?_, ?_, ?_⟩
  · unfold HashedMap.getSha1 getSha1
    subst hmsg
    change (Thread.bind (Thread.done (.ok hm.sha1)) _).run _ = _
    cases hq : hm.sha1 with
    | some d =>
      change _ = (_, SharedMap.ofState s hm.sha1)
      rw [hq]
      rfl
    | none =>
      dsimp only
      cases sha1Message hm.cls hm.config with
      | error e =>
        change _ = (_, SharedMap.ofState s hm.sha1)
        rw [hq]
        rfl
      | ok b => rfl
  · exact fun t index => fin _ (Thread.Det.run (heq ▸ det_getPatchInfo s.builder.state _ _) hset)
  · exact fun t c => fin _ (Thread.Det.run (heq ▸ det_findPatch s.builder.state _ _ _) hset)
  · exact fun t l => fin _ (Thread.Det.run (heq ▸ det_findPatchList s.builder.state _ _ _) hset)
  · exact fun t => fin _ (Thread.Det.run (heq ▸ det_patches s.builder.state _) hset)
  · exact fun t index => fin _ (Thread.Det.run (heq ▸ det_sequential b₀ s.builder.state _) hset)
  · exact fun t n => fin _ (Thread.Det.run (heq ▸ det_indexPair b₀ s.builder.state _) hset)

/-! ## No deadlock -/

theorem run_one {s₀ : SharedMap Sky K} (q : Call Sky K) (p : Thread (SharedMap Sky K) (Value Sky K)) (s : SharedMap Sky K)
    (l : List (Call Sky K × Thread (SharedMap Sky K) (Value Sky K))) (e : List (Call Sky K × PyM (Value Sky K)))
    (h : Reached m b₀ H message s₀ ⟨s, (q, p) :: l, e⟩) : Reached m b₀ H message s₀ ⟨(p.run s).2, l, e ++ [(q, (p.run s).1)]⟩ := by
  induction p generalizing s with
  | done r => exact h.next (.finish s [] l e q r)
  | step u n ih => exact ih s (u s) (h.next (.work s [] l e q u n))

/-- C67: there is no deadlock or endless loop: whatever has happened, all calls in execution can be run to their ends, one after the other. -/
theorem C67_no_deadlock {s₀ : SharedMap Sky K} {S : System (SharedMap Sky K) (Call Sky K) (Value Sky K)} (hS : Reached m b₀ H message s₀ S) :
    ∃ S', Reached m b₀ H message s₀ S' ∧ S'.running = [] ∧ ∃ l, S'.ended = S.ended ++ l ∧ l.map Prod.fst = S.running.map Prod.fst := by
  obtain ⟨s, l, e⟩ := S
  induction l generalizing s e with
  | nil => exact ⟨_, hS, rfl, [], by simp, rfl⟩
  | cons x l ih =>
    obtain ⟨q, p⟩ := x
    obtain ⟨S', h1, h2, l', h3, h4⟩ := ih _ _ (run_one q p s l e hS)
    refine ⟨S', h1, h2, (q, (p.run s).1) :: l', ?_, ?_⟩
    · rw [h3]
      simp
    · rw [List.map_cons, h4]
      rfl

/-! ## Races -/

namespace Race

/-- A schedule for the examples: start `skyMap[i]`, start `getPatchInfo` on the tract returned by the k-th call that ended, or let the n-th call in execution
take a step (or end). -/
inductive Act
  | item (i : Int)
  | patch (k : Nat) (index : IndexArg)
  | go (n : Nat)

/-- One step of a schedule. -/
def exec1 (m : CachingDef Sky K) (b : TractBuilder) (H : Bytes → Bytes) (message : PyM Bytes)
    (S : System (SharedMap Sky K) (Call Sky K) (Value Sky K)) : Act → System (SharedMap Sky K) (Call Sky K) (Value Sky K)
  | .item i => { S with running := S.running ++ [(.item i, program m b H message (.item i))] }
  | .patch k index => match S.ended[k]? with
    | some (_, .ok (.tract t)) => { S with running := S.running ++ [(.patch t index, program m b H message (.patch t index))] }
    | _ => S
  | .go n => match S.running[n]? with
    | some (q, .step u f) => ⟨u S.shared, S.running.take n ++ (q, f S.shared) :: S.running.drop (n + 1), S.ended⟩
    | some (q, .done r) => ⟨S.shared, S.running.take n ++ S.running.drop (n + 1), S.ended ++ [(q, r)]⟩
    | none => S

/-- A schedule. -/
def exec (m : CachingDef Sky K) (b : TractBuilder) (H : Bytes → Bytes) (message : PyM Bytes) (s₀ : SharedMap Sky K) (l : List Act) :
    System (SharedMap Sky K) (Call Sky K) (Value Sky K) :=
  l.foldl (exec1 m b H message) ⟨s₀, [], []⟩

theorem exec_reached (s₀ : SharedMap Sky K) (l : List Act) : Reached m b₀ H message s₀ (exec m b₀ H message s₀ l) := by
  have step : ∀ S a, Reached m b₀ H message s₀ S → Reached m b₀ H message s₀ (exec1 m b₀ H message S a) := by
    intro S a hS
    unfold exec1
    split
    · exact hS.next (.start S _ trivial)
    · split
      · rename_i q t hq
        exact hS.next (.start S _ ⟨q, _, List.mem_of_getElem? hq, .inl rfl⟩)
      · exact hS
    · rename_i n
      obtain ⟨s, l, e⟩ := S
      have hl : ∀ x, l[n]? = some x → l = l.take n ++ x :: l.drop (n + 1) := by
        intro x hx
        obtain ⟨h1, rfl⟩ := List.getElem?_eq_some_iff.1 hx
        rw [List.getElem_cons_drop, List.take_append_drop]
      split
      · rename_i q u f hq
        dsimp only at hq ⊢
        have hS' := hS
        rw [hl _ hq] at hS'
        exact hS'.next (.work s _ _ e q u f)
      · rename_i q r hq
        dsimp only at hq ⊢
        have hS' := hS
        rw [hl _ hq] at hS'
        exact hS'.next (.finish s _ _ e q r)
      · exact hS
  unfold exec
  have : ∀ S, Reached m b₀ H message s₀ S → Reached m b₀ H message s₀ (l.foldl (exec1 m b₀ H message) S) := by
    induction l with
    | nil => exact fun S hS => hS
    | cons a l ih => exact fun S hS => ih _ (step S a hS)
  exact this _ .init

/-- What the examples look at: object numbers, and patch indices with sequential numbers. -/
def view : PyM (Value (P2 ℚ) ℚ) → PyM (List Int)
  | .ok (.tract t) => .ok [t.oid, t.info.id]
  | .ok (.patch p) => .ok [p.index.x, p.index.y, p.sequentialIndex]
  | .ok _ => .ok []
  | .error e => .error e

def run (m : CachingDef (P2 ℚ) ℚ) (l : List Act) : List (PyM (List Int)) :=
  (exec m Ex.legacy id (.ok []) (SharedMap.ofState (Ex.start m) none) l).ended.map fun x => view x.2

/-- What is not true, 1: two threads that both ask for tract 0 can be given different objects (here objects 0 and 1), which a single thread never is
(C18). -/
theorem C67_identity_race : ∃ (S : System (SharedMap (P2 ℚ) ℚ) (Call (P2 ℚ) ℚ) (Value (P2 ℚ) ℚ)) (t t' : TractRef (P2 ℚ) ℚ),
    Reached Ex.equalMap Ex.legacy id (.ok []) (.ofState (Ex.start Ex.equalMap) none) S ∧
    (.item 0, .ok (.tract t)) ∈ S.ended ∧ (.item 0, .ok (.tract t')) ∈ S.ended ∧ t.oid ≠ t'.oid := by
  let l : List Act := [.item 0, .item 0, .go 0, .go 1] ++ List.replicate 6 (.go 1) ++ List.replicate 6 (.go 0)
  have key : ((exec Ex.equalMap Ex.legacy id (.ok []) (.ofState (Ex.start Ex.equalMap) none) l).ended.map fun x =>
      match x with
      | (.item 0, .ok (.tract t)) => some t.oid
      | _ => none) = [some 0, some 1] := by decide +kernel
  have hl := congrArg List.length key
  rw [List.length_map] at hl
  have h := exec_reached (m := Ex.equalMap) (b₀ := Ex.legacy) (H := id) (message := .ok []) (.ofState (Ex.start Ex.equalMap) none) l
  generalize exec Ex.equalMap Ex.legacy id (.ok []) (.ofState (Ex.start Ex.equalMap) none) l = S at *
  have pick : ∀ {x : Call (P2 ℚ) ℚ × PyM (Value (P2 ℚ) ℚ)} {n : Nat}, (match x with
      | (.item 0, .ok (.tract t)) => some t.oid
      | _ => none) = some n → ∃ t, x = (.item 0, .ok (.tract t)) ∧ t.oid = n := by
    intro x n hx
    split at hx
    · rename_i t
      exact ⟨t, rfl, Option.some.inj hx⟩
    · exact nomatch hx
  obtain ⟨x, hx1, hx2⟩ := List.mem_map.1 (show some 0 ∈ S.ended.map _ by rw [key]; simp)
  obtain ⟨y, hy1, hy2⟩ := List.mem_map.1 (show some 1 ∈ S.ended.map _ by rw [key]; simp)
  obtain ⟨t, rfl, ht⟩ := pick hx2
  obtain ⟨t', rfl, ht'⟩ := pick hy2
  exact ⟨S, t, t', h, hx1, hy1, by omega⟩

/-- What is not true, 2: with tracts of different sizes, a lookup that runs while another thread constructs a tract can see the builder's attributes
half updated.  Here tract 1 has 6 by 8 patches; a thread that holds tract 1 asks for its last patch (5, 7) and gets `RuntimeError` ("Bug: patch index ... valid
but inner bbox ... not contained in tract bbox ..."), an error that a single thread never sees. -/
theorem C67_torn_builder :
    run Ex.unequalMap ([.item 1, .item 1, .go 0, .go 1] ++ List.replicate 6 (.go 0) ++ [.item 0] ++ List.replicate 12 (.go 1) ++ [.go 0] ++
      [.patch 0 (.index2D ⟨5, 7⟩)] ++ List.replicate 12 (.go 1)) = [.ok [0, 1], .ok [1, 0], .error .RuntimeError] ∧
    ∃ r s, CachingSkyMap.getItem Ex.unequalMap 1 (Ex.start Ex.unequalMap) = (.ok r, s) ∧ r.info.numPatches = ⟨6, 8⟩ := by
  refine ⟨by decide +kernel, ?_⟩
  have : (CachingSkyMap.getItem Ex.unequalMap 1 (Ex.start Ex.unequalMap)).1.map (fun r => r.info.numPatches) = .ok ⟨6, 8⟩ := by decide +kernel
  obtain ⟨r, e, hr⟩ := Except.map_ok_inv this
  exact ⟨r, _, Prod.ext e rfl, hr⟩

/-! ## Examples -/

/-- The hypotheses of `C67_patch_calls` are met by a sky map with three tracts and a schedule in which three threads construct tracts 0 and 1 at the same time and
look up patches meanwhile. -/
example : Ex.legacy.state = none ∧ 0 < Ex.legacy.patchInnerDimensions.x ∧ 0 < Ex.legacy.patchInnerDimensions.y ∧
    (∀ i a, Ex.equalMap.tractArgs i = .ok a → a.id = i) ∧ Ex.equalMap.Uniform Ex.legacy ∧
    Reached Ex.equalMap Ex.legacy id (.ok []) (.ofState (Ex.start Ex.equalMap) none)
      (exec Ex.equalMap Ex.legacy id (.ok []) (.ofState (Ex.start Ex.equalMap) none)
        ([.item 0, .item 1, .item 0, .go 0, .go 1, .go 2, .go 1] ++ List.replicate 6 (.go 0) ++
          [.patch 0 (.index2D ⟨1, 1⟩), .go 2, .go 2, .go 0, .go 1, .go 2, .go 0] ++ List.replicate 12 (.go 2))) ∧
    run Ex.equalMap ([.item 0, .item 1, .item 0, .go 0, .go 1, .go 2, .go 1] ++ List.replicate 6 (.go 0) ++
          [.patch 0 (.index2D ⟨1, 1⟩), .go 2, .go 2, .go 0, .go 1, .go 2, .go 0] ++ List.replicate 12 (.go 2)) =
      [.ok [0, 0], .ok [1, 1, 4]] := by
  refine ⟨rfl, by decide, by decide, ?_, ?_, exec_reached _ _, by decide +kernel⟩
  · exact C21_ids _ _ _ _
  · exact Ex.equal_uniform

/-- The hypotheses of `C67_warm` are met after all tracts of a sky map with tracts of different sizes were accessed. -/
example : (CachingSkyMap.skyMapOps Ex.unequalMap).After (init Ex.unequalMap Ex.legacy) (Ex.visit Ex.unequalMap [1, 0]) ∧
    ∀ i, (CachingSkyMap.getItem Ex.unequalMap i (Ex.visit Ex.unequalMap [1, 0])).2 = Ex.visit Ex.unequalMap [1, 0] := by
  have h : (CachingSkyMap.skyMapOps Ex.unequalMap).After (init Ex.unequalMap Ex.legacy) (Ex.visit Ex.unequalMap [1, 0]) := ⟨[1, 0], rfl⟩
  refine ⟨h, fun i => ?_⟩
  have I := (CachingSkyMap.Inv.init Ex.unequalMap Ex.legacy).after h
  have full : (Ex.visit Ex.unequalMap [1, 0]).cache.all Option.isSome = true := by decide +kernel
  rcases CachingSkyMap.getItem_spec I i with ⟨hi, e1⟩ | ⟨k, rfl, hk, ⟨r', hr, e1⟩ | ⟨hn, er, hf, e1⟩ | ⟨hn, t, b, hf, e1⟩⟩
  · rw [e1]
  · rw [e1]
  · exact absurd (List.all_eq_true.1 full _ (List.mem_of_getElem? hn)) (by simp)
  · exact absurd (List.all_eq_true.1 full _ (List.mem_of_getElem? hn)) (by simp)

/-- `C67_no_deadlock` for two threads in the middle of constructing tract 0. -/
example : (exec Ex.equalMap Ex.legacy id (.ok []) (.ofState (Ex.start Ex.equalMap) none) [.item 0, .item 0, .go 0, .go 1, .go 0]).running.length = 2 := by
  decide +kernel

end Race
end Threads
end Skymap
