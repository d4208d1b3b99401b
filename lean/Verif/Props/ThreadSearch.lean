import Verif.Lemmas.ThreadSearch
import Verif.Spec.ThreadSearch
import Verif.Props.Threads
import Verif.Props.ThreadsClasses
import Verif.Props.Search

/-! # C85: searches in a sky map shared by threads -/

set_option linter.unusedSectionVars false

namespace Skymap
namespace Threads
open CachingSkyMap (init fresh)

variable {Sky K : Type} [Field K] [LinearOrder K] [FloorRing K]
variable {m : CachingDef Sky K} {b₀ : TractBuilder} {H : Bytes → Bytes} {message : PyM Bytes}

/-- What `findPatchList` of a tract gives if only this tract was accessed. -/
def patchesOf (m : CachingDef Sky K) (b₀ : TractBuilder) (l : List Sky) (t : TractInfo Sky K) : PyM (List (PatchInfo (Wcs Sky K))) :=
  t.findPatchList m.env { b₀ with state := some ⟨t.numPatches, t.bbox⟩ } l

/-- What the `findTract` gives, in terms of the contents of the tracts. -/
def Finder.value (m : CachingDef Sky K) (b₀ : TractBuilder) : Finder Sky → Sky → PyM (TractInfo Sky K)
  | .inherited, c => (pyMapM (fun k : Nat => (Threads.value m b₀ k).map fun t => (m.ops.separation c t.ctrCoord, k, t)) (List.range m.numTracts)).bind nearest
  | .byNumber index, c => (index c).bind (Threads.value m b₀)

/-- The end of the loop body, on contents. -/
def addPlain (l : List (TractInfo Sky K × List (PatchInfo (Wcs Sky K)))) (t : TractInfo Sky K) (pl : List (PatchInfo (Wcs Sky K))) :
    List (TractInfo Sky K × List (PatchInfo (Wcs Sky K))) :=
  if pl.isEmpty then l else keepFirst l (t, pl)

def allPlain (m : CachingDef Sky K) (b₀ : TractBuilder) (l : List Sky) : PyM (List (TractInfo Sky K × List (PatchInfo (Wcs Sky K)))) :=
  (pyMapM (fun k : Nat => (Threads.value m b₀ k).bind fun t => (patchesOf m b₀ l t).map fun pl => (t, pl)) (List.range m.numTracts)).map
    (List.filter fun e => !e.2.isEmpty)

def closestPlain (m : CachingDef Sky K) (b₀ : TractBuilder) (find : Finder Sky) (l : List Sky) :
    PyM (List (TractInfo Sky K × List (PatchInfo (Wcs Sky K)))) :=
  pyFoldM (fun acc c => (find.value m b₀ c).bind fun t => (patchesOf m b₀ l t).map (addPlain acc t)) l []

def ringsPlain (m : CachingDef Sky K) (b₀ : TractBuilder) (near : Sky → PyM (List Int)) (l : List Sky) :
    PyM (List (TractInfo Sky K × List (PatchInfo (Wcs Sky K)))) :=
  pyFoldM (fun acc c => (containing m b₀ (near c) c).bind fun ts =>
    pyFoldM (fun acc t => (patchesOf m b₀ l t).map (addPlain acc t)) ts acc) l []

theorem finder_safe (find : Finder Sky) (c : Sky) (s : SharedMap Sky K) :
    (find.run m b₀ c).Safe (Inv m b₀ H message) Grows (fun s r => r.map TractRef.info = find.value m b₀ c ∧ ∀ t, r = .ok t → Known m b₀ s t) s := by
  cases find with
  | inherited => exact findTract_safe c s
  | byNumber index => exact findTractAt_safe (index c) s

section
variable (hu : m.Uniform b₀) (hx : 0 < b₀.patchInnerDimensions.x) (hy : 0 < b₀.patchInnerDimensions.y)
include hu hx hy

theorem patchList_safe {t : TractRef Sky K} {s : SharedMap Sky K} (hk : Known m b₀ s t) (l : List Sky) :
    (findPatchList m.env b₀ t.info l).Safe (Inv m b₀ H message) Grows (fun _ r => r = patchesOf m b₀ l t.info) s := by
  obtain ⟨hi, -, k, b, hkn, hfr⟩ := hk
  exact Thread.Det.safe Grows.refl Grows.trans (det_findPatchList (some ⟨t.info.numPatches, t.info.bbox⟩) t.info m.env l)
    fun s' hg I => set_of_known hu hx hy hkn hfr (hg.ini hi) I

theorem all_safe (l : List Sky) (s : SharedMap Sky K) :
    (findTractPatchList m b₀ l).Safe (Inv m b₀ H message) Grows
      (fun s r => r.map Found.plain = allPlain m b₀ l ∧ ∀ f, r = .ok f → ∀ e ∈ f, Known m b₀ s e.1) s := by
  unfold findTractPatchList
  refine Thread.Safe.bind Grows.refl Grows.trans (Thread.Safe.mapM (φ := fun e : TractRef Sky K × List (PatchInfo (Wcs Sky K)) => (e.1.info, e.2))
    (F := fun s e => Known m b₀ s e.1) Grows.refl Grows.trans (fun _ _ _ h h' => h'.mono h) _
    (g := fun k : Nat => (Threads.value m b₀ k).bind fun t => (patchesOf m b₀ l t).map fun pl => (t, pl)) fun k _ s' _ => ?_) ?_ ?_
  · refine Thread.Safe.bind Grows.refl Grows.trans (getItem_safe (k : Int) s') ?_ ?_
    · rintro s1 t _ ⟨h1, h2⟩
      refine Thread.Safe.bind Grows.refl Grows.trans (patchList_safe hu hx hy (h2 t rfl) l) ?_ ?_
      · rintro s2 pl g2 h3
        refine ⟨?_, ?_⟩
        · rw [← h1]
          change _ = Except.map _ (patchesOf m b₀ l t.info)
          rw [← h3]
          rfl
        · rintro e he
          rw [← Except.ok.inj he]
          exact (h2 t rfl).mono g2
      · rintro s2 e g2 h3
        refine ⟨?_, fun t h => nomatch h⟩
        rw [← h1]
        change _ = Except.map _ (patchesOf m b₀ l t.info)
        rw [← h3]
        rfl
    · rintro s1 e _ ⟨h1, -⟩
      refine ⟨?_, fun t h => nomatch h⟩
      rw [← h1]
      rfl
  · rintro s1 es _ ⟨h1, h2⟩
    refine ⟨?_, ?_⟩
    · unfold allPlain
      rw [← h1]
      refine congrArg Except.ok ?_
      unfold Found.plain
      rw [List.filter_map]
      rfl
    · rintro f hf e he
      rw [← Except.ok.inj hf] at he
      exact h2 es rfl e (List.mem_filter.1 he).1
  · rintro s1 e _ ⟨h1, -⟩
    refine ⟨?_, fun t h => nomatch h⟩
    unfold allPlain
    rw [← h1]
    rfl

/-- What relates the list under construction to its contents. -/
def Listed (m : CachingDef Sky K) (b₀ : TractBuilder) (l : List Sky) (s : SharedMap Sky K) (ret : Found Sky K)
    (acc : List (TractInfo Sky K × List (PatchInfo (Wcs Sky K)))) : Prop :=
  firstOfEach ret.plain = acc ∧ ∀ e ∈ ret, Known m b₀ s e.1 ∧ patchesOf m b₀ l e.1.info = .ok e.2

omit hu hx hy in
theorem Listed.mono {l : List Sky} {s s' : SharedMap Sky K} (hg : Grows s s') {ret : Found Sky K} {acc} (h : Listed m b₀ l s ret acc) : Listed m b₀ l s' ret acc :=
  ⟨h.1, fun e he => ⟨(h.2 e he).1.mono hg, (h.2 e he).2⟩⟩

omit hu hx hy in
theorem firstOfEach_append {β : Type} (l : List (TractInfo Sky K × β)) (e) : firstOfEach (l ++ [e]) = keepFirst (firstOfEach l) e := by
  unfold firstOfEach
  rw [List.foldl_append]
  rfl

omit hu hx hy in
theorem mem_keepFirst {β : Type} {l : List (TractInfo Sky K × β)} {e x : TractInfo Sky K × β} (h : x ∈ l) : x ∈ keepFirst l e := by
  unfold keepFirst
  split
  · exact h
  · simp [h]

omit hu hx hy in
/-- Every tract of the list has an entry in `firstOfEach`. -/
theorem firstOfEach_covers {β : Type} (l : List (TractInfo Sky K × β)) (e : TractInfo Sky K × β) (he : e ∈ l) :
    ∃ x ∈ firstOfEach l, x.1.id = e.1.id := by
  induction l using List.reverseRecOn with
  | nil => simp at he
  | append_singleton l a ih =>
    rw [firstOfEach_append]
    rcases List.mem_append.1 he with he | he
    · obtain ⟨x, h1, h2⟩ := ih he
      exact ⟨x, mem_keepFirst h1, h2⟩
    · rw [List.mem_singleton.1 he]
      by_cases hc : (firstOfEach l).any (fun x => decide (x.1.id = a.1.id)) = true
      · obtain ⟨x, h1, h2⟩ := List.any_eq_true.1 hc
        exact ⟨x, mem_keepFirst h1, by simpa using h2⟩
      · unfold keepFirst
        rw [if_neg hc]
        exact ⟨a, by simp, rfl⟩

omit hu hx hy in
theorem listed_add {l : List Sky} {s : SharedMap Sky K} {ret : Found Sky K} {acc} {t : TractRef Sky K} {pl : List (PatchInfo (Wcs Sky K))}
    (h : Listed m b₀ l s ret acc) (hk : Known m b₀ s t) (hp : patchesOf m b₀ l t.info = .ok pl) : Listed m b₀ l s (addFound ret t pl) (addPlain acc t.info pl) := by
  obtain ⟨rfl, h2⟩ := h
  unfold addFound addPlain
  by_cases he : pl.isEmpty = true
  · rw [if_pos he]
    simp only [he, Bool.not_true, Bool.false_and, Bool.false_eq_true, if_false]
    exact ⟨rfl, h2⟩
  · rw [if_neg he]
    by_cases hr : BaseSkyMap.inRetList (t, pl) ret = true
    · simp only [hr, Bool.not_true, Bool.and_false, Bool.false_eq_true, if_false]
      obtain ⟨x, hx, hxe⟩ := List.any_eq_true.1 hr
      have ho : x.1.oid = t.oid := by
        have := (Bool.and_eq_true_iff.1 hxe).1
        simpa using this
      have hi : x.1.info = t.info := by
        have h1 := (h2 x hx).1.2.1
        rw [ho, hk.2.1] at h1
        exact (Option.some.inj h1).symm
      obtain ⟨y, hy1, hy2⟩ := firstOfEach_covers ret.plain (x.1.info, x.2) (List.mem_map.2 ⟨x, hx, rfl⟩)
      refine ⟨?_, h2⟩
      unfold keepFirst
      rw [if_pos]
      exact List.any_eq_true.2 ⟨y, hy1, by simp [hy2, hi]⟩
    · simp only [he, hr, Bool.not_false, Bool.and_self, if_true]
      refine ⟨?_, ?_⟩
      · unfold Found.plain
        rw [List.map_append]
        exact firstOfEach_append _ _
      · intro e he'
        rcases List.mem_append.1 he' with h | h
        · exact h2 e h
        · rw [List.mem_singleton.1 h]
          exact ⟨hk, hp⟩

theorem body_safe {s : SharedMap Sky K} {ret : Found Sky K} {acc} {t : TractRef Sky K} (l : List Sky)
    (h : Listed m b₀ l s ret acc) (hk : Known m b₀ s t) :
    (Thread.bind (findPatchList m.env b₀ t.info l) fun pl => .done (.ok (addFound ret t pl))).Safe (Inv m b₀ H message) Grows
      (fun s r => Thread.Rel (Listed m b₀ l s) r ((patchesOf m b₀ l t.info).map (addPlain acc t.info))) s := by
  refine Thread.Safe.bind Grows.refl Grows.trans (patchList_safe hu hx hy hk l) ?_ ?_
  · rintro s2 pl g2 h3
    exact .inl ⟨_, _, rfl, by rw [← h3]; rfl, listed_add (h.mono g2) (hk.mono g2) h3.symm⟩
  · rintro s2 e g2 h3
    exact .inr ⟨e, rfl, by rw [← h3]; rfl⟩

theorem closest_safe (find : Finder Sky) (l : List Sky) (s : SharedMap Sky K) :
    (findClosestTractPatchList m b₀ find l).Safe (Inv m b₀ H message) Grows
      (fun s r => Thread.Rel (Listed m b₀ l s) r (closestPlain m b₀ find l)) s := by
  refine Thread.Safe.foldM Grows.refl Grows.trans l ?_ ⟨rfl, by simp⟩
  intro c _ s' _ ret acc hL
  refine Thread.Safe.bind Grows.refl Grows.trans (finder_safe find c s') ?_ ?_
  · rintro s1 t g1 ⟨h1, h2⟩
    rw [← h1]
    exact body_safe hu hx hy l (hL.mono g1) (h2 t rfl)
  · rintro s1 e _ ⟨h1, -⟩
    rw [← h1]
    exact .inr ⟨e, rfl, rfl⟩

theorem rings_safe (near : Sky → PyM (List Int)) (l : List Sky) (s : SharedMap Sky K) :
    (ringsTractPatchList m b₀ near l).Safe (Inv m b₀ H message) Grows
      (fun s r => Thread.Rel (Listed m b₀ l s) r (ringsPlain m b₀ near l)) s := by
  refine Thread.Safe.foldM Grows.refl Grows.trans l ?_ ⟨rfl, by simp⟩
  intro c _ s' _ ret acc hL
  refine Thread.Safe.bind Grows.refl Grows.trans (findAllTracts_safe (near c) c s') ?_ ?_
  · rintro s1 ts g1 ⟨h1, h2⟩
    rw [← h1]
    change Thread.Safe _ _ (fun s r => Thread.Rel _ r (pyFoldM _ (ts.map TractRef.info) acc)) _ _
    have e : ∀ (ts : List (TractRef Sky K)) (acc : List (TractInfo Sky K × List (PatchInfo (Wcs Sky K)))),
        pyFoldM (fun acc t => (patchesOf m b₀ l t).map (addPlain acc t)) (ts.map TractRef.info) acc =
        pyFoldM (fun acc (t : TractRef Sky K) => (patchesOf m b₀ l t.info).map (addPlain acc t.info)) ts acc := by
      intro ts
      induction ts with
      | nil => exact fun _ => rfl
      | cons a ts ih =>
        intro acc
        unfold pyFoldM
        exact congrArg _ (funext ih)
    rw [e]
    refine Thread.Safe.foldM Grows.refl Grows.trans ts ?_ (hL.mono g1)
    intro t ht s2 g2 ret acc hL
    exact body_safe hu hx hy l hL ((h2 ts rfl t ht).mono g2)
  · rintro s1 e _ ⟨h1, -⟩
    rw [← h1]
    exact .inr ⟨e, rfl, rfl⟩

end

/-- The entries for a tract are all the same. -/
def Same (f : Found Sky K) : Prop := ∀ e ∈ f.plain, e ∈ firstOfEach f.plain

/-- What holds of a request that has been served. -/
def Ended (m : CachingDef Sky K) (b₀ : TractBuilder) (H : Bytes → Bytes) (message : PyM Bytes) :
    Request Sky K → PyM (Answer Sky K) → Prop
  | .call q, r => ∃ r', r = r'.map .value ∧ Post m b₀ H message q r'
  | .all l, r => ∃ r' : PyM (Found Sky K), r = r'.map .found ∧ r'.map Found.plain = allPlain m b₀ l
  | .closest find l, r => ∃ r' : PyM (Found Sky K), r = r'.map .found ∧ r'.map (fun f => firstOfEach f.plain) = closestPlain m b₀ find l ∧
      ∀ f, r' = .ok f → Same f
  | .rings near l, r => ∃ r' : PyM (Found Sky K), r = r'.map .found ∧ r'.map (fun f => firstOfEach f.plain) = ringsPlain m b₀ near l ∧
      ∀ f, r' = .ok f → Same f

theorem mem_of_firstOfEach {β : Type} (l : List (TractInfo Sky K × β)) (e : TractInfo Sky K × β) (he : e ∈ firstOfEach l) : e ∈ l := by
  induction l using List.reverseRecOn with
  | nil => exact he
  | append_singleton l a ih =>
    rw [firstOfEach_append] at he
    unfold keepFirst at he
    split at he
    · exact List.mem_append_left _ (ih he)
    · rcases List.mem_append.1 he with he | he
      · exact List.mem_append_left _ (ih he)
      · exact List.mem_append_right _ he

theorem same_of_listed (hid : ∀ i a, m.tractArgs i = .ok a → a.id = i) {l : List Sky} {s : SharedMap Sky K} {f : Found Sky K}
    (h : ∀ e ∈ f, Known m b₀ s e.1 ∧ patchesOf m b₀ l e.1.info = .ok e.2) : Same f := by
  have idk : ∀ {k : Nat} {t : TractInfo Sky K} {b : TractBuilder}, fresh m b₀ k = .ok (t, b) → t.id = k := by
    intro k t b hf
    unfold fresh at hf
    split at hf
    · simp at hf
    · rename_i a ha
      obtain ⟨mb, bbox, n, -, -, e⟩ := TractInfo.new_inv hf
      rw [e]
      exact hid _ _ ha
  intro e he
  obtain ⟨x, hx, hxe⟩ := firstOfEach_covers _ e he
  obtain ⟨u, hu, rfl⟩ := List.mem_map.1 (mem_of_firstOfEach _ x hx)
  obtain ⟨v, hv, rfl⟩ := List.mem_map.1 he
  obtain ⟨⟨-, -, k, b, -, hk⟩, hp⟩ := h u hu
  obtain ⟨⟨-, -, k', b', -, hk'⟩, hp'⟩ := h v hv
  dsimp only at hxe
  rw [idk hk, idk hk'] at hxe
  obtain rfl : k = k' := by omega
  rw [hk] at hk'
  simp only [Except.ok.injEq, Prod.mk.injEq] at hk'
  have e1 := hk'.1
  rw [e1, hp', Except.ok.injEq] at hp
  rw [← e1, hp]
  exact hx

theorem rel_listed (hid : ∀ i a, m.tractArgs i = .ok a → a.id = i) {l : List Sky} {s : SharedMap Sky K} {r : PyM (Found Sky K)} {x}
    (h : Thread.Rel (Listed m b₀ l s) r x) :
    (r.map (fun f => firstOfEach f.plain) = x ∧ ∀ f, r = .ok f → Same f) ∧ ∀ f, r = .ok f → ∀ e ∈ f, Known m b₀ s e.1 := by
  rcases h with ⟨b, c, rfl, rfl, h1, h2⟩ | ⟨e, rfl, rfl⟩
  · refine ⟨⟨by rw [← h1]; rfl, ?_⟩, ?_⟩
    · rintro f hf
      rw [← Except.ok.inj hf]
      exact same_of_listed hid h2
    · rintro f hf
      rw [← Except.ok.inj hf]
      exact fun e he => (h2 e he).1
  · exact ⟨⟨rfl, fun f h => nomatch h⟩, fun f h => nomatch h⟩

theorem serve_safe (hid : ∀ i a, m.tractArgs i = .ok a → a.id = i) (hu : m.Uniform b₀) (hx : 0 < b₀.patchInnerDimensions.x) (hy : 0 < b₀.patchInnerDimensions.y) {s : SharedMap Sky K}
    (q : Request Sky K) (known : ∀ c t, q = .call c → c.on = some t → Known m b₀ s t) :
    (serve m b₀ H message q).Safe (Inv m b₀ H message) Grows
      (fun s r => Ended m b₀ H message q r ∧ ∀ v t, r = .ok v → v.Has t → Known m b₀ s t) s := by
  have search : ∀ {s : SharedMap Sky K} {r : PyM (Found Sky K)}, (∀ f, r = .ok f → ∀ e ∈ f, Known m b₀ s e.1) →
      ∀ v t, r.map Answer.found = .ok v → v.Has t → Known m b₀ s t := by
    intro s r h v t hv ht
    obtain ⟨f, rfl, rfl⟩ := Except.map_ok_inv hv
    obtain ⟨pl, hpl⟩ := ht
    exact h f rfl _ hpl
  cases q with
  | call c =>
    refine safe_map (call_safe_known c fun {t} ht => known c t rfl ht) ?_
    rintro s' r ⟨h1, h2⟩
    refine ⟨⟨r, rfl, h1⟩, ?_⟩
    intro v t hv ht
    obtain ⟨a, rfl, rfl⟩ := Except.map_ok_inv hv
    exact h2 a t rfl ht
  | all l =>
    refine safe_map (all_safe hu hx hy l s) ?_
    rintro s' r ⟨h1, h2⟩
    exact ⟨⟨r, rfl, h1⟩, search h2⟩
  | closest find l =>
    refine safe_map (closest_safe hu hx hy find l s) ?_
    rintro s' r h
    obtain ⟨h1, h2⟩ := rel_listed hid h
    exact ⟨⟨r, rfl, h1⟩, search h2⟩
  | rings near l =>
    refine safe_map (rings_safe hu hx hy near l s) ?_
    rintro s' r h
    obtain ⟨h1, h2⟩ := rel_listed hid h
    exact ⟨⟨r, rfl, h1⟩, search h2⟩

section
variable {s : MapState Sky K} {h : Option Bytes} {S : System (SharedMap Sky K) (Request Sky K) (Answer Sky K)}

theorem served_post (hb : b₀.state = none) (hs : (CachingSkyMap.skyMapOps m).After (init m b₀) s) (hh : DigestOk H message h)
    (hid : ∀ i a, m.tractArgs i = .ok a → a.id = i) (hu : m.Uniform b₀) (hx : 0 < b₀.patchInnerDimensions.x) (hy : 0 < b₀.patchInnerDimensions.y)
    (hS : Served m b₀ H message (.ofState s h) S) : ∀ x ∈ S.ended, Ended m b₀ H message x.1 x.2 := by
  obtain ⟨-, -, h3⟩ := System.Reached.sound (I := Inv m b₀ H message) (le := Grows)
    (post := fun q s r => Ended m b₀ H message q r ∧ ∀ v t, r = .ok v → v.Has t → Known m b₀ s t) Grows.refl Grows.trans
    (fun q s s' r hg hp => ⟨hp.1, fun v t hv ht => (hp.2 v t hv ht).mono hg⟩) (inv_of_state hb hs hh)
    (fun s ended q _ hended ha => serve_safe hid hu hx hy q fun c t hc ht => by
      subst hc
      obtain ⟨p, v, h1, h2⟩ := ha t ht
      exact (hended _ h1).2 v t rfl h2) hS
  exact fun x hx => (h3 x hx).1

end

/-! ## One thread -/

/-- The sequential `findTract`. -/
def Finder.sequential (m : CachingDef Sky K) : Finder Sky → Sky → PyS (MapState Sky K) (TractRef Sky K)
  | .inherited, c => BaseSkyMap.findTract m.ops (CachingSkyMap.skyMapOps m) c
  | .byNumber index, c => PyS.lift (index c) >>= fun i => CachingSkyMap.getItem m i

/-- The sequential `RingsSkyMap.findTractPatchList`, with any tracts to look at. -/
def ringsSequential (m : CachingDef Sky K) (near : Sky → PyM (List Int)) (coordList : List Sky) : PyS (MapState Sky K) (Found Sky K) :=
  PyS.foldM (fun retList c => do
    let ts ← (PyS.lift (near c) >>= fun l => PyS.mapM (fun i : Int => CachingSkyMap.getItem m i >>= fun t =>
        (pure (if t.info.contains c then [t] else []) : PyS (MapState Sky K) _)) l >>= fun ts => pure ts.flatten)
    PyS.foldM (fun retList t => do
      let pl ← BaseSkyMap.findPatchList m.env (CachingSkyMap.skyMapOps m) t coordList
      return if !pl.isEmpty && !BaseSkyMap.inRetList (t, pl) retList then retList ++ [(t, pl)] else retList) ts retList)
    coordList []

theorem Sim.foldM {α β : Type} {f : β → α → Thread (SharedMap Sky K) β} {g : β → α → PyS (MapState Sky K) β} (hf : ∀ b a, Sim m b₀ (f b a) (g b a))
    (l : List α) (b : β) : Sim m b₀ (Thread.foldM f l b) (PyS.foldM g l b) := by
  induction l generalizing b with
  | nil => exact fun _ _ hs => ⟨rfl, hs⟩
  | cons a l ih => exact (hf b a).bind fun b' => ih b'

theorem sim_findPatchList (t : TractRef Sky K) (l : List Sky) :
    Sim m b₀ (findPatchList m.env b₀ t.info l) (BaseSkyMap.findPatchList m.env (CachingSkyMap.skyMapOps m) t l) := by
  intro s d hs
  obtain ⟨st, hst⟩ := ((CachingSkyMap.Inv.init m b₀).after hs).bld
  have hset : Set s.builder.state (SharedMap.ofState s d) := ⟨rfl, rfl, rfl⟩
  have heq : ({ b₀ with state := s.builder.state } : TractBuilder) = s.builder := by
    rw [hst]
  have hd := det_findPatchList (b₀ := b₀) s.builder.state t.info m.env l
  rw [heq] at hd
  exact ⟨hd.run hset, hs⟩

theorem sim_finder (find : Finder Sky) (c : Sky) : Sim m b₀ (find.run m b₀ c) (find.sequential m c) := by
  cases find with
  | inherited => exact sim_findTract c
  | byNumber index => exact (Sim.lift _).bind fun i => sim_getItem i

theorem sim_all (l : List Sky) : Sim m b₀ (findTractPatchList m b₀ l) (BaseSkyMap.findTractPatchList m.env (CachingSkyMap.skyMapOps m) l) :=
  Sim.bind (Sim.mapM (fun i : Nat => (sim_getItem (i : Int)).bind fun t => (sim_findPatchList t l).bind fun pl => Sim.lift (.ok (t, pl))) _)
    fun es => Sim.lift (.ok (es.filter fun e => !e.2.isEmpty))

theorem sim_closest (find : Finder Sky) (l : List Sky) :
    Sim m b₀ (findClosestTractPatchList m b₀ find l)
      (BaseSkyMap.findClosestTractPatchList m.env (CachingSkyMap.skyMapOps m) (find.sequential m) l) :=
  Sim.foldM (fun ret c => (sim_finder find c).bind fun t => (sim_findPatchList t l).bind fun pl => Sim.lift (.ok (addFound ret t pl))) l []

theorem sim_rings (near : Sky → PyM (List Int)) (l : List Sky) : Sim m b₀ (ringsTractPatchList m b₀ near l) (ringsSequential m near l) :=
  Sim.foldM (fun ret _ => ((Sim.lift _).bind fun is => (Sim.mapM (fun i : Int => (sim_getItem i).bind fun _ => Sim.lift (.ok _)) is).bind
      fun _ => Sim.lift (.ok _)).bind fun ts =>
    Sim.foldM (fun ret t => (sim_findPatchList t l).bind fun pl => Sim.lift (.ok (addFound ret t pl))) ts ret) l []

/-- C85: the searches of the threads are those of the sequential model: run by one thread alone, on a sky map with any history, each gives the same result
(the identical tract objects) and leaves the same state as the sequential method. -/
theorem C85_sequential {s : MapState Sky K} (hs : (CachingSkyMap.skyMapOps m).After (init m b₀) s) (h : Option Bytes) (l : List Sky) :
    ((serve m b₀ H message (.all l)).run (.ofState s h) =
      ((BaseSkyMap.findTractPatchList m.env (CachingSkyMap.skyMapOps m) l s).1.map .found,
        .ofState (BaseSkyMap.findTractPatchList m.env (CachingSkyMap.skyMapOps m) l s).2 h)) ∧
    (∀ find, (serve m b₀ H message (.closest find l)).run (.ofState s h) =
      ((BaseSkyMap.findClosestTractPatchList m.env (CachingSkyMap.skyMapOps m) (find.sequential m) l s).1.map .found,
        .ofState (BaseSkyMap.findClosestTractPatchList m.env (CachingSkyMap.skyMapOps m) (find.sequential m) l s).2 h)) ∧
    (∀ near, (serve m b₀ H message (.rings near l)).run (.ofState s h) =
      ((ringsSequential m near l s).1.map .found, .ofState (ringsSequential m near l s).2 h)) := by
  have fin : ∀ {p : Thread (SharedMap Sky K) (Found Sky K)} {r : PyM (Found Sky K)} {s₁ s₂ : SharedMap Sky K}, p.run s₁ = (r, s₂) →
      (p.bind fun a => .done (.ok (Answer.found a))).run s₁ = (r.map .found, s₂) := by
    intro p r s₁ s₂ hp
    rw [Thread.run_bind, hp]
    cases r <;> rfl
  exact ⟨fin (sim_all l s h hs).1, fun find => fin (sim_closest find l s h hs).1, fun near => fin (sim_rings near l s h hs).1⟩

/-- What holds of the list under construction, with one thread. -/
structure Single (m : CachingDef Sky K) (b₀ : TractBuilder) (l : List Sky) (s : MapState Sky K) (ret : Found Sky K) : Prop where
  after : (CachingSkyMap.skyMapOps m).After (init m b₀) s
  cached : ∀ e ∈ ret, CachingSkyMap.getItem m e.1.info.id s = (.ok e.1, s)
  patches : ∀ e ∈ ret, patchesOf m b₀ l e.1.info = .ok e.2
  distinct : (ret.map fun e => e.1.info.id).Nodup

theorem id_of_getItem (hid : ∀ i a, m.tractArgs i = .ok a → a.id = i) {s s' : MapState Sky K} (h : (CachingSkyMap.skyMapOps m).After (init m b₀) s)
    {i : Int} {t : TractRef Sky K} (hg : CachingSkyMap.getItem m i s = (.ok t, s')) : t.info.id = i := by
  obtain ⟨k, rfl, -, b, hf, -⟩ := fresh_of_getItem h hg
  unfold fresh at hf
  split at hf
  · simp at hf
  · rename_i a ha
    obtain ⟨mb, bbox, n, -, -, e⟩ := TractInfo.new_inv hf
    rw [e]
    exact hid _ _ ha

/-- Tracts found by a method that only accesses tracts. -/
def Accessing (m : CachingDef Sky K) (b₀ : TractBuilder) (f : PyS (MapState Sky K) (List (TractRef Sky K))) : Prop :=
  ∀ s ts s', (CachingSkyMap.skyMapOps m).After (init m b₀) s → f s = (.ok ts, s') →
    (CachingSkyMap.skyMapOps m).After s s' ∧ ∀ t ∈ ts, CachingSkyMap.getItem m t.info.id s' = (.ok t, s')

theorem accessing_finder (hid : ∀ i a, m.tractArgs i = .ok a → a.id = i) (find : Finder Sky) (c : Sky) :
    Accessing m b₀ (find.sequential m c >>= fun t => pure [t]) := by
  intro s ts s' hs hf
  obtain ⟨t, s1, h1, h2⟩ := PyS.bind_inv hf
  rw [PyS.pure_apply] at h2
  simp only [Prod.mk.injEq, Except.ok.injEq] at h2
  obtain ⟨rfl, rfl⟩ := h2
  have hP := Search_permanent_caching m b₀ s hs
  have ha : (CachingSkyMap.skyMapOps m).After s s1 ∧ ∃ i, CachingSkyMap.getItem m i s1 = (.ok t, s1) := by
    cases find with
    | inherited =>
      obtain ⟨⟨hF1, hF2⟩, -⟩ := findTract_finder m.ops m.env hP
      have h1' : BaseSkyMap.findTract m.ops (CachingSkyMap.skyMapOps m) c s = _ := h1
      have ha := hF1 c s
      rw [h1'] at ha
      obtain ⟨i, u, v, q1, q2, q3⟩ := hF2 c s t s1 h1'
      exact ⟨ha, i, hP u q1 i t v q2 s1 q3⟩
    | byNumber index =>
      have h1' : (PyS.lift (index c) >>= fun i => CachingSkyMap.getItem m i) s = _ := h1
      cases hi : index c with
      | error e => rw [hi] at h1'; exact nomatch h1'
      | ok i =>
        rw [hi] at h1'
        have h1'' : (CachingSkyMap.skyMapOps m).getItem i s = (.ok t, s1) := h1'
        have ha := SkyMapOps.After.step (M := CachingSkyMap.skyMapOps m) i s
        rw [h1''] at ha
        exact ⟨ha, i, hP s (SkyMapOps.After.refl _) i t s1 h1'' s1 (SkyMapOps.After.refl _)⟩
  obtain ⟨ha, i, hi⟩ := ha
  refine ⟨ha, fun u hu => ?_⟩
  rw [List.mem_singleton.1 hu, id_of_getItem hid (hs.trans ha) hi]
  exact hi

theorem accessing_all (hid : ∀ i a, m.tractArgs i = .ok a → a.id = i) (near : PyM (List Int)) (c : Sky) :
    Accessing m b₀ (PyS.lift near >>= fun l => PyS.mapM (fun i : Int => CachingSkyMap.getItem m i >>= fun t =>
        (pure (if t.info.contains c then [t] else []) : PyS (MapState Sky K) _)) l >>= fun ts => pure ts.flatten) := by
  have loop : ∀ (l : List Int) s tss s', (CachingSkyMap.skyMapOps m).After (init m b₀) s →
      PyS.mapM (fun i : Int => CachingSkyMap.getItem m i >>= fun t =>
        (pure (if t.info.contains c then [t] else []) : PyS (MapState Sky K) _)) l s = (.ok tss, s') →
      (CachingSkyMap.skyMapOps m).After s s' ∧ ∀ ts ∈ tss, ∀ t ∈ ts, CachingSkyMap.getItem m t.info.id s' = (.ok t, s') := by
    intro l
    induction l with
    | nil =>
      intro s tss s' hs h
      have h' : ((.ok [], s) : PyM (List (List (TractRef Sky K))) × MapState Sky K) = (.ok tss, s') := h
      simp only [Prod.mk.injEq, Except.ok.injEq] at h'
      obtain ⟨rfl, rfl⟩ := h'
      exact ⟨SkyMapOps.After.refl _, by simp⟩
    | cons i l ih =>
      intro s tss s' hs h
      rw [PyS.mapM_cons] at h
      obtain ⟨ts, s1, h1, h2⟩ := PyS.bind_inv h
      obtain ⟨t, s1', h3, h4⟩ := PyS.bind_inv h1
      rw [PyS.pure_apply] at h4
      simp only [Prod.mk.injEq, Except.ok.injEq] at h4
      obtain ⟨rfl, rfl⟩ := h4
      obtain ⟨tss', s2, h5, h6⟩ := PyS.bind_inv h2
      rw [PyS.pure_apply] at h6
      simp only [Prod.mk.injEq, Except.ok.injEq] at h6
      obtain ⟨rfl, rfl⟩ := h6
      have h3' : (CachingSkyMap.skyMapOps m).getItem i s = (.ok t, s1') := h3
      have ha := SkyMapOps.After.step (M := CachingSkyMap.skyMapOps m) i s
      rw [h3'] at ha
      obtain ⟨hb, hall⟩ := ih _ _ _ (hs.trans ha) h5
      refine ⟨ha.trans hb, fun ts hts u hu => ?_⟩
      rcases List.mem_cons.1 hts with rfl | hts
      · split at hu
        · rw [List.mem_singleton.1 hu, id_of_getItem hid hs h3]
          exact Search_permanent_caching m b₀ s hs s (SkyMapOps.After.refl _) i t _ h3' s2 hb
        · simp at hu
      · exact hall ts hts u hu
  intro s ts s' hs hf
  cases near with
  | error e => exact nomatch hf
  | ok l =>
    obtain ⟨tss, s1, h1, h2⟩ := PyS.bind_inv (show (PyS.mapM _ l >>= fun ts => pure ts.flatten) s = (.ok ts, s') from hf)
    rw [PyS.pure_apply] at h2
    simp only [Prod.mk.injEq, Except.ok.injEq] at h2
    obtain ⟨rfl, rfl⟩ := h2
    obtain ⟨ha, hall⟩ := loop l s tss s1 hs h1
    refine ⟨ha, fun t ht => ?_⟩
    obtain ⟨x, hx, htx⟩ := List.mem_flatten.1 ht
    exact hall x hx t htx

section
variable (hb : b₀.state = none) (hid : ∀ i a, m.tractArgs i = .ok a → a.id = i)
  (hu : m.Uniform b₀) (hx : 0 < b₀.patchInnerDimensions.x) (hy : 0 < b₀.patchInnerDimensions.y)
include hb hu hx hy

/-- The builder after a tract was accessed. -/
theorem builder_of_getItem {s : MapState Sky K} (hs : (CachingSkyMap.skyMapOps m).After (init m b₀) s) {i : Int} {t : TractRef Sky K}
    (hg : CachingSkyMap.getItem m i s = (.ok t, s)) : s.builder = { b₀ with state := some ⟨t.info.numPatches, t.info.bbox⟩ } := by
  have I := (CachingSkyMap.Inv.init m b₀).after hs
  obtain ⟨k, rfl, hk, b, hf, -⟩ := fresh_of_getItem hs hg
  obtain ⟨k', e, hk', hc⟩ := CachingSkyMap.cached_after_ok I hg
  have J := inv_of_state (H := id) (message := .ok []) hb hs (d := none) (fun _ h => nomatch h)
  have S := set_of_known hu hx hy hk hf (J.cached k' t hc) J
  obtain ⟨st, hst⟩ := I.bld
  have e2 : s.builder.state = some ⟨t.info.numPatches, t.info.bbox⟩ := by
    obtain ⟨-, h1, h2⟩ := S
    change s.builder.state.map _ = some t.info.numPatches at h1
    change s.builder.state.map _ = some t.info.bbox at h2
    cases hq : s.builder.state with
    | none => rw [hq] at h1; simp at h1
    | some st =>
      rw [hq] at h1 h2
      simp only [Option.map_some, Option.some.injEq] at h1 h2
      rw [← h1, ← h2]
  rw [hst] at e2 ⊢
  exact congrArg (fun x => ({ b₀ with state := x } : TractBuilder)) e2

theorem single_add (l : List Sky) {s : MapState Sky K} {ret ret' : Found Sky K} {s' : MapState Sky K} {t : TractRef Sky K} (h : Single m b₀ l s ret)
    (ht : CachingSkyMap.getItem m t.info.id s = (.ok t, s))
    (hf : (BaseSkyMap.findPatchList m.env (CachingSkyMap.skyMapOps m) t l >>= fun pl =>
      (pure (addFound ret t pl) : PyS (MapState Sky K) _)) s = (.ok ret', s')) : s' = s ∧ Single m b₀ l s ret' := by
  obtain ⟨pl, s1, h1, h2⟩ := PyS.bind_inv hf
  rw [PyS.pure_apply] at h2
  simp only [Prod.mk.injEq, Except.ok.injEq] at h2
  obtain ⟨rfl, rfl⟩ := h2
  have h1' : ((t.info.findPatchList m.env s.builder l, s) : PyM _ × MapState Sky K) = (.ok pl, s1) := h1
  simp only [Prod.mk.injEq] at h1'
  obtain ⟨hp, rfl⟩ := h1'
  rw [builder_of_getItem hb hu hx hy h.after ht] at hp
  refine ⟨rfl, ?_⟩
  unfold addFound
  split
  · next hc =>
    obtain ⟨-, hc2⟩ := Bool.and_eq_true_iff.1 hc
    refine ⟨h.after, ?_, ?_, ?_⟩
    · intro e he
      rcases List.mem_append.1 he with he | he
      · exact h.cached e he
      · rw [List.mem_singleton.1 he]; exact ht
    · intro e he
      rcases List.mem_append.1 he with he | he
      · exact h.patches e he
      · rw [List.mem_singleton.1 he]; exact hp
    · rw [List.map_append, List.map_cons, List.map_nil, List.nodup_append]
      refine ⟨h.distinct, by simp, ?_⟩
      rintro i hi j hj rfl
      rw [List.mem_singleton] at hj
      obtain ⟨e, he, rfl⟩ := List.mem_map.1 hi
      have hc3 := h.cached e he
      rw [hj, ht] at hc3
      simp only [Prod.mk.injEq, Except.ok.injEq, and_true] at hc3
      have hp3 := h.patches e he
      rw [← hc3] at hp3
      have : Except.ok (ε := PyErr) e.2 = .ok pl := hp3.symm.trans hp
      have e2 : e.2 = pl := Except.ok.inj this
      rw [Bool.not_eq_true'] at hc2
      have : BaseSkyMap.inRetList (t, pl) ret = true := by
        refine List.any_eq_true.2 ⟨e, he, ?_⟩
        rw [← hc3, e2]
        simp [patchListEq_refl]
      rw [this] at hc2
      exact nomatch hc2
  · exact h

theorem single_foldM {α : Type} (l : List Sky) {f : Found Sky K → α → PyS (MapState Sky K) (Found Sky K)}
    (hf : ∀ a s ret ret' s', Single m b₀ l s ret → f ret a s = (.ok ret', s') → Single m b₀ l s' ret') (as : List α) {s s' : MapState Sky K}
    {ret ret' : Found Sky K} (h : Single m b₀ l s ret) (hr : PyS.foldM f as ret s = (.ok ret', s')) : Single m b₀ l s' ret' := by
  induction as generalizing s ret with
  | nil =>
    have h' : ((.ok ret, s) : PyM (Found Sky K) × MapState Sky K) = (.ok ret', s') := hr
    simp only [Prod.mk.injEq, Except.ok.injEq] at h'
    obtain ⟨rfl, rfl⟩ := h'
    exact h
  | cons a as ih =>
    obtain ⟨r1, s1, h1, h2⟩ := PyS.bind_inv (show (f ret a >>= PyS.foldM f as) s = _ from hr)
    exact ih (hf a s ret r1 s1 h h1) h2

/-- The outer loop of both searches. -/
theorem single_search (l : List Sky) {F : Sky → PyS (MapState Sky K) (List (TractRef Sky K))} (hF : ∀ c, Accessing m b₀ (F c)) {s s' : MapState Sky K}
    (hs : (CachingSkyMap.skyMapOps m).After (init m b₀) s) {ret : Found Sky K}
    (h : PyS.foldM (fun retList c => F c >>= fun ts => PyS.foldM (fun retList t =>
      BaseSkyMap.findPatchList m.env (CachingSkyMap.skyMapOps m) t l >>= fun pl => (pure (addFound retList t pl) : PyS (MapState Sky K) _)) ts retList) l [] s =
      (.ok ret, s')) : Single m b₀ l s' ret := by
  refine single_foldM hb hu hx hy l ?_ l (s := s) (ret := []) ⟨hs, by simp, by simp, List.nodup_nil⟩ h
  intro c s1 r1 r2 s2 h1 h2
  obtain ⟨ts, s3, h3, h4⟩ := PyS.bind_inv h2
  obtain ⟨ha, hall⟩ := hF c s1 ts s3 h1.after h3
  have h5 : Single m b₀ l s3 r1 := ⟨h1.after.trans ha, fun e he => Search_permanent_caching m b₀ s1 h1.after s1 (SkyMapOps.After.refl _)
    e.1.info.id e.1 s1 (h1.cached e he) s3 ha, h1.patches, h1.distinct⟩
  clear h1 h2 h3
  induction ts generalizing r1 with
  | nil =>
    have h' : ((.ok r1, s3) : PyM (Found Sky K) × MapState Sky K) = (.ok r2, s2) := h4
    simp only [Prod.mk.injEq, Except.ok.injEq] at h'
    obtain ⟨rfl, rfl⟩ := h'
    exact h5
  | cons t ts ih =>
    obtain ⟨r3, s4, h6, h7⟩ := PyS.bind_inv (show ((BaseSkyMap.findPatchList m.env (CachingSkyMap.skyMapOps m) t l >>= fun pl =>
      (pure (addFound r1 t pl) : PyS (MapState Sky K) _)) >>= PyS.foldM _ ts) s3 = _ from h4)
    obtain ⟨rfl, h8⟩ := single_add hb hu hx hy l h5 (hall t (by simp)) h6
    exact ih r3 h7 (fun u hu' => hall u (by simp [hu'])) h8

end

theorem firstOfEach_nodup {β : Type} (l : List (TractInfo Sky K × β)) (h : (l.map fun e => e.1.id).Nodup) : firstOfEach l = l := by
  induction l using List.reverseRecOn with
  | nil => rfl
  | append_singleton l a ih =>
    rw [List.map_append, List.nodup_append] at h
    rw [firstOfEach_append, ih h.1]
    unfold keepFirst
    rw [if_neg]
    intro hc
    obtain ⟨x, hx, hxe⟩ := List.any_eq_true.1 hc
    exact h.2.2 x.1.id (List.mem_map.2 ⟨x, hx, rfl⟩) a.1.id (by simp) (by simpa using hxe)

section
variable {s : MapState Sky K} {h : Option Bytes} {S : System (SharedMap Sky K) (Request Sky K) (Answer Sky K)}

/-- A request served alone on a new sky map. -/
theorem served_alone (q : Request Sky K) (hq : ∀ c, q ≠ .call c) :
    ∃ S, Served m b₀ H message (.ofState (init m b₀) none) S ∧ (q, ((serve m b₀ H message q).run (.ofState (init m b₀) none)).1) ∈ S.ended := by
  have h0 : Served m b₀ H message (.ofState (init m b₀) none) ⟨_, [(q, serve m b₀ H message q)], []⟩ := System.Reached.init.next (.start _ q (by
    cases q with
    | call c => exact absurd rfl (hq c)
    | all l => trivial
    | closest f l => trivial
    | rings f l => trivial))
  exact ⟨_, System.run_one _ _ _ _ _ h0, by simp⟩

theorem found_inj {r r' : PyM (Found Sky K)} (h : r.map Answer.found = r'.map (Answer.found (K := K))) : r = r' := by
  cases r with
  | error e => cases r' with
    | error e' => rw [Except.error.inj h]
    | ok f => exact nomatch h
  | ok f => cases r' with
    | error e' => exact nomatch h
    | ok f' =>
      have := Except.ok.inj h
      rw [Answer.found.inj this]

/-- C85: a caching sky map that has been used by one thread (or not at all) is now used by any number of threads that make any calls and searches, under any schedule;
all tracts have the same number of patches.  Then every `findTractPatchList` (that of `BaseSkyMap`) that has ended gave what it gives on a newly built sky map
used by one thread: the same exception, or the same tracts (their contents) with the same patches in the same order. -/
theorem C85_findTractPatchList (hb : b₀.state = none) (hs : (CachingSkyMap.skyMapOps m).After (init m b₀) s) (hh : DigestOk H message h)
    (hid : ∀ i a, m.tractArgs i = .ok a → a.id = i) (hu : m.Uniform b₀) (hx : 0 < b₀.patchInnerDimensions.x) (hy : 0 < b₀.patchInnerDimensions.y)
    (hS : Served m b₀ H message (.ofState s h) S) (l : List Sky) (r : PyM (Answer Sky K)) (hr : (.all l, r) ∈ S.ended) :
    ∃ r' : PyM (Found Sky K), r = r'.map .found ∧
      r'.map Found.plain = (BaseSkyMap.findTractPatchList m.env (CachingSkyMap.skyMapOps m) l (init m b₀)).1.map Found.plain := by
  obtain ⟨r', e1, e2⟩ := served_post hb hs hh hid hu hx hy hS _ hr
  obtain ⟨S', h1, h2⟩ := served_alone (m := m) (b₀ := b₀) (H := H) (message := message) (.all l) (fun _ h => nomatch h)
  obtain ⟨r₁, f1, f2⟩ := served_post hb (SkyMapOps.After.refl _) (h := none) (fun _ h => nomatch h) hid hu hx hy h1 _ h2
  dsimp only at f1
  rw [(C85_sequential (SkyMapOps.After.refl _) none l).1] at f1
  exact ⟨r', e1, by rw [e2, ← f2, found_inj f1]⟩

/-- C85: every `findClosestTractPatchList` that has ended (with any `findTract`) gave the same exception as on a newly built sky map used by one thread, or the same
list, in which some entries may be repeated: with the repetitions (entries for a tract that has an entry already, which are equal to that) left out it is the list that
one thread gets. -/
theorem C85_findClosest (hb : b₀.state = none) (hs : (CachingSkyMap.skyMapOps m).After (init m b₀) s) (hh : DigestOk H message h)
    (hid : ∀ i a, m.tractArgs i = .ok a → a.id = i) (hu : m.Uniform b₀) (hx : 0 < b₀.patchInnerDimensions.x) (hy : 0 < b₀.patchInnerDimensions.y)
    (hS : Served m b₀ H message (.ofState s h) S) (find : Finder Sky) (l : List Sky) (r : PyM (Answer Sky K)) (hr : (.closest find l, r) ∈ S.ended) :
    ∃ r' : PyM (Found Sky K), r = r'.map .found ∧ r'.map (fun f => firstOfEach f.plain) =
      (BaseSkyMap.findClosestTractPatchList m.env (CachingSkyMap.skyMapOps m) (find.sequential m) l (init m b₀)).1.map Found.plain ∧
      ∀ f, r' = .ok f → ∀ e ∈ f.plain, e ∈ firstOfEach f.plain := by
  obtain ⟨r', e1, e2, e3⟩ := served_post hb hs hh hid hu hx hy hS _ hr
  obtain ⟨S', h1, h2⟩ := served_alone (m := m) (b₀ := b₀) (H := H) (message := message) (.closest find l) (fun _ h => nomatch h)
  obtain ⟨r₁, f1, f2, -⟩ := served_post hb (SkyMapOps.After.refl _) (h := none) (fun _ h => nomatch h) hid hu hx hy h1 _ h2
  dsimp only at f1
  rw [(C85_sequential (SkyMapOps.After.refl _) none l).2.1 find] at f1
  refine ⟨r', e1, ?_, e3⟩
  rw [e2, ← f2, ← found_inj f1]
  rcases hq : BaseSkyMap.findClosestTractPatchList m.env (CachingSkyMap.skyMapOps m) (find.sequential m) l (init m b₀) with ⟨x, s'⟩
  cases x with
  | error e => rfl
  | ok f =>
    have hS1 : Single m b₀ l s' f := by
      refine single_search hb hu hx hy l (F := fun c => find.sequential m c >>= fun t => pure [t]) (fun c => accessing_finder hid find c)
        (SkyMapOps.After.refl _) ?_
      rw [← hq]
      unfold BaseSkyMap.findClosestTractPatchList
      congr 1
      funext ret c s
      rw [PyS.bind_apply, PyS.bind_apply, PyS.bind_apply]
      rcases find.sequential m c s with ⟨y, s1⟩
      cases y with
      | error e => rfl
      | ok t =>
        change (BaseSkyMap.findPatchList m.env (CachingSkyMap.skyMapOps m) t l >>= fun pl =>
          (pure (addFound ret t pl) : PyS (MapState Sky K) _)).bind (PyS.foldM _ []) s1 = _
        change (_ >>= PyS.foldM _ []) s1 = _
        rw [PyS.bind_apply]
        dsimp only
        change _ = (BaseSkyMap.findPatchList m.env (CachingSkyMap.skyMapOps m) t l >>= fun pl => (pure (addFound ret t pl) : PyS (MapState Sky K) _)) s1
        rcases (BaseSkyMap.findPatchList m.env (CachingSkyMap.skyMapOps m) t l >>= fun pl => (pure (addFound ret t pl) : PyS (MapState Sky K) _)) s1 with ⟨z, s2⟩
        cases z <;> rfl
    refine congrArg Except.ok (firstOfEach_nodup _ ?_)
    unfold Found.plain
    rw [List.map_map]
    exact hS1.distinct

theorem rings_general (hb : b₀.state = none) (hs : (CachingSkyMap.skyMapOps m).After (init m b₀) s) (hh : DigestOk H message h)
    (hid : ∀ i a, m.tractArgs i = .ok a → a.id = i) (hu : m.Uniform b₀) (hx : 0 < b₀.patchInnerDimensions.x) (hy : 0 < b₀.patchInnerDimensions.y)
    (hS : Served m b₀ H message (.ofState s h) S) (near : Sky → PyM (List Int)) (l : List Sky) (r : PyM (Answer Sky K)) (hr : (.rings near l, r) ∈ S.ended) :
    ∃ r' : PyM (Found Sky K), r = r'.map .found ∧ r'.map (fun f => firstOfEach f.plain) = (ringsSequential m near l (init m b₀)).1.map Found.plain ∧
      ∀ f, r' = .ok f → ∀ e ∈ f.plain, e ∈ firstOfEach f.plain := by
  obtain ⟨r', e1, e2, e3⟩ := served_post hb hs hh hid hu hx hy hS _ hr
  obtain ⟨S', h1, h2⟩ := served_alone (m := m) (b₀ := b₀) (H := H) (message := message) (.rings near l) (fun _ h => nomatch h)
  obtain ⟨r₁, f1, f2, -⟩ := served_post hb (SkyMapOps.After.refl _) (h := none) (fun _ h => nomatch h) hid hu hx hy h1 _ h2
  dsimp only at f1
  rw [(C85_sequential (SkyMapOps.After.refl _) none l).2.2 near] at f1
  refine ⟨r', e1, ?_, e3⟩
  rw [e2, ← f2, ← found_inj f1]
  rcases hq : ringsSequential m near l (init m b₀) with ⟨x, s'⟩
  cases x with
  | error e => rfl
  | ok f =>
    have hS1 : Single m b₀ l s' f := single_search hb hu hx hy l (fun c => accessing_all hid (near c) c) (SkyMapOps.After.refl _) hq
    refine congrArg Except.ok (firstOfEach_nodup _ ?_)
    unfold Found.plain
    rw [List.map_map]
    exact hS1.distinct

end

/-! ## A sky map whose tracts have all been accessed -/

section
variable {s : MapState Sky K} {h : Option Bytes} {S : System (SharedMap Sky K) (Request Sky K) (Answer Sky K)}

/-- With the attributes of `s`, the thread `p` only reads and ends with the result of `q` in `s`, and `q` does not change `s`. -/
def Warm {α : Type} (s : MapState Sky K) (h : Option Bytes) (p : Thread (SharedMap Sky K) α) (q : PyS (MapState Sky K) α) : Prop :=
  p.Det (Frozen (SharedMap.ofState s h)) (q s).1 ∧ (q s).2 = s

theorem Warm.lift {α : Type} (x : PyM α) : Warm s h (Thread.lift x) (PyS.lift x) := ⟨rfl, rfl⟩

theorem Warm.bind {α β : Type} {p : Thread (SharedMap Sky K) α} {q : PyS (MapState Sky K) α} {f : α → Thread (SharedMap Sky K) β}
    {g : α → PyS (MapState Sky K) β} (hp : Warm s h p q) (hf : ∀ a, Warm s h (f a) (g a)) : Warm s h (p.bind f) (q >>= g) := by
  obtain ⟨h1, h2⟩ := hp
  unfold Warm
  rw [PyS.bind_apply]
  have h3 := h1.bind (g := fun a => (g a s).1) fun a _ => (hf a).1
  rcases hq : q s with ⟨x, s1⟩
  rw [hq] at h2 h3
  dsimp only at h2
  subst h2
  cases x with
  | error e => exact ⟨h3, rfl⟩
  | ok a => exact ⟨h3, (hf a).2⟩

theorem Warm.mapM {α β : Type} {f : α → Thread (SharedMap Sky K) β} {g : α → PyS (MapState Sky K) β} (hf : ∀ a, Warm s h (f a) (g a)) (l : List α) :
    Warm s h (Thread.mapM f l) (PyS.mapM g l) := by
  induction l with
  | nil => exact ⟨rfl, rfl⟩
  | cons a l ih => exact (hf a).bind fun b => ih.bind fun bs => Warm.lift (.ok (b :: bs))

theorem Warm.foldM {α β : Type} {f : β → α → Thread (SharedMap Sky K) β} {g : β → α → PyS (MapState Sky K) β} (hf : ∀ b a, Warm s h (f b a) (g b a))
    (l : List α) (b : β) : Warm s h (Thread.foldM f l b) (PyS.foldM g l b) := by
  induction l generalizing b with
  | nil => exact ⟨rfl, rfl⟩
  | cons a l ih => exact (hf b a).bind fun b' => ih b'

theorem Warm.getItem (hs : (CachingSkyMap.skyMapOps m).After (init m b₀) s) (hw : ∀ i, (CachingSkyMap.getItem m i s).2 = s) (i : Int) :
    Warm s h (getItem m b₀ i) (CachingSkyMap.getItem m i) := ⟨warm_getItem hs hw i, hw i⟩

theorem Warm.findPatchList (hs : (CachingSkyMap.skyMapOps m).After (init m b₀) s) (t : TractRef Sky K) (l : List Sky) :
    Warm s h (findPatchList m.env b₀ t.info l) (BaseSkyMap.findPatchList m.env (CachingSkyMap.skyMapOps m) t l) := by
  obtain ⟨st, hst⟩ := ((CachingSkyMap.Inv.init m b₀).after hs).bld
  have heq : ({ b₀ with state := s.builder.state } : TractBuilder) = s.builder := by
    rw [hst]
  have hd := det_findPatchList (b₀ := b₀) s.builder.state t.info m.env l
  rw [heq] at hd
  refine ⟨?_, rfl⟩
  have mono : ∀ {α : Type} {c c' : SharedMap Sky K → Prop} (_ : ∀ s, c s → c' s) {p : Thread (SharedMap Sky K) α} {x : PyM α}, p.Det c' x → p.Det c x := by
    intro α c c' hc p x hp
    induction p with
    | done r => exact hp
    | step u n ih => exact fun s hs => ⟨(hp s (hc s hs)).1, ih s (hp s (hc s hs)).2⟩
  refine mono ?_ hd
  rintro s' ⟨d, rfl⟩
  exact ⟨rfl, rfl, rfl⟩

theorem Warm.finder (hs : (CachingSkyMap.skyMapOps m).After (init m b₀) s) (hw : ∀ i, (CachingSkyMap.getItem m i s).2 = s) (find : Finder Sky) (c : Sky) :
    Warm s h (find.run m b₀ c) (find.sequential m c) := by
  cases find with
  | inherited =>
    refine Warm.bind (Warm.mapM (fun i : Nat => (Warm.getItem hs hw (i : Int)).bind fun t => Warm.lift (.ok (m.ops.separation c t.info.ctrCoord, i, t))) _)
      fun l => ?_
    cases (pySort BaseSkyMap.tupleLe l).head? with
    | none => exact Warm.lift _
    | some x => exact Warm.lift _
  | byNumber index => exact (Warm.lift _).bind fun i => Warm.getItem hs hw i

theorem Warm.all (hs : (CachingSkyMap.skyMapOps m).After (init m b₀) s) (hw : ∀ i, (CachingSkyMap.getItem m i s).2 = s) (l : List Sky) :
    Warm s h (findTractPatchList m b₀ l) (BaseSkyMap.findTractPatchList m.env (CachingSkyMap.skyMapOps m) l) :=
  Warm.bind (Warm.mapM (fun i : Nat => (Warm.getItem hs hw (i : Int)).bind fun t => (Warm.findPatchList hs t l).bind fun pl => Warm.lift (.ok (t, pl))) _)
    fun es => Warm.lift (.ok (es.filter fun e => !e.2.isEmpty))

theorem Warm.closest (hs : (CachingSkyMap.skyMapOps m).After (init m b₀) s) (hw : ∀ i, (CachingSkyMap.getItem m i s).2 = s) (find : Finder Sky) (l : List Sky) :
    Warm s h (findClosestTractPatchList m b₀ find l)
      (BaseSkyMap.findClosestTractPatchList m.env (CachingSkyMap.skyMapOps m) (find.sequential m) l) :=
  Warm.foldM (fun ret c => (Warm.finder hs hw find c).bind fun t => (Warm.findPatchList hs t l).bind fun pl => Warm.lift (.ok (addFound ret t pl))) l []

theorem Warm.rings (hs : (CachingSkyMap.skyMapOps m).After (init m b₀) s) (hw : ∀ i, (CachingSkyMap.getItem m i s).2 = s) (near : Sky → PyM (List Int))
    (l : List Sky) : Warm s h (ringsTractPatchList m b₀ near l) (ringsSequential m near l) :=
  Warm.foldM (fun ret _ => ((Warm.lift _).bind fun is => (Warm.mapM (fun i : Int => (Warm.getItem hs hw i).bind fun _ => Warm.lift (.ok _)) is).bind
      fun _ => Warm.lift (.ok _)).bind fun ts =>
    Warm.foldM (fun ret t => (Warm.findPatchList hs t l).bind fun pl => Warm.lift (.ok (addFound ret t pl))) ts ret) l []

/-- What the searches give with one thread in state `s`. -/
def SearchIn (m : CachingDef Sky K) (s : MapState Sky K) : Request Sky K → PyM (Answer Sky K) → Prop
  | .call _, _ => True
  | .all l, r => r = (BaseSkyMap.findTractPatchList m.env (CachingSkyMap.skyMapOps m) l s).1.map .found
  | .closest find l, r => r = (BaseSkyMap.findClosestTractPatchList m.env (CachingSkyMap.skyMapOps m) (find.sequential m) l s).1.map .found
  | .rings near l, r => r = (ringsSequential m near l s).1.map .found

theorem warm_served (hs : (CachingSkyMap.skyMapOps m).After (init m b₀) s) (hw : ∀ i, (CachingSkyMap.getItem m i s).2 = s)
    (hS : Served m b₀ H message (.ofState s h) S) : (∃ d, S.shared = .ofState s d) ∧ ∀ x ∈ S.ended, SearchIn m s x.1 x.2 := by
  have call : ∀ {p : Thread (SharedMap Sky K) (Found Sky K)} {q : PyS (MapState Sky K) (Found Sky K)}, Warm s h p q → ∀ s',
      (p.bind fun a => .done (.ok (Answer.found a))).Safe (Frozen (SharedMap.ofState s h)) (fun _ _ => True)
        (fun _ r => r = (q s).1.map .found) s' := by
    intro p q hd s'
    refine Thread.Det.safe (x := (q s).1.map Answer.found) (fun _ => trivial) (fun _ _ _ _ _ => trivial) ?_ fun s'' _ hI => hI
    have := hd.1.bind (f := fun a => .done (.ok (Answer.found a))) (g := fun a => .ok (Answer.found a)) fun a _ => rfl
    refine (congrArg _ ?_).mp this
    cases (q s).1 <;> rfl
  have key := System.Reached.sound (I := Frozen (SharedMap.ofState s h)) (le := fun _ _ => True) (post := fun q _ r => SearchIn m s q r)
    (fun _ => trivial) (fun _ _ _ _ _ => trivial) (fun _ _ _ _ _ hp => hp) ⟨h, rfl⟩ (fun s' ended q _ _ _ => ?_) hS
  · exact ⟨key.1, key.2.2⟩
  · cases q with
    | call q =>
      refine Thread.Safe.bind (fun _ => trivial) (fun _ _ _ _ _ => trivial) (warm_call (H := H) (message := message) (h := h) hs hw q s') ?_ ?_
      · exact fun _ _ _ _ => trivial
      · exact fun _ _ _ _ => trivial
    | all l => exact call (Warm.all hs hw l) s'
    | closest find l => exact call (Warm.closest hs hw find l) s'
    | rings near l => exact call (Warm.rings hs hw near l) s'

/-- C85: if all tracts had been accessed before the threads started (whether or not the tracts have the same size), then the searches are exactly those of one thread in
that state: the identical tract objects, no repetitions. -/
theorem C85_warm (hs : (CachingSkyMap.skyMapOps m).After (init m b₀) s) (hw : ∀ i, (CachingSkyMap.getItem m i s).2 = s)
    (hS : Served m b₀ H message (.ofState s h) S) :
    (∀ l r, (.all l, r) ∈ S.ended → r = (BaseSkyMap.findTractPatchList m.env (CachingSkyMap.skyMapOps m) l s).1.map .found) ∧
    (∀ find l r, (.closest find l, r) ∈ S.ended →
      r = (BaseSkyMap.findClosestTractPatchList m.env (CachingSkyMap.skyMapOps m) (find.sequential m) l s).1.map .found) ∧
    (∀ near l r, (.rings near l, r) ∈ S.ended → r = (ringsSequential m near l s).1.map .found) := by
  have hp := (warm_served hs hw hS).2
  exact ⟨fun l r hr => hp _ hr, fun find l r hr => hp _ hr, fun near l r hr => hp _ hr⟩

end

/-- C85: no request waits for another: whatever has happened, all requests in execution can be served, one after the other. -/
theorem C85_no_deadlock {s₀ : SharedMap Sky K} {S : System (SharedMap Sky K) (Request Sky K) (Answer Sky K)} (hS : Served m b₀ H message s₀ S) :
    ∃ S', Served m b₀ H message s₀ S' ∧ S'.running = [] ∧ ∃ l, S'.ended = S.ended ++ l ∧ l.map Prod.fst = S.running.map Prod.fst :=
  System.run_all hS

section
variable {s : MapState Sky K} {h : Option Bytes} {S : System (SharedMap Sky K) (Request Sky K) (Answer Sky K)}

/-- C85: threads that search at the same time do not disturb the calls of C67: `skyMap[i]`, `list(skyMap)`, `findTract` and `getSha1` give what they give on a newly built
sky map used by one thread. -/
theorem C85_calls (hb : b₀.state = none) (hs : (CachingSkyMap.skyMapOps m).After (init m b₀) s) (hh : DigestOk H message h)
    (hid : ∀ i a, m.tractArgs i = .ok a → a.id = i) (hu : m.Uniform b₀) (hx : 0 < b₀.patchInnerDimensions.x) (hy : 0 < b₀.patchInnerDimensions.y)
    (hS : Served m b₀ H message (.ofState s h) S) :
    (∀ i r, (.call (.item i), r) ∈ S.ended → ∃ r' : PyM (Value Sky K), r = r'.map .value ∧ r'.map Value.plain =
      (CachingSkyMap.getItem m i (init m b₀)).1.map fun t => (Value.tract t).plain) ∧
    (∀ r, (.call .tracts, r) ∈ S.ended → ∃ r' : PyM (Value Sky K), r = r'.map .value ∧ r'.map Value.plain =
      (BaseSkyMap.iter (CachingSkyMap.skyMapOps m) (init m b₀)).1.map fun l => (Value.tracts l).plain) ∧
    (∀ c r, (.call (.findTract c), r) ∈ S.ended → ∃ r' : PyM (Value Sky K), r = r'.map .value ∧ r'.map Value.plain =
      (BaseSkyMap.findTract m.ops (CachingSkyMap.skyMapOps m) c (init m b₀)).1.map fun t => (Value.tract t).plain) ∧
    (∀ r, (.call .sha1, r) ∈ S.ended → r = message.map fun x => .value (.digest (H x))) := by
  have hp := served_post hb hs hh hid hu hx hy hS
  refine ⟨fun i r hr => ?_, fun r hr => ?_, fun c r hr => ?_, fun r hr => ?_⟩
  · obtain ⟨r', e, hq⟩ := hp _ hr
    have : r'.map Value.plain = (value m b₀ i).map _ := hq
    refine ⟨r', e, ?_⟩
    rw [this]
    unfold value
    cases (CachingSkyMap.getItem m i (init m b₀)).1 <;> rfl
  · obtain ⟨r', e, hq⟩ := hp _ hr
    have : r'.map Value.plain = Except.map _ (pyMapM _ _) := hq
    refine ⟨r', e, ?_⟩
    rw [this, ← seq_tracts]
    cases (BaseSkyMap.iter (CachingSkyMap.skyMapOps m) (init m b₀)).1 with
    | error e => rfl
    | ok l =>
      change Except.ok (Value.tracts ((l.map _).map _)) = Except.ok (Value.tracts (l.map _))
      rw [List.map_map]
      rfl
  · obtain ⟨r', e, hq⟩ := hp _ hr
    have : r'.map Value.plain = Except.map _ (Except.bind (pyMapM _ _) _) := hq
    refine ⟨r', e, ?_⟩
    rw [this, ← seq_findTract]
    cases (BaseSkyMap.findTract m.ops (CachingSkyMap.skyMapOps m) c (init m b₀)).1 <;> rfl
  · obtain ⟨r', e, hq⟩ := hp _ hr
    have : r' = (message.map H).map .digest := hq
    rw [show r = _ from e, this]
    cases message <;> rfl

end

/-! ## Rings sky maps -/

section
variable {s : MapState (SpherePoint K) K} {h : Option Bytes}
  {S : System (SharedMap (SpherePoint K) K) (Request (SpherePoint K) K) (Answer (SpherePoint K) K)}

/-- The request `skyMap.findTractPatchList(coordList)` on a rings sky map (ringsSkyMap.py:361-368). -/
def ringsSearch (A : FloatArith K) (R : Rings K) (coordList : List (SpherePoint K)) : Request (SpherePoint K) K :=
  .rings (fun c => (R.nearIndices A c).map fun l => l ++ [0, (R.numTracts.toNat : Int) - 1]) coordList

/-- The request `skyMap.findClosestTractPatchList(coordList)` on a rings sky map. -/
def ringsClosest (A : FloatArith K) (R : Rings K) (coordList : List (SpherePoint K)) : Request (SpherePoint K) K :=
  .closest (.byNumber fun c => R.findIndex A c) coordList

theorem rings_sequential (A : FloatArith K) (R : Rings K) {m : CachingDef (SpherePoint K) K} (hm : m.numTracts = R.numTracts.toNat)
    (l : List (SpherePoint K)) :
    ringsSequential m (fun c => (R.nearIndices A c).map fun l => l ++ [0, (R.numTracts.toNat : Int) - 1]) l =
      R.findTractPatchList A m.env (CachingSkyMap.skyMapOps m) l := by
  unfold ringsSequential Rings.findTractPatchList
  congr 1
  funext ret c
  congr 1
  funext s
  exact (rings_all A R hm c s).symm

/-- C85 for rings sky maps (any configuration, version and arithmetic; tracts with equal numbers of patches): the class's own `findTractPatchList` and
`findClosestTractPatchList`, under any schedule of any number of threads, give what they give on a newly built sky map used by one thread - the same exception, or
the same list up to repetitions; and exactly what they give with one thread if all tracts had been accessed. -/
theorem C85_rings (A : FloatArith K) (R : Rings K) (env : FloatEnv K) (ops : SkyOps (SpherePoint K) K)
    (makeWcs : SpherePoint K → Wcs (SpherePoint K) K) {m : CachingDef (SpherePoint K) K} (hm : m = R.cachingDef A env ops makeWcs)
    (hb : b₀.state = none) (hs : (CachingSkyMap.skyMapOps m).After (init m b₀) s) (hh : DigestOk H message h)
    (hid : ∀ i a, m.tractArgs i = .ok a → a.id = i) (hu : m.Uniform b₀) (hx : 0 < b₀.patchInnerDimensions.x) (hy : 0 < b₀.patchInnerDimensions.y)
    (hS : Served m b₀ H message (.ofState s h) S) (l : List (SpherePoint K)) :
    (∀ r, (ringsSearch A R l, r) ∈ S.ended → ∃ r' : PyM (Found (SpherePoint K) K), r = r'.map .found ∧ r'.map (fun f => firstOfEach f.plain) =
      (R.findTractPatchList A env (CachingSkyMap.skyMapOps m) l (init m b₀)).1.map Found.plain ∧
      ∀ f, r' = .ok f → ∀ e ∈ f.plain, e ∈ firstOfEach f.plain) ∧
    (∀ r, (ringsClosest A R l, r) ∈ S.ended → ∃ r' : PyM (Found (SpherePoint K) K), r = r'.map .found ∧ r'.map (fun f => firstOfEach f.plain) =
      (BaseSkyMap.findClosestTractPatchList env (CachingSkyMap.skyMapOps m) (R.findTract A (CachingSkyMap.skyMapOps m)) l (init m b₀)).1.map Found.plain ∧
      ∀ f, r' = .ok f → ∀ e ∈ f.plain, e ∈ firstOfEach f.plain) ∧
    ((∀ i, (CachingSkyMap.getItem m i s).2 = s) →
      (∀ r, (ringsSearch A R l, r) ∈ S.ended → r = (R.findTractPatchList A env (CachingSkyMap.skyMapOps m) l s).1.map .found) ∧
      (∀ r, (ringsClosest A R l, r) ∈ S.ended →
        r = (BaseSkyMap.findClosestTractPatchList env (CachingSkyMap.skyMapOps m) (R.findTract A (CachingSkyMap.skyMapOps m)) l s).1.map .found)) := by
  have hn : m.numTracts = R.numTracts.toNat := by rw [hm]; rfl
  have he : m.env = env := by rw [hm]; rfl
  have hr := rings_sequential A R hn l
  rw [he] at hr
  refine ⟨fun r hq => ?_, fun r hq => ?_, fun hw => ⟨fun r hq => ?_, fun r hq => ?_⟩⟩
  · rw [← hr]
    exact rings_general hb hs hh hid hu hx hy hS _ l r hq
  · have := C85_findClosest hb hs hh hid hu hx hy hS _ l r hq
    rw [he] at this
    exact this
  · rw [← hr]
    exact (C85_warm hs hw hS).2.2 _ l r hq
  · have := (C85_warm hs hw hS).2.1 _ l r hq
    rw [he] at this
    exact this

end

/-! ## Races -/

namespace Race

/-- A schedule for the examples: start a request, or let the n-th one in execution take a step (or end). -/
inductive Act2 (Sky K : Type)
  | start (q : Request Sky K)
  | go (n : Nat)

/-- One step of a schedule. -/
def execOne (m : CachingDef Sky K) (b : TractBuilder) (H : Bytes → Bytes) (message : PyM Bytes)
    (S : System (SharedMap Sky K) (Request Sky K) (Answer Sky K)) : Act2 Sky K → System (SharedMap Sky K) (Request Sky K) (Answer Sky K)
  | .start (.call q) => if q.on.isNone then { S with running := S.running ++ [(.call q, serve m b H message (.call q))] } else S
  | .start q => { S with running := S.running ++ [(q, serve m b H message q)] }
  | .go n => match S.running[n]? with
    | some (q, .step u f) => ⟨u S.shared, S.running.take n ++ (q, f S.shared) :: S.running.drop (n + 1), S.ended⟩
    | some (q, .done r) => ⟨S.shared, S.running.take n ++ S.running.drop (n + 1), S.ended ++ [(q, r)]⟩
    | none => S

/-- A schedule. -/
def execAll (m : CachingDef Sky K) (b : TractBuilder) (H : Bytes → Bytes) (message : PyM Bytes) (s₀ : SharedMap Sky K) (l : List (Act2 Sky K)) :
    System (SharedMap Sky K) (Request Sky K) (Answer Sky K) :=
  l.foldl (execOne m b H message) ⟨s₀, [], []⟩

theorem execAll_served (s₀ : SharedMap Sky K) (l : List (Act2 Sky K)) : Served m b₀ H message s₀ (execAll m b₀ H message s₀ l) := by
  have step : ∀ S a, Served m b₀ H message s₀ S → Served m b₀ H message s₀ (execOne m b₀ H message S a) := by
    intro S a hS
    cases a with
    | start q =>
      cases q with
      | call q =>
        unfold execOne
        dsimp only
        split
        · next hq => exact hS.next (.start S _ fun t ht => by rw [ht] at hq; simp at hq)
        · exact hS
      | all l => exact hS.next (.start S _ trivial)
      | closest f l => exact hS.next (.start S _ trivial)
      | rings f l => exact hS.next (.start S _ trivial)
    | go n =>
      obtain ⟨s, l, e⟩ := S
      have hl : ∀ x, l[n]? = some x → l = l.take n ++ x :: l.drop (n + 1) := by
        intro x hx
        obtain ⟨h1, rfl⟩ := List.getElem?_eq_some_iff.1 hx
        rw [List.getElem_cons_drop, List.take_append_drop]
      unfold execOne
      dsimp only
      split
      · rename_i q u f hq
        have hS' := hS
        rw [hl _ hq] at hS'
        exact hS'.next (.work s _ _ e q u f)
      · rename_i q r hq
        have hS' := hS
        rw [hl _ hq] at hS'
        exact hS'.next (.finish s _ _ e q r)
      · exact hS
  unfold execAll
  have : ∀ S, Served m b₀ H message s₀ S → Served m b₀ H message s₀ (l.foldl (execOne m b₀ H message) S) := by
    induction l with
    | nil => exact fun S hS => hS
    | cons a l ih => exact fun S hS => ih _ (step S a hS)
  exact this _ .init

/-- What the examples look at: object numbers, tract ids and patch indices. -/
def look : PyM (Answer (P2 ℚ) ℚ) → PyM (List (Nat × Int × List Index2D))
  | .ok (.found l) => .ok (l.map fun e => (e.1.oid, e.1.info.id, e.2.map fun p => p.index))
  | .ok (.value (.tract t)) => .ok [(t.oid, t.info.id, [])]
  | .ok _ => .ok []
  | .error e => .error e

/-- A search for the closest tracts of two neighbouring positions, while another thread accesses tract 0. -/
def repeatSchedule : List (Act2 (P2 ℚ) ℚ) :=
  [.start (.closest .inherited [⟨20, 30⟩, ⟨21, 31⟩]), .start (.call (.item 0)), .go 1] ++ List.replicate 10 (.go 0) ++
    List.replicate 6 (.go 1) ++ List.replicate 200 (.go 0) ++ [.start (.closest .inherited [⟨20, 30⟩, ⟨21, 31⟩])] ++ List.replicate 200 (.go 0)

/-- What is not true: that `findClosestTractPatchList` lists a tract once.  It compares tract objects by identity, and while the search runs another thread may replace the
object in the cache: here tract 0 is listed twice, as object 0 and as object 1, with the same patches.  With one thread, and on the second search, it is listed once. -/
theorem C85_repeated_tract :
    ((execAll Ex.equalMap Ex.legacy id (.ok []) (.ofState (Ex.start Ex.equalMap) none) repeatSchedule).ended.map fun x => look x.2) =
      [.ok [(1, 0, [])],
       .ok [(0, 0, [⟨0, 1⟩, ⟨0, 2⟩, ⟨1, 1⟩, ⟨1, 2⟩, ⟨2, 1⟩, ⟨2, 2⟩]), (1, 0, [⟨0, 1⟩, ⟨0, 2⟩, ⟨1, 1⟩, ⟨1, 2⟩, ⟨2, 1⟩, ⟨2, 2⟩])],
       .ok [(1, 0, [⟨0, 1⟩, ⟨0, 2⟩, ⟨1, 1⟩, ⟨1, 2⟩, ⟨2, 1⟩, ⟨2, 2⟩])]] := by
  decide +kernel

/-- The hypotheses of `C85_findTractPatchList`, `C85_findClosest` and `C85_calls` are met by this sky map and this schedule. -/
example : Ex.legacy.state = none ∧ 0 < Ex.legacy.patchInnerDimensions.x ∧ 0 < Ex.legacy.patchInnerDimensions.y ∧
    (∀ i a, Ex.equalMap.tractArgs i = .ok a → a.id = i) ∧ Ex.equalMap.Uniform Ex.legacy ∧
    Served Ex.equalMap Ex.legacy id (.ok []) (.ofState (Ex.start Ex.equalMap) none)
      (execAll Ex.equalMap Ex.legacy id (.ok []) (.ofState (Ex.start Ex.equalMap) none) repeatSchedule) :=
  ⟨rfl, by decide, by decide, C21_ids _ _ _ _, Ex.equal_uniform, execAll_served _ _⟩

end Race
end Threads
end Skymap
