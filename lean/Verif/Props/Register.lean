import Verif.Lemmas.Register
import Verif.Props.Sha1
import Verif.Props.Packer

/-! # C47 - C50: registering a sky map -/

set_option linter.unusedSectionVars false
set_option linter.unusedSimpArgs false
set_option linter.unusedVariables false

namespace Skymap
open BaseSkyMap CachingSkyMap

variable {σ Sky K : Type} [Field K] [LinearOrder K] [FloorRing K]

/-! ## Specification vocabulary -/

/-- The valid patch indices of a grid, row by row. -/
def patchGrid (n : Index2D) : List Index2D :=
  (pyRange 0 n.y).flatMap fun y => (pyRange 0 n.x).map fun x => ⟨x, y⟩

/-- From state `s` on, a sky map behaves as all sky maps do (`caching_proper`, `eager_proper`): tracts are permanent, their ids
are their indices, and after an access the shared builder is set up for some tract of the sky map. -/
structure SkyMapOps.Proper (M : SkyMapOps σ Sky K) (s : σ) : Prop where
  permanent : M.Permanent s
  ids : ∀ s₁, M.After s s₁ → ∀ (i : Nat) r s₂, i < M.len → M.getItem i s₁ = (.ok r, s₂) → r.info.id = i
  builder : ∀ s₁, M.After s s₁ → ∀ i r s₂, M.getItem i s₁ = (.ok r, s₂) →
    ∃ (j : Nat) (r' : TractRef Sky K), j < M.len ∧ M.getItem j s₂ = (.ok r', s₂) ∧
      (M.builder s₂).Ready r'.info.numPatches ∧ 0 ≤ (M.builder s₂).patchBorder

/-- `ts` are the tracts of the sky map, which have been generated in state `s`. -/
def SkyMapOps.Tracts (M : SkyMapOps σ Sky K) (s : σ) (ts : List (TractRef Sky K)) : Prop :=
  ts.length = M.len ∧ ∀ (k : Nat) t, ts[k]? = some t → M.getItem (k : Int) s = (.ok t, s)

/-- One registration, of any sky map in any state by any butler, successful or not, leads from `r` to `r'`. -/
def Registry.Step (r r' : Registry Sky) : Prop :=
  ∃ (σ K : Type) (_ : Field K) (_ : LinearOrder K) (_ : FloorRing K) (H : Bytes → Bytes) (fault : Nat → Option PyErr)
    (M : SkyMapOps σ Sky K) (name : String) (w : World σ Sky), w.reg = r ∧ (register H fault M name w).2.reg = r'

/-- Any sequence of registrations. -/
def Registry.History (r r' : Registry Sky) : Prop := Relation.ReflTransGen Registry.Step r r'

/-! ## C47 -/

/-- C47: if `register` raises - at whatever call, for whatever reason - then no row of any table was added, changed or removed. -/
theorem C47_atomic (H : Bytes → Bytes) (fault : Nat → Option PyErr) (M : SkyMapOps σ Sky K) (name : String)
    (w w' : World σ Sky) (e : PyErr) (h : register H fault M name w = (.error e, w')) :
    w'.reg.skymaps = w.reg.skymaps ∧ w'.reg.tracts = w.reg.tracts ∧ w'.reg.patches = w.reg.patches ∧
      w'.reg.datasets = w.reg.datasets := by
  have := register_err h
  simpa [Registry.rows] using this

/-! ## C48 -/

/-- C48: no sequence of registrations, successful or not, modifies or removes a row: each table only grows at its end. -/
theorem C48_never_overwrites (r r' : Registry Sky) (h : Registry.History r r') :
    r.skymaps <+: r'.skymaps ∧ r.tracts <+: r'.tracts ∧ r.patches <+: r'.patches ∧ r.datasets <+: r'.datasets := by
  change r.Grows r'
  induction h with
  | refl => exact .refl _
  | tail _ hs ih =>
    obtain ⟨σ, K, i1, i2, i3, H, fault, M, name, w, rfl, rfl⟩ := hs
    exact ih.trans _ _ _ (register_insertions insertions_grows H fault M name w)

/-- The tracts of the first pass. -/
theorem firstPass {M : SkyMapOps σ Sky K} {s s' : σ} (hp : M.Permanent s) {β : Type} {f : TractRef Sky K → β} {l : List β}
    (h : forTracts M (fun _ t => pure (f t)) s = (.ok l, s')) :
    ∃ ts, M.After s s' ∧ M.Tracts s' ts ∧ l = ts.map f := by
  obtain ⟨ha, h2⟩ := loop_spec (M := M) (fun _ t => pure (f t)) (fun _ t _ => .ok (f t)) (fun _ _ _ => rfl) _ _ _ _ h
  obtain ⟨h3, h4⟩ := forall₂_range h2
  have h5 : ∀ k : Fin M.len, ∃ t : TractRef Sky K, M.getItem (k.1 : Int) s' = (.ok t, s') ∧ l[k.1]? = some (f t) := by
    intro k
    obtain ⟨x, hx, r, s₀, s₁, g1, g2, g3, g4⟩ := h4 k.1 k.2
    simp only [Except.ok.injEq] at g4
    exact ⟨r, hp s₀ g1 _ r s₁ g2 s' g3, by rw [hx, g4]⟩
  choose g hg hl using h5
  refine ⟨List.ofFn g, ha, ⟨by simp, fun k t hk => ?_⟩, ?_⟩
  · obtain ⟨hk1, hk2⟩ := List.getElem?_eq_some_iff.1 hk
    rw [List.getElem_ofFn] at hk2
    rw [← hk2]
    exact hg ⟨k, by simpa using hk1⟩
  · apply List.ext_getElem?
    intro k
    by_cases hk : k < M.len
    · rw [hl ⟨k, hk⟩, List.getElem?_map, List.getElem?_eq_getElem (by simpa using hk), List.getElem_ofFn]
      rfl
    · rw [List.getElem?_eq_none (by omega), List.getElem?_eq_none (by simp; omega)]

/-- The later passes see the same tracts and change nothing. -/
theorem Tracts_after {M : SkyMapOps σ Sky K} {s s' : σ} (hp : M.Permanent s) {ts : List (TractRef Sky K)}
    (h : M.Tracts s ts) (ha : M.After s s') : M.Tracts s' ts :=
  ⟨h.1, fun k t hk => hp s (.refl s) _ t s (h.2 k t hk) s' ha⟩

/-- A pass over tracts that exist. -/
theorem laterPass {M : SkyMapOps σ Sky K} {s : σ} {ts : List (TractRef Sky K)} (h : M.Tracts s ts) {β : Type}
    (f : TractRef Sky K → β) : forTracts M (fun _ t => pure (f t)) s = (.ok (ts.map f), s) := by
  have key : ∀ (n k : Nat), k + n = M.len →
      PyS.mapM (fun i : Nat => M.getItem (i : Int) >>= fun t => (pure (f t) : PyS σ β)) (List.range' k n) s =
        (.ok ((ts.drop k).map f), s) := by
    intro n
    induction n with
    | zero =>
      intro k hk
      rw [List.drop_eq_nil_of_le (by rw [h.1]; omega)]
      rfl
    | succ n ih =>
      intro k hk
      have hlt : k < ts.length := by rw [h.1]; omega
      have hg := h.2 k ts[k] (List.getElem?_eq_getElem hlt)
      rw [List.range'_succ, PyS.mapM_cons, PyS.bind_ok (a := f ts[k]) (s' := s), PyS.bind_ok (ih (k + 1) (by omega)),
        PyS.pure_apply, List.drop_eq_getElem_cons hlt, List.map_cons]
      rw [PyS.bind_ok hg]
      rfl
  have := key M.len 0 (by omega)
  unfold forTracts
  rw [List.range_eq_range']
  exact this

/-- The record that `register` makes for a sky map whose tracts can all be generated. -/
theorem C48_record_determined (H : Bytes → Bytes) (M : SkyMapOps σ Sky K) (name : String) (w w' : World σ Sky) (rec : SkymapRec)
    (hp : M.Permanent w.map) (h : skymapRecord H M name w = (.ok rec, w')) :
    ∃ ts, M.After w.map w'.map ∧ M.Tracts w'.map ts ∧ rec.skymap = name ∧ rec.tractMax = M.len ∧
      pyMax (ts.map fun t => t.info.numPatches.x) = .ok rec.patchNxMax ∧
      pyMax (ts.map fun t => t.info.numPatches.y) = .ok rec.patchNyMax ∧
      w.hashed.getSha1 H = (.ok rec.hash, w'.hashed) := by
  obtain ⟨ns, s, nx, ny, hh, h1, h2, h3, h4, rfl, rfl, -, -⟩ := skymapRecord_ok h
  obtain ⟨ts, h5, h6, rfl⟩ := firstPass hp h1
  rw [List.map_map] at h2 h3
  exact ⟨ts, h5, h6, rfl, rfl, h2, h3, h4⟩

/-- Inversion of `syncDimensionData`. -/
theorem sync_ok {fault : Nat → Option PyErr} {rec : SkymapRec} {w w' : World σ Sky} {ins : Bool}
    (h : Butler.syncSkymap fault rec w = (.ok ins, w')) :
    w'.map = w.map ∧ w'.hashed = w.hashed ∧
    ((ins = false ∧ rec ∈ w.reg.skymaps ∧ w'.reg = w.reg) ∨
     (ins = true ∧ (∀ x ∈ w.reg.skymaps, x.skymap ≠ rec.skymap ∧ x.hash ≠ rec.hash) ∧
       w'.reg = { w.reg with skymaps := w.reg.skymaps ++ [rec] })) := by
  obtain ⟨-, r, hf, rfl⟩ := call_ok h
  refine ⟨rfl, rfl, ?_⟩
  split at hf
  · rename_i hm
    simp only [Except.ok.injEq, Prod.mk.injEq] at hf
    obtain ⟨rfl, rfl⟩ := hf
    exact .inl ⟨rfl, hm, rfl⟩
  · split at hf
    · simp at hf
    · rename_i hm hc
      simp only [Except.ok.injEq, Prod.mk.injEq] at hf
      obtain ⟨rfl, rfl⟩ := hf
      refine .inr ⟨rfl, fun x hx => ?_, rfl⟩
      simp only [List.any_eq_true, Bool.or_eq_true, beq_iff_eq, not_exists, not_and, not_or] at hc
      exact hc x hx

/-- If `register` returned then its record is in the skymap table. -/
theorem register_record_mem {H : Bytes → Bytes} {fault : Nat → Option PyErr} {M : SkyMapOps σ Sky K} {name : String}
    {w w' : World σ Sky} (h : register H fault M name w = (.ok (), w')) :
    ∃ rec w₁, skymapRecord H M name w = (.ok rec, w₁) ∧ rec ∈ w'.reg.skymaps ∧ M.After w₁.map w'.map := by
  obtain ⟨rec, w₁, w₂, w₃, ins, w₄, h1, h2, h3, h4, rfl⟩ := register_ok h
  refine ⟨rec, w₁, h1, ?_, ?_⟩
  swap
  · have hc := acc_contents (M := M) fault name ins w₃
    rw [h4, (sync_ok h3).1, h2] at hc
    exact hc
  have hg := contents_insertions insertions_grows.toInner fault M name ins w₃
  rw [h4] at hg
  have hm : rec ∈ w₃.reg.skymaps := by
    obtain ⟨-, -, ⟨-, a, b⟩ | ⟨-, a, b⟩⟩ := sync_ok h3
    · rw [b]; exact a
    · rw [b]; simp
  exact hg.1.subset hm

/-- Making the record again. -/
theorem record_again {H : Bytes → Bytes} {M : SkyMapOps σ Sky K} {name : String} {w w₁ w'' : World σ Sky} {rec : SkymapRec}
    (hp : M.Permanent w.map) (h : skymapRecord H M name w = (.ok rec, w₁)) (ha : M.After w₁.map w''.map)
    (hs : (w''.hashed.getSha1 H).1 = (w.hashed.getSha1 H).1) :
    ∃ w₂, skymapRecord H M name w'' = (.ok rec, w₂) ∧ w₂.reg = w''.reg := by
  obtain ⟨ts, h1, h2, h3, h4, h5, h6, h7⟩ := C48_record_determined H M name w w₁ rec hp h
  have ht := Tracts_after (hp.mono h1) h2 ha
  rw [h7] at hs
  refine ⟨{ w'' with hashed := (w''.hashed.getSha1 H).2 }, ?_, rfl⟩
  unfold skymapRecord
  have e1 : onMap (forTracts M fun _ t => pure t.info.numPatches) w'' = (.ok (ts.map fun t => t.info.numPatches), w'') := by
    unfold onMap
    rw [laterPass ht]
  rw [PyS.bind_ok e1, List.map_map, List.map_map]
  have e2 : (PyS.lift (pyMax (ts.map ((fun n => n.x) ∘ fun t => t.info.numPatches))) : PyS (World σ Sky) Int) w'' =
      (.ok rec.patchNxMax, w'') := by
    unfold PyS.lift; rw [← h5]; rfl
  have e3 : (PyS.lift (pyMax (ts.map ((fun n => n.y) ∘ fun t => t.info.numPatches))) : PyS (World σ Sky) Int) w'' =
      (.ok rec.patchNyMax, w'') := by
    unfold PyS.lift; rw [← h6]; rfl
  rw [PyS.bind_ok e2, PyS.bind_ok e3]
  have e4 : (worldSha1 H : PyS (World σ Sky) Bytes) w'' = (.ok rec.hash, { w'' with hashed := (w''.hashed.getSha1 H).2 }) := by
    unfold worldSha1
    rcases hg : w''.hashed.getSha1 H with ⟨x, y⟩
    rw [hg] at hs
    dsimp only at hs
    rw [hs]
  rw [PyS.bind_ok e4, PyS.pure_apply, ← h3, ← h4]

/-- Registration when the record is present. -/
theorem register_present {H : Bytes → Bytes} {fault : Nat → Option PyErr} {M : SkyMapOps σ Sky K} {name : String}
    {w w₁ : World σ Sky} {rec : SkymapRec} (h : skymapRecord H M name w = (.ok rec, w₁)) (hr : w₁.reg = w.reg)
    (hm : rec ∈ w.reg.skymaps) :
    (register H fault M name w).2.reg.rows = w.reg.rows ∧
      ((∀ n, fault n = none) → (register H fault M name w).1 = .ok ()) := by
  have e1 : (register H fault M name w).2.reg.rows = w.reg.rows := by
    rcases hx : register H fault M name w with ⟨x, w'⟩
    cases x with
    | error e => exact register_err hx
    | ok u =>
      obtain ⟨rec', w₁', w₂, w₃, ins, w₄, h1, h2, h3, h4, rfl⟩ := register_ok hx
      rw [h] at h1
      simp only [Prod.mk.injEq, Except.ok.injEq] at h1
      obtain ⟨rfl, rfl⟩ := h1
      have hm2 : rec ∈ w₂.reg.skymaps := by rw [h2]; dsimp only; rw [hr]; exact hm
      obtain ⟨-, -, ⟨rfl, a, b⟩ | ⟨-, a, -⟩⟩ := sync_ok h3
      · simp only [registerContents, PyS.pure_apply, Prod.mk.injEq, true_and] at h4
        subst h4
        dsimp only
        rw [b, h2]
        simp [Registry.rows, hr]
      · exact absurd rfl (a rec hm2).1
  refine ⟨e1, fun hf => ?_⟩
  unfold register
  rw [PyS.bind_ok h]
  unfold Butler.registerRun
  rw [PyS.bind_ok (call_nofault hf rfl)]
  unfold Butler.registerDatasetType
  rw [PyS.bind_ok (call_nofault hf rfl)]
  have hs : ∀ w₂ : World σ Sky, rec ∈ w₂.reg.skymaps →
      Butler.syncSkymap fault rec w₂ = (.ok false, { w₂ with calls := w₂.calls + 1 }) := by
    intro w₂ hm2
    unfold Butler.syncSkymap
    rw [call_nofault hf (a := false) (r := w₂.reg)]
    rw [if_pos hm2]
  rw [transaction_nofault hf (a := ())]
  rw [PyS.bind_ok (hs _ (by dsimp only; rw [hr]; exact hm))]
  rfl

/-- C48: registering the same sky map under the same name again - after any accesses to it, and any other registrations - changes
no table, and succeeds unless the butler fails. -/
theorem C48_idempotent (H : Bytes → Bytes) (fault fault' : Nat → Option PyErr) (M : SkyMapOps σ Sky K) (name : String)
    (w w' w'' : World σ Sky) (hp : M.Permanent w.map)
    (h : register H fault M name w = (.ok (), w')) (ha : M.After w'.map w''.map)
    (hs : (w''.hashed.getSha1 H).1 = (w.hashed.getSha1 H).1) (hr : Registry.History w'.reg w''.reg) :
    (register H fault' M name w'').2.reg.rows = w''.reg.rows ∧
      ((∀ n, fault' n = none) → (register H fault' M name w'').1 = .ok ()) := by
  obtain ⟨rec, w₁, h1, h2, hacc⟩ := register_record_mem h
  have hm : rec ∈ w''.reg.skymaps := (C48_never_overwrites _ _ hr).1.subset h2
  obtain ⟨w₂, h3, h4⟩ := record_again hp h1 (hacc.trans ha) hs
  exact register_present h3 h4 hm

theorem pyMax_ok {l : List Int} (h : l ≠ []) : ∃ m, pyMax l = .ok m ∧ (∀ x ∈ l, x ≤ m) ∧ m ∈ l := by
  cases l with
  | nil => exact absurd rfl h
  | cons a l =>
    refine ⟨_, rfl, ?_⟩
    clear h
    have key : ∀ (l : List Int) (a : Int), a ≤ l.foldl max a ∧ (∀ x ∈ l, x ≤ l.foldl max a) ∧
        (l.foldl max a = a ∨ l.foldl max a ∈ l) := by
      intro l
      induction l with
      | nil => intro a; simp
      | cons b l ih =>
        intro a
        obtain ⟨h1, h2, h3⟩ := ih (max a b)
        rw [List.foldl_cons]
        refine ⟨le_trans (le_max_left _ _) h1, fun x hx => ?_, ?_⟩
        · rcases List.mem_cons.1 hx with rfl | hx
          · exact le_trans (le_max_right _ _) h1
          · exact h2 x hx
        · rcases h3 with h3 | h3
          · rw [h3]
            rcases max_choice a b with h4 | h4
            · exact .inl h4
            · right; rw [h4]; simp
          · right; simp [h3]
    obtain ⟨h1, h2, h3⟩ := key l a
    refine ⟨fun x hx => ?_, ?_⟩
    · rcases List.mem_cons.1 hx with rfl | hx
      · exact h1
      · exact h2 x hx
    · rcases h3 with h3 | h3
      · rw [h3]; simp
      · simp [h3]

/-- The record can be made if all tracts can be generated. -/
theorem record_total (H : Bytes → Bytes) (M : SkyMapOps σ Sky K) (name : String) (w : World σ Sky) (hlen : 0 < M.len)
    (hl : ∃ l, (BaseSkyMap.iter M w.map).1 = .ok l) (b : Bytes) (hb : (w.hashed.getSha1 H).1 = .ok b) :
    ∃ rec w₁, skymapRecord H M name w = (.ok rec, w₁) ∧ rec.skymap = name ∧ rec.hash = b ∧ w₁.reg = w.reg := by
  have hgen : ∀ (L : List Nat) (s : σ) (l : List (TractRef Sky K)) (s' : σ),
      PyS.mapM (fun i : Nat => M.getItem (i : Int) >>= fun t => (pure t : PyS σ _)) L s = (.ok l, s') →
      PyS.mapM (fun i : Nat => M.getItem (i : Int) >>= fun t => (pure t.info.numPatches : PyS σ _)) L s =
        (.ok (l.map fun t => t.info.numPatches), s') ∧ l.length = L.length := by
    intro L
    induction L with
    | nil =>
      intro s l s' h
      change (Except.ok [], s) = _ at h
      simp only [Prod.mk.injEq, Except.ok.injEq] at h
      obtain ⟨rfl, rfl⟩ := h
      exact ⟨rfl, rfl⟩
    | cons a L ih =>
      intro s l s' h
      rw [PyS.mapM_cons] at h
      obtain ⟨t, s1, h1, h⟩ := PyS.bind_inv h
      obtain ⟨ts, s2, h2, h⟩ := PyS.bind_inv h
      rw [PyS.pure_apply, Prod.mk.injEq, Except.ok.injEq] at h
      obtain ⟨rfl, rfl⟩ := h
      obtain ⟨t', s3, h3, h4⟩ := PyS.bind_inv h1
      rw [PyS.pure_apply, Prod.mk.injEq, Except.ok.injEq] at h4
      obtain ⟨rfl, rfl⟩ := h4
      obtain ⟨h5, h6⟩ := ih s3 ts s2 h2
      refine ⟨?_, by simp [h6]⟩
      rw [PyS.mapM_cons, PyS.bind_ok (a := t'.info.numPatches) (s' := s3), PyS.bind_ok h5, PyS.pure_apply, List.map_cons]
      rw [PyS.bind_ok h3, PyS.pure_apply]
  obtain ⟨l, hl⟩ := hl
  rcases hi : BaseSkyMap.iter M w.map with ⟨y, s⟩
  rw [hi] at hl
  dsimp only at hl
  subst hl
  obtain ⟨h1, h2⟩ := hgen _ _ _ _ hi
  rw [List.length_range] at h2
  have hne : (l.map fun t => t.info.numPatches) ≠ [] := by
    intro h
    rw [List.map_eq_nil_iff] at h
    subst h
    simp at h2
    omega
  obtain ⟨nx, hx, -⟩ := pyMax_ok (l := (l.map fun t => t.info.numPatches).map fun n => n.x) (by simpa using hne)
  obtain ⟨ny, hy, -⟩ := pyMax_ok (l := (l.map fun t => t.info.numPatches).map fun n => n.y) (by simpa using hne)
  refine ⟨⟨name, b, M.len, nx, ny⟩, { w with map := s, hashed := (w.hashed.getSha1 H).2 }, ?_, rfl, rfl, rfl⟩
  unfold skymapRecord
  have e1 : onMap (forTracts M fun _ t => pure t.info.numPatches) w =
      (.ok (l.map fun t => t.info.numPatches), { w with map := s }) := by
    unfold onMap forTracts
    rw [h1]
  rw [PyS.bind_ok e1]
  have e2 : (PyS.lift (pyMax ((l.map fun t => t.info.numPatches).map fun n => n.x)) : PyS (World σ Sky) Int) { w with map := s } =
      (.ok nx, { w with map := s }) := by
    unfold PyS.lift; rw [hx]
  have e3 : (PyS.lift (pyMax ((l.map fun t => t.info.numPatches).map fun n => n.y)) : PyS (World σ Sky) Int) { w with map := s } =
      (.ok ny, { w with map := s }) := by
    unfold PyS.lift; rw [hy]
  rw [PyS.bind_ok e2, PyS.bind_ok e3]
  have e4 : (worldSha1 H : PyS (World σ Sky) Bytes) { w with map := s } =
      (.ok b, { w with map := s, hashed := (w.hashed.getSha1 H).2 }) := by
    unfold worldSha1
    rcases hg : w.hashed.getSha1 H with ⟨x, y⟩
    rw [hg] at hb
    dsimp only at hb ⊢
    rw [hb]
  rw [PyS.bind_ok e4, PyS.pure_apply]

/-- Sky map names and hashes are unique. -/
def Registry.UniqueKeys (r : Registry Sky) : Prop :=
  (r.skymaps.map (·.skymap)).Nodup ∧ (r.skymaps.map (·.hash)).Nodup

theorem contents_skymaps (fault : Nat → Option PyErr) (M : SkyMapOps σ Sky K) (name : String) (ins : Bool) (w : World σ Sky) :
    (registerContents fault M name ins w).2.reg.skymaps = w.reg.skymaps :=
  contents_insertions (P := fun r r' : Registry Sky => r'.skymaps = r.skymaps)
    ⟨fun _ => rfl, fun _ _ _ a b => b.trans a, fun _ _ _ _ => rfl, fun _ _ _ _ _ => rfl, fun _ _ _ _ => rfl⟩ fault M name ins w

/-- If `register` returns then the skymap table has its record in the end, and had it before or had neither name nor hash. -/
theorem register_sync {H : Bytes → Bytes} {fault : Nat → Option PyErr} {M : SkyMapOps σ Sky K} {name : String}
    {w w' : World σ Sky} (h : register H fault M name w = (.ok (), w')) :
    ∃ rec w₁, skymapRecord H M name w = (.ok rec, w₁) ∧
      ((rec ∈ w.reg.skymaps ∧ w'.reg.rows = w.reg.rows) ∨
       ((∀ x ∈ w.reg.skymaps, x.skymap ≠ rec.skymap ∧ x.hash ≠ rec.hash) ∧
         w'.reg.skymaps = w.reg.skymaps ++ [rec])) := by
  obtain ⟨rec, w₁, w₂, w₃, ins, w₄, h1, h2, h3, h4, h5⟩ := register_ok h
  refine ⟨rec, w₁, h1, ?_⟩
  obtain ⟨ns, s, nx, ny, hh, -, -, -, -, -, -, hreg, -⟩ := skymapRecord_ok h1
  have hs : w₂.reg.skymaps = w.reg.skymaps := by rw [h2]; dsimp only; rw [hreg]
  obtain ⟨-, -, ⟨rfl, a, b⟩ | ⟨-, a, b⟩⟩ := sync_ok h3
  · rw [hs] at a
    have := (register_present (fault := fault) h1 hreg a).1
    rw [h] at this
    exact .inl ⟨a, this⟩
  · rw [hs] at a
    refine .inr ⟨a, ?_⟩
    have hc := contents_skymaps fault M name ins w₃
    rw [h4] at hc
    rw [h5]
    dsimp only at hc ⊢
    rw [hc, b]
    dsimp only
    rw [hs]

/-- C48: names and hashes stay unique in every sequence of registrations. -/
theorem C48_unique_keys (r r' : Registry Sky) (hu : r.UniqueKeys) (h : Registry.History r r') : r'.UniqueKeys := by
  induction h with
  | refl => exact hu
  | tail _ hs ih =>
    obtain ⟨σ, K, i1, i2, i3, H, fault, M, name, w, rfl, rfl⟩ := hs
    rcases hx : register H fault M name w with ⟨x, w'⟩
    have hsk : ∀ r : Registry Sky, r.rows = w.reg.rows → r.UniqueKeys := by
      intro r hr
      simp only [Registry.rows, Prod.mk.injEq] at hr
      unfold Registry.UniqueKeys
      rw [hr.1]
      exact ih
    cases x with
    | error e => exact hsk _ (register_err hx)
    | ok u =>
      obtain ⟨rec, w₁, h1, ⟨-, h2⟩ | ⟨h2, h3⟩⟩ := register_sync hx
      · exact hsk _ h2
      · change (w'.reg.skymaps.map _).Nodup ∧ (w'.reg.skymaps.map _).Nodup
        rw [h3, List.map_append, List.map_append]
        constructor
        · refine List.Nodup.append ih.1 (by simp) ?_
          intro a h4 h5
          simp only [List.map_cons, List.map_nil, List.mem_singleton] at h5
          obtain ⟨x, hx, e⟩ := List.mem_map.1 h4
          exact (h2 x hx).1 (e.trans h5)
        · refine List.Nodup.append ih.2 (by simp) ?_
          intro a h4 h5
          simp only [List.map_cons, List.map_nil, List.mem_singleton] at h5
          obtain ⟨x, hx, e⟩ := List.mem_map.1 h4
          exact (h2 x hx).2 (e.trans h5)

/-- C48: if the name is taken by a sky map with another hash, or the hash by a sky map with another name, then registration never
succeeds and changes no table; it raises `ConflictingDefinitionError`, unless some tract cannot be generated or the butler fails. -/
theorem C48_conflict (H : Bytes → Bytes) (fault : Nat → Option PyErr) (M : SkyMapOps σ Sky K) (name : String)
    (w : World σ Sky) (hu : w.reg.UniqueKeys) (b : Bytes) (hb : (w.hashed.getSha1 H).1 = .ok b)
    (hx : ∃ x ∈ w.reg.skymaps, (x.skymap = name ∧ x.hash ≠ b) ∨ (x.skymap ≠ name ∧ x.hash = b)) :
    (∃ e, (register H fault M name w).1 = .error e) ∧ (register H fault M name w).2.reg.rows = w.reg.rows ∧
    ((∀ n, fault n = none) → 0 < M.len → (∃ l, (BaseSkyMap.iter M w.map).1 = .ok l) →
      (register H fault M name w).1 = .error .ConflictingDefinitionError) := by
  obtain ⟨x, hx1, hx2⟩ := hx
  have hnot : ∀ rec ∈ w.reg.skymaps, rec.skymap = name → rec.hash = b → False := by
    intro rec hm h1 h2
    rcases hx2 with ⟨h3, h4⟩ | ⟨h3, h4⟩
    · have := List.inj_on_of_nodup_map hu.1 hx1 hm (h3.trans h1.symm)
      subst this
      exact h4 h2
    · have := List.inj_on_of_nodup_map hu.2 hx1 hm (h4.trans h2.symm)
      subst this
      exact h3 h1
  have herr : ∃ e, (register H fault M name w).1 = .error e := by
    rcases h : register H fault M name w with ⟨y, w'⟩
    cases y with
    | error e => exact ⟨e, rfl⟩
    | ok u =>
      exfalso
      obtain ⟨rec, w₁, h1, h2⟩ := register_sync h
      obtain ⟨ns, s, nx, ny, hh, -, -, -, h3, rfl, -⟩ := skymapRecord_ok h1
      rw [h3] at hb
      simp only [Except.ok.injEq] at hb
      subst hb
      rcases h2 with ⟨h2, -⟩ | ⟨h2, -⟩
      · exact hnot _ h2 rfl rfl
      · rcases hx2 with ⟨h4, -⟩ | ⟨-, h4⟩
        · exact (h2 x hx1).1 h4
        · exact (h2 x hx1).2 h4
  refine ⟨herr, ?_, fun hf hlen hl => ?_⟩
  · obtain ⟨e, he⟩ := herr
    rcases h : register H fault M name w with ⟨y, w'⟩
    rw [h] at he
    dsimp only at he
    subst he
    exact register_err h
  · obtain ⟨rec, w₁, h1, e1, e2, e3⟩ := record_total H M name w hlen hl b hb
    unfold register
    rw [PyS.bind_ok h1]
    unfold Butler.registerRun
    rw [PyS.bind_ok (call_nofault hf rfl)]
    unfold Butler.registerDatasetType
    rw [PyS.bind_ok (call_nofault hf rfl)]
    have key : ∀ v : World σ Sky, v.reg.skymaps = w.reg.skymaps →
        Butler.syncSkymap fault rec v = (.error .ConflictingDefinitionError, { v with calls := v.calls + 1 }) := by
      intro v hv
      unfold Butler.syncSkymap
      apply call_nofault_err hf
      rw [if_neg (by rw [hv]; exact fun hm => hnot _ hm e1 e2), if_pos]
      rw [hv, List.any_eq_true]
      refine ⟨x, hx1, ?_⟩
      simp only [Bool.or_eq_true, beq_iff_eq, e1, e2]
      rcases hx2 with ⟨h4, -⟩ | ⟨-, h4⟩
      · exact .inl h4
      · exact .inr h4
    unfold Butler.transaction
    rw [PyS.bind_err (key _ (by dsimp only; rw [e3]))]

/-- The state of a consistent registry: all keys are unique and all references are to existing rows. -/
structure Registry.Sound (r : Registry Sky) : Prop where
  names : (r.skymaps.map (·.skymap)).Nodup
  hashes : (r.skymaps.map (·.hash)).Nodup
  tractKeys : (r.tracts.map fun x => (x.skymap, x.tract)).Nodup
  patchKeys : (r.patches.map fun x => (x.skymap, x.tract, x.patch)).Nodup
  datasetKeys : (r.datasets.map (·.skymap)).Nodup
  tractRefs : ∀ t ∈ r.tracts, ∃ x ∈ r.skymaps, x.skymap = t.skymap
  patchRefs : ∀ p ∈ r.patches, ∃ x ∈ r.tracts, x.skymap = p.skymap ∧ x.tract = p.tract
  datasetRefs : ∀ d ∈ r.datasets, ∃ x ∈ r.skymaps, x.skymap = d.skymap

theorem nodup_map_append {α β : Type} {f : α → β} {l l' : List α} (h : (l.map f).Nodup) (h' : (l'.map f).Nodup)
    (hd : ∀ x ∈ l, ∀ y ∈ l', f x ≠ f y) : ((l ++ l').map f).Nodup := by
  rw [List.map_append]
  refine List.Nodup.append h h' fun a h1 h2 => ?_
  obtain ⟨x, hx, rfl⟩ := List.mem_map.1 h1
  obtain ⟨y, hy, e⟩ := List.mem_map.1 h2
  exact hd x hx y hy e.symm

theorem insertions_sound : Registry.Insertions (Sky := Sky) fun r r' => r.Sound → r'.Sound where
  refl r h := h
  trans r r' r'' h h' h0 := h' (h h0)
  flags r a b h := ⟨h.1, h.2, h.3, h.4, h.5, h.6, h.7, h.8⟩
  skymap r rec hn h :=
    { h with
      names := nodup_map_append h.names (by simp) fun x hx y hy => by
        rw [List.mem_singleton.1 hy]; exact (hn x hx).1
      hashes := nodup_map_append h.hashes (by simp) fun x hx y hy => by
        rw [List.mem_singleton.1 hy]; exact (hn x hx).2
      tractRefs := fun t ht => by
        obtain ⟨x, hx, e⟩ := h.tractRefs t ht
        exact ⟨x, List.mem_append_left _ hx, e⟩
      datasetRefs := fun t ht => by
        obtain ⟨x, hx, e⟩ := h.datasetRefs t ht
        exact ⟨x, List.mem_append_left _ hx, e⟩ }
  tract r rec he hn h :=
    { h with
      tractKeys := nodup_map_append h.tractKeys (by simp) fun x hx y hy e => by
        rw [List.mem_singleton.1 hy, Prod.mk.injEq] at e; exact hn x hx e
      tractRefs := fun t ht => by
        rcases List.mem_append.1 ht with ht | ht
        · exact h.tractRefs t ht
        · rw [List.mem_singleton.1 ht]; exact he
      patchRefs := fun p hp => by
        obtain ⟨x, hx, e⟩ := h.patchRefs p hp
        exact ⟨x, List.mem_append_left _ hx, e⟩ }
  patches r recs he hn hnd h :=
    { h with
      patchKeys := nodup_map_append h.patchKeys hnd fun x hx y hy e => hn y hy x hx e
      patchRefs := fun p hp => by
        rcases List.mem_append.1 hp with hp | hp
        · exact h.patchRefs p hp
        · exact he p hp }
  dataset r rec he hn h :=
    { h with
      datasetKeys := nodup_map_append h.datasetKeys (by simp) fun x hx y hy => by
        rw [List.mem_singleton.1 hy]; exact hn x hx
      datasetRefs := fun p hp => by
        rcases List.mem_append.1 hp with hp | hp
        · exact h.datasetRefs p hp
        · rw [List.mem_singleton.1 hp]; exact he }

/-- C48: the registry stays consistent in every sequence of registrations, successful or not: no name, hash, tract, patch or
dataset is ever there twice, and no tract, patch or dataset is left without its sky map. -/
theorem C48_sound (r r' : Registry Sky) (hs : r.Sound) (h : Registry.History r r') : r'.Sound := by
  induction h with
  | refl => exact hs
  | tail _ hs ih =>
    obtain ⟨σ, K, i1, i2, i3, H, fault, M, name, w, rfl, rfl⟩ := hs
    exact register_insertions insertions_sound H fault M name w ih

/-- An empty registry is consistent. -/
theorem Registry.sound_empty : ({} : Registry Sky).Sound := by
  constructor <;> simp

/-! ## C49 -/

/-- The records of the patches of a tract, by a builder that is set up for `nb` patches. -/
def patchRecs (name : String) (t : TractInfo Sky K) (b : TractBuilder) (nb : Index2D) : List (PatchRec Sky) :=
  (patchGrid t.numPatches).map fun i =>
    ⟨name, t.id, nb.x * i.y + i.x, i.x, i.y, (b.patchVal nb i t.wcs).getOuterSkyPolygon (some t.wcs)⟩

theorem mem_patchGrid {n i : Index2D} : i ∈ patchGrid n ↔ InRange n i := by
  unfold patchGrid InRange
  simp only [List.mem_flatMap, List.mem_map, mem_pyRange]
  constructor
  · rintro ⟨y, hy, x, hx, rfl⟩; exact ⟨hx.1, hx.2, hy.1, hy.2⟩
  · rintro ⟨h1, h2, h3, h4⟩; exact ⟨i.y, ⟨h3, h4⟩, i.x, ⟨h1, h2⟩, rfl⟩

theorem patchGrid_nodup (n : Index2D) : (patchGrid n).Nodup := by
  unfold patchGrid
  rw [List.nodup_flatMap]
  refine ⟨fun y _ => (pyRange_nodup _ _).map fun a b h => by simpa using h, ?_⟩
  refine (pyRange_nodup _ _).imp ?_
  intro a b hab i h1 h2
  simp only [List.mem_map] at h1 h2
  obtain ⟨x, -, rfl⟩ := h1
  obtain ⟨x', -, e⟩ := h2
  simp at e
  exact hab e.2.symm

theorem seqIndex_ready {b : TractBuilder} {nb : Index2D} (hb : b.Ready nb) (i : Index2D) :
    b.getSequentialPatchIndexFromPair (.index2D i) = .ok (nb.x * i.y + i.x) := by
  simp [TractBuilder.getSequentialPatchIndexFromPair, TractBuilder.getState, hb.st, bind, Except.bind, pure, Except.pure]

theorem patchRecords_ok {name : String} {t : TractInfo Sky K} {b : TractBuilder} {nb : Index2D} (hb : b.Ready nb)
    (hb0 : 0 ≤ b.patchBorder) {recs : List (PatchRec Sky)} (h : patchRecords name t b = .ok recs) :
    (∀ i, InRange t.numPatches i → InRange nb i) ∧ recs = patchRecs name t b nb := by
  have hin : ∀ i ∈ patchGrid t.numPatches, InRange nb i := by
    intro i hi
    unfold patchRecords at h
    rw [pyMapM_ok_iff] at h
    have hr : ∃ r, (do
        let p ← t.getPatchInfo b (.index2D i)
        let n ← t.getSequentialPatchIndex b p
        return ⟨name, t.id, n, p.index.x, p.index.y, p.getOuterSkyPolygon (some t.wcs)⟩ : PyM (PatchRec Sky)) = .ok r := by
      obtain ⟨hl, hh⟩ := List.forall₂_iff_get.1 h
      obtain ⟨k, hk, e⟩ := List.getElem_of_mem hi
      have := hh k hk (by rw [← hl]; exact hk)
      rw [List.get_eq_getElem] at this
      change _ = _ at this
      exact ⟨_, e ▸ this⟩
    obtain ⟨r, hr⟩ := hr
    obtain ⟨p, hp, -⟩ := bindOk hr
    exact ((hb.getPatchInfo_iff hb0 _ _ _).1 hp).1
  refine ⟨fun i hi => hin i (mem_patchGrid.2 hi), ?_⟩
  have := pyMapM_ok_of (fun i : Index2D => (do
    let p ← t.getPatchInfo b (.index2D i)
    let n ← t.getSequentialPatchIndex b p
    return ⟨name, t.id, n, p.index.x, p.index.y, p.getOuterSkyPolygon (some t.wcs)⟩ : PyM (PatchRec Sky)))
    (fun i => ⟨name, t.id, nb.x * i.y + i.x, i.x, i.y, (b.patchVal nb i t.wcs).getOuterSkyPolygon (some t.wcs)⟩)
    (patchGrid t.numPatches) (fun i hi => by
      have e1 : t.getPatchInfo b (.index2D i) = .ok (b.patchVal nb i t.wcs) := hb.getPatchInfo_ok hb0 (hin i hi) t.wcs
      simp only [e1, bind, Except.bind, TractInfo.getSequentialPatchIndex, TractBuilder.getSequentialPatchIndex,
        TractBuilder.patchVal_index, seqIndex_ready hb, pure, Except.pure])
  unfold patchRecords at h
  change pyMapM _ (patchGrid t.numPatches) = _ at h
  rw [this] at h
  exact (Except.ok.inj h).symm

theorem patchRecords_total {name : String} {t : TractInfo Sky K} {b : TractBuilder} {nb : Index2D} (hb : b.Ready nb)
    (hb0 : 0 ≤ b.patchBorder) (hin : ∀ i, InRange t.numPatches i → InRange nb i) :
    patchRecords name t b = .ok (patchRecs name t b nb) := by
  refine pyMapM_ok_of _ _ (patchGrid t.numPatches) (fun i hi => ?_)
  have e1 : t.getPatchInfo b (.index2D i) = .ok (b.patchVal nb i t.wcs) :=
    hb.getPatchInfo_ok hb0 (hin i (mem_patchGrid.1 hi)) t.wcs
  simp only [e1, bind, Except.bind, TractInfo.getSequentialPatchIndex, TractBuilder.getSequentialPatchIndex,
    TractBuilder.patchVal_index, seqIndex_ready hb, pure, Except.pure]

/-- What registering one tract adds. -/
theorem registerTract_ok {fault : Nat → Option PyErr} {M : SkyMapOps σ Sky K} {name : String} {t : TractRef Sky K}
    {w w' : World σ Sky} (h : registerTract fault M name t w = (.ok (), w')) :
    ∃ recs, patchRecords name t.info (M.builder w.map) = .ok recs ∧ w'.map = w.map ∧ w'.hashed = w.hashed ∧
      w'.reg = { w.reg with tracts := w.reg.tracts ++ [⟨name, t.info.id, t.info.getOuterSkyPolygon⟩]
                            patches := w.reg.patches ++ recs } := by
  unfold registerTract at h
  obtain ⟨_, w1, h1, h⟩ := PyS.bind_inv h
  obtain ⟨w2, w2', h2, h⟩ := PyS.bind_inv h
  obtain ⟨recs, w3, h3, h4⟩ := PyS.bind_inv h
  simp only [PyS.get, Prod.mk.injEq, Except.ok.injEq] at h2
  obtain ⟨rfl, rfl⟩ := h2
  simp only [PyS.lift, Prod.mk.injEq] at h3
  obtain ⟨h3, rfl⟩ := h3
  obtain ⟨-, r1, e1, rfl⟩ := call_ok h1
  obtain ⟨-, r2, e2, rfl⟩ := call_ok h4
  refine ⟨recs, h3, rfl, rfl, ?_⟩
  split at e1
  · simp at e1
  · split at e1
    · simp at e1
    · simp only [Except.ok.injEq, Prod.mk.injEq, true_and] at e1
      split at e2
      · simp at e2
      · split at e2
        · simp at e2
        · simp only [Except.ok.injEq, Prod.mk.injEq, true_and] at e2
          subst e1 e2
          rfl

/-- What the loop over the tracts adds. -/
theorem tractLoop_ok {fault : Nat → Option PyErr} {M : SkyMapOps σ Sky K} {name : String} {s : σ} {ts : List (TractRef Sky K)}
    (ht : M.Tracts s ts) {w w' : World σ Sky} (hw : w.map = s) {u : List Unit}
    (h : forTracts (worldOps M) (fun _ t => registerTract fault M name t) w = (.ok u, w')) :
    ∃ recss, List.Forall₂ (fun t recs => patchRecords name t.info (M.builder s) = .ok recs) ts recss ∧ w'.map = s ∧
      w'.hashed = w.hashed ∧
      w'.reg = { w.reg with tracts := w.reg.tracts ++ ts.map (fun t => ⟨name, t.info.id, t.info.getOuterSkyPolygon⟩)
                            patches := w.reg.patches ++ recss.flatten } := by
  have key : ∀ (n k : Nat) (w w' : World σ Sky) (u : List Unit), k + n = M.len → w.map = s →
      PyS.mapM (fun i : Nat => (worldOps M).getItem (i : Int) >>= fun t => registerTract fault M name t) (List.range' k n) w =
        (.ok u, w') →
      ∃ recss, List.Forall₂ (fun t recs => patchRecords name t.info (M.builder s) = .ok recs) (ts.drop k) recss ∧ w'.map = s ∧
        w'.hashed = w.hashed ∧
        w'.reg = { w.reg with
          tracts := w.reg.tracts ++ (ts.drop k).map (fun t => ⟨name, t.info.id, t.info.getOuterSkyPolygon⟩)
          patches := w.reg.patches ++ recss.flatten } := by
    intro n
    induction n with
    | zero =>
      intro k w w' u hk hw h
      change (Except.ok [], w) = _ at h
      simp only [Prod.mk.injEq] at h
      obtain ⟨-, rfl⟩ := h
      rw [List.drop_eq_nil_of_le (by have := ht.1; omega)]
      exact ⟨[], .nil, hw, rfl, by simp⟩
    | succ n ih =>
      intro k w w' u hk hw h
      have hlt : k < ts.length := by have := ht.1; omega
      have hg := ht.2 k ts[k] (List.getElem?_eq_getElem hlt)
      rw [List.range'_succ, PyS.mapM_cons] at h
      obtain ⟨_, w1, h1, h⟩ := PyS.bind_inv h
      obtain ⟨us, w2, h2, h⟩ := PyS.bind_inv h
      rw [PyS.pure_apply, Prod.mk.injEq] at h
      obtain ⟨-, rfl⟩ := h
      have hg' : (worldOps M).getItem (k : Int) w = (.ok ts[k], w) := by
        change onMap (M.getItem (k : Int)) w = _
        unfold onMap
        rw [hw, hg]
        simp only [← hw]
      rw [PyS.bind_ok hg'] at h1
      obtain ⟨recs, e1, e2, e3, e4⟩ := registerTract_ok h1
      obtain ⟨recss, g1, g2, g3, g4⟩ := ih (k + 1) w1 w2 us (by omega) (e2.trans hw) h2
      rw [List.drop_eq_getElem_cons hlt]
      refine ⟨recs :: recss, .cons (by rw [← hw]; exact e1) g1, g2, g3.trans e3, ?_⟩
      rw [g4, e4]
      simp only [List.map_cons, List.flatten_cons, List.append_assoc, List.cons_append, List.nil_append]
  have := key M.len 0 w w' u (by omega) hw (by rw [← List.range_eq_range']; exact h)
  simpa using this

/-- C49: what a registration that returns has added.  If the name was not registered before then, with `ts` the tracts of the sky
map: the skymap record, with the sky map's hash, the number of tracts and the maximal numbers of patches; one tract record per
tract; for each tract, one patch record per patch index in its range, with `cell_x`, `cell_y` = the index and with
`patch` = `nb.x * y + x`, where `nb` is the number of patches of *some* tract of the sky map (the one that the shared builder
happens to be set up for); and the sky map itself. -/
theorem C49_records (H : Bytes → Bytes) (fault : Nat → Option PyErr) (M : SkyMapOps σ Sky K) (name : String) (w w' : World σ Sky)
    (hp : M.Proper w.map) (h : register H fault M name w = (.ok (), w')) (hnew : ∀ x ∈ w.reg.skymaps, x.skymap ≠ name) :
    ∃ (ts : List (TractRef Sky K)) (rec : SkymapRec) (tb : TractRef Sky K), M.Tracts w'.map ts ∧ tb ∈ ts ∧
      rec.skymap = name ∧ (w.hashed.getSha1 H).1 = .ok rec.hash ∧ rec.tractMax = M.len ∧
      (∀ t ∈ ts, t.info.numPatches.x ≤ rec.patchNxMax) ∧ (∃ t ∈ ts, t.info.numPatches.x = rec.patchNxMax) ∧
      (∀ t ∈ ts, t.info.numPatches.y ≤ rec.patchNyMax) ∧ (∃ t ∈ ts, t.info.numPatches.y = rec.patchNyMax) ∧
      w'.reg.skymaps = w.reg.skymaps ++ [rec] ∧
      w'.reg.tracts = w.reg.tracts ++ ts.map (fun t => ⟨name, t.info.id, t.info.getOuterSkyPolygon⟩) ∧
      w'.reg.patches = w.reg.patches ++
        ts.flatMap (fun t => patchRecs name t.info (M.builder w'.map) tb.info.numPatches) ∧
      (∀ t ∈ ts, ∀ i, InRange t.info.numPatches i → InRange tb.info.numPatches i) ∧
      (∀ (k : Nat) t, ts[k]? = some t → t.info.id = (k : Int)) ∧
      (M.builder w'.map).Ready tb.info.numPatches ∧
      w'.reg.datasets = w.reg.datasets ++ [⟨name, w.hashed.pickle⟩] := by
  obtain ⟨rec, w₁, w₂, w₃, ins, w₄, h1, h2, h3, h4, h5⟩ := register_ok h
  obtain ⟨ts, d1, d2, d3, d4, d5, d6, d7⟩ := C48_record_determined H M name w w₁ rec hp.permanent h1
  obtain ⟨-, -, -, -, -, -, -, -, -, -, -, hreg, -⟩ := skymapRecord_ok h1
  obtain ⟨s1, s2, ⟨rfl, a, -⟩ | ⟨rfl, a, b⟩⟩ := sync_ok h3
  · exfalso
    rw [h2] at a
    dsimp only at a
    rw [hreg] at a
    exact hnew _ a d3
  · have hmap : w₃.map = w₁.map := by rw [s1, h2]
    unfold registerContents at h4
    obtain ⟨u, w₅, h6, h7⟩ := PyS.bind_inv h4
    obtain ⟨recss, e1, e2, e3, e4⟩ := tractLoop_ok d2 hmap h6
    have hpn : pyMax (ts.map fun t => t.info.numPatches.x) = .ok rec.patchNxMax := d5
    have hne : ts ≠ [] := by
      intro hh
      rw [hh] at hpn
      simp [pyMax] at hpn
    have hmaxx := pyMax_ok (l := ts.map fun t => t.info.numPatches.x) (by simpa using hne)
    have hmaxy := pyMax_ok (l := ts.map fun t => t.info.numPatches.y) (by simpa using hne)
    rw [d5] at hmaxx
    rw [d6] at hmaxy
    obtain ⟨mx, q1, q2, q3⟩ := hmaxx
    obtain ⟨my, r1, r2, r3⟩ := hmaxy
    simp only [Except.ok.injEq] at q1 r1
    subst q1 r1
    -- the last stage
    unfold Butler.put at h7
    obtain ⟨-, rr, f1, f2⟩ := call_ok h7
    have hw' : w'.map = w₁.map := by rw [h5]; dsimp only; rw [f2]; exact e2
    -- the builder
    obtain ⟨t0, ts', hts⟩ := List.exists_cons_of_ne_nil hne
    have hg0 := d2.2 0 t0 (by rw [hts]; rfl)
    obtain ⟨j, tb, hj, hgj, hready, hbord⟩ := hp.builder w₁.map d1 0 t0 w₁.map hg0
    have htb : ts[j]? = some tb := by
      have hl : j < ts.length := by rw [d2.1]; exact hj
      have := d2.2 j ts[j] (List.getElem?_eq_getElem hl)
      rw [hgj] at this
      simp only [Prod.mk.injEq, Except.ok.injEq, and_true] at this
      rw [List.getElem?_eq_getElem hl, this]
    have hall : ∀ (t : TractInfo Sky K) (recs : List (PatchRec Sky)), patchRecords name t (M.builder w₁.map) = .ok recs →
        (∀ i, InRange t.numPatches i → InRange tb.info.numPatches i) ∧
          recs = patchRecs name t (M.builder w₁.map) tb.info.numPatches := fun t recs hr => patchRecords_ok hready hbord hr
    have hflat : ∀ (l : List (TractRef Sky K)) (rs : List (List (PatchRec Sky))),
        List.Forall₂ (fun t recs => patchRecords name t.info (M.builder w₁.map) = .ok recs) l rs →
        rs.flatten = l.flatMap (fun t => patchRecs name t.info (M.builder w₁.map) tb.info.numPatches) ∧
        ∀ t ∈ l, ∀ i, InRange t.info.numPatches i → InRange tb.info.numPatches i := by
      intro l rs hf
      induction hf with
      | nil => simp
      | cons hx _ ih =>
        obtain ⟨k1, k2⟩ := hall _ _ hx
        refine ⟨by rw [List.flatten_cons, List.flatMap_cons, ih.1, k2], fun t ht => ?_⟩
        rcases List.mem_cons.1 ht with rfl | ht
        · exact k1
        · exact ih.2 t ht
    obtain ⟨z1, z2⟩ := hflat ts recss e1
    split at f1
    · simp at f1
    · split at f1
      · simp at f1
      · simp only [Except.ok.injEq, Prod.mk.injEq, true_and] at f1
        have hfin : w'.reg = { w₅.reg with datasets := w₅.reg.datasets ++ [⟨name, w₅.hashed.pickle⟩] } := by
          rw [h5]; dsimp only; rw [f2]; exact f1.symm
        have hpick : w₅.hashed.pickle = w.hashed.pickle := by
          rw [e3, s2, h2]
          dsimp only
          rw [show w₁.hashed = (w.hashed.getSha1 H).2 by rw [d7]]
          unfold HashedMap.getSha1 HashedMap.pickle
          split
          · rfl
          · split <;> rfl
        refine ⟨ts, rec, tb, by rw [hw']; exact d2, List.mem_of_getElem? htb, d3, by rw [d7], d4, ?_, ?_, ?_, ?_, ?_, ?_, ?_,
          z2, ?_, by rw [hw']; exact hready, ?_⟩
        · exact fun t ht => q2 _ (List.mem_map_of_mem ht)
        · obtain ⟨t, ht, e⟩ := List.mem_map.1 q3; exact ⟨t, ht, e⟩
        · exact fun t ht => r2 _ (List.mem_map_of_mem ht)
        · obtain ⟨t, ht, e⟩ := List.mem_map.1 r3; exact ⟨t, ht, e⟩
        · rw [hfin, e4]; dsimp only; rw [b, h2]; dsimp only; rw [hreg]
        · rw [hfin, e4]; dsimp only; rw [b, h2]; dsimp only; rw [hreg]
        · rw [hfin, e4]; dsimp only; rw [b, h2]; dsimp only; rw [hreg, z1, hw']
        · intro k t hk
          exact hp.ids w₁.map d1 k t w₁.map (by
            have := (List.getElem?_eq_some_iff.1 hk).1
            rw [d2.1] at this; exact this) (d2.2 k t hk)
        · rw [hfin, e4]; dsimp only; rw [b, h2]; dsimp only; rw [hreg, ← hpick, e3, s2, h2]

end Skymap
