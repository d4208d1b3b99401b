import Verif.Lemmas.Search
import Verif.Model.Register
import Verif.Lemmas.Builder

/-! # Lemmas on `register` -/

set_option linter.unusedSectionVars false
set_option linter.unusedSimpArgs false
set_option linter.unusedVariables false

namespace Skymap

/-- The rows of the four tables. -/
def Registry.rows {Sky : Type} (r : Registry Sky) :
    List SkymapRec × List (TractRec Sky) × List (PatchRec Sky) × List DatasetRec :=
  (r.skymaps, r.tracts, r.patches, r.datasets)

variable {σ Sky K α β : Type}

/-- The registry before and after a method are related by `P`. -/
def Pres (P : Registry Sky → Registry Sky → Prop) (m : PyS (World σ Sky) α) : Prop := ∀ w, P w.reg (m w).2.reg

section
variable {P : Registry Sky → Registry Sky → Prop} (hr : ∀ r, P r r) (ht : ∀ r r' r'', P r r' → P r' r'' → P r r'')
include hr

theorem pres_pure (a : α) : Pres P (pure a : PyS (World σ Sky) α) := fun w => hr w.reg
theorem pres_lift (x : PyM α) : Pres P (PyS.lift x : PyS (World σ Sky) α) := fun w => hr w.reg
theorem pres_get : Pres P (PyS.get : PyS (World σ Sky) _) := fun w => hr w.reg
theorem pres_onMap (m : PyS σ α) : Pres P (onMap m : PyS (World σ Sky) α) := fun w => hr w.reg
theorem pres_sha1 (H : Bytes → Bytes) : Pres P (worldSha1 H : PyS (World σ Sky) Bytes) := fun w => hr w.reg

theorem pres_call {fault : Nat → Option PyErr} {f : Registry Sky → PyM (α × Registry Sky)}
    (hf : ∀ r a r', f r = .ok (a, r') → P r r') : Pres P (Butler.call fault f : PyS (World σ Sky) α) := by
  intro w
  unfold Butler.call
  dsimp only
  split
  · exact hr _
  · split
    · exact hr _
    · rename_i h; exact hf _ _ _ h

include ht
theorem pres_bind {m : PyS (World σ Sky) α} {f : α → PyS (World σ Sky) β} (hm : Pres P m) (hf : ∀ a, Pres P (f a)) :
    Pres P (m >>= f) := by
  intro w
  have h1 := hm w
  rw [PyS.bind_apply]
  rcases h : m w with ⟨x, w'⟩
  rw [h] at h1
  cases x with
  | error e => exact h1
  | ok a => exact ht _ _ _ h1 (hf a w')

theorem pres_mapM {f : α → PyS (World σ Sky) β} (hf : ∀ a, Pres P (f a)) (l : List α) : Pres P (PyS.mapM f l) := by
  induction l with
  | nil => exact pres_pure hr _
  | cons a l ih =>
    rw [PyS.mapM_cons]
    exact pres_bind hr ht (hf a) fun b => pres_bind hr ht ih fun bs => pres_pure hr _

end

/-- Inversion of a call to the butler. -/
theorem call_ok {fault : Nat → Option PyErr} {f : Registry Sky → PyM (α × Registry Sky)} {w w' : World σ Sky} {a : α}
    (h : Butler.call fault f w = (.ok a, w')) :
    fault w.calls = none ∧ ∃ r, f w.reg = .ok (a, r) ∧ w' = { w with calls := w.calls + 1, reg := r } := by
  unfold Butler.call at h
  dsimp only at h
  cases hf : fault w.calls with
  | some e => rw [hf] at h; simp at h
  | none =>
    rw [hf] at h
    dsimp only at h
    cases hg : f w.reg with
    | error e => rw [hg] at h; simp at h
    | ok p =>
      obtain ⟨a', r⟩ := p
      rw [hg] at h
      simp only [Prod.mk.injEq, Except.ok.injEq] at h
      obtain ⟨rfl, rfl⟩ := h
      exact ⟨rfl, r, rfl, rfl⟩

theorem call_nofault {fault : Nat → Option PyErr} (hf : ∀ n, fault n = none) {f : Registry Sky → PyM (α × Registry Sky)}
    {w : World σ Sky} {a : α} {r : Registry Sky} (h : f w.reg = .ok (a, r)) :
    Butler.call fault f w = (.ok a, { w with calls := w.calls + 1, reg := r }) := by
  unfold Butler.call
  simp only [hf, h]

theorem call_nofault_err {fault : Nat → Option PyErr} (hf : ∀ n, fault n = none) {f : Registry Sky → PyM (α × Registry Sky)}
    {w : World σ Sky} {e : PyErr} (h : f w.reg = .error e) :
    Butler.call fault f w = (.error e, { w with calls := w.calls + 1 }) := by
  unfold Butler.call
  simp only [hf, h]

/-- Inversion of a transaction. -/
theorem transaction_ok {fault : Nat → Option PyErr} {body : PyS (World σ Sky) α} {w w' : World σ Sky} {a : α}
    (h : Butler.transaction fault body w = (.ok a, w')) :
    ∃ w₁, body w = (.ok a, w₁) ∧ w' = { w₁ with calls := w₁.calls + 1 } := by
  unfold Butler.transaction at h
  rcases hb : body w with ⟨x, w₁⟩
  rw [hb] at h
  cases x with
  | error e => simp at h
  | ok b =>
    dsimp only at h
    rcases hc : Butler.call fault (fun r => .ok ((), r)) w₁ with ⟨y, w₂⟩
    rw [hc] at h
    cases y with
    | error e => simp at h
    | ok u =>
      simp only [Prod.mk.injEq, Except.ok.injEq] at h
      obtain ⟨rfl, rfl⟩ := h
      obtain ⟨-, r, e1, e2⟩ := call_ok hc
      simp only [Except.ok.injEq, Prod.mk.injEq, true_and] at e1
      subst e1
      exact ⟨w₁, rfl, e2⟩

theorem transaction_err {fault : Nat → Option PyErr} {body : PyS (World σ Sky) α} {w w' : World σ Sky} {e : PyErr}
    (h : Butler.transaction fault body w = (.error e, w')) : w'.reg = w.reg := by
  unfold Butler.transaction at h
  rcases hb : body w with ⟨x, w₁⟩
  rw [hb] at h
  cases x with
  | error e => simp only [Prod.mk.injEq] at h; rw [← h.2]
  | ok b =>
    dsimp only at h
    rcases hc : Butler.call fault (fun r => .ok ((), r)) w₁ with ⟨y, w₂⟩
    rw [hc] at h
    cases y with
    | error e => simp only [Prod.mk.injEq] at h; rw [← h.2]
    | ok u => simp at h

theorem transaction_nofault {fault : Nat → Option PyErr} (hf : ∀ n, fault n = none) {body : PyS (World σ Sky) α}
    {w w₁ : World σ Sky} {a : α} (h : body w = (.ok a, w₁)) :
    Butler.transaction fault body w = (.ok a, { w₁ with calls := w₁.calls + 1 }) := by
  unfold Butler.transaction
  rw [h]
  dsimp only
  rw [call_nofault hf (f := fun r => .ok ((), r)) (w := w₁) (a := ()) (r := w₁.reg) rfl]

variable [Field K] [LinearOrder K] [FloorRing K]

open BaseSkyMap

/-- The record computed by `register`. -/
theorem skymapRecord_ok {H : Bytes → Bytes} {M : SkyMapOps σ Sky K} {name : String} {w w' : World σ Sky} {rec : SkymapRec}
    (h : skymapRecord H M name w = (.ok rec, w')) :
    ∃ ns s nx ny hh, forTracts M (fun _ t => pure t.info.numPatches) w.map = (.ok ns, s) ∧
      pyMax (ns.map fun n => n.x) = .ok nx ∧ pyMax (ns.map fun n => n.y) = .ok ny ∧
      w.hashed.getSha1 H = (.ok hh, w'.hashed) ∧ rec = ⟨name, hh, M.len, nx, ny⟩ ∧
      w'.map = s ∧ w'.reg = w.reg ∧ w'.calls = w.calls := by
  unfold skymapRecord at h
  obtain ⟨ns, w1, h1, h⟩ := PyS.bind_inv h
  obtain ⟨nx, w2, h2, h⟩ := PyS.bind_inv h
  obtain ⟨ny, w3, h3, h⟩ := PyS.bind_inv h
  obtain ⟨hh, w4, h4, h⟩ := PyS.bind_inv h
  rw [PyS.pure_apply, Prod.mk.injEq, Except.ok.injEq] at h
  obtain ⟨rfl, rfl⟩ := h
  simp only [PyS.lift, Prod.mk.injEq] at h2 h3
  obtain ⟨h2, rfl⟩ := h2
  obtain ⟨h3, rfl⟩ := h3
  unfold onMap at h1
  rcases hm : forTracts M (fun _ t => pure t.info.numPatches) w.map with ⟨x, s⟩
  rw [hm] at h1
  simp only [Prod.mk.injEq] at h1
  obtain ⟨rfl, rfl⟩ := h1
  unfold worldSha1 at h4
  dsimp only at h4
  rcases hg : w.hashed.getSha1 H with ⟨y, hd⟩
  rw [hg] at h4
  simp only [Prod.mk.injEq] at h4
  obtain ⟨rfl, rfl⟩ := h4
  exact ⟨ns, s, nx, ny, hh, rfl, h2, h3, rfl, rfl, rfl, rfl, rfl⟩

/-- Inversion of `register`. -/
theorem register_ok {H : Bytes → Bytes} {fault : Nat → Option PyErr} {M : SkyMapOps σ Sky K} {name : String}
    {w w' : World σ Sky} (h : register H fault M name w = (.ok (), w')) :
    ∃ rec w₁ w₂ w₃ inserted w₄, skymapRecord H M name w = (.ok rec, w₁) ∧
      w₂ = { w₁ with reg := { w₁.reg with hasRun := true, hasDatasetType := true }, calls := w₁.calls + 2 } ∧
      Butler.syncSkymap fault rec w₂ = (.ok inserted, w₃) ∧ registerContents fault M name inserted w₃ = (.ok (), w₄) ∧
      w' = { w₄ with calls := w₄.calls + 1 } := by
  unfold register at h
  obtain ⟨rec, w1, h1, h⟩ := PyS.bind_inv h
  obtain ⟨_, w2, h2, h⟩ := PyS.bind_inv h
  obtain ⟨_, w3, h3, h⟩ := PyS.bind_inv h
  obtain ⟨-, r2, e2, rfl⟩ := call_ok h2
  obtain ⟨-, r3, e3, rfl⟩ := call_ok h3
  simp only [Except.ok.injEq, Prod.mk.injEq, true_and] at e2 e3
  subst e2 e3
  obtain ⟨w4, h4, rfl⟩ := transaction_ok h
  obtain ⟨ins, w5, h5, h6⟩ := PyS.bind_inv h4
  exact ⟨rec, w1, _, w5, ins, w4, h1, rfl, h5, h6, rfl⟩

/-- Every step outside the transaction keeps the rows; the transaction keeps them if it fails. -/
theorem register_err {H : Bytes → Bytes} {fault : Nat → Option PyErr} {M : SkyMapOps σ Sky K} {name : String}
    {w w' : World σ Sky} {e : PyErr} (h : register H fault M name w = (.error e, w')) : w'.reg.rows = w.reg.rows := by
  have hrefl : ∀ r : Registry Sky, r.rows = r.rows := fun r => rfl
  have htr : ∀ r r' r'' : Registry Sky, r'.rows = r.rows → r''.rows = r'.rows → r''.rows = r.rows := fun _ _ _ a b => b.trans a
  have hpre : Pres (fun r r' : Registry Sky => r'.rows = r.rows) (skymapRecord H M name : PyS (World σ Sky) _) := by
    unfold skymapRecord
    exact pres_bind hrefl htr (pres_onMap hrefl _) fun _ => pres_bind hrefl htr (pres_lift hrefl _) fun _ =>
      pres_bind hrefl htr (pres_lift hrefl _) fun _ => pres_bind hrefl htr (pres_sha1 hrefl _) fun _ => pres_pure hrefl _
  unfold register at h
  have key : ∀ {α : Type} (m : PyS (World σ Sky) α) (f : α → PyS (World σ Sky) Unit) (v v' : World σ Sky),
      Pres (fun r r' : Registry Sky => r'.rows = r.rows) m →
      (∀ a v v', f a v = (.error e, v') → v'.reg.rows = v.reg.rows) →
      (m >>= f) v = (.error e, v') → v'.reg.rows = v.reg.rows := by
    intro α m f v v' hm hf hh
    have h1 := hm v
    rw [PyS.bind_apply] at hh
    rcases hmv : m v with ⟨x, v1⟩
    rw [hmv] at hh h1
    cases x with
    | error e' =>
      simp only [Prod.mk.injEq] at hh
      rw [← hh.2]; exact h1
    | ok a => exact (hf a v1 v' hh).trans h1
  refine key _ _ _ _ hpre (fun rec v v' hh => ?_) h
  refine key _ _ _ _ (pres_call hrefl fun r a r' hf => ?_) (fun _ v v' hh => ?_) hh
  · simp only [Except.ok.injEq, Prod.mk.injEq, true_and] at hf; rw [← hf]; rfl
  refine key _ _ _ _ (pres_call hrefl fun r a r' hf => ?_) (fun _ v v' hh => ?_) hh
  · simp only [Except.ok.injEq, Prod.mk.injEq, true_and] at hf; rw [← hf]; rfl
  rw [transaction_err hh]

/-- The rows only grow. -/
def Registry.Grows (r r' : Registry Sky) : Prop :=
  r.skymaps <+: r'.skymaps ∧ r.tracts <+: r'.tracts ∧ r.patches <+: r'.patches ∧ r.datasets <+: r'.datasets

theorem Registry.Grows.refl (r : Registry Sky) : r.Grows r :=
  ⟨List.prefix_refl _, List.prefix_refl _, List.prefix_refl _, List.prefix_refl _⟩
theorem Registry.Grows.trans (r r' r'' : Registry Sky) (h : r.Grows r') (h' : r'.Grows r'') : r.Grows r'' :=
  ⟨h.1.trans h'.1, h.2.1.trans h'.2.1, h.2.2.1.trans h'.2.2.1, h.2.2.2.trans h'.2.2.2⟩

theorem Registry.grows_of_rows {r r' : Registry Sky} (h : r'.rows = r.rows) : r.Grows r' := by
  simp only [Registry.rows, Prod.mk.injEq] at h
  obtain ⟨h1, h2, h3, h4⟩ := h
  exact ⟨h1 ▸ List.prefix_refl _, h2 ▸ List.prefix_refl _, h3 ▸ List.prefix_refl _, h4 ▸ List.prefix_refl _⟩

/-- A reflexive and transitive relation that holds for the insertions of contents. -/
structure Registry.Inner (P : Registry Sky → Registry Sky → Prop) : Prop where
  refl : ∀ r, P r r
  trans : ∀ r r' r'', P r r' → P r' r'' → P r r''
  tract : ∀ (r : Registry Sky) rec, (∃ x ∈ r.skymaps, x.skymap = rec.skymap) →
    (∀ x ∈ r.tracts, ¬ (x.skymap = rec.skymap ∧ x.tract = rec.tract)) → P r { r with tracts := r.tracts ++ [rec] }
  patches : ∀ (r : Registry Sky) recs, (∀ p ∈ recs, ∃ x ∈ r.tracts, x.skymap = p.skymap ∧ x.tract = p.tract) →
    (∀ p ∈ recs, ∀ x ∈ r.patches, Butler.patchKey x ≠ Butler.patchKey p) → (recs.map Butler.patchKey).Nodup →
    P r { r with patches := r.patches ++ recs }
  dataset : ∀ (r : Registry Sky) rec, (∃ x ∈ r.skymaps, x.skymap = rec.skymap) →
    (∀ x ∈ r.datasets, x.skymap ≠ rec.skymap) → P r { r with datasets := r.datasets ++ [rec] }

/-- ... and for the other changes. -/
structure Registry.Insertions (P : Registry Sky → Registry Sky → Prop) : Prop extends Registry.Inner P where
  flags : ∀ r a b, P r { r with hasRun := a, hasDatasetType := b }
  skymap : ∀ r rec, (∀ x ∈ r.skymaps, x.skymap ≠ rec.skymap ∧ x.hash ≠ rec.hash) →
    P r { r with skymaps := r.skymaps ++ [rec] }

theorem contents_insertions {P : Registry Sky → Registry Sky → Prop} (hP : Registry.Inner P)
    (fault : Nat → Option PyErr) (M : SkyMapOps σ Sky K) (name : String) (ins : Bool) :
    Pres P (registerContents fault M name ins) := by
  have hr := hP.refl
  have ht := hP.trans
  have hput : Pres P (Butler.put fault name : PyS (World σ Sky) Unit) := by
    intro w
    unfold Butler.put
    apply pres_call hr
    intro r a r' hf
    split at hf
    · simp at hf
    · split at hf
      · simp at hf
      · rename_i h0 h1
        simp only [Except.ok.injEq, Prod.mk.injEq, true_and] at hf
        rw [← hf]
        apply hP.dataset
        · simp only [Bool.or_eq_true, Bool.not_eq_true', not_or, Bool.not_eq_false, List.any_eq_true, beq_iff_eq] at h1
          exact h1.1.1
        · simpa using h0
  have htract : ∀ t : TractRef Sky K, Pres P (registerTract fault M name t) := by
    intro t
    unfold registerTract
    refine pres_bind hr ht (pres_call hr fun r a r' hf => ?_) fun _ => pres_bind hr ht (pres_get hr) fun w =>
      pres_bind hr ht (pres_lift hr _) fun recs => pres_call hr fun r a r' hf => ?_
    · split at hf
      · simp at hf
      · split at hf
        · simp at hf
        · rename_i h0 h1
          simp only [Except.ok.injEq, Prod.mk.injEq, true_and] at hf
          rw [← hf]
          apply hP.tract
          · simpa using h1
          · simpa using h0
    · split at hf
      · simp at hf
      · split at hf
        · simp at hf
        · rename_i h0 h1
          simp only [Except.ok.injEq, Prod.mk.injEq, true_and] at hf
          rw [← hf]
          simp only [Bool.or_eq_true, not_or, Bool.not_eq_true', decide_eq_false_iff_not, not_not] at h0
          apply hP.patches
          · simpa using h1
          · intro p hp x hx e
            exact h0.1 (List.any_eq_true.2 ⟨p, hp, List.any_eq_true.2 ⟨x, hx, by simp [e]⟩⟩)
          · exact h0.2
  cases ins with
  | false => exact pres_pure hr _
  | true =>
    exact pres_bind hr ht (pres_mapM hr ht (fun i => pres_bind hr ht (pres_onMap hr _) fun t => htract t) _) fun _ => hput

theorem register_insertions {P : Registry Sky → Registry Sky → Prop} (hP : Registry.Insertions P) (H : Bytes → Bytes)
    (fault : Nat → Option PyErr) (M : SkyMapOps σ Sky K) (name : String) : Pres P (register H fault M name) := by
  have hr := hP.refl
  have ht := hP.trans
  have hbody : ∀ rec : SkymapRec, Pres P (do
      let inserted ← Butler.syncSkymap fault rec
      registerContents fault M name inserted : PyS (World σ Sky) Unit) := by
    intro rec
    refine pres_bind hr ht (pres_call hr fun r a r' hf => ?_) fun ins => contents_insertions hP.toInner fault M name ins
    split at hf
    · simp only [Except.ok.injEq, Prod.mk.injEq] at hf; rw [← hf.2]; exact hr _
    · split at hf
      · simp at hf
      · rename_i h0
        simp only [Except.ok.injEq, Prod.mk.injEq] at hf; rw [← hf.2]
        refine hP.skymap _ _ fun x hx => ?_
        simp only [List.any_eq_true, Bool.or_eq_true, beq_iff_eq, not_exists, not_and, not_or] at h0
        exact h0 x hx
  unfold register
  have hflag1 : Pres P (Butler.registerRun fault : PyS (World σ Sky) Unit) := pres_call hr fun r a r' hf => by
    simp only [Except.ok.injEq, Prod.mk.injEq, true_and] at hf; rw [← hf]
    exact hP.flags r true r.hasDatasetType
  have hflag2 : Pres P (Butler.registerDatasetType fault : PyS (World σ Sky) Unit) := pres_call hr fun r a r' hf => by
    simp only [Except.ok.injEq, Prod.mk.injEq, true_and] at hf; rw [← hf]
    exact hP.flags r r.hasRun true
  refine pres_bind hr ht ?_ fun rec => pres_bind hr ht hflag1 fun _ => pres_bind hr ht hflag2 fun _ => ?_
  · unfold skymapRecord
    exact pres_bind hr ht (pres_onMap hr _) fun _ => pres_bind hr ht (pres_lift hr _) fun _ =>
      pres_bind hr ht (pres_lift hr _) fun _ => pres_bind hr ht (pres_sha1 hr _) fun _ => pres_pure hr _
  · intro w
    rcases h : Butler.transaction fault (do
      let inserted ← Butler.syncSkymap fault rec
      registerContents fault M name inserted) w with ⟨x, w'⟩
    cases x with
    | error e => change P w.reg w'.reg; rw [transaction_err h]; exact hr _
    | ok a =>
      obtain ⟨w₁, h1, rfl⟩ := transaction_ok h
      have := hbody rec w
      rw [h1] at this
      exact this

/-! ### What `register` does to the sky map -/

/-- A method that only accesses tracts. -/
def Acc (M : SkyMapOps σ Sky K) (m : PyS (World σ Sky) α) : Prop := ∀ w, M.After w.map (m w).2.map

section
variable {M : SkyMapOps σ Sky K}

theorem acc_bind {m : PyS (World σ Sky) α} {f : α → PyS (World σ Sky) β} (hm : Acc M m) (hf : ∀ a, Acc M (f a)) :
    Acc M (m >>= f) := by
  intro w
  have h1 := hm w
  rw [PyS.bind_apply]
  rcases h : m w with ⟨x, w'⟩
  rw [h] at h1
  cases x with
  | error e => exact h1
  | ok a => exact h1.trans (hf a w')

theorem acc_pure (a : α) : Acc M (pure a : PyS (World σ Sky) α) := fun w => .refl _
theorem acc_lift (x : PyM α) : Acc M (PyS.lift x : PyS (World σ Sky) α) := fun w => .refl _
theorem acc_get : Acc M (PyS.get : PyS (World σ Sky) _) := fun w => .refl _
theorem acc_sha1 (H : Bytes → Bytes) : Acc M (worldSha1 H : PyS (World σ Sky) Bytes) := fun w => .refl _
theorem acc_onMap {m : PyS σ α} (hm : M.OnlyAccesses m) : Acc M (onMap m : PyS (World σ Sky) α) := fun w => hm w.map

theorem acc_mapM {f : α → PyS (World σ Sky) β} (hf : ∀ a, Acc M (f a)) (l : List α) : Acc M (PyS.mapM f l) := by
  induction l with
  | nil => exact acc_pure _
  | cons a l ih =>
    rw [PyS.mapM_cons]
    exact acc_bind (hf a) fun b => acc_bind ih fun bs => acc_pure _

theorem call_map (fault : Nat → Option PyErr) (f : Registry Sky → PyM (α × Registry Sky)) (w : World σ Sky) :
    (Butler.call fault f w).2.map = w.map ∧ (Butler.call fault f w).2.hashed = w.hashed := by
  unfold Butler.call
  dsimp only
  split
  · exact ⟨rfl, rfl⟩
  · split <;> exact ⟨rfl, rfl⟩

theorem acc_call (fault : Nat → Option PyErr) (f : Registry Sky → PyM (α × Registry Sky)) :
    Acc M (Butler.call fault f : PyS (World σ Sky) α) := by
  intro w
  rw [(call_map fault f w).1]
  exact .refl _

theorem acc_transaction {fault : Nat → Option PyErr} {body : PyS (World σ Sky) α} (hb : Acc M body) :
    Acc M (Butler.transaction fault body) := by
  intro w
  have h := hb w
  unfold Butler.transaction
  rcases hw : body w with ⟨x, w₁⟩
  rw [hw] at h
  cases x with
  | error e => exact h
  | ok a =>
    dsimp only
    rcases hc : Butler.call fault (fun r => .ok ((), r)) w₁ with ⟨y, w₂⟩
    have := (call_map fault (fun r => .ok ((), r)) w₁).1
    rw [hc] at this
    cases y with
    | error e => dsimp only; dsimp only at this; rw [this]; exact h
    | ok u => dsimp only; dsimp only at this; rw [this]; exact h

theorem acc_contents (fault : Nat → Option PyErr) (name : String) (ins : Bool) :
    Acc M (registerContents fault M name ins) := by
  cases ins with
  | false => exact acc_pure _
  | true =>
    refine acc_bind (acc_mapM (fun i => acc_bind (acc_onMap (SkyMapOps.OnlyAccesses.getItem _)) fun t => ?_) _) fun _ => ?_
    · exact acc_bind (acc_call _ _) fun _ => acc_bind acc_get fun w => acc_bind (acc_lift _) fun _ => acc_call _ _
    · exact fun w => acc_call _ _ w

theorem acc_register (H : Bytes → Bytes) (fault : Nat → Option PyErr) (name : String) :
    Acc M (register H fault M name) := by
  refine acc_bind ?_ fun rec => acc_bind (acc_call _ _) fun _ => acc_bind (acc_call _ _) fun _ => acc_transaction
    (acc_bind (acc_call _ _) fun ins => acc_contents fault name ins)
  refine acc_bind (acc_onMap ?_) fun _ => acc_bind (acc_lift _) fun _ => acc_bind (acc_lift _) fun _ =>
    acc_bind (acc_sha1 _) fun _ => acc_pure _
  exact .mapM (fun i => (SkyMapOps.OnlyAccesses.getItem _).bind fun t => .pure _) _

end

/-! ### Growth -/

theorem insertions_grows : Registry.Insertions (Sky := Sky) Registry.Grows where
  refl := Registry.Grows.refl
  trans := Registry.Grows.trans
  flags r a b := Registry.Grows.refl r
  skymap r rec _ := ⟨List.prefix_append _ _, List.prefix_refl _, List.prefix_refl _, List.prefix_refl _⟩
  tract r rec _ _ := ⟨List.prefix_refl _, List.prefix_append _ _, List.prefix_refl _, List.prefix_refl _⟩
  patches r rec _ _ _ := ⟨List.prefix_refl _, List.prefix_refl _, List.prefix_append _ _, List.prefix_refl _⟩
  dataset r rec _ _ := ⟨List.prefix_refl _, List.prefix_refl _, List.prefix_refl _, List.prefix_append _ _⟩

end Skymap
