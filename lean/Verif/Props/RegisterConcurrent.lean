import Verif.Model.RegisterConcurrent
import Verif.Props.RegisterMaps

/-!
# C82: several processes register sky maps in one repository
-/

set_option linter.unusedSimpArgs false
set_option linter.unusedSectionVars false

namespace Skymap
open BaseSkyMap

variable {Sky : Type}

/-! ## Specification: the calls one after the other -/

/-- What the call of `register` gives, and what it leaves, if no other process uses the repository; `fault n` says whether the butler fails in the
n-th call. -/
def Registration.call (q : Registration Sky) (fault : ℕ → Option PyErr) (r : Registry Sky) : PyM Unit × Registry Sky :=
  ((register q.H fault q.M q.name ⟨q.map, q.hashed, r, 0⟩).1, (register q.H fault q.M q.name ⟨q.map, q.hashed, r, 0⟩).2.reg)

/-- `allowed` calls of `register`, one after the other, successful or not, lead from `r` to `r'`. -/
def Registry.HistoryOf (allowed : Registration Sky → Prop) : Registry Sky → Registry Sky → Prop :=
  Relation.ReflTransGen fun r r' => ∃ q fault, allowed q ∧ (q.call fault r).2 = r'

theorem Registry.HistoryOf.history {allowed : Registration Sky → Prop} {r r' : Registry Sky} (h : Registry.HistoryOf allowed r r') :
    Registry.History r r' := by
  induction h with
  | refl => exact .refl
  | tail _ h ih =>
    obtain ⟨q, fault, -, rfl⟩ := h
    exact ih.tail ⟨q.σ, q.K, q.field, q.order, q.floor, q.H, fault, q.M, q.name, ⟨q.map, q.hashed, _, 0⟩, rfl, rfl⟩

/-! ## A script run alone is the method -/

namespace Registry

theorem append_empty (r : Registry Sky) : r.append {} = r := by simp [append]

theorem empty_append (r : Registry Sky) : (({} : Registry Sky).append r) = r := by simp [append]

theorem append_assoc (a b c : Registry Sky) : (a.append b).append c = a.append (b.append c) := by
  simp [append, Bool.or_assoc]

end Registry

/-- The script run with no other process in between: `c` is committed, `p` is inserted in the open transaction, `n` calls have been made. -/
def Script.alone (fault : ℕ → Option PyErr) : Script Sky → ℕ → Registry Sky → Registry Sky → PyM Unit × Registry Sky
  | .done r, _, c, _ => (r, c)
  | .call s next, n, c, p => match fault n with
    | some e => (.error e, c)
    | none => match s.exec (c.append p) with
      | .error e => (.error e, c)
      | .ok (x, d) => match s with
        | .commit => (next x).alone fault (n + 1) (c.append p) {}
        | .registerRun | .registerDatasetType => (next x).alone fault (n + 1) (c.append d) p
        | _ => (next x).alone fault (n + 1) c (p.append d)

theorem Script.alone_call (fault : ℕ → Option PyErr) (s : Stmt Sky) (next : Bool → Script Sky) (n : ℕ) (c p : Registry Sky) :
    (Script.call s next).alone fault n c p = match fault n with
      | some e => (.error e, c)
      | none => match s.exec (c.append p) with
        | .error e => (.error e, c)
        | .ok (x, d) => match s with
          | .commit => (next x).alone fault (n + 1) (c.append p) {}
          | .registerRun | .registerDatasetType => (next x).alone fault (n + 1) (c.append d) p
          | _ => (next x).alone fault (n + 1) c (p.append d) := by
  rw [Script.alone.eq_def]

section alone
variable {σ K : Type} [Field K] [LinearOrder K] [FloorRing K] {fault : ℕ → Option PyErr}

theorem call_stmt {α : Type} (s : Stmt Sky) (a : Bool → α) {f : Registry Sky → PyM (α × Registry Sky)} (w : World σ Sky)
    (hf : ∀ r, f r = (s.exec r).map fun x => (a x.1, r.append x.2)) :
    Butler.call fault f w = match fault w.calls with
      | some e => (.error e, { w with calls := w.calls + 1 })
      | none => match s.exec w.reg with
        | .error e => (.error e, { w with calls := w.calls + 1 })
        | .ok (x, d) => (.ok (a x), { w with calls := w.calls + 1, reg := w.reg.append d }) := by
  unfold Butler.call
  cases fault w.calls with
  | some e => rfl
  | none =>
    dsimp only
    rw [hf]
    cases s.exec w.reg with
    | error e => rfl
    | ok x => rfl

theorem insertTract_stmt (rec : TractRec Sky) (r : Registry Sky) :
    (if r.tracts.any (fun x => x.skymap == rec.skymap && decide (x.tract = rec.tract)) then (.error .IntegrityError : PyM (Unit × Registry Sky))
      else if !r.skymaps.any (fun x => x.skymap == rec.skymap) then .error .IntegrityError
      else .ok ((), { r with tracts := r.tracts ++ [rec] })) =
    ((Stmt.tract rec).exec r).map fun x => ((fun _ => ()) x.1, r.append x.2) := by
  dsimp only [Stmt.exec]
  split_ifs <;> simp only [Except.map, Registry.append, List.append_nil, Bool.or_false, id]

theorem insertPatches_stmt (recs : List (PatchRec Sky)) (r : Registry Sky) :
    (if recs.any (fun p => r.patches.any (fun x => Butler.patchKey x == Butler.patchKey p)) || !decide (recs.map Butler.patchKey).Nodup then
      (.error .IntegrityError : PyM (Unit × Registry Sky))
    else if !recs.all (fun p => r.tracts.any (fun x => x.skymap == p.skymap && decide (x.tract = p.tract))) then .error .IntegrityError
    else .ok ((), { r with patches := r.patches ++ recs })) =
    ((Stmt.patches recs).exec r).map fun x => ((fun _ => ()) x.1, r.append x.2) := by
  dsimp only [Stmt.exec]
  split_ifs <;> simp only [Except.map, Registry.append, List.append_nil, Bool.or_false, id]

theorem sync_stmt (rec : SkymapRec) (r : Registry Sky) :
    (if rec ∈ r.skymaps then .ok (false, r)
      else if r.skymaps.any (fun x => x.skymap == rec.skymap || x.hash == rec.hash) then .error .ConflictingDefinitionError
      else .ok (true, { r with skymaps := r.skymaps ++ [rec] }) : PyM (Bool × Registry Sky)) =
    ((Stmt.sync rec).exec r).map fun x => (id x.1, r.append x.2) := by
  dsimp only [Stmt.exec]
  split_ifs <;> simp only [Except.map, Registry.append, List.append_nil, Bool.or_false, id]

theorem put_stmt (rec : DatasetRec) (r : Registry Sky) :
    (if r.datasets.any (fun x => x.skymap == rec.skymap) then (.error .ConflictingDefinitionError : PyM (Unit × Registry Sky))
      else if !r.skymaps.any (fun x => x.skymap == rec.skymap) || !r.hasRun || !r.hasDatasetType then .error .IntegrityError
      else .ok ((), { r with datasets := r.datasets ++ [rec] })) =
    ((Stmt.put rec).exec r).map fun x => ((fun _ => ()) x.1, r.append x.2) := by
  dsimp only [Stmt.exec]
  split_ifs <;> simp only [Except.map, Registry.append, List.append_nil, Bool.or_false, id]

/-- The effect of a statement. -/
def stmtResult {α : Type} (fault : ℕ → Option PyErr) (s : Stmt Sky) (a : Bool → α) (w : World σ Sky) : PyM α × World σ Sky :=
  match fault w.calls with
  | some e => (.error e, { w with calls := w.calls + 1 })
  | none => match s.exec w.reg with
    | .error e => (.error e, { w with calls := w.calls + 1 })
    | .ok (x, d) => (.ok (a x), { w with calls := w.calls + 1, reg := w.reg.append d })

theorem insertTract_apply (rec : TractRec Sky) (w : World σ Sky) : Butler.insertTract fault rec w = stmtResult fault (.tract rec) (fun _ => ()) w :=
  call_stmt (.tract rec) (fun _ => ()) w (insertTract_stmt rec)

theorem insertPatches_apply (recs : List (PatchRec Sky)) (w : World σ Sky) :
    Butler.insertPatches fault recs w = stmtResult fault (.patches recs) (fun _ => ()) w :=
  call_stmt (.patches recs) (fun _ => ()) w (insertPatches_stmt recs)

theorem sync_apply (rec : SkymapRec) (w : World σ Sky) : Butler.syncSkymap fault rec w = stmtResult fault (.sync rec) id w :=
  call_stmt (.sync rec) id w (sync_stmt rec)

theorem put_apply (name : String) (w : World σ Sky) :
    Butler.put fault name w = stmtResult fault (.put ⟨name, w.hashed.pickle⟩) (fun _ => ()) w :=
  call_stmt (.put ⟨name, w.hashed.pickle⟩) (fun _ => ()) w (put_stmt ⟨name, w.hashed.pickle⟩)

theorem registerRun_apply (w : World σ Sky) : Butler.registerRun fault w = stmtResult fault .registerRun (fun _ => ()) w :=
  call_stmt .registerRun (fun _ => ()) w (by intro r; simp [Stmt.exec, Except.map, Registry.append])

theorem registerDatasetType_apply (w : World σ Sky) :
    Butler.registerDatasetType fault w = stmtResult fault .registerDatasetType (fun _ => ()) w :=
  call_stmt .registerDatasetType (fun _ => ()) w (by intro r; simp [Stmt.exec, Except.map, Registry.append])

/-- One tract. -/
theorem registerTract_alone (M : SkyMapOps σ Sky K) (name : String) (hm : HashedMap) (c : Registry Sky) (t : TractRef Sky K) (s : σ) (n : ℕ)
    (p : Registry Sky) (k : Script Sky) :
    match registerTract fault M name t ⟨s, hm, c.append p, n⟩ with
    | (.error e, _) => (Script.call (.tract ⟨name, t.info.id, t.info.getOuterSkyPolygon⟩) fun _ =>
        match BaseSkyMap.patchRecords name t.info (M.builder s) with
        | .error e => .done (.error e)
        | .ok recs => .call (.patches recs) fun _ => k).alone fault n c p = (.error e, c)
    | (.ok _, w) => ∃ p', w = ⟨s, hm, c.append p', n + 2⟩ ∧ (Script.call (.tract ⟨name, t.info.id, t.info.getOuterSkyPolygon⟩) fun _ =>
        match BaseSkyMap.patchRecords name t.info (M.builder s) with
        | .error e => .done (.error e)
        | .ok recs => .call (.patches recs) fun _ => k).alone fault n c p = k.alone fault (n + 2) c p' := by
  unfold registerTract
  rw [PyS.bind_apply, insertTract_apply]
  simp only [Script.alone_call, stmtResult]
  cases fault n with
  | some e => rfl
  | none =>
    dsimp only
    cases (Stmt.tract (⟨name, t.info.id, t.info.getOuterSkyPolygon⟩ : TractRec Sky)).exec (c.append p) with
    | error e => rfl
    | ok d =>
      obtain ⟨x, d⟩ := d
      dsimp only
      have e2 : (PyS.get : PyS (World σ Sky) _) ⟨s, hm, (c.append p).append d, n + 1⟩ =
          (.ok ⟨s, hm, (c.append p).append d, n + 1⟩, ⟨s, hm, (c.append p).append d, n + 1⟩) := rfl
      rw [PyS.bind_ok e2, PyS.bind_apply]
      unfold PyS.lift
      dsimp only
      cases patchRecords name t.info (M.builder s) with
      | error e => rfl
      | ok recs =>
        dsimp only
        rw [insertPatches_apply]
        simp only [Script.alone_call, stmtResult]
        rw [Registry.append_assoc]
        cases fault (n + 1) with
        | some e => rfl
        | none =>
          dsimp only
          cases (Stmt.patches recs).exec (c.append (p.append d)) with
          | error e => rfl
          | ok d' =>
            obtain ⟨x', d'⟩ := d'
            exact ⟨(p.append d).append d', by rw [Registry.append_assoc], rfl⟩

/-- The loop over the tracts. -/
theorem insertTracts_alone (M : SkyMapOps σ Sky K) (name : String) (k : Script Sky) (hm : HashedMap) (c : Registry Sky) (l : List ℕ) (s : σ) (n : ℕ)
    (p : Registry Sky) :
    match PyS.mapM (fun i : ℕ => do
        let t ← (worldOps M).getItem (i : ℤ)
        registerTract fault M name t) l ⟨s, hm, c.append p, n⟩ with
    | (.error e, _) => (insertTracts M name k l s).alone fault n c p = (.error e, c)
    | (.ok _, w) => w.hashed = hm ∧ ∃ p', w.reg = c.append p' ∧ (insertTracts M name k l s).alone fault n c p = k.alone fault w.calls c p' := by
  induction l generalizing s n p with
  | nil => exact ⟨rfl, p, rfl, rfl⟩
  | cons i l ih =>
    rw [PyS.mapM_cons]
    unfold insertTracts
    rcases hg : M.getItem (i : ℤ) s with ⟨x, s'⟩
    have e1 : (worldOps M).getItem (i : ℤ) ⟨s, hm, c.append p, n⟩ = (x, ⟨s', hm, c.append p, n⟩) := by
      have : (worldOps M).getItem (i : ℤ) ⟨s, hm, c.append p, n⟩ = ((M.getItem (i : ℤ) s).1, ⟨(M.getItem (i : ℤ) s).2, hm, c.append p, n⟩) := rfl
      rw [this, hg]
    cases x with
    | error e =>
      rw [PyS.bind_err (PyS.bind_err e1)]
      rfl
    | ok t =>
      rw [PyS.bind_apply, PyS.bind_ok e1]
      have h1 := registerTract_alone (fault := fault) M name hm c t s' n p (insertTracts M name k l s')
      rcases hx : registerTract fault M name t ⟨s', hm, c.append p, n⟩ with ⟨y, w⟩
      rw [hx] at h1
      cases y with
      | error e => exact h1
      | ok u =>
        obtain ⟨p', rfl, h1⟩ := h1
        dsimp only
        rw [PyS.bind_apply]
        have h2 := ih s' (n + 2) p'
        rcases hy : PyS.mapM (fun i : ℕ => do
          let t ← (worldOps M).getItem (i : ℤ)
          registerTract fault M name t) l ⟨s', hm, c.append p', n + 2⟩ with ⟨y, w⟩
        rw [hy] at h2
        cases y with
        | error e => exact h1.trans h2
        | ok l' =>
          obtain ⟨h2, p'', h3, h4⟩ := h2
          exact ⟨h2, p'', h3, h1.trans h4⟩

end alone

/-- The record depends only on the sky map. -/
theorem Registration.record_spec (q : Registration Sky) (r : Registry Sky) (n : ℕ) :
    skymapRecord q.H q.M q.name ⟨q.map, q.hashed, r, n⟩ = (q.record.1, { q.record.2 with reg := r, calls := n }) := by
  unfold Registration.record skymapRecord
  simp only [PyS.bind_apply, onMap, PyS.lift, worldSha1, PyS.pure_apply]
  rcases forTracts q.M (fun _ t => pure t.info.numPatches) q.map with ⟨x | x, s⟩
  · rfl
  · dsimp only
    cases pyMax (List.map (fun n : Index2D => n.x) x) with
    | error e => rfl
    | ok nx =>
      dsimp only
      cases pyMax (List.map (fun n : Index2D => n.y) x) with
      | error e => rfl
      | ok ny =>
        dsimp only
        rcases q.hashed.getSha1 q.H with ⟨e | b, h⟩ <;> rfl

/-- C82: the script of a process is `register`: run with no other process in between, it gives the same result and leaves the same repository. -/
theorem C82_sequential (q : Registration Sky) (fault : ℕ → Option PyErr) (r : Registry Sky) : q.script.alone fault 0 r {} = q.call fault r := by
  unfold Registration.call register Registration.script
  rw [PyS.bind_apply, q.record_spec r 0]
  rcases q.record with ⟨e | rec, w⟩
  · rfl
  simp only [Script.alone_call]
  rw [PyS.bind_apply]
  rw [registerRun_apply]
  dsimp only [stmtResult]
  cases fault 0 with
  | some e => rfl
  | none =>
  dsimp only [Stmt.exec]
  rw [PyS.bind_apply]
  rw [registerDatasetType_apply]
  dsimp only [stmtResult]
  cases fault 1 with
  | some e => rfl
  | none =>
  dsimp only [Stmt.exec]
  generalize (r.append _).append _ = c
  unfold Butler.transaction Registration.transaction
  rw [PyS.bind_apply]
  rw [sync_apply]
  simp only [Script.alone_call, stmtResult]
  rw [Registry.append_empty]
  cases fault 2 with
  | some e => rfl
  | none =>
  dsimp only
  cases (Stmt.sync rec).exec c with
  | error e => rfl
  | ok x =>
  obtain ⟨x, d⟩ := x
  cases x with
  | false =>
    dsimp only [id]
    simp only [Script.alone_call, Stmt.exec, Script.alone]
    rw [Registry.empty_append]
    have e1 : registerContents fault q.M q.name false { w with reg := c.append d, calls := 3 } =
        (.ok (), { w with reg := c.append d, calls := 3 }) := rfl
    rw [e1]
    dsimp only
    unfold Butler.call
    dsimp only
    cases fault 3 with
    | some e => rfl
    | none => rfl
  | true =>
    dsimp only [id]
    have e0 : registerContents fault q.M q.name true = (do
        let _ ← forTracts (worldOps q.M) fun _ t => registerTract fault q.M q.name t
        Butler.put fault q.name) := rfl
    rw [e0]
    have h1 := insertTracts_alone (fault := fault) q.M q.name
      (.call (.put ⟨q.name, w.hashed.pickle⟩) fun _ => .call .commit fun _ => .done (.ok ())) w.hashed c (List.range q.M.len) w.map 3 d
    have e1 : ((forTracts (worldOps q.M) fun _ t => registerTract fault q.M q.name t) : PyS (World q.σ Sky) _) =
      PyS.mapM (fun i : ℕ => do
        let t ← (worldOps q.M).getItem (i : ℤ)
        registerTract fault q.M q.name t) (List.range q.M.len) := rfl
    rw [PyS.bind_apply, e1, Registry.empty_append]
    change Script.alone fault _ 3 c d = _
    simp only [Nat.reduceAdd]
    rcases hx : PyS.mapM (fun i : ℕ => do
      let t ← (worldOps q.M).getItem (i : ℤ)
      registerTract fault q.M q.name t) (List.range q.M.len) ⟨w.map, w.hashed, c.append d, 3⟩ with ⟨y, w'⟩
    rw [hx] at h1
    cases y with
    | error e => exact h1
    | ok l =>
      obtain ⟨h2, p', h3, h4⟩ := h1
      rw [h4]
      dsimp only
      rw [put_apply, h2]
      simp only [Script.alone_call, stmtResult, h3]
      cases fault w'.calls with
      | some e => rfl
      | none =>
        dsimp only
        cases (Stmt.put (⟨q.name, w.hashed.pickle⟩ : DatasetRec)).exec (c.append p') with
        | error e => rfl
        | ok x =>
          obtain ⟨x, d'⟩ := x
          dsimp only
          unfold Butler.call
          dsimp only
          cases fault (w'.calls + 1) with
          | some e => rfl
          | none =>
            simp only [Stmt.exec, Script.alone]
            rw [Registry.append_assoc]


/-! ## The invariant -/

/-- No sky map in `r` has the name or the hash of `rec`. -/
def Registry.Free (rec : SkymapRec) (r : Registry Sky) : Prop := ∀ x ∈ r.skymaps, x.skymap ≠ rec.skymap ∧ x.hash ≠ rec.hash

/-- The run and the dataset type are registered. -/
def Registry.Flags (r : Registry Sky) : Prop := r.hasRun = true ∧ r.hasDatasetType = true

/-- A statement of a transaction that registers `name`. -/
def Stmt.Of (name : String) : Stmt Sky → Prop
  | .tract rec => rec.skymap = name
  | .patches recs => ∀ p ∈ recs, p.skymap = name
  | .put rec => rec.skymap = name
  | .commit => True
  | _ => False

/-- The rest of a transaction that registers `name`. -/
def Script.InTx (name : String) : Script Sky → Prop
  | .done _ => True
  | .call s next => s.Of name ∧ (s = .commit → ∃ r, next true = .done r) ∧ ∀ x, (next x).InTx name

/-- In a transaction that registers `rec`, the result of a statement depends on nothing that others have committed. -/
theorem exec_local {rec : SkymapRec} {r p : Registry Sky} (hr : r.Sound) (hf : r.Flags) (hfree : r.Free rec)
    {s : Stmt Sky} (hs : s.Of rec.skymap) :
    s.exec (r.append p) = s.exec (({ hasRun := true, hasDatasetType := true } : Registry Sky).append p) := by
  have ht : ∀ x ∈ r.tracts, x.skymap ≠ rec.skymap := by
    intro x hx e
    obtain ⟨y, hy, e'⟩ := hr.tractRefs x hx
    exact (hfree y hy).1 (e'.trans e)
  have hpp : ∀ x ∈ r.patches, x.skymap ≠ rec.skymap := by
    intro x hx e
    obtain ⟨y, hy, e', -⟩ := hr.patchRefs x hx
    exact ht y hy (e'.trans e)
  have hd : ∀ x ∈ r.datasets, x.skymap ≠ rec.skymap := by
    intro x hx e
    obtain ⟨y, hy, e'⟩ := hr.datasetRefs x hx
    exact (hfree y hy).1 (e'.trans e)
  have hsk : ∀ x ∈ r.skymaps, x.skymap ≠ rec.skymap := fun x hx => (hfree x hx).1
  cases s with
  | registerRun => exact hs.elim
  | registerDatasetType => exact hs.elim
  | sync _ => exact hs.elim
  | commit => rfl
  | tract a =>
    change a.skymap = _ at hs
    have e1 : r.tracts.any (fun x => x.skymap == a.skymap && decide (x.tract = a.tract)) = false := by
      rw [List.any_eq_false]
      intro x hx
      simp [hs, ht x hx]
    have e2 : r.skymaps.any (fun x => x.skymap == a.skymap) = false := by
      rw [List.any_eq_false]
      intro x hx
      simp [hs, hsk x hx]
    simp only [Stmt.exec, Registry.append, List.any_append, e1, e2, List.any_nil]
  | patches l =>
    change ∀ q ∈ l, q.skymap = _ at hs
    have e1 : ∀ q ∈ l, r.patches.any (fun x => Butler.patchKey x == Butler.patchKey q) = false := by
      intro q hq
      rw [List.any_eq_false]
      intro x hx
      have := hpp x hx
      simp [Butler.patchKey, hs q hq, this]
    have e2 : ∀ q ∈ l, r.tracts.any (fun x => x.skymap == q.skymap && decide (x.tract = q.tract)) = false := by
      intro q hq
      rw [List.any_eq_false]
      intro x hx
      simp [hs q hq, ht x hx]
    have e3 : l.any (fun q => (r.append p).patches.any (fun x => Butler.patchKey x == Butler.patchKey q)) =
        l.any (fun q => ((({ hasRun := true, hasDatasetType := true } : Registry Sky).append p)).patches.any
          (fun x => Butler.patchKey x == Butler.patchKey q)) := by
      rw [Bool.eq_iff_iff, List.any_eq_true, List.any_eq_true]
      constructor
      · rintro ⟨q, hq, h⟩
        simp only [Registry.append, List.any_append, e1 q hq, Bool.false_or] at h
        exact ⟨q, hq, by simpa [Registry.append] using h⟩
      · rintro ⟨q, hq, h⟩
        refine ⟨q, hq, ?_⟩
        simp only [Registry.append, List.any_append, e1 q hq, Bool.false_or]
        simpa [Registry.append] using h
    have e4 : l.all (fun q => (r.append p).tracts.any (fun x => x.skymap == q.skymap && decide (x.tract = q.tract))) =
        l.all (fun q => ((({ hasRun := true, hasDatasetType := true } : Registry Sky).append p)).tracts.any
          (fun x => x.skymap == q.skymap && decide (x.tract = q.tract))) := by
      rw [Bool.eq_iff_iff, List.all_eq_true, List.all_eq_true]
      constructor
      · intro h q hq
        have := h q hq
        simp only [Registry.append, List.any_append, e2 q hq, Bool.false_or] at this
        simpa [Registry.append] using this
      · intro h q hq
        have := h q hq
        simp only [Registry.append, List.any_append, e2 q hq, Bool.false_or]
        simpa [Registry.append] using this
    simp only [Stmt.exec]
    rw [e3, e4]
  | put a =>
    change a.skymap = _ at hs
    have e1 : r.datasets.any (fun x => x.skymap == a.skymap) = false := by
      rw [List.any_eq_false]
      intro x hx
      simp [hs, hd x hx]
    have e2 : r.skymaps.any (fun x => x.skymap == a.skymap) = false := by
      rw [List.any_eq_false]
      intro x hx
      simp [hs, hsk x hx]
    simp only [Stmt.exec, Registry.append, List.any_append, e1, e2, List.any_nil, hf.1, hf.2]

/-- A statement of a transaction adds no skymap row. -/
theorem exec_skymaps {name : String} {s : Stmt Sky} (hs : s.Of name) {r d : Registry Sky} {x : Bool} (h : s.exec r = .ok (x, d)) :
    d.skymaps = [] := by
  cases s with
  | registerRun => exact hs.elim
  | registerDatasetType => exact hs.elim
  | sync _ => exact hs.elim
  | commit => simp only [Stmt.exec, Except.ok.injEq, Prod.mk.injEq] at h; rw [← h.2]
  | tract a =>
    simp only [Stmt.exec] at h
    split_ifs at h
    simp only [Except.ok.injEq, Prod.mk.injEq] at h; rw [← h.2]
  | patches a =>
    simp only [Stmt.exec] at h
    split_ifs at h
    simp only [Except.ok.injEq, Prod.mk.injEq] at h; rw [← h.2]
  | put a =>
    simp only [Stmt.exec] at h
    split_ifs at h
    simp only [Except.ok.injEq, Prod.mk.injEq] at h; rw [← h.2]

theorem insertTracts_inTx {σ K : Type} [Field K] [LinearOrder K] [FloorRing K] (M : SkyMapOps σ Sky K) (name : String) (k : Script Sky)
    (hk : k.InTx name) (l : List ℕ) (s : σ) : (insertTracts M name k l s).InTx name := by
  induction l generalizing s with
  | nil => exact hk
  | cons i l ih =>
    unfold insertTracts
    rcases M.getItem (i : ℤ) s with ⟨e | t, s'⟩
    · exact trivial
    · refine ⟨rfl, fun h => by simp at h, fun _ => ?_⟩
      dsimp only
      rcases hr : patchRecords name t.info (M.builder s') with e | recs
      · exact trivial
      · refine ⟨?_, fun h => by simp at h, fun _ => ih s'⟩
        intro p hp
        obtain ⟨i, -, hi⟩ := (pyMapM_mem hr p).1 hp
        obtain ⟨a, -, hi⟩ := bindOk hi
        obtain ⟨b, -, hi⟩ := bindOk hi
        simp only [pure, Except.pure, Except.ok.injEq] at hi
        rw [← hi]


theorem Registration.record_name (q : Registration Sky) {rec : SkymapRec} {w : World q.σ Sky} (h : q.record = (.ok rec, w)) : rec.skymap = q.name := by
  obtain ⟨-, -, -, -, -, -, -, -, -, rfl, -⟩ := skymapRecord_ok h
  rfl

/-- Calls add rows. -/
theorem Script.alone_append (fault : ℕ → Option PyErr) (t : Script Sky) (n : ℕ) (c p : Registry Sky) :
    ∃ d, (t.alone fault n c p).2 = c.append d := by
  induction t generalizing n c p with
  | done r => exact ⟨{}, (Registry.append_empty c).symm⟩
  | call s next ih =>
    rw [Script.alone_call]
    have h0 : ∃ d, c = c.append d := ⟨{}, (Registry.append_empty c).symm⟩
    cases fault n with
    | some e => exact h0
    | none =>
      dsimp only
      rcases s.exec (c.append p) with e | ⟨x, d⟩
      · exact h0
      · cases s with
        | commit =>
          obtain ⟨d', h⟩ := ih x (n + 1) (c.append p) {}
          exact ⟨_, h.trans (Registry.append_assoc _ _ _)⟩
        | registerRun =>
          obtain ⟨d', h⟩ := ih x (n + 1) (c.append d) p
          exact ⟨_, h.trans (Registry.append_assoc _ _ _)⟩
        | registerDatasetType =>
          obtain ⟨d', h⟩ := ih x (n + 1) (c.append d) p
          exact ⟨_, h.trans (Registry.append_assoc _ _ _)⟩
        | sync _ => exact ih x (n + 1) c (p.append d)
        | tract _ => exact ih x (n + 1) c (p.append d)
        | patches _ => exact ih x (n + 1) c (p.append d)
        | put _ => exact ih x (n + 1) c (p.append d)

theorem Registry.HistoryOf.append {allowed : Registration Sky → Prop} {r r' : Registry Sky} (h : Registry.HistoryOf allowed r r') :
    ∃ d, r' = r.append d := by
  induction h with
  | refl => exact ⟨{}, (Registry.append_empty r).symm⟩
  | tail _ h ih =>
    obtain ⟨q, fault, -, rfl⟩ := h
    obtain ⟨d, rfl⟩ := ih
    obtain ⟨d', h⟩ := q.script.alone_append fault 0 (r.append d) {}
    rw [C82_sequential] at h
    exact ⟨_, h.trans (Registry.append_assoc _ _ _)⟩

/-- The rest of the call does what the whole call does, on each repository that satisfies `R`. -/
def Sim (q : Registration Sky) (R : Registry Sky → Prop) (todo : Script Sky) (p : Registry Sky) (n : ℕ) : Prop :=
  ∀ fault : ℕ → Option PyErr, (∀ k < n, fault k = none) → ∀ r, R r → q.call fault r = todo.alone fault n r p

/-- How far a call is, when `c` is committed. -/
inductive Stage (q : Registration Sky) (c : Registry Sky) : Script Sky → Registry Sky → Prop
  | begun : Stage q c q.script {}
  | hasRun (rec : SkymapRec) (w : World q.σ Sky) (h : q.record = (.ok rec, w)) (hc : c.hasRun = true) :
      Stage q c (.call .registerDatasetType fun _ => q.transaction rec w) {}
  | flags (rec : SkymapRec) (w : World q.σ Sky) (h : q.record = (.ok rec, w)) (hc : c.Flags) : Stage q c (q.transaction rec w) {}
  | inTx (rec : SkymapRec) (n : ℕ) (todo : Script Sky) (p : Registry Sky) (hp : p.skymaps = [rec]) (htx : todo.InTx rec.skymap) (hc : c.Flags)
      (hfree : c.Free rec) (hsim : Sim q (fun r => r.Sound ∧ r.Flags ∧ r.Free rec) todo p n) : Stage q c todo p
  | present (rec : SkymapRec) (hc : c.Flags) (hm : rec ∈ c.skymaps)
      (hsim : Sim q (fun r => r.Flags ∧ rec ∈ r.skymaps) (.call .commit fun _ => .done (.ok ())) {} 3) :
      Stage q c (.call .commit fun _ => .done (.ok ())) {}

theorem append_hasRun {c : Registry Sky} (h : c.hasRun = true) : c.append { hasRun := true } = c := by
  cases c
  simp only at h
  simp [Registry.append, h]

theorem append_hasDatasetType {c : Registry Sky} (h : c.hasDatasetType = true) : c.append { hasDatasetType := true } = c := by
  cases c
  simp only at h
  simp [Registry.append, h]

theorem sim_hasRun {q : Registration Sky} {rec : SkymapRec} {w : World q.σ Sky} (h : q.record = (.ok rec, w)) :
    Sim q (fun r => r.hasRun = true) (.call .registerDatasetType fun _ => q.transaction rec w) {} 1 := by
  intro fault hf r hr
  rw [← C82_sequential, Registration.script, h]
  dsimp only
  rw [Script.alone_call, hf 0 (by omega)]
  simp only [Stmt.exec]
  rw [append_hasRun hr]

theorem sim_flags {q : Registration Sky} {rec : SkymapRec} {w : World q.σ Sky} (h : q.record = (.ok rec, w)) :
    Sim q Registry.Flags (q.transaction rec w) {} 2 := by
  intro fault hf r hr
  rw [sim_hasRun h fault (fun k hk => hf k (by omega)) r hr.1, Script.alone_call, hf 1 (by omega)]
  simp only [Stmt.exec]
  rw [append_hasDatasetType hr.2]

theorem Stage.sim {q : Registration Sky} {c : Registry Sky} (hc : c.Sound) {todo : Script Sky} {p : Registry Sky} (h : Stage q c todo p) :
    ∃ n R, Sim q R todo p n ∧ R c := by
  cases h with
  | begun => exact ⟨0, fun _ => True, fun fault _ r _ => (C82_sequential q fault r).symm, trivial⟩
  | hasRun rec w h hc => exact ⟨1, _, sim_hasRun h, hc⟩
  | flags rec w h hc => exact ⟨2, _, sim_flags h, hc⟩
  | inTx rec n todo p hp htx hf hfree hsim => exact ⟨n, _, hsim, hc, hf, hfree⟩
  | present rec hf hm hsim => exact ⟨3, _, hsim, hf, hm⟩

theorem Stage.free {q : Registration Sky} {c : Registry Sky} {todo : Script Sky} {p : Registry Sky} (h : Stage q c todo p) :
    ∀ x ∈ p.skymaps, c.Free x := by
  cases h with
  | inTx rec n todo p hp htx hf hfree hsim =>
    rw [hp]
    intro x hx
    rw [List.mem_singleton.1 hx]
    exact hfree
  | _ => intro x hx; simp at hx

theorem Registry.Flags.append {r : Registry Sky} (h : r.Flags) (d : Registry Sky) : (r.append d).Flags := by
  simp [Registry.Flags, Registry.append, h.1, h.2]

theorem Stage.mono {allowed : Registration Sky → Prop} {q : Registration Sky} {c c' : Registry Sky} {todo : Script Sky} {p : Registry Sky}
    (h : Stage q c todo p) (hh : Registry.HistoryOf allowed c c') (hfree : ∀ x ∈ p.skymaps, c'.Free x) : Stage q c' todo p := by
  obtain ⟨d, rfl⟩ := hh.append
  cases h with
  | begun => exact .begun
  | hasRun rec w h hc => exact .hasRun rec w h (by simp [Registry.append, hc])
  | flags rec w h hc => exact .flags rec w h (hc.append d)
  | inTx rec n todo p hp htx hf _ hsim => exact .inTx rec n todo p hp htx (hf.append d) (hfree rec (by simp [hp])) hsim
  | present rec hf hm hsim => exact .present rec (hf.append d) (List.mem_append_left _ hm) hsim

/-! What the call gives if the rest of it stops now. -/

theorem Stage.call_done {q : Registration Sky} {c : Registry Sky} (hc : c.Sound) {res : PyM Unit} {p : Registry Sky} (h : Stage q c (.done res) p) :
    q.call (fun _ => none) c = (res, c) := by
  obtain ⟨n, R, h1, h2⟩ := h.sim hc
  exact h1 (fun _ => none) (fun _ _ => rfl) c h2

theorem Stage.call_raises {q : Registration Sky} {c : Registry Sky} (hc : c.Sound) {s : Stmt Sky} {next : Bool → Script Sky} {p : Registry Sky}
    (h : Stage q c (.call s next) p) {x : PyErr} (hx : s.exec (c.append p) = .error x) : q.call (fun _ => none) c = (.error x, c) := by
  obtain ⟨n, R, h1, h2⟩ := h.sim hc
  rw [h1 (fun _ => none) (fun _ _ => rfl) c h2, Script.alone_call, hx]

theorem Stage.call_fault {q : Registration Sky} {c : Registry Sky} (hc : c.Sound) {s : Stmt Sky} {next : Bool → Script Sky} {p : Registry Sky}
    (h : Stage q c (.call s next) p) (x : PyErr) : ∃ fault, q.call fault c = (.error x, c) := by
  obtain ⟨n, R, h1, h2⟩ := h.sim hc
  refine ⟨fun k => if k = n then some x else none, ?_⟩
  rw [h1 _ (fun k hk => if_neg (by omega)) c h2, Script.alone_call]
  simp


theorem Stage.auto {q : Registration Sky} {c : Registry Sky} {s : Stmt Sky}
    {next : Bool → Script Sky} {p : Registry Sky} (h : Stage q c (.call s next) p) (hs : s.auto = true) {x : Bool} {d : Registry Sky}
    (hx : s.exec (c.append p) = .ok (x, d)) :
    (∃ fault, (q.call fault c).2 = c.append d) ∧ Stage q (c.append d) (next x) p ∧ d.skymaps = [] ∧ ∃ s' next', next x = .call s' next' := by
  generalize ht : Script.call s next = todo at h
  cases h with
  | begun =>
    unfold Registration.script at ht
    rcases hr : q.record with ⟨e | rec, w⟩
    · rw [hr] at ht; cases ht
    · rw [hr] at ht
      dsimp only at ht
      cases ht
      simp only [Stmt.exec, Except.ok.injEq, Prod.mk.injEq] at hx
      obtain ⟨rfl, rfl⟩ := hx
      refine ⟨⟨fun k => if k = 1 then some .RuntimeError else none, ?_⟩, .hasRun rec w hr (by simp [Registry.append]), rfl, _, _, rfl⟩
      rw [← C82_sequential, Registration.script, hr]
      dsimp only
      rw [Script.alone_call]
      simp only [Nat.zero_ne_one, if_false, Stmt.exec]
      rw [Script.alone_call]
      simp
  | hasRun rec w hr hc =>
    cases ht
    simp only [Stmt.exec, Except.ok.injEq, Prod.mk.injEq] at hx
    obtain ⟨rfl, rfl⟩ := hx
    refine ⟨⟨fun k => if k = 2 then some .RuntimeError else none, ?_⟩, .flags rec w hr (by simp [Registry.append, Registry.Flags, hc]),
      rfl, _, _, rfl⟩
    rw [sim_hasRun hr _ (fun k hk => if_neg (by omega)) c hc, Script.alone_call]
    simp only [OfNat.one_ne_ofNat, if_false, Stmt.exec]
    unfold Registration.transaction
    rw [Script.alone_call]
    simp
  | flags rec w hr hc =>
    unfold Registration.transaction at ht
    cases ht
    simp [Stmt.auto] at hs
  | inTx rec n todo p hp htx hf hfree hsim =>
    subst ht
    have h1 : s.Of rec.skymap := htx.1
    cases s <;> first | exact h1.elim | simp [Stmt.auto] at hs
  | present rec hf hm hsim =>
    cases ht
    simp [Stmt.auto] at hs

/-- The rows of tracts, patches and datasets belong to sky maps with rows in `p`. -/
def Registry.Closed (p : Registry Sky) : Prop :=
  (∀ t ∈ p.tracts, ∃ x ∈ p.skymaps, x.skymap = t.skymap) ∧ (∀ t ∈ p.patches, ∃ x ∈ p.skymaps, x.skymap = t.skymap) ∧
    ∀ t ∈ p.datasets, ∃ x ∈ p.skymaps, x.skymap = t.skymap

theorem Registry.closed_empty : ({} : Registry Sky).Closed := by simp [Registry.Closed]

theorem closed_work {rec : SkymapRec} {p : Registry Sky} (h : p.Closed) (hp : p.skymaps = [rec]) {s : Stmt Sky} (hs : s.Of rec.skymap)
    {r d : Registry Sky} {x : Bool} (hx : s.exec r = .ok (x, d)) : (p.append d).Closed := by
  have hd := exec_skymaps hs hx
  have key : (∀ t ∈ d.tracts, t.skymap = rec.skymap) ∧ (∀ t ∈ d.patches, t.skymap = rec.skymap) ∧ ∀ t ∈ d.datasets, t.skymap = rec.skymap := by
    cases s with
    | registerRun => exact hs.elim
    | registerDatasetType => exact hs.elim
    | sync _ => exact hs.elim
    | commit => simp only [Stmt.exec, Except.ok.injEq, Prod.mk.injEq] at hx; rw [← hx.2]; simp
    | tract a =>
      simp only [Stmt.exec] at hx
      split_ifs at hx
      simp only [Except.ok.injEq, Prod.mk.injEq] at hx; rw [← hx.2]
      simpa [Stmt.Of] using hs
    | patches a =>
      simp only [Stmt.exec] at hx
      split_ifs at hx
      simp only [Except.ok.injEq, Prod.mk.injEq] at hx; rw [← hx.2]
      simpa [Stmt.Of] using hs
    | put a =>
      simp only [Stmt.exec] at hx
      split_ifs at hx
      simp only [Except.ok.injEq, Prod.mk.injEq] at hx; rw [← hx.2]
      simpa [Stmt.Of] using hs
  obtain ⟨k1, k2, k3⟩ := key
  obtain ⟨h1, h2, h3⟩ := h
  simp only [Registry.Closed, Registry.append, hp, hd, List.append_nil, List.mem_append, List.mem_singleton, exists_eq_left] at h1 h2 h3 ⊢
  exact ⟨fun t ht => ht.elim (h1 t) fun a => (k1 t a).symm, fun t ht => ht.elim (h2 t) fun a => (k2 t a).symm,
    fun t ht => ht.elim (h3 t) fun a => (k3 t a).symm⟩

theorem sync_free {rec : SkymapRec} {c d : Registry Sky} {x : Bool} (h : (Stmt.sync rec).exec c = .ok (x, d)) :
    (x = false ∧ rec ∈ c.skymaps ∧ d = {}) ∨ (x = true ∧ c.Free rec ∧ d = { skymaps := [rec] }) := by
  simp only [Stmt.exec] at h
  split_ifs at h with h1 h2
  · simp only [Except.ok.injEq, Prod.mk.injEq] at h
    exact .inl ⟨h.1.symm, h1, h.2.symm⟩
  · simp only [Except.ok.injEq, Prod.mk.injEq] at h
    refine .inr ⟨h.1.symm, ?_, h.2.symm⟩
    simpa [Registry.Free] using h2

theorem sync_of_free {rec : SkymapRec} {c : Registry Sky} (h : c.Free rec) :
    (Stmt.sync rec).exec c = .ok (true, ({ skymaps := [rec] } : Registry Sky)) := by
  simp only [Stmt.exec]
  rw [if_neg (fun hm => (h rec hm).1 rfl), if_neg]
  simpa [Registry.Free] using h

theorem sync_of_mem {rec : SkymapRec} {c : Registry Sky} (h : rec ∈ c.skymaps) : (Stmt.sync rec).exec c = .ok (false, ({} : Registry Sky)) := by
  simp only [Stmt.exec]
  rw [if_pos h]

theorem Stage.work {q : Registration Sky} {c : Registry Sky} (hc : c.Sound) {s : Stmt Sky}
    {next : Bool → Script Sky} {p : Registry Sky} (h : Stage q c (.call s next) p) (hcl : p.Closed) (hs : s.auto = false) (hsc : s ≠ .commit) {x : Bool}
    {d : Registry Sky} (hx : s.exec (c.append p) = .ok (x, d)) :
    Stage q c (next x) (p.append d) ∧ (p.append d).Closed ∧ ∀ y ∈ d.skymaps, s = .sync y := by
  generalize ht : Script.call s next = todo at h
  cases h with
  | begun =>
    unfold Registration.script at ht
    rcases hr : q.record with ⟨e | rec, w⟩
    · rw [hr] at ht; cases ht
    · rw [hr] at ht
      dsimp only at ht
      cases ht
      simp [Stmt.auto] at hs
  | hasRun rec w hr hc =>
    cases ht
    simp [Stmt.auto] at hs
  | flags rec w hr hf =>
    have hsim := sim_flags hr
    have hname := q.record_name hr
    unfold Registration.transaction at ht hsim
    cases ht
    rw [Registry.append_empty] at hx
    rw [Registry.empty_append]
    obtain ⟨rfl, h1, rfl⟩ | ⟨rfl, h1, rfl⟩ := sync_free hx
    · refine ⟨.present rec hf h1 ?_, hcl, by simp⟩
      intro fault hfa r hr
      rw [hsim fault (fun k hk => hfa k (by omega)) r hr.1, Script.alone_call, hfa 2 (by omega), Registry.append_empty, sync_of_mem hr.2]
      rfl
    · refine ⟨.inTx rec 3 _ _ rfl ?_ hf h1 ?_, by simp [Registry.Closed], by simp⟩
      · dsimp only
        rw [hname]
        have hk : (Script.call (.put ⟨q.name, w.hashed.pickle⟩) fun _ => .call .commit fun _ => .done (.ok ()) : Script Sky).InTx q.name :=
          ⟨rfl, fun h => by simp at h, fun _ => ⟨trivial, fun _ => ⟨_, rfl⟩, fun _ => trivial⟩⟩
        exact insertTracts_inTx _ _ _ hk _ _
      · intro fault hfa r hr
        rw [hsim fault (fun k hk => hfa k (by omega)) r hr.2.1, Script.alone_call, hfa 2 (by omega), Registry.append_empty, sync_of_free hr.2.2]
        dsimp only
        rw [Registry.empty_append]
  | inTx rec n todo p hp htx hf hfree hsim =>
    subst ht
    have h1 := exec_skymaps htx.1 hx
    refine ⟨.inTx rec (n + 1) _ _ (by simp [Registry.append, hp, h1]) (htx.2.2 x) hf hfree ?_, closed_work hcl hp htx.1 hx, by simp [h1]⟩
    intro fault hfa r hr
    rw [hsim fault (fun k hk => hfa k (by omega)) r hr, Script.alone_call, hfa n (by omega)]
    dsimp only
    rw [exec_local hr.1 hr.2.1 hr.2.2 htx.1, ← exec_local hc hf hfree htx.1, hx]
    cases s with
    | commit => exact absurd rfl hsc
    | registerRun => simp [Stmt.auto] at hs
    | registerDatasetType => simp [Stmt.auto] at hs
    | _ => rfl
  | present rec hf hm hsim =>
    cases ht
    exact absurd rfl hsc

theorem Stage.commit {q : Registration Sky} {c : Registry Sky} (hc : c.Sound) {next : Bool → Script Sky} {p : Registry Sky}
    (h : Stage q c (.call .commit next) p) : ∃ r, next true = .done r ∧ q.call (fun _ => none) c = (r, c.append p) := by
  have hnext : ∃ r, next true = .done r := by
    generalize ht : Script.call .commit next = todo at h
    cases h with
    | begun =>
      unfold Registration.script at ht
      rcases hr : q.record with ⟨e | rec, w⟩
      · rw [hr] at ht; cases ht
      · rw [hr] at ht
        cases ht
    | hasRun rec w hr hc => cases ht
    | flags rec w hr hf => unfold Registration.transaction at ht; cases ht
    | inTx rec n todo p hp htx hf hfree hsim =>
      subst ht
      exact htx.2.1 rfl
    | present rec hf hm hsim =>
      cases ht
      exact ⟨_, rfl⟩
  obtain ⟨r, hr⟩ := hnext
  refine ⟨r, hr, ?_⟩
  obtain ⟨n, R, h1, h2⟩ := h.sim hc
  rw [h1 (fun _ => none) (fun _ _ => rfl) c h2, Script.alone_call]
  simp only [Stmt.exec, hr]
  rfl


/-- The result `res` of a call, that began when `b` was committed and has ended when `c` is, is that of a call alone on a repository `r` in between;
in which the butler did not fail if it did not (`f`). -/
def Lin (allowed : Registration Sky → Prop) (q : Registration Sky) (b : Registry Sky) (res : PyM Unit) (f : Bool) (c : Registry Sky) : Prop :=
  ∃ r fault, Registry.HistoryOf allowed b r ∧ (q.call fault r).1 = res ∧ Registry.HistoryOf allowed (q.call fault r).2 c ∧
    (f = false → ∀ n, fault n = none)

theorem Lin.mono {allowed : Registration Sky → Prop} {q : Registration Sky} {b : Registry Sky} {res : PyM Unit} {f : Bool} {c c' : Registry Sky}
    (h : Lin allowed q b res f c) (hh : Registry.HistoryOf allowed c c') : Lin allowed q b res f c' := by
  obtain ⟨r, fault, h1, h2, h3, h4⟩ := h
  exact ⟨r, fault, h1, h2, h3.trans hh, h4⟩

/-- What holds for each process. -/
structure Proc.Inv (allowed : Registration Sky → Prop) (r₀ c : Registry Sky) (P : Proc Sky) : Prop where
  legal : allowed P.req
  before : Registry.HistoryOf allowed r₀ P.before.committed
  since : Registry.HistoryOf allowed P.before.committed c
  closed : P.pending.Closed
  stage : Stage P.req c P.todo P.pending ∨ ∃ res, P.todo = .done res ∧ Lin allowed P.req P.before.committed res P.fault c

/-- No two sky maps of the open transactions have the same name or hash. -/
def Proc.Apart (P Q : Proc Sky) : Prop := ∀ x ∈ P.pending.skymaps, ∀ y ∈ Q.pending.skymaps, x.skymap ≠ y.skymap ∧ x.hash ≠ y.hash

theorem Proc.Apart.symm {P Q : Proc Sky} (h : P.Apart Q) : Q.Apart P := fun x hx y hy => ⟨(h y hy x hx).1.symm, (h y hy x hx).2.symm⟩

/-- The invariant. -/
structure Repo.Inv (allowed : Registration Sky → Prop) (r₀ : Registry Sky) (S : Repo Sky) : Prop where
  sound : S.committed.Sound
  history : Registry.HistoryOf allowed r₀ S.committed
  procs : ∀ P ∈ S.running, P.Inv allowed r₀ S.committed
  apart : S.running.Pairwise Proc.Apart
  ended : ∀ e ∈ S.ended, allowed e.req ∧ Registry.HistoryOf allowed r₀ e.before.committed ∧ Lin allowed e.req e.before.committed e.result e.fault e.after ∧
    Registry.HistoryOf allowed e.after S.committed

theorem pairwise_replace {l₁ l₂ : List (Proc Sky)} {P P' : Proc Sky} (h : (l₁ ++ P :: l₂).Pairwise Proc.Apart) (hP : ∀ Q ∈ l₁ ++ l₂, P'.Apart Q) :
    (l₁ ++ P' :: l₂).Pairwise Proc.Apart := by
  rw [List.pairwise_middle Proc.Apart.symm] at h ⊢
  exact List.pairwise_cons.2 ⟨hP, (List.pairwise_cons.1 h).2⟩

theorem pairwise_apart {l₁ l₂ : List (Proc Sky)} {P : Proc Sky} (h : (l₁ ++ P :: l₂).Pairwise Proc.Apart) : ∀ Q ∈ l₁ ++ l₂, P.Apart Q := by
  rw [List.pairwise_middle Proc.Apart.symm] at h
  exact (List.pairwise_cons.1 h).1

theorem mem_middle {α : Type*} {l₁ l₂ : List α} {a b : α} (h : b ∈ l₁ ++ a :: l₂) : b = a ∨ b ∈ l₁ ++ l₂ := by
  simp only [List.mem_append, List.mem_cons] at h ⊢
  tauto

theorem mem_middle_of {α : Type*} {l₁ l₂ : List α} {a b : α} (h : b ∈ l₁ ++ l₂) : b ∈ l₁ ++ a :: l₂ := by
  simp only [List.mem_append, List.mem_cons] at h ⊢
  tauto

theorem Proc.Inv.mono {allowed : Registration Sky → Prop} {r₀ c c' : Registry Sky} {P : Proc Sky} (h : P.Inv allowed r₀ c)
    (hh : Registry.HistoryOf allowed c c') (hfree : (∀ x ∈ P.pending.skymaps, c.Free x) → ∀ x ∈ P.pending.skymaps, c'.Free x) :
    P.Inv allowed r₀ c' := by
  refine ⟨h.legal, h.before, h.since.trans hh, h.closed, ?_⟩
  rcases h.stage with h1 | ⟨res, h1, h2⟩
  · exact .inl (h1.mono hh (hfree h1.free))
  · exact .inr ⟨res, h1, h2.mono hh⟩

theorem Repo.inv_next {allowed : Registration Sky → Prop} {r₀ : Registry Sky} {S S' : Repo Sky} {k : Move} (h : S.Inv allowed r₀)
    (hn : Repo.Next allowed k S S') : S'.Inv allowed r₀ := by
  cases hn with
  | start _ q hq =>
    refine ⟨h.sound, h.history, fun P hP => ?_, ?_, h.ended⟩
    · rcases List.mem_append.1 hP with hP | hP
      · exact h.procs P hP
      · rw [List.mem_singleton.1 hP]
        exact ⟨hq, h.history, .refl, Registry.closed_empty, .inl .begun⟩
    · dsimp only
      rw [List.pairwise_append]
      refine ⟨h.apart, List.pairwise_singleton _ _, fun P hP Q hQ => ?_⟩
      rw [List.mem_singleton.1 hQ]
      intro x hx y hy
      simp at hy
  | auto c l₁ l₂ e q b p f s next hs x d hx =>
    obtain ⟨h1, h2, h3, h4, h5⟩ := h.procs ⟨q, b, .call s next, p, f⟩ (by simp)
    rcases h5 with h5 | ⟨res, h5, -⟩
    swap
    · simp at h5
    obtain ⟨⟨fault, g1⟩, g2, g3, -⟩ := h5.auto hs hx
    replace g1 : Registry.HistoryOf allowed c (c.append d) := .single ⟨q, fault, h1, g1⟩
    refine ⟨C48_sound _ _ h.sound g1.history, h.history.trans g1, fun P hP => ?_, pairwise_replace h.apart (fun Q hQ y hy z hz => pairwise_apart h.apart Q hQ y hy z hz), fun a ha => ?_⟩
    · rcases mem_middle hP with rfl | hP
      · exact ⟨h1, h2, h3.trans g1, h4, .inl g2⟩
      · refine (h.procs P (mem_middle_of hP)).mono g1 fun hf y hy z hz => hf y hy z ?_
        simpa [Registry.append, g3] using hz
    · obtain ⟨e1, e2, e3, e4⟩ := h.ended a ha
      exact ⟨e1, e2, e3, e4.trans g1⟩
  | work c l₁ l₂ e q b p f s next hs hw x d hc hx =>
    obtain ⟨h1, h2, h3, h4, h5⟩ := h.procs ⟨q, b, .call s next, p, f⟩ (by simp)
    rcases h5 with h5 | ⟨res, h5, -⟩
    swap
    · simp at h5
    obtain ⟨g1, g2, g3⟩ := h5.work h.sound h4 hs hc hx
    refine ⟨h.sound, h.history, fun P hP => ?_, pairwise_replace h.apart (fun Q hQ y hy z hz => ?_), h.ended⟩
    · rcases mem_middle hP with rfl | hP
      · exact ⟨h1, h2, h3, g2, .inl g1⟩
      · exact h.procs P (mem_middle_of hP)
    · rcases List.mem_append.1 hy with hy | hy
      · exact pairwise_apart h.apart Q hQ y hy z hz
      · have := hw Q hQ
        rw [g3 y hy] at this
        simp only [Stmt.Waits, not_exists, not_and, not_or] at this
        exact ⟨fun e => (this z hz).1 e.symm, fun e => (this z hz).2 e.symm⟩
  | raises c l₁ l₂ e q b p f s next hw x hx =>
    obtain ⟨h1, h2, h3, h4, h5⟩ := h.procs ⟨q, b, .call s next, p, f⟩ (by simp)
    rcases h5 with h5 | ⟨res, h5, -⟩
    swap
    · simp at h5
    have g := h5.call_raises h.sound hx
    refine ⟨h.sound, h.history, fun P hP => ?_, pairwise_replace h.apart (fun Q hQ y hy z hz => pairwise_apart h.apart Q hQ y hy z hz), h.ended⟩
    rcases mem_middle hP with rfl | hP
    · exact ⟨h1, h2, h3, h4, .inr ⟨_, rfl, c, fun _ => none, h3, by rw [g], by rw [g]; exact .refl, fun _ _ => rfl⟩⟩
    · exact h.procs P (mem_middle_of hP)
  | commit c l₁ l₂ e q b p f next =>
    obtain ⟨h1, h2, h3, h4, h5⟩ := h.procs ⟨q, b, .call .commit next, p, f⟩ (by simp)
    rcases h5 with h5 | ⟨res, h5, -⟩
    swap
    · simp at h5
    obtain ⟨r, g1, g2⟩ := h5.commit h.sound
    have g3 : Registry.HistoryOf allowed c (c.append p) := .single ⟨q, _, h1, by rw [g2]⟩
    refine ⟨C48_sound _ _ h.sound g3.history, h.history.trans g3, fun P hP => ?_, pairwise_replace h.apart (fun Q _ y hy => by simp at hy),
      fun a ha => ?_⟩
    · rcases mem_middle hP with rfl | hP
      · exact ⟨h1, h2, h3.trans g3, Registry.closed_empty,
          .inr ⟨r, g1, c, fun _ => none, h3, by rw [g2], by rw [g2]; exact .refl, fun _ _ => rfl⟩⟩
      · refine (h.procs P (mem_middle_of hP)).mono g3 fun hf y hy z hz => ?_
        rcases List.mem_append.1 hz with hz | hz
        · exact hf y hy z hz
        · exact pairwise_apart h.apart P hP z hz y hy
    · obtain ⟨e1, e2, e3, e4⟩ := h.ended a ha
      exact ⟨e1, e2, e3, e4.trans g3⟩
  | fault c l₁ l₂ e q b p f s next x =>
    obtain ⟨h1, h2, h3, h4, h5⟩ := h.procs ⟨q, b, .call s next, p, f⟩ (by simp)
    rcases h5 with h5 | ⟨res, h5, -⟩
    swap
    · simp at h5
    obtain ⟨fault, g⟩ := h5.call_fault h.sound x
    refine ⟨h.sound, h.history, fun P hP => ?_, pairwise_replace h.apart (fun Q hQ y hy z hz => pairwise_apart h.apart Q hQ y hy z hz), h.ended⟩
    rcases mem_middle hP with rfl | hP
    · exact ⟨h1, h2, h3, h4, .inr ⟨_, rfl, c, fault, h3, by rw [g], by rw [g]; exact .refl, fun hh => by simp at hh⟩⟩
    · exact h.procs P (mem_middle_of hP)
  | finish c l₁ l₂ e q b p f r =>
    obtain ⟨h1, h2, h3, h4, h5⟩ := h.procs ⟨q, b, .done r, p, f⟩ (by simp)
    have hp : (⟨q, b, .done r, p, f⟩ :: (l₁ ++ l₂)).Pairwise Proc.Apart :=
      (List.pairwise_middle Proc.Apart.symm).1 h.apart
    refine ⟨h.sound, h.history, fun P hP => h.procs P (mem_middle_of hP), (List.pairwise_cons.1 hp).2, fun a ha => ?_⟩
    rcases List.mem_append.1 ha with ha | ha
    · exact h.ended a ha
    · rw [List.mem_singleton.1 ha]
      refine ⟨h1, h2, ?_, .refl⟩
      rcases h5 with h5 | ⟨res, h5, h6⟩
      · have g := h5.call_done h.sound
        exact ⟨c, fun _ => none, h3, by rw [g], by rw [g]; exact .refl, fun _ _ => rfl⟩
      · cases h5
        exact h6
  | crash c l₁ l₂ e o =>
    have hp : (o :: (l₁ ++ l₂)).Pairwise Proc.Apart := (List.pairwise_middle Proc.Apart.symm).1 h.apart
    exact ⟨h.sound, h.history, fun P hP => h.procs P (mem_middle_of hP), (List.pairwise_cons.1 hp).2, h.ended⟩

theorem Repo.Reached.inv {allowed : Registration Sky → Prop} {r₀ : Registry Sky} (h0 : r₀.Sound) {S : Repo Sky} (h : Repo.Reached allowed r₀ S) :
    S.Inv allowed r₀ := by
  induction h with
  | init => exact ⟨h0, .refl, by simp, .nil, by simp⟩
  | next _ hn ih => exact Repo.inv_next ih hn


/-! ## C82 -/

/-- C82: under any schedule, with any failures of the butler and any processes that vanish, what is committed is what some sequence of calls, one
after the other, leaves; and each call that has ended gave what it gives alone on the repository as it was at some moment between its begin and its
end (which is also what is committed afterwards), with a butler that does not fail if it did not. -/
theorem C82_linearizable {allowed : Registration Sky → Prop} {r₀ : Registry Sky} (h0 : r₀.Sound) {S : Repo Sky} (h : Repo.Reached allowed r₀ S) :
    Registry.HistoryOf allowed r₀ S.committed ∧
    ∀ e ∈ S.ended, ∃ r fault, Registry.HistoryOf allowed r₀ e.before.committed ∧ Registry.HistoryOf allowed e.before.committed r ∧
      (e.req.call fault r).1 = e.result ∧ Registry.HistoryOf allowed (e.req.call fault r).2 e.after ∧
      Registry.HistoryOf allowed e.after S.committed ∧ (e.fault = false → ∀ n, fault n = none) := by
  have I := h.inv h0
  refine ⟨I.history, fun e he => ?_⟩
  obtain ⟨-, h1, ⟨r, fault, h2, h3, h4, h5⟩, h6⟩ := I.ended e he
  exact ⟨r, fault, h1, h2, h3, h4, h6, h5⟩

/-- C82: keys are unique and references are to rows that exist, at every moment; and no row that was there is modified or removed. -/
theorem C82_sound {allowed : Registration Sky → Prop} {r₀ : Registry Sky} (h0 : r₀.Sound) {S : Repo Sky} (h : Repo.Reached allowed r₀ S) :
    S.committed.Sound ∧ r₀.skymaps <+: S.committed.skymaps ∧ r₀.tracts <+: S.committed.tracts ∧ r₀.patches <+: S.committed.patches ∧
      r₀.datasets <+: S.committed.datasets :=
  ⟨(h.inv h0).sound, C48_never_overwrites _ _ (h.inv h0).history.history⟩

/-- A call that succeeds alone leaves its record. -/
theorem Registration.call_record {q : Registration Sky} {fault : ℕ → Option PyErr} {r : Registry Sky} (h : (q.call fault r).1 = .ok ()) :
    ∃ rec, q.record.1 = .ok rec ∧ rec ∈ (q.call fault r).2.skymaps := by
  have h' : register q.H fault q.M q.name ⟨q.map, q.hashed, r, 0⟩ = (.ok (), (register q.H fault q.M q.name ⟨q.map, q.hashed, r, 0⟩).2) :=
    Prod.ext h rfl
  obtain ⟨rec, w₁, h1, h2, -⟩ := register_record_mem h'
  rw [q.record_spec r 0] at h1
  exact ⟨rec, (Prod.ext_iff.1 h1).1, h2⟩

/-- C82: if a call has returned, then its record is committed; if calls with the same name have returned, then their sky maps have the same
hash, the same number of tracts and the same maximal numbers of patches: of several different sky maps with this name only one can be registered. -/
theorem C82_one_winner {allowed : Registration Sky → Prop} {r₀ : Registry Sky} (h0 : r₀.Sound) {S : Repo Sky} (h : Repo.Reached allowed r₀ S) :
    (∀ e ∈ S.ended, e.result = .ok () → ∃ rec, e.req.record.1 = .ok rec ∧ rec.skymap = e.req.name ∧ rec ∈ S.committed.skymaps) ∧
    ∀ e₁ ∈ S.ended, ∀ e₂ ∈ S.ended, e₁.result = .ok () → e₂.result = .ok () → e₁.req.name = e₂.req.name → e₁.req.record.1 = e₂.req.record.1 := by
  have key : ∀ e ∈ S.ended, e.result = .ok () → ∃ rec, e.req.record.1 = .ok rec ∧ rec.skymap = e.req.name ∧ rec ∈ S.committed.skymaps := by
    intro e he hok
    obtain ⟨-, hl⟩ := C82_linearizable h0 h
    obtain ⟨r, fault, -, -, h3, h4, h5, -⟩ := hl e he
    obtain ⟨rec, g1, g2⟩ := Registration.call_record (h3.trans hok)
    refine ⟨rec, g1, e.req.record_name (w := e.req.record.2) (Prod.ext g1 rfl), ?_⟩
    have h6 : Registry.HistoryOf allowed (e.req.call fault r).2 S.committed := Relation.ReflTransGen.trans h4 h5
    exact (C48_never_overwrites _ _ h6.history).1.subset g2
  refine ⟨key, fun e₁ he₁ e₂ he₂ ok₁ ok₂ hn => ?_⟩
  obtain ⟨rec₁, a1, a2, a3⟩ := key e₁ he₁ ok₁
  obtain ⟨rec₂, b1, b2, b3⟩ := key e₂ he₂ ok₂
  rw [a1, b1, List.inj_on_of_nodup_map (C82_sound h0 h).1.names a3 b3 (by rw [a2, b2, hn])]

/-- The call when its record is there. -/
theorem Registration.call_present {q : Registration Sky} {fault : ℕ → Option PyErr} {r : Registry Sky} {rec : SkymapRec} (h : q.record.1 = .ok rec)
    (hm : rec ∈ r.skymaps) : (q.call fault r).2.rows = r.rows ∧ ((∀ n, fault n = none) → (q.call fault r).1 = .ok ()) := by
  have h1 := q.record_spec r 0
  rw [h] at h1
  exact register_present (fault := fault) h1 rfl hm

/-- A call alone adds its record, or no row. -/
theorem Registration.call_skymaps (q : Registration Sky) (fault : ℕ → Option PyErr) (r : Registry Sky) :
    (q.call fault r).2.rows = r.rows ∨
      ((q.call fault r).1 = .ok () ∧ ∃ rec, q.record.1 = .ok rec ∧ r.Free rec ∧ (q.call fault r).2.skymaps = r.skymaps ++ [rec]) := by
  rcases hx : register q.H fault q.M q.name ⟨q.map, q.hashed, r, 0⟩ with ⟨e | u, w'⟩
  · left
    have := register_err hx
    unfold Registration.call
    rw [hx]
    exact this
  · obtain ⟨rec, w₁, h1, h2⟩ := register_sync hx
    rw [q.record_spec r 0] at h1
    unfold Registration.call
    rw [hx]
    rcases h2 with ⟨-, h2⟩ | ⟨h2, h3⟩
    · exact .inl h2
    · exact .inr ⟨rfl, rec, (Prod.ext_iff.1 h1).1, h2, h3⟩

/-- C82: several processes that register the same sky map at the same time all succeed: that is, if all calls with this name have the same record,
no call with another name has its hash, and each of them would succeed alone on a repository that has neither this name nor this hash, then each of
them, in which the butler has not failed, has succeeded, under any schedule. -/
theorem C82_same_sky_map {allowed : Registration Sky → Prop} {r₀ : Registry Sky} (h0 : r₀.Sound) {S : Repo Sky} (h : Repo.Reached allowed r₀ S)
    {rec : SkymapRec} (hstart : rec ∈ r₀.skymaps ∨ r₀.Free rec) (hsame : ∀ q, allowed q → q.name = rec.skymap → q.record.1 = .ok rec)
    (hother : ∀ q, allowed q → q.name ≠ rec.skymap → ∀ rec', q.record.1 = .ok rec' → rec'.hash ≠ rec.hash)
    (hgood : ∀ q, allowed q → q.name = rec.skymap → ∀ r, r.Sound → r.Free rec → (q.call (fun _ => none) r).1 = .ok ()) :
    ∀ e ∈ S.ended, e.req.name = rec.skymap → e.fault = false → e.result = .ok () := by
  have key : ∀ r, Registry.HistoryOf allowed r₀ r → rec ∈ r.skymaps ∨ r.Free rec := by
    intro r hr
    induction hr with
    | refl => exact hstart
    | tail _ hs ih =>
      obtain ⟨q, fault, hq, rfl⟩ := hs
      rcases q.call_skymaps fault _ with h1 | ⟨-, rec', h2, h3, h4⟩
      · have : (q.call fault _).2.skymaps = _ := (Prod.ext_iff.1 h1).1
        unfold Registry.Free
        rw [this]
        exact ih
      · unfold Registry.Free
        rw [h4]
        by_cases hn : q.name = rec.skymap
        · have := hsame q hq hn
          rw [h2] at this
          left
          simp [Except.ok.inj this]
        · rcases ih with ih | ih
          · exact .inl (List.mem_append_left _ ih)
          · right
            intro x hx
            rcases List.mem_append.1 hx with hx | hx
            · exact ih x hx
            · rw [List.mem_singleton.1 hx]
              refine ⟨fun e => hn ?_, hother q hq hn rec' h2⟩
              rw [← e]
              exact (q.record_name (w := q.record.2) (Prod.ext h2 rfl)).symm
  intro e he hn hf
  obtain ⟨ha, -⟩ := (h.inv h0).ended e he
  obtain ⟨-, hl⟩ := C82_linearizable h0 h
  obtain ⟨r, fault, h1, h2, h3, -, -, h6⟩ := hl e he
  have hf' : fault = fun _ => none := funext (h6 hf)
  subst hf'
  have hr : Registry.HistoryOf allowed r₀ r := Relation.ReflTransGen.trans h1 h2
  rw [← h3]
  rcases key r hr with g | g
  · exact (Registration.call_present (hsame e.req ha hn) g).2 fun _ => rfl
  · exact hgood e.req ha hn r (C48_sound _ _ h0 hr.history) g


/-! ### Nobody sees half of a sky map -/

/-- The rest of a transaction leaves nothing, or rows for its sky map. -/
theorem alone_inTx {fault : ℕ → Option PyErr} {rec : SkymapRec} {todo : Script Sky} (htx : todo.InTx rec.skymap) (n : ℕ) (c p : Registry Sky)
    (hp : p.skymaps = [rec]) (hcl : p.Closed) :
    (todo.alone fault n c p).2 = c ∨ ∃ d, (todo.alone fault n c p).2 = c.append d ∧ d.skymaps = [rec] ∧ d.Closed := by
  induction todo generalizing n p with
  | done r => exact .inl rfl
  | call s next ih =>
    rw [Script.alone_call]
    cases fault n with
    | some e => exact .inl rfl
    | none =>
      dsimp only
      rcases hx : s.exec (c.append p) with e | ⟨x, d⟩
      · exact .inl rfl
      · have hd := exec_skymaps htx.1 hx
        have h1 := ih x (htx.2.2 x) (n + 1) (p.append d) (by simp [Registry.append, hp, hd]) (closed_work hcl hp htx.1 hx)
        cases s with
        | commit =>
          obtain ⟨r, hr⟩ := htx.2.1 rfl
          simp only [Stmt.exec, Except.ok.injEq, Prod.mk.injEq] at hx
          rw [← hx.1]
          dsimp only
          rw [hr]
          exact .inr ⟨p, rfl, hp, hcl⟩
        | registerRun => exact htx.1.elim
        | registerDatasetType => exact htx.1.elim
        | sync _ => exact htx.1.elim
        | tract _ => exact h1
        | patches _ => exact h1
        | put _ => exact h1

/-- The rows that belong to the sky map with this name. -/
def Registry.ofName (name : String) (r : Registry Sky) : List SkymapRec × List (TractRec Sky) × List (PatchRec Sky) × List DatasetRec :=
  (r.skymaps.filter (·.skymap == name), r.tracts.filter (·.skymap == name), r.patches.filter (·.skymap == name), r.datasets.filter (·.skymap == name))

theorem Registry.ofName_append {name : String} {r d : Registry Sky} (hd : d.Closed) (hn : ∀ x ∈ d.skymaps, x.skymap ≠ name) :
    (r.append d).ofName name = r.ofName name := by
  have e1 : d.skymaps.filter (·.skymap == name) = [] := by
    rw [List.filter_eq_nil_iff]; intro x hx; simpa using hn x hx
  have e2 : d.tracts.filter (·.skymap == name) = [] := by
    rw [List.filter_eq_nil_iff]; intro x hx
    obtain ⟨y, hy, e⟩ := hd.1 x hx
    simpa [← e] using hn y hy
  have e3 : d.patches.filter (·.skymap == name) = [] := by
    rw [List.filter_eq_nil_iff]; intro x hx
    obtain ⟨y, hy, e⟩ := hd.2.1 x hx
    simpa [← e] using hn y hy
  have e4 : d.datasets.filter (·.skymap == name) = [] := by
    rw [List.filter_eq_nil_iff]; intro x hx
    obtain ⟨y, hy, e⟩ := hd.2.2 x hx
    simpa [← e] using hn y hy
  simp [Registry.ofName, Registry.append, e1, e2, e3, e4]

theorem Registry.ofName_rows {name : String} {r r' : Registry Sky} (h : r'.rows = r.rows) : r'.ofName name = r.ofName name := by
  simp only [Registry.rows, Prod.mk.injEq] at h
  obtain ⟨h1, h2, h3, h4⟩ := h
  simp [Registry.ofName, h1, h2, h3, h4]

/-- A call alone touches only the rows of its sky map. -/
theorem Registration.call_frame (q : Registration Sky) (fault : ℕ → Option PyErr) (r : Registry Sky) {name : String} (hn : q.name ≠ name) :
    (q.call fault r).2.ofName name = r.ofName name := by
  rw [← C82_sequential]
  unfold Registration.script
  rcases hr : q.record with ⟨e | rec, w⟩
  · rfl
  have hname := q.record_name hr
  dsimp only
  rw [Script.alone_call]
  cases fault 0 with
  | some e => rfl
  | none =>
  simp only [Stmt.exec]
  rw [Script.alone_call]
  have e0 : ∀ r : Registry Sky, (r.append { hasRun := true }).ofName name = r.ofName name := fun r => by simp [Registry.ofName, Registry.append]
  have e1 : ∀ r : Registry Sky, (r.append { hasDatasetType := true }).ofName name = r.ofName name := fun r => by simp [Registry.ofName, Registry.append]
  cases fault (0 + 1) with
  | some e => exact e0 r
  | none =>
  simp only [Stmt.exec]
  rw [← e0 r, ← e1 (r.append _)]
  generalize (r.append _).append _ = c
  unfold Registration.transaction
  rw [Script.alone_call]
  cases fault (0 + 1 + 1) with
  | some e => rfl
  | none =>
  dsimp only
  rcases hx : (Stmt.sync rec).exec (c.append {}) with e | ⟨x, d⟩
  · rfl
  dsimp only
  obtain ⟨rfl, -, rfl⟩ | ⟨rfl, -, rfl⟩ := sync_free hx
  · dsimp only
    rw [Script.alone_call]
    cases fault (0 + 1 + 1 + 1) with
    | some e => rfl
    | none =>
      simp only [Stmt.exec, Script.alone]
      rw [Registry.append_empty, Registry.append_empty]
  · dsimp only
    have hk : (Script.call (.put ⟨q.name, w.hashed.pickle⟩) fun _ => .call .commit fun _ => .done (.ok ()) : Script Sky).InTx q.name :=
      ⟨rfl, fun h => by simp at h, fun _ => ⟨trivial, fun _ => ⟨_, rfl⟩, fun _ => trivial⟩⟩
    have htx := insertTracts_inTx q.M q.name _ hk (List.range q.M.len) w.map
    rw [← hname] at htx
    rw [← hname]
    rcases alone_inTx (fault := fault) htx (0 + 1 + 1 + 1) c (Registry.append {} { skymaps := [rec] }) rfl (by simp [Registry.Closed, Registry.append])
      with h1 | ⟨d, h1, h2, h3⟩
    · rw [h1]
    · rw [h1]
      apply Registry.ofName_append h3
      rw [h2]
      intro x hx
      rw [List.mem_singleton.1 hx, hname]
      exact hn

/-- C82: nobody ever sees a part of a sky map: at every moment, the rows of each sky map that is committed and was not there in the beginning are those
that one call, which succeeds, leaves if it is made alone on some repository without a sky map of this name or hash. -/
theorem C82_whole {allowed : Registration Sky → Prop} {r₀ : Registry Sky} (h0 : r₀.Sound) {S : Repo Sky} (h : Repo.Reached allowed r₀ S) :
    ∀ rec ∈ S.committed.skymaps, rec ∉ r₀.skymaps → ∃ q fault r, allowed q ∧ r.Sound ∧ r.Free rec ∧ (q.call fault r).1 = .ok () ∧
      q.record.1 = .ok rec ∧ S.committed.ofName rec.skymap = (q.call fault r).2.ofName rec.skymap := by
  have hh := (h.inv h0).history
  generalize S.committed = c at hh
  clear h
  induction hh with
  | refl => intro rec h1 h2; exact absurd h1 h2
  | @tail b c hb hs ih =>
    obtain ⟨q, fault, hq, rfl⟩ := hs
    have hbs : b.Sound := C48_sound _ _ h0 (Registry.HistoryOf.history hb)
    intro rec h1 h2
    rcases q.call_skymaps fault b with h3 | ⟨h3, rec', h4, h5, h6⟩
    · have e1 : (q.call fault b).2.skymaps = b.skymaps := (Prod.ext_iff.1 h3).1
      rw [e1] at h1
      obtain ⟨q', fault', r, g1, g2, g3, g4, g5, g6⟩ := ih rec h1 h2
      exact ⟨q', fault', r, g1, g2, g3, g4, g5, (Registry.ofName_rows h3).trans g6⟩
    · rw [h6] at h1
      have hname := q.record_name (w := q.record.2) (Prod.ext h4 rfl)
      rcases List.mem_append.1 h1 with h1 | h1
      · obtain ⟨q', fault', r, g1, g2, g3, g4, g5, g6⟩ := ih rec h1 h2
        exact ⟨q', fault', r, g1, g2, g3, g4, g5, (q.call_frame fault b (by rw [← hname]; exact fun e => (h5 rec h1).1 e.symm)).trans g6⟩
      · have := List.mem_singleton.1 h1
        subst this
        exact ⟨q, fault, b, hq, hbs, h5, h3, h4, rfl⟩

/-! ### No deadlock -/

/-- The number of statements that remain at most. -/
def Script.rank : Script Sky → ℕ
  | .done _ => 0
  | .call _ next => max (next true).rank (next false).rank + 1

theorem Script.rank_next (s : Stmt Sky) (next : Bool → Script Sky) (x : Bool) : (next x).rank < (Script.call s next).rank := by
  cases x <;> simp only [Script.rank] <;> omega

/-- What remains to be done by all processes. -/
def Repo.rank (S : Repo Sky) : ℕ := (S.running.map fun P => P.todo.rank + 1).sum

theorem Repo.own_rank {allowed : Registration Sky → Prop} {S S' : Repo Sky} (h : Repo.Next allowed .own S S') : S'.rank < S.rank := by
  cases h with
  | auto c l₁ l₂ e q b p f s next hs x d hx => have := Script.rank_next s next x; simp [Repo.rank]; omega
  | work c l₁ l₂ e q b p f s next hs hw x d hc hx => have := Script.rank_next s next x; simp [Repo.rank]; omega
  | raises c l₁ l₂ e q b p f s next hw x hx => simp [Repo.rank, Script.rank]
  | commit c l₁ l₂ e q b p f next => have := Script.rank_next .commit next true; simp [Repo.rank]; omega
  | finish c l₁ l₂ e q b p f r => simp [Repo.rank]

/-- A process that has not to wait can go on. -/
theorem Repo.goes_on {allowed : Registration Sky → Prop} (c : Registry Sky) (l₁ l₂ : List (Proc Sky)) (e : List (Ended Sky)) (P : Proc Sky)
    (h : ∀ s next, P.todo = .call s next → ∀ o ∈ l₁ ++ l₂, ¬ s.Waits o.pending) :
    ∃ S', Repo.Next allowed .own ⟨c, l₁ ++ P :: l₂, e⟩ S' := by
  obtain ⟨q, b, todo, p, f⟩ := P
  cases todo with
  | done r => exact ⟨_, .finish c l₁ l₂ e q b p f r⟩
  | call s next =>
    have hw := h s next rfl
    rcases hx : s.exec (c.append p) with x | ⟨x, d⟩
    · exact ⟨_, .raises c l₁ l₂ e q b p f s next hw x hx⟩
    · by_cases hs : s.auto = true
      · exact ⟨_, .auto c l₁ l₂ e q b p f s next hs x d hx⟩
      · by_cases hc : s = .commit
        · subst hc
          exact ⟨_, .commit c l₁ l₂ e q b p f next⟩
        · exact ⟨_, .work c l₁ l₂ e q b p f s next (by simpa using hs) hw x d hc hx⟩

/-- C82: there is no deadlock: if a process is in `register`, then some process can go on. -/
theorem C82_no_deadlock {allowed : Registration Sky → Prop} {r₀ : Registry Sky} (h0 : r₀.Sound) {S : Repo Sky} (h : Repo.Reached allowed r₀ S)
    (hr : S.running ≠ []) : ∃ S', Repo.Next allowed .own S S' := by
  have I := h.inv h0
  obtain ⟨c, l, e⟩ := S
  dsimp only at hr
  by_cases hp : ∃ P ∈ l, P.pending.skymaps ≠ []
  · obtain ⟨P, hP, hne⟩ := hp
    obtain ⟨l₁, l₂, rfl⟩ := List.append_of_mem hP
    refine Repo.goes_on c l₁ l₂ e P fun s next ht o ho hw => ?_
    have J := I.procs P hP
    rcases J.stage with hst | ⟨res, h1, -⟩
    swap
    · rw [ht] at h1; cases h1
    have hap := pairwise_apart I.apart o ho
    have hcl := (I.procs o (mem_middle_of ho)).closed
    rw [ht] at hst
    generalize htodo : Script.call s next = todo at hst
    generalize hpe : P.pending = p at hst
    cases hst with
    | inTx rec n todo p hp htx hf hfree hsim =>
      subst htodo
      have hs : s.Of rec.skymap := htx.1
      have hno : ∀ y ∈ o.pending.skymaps, y.skymap ≠ rec.skymap := fun y hy e => (hap rec (by rw [hpe, hp]; simp) y hy).1 e.symm
      cases s with
      | registerRun => exact hw
      | registerDatasetType => exact hw
      | commit => exact hw
      | sync _ => exact hs
      | tract a =>
        obtain ⟨x, hx, e1, -⟩ := hw
        obtain ⟨y, hy, e2⟩ := hcl.1 x hx
        exact hno y hy (e2.trans (e1.trans hs))
      | patches a =>
        obtain ⟨a', ha', x, hx, e1⟩ := hw
        obtain ⟨y, hy, e2⟩ := hcl.2.1 x hx
        exact hno y hy (e2.trans ((Prod.ext_iff.1 e1).1.trans (hs a' ha')))
      | put a =>
        obtain ⟨x, hx, e1⟩ := hw
        obtain ⟨y, hy, e2⟩ := hcl.2.2 x hx
        exact hno y hy (e2.trans (e1.trans hs))
    | _ => rw [hpe] at hne; exact hne rfl
  · have hp' : ∀ P ∈ l, P.pending.skymaps = [] := by
      intro P hP
      by_contra hh
      exact hp ⟨P, hP, hh⟩
    obtain ⟨P, l₂, rfl⟩ := List.exists_cons_of_ne_nil hr
    refine Repo.goes_on c [] l₂ e P fun s next ht o ho hw => ?_
    have ho' : o ∈ P :: l₂ := List.mem_cons_of_mem _ (by simpa using ho)
    have h1 := hp' o ho'
    obtain ⟨h2, h3, h4⟩ := (I.procs o ho').closed
    rw [h1] at h2 h3 h4
    cases s with
    | registerRun => exact hw
    | registerDatasetType => exact hw
    | commit => exact hw
    | sync _ => obtain ⟨x, hx, -⟩ := hw; rw [h1] at hx; simp at hx
    | tract a => obtain ⟨x, hx, -⟩ := hw; simpa using h2 x hx
    | patches a => obtain ⟨a', -, x, hx, -⟩ := hw; simpa using h3 x hx
    | put a => obtain ⟨x, hx, -⟩ := hw; simpa using h4 x hx

/-- Each call in progress ends, or is still in progress. -/
theorem Repo.own_calls {allowed : Registration Sky → Prop} {S S' : Repo Sky} (h : Repo.Next allowed .own S S') :
    (S'.ended.map (fun e => (e.req, e.before, e.fault)) ++ S'.running.map (fun P => (P.req, P.before, P.fault))).Perm
      (S.ended.map (fun e => (e.req, e.before, e.fault)) ++ S.running.map (fun P => (P.req, P.before, P.fault))) := by
  cases h with
  | finish c l₁ l₂ e q b p f r =>
    simp only [List.map_append, List.map_cons, List.map_nil, List.append_assoc, List.singleton_append]
    exact List.Perm.append_left _ List.perm_middle.symm
  | _ => simp only [List.map_append, List.map_cons, List.Perm.refl]

/-- C82: if no process is started, no process vanishes and the butler does not fail any more, then all calls end: there is no infinite execution, and
from each state there is one in which all calls have ended. -/
theorem C82_terminates {allowed : Registration Sky → Prop} {r₀ : Registry Sky} (h0 : r₀.Sound) {S : Repo Sky} (h : Repo.Reached allowed r₀ S) :
    (¬ ∃ f : ℕ → Repo Sky, f 0 = S ∧ ∀ n, Repo.Next allowed .own (f n) (f (n + 1))) ∧
    ∃ S', Relation.ReflTransGen (Repo.Next allowed .own) S S' ∧ Repo.Reached allowed r₀ S' ∧ S'.running = [] ∧
      (S'.ended.map (fun e => (e.req, e.before, e.fault))).Perm
        (S.ended.map (fun e => (e.req, e.before, e.fault)) ++ S.running.map (fun P => (P.req, P.before, P.fault))) := by
  constructor
  · rintro ⟨f, -, hf⟩
    have : ∀ n, (f n).rank + n ≤ (f 0).rank := by
      intro n
      induction n with
      | zero => simp
      | succ n ih => have := Repo.own_rank (hf n); omega
    have := this ((f 0).rank + 1)
    omega
  · suffices H : ∀ n (S : Repo Sky), S.rank = n → Repo.Reached allowed r₀ S → ∃ S', Relation.ReflTransGen (Repo.Next allowed .own) S S' ∧
        Repo.Reached allowed r₀ S' ∧ S'.running = [] ∧ (S'.ended.map (fun e => (e.req, e.before, e.fault))).Perm
          (S.ended.map (fun e => (e.req, e.before, e.fault)) ++ S.running.map (fun P => (P.req, P.before, P.fault))) from H _ S rfl h
    intro n
    induction n using Nat.strong_induction_on with
    | _ n ih =>
      intro S hn hS
      by_cases hr : S.running = []
      · exact ⟨S, .refl, hS, hr, by rw [hr]; simp⟩
      · obtain ⟨S₁, h1⟩ := C82_no_deadlock h0 hS hr
        obtain ⟨S', g1, g2, g3, g4⟩ := ih S₁.rank (by rw [← hn]; exact Repo.own_rank h1) S₁ rfl (hS.next h1)
        exact ⟨S', .head h1 g1, g2, g3, g4.trans (Repo.own_calls h1)⟩


/-! ## Examples -/

namespace Ex

/-- A process that registers the discrete sky map with three equal tracts. -/
def registration (name : String) : Registration (P2 ℚ) where
  σ := MapState (P2 ℚ) ℚ
  K := ℚ
  H := id
  M := CachingSkyMap.skyMapOps equalMap
  name := name
  map := start equalMap
  hashed := ⟨.rings 120 0, hashConfig, .int 1, none⟩

theorem equal_iter : ∃ l, (BaseSkyMap.iter (CachingSkyMap.skyMapOps equalMap) (start equalMap)).1 = .ok l := by
  have h : ((BaseSkyMap.iter (CachingSkyMap.skyMapOps equalMap) (start equalMap)).1.map List.length) = .ok 3 := by
    decide +kernel
  obtain ⟨l, h1, -⟩ := Except.map_ok_inv h
  exact ⟨l, h1⟩

theorem registration_record (name : String) : ∃ rec, (registration name).record.1 = .ok rec ∧ rec.skymap = name ∧
    ((registration name).hashed.getSha1 id).1 = .ok rec.hash := by
  have hb : ∃ b, (HashedMap.getSha1 id ⟨.rings 120 0, hashConfig, .int 1, none⟩).1 = .ok b := ⟨_, rfl⟩
  obtain ⟨b, hb⟩ := hb
  obtain ⟨rec, w₁, h1, h2, h3, -⟩ := record_total id (CachingSkyMap.skyMapOps equalMap) name
    ⟨start equalMap, (registration name).hashed, {}, 0⟩ (by decide) equal_iter b hb
  exact ⟨rec, by rw [show (registration name).record = _ from h1], h2, by rw [h3]; exact hb⟩

/-- Alone it succeeds. -/
theorem registration_succeeds {name : String} {rec : SkymapRec} (h : (registration name).record.1 = .ok rec) {r : Registry (P2 ℚ)} (hs : r.Sound)
    (hf : r.Free rec) : ((registration name).call (fun _ => none) r).1 = .ok () := by
  obtain ⟨rec', h1, h2, h3⟩ := registration_record name
  rw [h, Except.ok.injEq] at h1
  subst h1
  exact C49_succeeds id (fun _ => none) (fun _ => rfl) (CachingSkyMap.skyMapOps equalMap) name
    ⟨start equalMap, (registration name).hashed, r, 0⟩ (equalMap_proper []) hs (by decide) equal_iter rec.hash h3
    (fun x hx => ⟨by rw [← h2]; exact (hf x hx).1, (hf x hx).2⟩)
    (fun s ts h ht => uniform_tracts equal_uniform h ts ht)

/-- Two processes begin to register the same sky map in an empty repository before either has done anything, and both succeed: the hypotheses of the
theorems above are met, and concurrent calls exist. -/
example : ∃ S : Repo (P2 ℚ), Repo.Reached (fun q => q = registration "m") {} S ∧ S.running = [] ∧
    S.ended.map (fun e => (e.req.name, e.before.ended, e.result)) = [("m", 0, .ok ()), ("m", 0, .ok ())] ∧
    S.committed.skymaps.length = 1 := by
  have h1 := Repo.Reached.init (allowed := fun q => q = registration "m") (r₀ := ({} : Registry (P2 ℚ)))
  have h2 := (h1.next (.start _ (registration "m") rfl)).next (.start _ (registration "m") rfl)
  obtain ⟨-, S, -, h3, h4, h5⟩ := C82_terminates Registry.sound_empty h2
  dsimp only [List.map_nil, List.nil_append, List.map_cons, List.map_append, List.cons_append] at h5
  obtain ⟨rec, g1, g2, g3⟩ := registration_record "m"
  have hall : ∀ e ∈ S.ended, e.req = registration "m" ∧ e.before = ⟨{}, 0⟩ ∧ e.fault = false := by
    intro e he
    have := h5.subset (List.mem_map_of_mem he)
    change _ ∈ [(registration "m", (⟨{}, 0⟩ : Begin (P2 ℚ)), false), (registration "m", ⟨{}, 0⟩, false)] at this
    have : (e.req, e.before, e.fault) = (registration "m", ⟨{}, 0⟩, false) := by
      rcases List.mem_cons.1 this with h | h
      · exact h
      · exact List.mem_singleton.1 h
    exact ⟨congrArg Prod.fst this, congrArg (fun x => x.2.1) this, congrArg (fun x => x.2.2) this⟩
  have hok := C82_same_sky_map Registry.sound_empty h3 (rec := rec) (.inr (by simp [Registry.Free])) (fun q hq _ => by rw [hq]; exact g1)
    (fun q hq hn => absurd (by rw [hq, g2]; rfl) hn) (fun q hq _ r hs hf => by rw [hq]; exact registration_succeeds g1 hs hf)
  have hlen : S.ended.length = 2 := by simpa using h5.length_eq
  refine ⟨S, h3, h4, ?_, ?_⟩
  · have key : ∀ e ∈ S.ended, (e.req.name, e.before.ended, e.result) = ("m", 0, .ok ()) := by
      intro e he
      obtain ⟨a1, a2, a3⟩ := hall e he
      rw [hok e he (by rw [a1, g2]; rfl) a3, a1, a2]
      rfl
    obtain ⟨a, b, hab⟩ := List.length_eq_two.1 hlen
    rw [hab] at key ⊢
    simp only [List.map_cons, List.map_nil, key a (by simp), key b (by simp)]
  · have hm : ∀ x ∈ S.committed.skymaps, x = rec := by
      intro x hx
      obtain ⟨q, -, -, b1, -, -, -, b2, -⟩ := C82_whole Registry.sound_empty h3 x hx (by simp)
      rw [b1, g1] at b2
      exact (Except.ok.inj b2).symm
    have hne : rec ∈ S.committed.skymaps := by
      obtain ⟨a, b, hab⟩ := List.length_eq_two.1 hlen
      have ha : a ∈ S.ended := by rw [hab]; simp
      obtain ⟨a1, a2, a3⟩ := hall a ha
      obtain ⟨rec', c1, -, c2⟩ := (C82_one_winner Registry.sound_empty h3).1 a ha (hok a ha (by rw [a1, g2]; rfl) a3)
      rw [a1, g1] at c1
      rw [Except.ok.inj c1]
      exact c2
    have hnd := (C82_sound Registry.sound_empty h3).1.names.of_map
    rw [List.eq_replicate_of_mem hm] at hnd ⊢
    have h1 := (List.nodup_replicate.1 hnd)
    have h2 := List.length_pos_of_mem hne
    simp only [List.length_replicate]
    omega

end Ex

end Skymap
