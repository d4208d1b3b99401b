import Verif.Model.Register

/-!
# Several processes that register sky maps in one repository

`register` (baseSkyMap.py:387-475) again, this time as the sequence of statements that it sends to the database, between which statements of other
processes can be executed.  The database is not part of /repo.  It is modelled as one with transactions that see what was committed before each of
their statements and what they inserted themselves ("read committed"; a database that lets only one transaction run at a time has fewer schedules),
where a statement that inserts a key which another open transaction has inserted waits until that transaction ends, and where
`registerRun` and `registerDatasetType` are transactions of their own.  Any statement can fail for reasons of the butler, and any process can vanish
at any moment (`kill -9`, power failure), then its transaction is rolled back.

Each process has its own sky map object, so what it computes from it does not depend on the others.
-/

namespace Skymap

variable {Sky : Type}

/-- Add rows to a repository; a flag that is set stays set. -/
def Registry.append (r d : Registry Sky) : Registry Sky where
  skymaps := r.skymaps ++ d.skymaps
  tracts := r.tracts ++ d.tracts
  patches := r.patches ++ d.patches
  datasets := r.datasets ++ d.datasets
  hasRun := r.hasRun || d.hasRun
  hasDatasetType := r.hasDatasetType || d.hasDatasetType

/-- What `register` asks of the butler (baseSkyMap.py:428-475), and the commit at the end of the `with` statement. -/
inductive Stmt (Sky : Type)
  | registerRun
  | registerDatasetType
  | sync (rec : SkymapRec)
  | tract (rec : TractRec Sky)
  | patches (recs : List (PatchRec Sky))
  | put (rec : DatasetRec)
  | commit

/-- The result of a statement and the rows that it adds, if `r` is what it sees: as in Model/Register.lean. -/
def Stmt.exec : Stmt Sky → Registry Sky → PyM (Bool × Registry Sky)
  | .registerRun, _ => .ok (true, { hasRun := true })
  | .registerDatasetType, _ => .ok (true, { hasDatasetType := true })
  | .sync rec, r =>
    if rec ∈ r.skymaps then .ok (false, {})
    else if r.skymaps.any (fun x => x.skymap == rec.skymap || x.hash == rec.hash) then .error .ConflictingDefinitionError
    else .ok (true, { skymaps := [rec] })
  | .tract rec, r =>
    if r.tracts.any (fun x => x.skymap == rec.skymap && decide (x.tract = rec.tract)) then .error .IntegrityError
    else if !r.skymaps.any (fun x => x.skymap == rec.skymap) then .error .IntegrityError
    else .ok (true, { tracts := [rec] })
  | .patches recs, r =>
    if recs.any (fun p => r.patches.any (fun x => Butler.patchKey x == Butler.patchKey p)) || !decide (recs.map Butler.patchKey).Nodup then
      .error .IntegrityError
    else if !recs.all (fun p => r.tracts.any (fun x => x.skymap == p.skymap && decide (x.tract = p.tract))) then .error .IntegrityError
    else .ok (true, { patches := recs })
  | .put rec, r =>
    if r.datasets.any (fun x => x.skymap == rec.skymap) then .error .ConflictingDefinitionError
    else if !r.skymaps.any (fun x => x.skymap == rec.skymap) || !r.hasRun || !r.hasDatasetType then .error .IntegrityError
    else .ok (true, { datasets := [rec] })
  | .commit, _ => .ok (true, {})

/-- The statement is a transaction of its own. -/
def Stmt.auto : Stmt Sky → Bool
  | .registerRun | .registerDatasetType => true
  | _ => false

/-- The statement has to wait for an open transaction that has inserted `pending`: that has one of the keys it inserts. -/
def Stmt.Waits : Stmt Sky → Registry Sky → Prop
  | .sync rec, p => ∃ x ∈ p.skymaps, x.skymap = rec.skymap ∨ x.hash = rec.hash
  | .tract rec, p => ∃ x ∈ p.tracts, x.skymap = rec.skymap ∧ x.tract = rec.tract
  | .patches recs, p => ∃ a ∈ recs, ∃ x ∈ p.patches, Butler.patchKey x = Butler.patchKey a
  | .put rec, p => ∃ x ∈ p.datasets, x.skymap = rec.skymap
  | _, _ => False

/-- What remains to be done by a process: nothing, it returns or raises; or a statement, and then what `next` says.  If the statement raises, so does
the method: `register` catches a `ConflictingDefinitionError` only to raise another one (baseSkyMap.py:442-447). -/
inductive Script (Sky : Type)
  | done (r : PyM Unit)
  | call (s : Stmt Sky) (next : Bool → Script Sky)

/-- The loop over the tracts (baseSkyMap.py:449-473), from tracts `l` on, then `k`; `s` is the state of the sky map. -/
def insertTracts {σ K : Type} [Field K] [LinearOrder K] [FloorRing K] (M : SkyMapOps σ Sky K) (name : String) (k : Script Sky) :
    List Nat → σ → Script Sky
  | [], _ => k
  | i :: l, s => match M.getItem (i : Int) s with
    | (.error e, _) => .done (.error e)
    | (.ok t, s') => .call (.tract ⟨name, t.info.id, t.info.getOuterSkyPolygon⟩) fun _ =>
      match BaseSkyMap.patchRecords name t.info (M.builder s') with
      | .error e => .done (.error e)
      | .ok recs => .call (.patches recs) fun _ => insertTracts M name k l s'

/-- A call of `register` by a process: the sky map (its tracts, in state `map`, and the attributes for hashing) and the name. -/
structure Registration (Sky : Type) where
  σ : Type
  K : Type
  [field : Field K]
  [order : LinearOrder K]
  [floor : FloorRing K]
  H : Bytes → Bytes
  M : SkyMapOps σ Sky K
  name : String
  map : σ
  hashed : HashedMap

attribute [instance] Registration.field Registration.order Registration.floor

namespace Registration

/-- The skymap record (baseSkyMap.py:417-427), which does not use the butler, and the sky map afterwards. -/
def record (q : Registration Sky) : PyM SkymapRec × World q.σ Sky := BaseSkyMap.skymapRecord q.H q.M q.name ⟨q.map, q.hashed, {}, 0⟩

/-- The transaction (baseSkyMap.py:441-475). -/
def transaction (q : Registration Sky) (rec : SkymapRec) (w : World q.σ Sky) : Script Sky :=
  .call (.sync rec) fun inserted =>
    match inserted with
    | true => insertTracts q.M q.name (.call (.put ⟨q.name, w.hashed.pickle⟩) fun _ => .call .commit fun _ => .done (.ok ()))
        (List.range q.M.len) w.map
    | false => .call .commit fun _ => .done (.ok ())

/-- `register` (baseSkyMap.py:387-475). -/
def script (q : Registration Sky) : Script Sky :=
  match q.record with
  | (.error e, _) => .done (.error e)
  | (.ok rec, w) => .call .registerRun fun _ => .call .registerDatasetType fun _ => q.transaction rec w

end Registration

/-- The moment when a call of `register` began, for the statement of properties: what was committed, and how many calls had ended. -/
structure Begin (Sky : Type) where
  committed : Registry Sky
  ended : Nat

/-- A process in `register`: what remains to be done, and the rows inserted in its open transaction.  For the statement of properties: when
it began, and whether the butler has failed. -/
structure Proc (Sky : Type) where
  req : Registration Sky
  before : Begin Sky
  todo : Script Sky
  pending : Registry Sky
  fault : Bool

/-- A call of `register` that has returned or raised, with when it began and what was committed when it ended. -/
structure Ended (Sky : Type) where
  req : Registration Sky
  before : Begin Sky
  result : PyM Unit
  after : Registry Sky
  fault : Bool

/-- A repository and the processes that use it. -/
structure Repo (Sky : Type) where
  committed : Registry Sky
  running : List (Proc Sky)
  ended : List (Ended Sky)

/-- A process calls `register`; a process goes on; the butler fails; a process vanishes. -/
inductive Move
  | begins | own | fails | vanishes

/-- What can happen next. -/
inductive Repo.Next (allowed : Registration Sky → Prop) : Move → Repo Sky → Repo Sky → Prop
  /-- A process calls `register`. -/
  | start (S : Repo Sky) (q : Registration Sky) (h : allowed q) :
      Next allowed .begins S { S with running := S.running ++ [⟨q, ⟨S.committed, S.ended.length⟩, q.script, {}, false⟩] }
  /-- A transaction of one statement. -/
  | auto (c : Registry Sky) (l₁ l₂ : List (Proc Sky)) (e : List (Ended Sky)) (q : Registration Sky) (b : Begin Sky) (p : Registry Sky) (f : Bool) (s : Stmt Sky)
      (next : Bool → Script Sky) (hs : s.auto = true) (x : Bool) (d : Registry Sky) (h : s.exec (c.append p) = .ok (x, d)) :
      Next allowed .own ⟨c, l₁ ++ ⟨q, b, .call s next, p, f⟩ :: l₂, e⟩ ⟨c.append d, l₁ ++ ⟨q, b, next x, p, f⟩ :: l₂, e⟩
  /-- A statement in a transaction, when it has not to wait. -/
  | work (c : Registry Sky) (l₁ l₂ : List (Proc Sky)) (e : List (Ended Sky)) (q : Registration Sky) (b : Begin Sky) (p : Registry Sky) (f : Bool) (s : Stmt Sky)
      (next : Bool → Script Sky) (hs : s.auto = false) (hw : ∀ o ∈ l₁ ++ l₂, ¬ s.Waits o.pending) (x : Bool) (d : Registry Sky)
      (hc : s ≠ .commit) (h : s.exec (c.append p) = .ok (x, d)) :
      Next allowed .own ⟨c, l₁ ++ ⟨q, b, .call s next, p, f⟩ :: l₂, e⟩ ⟨c, l₁ ++ ⟨q, b, next x, p.append d, f⟩ :: l₂, e⟩
  /-- A statement raises because of a constraint. -/
  | raises (c : Registry Sky) (l₁ l₂ : List (Proc Sky)) (e : List (Ended Sky)) (q : Registration Sky) (b : Begin Sky) (p : Registry Sky) (f : Bool) (s : Stmt Sky)
      (next : Bool → Script Sky) (hw : ∀ o ∈ l₁ ++ l₂, ¬ s.Waits o.pending) (x : PyErr) (h : s.exec (c.append p) = .error x) :
      Next allowed .own ⟨c, l₁ ++ ⟨q, b, .call s next, p, f⟩ :: l₂, e⟩ ⟨c, l₁ ++ ⟨q, b, .done (.error x), p, f⟩ :: l₂, e⟩
  /-- The transaction is committed. -/
  | commit (c : Registry Sky) (l₁ l₂ : List (Proc Sky)) (e : List (Ended Sky)) (q : Registration Sky) (b : Begin Sky) (p : Registry Sky) (f : Bool)
      (next : Bool → Script Sky) :
      Next allowed .own ⟨c, l₁ ++ ⟨q, b, .call .commit next, p, f⟩ :: l₂, e⟩ ⟨c.append p, l₁ ++ ⟨q, b, next true, {}, f⟩ :: l₂, e⟩
  /-- The butler fails in some statement or commit. -/
  | fault (c : Registry Sky) (l₁ l₂ : List (Proc Sky)) (e : List (Ended Sky)) (q : Registration Sky) (b : Begin Sky) (p : Registry Sky) (f : Bool) (s : Stmt Sky)
      (next : Bool → Script Sky) (x : PyErr) :
      Next allowed .fails ⟨c, l₁ ++ ⟨q, b, .call s next, p, f⟩ :: l₂, e⟩ ⟨c, l₁ ++ ⟨q, b, .done (.error x), p, true⟩ :: l₂, e⟩
  /-- `register` returns or raises; a transaction that is still open is rolled back. -/
  | finish (c : Registry Sky) (l₁ l₂ : List (Proc Sky)) (e : List (Ended Sky)) (q : Registration Sky) (b : Begin Sky) (p : Registry Sky) (f : Bool) (r : PyM Unit) :
      Next allowed .own ⟨c, l₁ ++ ⟨q, b, .done r, p, f⟩ :: l₂, e⟩ ⟨c, l₁ ++ l₂, e ++ [⟨q, b, r, c, f⟩]⟩
  /-- A process vanishes, with its open transaction. -/
  | crash (c : Registry Sky) (l₁ l₂ : List (Proc Sky)) (e : List (Ended Sky)) (o : Proc Sky) :
      Next allowed .vanishes ⟨c, l₁ ++ o :: l₂, e⟩ ⟨c, l₁ ++ l₂, e⟩

/-- `S` is reached from the repository `r₀` by any number of processes that make `allowed` calls of `register`, under any schedule. -/
inductive Repo.Reached (allowed : Registration Sky → Prop) (r₀ : Registry Sky) : Repo Sky → Prop
  | init : Reached allowed r₀ ⟨r₀, [], []⟩
  | next {S S' : Repo Sky} {k : Move} : Reached allowed r₀ S → Repo.Next allowed k S S' → Reached allowed r₀ S'

end Skymap
