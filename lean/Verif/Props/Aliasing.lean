import Verif.Model.Heap
import Verif.Props.AllMaps
import Verif.Props.PackerHistory
import Verif.Spec.ExampleMap

/-!
# C81: what a client can change through the objects that it gets
-/

namespace Skymap

variable {Sky K W σ : Type}

/-! ## Specification: the answers of a sky map whose results are values -/

/-- The sky map answers one request; its results are values that nobody can change. -/
def SkyMapOps.ask [Field K] [LinearOrder K] [FloorRing K] (V : SkyMapOps σ Sky K) (q : Request) (s : σ) : Reply Sky K × σ :=
  match q with
  | .tract k => (.tract ((V.getItem k s).1.map fun t => (t, V.builder (V.getItem k s).2)), (V.getItem k s).2)
  | .bbox k => (.bbox ((V.getItem k s).1.map fun t => t.info.getBBox), (V.getItem k s).2)
  | .vertices k => (.vertices ((V.getItem k s).1.map fun t => t.info.vertexCoordList), (V.getItem k s).2)
  | .patchDims k => (.patchDims ((V.getItem k s).1.map fun _ => (V.builder (V.getItem k s).2).getPatchInnerDimensions), (V.getItem k s).2)
  | .patch k i => (.patch ((V.getItem k s).1 >>= fun t => t.info.getPatchInfo (V.builder (V.getItem k s).2) i), (V.getItem k s).2)

/-- The sky map answers requests, one after the other. -/
def SkyMapOps.answers [Field K] [LinearOrder K] [FloorRing K] (V : SkyMapOps σ Sky K) : List Request → σ → List (Reply Sky K)
  | [], _ => []
  | q :: l, s => (V.ask q s).1 :: V.answers l (V.ask q s).2

/-- The requests among the actions of a client. -/
def Action.request? : Action Sky → Option Request
  | .ask q => some q
  | _ => none

/-! ## Heaps -/

namespace Heap

/-- `h'` has the objects of `h`, unchanged, and maybe more. -/
structure Ext (h h' : Heap Sky) : Prop where
  boxes : h.boxes <+: h'.boxes
  extents : h.extents <+: h'.extents
  lists : h.lists <+: h'.lists

variable {h h' h'' : Heap Sky}

theorem Ext.refl : Ext h h := ⟨List.prefix_rfl, List.prefix_rfl, List.prefix_rfl⟩

theorem Ext.trans (a : Ext h h') (b : Ext h' h'') : Ext h h'' := ⟨a.boxes.trans b.boxes, a.extents.trans b.extents, a.lists.trans b.lists⟩

theorem getD_prefix {α : Type} {l l' : List α} (hp : l <+: l') {n : ℕ} (hn : n < l.length) (d : α) : l'.getD n d = l.getD n d := by
  obtain ⟨t, rfl⟩ := hp
  simp [List.getD, List.getElem?_append_left hn]

theorem Ext.box (e : Ext h h') {r : BoxRef} (hr : r.addr < h.boxes.length) : h'.box r = h.box r := getD_prefix e.boxes hr _

theorem Ext.extent (e : Ext h h') {r : ExtentRef} (hr : r.addr < h.extents.length) : h'.extent r = h.extent r := getD_prefix e.extents hr _

theorem Ext.list (e : Ext h h') {r : ListRef} (hr : r.addr < h.lists.length) : h'.list r = h.list r := getD_prefix e.lists hr _

theorem Ext.boxes_le (e : Ext h h') : h.boxes.length ≤ h'.boxes.length := e.boxes.length_le
theorem Ext.extents_le (e : Ext h h') : h.extents.length ≤ h'.extents.length := e.extents.length_le
theorem Ext.lists_le (e : Ext h h') : h.lists.length ≤ h'.lists.length := e.lists.length_le

theorem box_setBox (h : Heap Sky) (r s : BoxRef) (b : Box2I) (hr : r.addr < h.boxes.length) :
    (h.setBox r b).box s = if r = s then b else h.box s := by
  unfold setBox box
  simp only [List.getD, List.getElem?_set]
  by_cases e : r = s
  · subst e; simp [hr]
  · have : r.addr ≠ s.addr := fun x => e (by cases r; cases s; simp_all)
    simp [e, this]

theorem extent_setExtent (h : Heap Sky) (r s : ExtentRef) (b : Extent2I) (hr : r.addr < h.extents.length) :
    (h.setExtent r b).extent s = if r = s then b else h.extent s := by
  unfold setExtent extent
  simp only [List.getD, List.getElem?_set]
  by_cases e : r = s
  · subst e; simp [hr]
  · have : r.addr ≠ s.addr := fun x => e (by cases r; cases s; simp_all)
    simp [e, this]

theorem list_setList (h : Heap Sky) (r s : ListRef) (b : List Sky) (hr : r.addr < h.lists.length) :
    (h.setList r b).list s = if r = s then b else h.list s := by
  unfold setList list
  simp only [List.getD, List.getElem?_set]
  by_cases e : r = s
  · subst e; simp [hr]
  · have : r.addr ≠ s.addr := fun x => e (by cases r; cases s; simp_all)
    simp [e, this]

end Heap

/-! ## Objects keep their values in larger heaps -/

/-- The references of a tract builder are not dangling. -/
structure HBuilder.Live (h : Heap Sky) (b : HBuilder) : Prop where
  dims : b.patchInnerDimensions.addr < h.extents.length
  cells : ∀ d cb n nb, b.kind = .cells d cb n nb → d.addr < h.extents.length
  state : ∀ st, b.state = some st → st.2.addr < h.boxes.length

/-- The references of a tract are not dangling. -/
structure HTract.Live (h : Heap Sky) (t : HTract Sky K) : Prop where
  bbox : t.bbox.addr < h.boxes.length
  vertices : ∀ r ∈ t.vertexCoordList.refs, r.addr < h.lists.length

theorem HBuilder.Live.ext {h h' : Heap Sky} {b : HBuilder} (l : b.Live h) (e : h.Ext h') : b.Live h' :=
  ⟨lt_of_lt_of_le l.dims e.extents_le, fun d cb n nb hk => lt_of_lt_of_le (l.cells d cb n nb hk) e.extents_le,
    fun st hs => lt_of_lt_of_le (l.state st hs) e.boxes_le⟩

theorem HTract.Live.ext {h h' : Heap Sky} {t : HTract Sky K} (l : t.Live h) (e : h.Ext h') : t.Live h' :=
  ⟨lt_of_lt_of_le l.bbox e.boxes_le, fun r hr => lt_of_lt_of_le (l.vertices r hr) e.lists_le⟩

theorem HBuilder.Live.view {h h' : Heap Sky} {b : HBuilder} (l : b.Live h) (e : h.Ext h') : b.view h' = b.view h := by
  obtain ⟨kind, d, pb, st⟩ := b
  have h1 := e.extent l.dims
  unfold HBuilder.view
  dsimp only at h1 ⊢
  rw [h1]
  have h2 : kind.view h' = kind.view h := by
    cases kind with
    | legacy => rfl
    | cells d cb n nb => simp only [HBuilderKind.view]; rw [e.extent (l.cells d cb n nb rfl)]
  rw [h2]
  cases st with
  | none => rfl
  | some st => simp only [Option.map_some]; rw [e.box (l.state st rfl)]

theorem HTract.Live.view {h h' : Heap Sky} {t : HTract Sky K} (l : t.Live h) (e : h.Ext h') : t.view h' = t.view h := by
  unfold HTract.view
  rw [e.box l.bbox]
  have h2 : t.vertexCoordList.view h' = t.vertexCoordList.view h := by
    cases hv : t.vertexCoordList with
    | tuple l => rfl
    | list r => exact e.list (l.vertices r (by rw [hv]; simp [HVertices.refs]))
  rw [h2]

/-! ## Methods -/

theorem PyS.bind_def {α β : Type} (m : PyS σ α) (f : α → PyS σ β) (s : σ) :
    (m >>= f) s = match m s with
      | (.ok a, s') => f a s'
      | (.error e, s') => (.error e, s') := rfl

theorem PyS.pure_def {α : Type} (a : α) (s : σ) : (pure a : PyS σ α) s = (.ok a, s) := rfl

/-- `PatchInfo.__init__` keeps the boxes and makes a new extent. -/
theorem HPatch.new_spec {h : Heap Sky} (i : Index2D) {inner outer : BoxRef} (seq : ℤ) (w : W) (d : Extent2I) (cb n nb : ℤ) :
    ∃ r h', HPatch.new i inner outer seq w d cb n nb h = (r, h') ∧ h.Ext h' ∧ h'.boxes = h.boxes ∧
      r.map (fun p => p.view h') = PatchInfo.new i (h.box inner) (h.box outer) seq w [d.x, d.y] cb n nb ∧
      ∀ p, r = .ok p → p.innerBBox = inner ∧ p.outerBBox = outer ∧ p.cellInnerDimensions.addr = h.extents.length ∧
        h.extents.length < h'.extents.length := by
  unfold HPatch.new PatchInfo.new
  simp only [PyS.bind_def, Heap.readBox]
  split
  · exact ⟨_, _, rfl, Heap.Ext.refl, rfl, rfl, fun p hp => by cases hp⟩
  · refine ⟨_, _, rfl, ⟨List.prefix_rfl, List.prefix_append _ _, List.prefix_rfl⟩, rfl, ?_, ?_⟩
    · simp [Except.map, HPatch.view, Heap.box, Heap.extent]
    · rintro p hp
      simp only [Except.ok.injEq] at hp
      subst hp
      simp

theorem Heap.set_last (h : Heap Sky) (l : List Box2I) (O c : Box2I) :
    ({ h with boxes := l ++ [O] } : Heap Sky).setBox ⟨l.length⟩ c = { h with boxes := l ++ [c] } := by
  unfold Heap.setBox
  simp

theorem Heap.box_last (h : Heap Sky) (l : List Box2I) (O : Box2I) : (({ h with boxes := l ++ [O] } : Heap Sky).box ⟨l.length⟩) = O := by
  unfold Heap.box
  simp

theorem TractBuilder.getPatchInfo_some {b : TractBuilder} {st : BuilderState} (hst : b.state = some st) (i : IndexArg) (w : W) :
    b.getPatchInfo i w = match b.resolve i with
      | .error e => .error e
      | .ok j => if ¬ (0 ≤ j.x ∧ j.x < st.numPatches.x) ∨ ¬ (0 ≤ j.y ∧ j.y < st.numPatches.y) then .error .IndexError
        else if !st.tractBBox.containsBox (b.patchInnerBBox j) then .error .RuntimeError
        else match b.kind with
          | .legacy => PatchInfo.new j (b.patchInnerBBox j) (((b.patchInnerBBox j).grow b.getPatchBorder).clip st.tractBBox)
              (st.numPatches.x * j.y + j.x) w
          | .cells c => PatchInfo.new j (b.patchInnerBBox j) ((b.patchInnerBBox j).grow b.getPatchBorder) (st.numPatches.x * j.y + j.x) w
              [c.cellInnerDimensions.x, c.cellInnerDimensions.y] c.cellBorder c.numCellsPerPatchInner c.numCellsInPatchBorder := by
  unfold TractBuilder.getPatchInfo
  rw [hst]
  cases b.resolve i with
  | error e => rfl
  | ok j =>
    have hseq : b.getSequentialPatchIndexFromPair (.index2D j) = .ok (st.numPatches.x * j.y + j.x) := by
      unfold TractBuilder.getSequentialPatchIndexFromPair TractBuilder.getState
      rw [hst]; rfl
    simp only [bind, Except.bind, throw, throwThe, MonadExceptOf.throw, hseq]
    split
    · rfl
    · split <;> rfl

/-- What `getPatchInfo` returns has the value that it should have, and its boxes and extent are new objects; nothing else changes. -/
theorem HBuilder.getPatchInfo_spec {h : Heap Sky} {b : HBuilder} (l : b.Live h) (i : IndexArg) (w : W) :
    ∃ r h', b.getPatchInfo i w h = (r, h') ∧ h.Ext h' ∧ r.map (fun p => p.view h') = (b.view h).getPatchInfo i w ∧
      ∀ p, r = .ok p → h.boxes.length ≤ p.innerBBox.addr ∧ p.innerBBox.addr < p.outerBBox.addr ∧ p.outerBBox.addr < h'.boxes.length ∧
        h.extents.length ≤ p.cellInnerDimensions.addr ∧ p.cellInnerDimensions.addr < h'.extents.length := by
  unfold HBuilder.getPatchInfo
  cases hs : b.state with
  | none =>
    have : (b.view h).state = none := by simp [HBuilder.view, hs]
    unfold TractBuilder.getPatchInfo
    rw [this]
    exact ⟨_, _, rfl, Heap.Ext.refl, rfl, fun p hp => by cases hp⟩
  | some st =>
    have hst : (b.view h).state = some ⟨st.1, h.box st.2⟩ := by simp [HBuilder.view, hs]
    have hl := l.state st hs
    rw [TractBuilder.getPatchInfo_some hst]
    simp only [PyS.bind_def, PyS.get, PyS.lift]
    cases hi : (b.view h).resolve i with
    | error e => exact ⟨_, _, rfl, Heap.Ext.refl, rfl, fun p hp => by cases hp⟩
    | ok j =>
      dsimp only
      by_cases hr : ¬ (0 ≤ j.x ∧ j.x < st.1.x) ∨ ¬ (0 ≤ j.y ∧ j.y < st.1.y)
      · rw [if_pos hr, if_pos hr]
        exact ⟨_, _, rfl, Heap.Ext.refl, rfl, fun p hp => by cases hp⟩
      · rw [if_neg hr, if_neg hr]
        have e1 : h.Ext { h with boxes := h.boxes ++ [(b.view h).patchInnerBBox j] } :=
          ⟨List.prefix_append _ _, List.prefix_rfl, List.prefix_rfl⟩
        simp only [PyS.bind_def, Heap.newBox, Heap.readBox, Heap.box_last, e1.box hl]
        generalize hI : (b.view h).patchInnerBBox j = I at e1 ⊢
        by_cases hc : (!(h.box st.2).containsBox I) = true
        · rw [if_pos hc, if_pos hc]
          exact ⟨_, _, rfl, e1, rfl, fun p hp => by cases hp⟩
        · rw [if_neg hc, if_neg hc]
          simp only [PyS.bind_def, Heap.newBox, Heap.modifyBox, Heap.box_last, Heap.set_last]
          have fin : ∀ (O : Box2I) (d : Extent2I) (cb n nb : ℤ), ∃ r h', HPatch.new j ⟨h.boxes.length⟩ ⟨(h.boxes ++ [I]).length⟩ (st.1.x * j.y + j.x) w
              d cb n nb { h with boxes := (h.boxes ++ [I]) ++ [O] } = (r, h') ∧ h.Ext h' ∧
              r.map (fun p => p.view h') = PatchInfo.new j I O (st.1.x * j.y + j.x) w [d.x, d.y] cb n nb ∧
              ∀ p, r = .ok p → h.boxes.length ≤ p.innerBBox.addr ∧ p.innerBBox.addr < p.outerBBox.addr ∧ p.outerBBox.addr < h'.boxes.length ∧
                h.extents.length ≤ p.cellInnerDimensions.addr ∧ p.cellInnerDimensions.addr < h'.extents.length := by
            intro O d cb n nb
            have e2 : h.Ext { h with boxes := (h.boxes ++ [I]) ++ [O] } :=
              ⟨by rw [List.append_assoc]; exact List.prefix_append _ _, List.prefix_rfl, List.prefix_rfl⟩
            obtain ⟨r, h', a1, a2, a3, a4, a5⟩ := HPatch.new_spec (h := { h with boxes := (h.boxes ++ [I]) ++ [O] }) j (inner := ⟨h.boxes.length⟩)
              (outer := ⟨(h.boxes ++ [I]).length⟩) (st.1.x * j.y + j.x) w d cb n nb
            refine ⟨r, h', a1, e2.trans a2, ?_, ?_⟩
            · rw [a4, Heap.box_last]
              congr 1
              unfold Heap.box
              simp
            · intro p hp
              obtain ⟨c1, c2, c3, c4⟩ := a5 p hp
              rw [c1, c2, c3, a3]
              simp at c4 ⊢
              exact c4
          have hb : (b.view h).getPatchBorder = b.patchBorder := rfl
          have hk : (b.view h).kind = b.kind.view h := rfl
          rw [hb, hk]
          cases hkk : b.kind with
          | legacy =>
            simp only [HBuilderKind.view, PyS.bind_def, Heap.modifyBox, Heap.box_last, Heap.set_last]
            exact fin _ ⟨0, 0⟩ 0 0 0
          | cells d cb n nb =>
            simp only [HBuilderKind.view, PyS.bind_def, Heap.readExtent]
            exact fin _ (h.extent d) cb n nb

/-- What `getCellInfo` returns has the value that it should have, and its boxes are new objects; nothing else changes. -/
theorem HPatch.getCellInfo_spec {h : Heap Sky} (p : HPatch W) (i : IndexArg) :
    ∃ r h', p.getCellInfo i h = (r, h') ∧ h.Ext h' ∧ h'.extents = h.extents ∧ h'.lists = h.lists ∧
      r.map (fun c => c.view h') = (p.view h).getCellInfo i ∧
      ∀ c, r = .ok c → h.boxes.length ≤ c.innerBBox.addr ∧ c.innerBBox.addr < c.outerBBox.addr ∧ c.outerBBox.addr < h'.boxes.length := by
  unfold HPatch.getCellInfo PatchInfo.getCellInfo
  have hn : (p.view h).numCells = p.numCells := rfl
  have hb : (p.view h).cellBorder = p.cellBorder := rfl
  rw [hn, hb]
  simp only [PyS.bind_def, PyS.get]
  by_cases h0 : p.numCells.x = 0 ∨ p.numCells.y = 0
  · rw [if_pos h0, if_pos h0]
    exact ⟨_, _, rfl, Heap.Ext.refl, rfl, rfl, rfl, fun p hp => by cases hp⟩
  · rw [if_neg h0, if_neg h0]
    simp only [PyS.bind_def, PyS.lift]
    cases hi : (p.view h).resolveCell i with
    | error e => exact ⟨_, _, rfl, Heap.Ext.refl, rfl, rfl, rfl, fun p hp => by cases hp⟩
    | ok j =>
      dsimp only
      have eb : ∀ f : Index2D → PyM (CellInfo W), (Except.ok j >>= f) = f j := fun f => rfl
      rw [eb]
      by_cases hr : ¬ (0 ≤ j.x ∧ j.x < p.numCells.x) ∨ ¬ (0 ≤ j.y ∧ j.y < p.numCells.y)
      · rw [if_pos hr, if_pos hr]
        exact ⟨_, _, rfl, Heap.Ext.refl, rfl, rfl, rfl, fun p hp => by cases hp⟩
      · rw [if_neg hr, if_neg hr]
        simp only [PyS.bind_def, Heap.newBox, Heap.readBox, Heap.box_last, Heap.modifyBox, Heap.set_last]
        generalize (p.view h).cellInnerBBox j = I
        unfold CellInfo.new
        have e2 : ∀ O, h.Ext { h with boxes := (h.boxes ++ [I]) ++ [O] } := fun O =>
          ⟨by rw [List.append_assoc]; exact List.prefix_append _ _, List.prefix_rfl, List.prefix_rfl⟩
        by_cases hc : (!(I.grow p.cellBorder).containsBox I) = true
        · rw [if_pos hc, if_pos hc]
          exact ⟨_, _, rfl, e2 _, rfl, rfl, rfl, fun p hp => by cases hp⟩
        · rw [if_neg hc, if_neg hc]
          refine ⟨_, _, rfl, e2 _, rfl, rfl, ?_, ?_⟩
          · simp [Except.map, HCell.view, Heap.box, PatchInfo.seqCellIndex, HPatch.view]
          · intro c hc
            simp only [Except.ok.injEq] at hc
            subst hc
            simp

/-! ## Sky maps -/

theorem pyGetItem_map {α β : Type} (f : α → β) (l : List α) (i : ℤ) : pyGetItem (l.map f) i = (pyGetItem l i).map f := by
  unfold pyGetItem
  simp only [List.length_map, List.getElem?_map]
  generalize (if i < 0 then i + (l.length : ℤ) else i) = j
  split
  · rfl
  · cases l[j.toNat]? <;> rfl

/-- The value of a sky map's state. -/
def HMap.abs (s : HMap Sky K) : MapState Sky K := ⟨s.builder.view s.heap, s.cache.map (Option.map (HTract.view s.heap)), s.nextOid⟩

/-- The references of a sky map are not dangling, and different tracts have different lists. -/
structure HMap.Ok (s : HMap Sky K) : Prop where
  builder : s.builder.Live s.heap
  dims : ∀ d cb n nb, s.builder.kind = .cells d cb n nb → d ≠ s.builder.patchInnerDimensions
  tracts : ∀ (i : ℕ) (t : HTract Sky K), s.cache[i]? = some (some t) → t.Live s.heap
  lists : ∀ (i j : ℕ) (t t' : HTract Sky K) r, s.cache[i]? = some (some t) → s.cache[j]? = some (some t') → r ∈ t.vertexCoordList.refs → r ∈ t'.vertexCoordList.refs → i = j

/-- What accessing a tract may change. -/
structure HMap.Step (s s' : HMap Sky K) : Prop where
  ok : s'.Ok
  ext : s.heap.Ext s'.heap
  extents : s'.heap.extents = s.heap.extents
  kind : s'.builder.kind = s.builder.kind
  dims : s'.builder.patchInnerDimensions = s.builder.patchInnerDimensions
  state : ∀ st, s'.builder.state = some st → s.builder.state = some st ∨ s.heap.boxes.length ≤ st.2.addr
  old : ∀ (i : ℕ) (t : HTract Sky K), s.cache[i]? = some (some t) → s'.cache[i]? = some (some t)
  new : ∀ (i : ℕ) (t : HTract Sky K), s'.cache[i]? = some (some t) → s.cache[i]? = some (some t) ∨ s.heap.boxes.length ≤ t.bbox.addr

theorem HMap.Step.refl {s : HMap Sky K} (h : s.Ok) : s.Step s :=
  ⟨h, .refl, rfl, rfl, rfl, fun _ h => .inl h, fun _ _ h => h, fun _ _ h => .inl h⟩

theorem HMap.abs_congr {s s' : HMap Sky K} (h1 : s'.builder.view s'.heap = s.builder.view s.heap) (h2 : s'.cache = s.cache) (h3 : s'.nextOid = s.nextOid)
    (h4 : ∀ (i : ℕ) (t : HTract Sky K), s.cache[i]? = some (some t) → t.view s'.heap = t.view s.heap) : s'.abs = s.abs := by
  unfold HMap.abs
  rw [h1, h2, h3]
  congr 1
  apply List.map_congr_left
  intro x hx
  cases x with
  | none => rfl
  | some t =>
    obtain ⟨i, hi⟩ := List.mem_iff_getElem?.1 hx
    simp only [Option.map_some]
    rw [h4 i t hi]

theorem HMap.abs_ext {s : HMap Sky K} (ok : s.Ok) {h' : Heap Sky} (e : s.heap.Ext h') : ({ s with heap := h' } : HMap Sky K).abs = s.abs :=
  HMap.abs_congr (s' := { s with heap := h' }) (ok.builder.view e) rfl rfl fun i t ht => (ok.tracts i t ht).view e

theorem HMap.ok_ext {s : HMap Sky K} (ok : s.Ok) {h' : Heap Sky} (e : s.heap.Ext h') : ({ s with heap := h' } : HMap Sky K).Ok :=
  ⟨ok.builder.ext e, ok.dims, fun i t ht => (ok.tracts i t ht).ext e, ok.lists⟩

section maps
variable [Field K] [LinearOrder K] [FloorRing K]

/-- A new tract has the value that it should have, and its box and list are new objects; nothing changes but the state of the builder. -/
theorem HTract.new_spec {h : Heap Sky} {b : HBuilder} (l : b.Live h) (env : FloatEnv K) (ops : SkyOps Sky K) (oid : ℕ) (a : TractArgs Sky K) :
    ∃ r h', HTract.new env ops oid b a h = (r, h') ∧ h.Ext h' ∧ h'.extents = h.extents ∧
      r.map (fun x => (x.1.view h', x.2.view h')) = (TractInfo.new env ops (b.view h) a).map (fun x => (⟨oid, x.1⟩, x.2)) ∧
      ∀ t b', r = .ok (t, b') → t.Live h' ∧ b'.Live h' ∧ h.boxes.length ≤ t.bbox.addr ∧ (∀ x ∈ t.vertexCoordList.refs, h.lists.length ≤ x.addr) ∧
        b'.kind = b.kind ∧ b'.patchInnerDimensions = b.patchInnerDimensions ∧ (∀ st, b'.state = some st → h.boxes.length ≤ st.2.addr) ∧
        ((∃ l, a.shape = .vertices l) → t.vertexCoordList.refs = []) := by
  unfold HTract.new TractInfo.new HBuilder.setupPatches
  simp only [PyS.bind_def, PyS.get, PyS.lift]
  cases hm : minimumBoundingBox env ops a with
  | error e => exact ⟨_, _, rfl, Heap.Ext.refl, rfl, rfl, fun t b' hp => by cases hp⟩
  | ok mb =>
    dsimp only
    cases hsu : (b.view h).setupPatches mb.toBox2I with
    | error e =>
      refine ⟨_, _, rfl, Heap.Ext.refl, rfl, ?_, fun t b' hp => by cases hp⟩
      simp only [bind, Except.bind, hsu]
      rfl
    | ok x =>
      obtain ⟨bbox, n, b'⟩ := x
      have hb' : b' = { b.view h with state := some ⟨n, Box2I.mk' ⟨0, 0⟩ bbox.getDimensions⟩ } := by
        unfold TractBuilder.setupPatches at hsu
        obtain ⟨ax, -, hsu⟩ := bindOk hsu
        obtain ⟨ay, -, hsu⟩ := bindOk hsu
        simp only [pure, Except.pure, Except.ok.injEq, Prod.mk.injEq] at hsu
        obtain ⟨rfl, rfl, rfl⟩ := hsu
        rfl
      have e3 : ∀ x y z : Box2I, h.boxes <+: h.boxes ++ [x] ++ [y] ++ [z] := fun x y z => by
        rw [List.append_assoc, List.append_assoc]; exact List.prefix_append _ _
      have rb : ∀ x y : Box2I, (h.boxes ++ [x] ++ [y]).getD h.boxes.length Box2I.empty = x := fun x y => by simp
      simp only [Heap.newBox, Heap.readBox, Heap.box, rb, PyS.pure_def]
      have hE : ∀ f : Box2I × Index2D × TractBuilder → PyM (TractInfo Sky K × TractBuilder),
          (Except.ok mb >>= fun m => (b.view h).setupPatches m.toBox2I >>= f) = f (bbox, n, b') := fun f => by
        simp only [bind, Except.bind, hsu]
      have hV : ∀ (h' : Heap Sky) (tb : BoxRef), h'.extents = h.extents → h'.box tb = Box2I.mk' ⟨0, 0⟩ bbox.getDimensions →
          ({ b with state := some (n, tb) } : HBuilder).view h' = b' := by
        intro h' tb h1 h2
        rw [hb']
        have hk : b.kind.view h' = b.kind.view h := by
          cases hk : b.kind with
          | legacy => rfl
          | cells d cb n nb => simp only [HBuilderKind.view, Heap.extent, h1]
        unfold HBuilder.view
        simp only [hk, h2, Option.map_some, Heap.extent, h1]
      rw [hE]
      cases hsh : a.shape with
      | vertices vs =>
        simp only
        refine ⟨_, _, rfl, ⟨e3 _ _ _, List.prefix_rfl, List.prefix_rfl⟩, rfl, ?_, ?_⟩
        · simp only [Except.map, pure, Except.pure]
          refine congrArg Except.ok (Prod.ext ?_ (hV _ _ rfl (by simp [Heap.box])))
          simp [HTract.view, HVertices.view, Heap.box]
        · rintro t bb hp
          simp only [Except.ok.injEq, Prod.mk.injEq] at hp
          obtain ⟨rfl, rfl⟩ := hp
          refine ⟨⟨by simp, by simp [HVertices.refs]⟩, ⟨l.dims, l.cells, ?_⟩, by simp, by simp [HVertices.refs], rfl, rfl, ?_, fun _ => rfl⟩
          · rintro st hst; simp only [Option.some.injEq] at hst; subst hst; simp
          · rintro st hst; simp only [Option.some.injEq] at hst; subst hst; simp
      | explicit r =>
        simp only [PyS.bind_def, Heap.newList, PyS.pure_def]
        refine ⟨_, _, rfl, ⟨e3 _ _ _, List.prefix_rfl, List.prefix_append _ _⟩, rfl, ?_, ?_⟩
        · simp only [Except.map, pure, Except.pure]
          refine congrArg Except.ok (Prod.ext ?_ (hV _ _ rfl (by simp [Heap.box])))
          simp [HTract.view, HVertices.view, Heap.box, Heap.list]
        · rintro t bb hp
          simp only [Except.ok.injEq, Prod.mk.injEq] at hp
          obtain ⟨rfl, rfl⟩ := hp
          refine ⟨⟨by simp, by simp [HVertices.refs]⟩, ⟨l.dims, l.cells, ?_⟩, by simp, by simp [HVertices.refs], rfl, rfl, ?_, ?_⟩
          · rintro st hst; simp only [Option.some.injEq] at hst; subst hst; simp
          · rintro st hst; simp only [Option.some.injEq] at hst; subst hst; simp
          · rintro ⟨l, hl⟩; cases hl

/-- `getItem` of the sky map with a heap does what `getItem` of the sky map with values does. -/
structure Refines (G : ℤ → PyS (HMap Sky K) (HTract Sky K)) (V : SkyMapOps σ Sky K) (R : MapState Sky K → σ → Prop) : Prop where
  builder : ∀ ms x, R ms x → V.builder x = ms.builder
  step : ∀ k s x, s.Ok → R s.abs x → ∃ r s' x', G k s = (r, s') ∧ s.Step s' ∧ V.getItem k x = (r.map (HTract.view s'.heap), x') ∧ R s'.abs x' ∧
    ∀ t, r = .ok t → ∃ i : ℕ, s'.cache[i]? = some (some t)

theorem refines_caching (m : CachingDef Sky K) : Refines (HMap.cachingGetItem m) (CachingSkyMap.skyMapOps m) Eq := by
  refine ⟨fun ms x h => by subst h; rfl, ?_⟩
  rintro k s x ok rfl
  unfold HMap.cachingGetItem CachingSkyMap.skyMapOps CachingSkyMap.getItem
  dsimp only
  by_cases hk : k < 0 ∨ k > (m.numTracts : ℤ)
  · simp only [if_pos hk]
    exact ⟨_, _, _, rfl, .refl ok, rfl, rfl, fun t ht => by cases ht⟩
  · simp only [if_neg hk]
    have hmap : pyGetItem s.abs.cache k = (pyGetItem s.cache k).map (Option.map (HTract.view s.heap)) := pyGetItem_map _ _ _
    cases hg : pyGetItem s.cache k with
    | error e =>
      simp only [hmap, hg, Except.map]
      exact ⟨_, _, _, rfl, .refl ok, rfl, rfl, fun t ht => by cases ht⟩
    | ok o =>
      obtain ⟨i, hi, hki⟩ := (pyGetItem_iff _ _ _).1 hg
      cases o with
      | some t =>
        simp only [hmap, hg, Except.map, Option.map_some]
        refine ⟨_, _, _, rfl, .refl ok, rfl, rfl, fun t' ht => ?_⟩
        simp only [Except.ok.injEq] at ht
        subst ht
        exact ⟨i, hi⟩
      | none =>
        have hil : i < s.cache.length := (List.getElem?_eq_some_iff.1 hi).1
        have hk' : k = i := by omega
        subst hk'
        simp only [hmap, hg, Except.map, Option.map_none]
        unfold HMap.generateTract CachingSkyMap.generateTract
        cases ha : m.tractArgs i with
        | error e =>
          dsimp only
          exact ⟨_, _, _, rfl, .refl ok, rfl, rfl, fun t ht => by cases ht⟩
        | ok a =>
          dsimp only
          obtain ⟨r, h', e1, e2, e3, e4, e5⟩ := HTract.new_spec ok.builder m.env m.ops s.nextOid a
          rw [e1]
          have hb : s.abs.builder = s.builder.view s.heap := rfl
          rw [hb]
          cases r with
          | error e =>
            cases hn : TractInfo.new m.env m.ops (s.builder.view s.heap) a with
            | ok x => rw [hn] at e4; simp [Except.map] at e4
            | error e' =>
              rw [hn] at e4
              simp only [Except.map, Except.error.injEq] at e4
              subst e4
              refine ⟨_, _, _, rfl, ⟨HMap.ok_ext ok e2, e2, e3, rfl, rfl, fun _ h => .inl h, fun _ _ h => h, fun _ _ h => .inl h⟩, rfl,
                HMap.abs_ext ok e2, fun t ht => by cases ht⟩
          | ok x =>
            obtain ⟨t, b⟩ := x
            cases hn : TractInfo.new m.env m.ops (s.builder.view s.heap) a with
            | error e => rw [hn] at e4; simp [Except.map] at e4
            | ok y =>
              rw [hn] at e4
              simp only [Except.map, Except.ok.injEq, Prod.mk.injEq] at e4
              obtain ⟨ti, bi⟩ := y
              obtain ⟨f1, f2⟩ := e4
              obtain ⟨g1, g2, g3, g4, g5, g6, g7, -⟩ := e5 t b rfl
              have hset : ∀ (j : ℕ) (t' : HTract Sky K), (s.cache.set (i : ℤ).toNat (some t))[j]? = some (some t') →
                  (j = i ∧ t' = t) ∨ (j ≠ i ∧ s.cache[j]? = some (some t')) := by
                intro j t' hj
                rw [Int.toNat_natCast, List.getElem?_set] at hj
                split at hj
                · next e => subst e; simp only [Option.some.injEq] at hj; exact .inl ⟨rfl, hj.symm⟩
                · next e => exact .inr ⟨fun x => e x.symm, hj⟩
              refine ⟨_, _, ⟨bi, s.abs.cache.set (i : ℤ).toNat (some ⟨s.nextOid, ti⟩), s.nextOid + 1⟩, rfl, ⟨⟨g2, ?_, ?_, ?_⟩, e2, e3, g5, g6, fun st hst => .inr (g7 st hst), ?_, ?_⟩, ?_, ?_, ?_⟩
              · intro d cb n nb hd
                rw [g6]
                exact ok.dims d cb n nb (g5 ▸ hd)
              · intro j t' hj
                rcases hset j t' hj with ⟨-, rfl⟩ | ⟨-, h⟩
                · exact g1
                · exact (ok.tracts j t' h).ext e2
              · intro j j' t1 t2 r h1 h2 r1 r2
                rcases hset j t1 h1 with ⟨i1, i2⟩ | ⟨n1, h1'⟩ <;> rcases hset j' t2 h2 with ⟨i3, i4⟩ | ⟨n2, h2'⟩
                · rw [i1, i3]
                · have := (ok.tracts j' t2 h2').vertices r r2
                  have := g4 r (i2 ▸ r1)
                  omega
                · have := (ok.tracts j t1 h1').vertices r r1
                  have := g4 r (i4 ▸ r2)
                  omega
                · exact ok.lists j j' t1 t2 r h1' h2' r1 r2
              · intro j t' hj
                rw [Int.toNat_natCast, List.getElem?_set]
                rw [if_neg]
                · exact hj
                · rintro rfl; rw [hi] at hj; simp at hj
              · intro j t' hj
                rcases hset j t' hj with ⟨-, rfl⟩ | ⟨-, h⟩
                · exact .inr g3
                · exact .inl h
              · simp only [f1]
                rfl
              · unfold HMap.abs
                dsimp only
                rw [f2]
                congr 1
                rw [List.map_set]
                simp only [Option.map_some, f1]
                congr 1
                apply List.map_congr_left
                intro x hx
                cases x with
                | none => rfl
                | some t' =>
                  obtain ⟨j, hj⟩ := List.mem_iff_getElem?.1 hx
                  simp only [Option.map_some]
                  rw [(ok.tracts j t' hj).view e2]
              · intro t' ht
                simp only [Except.ok.injEq] at ht
                subst ht
                exact ⟨i, by rw [Int.toNat_natCast, List.getElem?_set, if_pos rfl, if_pos hil]⟩

/-- The value of a sky map that has its tracts in a list `ts`. -/
def EagerIs (ts : List (TractRef Sky K)) (ms : MapState Sky K) (b : TractBuilder) : Prop := ms.builder = b ∧ ms.cache = ts.map some

omit [Field K] [LinearOrder K] [FloorRing K] in
theorem refines_eager (ts : List (TractRef Sky K)) : Refines HMap.eagerGetItem (EagerSkyMap.skyMapOps ts) (EagerIs ts) := by
  refine ⟨fun ms x h => h.1.symm, ?_⟩
  rintro k s b ok hR
  have hmap : pyGetItem s.abs.cache k = (pyGetItem s.cache k).map (Option.map (HTract.view s.heap)) := pyGetItem_map _ _ _
  have hts : pyGetItem s.abs.cache k = (pyGetItem ts k).map some := by rw [hR.2, pyGetItem_map]
  unfold HMap.eagerGetItem EagerSkyMap.skyMapOps PyS.lift
  dsimp only
  rw [hmap] at hts
  cases hg : pyGetItem s.cache k with
  | error e =>
    rw [hg] at hts
    cases ht : pyGetItem ts k with
    | ok x => rw [ht] at hts; simp [Except.map] at hts
    | error e' =>
      rw [ht] at hts
      simp only [Except.map, Except.error.injEq] at hts
      subst hts
      exact ⟨_, _, _, rfl, .refl ok, rfl, hR, fun t ht => by cases ht⟩
  | ok o =>
    rw [hg] at hts
    obtain ⟨i, hi, -⟩ := (pyGetItem_iff _ _ _).1 hg
    cases ht : pyGetItem ts k with
    | error e => rw [ht] at hts; simp [Except.map] at hts
    | ok x =>
      rw [ht] at hts
      cases o with
      | none => simp [Except.map] at hts
      | some t =>
        simp only [Except.map, Option.map_some, Except.ok.injEq, Option.some.injEq] at hts
        subst hts
        refine ⟨_, _, _, rfl, .refl ok, rfl, hR, fun t' ht' => ?_⟩
        simp only [Except.ok.injEq] at ht'
        subst ht'
        exact ⟨i, hi⟩

end maps

/-! ## Clients -/

/-- The box belongs to the sky map: it is the tract builder's or a tract's. -/
def HMap.Internal (s : HMap Sky K) (r : BoxRef) : Prop :=
  (∃ st, s.builder.state = some st ∧ st.2 = r) ∨ ∃ (i : ℕ) (t : HTract Sky K), s.cache[i]? = some (some t) ∧ t.bbox = r

/-- The box is one of patch `n` (`inl n`) or cell `n` (`inr n`) of the client. -/
def Client.Owns (c : Client Sky K) : ℕ ⊕ ℕ → BoxRef → Prop
  | .inl n, r => ∃ p, c.patches[n]? = some p ∧ (r = p.innerBBox ∨ r = p.outerBBox)
  | .inr n, r => ∃ x, c.cells[n]? = some x ∧ (r = x.innerBBox ∨ r = x.outerBBox)

/-- What holds at any point of the life of a client. -/
structure Client.Inv (c : Client Sky K) : Prop where
  ok : c.map.Ok
  boxes : ∀ r, (r ∈ c.boxes ∨ ∃ o, c.Owns o r) → r.addr < c.map.heap.boxes.length ∧ ¬ c.map.Internal r
  sep : ∀ o o' r, c.Owns o r → c.Owns o' r → o = o'
  dims : ∀ (n : ℕ) p, c.patches[n]? = some p → p.cellInnerDimensions.addr < c.map.heap.extents.length ∧
    p.cellInnerDimensions ≠ c.map.builder.patchInnerDimensions ∧
    ∀ d cb n nb, c.map.builder.kind = .cells d cb n nb → p.cellInnerDimensions ≠ d
  cellDims : ∀ r ∈ c.cellDims, ∃ p ∈ c.patches, p.cellInnerDimensions = r
  patchDims : ∀ r ∈ c.patchDims, r = c.map.builder.patchInnerDimensions
  vertices : ∀ r ∈ c.vertices, ∃ (i : ℕ) (t : HTract Sky K), c.map.cache[i]? = some (some t) ∧ r ∈ t.vertexCoordList.refs

theorem Client.Inv.step {c : Client Sky K} (h : c.Inv) {s' : HMap Sky K} (st : c.map.Step s') : ({ c with map := s' } : Client Sky K).Inv := by
  refine ⟨st.ok, ?_, h.sep, ?_, h.cellDims, ?_, ?_⟩
  · intro r hr
    obtain ⟨h1, h2⟩ := h.boxes r hr
    refine ⟨lt_of_lt_of_le h1 st.ext.boxes_le, ?_⟩
    rintro (⟨x, hx, rfl⟩ | ⟨i, t, ht, rfl⟩)
    · rcases st.state x hx with h' | h'
      · exact h2 (.inl ⟨x, h', rfl⟩)
      · omega
    · rcases st.new i t ht with h' | h'
      · exact h2 (.inr ⟨i, t, h', rfl⟩)
      · omega
  · intro n p hp
    obtain ⟨h1, h2, h3⟩ := h.dims n p hp
    exact ⟨by rw [st.extents]; exact h1, by dsimp only; rw [st.dims]; exact h2, by dsimp only; rw [st.kind]; exact h3⟩
  · intro r hr
    dsimp only
    rw [st.dims]
    exact h.patchDims r hr
  · intro r hr
    obtain ⟨i, t, h1, h2⟩ := h.vertices r hr
    exact ⟨i, t, st.old i t h1, h2⟩

/-- More objects in the heap. -/
theorem Client.Inv.ext {c : Client Sky K} (h : c.Inv) {h' : Heap Sky} (e : c.map.heap.Ext h') :
    ({ c with map := { c.map with heap := h' } } : Client Sky K).Inv := by
  refine ⟨HMap.ok_ext h.ok e, ?_, h.sep, ?_, h.cellDims, h.patchDims, h.vertices⟩
  · intro r hr
    obtain ⟨h1, h2⟩ := h.boxes r hr
    exact ⟨lt_of_lt_of_le h1 e.boxes_le, h2⟩
  · intro n p hp
    obtain ⟨h1, h2⟩ := h.dims n p hp
    exact ⟨lt_of_lt_of_le h1 e.extents_le, h2⟩

theorem HMap.Ok.internal_lt {s : HMap Sky K} (h : s.Ok) {r : BoxRef} (hr : s.Internal r) : r.addr < s.heap.boxes.length := by
  rcases hr with ⟨x, hx, rfl⟩ | ⟨i, t, ht, rfl⟩
  · exact h.builder.state x hx
  · exact (h.tracts i t ht).bbox

theorem getElem?_snoc {α : Type} {l : List α} {a x : α} {n : ℕ} (h : (l ++ [a])[n]? = some x) : l[n]? = some x ∨ (n = l.length ∧ x = a) := by
  rw [List.getElem?_append] at h
  split at h
  · exact .inl h
  · right
    rw [List.getElem?_singleton] at h
    split at h
    · simp only [Option.some.injEq] at h; exact ⟨by omega, h.symm⟩
    · simp at h

theorem Client.Inv.addPatch {c : Client Sky K} (h : c.Inv) {h' : Heap Sky} (e : c.map.heap.Ext h') {p : HPatch (Wcs Sky K)}
    (h1 : c.map.heap.boxes.length ≤ p.innerBBox.addr) (h2 : p.innerBBox.addr < p.outerBBox.addr) (h3 : p.outerBBox.addr < h'.boxes.length)
    (h4 : c.map.heap.extents.length ≤ p.cellInnerDimensions.addr) (h5 : p.cellInnerDimensions.addr < h'.extents.length) :
    ({ c with map := { c.map with heap := h' }, patches := c.patches ++ [p] } : Client Sky K).Inv := by
  have E := h.ext e
  have key : ∀ o r, ({ c with map := { c.map with heap := h' }, patches := c.patches ++ [p] } : Client Sky K).Owns o r →
      c.Owns o r ∨ (o = .inl c.patches.length ∧ (r = p.innerBBox ∨ r = p.outerBBox)) := by
    rintro (n | n) r ⟨q, hq, hr⟩
    · rcases getElem?_snoc hq with h | ⟨rfl, rfl⟩
      · exact .inl ⟨q, h, hr⟩
      · exact .inr ⟨rfl, hr⟩
    · exact .inl ⟨q, hq, hr⟩
  have new : ∀ r, (r = p.innerBBox ∨ r = p.outerBBox) → c.map.heap.boxes.length ≤ r.addr ∧ r.addr < h'.boxes.length := by
    rintro r (rfl | rfl) <;> omega
  refine ⟨E.ok, ?_, ?_, ?_, ?_, E.patchDims, E.vertices⟩
  · rintro r (hr | ⟨o, ho⟩)
    · exact E.boxes r (.inl hr)
    · rcases key o r ho with ho | ⟨-, hr⟩
      · exact E.boxes r (.inr ⟨o, ho⟩)
      · refine ⟨(new r hr).2, fun hi => ?_⟩
        have := h.ok.internal_lt (r := r) hi
        have := (new r hr).1
        omega
  · intro o o' r ho ho'
    rcases key o r ho with ho | ⟨rfl, hr⟩ <;> rcases key o' r ho' with ho' | ⟨rfl, hr'⟩
    · exact h.sep o o' r ho ho'
    · have := (h.boxes r (.inr ⟨o, ho⟩)).1
      have := (new r hr').1
      omega
    · have := (h.boxes r (.inr ⟨o', ho'⟩)).1
      have := (new r hr).1
      omega
    · rfl
  · intro n q hq
    rcases getElem?_snoc hq with hq | ⟨rfl, rfl⟩
    · exact E.dims n q hq
    · refine ⟨h5, ?_, ?_⟩
      · intro hd
        have := h.ok.builder.dims
        dsimp only at hd
        rw [← hd] at this
        omega
      · intro d cb n nb hk hd
        have := h.ok.builder.cells d cb n nb hk
        rw [← hd] at this
        omega
  · intro r hr
    obtain ⟨q, hq, h⟩ := E.cellDims r hr
    exact ⟨q, List.mem_append_left _ hq, h⟩

theorem Client.Inv.addCell {c : Client Sky K} (h : c.Inv) {h' : Heap Sky} (e : c.map.heap.Ext h') {p : HCell (Wcs Sky K)}
    (h1 : c.map.heap.boxes.length ≤ p.innerBBox.addr) (h2 : p.innerBBox.addr < p.outerBBox.addr) (h3 : p.outerBBox.addr < h'.boxes.length) :
    ({ c with map := { c.map with heap := h' }, cells := c.cells ++ [p] } : Client Sky K).Inv := by
  have E := h.ext e
  have key : ∀ o r, ({ c with map := { c.map with heap := h' }, cells := c.cells ++ [p] } : Client Sky K).Owns o r →
      c.Owns o r ∨ (o = .inr c.cells.length ∧ (r = p.innerBBox ∨ r = p.outerBBox)) := by
    rintro (n | n) r ⟨q, hq, hr⟩
    · exact .inl ⟨q, hq, hr⟩
    · rcases getElem?_snoc hq with h | ⟨rfl, rfl⟩
      · exact .inl ⟨q, h, hr⟩
      · exact .inr ⟨rfl, hr⟩
  have new : ∀ r, (r = p.innerBBox ∨ r = p.outerBBox) → c.map.heap.boxes.length ≤ r.addr ∧ r.addr < h'.boxes.length := by
    rintro r (rfl | rfl) <;> omega
  refine ⟨E.ok, ?_, ?_, E.dims, E.cellDims, E.patchDims, E.vertices⟩
  · rintro r (hr | ⟨o, ho⟩)
    · exact E.boxes r (.inl hr)
    · rcases key o r ho with ho | ⟨-, hr⟩
      · exact E.boxes r (.inr ⟨o, ho⟩)
      · refine ⟨(new r hr).2, fun hi => ?_⟩
        have := h.ok.internal_lt (r := r) hi
        have := (new r hr).1
        omega
  · intro o o' r ho ho'
    rcases key o r ho with ho | ⟨rfl, hr⟩ <;> rcases key o' r ho' with ho' | ⟨rfl, hr'⟩
    · exact h.sep o o' r ho ho'
    · have := (h.boxes r (.inr ⟨o, ho⟩)).1
      have := (new r hr').1
      omega
    · have := (h.boxes r (.inr ⟨o', ho'⟩)).1
      have := (new r hr).1
      omega
    · rfl

/-- The client gets a reference to a box of a patch or cell, or to a new box. -/
theorem Client.Inv.addBox {c : Client Sky K} (h : c.Inv) {r : BoxRef} (hr : r.addr < c.map.heap.boxes.length) (hi : ¬ c.map.Internal r) :
    ({ c with boxes := c.boxes ++ [r] } : Client Sky K).Inv := by
  refine ⟨h.ok, ?_, h.sep, h.dims, h.cellDims, h.patchDims, h.vertices⟩
  rintro x (hx | hx)
  · rcases List.mem_append.1 hx with hx | hx
    · exact h.boxes x (.inl hx)
    · rw [List.mem_singleton] at hx; subst hx; exact ⟨hr, hi⟩
  · exact h.boxes x (.inr hx)

/-- Writes to objects of the client keep the invariant, whatever they change. -/
theorem Client.Inv.write {c : Client Sky K} (h : c.Inv) {f : Heap Sky → Heap Sky} (h1 : (f c.map.heap).boxes.length = c.map.heap.boxes.length)
    (h2 : (f c.map.heap).extents.length = c.map.heap.extents.length) (h3 : (f c.map.heap).lists.length = c.map.heap.lists.length) : (c.write f).Inv := by
  refine ⟨⟨⟨?_, ?_, ?_⟩, h.ok.dims, ?_, h.ok.lists⟩, ?_, h.sep, ?_, h.cellDims, h.patchDims, h.vertices⟩
  · exact h2.symm ▸ h.ok.builder.dims
  · exact h2.symm ▸ h.ok.builder.cells
  · exact h1.symm ▸ h.ok.builder.state
  · intro i t ht
    have := h.ok.tracts i t ht
    exact ⟨h1.symm ▸ this.bbox, h3.symm ▸ this.vertices⟩
  · intro r hr
    have := h.boxes r hr
    exact ⟨h1.symm ▸ this.1, this.2⟩
  · intro n p hp
    have := h.dims n p hp
    exact ⟨h2.symm ▸ this.1, this.2⟩

section run
variable [Field K] [LinearOrder K] [FloorRing K] {G : ℤ → PyS (HMap Sky K) (HTract Sky K)} {V : SkyMapOps σ Sky K} {R : MapState Sky K → σ → Prop}

/-- A request is answered as by a sky map with values. -/
theorem Client.ask_spec (hG : Refines G V R) {c : Client Sky K} (h : c.Inv) {x : σ} (hR : R c.map.abs x) (q : Request) :
    (c.ask G q).1 = (V.ask q x).1 ∧ (c.ask G q).2.Inv ∧ R (c.ask G q).2.map.abs (V.ask q x).2 := by
  have main : ∀ k, ∃ r s' x', G k c.map = (r, s') ∧ c.map.Step s' ∧ V.getItem k x = (r.map (HTract.view s'.heap), x') ∧ R s'.abs x' ∧
      ∀ t, r = .ok t → ∃ i : ℕ, s'.cache[i]? = some (some t) := fun k => hG.step k c.map x h.ok hR
  unfold Client.ask SkyMapOps.ask
  cases q with
  | tract k =>
    obtain ⟨r, s', x', e1, st, e2, e3, e4⟩ := main k
    simp only [e1, e2]
    cases r with
    | error e => exact ⟨rfl, h.step st, e3⟩
    | ok t => exact ⟨by simp only [Except.map, hG.builder _ _ e3]; rfl, h.step st, e3⟩
  | bbox k =>
    obtain ⟨r, s', x', e1, st, e2, e3, e4⟩ := main k
    simp only [PyS.bind, e1, e2]
    cases r with
    | error e => exact ⟨rfl, h.step st, e3⟩
    | ok t =>
      obtain ⟨i, hi⟩ := e4 t rfl
      have ext : s'.heap.Ext { s'.heap with boxes := s'.heap.boxes ++ [s'.heap.box t.bbox] } :=
        ⟨List.prefix_append _ _, List.prefix_rfl, List.prefix_rfl⟩
      simp only [HMap.onHeap, HTract.getBBox, PyS.bind_def, Heap.readBox, Heap.newBox, Heap.box_last]
      refine ⟨rfl, ?_, ?_⟩
      · refine ((h.step st).ext ext).addBox (by simp) ?_
        intro hi
        have := st.ok.internal_lt (r := ⟨s'.heap.boxes.length⟩) hi
        simp at this
      · rw [HMap.abs_ext st.ok ext]; exact e3
  | vertices k =>
    obtain ⟨r, s', x', e1, st, e2, e3, e4⟩ := main k
    simp only [e1, e2]
    cases r with
    | error e => exact ⟨rfl, h.step st, e3⟩
    | ok t =>
      obtain ⟨i, hi⟩ := e4 t rfl
      refine ⟨rfl, ?_, e3⟩
      have E := h.step st
      refine ⟨E.ok, E.boxes, E.sep, E.dims, E.cellDims, E.patchDims, ?_⟩
      intro r hr
      rcases List.mem_append.1 hr with hr | hr
      · exact E.vertices r hr
      · exact ⟨i, t, hi, hr⟩
  | patchDims k =>
    obtain ⟨r, s', x', e1, st, e2, e3, e4⟩ := main k
    simp only [e1, e2]
    cases r with
    | error e => exact ⟨rfl, h.step st, e3⟩
    | ok t =>
      refine ⟨by simp only [Except.map, hG.builder _ _ e3]; rfl, ?_, e3⟩
      have E := h.step st
      refine ⟨E.ok, E.boxes, E.sep, E.dims, E.cellDims, ?_, E.vertices⟩
      intro r hr
      rcases List.mem_append.1 hr with hr | hr
      · exact E.patchDims r hr
      · exact List.mem_singleton.1 hr
  | patch k i =>
    obtain ⟨r, s', x', e1, st, e2, e3, e4⟩ := main k
    simp only [PyS.bind, e1, e2]
    cases r with
    | error e => exact ⟨rfl, h.step st, e3⟩
    | ok t =>
      obtain ⟨r, h', a1, a2, a3, a4⟩ := HBuilder.getPatchInfo_spec st.ok.builder i t.wcs
      simp only [HMap.onHeap, a1]
      have hb : V.builder x' = s'.builder.view s'.heap := hG.builder _ _ e3
      have hans : (Except.map (HTract.view s'.heap) (Except.ok t) >>= fun t => t.info.getPatchInfo (V.builder x') i) = r.map fun p => p.view h' := by
        rw [a3, hb]; rfl
      rw [hans]
      cases r with
      | error e => exact ⟨rfl, (h.step st).ext a2, by rw [HMap.abs_ext st.ok a2]; exact e3⟩
      | ok p =>
        obtain ⟨b1, b2, b3, b4, b5⟩ := a4 p rfl
        exact ⟨rfl, (h.step st).addPatch a2 b1 b2 b3 b4 b5, by rw [HMap.abs_ext st.ok a2]; exact e3⟩

end run

/-- A write to a box of the client leaves the values of the sky map as they are. -/
theorem HMap.abs_setBox {s : HMap Sky K} {r : BoxRef} (hr : r.addr < s.heap.boxes.length) (hi : ¬ s.Internal r) (b : Box2I) :
    ({ s with heap := s.heap.setBox r b } : HMap Sky K).abs = s.abs := by
  refine HMap.abs_congr ?_ rfl rfl ?_
  · unfold HBuilder.view
    dsimp only
    cases hs : s.builder.state with
    | none => rfl
    | some st =>
      have hne : r ≠ st.2 := fun e => hi (.inl ⟨st, hs, e.symm⟩)
      simp only [Option.map_some, Heap.box_setBox _ _ _ _ hr, if_neg hne]
      rfl
  · intro i t ht
    have hne : r ≠ t.bbox := fun e => hi (.inr ⟨i, t, ht, e.symm⟩)
    unfold HTract.view
    simp only [Heap.box_setBox _ _ _ _ hr, if_neg hne]
    rfl

/-- A write to an extent of a patch leaves the values of the sky map as they are. -/
theorem HMap.abs_setExtent {s : HMap Sky K} {r : ExtentRef} (hr : r.addr < s.heap.extents.length) (h1 : r ≠ s.builder.patchInnerDimensions)
    (h2 : ∀ d cb n nb, s.builder.kind = .cells d cb n nb → r ≠ d) (e : Extent2I) :
    ({ s with heap := s.heap.setExtent r e } : HMap Sky K).abs = s.abs := by
  refine HMap.abs_congr ?_ rfl rfl fun i t ht => rfl
  unfold HBuilder.view
  dsimp only
  simp only [Heap.extent_setExtent _ _ _ _ hr, if_neg h1]
  have hk : s.builder.kind.view (s.heap.setExtent r e) = s.builder.kind.view s.heap := by
    cases hk : s.builder.kind with
    | legacy => rfl
    | cells d cb n nb => simp only [HBuilderKind.view, Heap.extent_setExtent _ _ _ _ hr, if_neg (h2 d cb n nb hk)]
  rw [hk]
  rfl

/-- A write to the extent of the tract builder. -/
theorem HMap.abs_setDims {s : HMap Sky K} (ok : s.Ok) (e : Extent2I) :
    ({ s with heap := s.heap.setExtent s.builder.patchInnerDimensions e } : HMap Sky K).abs =
      { s.abs with builder := { s.abs.builder with patchInnerDimensions := e } } := by
  unfold HMap.abs
  dsimp only
  congr 1
  unfold HBuilder.view
  dsimp only
  simp only [Heap.extent_setExtent _ _ _ _ ok.builder.dims, if_true]
  have hk : s.builder.kind.view (s.heap.setExtent s.builder.patchInnerDimensions e) = s.builder.kind.view s.heap := by
    cases hk : s.builder.kind with
    | legacy => rfl
    | cells d cb n nb => simp only [HBuilderKind.view, Heap.extent_setExtent _ _ _ _ ok.builder.dims, if_neg (ok.dims d cb n nb hk).symm]
  rw [hk]
  rfl

/-- A write to the list of tract `k`. -/
theorem HMap.abs_setList {s : HMap Sky K} (ok : s.Ok) {k : ℕ} {t : HTract Sky K} (ht : s.cache[k]? = some (some t)) {r : ListRef}
    (hr : r ∈ t.vertexCoordList.refs) (l : List Sky) :
    ({ s with heap := s.heap.setList r l } : HMap Sky K).abs =
      { s.abs with cache := s.abs.cache.set k (some { t.view s.heap with info := { (t.view s.heap).info with vertexCoordList := l } }) } := by
  have hlt := (ok.tracts k t ht).vertices r hr
  have hkl : k < s.cache.length := (List.getElem?_eq_some_iff.1 ht).1
  unfold HMap.abs
  dsimp only
  congr 1
  apply List.ext_getElem?
  intro j
  rw [List.getElem?_map, List.getElem?_set]
  by_cases hjk : k = j
  · subst hjk
    rw [if_pos rfl, ht]
    simp only [Option.map_some, List.length_map, if_pos hkl]
    have hv : t.vertexCoordList = .list r := by
      cases hv : t.vertexCoordList with
      | tuple l => rw [hv] at hr; simp [HVertices.refs] at hr
      | list r' => rw [hv] at hr; simp [HVertices.refs] at hr; rw [hr]
    unfold HTract.view
    rw [hv]
    simp only [HVertices.view, Heap.list_setList _ _ _ _ hlt, if_true]
    rfl
  · rw [if_neg hjk, List.getElem?_map]
    cases hj : s.cache[j]? with
    | none => rfl
    | some o =>
      cases o with
      | none => rfl
      | some t' =>
        simp only [Option.map_some]
        have : t'.view (s.heap.setList r l) = t'.view s.heap := by
          unfold HTract.view
          have hv : t'.vertexCoordList.view (s.heap.setList r l) = t'.vertexCoordList.view s.heap := by
            cases hv : t'.vertexCoordList with
            | tuple l => rfl
            | list r' =>
              have hne : r ≠ r' := by
                rintro rfl
                exact hjk (ok.lists k j t t' r ht hj hr (by rw [hv]; simp [HVertices.refs]))
              simp only [HVertices.view, Heap.list_setList _ _ _ _ hlt, if_neg hne]
          rw [hv]
          rfl
        rw [this]

/-- No tract has a list of vertices: all have tuples. -/
def HMap.Tuples (s : HMap Sky K) : Prop := ∀ (i : ℕ) (t : HTract Sky K), s.cache[i]? = some (some t) → t.vertexCoordList.refs = []

/-- Actions that cannot harm: all but assigning to what `getPatchInnerDimensions` and `getVertexList` of tracts have returned. -/
def Action.Harmless : Action Sky → Prop
  | .writePatchDims _ _ => False
  | .writeVertices _ _ => False
  | _ => True

/-- Actions that cannot harm if the vertices of the tracts are tuples: all but assigning to what `getPatchInnerDimensions` has returned. -/
def Action.HarmlessTuples : Action Sky → Prop
  | .writePatchDims _ _ => False
  | _ => True

section run
variable [Field K] [LinearOrder K] [FloorRing K] {G : ℤ → PyS (HMap Sky K) (HTract Sky K)} {V : SkyMapOps σ Sky K} {R : MapState Sky K → σ → Prop}

/-- The state of a sky map with values after requests. -/
def SkyMapOps.afterRequests (V : SkyMapOps σ Sky K) : List Request → σ → σ
  | [], s => s
  | q :: l, s => V.afterRequests l (V.ask q s).2

omit [Field K] [LinearOrder K] [FloorRing K] in
/-- An action that is no request keeps the invariant, and keeps the values of the sky map unless it is harmful. -/
theorem Client.act_spec {c : Client Sky K} (h : c.Inv) {a : Action Sky} (ha : a.request? = none) :
    (c.act G a).Inv ∧ (c.act G a).map.cache = c.map.cache ∧
      (a.Harmless ∨ (a.HarmlessTuples ∧ c.map.Tuples) → (c.act G a).map.abs = c.map.abs) := by
  have box : ∀ r, (∃ o, c.Owns o r) → ({ c with boxes := c.boxes ++ [r] } : Client Sky K).Inv := fun r hr =>
    h.addBox (h.boxes r (.inr hr)).1 (h.boxes r (.inr hr)).2
  unfold Client.act
  cases a with
  | ask q => simp [Action.request?] at ha
  | patchInnerBBox n =>
    dsimp only
    cases hp : c.patches[n]? with
    | none => exact ⟨h, rfl, fun _ => rfl⟩
    | some p => exact ⟨box _ ⟨.inl n, p, hp, .inl rfl⟩, rfl, fun _ => rfl⟩
  | patchOuterBBox n =>
    dsimp only
    cases hp : c.patches[n]? with
    | none => exact ⟨h, rfl, fun _ => rfl⟩
    | some p => exact ⟨box _ ⟨.inl n, p, hp, .inr rfl⟩, rfl, fun _ => rfl⟩
  | patchCellDims n =>
    dsimp only
    cases hp : c.patches[n]? with
    | none => exact ⟨h, rfl, fun _ => rfl⟩
    | some p =>
      refine ⟨⟨h.ok, h.boxes, h.sep, h.dims, ?_, h.patchDims, h.vertices⟩, rfl, fun _ => rfl⟩
      intro r hr
      rcases List.mem_append.1 hr with hr | hr
      · exact h.cellDims r hr
      · exact ⟨p, List.mem_of_getElem? hp, (List.mem_singleton.1 hr).symm⟩
  | cell n i =>
    dsimp only
    cases hp : c.patches[n]? with
    | none => exact ⟨h, rfl, fun _ => rfl⟩
    | some p =>
      obtain ⟨r, h', a1, a2, -, -, a3, a4⟩ := HPatch.getCellInfo_spec (h := c.map.heap) p i
      simp only [HMap.onHeap, a1]
      cases r with
      | error e => exact ⟨h.ext a2, rfl, fun _ => HMap.abs_ext h.ok a2⟩
      | ok x =>
        obtain ⟨b1, b2, b3⟩ := a4 x rfl
        exact ⟨h.addCell a2 b1 b2 b3, rfl, fun _ => HMap.abs_ext h.ok a2⟩
  | cellInnerBBox n =>
    dsimp only
    cases hp : c.cells[n]? with
    | none => exact ⟨h, rfl, fun _ => rfl⟩
    | some p => exact ⟨box _ ⟨.inr n, p, hp, .inl rfl⟩, rfl, fun _ => rfl⟩
  | cellOuterBBox n =>
    dsimp only
    cases hp : c.cells[n]? with
    | none => exact ⟨h, rfl, fun _ => rfl⟩
    | some p => exact ⟨box _ ⟨.inr n, p, hp, .inr rfl⟩, rfl, fun _ => rfl⟩
  | writeBox n b =>
    dsimp only
    cases hp : c.boxes[n]? with
    | none => exact ⟨h, rfl, fun _ => rfl⟩
    | some r =>
      have := h.boxes r (.inl (List.mem_of_getElem? hp))
      exact ⟨h.write (by simp [Heap.setBox]) rfl rfl, rfl, fun _ => HMap.abs_setBox this.1 this.2 b⟩
  | writeCellDims n e =>
    dsimp only
    cases hp : c.cellDims[n]? with
    | none => exact ⟨h, rfl, fun _ => rfl⟩
    | some r =>
      obtain ⟨p, hq, rfl⟩ := h.cellDims r (List.mem_of_getElem? hp)
      obtain ⟨j, hj⟩ := List.mem_iff_getElem?.1 hq
      obtain ⟨d1, d2, d3⟩ := h.dims j p hj
      exact ⟨h.write rfl (by simp [Heap.setExtent]) rfl, rfl, fun _ => HMap.abs_setExtent d1 d2 d3 e⟩
  | writePatchDims n e =>
    dsimp only
    cases hp : c.patchDims[n]? with
    | none => exact ⟨h, rfl, fun _ => rfl⟩
    | some r => exact ⟨h.write rfl (by simp [Heap.setExtent]) rfl, rfl, by simp [Action.Harmless, Action.HarmlessTuples]⟩
  | writeVertices n l =>
    dsimp only
    cases hp : c.vertices[n]? with
    | none => exact ⟨h, rfl, fun _ => rfl⟩
    | some r =>
      refine ⟨h.write rfl rfl (by simp [Heap.setList]), rfl, ?_⟩
      rintro (h' | ⟨-, h'⟩)
      · exact h'.elim
      · obtain ⟨i, t, ht, hr⟩ := h.vertices r (List.mem_of_getElem? hp)
        rw [h' i t ht] at hr
        simp at hr

omit [Field K] [LinearOrder K] [FloorRing K] in
/-- After a request, the tracts are those that `skyMap[k]` leaves. -/
theorem Client.ask_cache (c : Client Sky K) (q : Request) : ∃ k, (c.ask G q).2.map.cache = (G k c.map).2.cache := by
  unfold Client.ask
  cases q with
  | tract k => refine ⟨k, ?_⟩; dsimp only; rcases hG : G k c.map with ⟨e | t, s⟩ <;> rfl
  | bbox k => refine ⟨k, ?_⟩; dsimp only [PyS.bind]; rcases hG : G k c.map with ⟨e | t, s⟩ <;> rfl
  | vertices k => refine ⟨k, ?_⟩; dsimp only; rcases hG : G k c.map with ⟨e | t, s⟩ <;> rfl
  | patchDims k => refine ⟨k, ?_⟩; dsimp only; rcases hG : G k c.map with ⟨e | t, s⟩ <;> rfl
  | patch k i =>
    refine ⟨k, ?_⟩
    dsimp only [PyS.bind]
    rcases hG : G k c.map with ⟨e | t, s⟩
    · rfl
    · dsimp only [HMap.onHeap]
      rcases s.builder.getPatchInfo i t.wcs s.heap with ⟨e | p, h'⟩ <;> rfl

/-- A run of a client that cannot harm. -/
theorem Client.run_spec (hG : Refines G V R) : ∀ (acts : List (Action Sky)) {c : Client Sky K} (_ : c.Inv) {x : σ} (_ : R c.map.abs x)
    (_ : (∀ a ∈ acts, a.Harmless) ∨ ((∀ a ∈ acts, a.HarmlessTuples) ∧ c.map.Tuples ∧ ∀ k s, HMap.Ok s → HMap.Tuples s → HMap.Tuples (G k s).2)),
    (Client.run G acts c).1 = V.answers (acts.filterMap Action.request?) x ∧ (Client.run G acts c).2.Inv ∧
      R (Client.run G acts c).2.map.abs (V.afterRequests (acts.filterMap Action.request?) x)
  | [], c, h, x, hR, _ => ⟨rfl, h, hR⟩
  | a :: l, c, h, x, hR, hh => by
    by_cases ha : ∃ q, a = .ask q
    · obtain ⟨q, rfl⟩ := ha
      obtain ⟨e1, e2, e3⟩ := Client.ask_spec hG h hR q
      have ih := Client.run_spec hG l e2 e3 (by
        rcases hh with hh | ⟨h1, h2, h3⟩
        · exact .inl fun a ha => hh a (List.mem_cons_of_mem _ ha)
        · refine .inr ⟨fun a ha => h1 a (List.mem_cons_of_mem _ ha), ?_, h3⟩
          obtain ⟨k, hk⟩ := Client.ask_cache (G := G) c q
          intro i t ht
          rw [hk] at ht
          exact h3 k c.map h.ok h2 i t ht)
      refine ⟨?_, ih.2⟩
      show (c.ask G q).1 :: (Client.run G l (c.ask G q).2).1 = (V.ask q x).1 :: V.answers (l.filterMap Action.request?) (V.ask q x).2
      rw [e1, ih.1]
    · have hq : a.request? = none := by
        cases a <;> first | rfl | exact absurd ⟨_, rfl⟩ ha
      obtain ⟨e1, e2, e3⟩ := Client.act_spec (G := G) h hq
      have e4 : (c.act G a).map.abs = c.map.abs := by
        apply e3
        rcases hh with hh | ⟨h1, h2, h3⟩
        · exact .inl (hh a List.mem_cons_self)
        · exact .inr ⟨h1 a List.mem_cons_self, h2⟩
      have ih := Client.run_spec hG l e1 (e4.symm ▸ hR) (by
        rcases hh with hh | ⟨h1, h2, h3⟩
        · exact .inl fun a ha => hh a (List.mem_cons_of_mem _ ha)
        · refine .inr ⟨fun a ha => h1 a (List.mem_cons_of_mem _ ha), ?_, h3⟩
          intro i t ht
          rw [e2] at ht
          exact h2 i t ht)
      have hrun : Client.run G (a :: l) c = Client.run G l (c.act G a) := by
        cases a <;> first | rfl | exact absurd ⟨_, rfl⟩ ha
      rw [hrun, List.filterMap_cons_none hq]
      exact ih

end run

/-! ## New sky maps -/

section new
variable [Field K] [LinearOrder K] [FloorRing K]

omit [Field K] [LinearOrder K] [FloorRing K] in
theorem HMap.start_spec (b : TractBuilder) : (HMap.start b : HMap Sky K).Ok ∧ (HMap.start b : HMap Sky K).abs = ⟨b, [], 0⟩ ∧
    (HMap.start b : HMap Sky K).cache = [] := by
  obtain ⟨kind, d, pb, st⟩ := b
  cases kind with
  | legacy =>
    cases st with
    | none =>
      refine ⟨⟨⟨?_, ?_, ?_⟩, ?_, ?_, ?_⟩, rfl, rfl⟩
      all_goals simp [HMap.start, HBuilder.new, PyS.bind_def, PyS.pure_def, Heap.newExtent]
    | some st =>
      refine ⟨⟨⟨?_, ?_, ?_⟩, ?_, ?_, ?_⟩, rfl, rfl⟩
      all_goals simp [HMap.start, HBuilder.new, PyS.bind_def, PyS.pure_def, Heap.newExtent, Heap.newBox]
  | cells c =>
    cases st with
    | none =>
      refine ⟨⟨⟨?_, ?_, ?_⟩, ?_, ?_, ?_⟩, rfl, rfl⟩
      all_goals simp [HMap.start, HBuilder.new, PyS.bind_def, PyS.pure_def, Heap.newExtent]
      all_goals rintro _ _ _ _ rfl - - -; simp
    | some st =>
      refine ⟨⟨⟨?_, ?_, ?_⟩, ?_, ?_, ?_⟩, rfl, rfl⟩
      all_goals simp [HMap.start, HBuilder.new, PyS.bind_def, PyS.pure_def, Heap.newExtent, Heap.newBox]
      all_goals rintro _ _ _ _ rfl - - -; simp

omit [Field K] [LinearOrder K] [FloorRing K] in
theorem Client.start_inv {s : HMap Sky K} (h : s.Ok) : ({ map := s } : Client Sky K).Inv := by
  refine ⟨h, ?_, ?_, ?_, ?_, ?_, ?_⟩
  · rintro r (hr | ⟨n | n, q, hq, -⟩)
    · simp at hr
    · simp at hq
    · simp at hq
  · rintro (n | n) o' r ⟨q, hq, -⟩ <;> simp at hq
  · intro n p hp; simp at hp
  · intro r hr; simp at hr
  · intro r hr; simp at hr
  · intro r hr; simp at hr

omit [Field K] [LinearOrder K] [FloorRing K] in
theorem HMap.init_spec (m : CachingDef Sky K) (b : TractBuilder) :
    (HMap.init m b).Ok ∧ (HMap.init m b).abs = CachingSkyMap.init m b ∧ (HMap.init m b).Tuples := by
  obtain ⟨h1, h2, -⟩ := HMap.start_spec (Sky := Sky) (K := K) b
  have hno : ∀ (i : ℕ) (t : HTract Sky K), (HMap.init m b).cache[i]? = some (some t) → False := by
    intro i t ht
    have := List.mem_of_getElem? ht
    have := List.eq_of_mem_replicate this
    simp at this
  refine ⟨⟨h1.builder, h1.dims, fun i t ht => (hno i t ht).elim, fun i j t t' r ht => (hno i t ht).elim⟩, ?_, fun i t ht => (hno i t ht).elim⟩
  have hb : (HMap.start b : HMap Sky K).abs.builder = b := by rw [h2]
  have ho : (HMap.start b : HMap Sky K).abs.nextOid = 0 := by rw [h2]
  have hb' : ((HMap.start b : HMap Sky K).builder).view (HMap.start b : HMap Sky K).heap = b := hb
  have ho' : (HMap.start b : HMap Sky K).nextOid = 0 := ho
  unfold HMap.abs HMap.init CachingSkyMap.init
  dsimp only
  rw [hb', ho']
  simp

/-- The tracts of a sky map keep tuples of vertices if they are made from vertices. -/
theorem caching_tuples {m : CachingDef Sky K} (hm : ∀ k a, m.tractArgs k = .ok a → ∃ l, a.shape = .vertices l) (k : ℤ) (s : HMap Sky K) (ok : s.Ok)
    (h : s.Tuples) : (HMap.cachingGetItem m k s).2.Tuples := by
  unfold HMap.cachingGetItem
  split
  · exact h
  · cases hg : pyGetItem s.cache k with
    | error e => exact h
    | ok o =>
      cases o with
      | some t => exact h
      | none =>
        dsimp only
        unfold HMap.generateTract
        cases ha : m.tractArgs k with
        | error e => exact h
        | ok a =>
          dsimp only
          obtain ⟨r, h', e1, e2, e3, e4, e5⟩ := HTract.new_spec ok.builder m.env m.ops s.nextOid a
          rw [e1]
          cases r with
          | error e => exact h
          | ok x =>
            obtain ⟨t, b⟩ := x
            have := (e5 t b rfl).2.2.2.2.2.2.2 (hm k a ha)
            intro j t' hj
            dsimp only at hj
            rw [List.getElem?_set] at hj
            split at hj
            · split at hj
              · simp only [Option.some.injEq] at hj; subst hj; exact this
              · simp at hj
            · exact h j t' hj

/-- The loop that makes all tracts. -/
theorem HMap.buildAll_spec (env : FloatEnv K) (ops : SkyOps Sky K) : ∀ (l : List (TractArgs Sky K)) {s : HMap Sky K} (_ : s.Ok)
    {ts : List (TractRef Sky K)} {b : TractBuilder} (_ : EagerSkyMap.buildAll env ops l s.nextOid (s.builder.view s.heap) = .ok (ts, b)),
    ∃ s', HMap.buildAll env ops l s = (.ok (), s') ∧ s'.Ok ∧ s'.abs.builder = b ∧ s'.abs.cache = s.abs.cache ++ ts.map some ∧
      ((∀ a ∈ l, ∃ vs, a.shape = .vertices vs) → s.Tuples → s'.Tuples)
  | [], s, ok, ts, b, h => by
    simp only [EagerSkyMap.buildAll, Except.ok.injEq, Prod.mk.injEq] at h
    obtain ⟨rfl, rfl⟩ := h
    exact ⟨s, rfl, ok, rfl, by simp, fun _ h => h⟩
  | a :: l, s, ok, ts, b, h => by
    unfold EagerSkyMap.buildAll at h
    obtain ⟨⟨ti, b'⟩, hn, h⟩ := bindOk h
    obtain ⟨⟨ts', b''⟩, hl, h⟩ := bindOk h
    simp only [pure, Except.pure, Except.ok.injEq, Prod.mk.injEq] at h
    obtain ⟨rfl, rfl⟩ := h
    obtain ⟨r, h', e1, e2, e3, e4, e5⟩ := HTract.new_spec ok.builder env ops s.nextOid a
    rw [hn] at e4
    cases r with
    | error e => simp [Except.map] at e4
    | ok x =>
      obtain ⟨t, hb⟩ := x
      simp only [Except.map, Except.ok.injEq, Prod.mk.injEq] at e4
      obtain ⟨f1, f2⟩ := e4
      obtain ⟨g1, g2, g3, g4, g5, g6, g7, g8⟩ := e5 t hb rfl
      have ok' : ({ heap := h', builder := hb, cache := s.cache ++ [some t], nextOid := s.nextOid + 1 } : HMap Sky K).Ok := by
        refine ⟨g2, ?_, ?_, ?_⟩
        · intro d cb n nb hd
          dsimp only at hd ⊢
          rw [g6]
          exact ok.dims d cb n nb (g5 ▸ hd)
        · intro i t' ht
          rcases getElem?_snoc ht with ht | ⟨-, ht⟩
          · exact (ok.tracts i t' ht).ext e2
          · simp only [Option.some.injEq] at ht; subst ht; exact g1
        · intro i j t1 t2 r h1 h2 r1 r2
          rcases getElem?_snoc h1 with h1 | ⟨i1, h1⟩ <;> rcases getElem?_snoc h2 with h2 | ⟨i2, h2⟩
          · exact ok.lists i j t1 t2 r h1 h2 r1 r2
          · simp only [Option.some.injEq] at h2
            have := (ok.tracts i t1 h1).vertices r r1
            have := g4 r (h2 ▸ r2)
            omega
          · simp only [Option.some.injEq] at h1
            have := (ok.tracts j t2 h2).vertices r r2
            have := g4 r (h1 ▸ r1)
            omega
          · omega
      rw [← f2] at hl
      obtain ⟨s', a1, a2, a3, a4, a5⟩ := HMap.buildAll_spec env ops l ok' hl
      refine ⟨s', ?_, a2, a3, ?_, ?_⟩
      · unfold HMap.buildAll
        rw [e1]
        exact a1
      · rw [a4]
        unfold HMap.abs
        dsimp only
        simp only [List.map_append, List.map_cons, List.map_nil, Option.map_some, f1]
        rw [List.append_assoc]
        congr 1
        apply List.map_congr_left
        intro x hx
        cases x with
        | none => rfl
        | some t' =>
          obtain ⟨j, hj⟩ := List.mem_iff_getElem?.1 hx
          simp only [Option.map_some]
          rw [(ok.tracts j t' hj).view e2]
      · intro hv ht
        refine a5 (fun a ha => hv a (List.mem_cons_of_mem _ ha)) ?_
        intro i t' hi
        rcases getElem?_snoc hi with hi | ⟨-, hi⟩
        · exact ht i t' hi
        · simp only [Option.some.injEq] at hi; subst hi; exact g8 (hv a List.mem_cons_self)

/-! ## C81 -/

/-- C81: a sky map that makes its tracts when they are asked for answers all requests of a client as if the client changed nothing, whatever it assigns
to the boxes that it gets from tracts, patches and cells and to the cell dimensions that it gets from patches. -/
theorem C81_caching (m : CachingDef Sky K) (b₀ : TractBuilder) (acts : List (Action Sky)) (h : ∀ a ∈ acts, a.Harmless) :
    (Client.run (HMap.cachingGetItem m) acts { map := HMap.init m b₀ }).1 =
      (CachingSkyMap.skyMapOps m).answers (acts.filterMap Action.request?) (CachingSkyMap.init m b₀) := by
  obtain ⟨h1, h2, -⟩ := HMap.init_spec m b₀
  exact (Client.run_spec (refines_caching m) acts (Client.start_inv h1) h2 (.inl h)).1

/-- C81: if the tracts are given by vertices, then also whatever it assigns to what `getVertexList` returns (it is a tuple). -/
theorem C81_caching_tuples (m : CachingDef Sky K) (hm : ∀ k a, m.tractArgs k = .ok a → ∃ l, a.shape = .vertices l) (b₀ : TractBuilder)
    (acts : List (Action Sky)) (h : ∀ a ∈ acts, a.HarmlessTuples) :
    (Client.run (HMap.cachingGetItem m) acts { map := HMap.init m b₀ }).1 =
      (CachingSkyMap.skyMapOps m).answers (acts.filterMap Action.request?) (CachingSkyMap.init m b₀) := by
  obtain ⟨h1, h2, h3⟩ := HMap.init_spec m b₀
  exact (Client.run_spec (refines_caching m) acts (Client.start_inv h1) h2 (.inr ⟨h, h3, caching_tuples hm⟩)).1

/-- C81: the same for a sky map that has all its tracts in a list. -/
theorem C81_eager {env : FloatEnv K} {ops : SkyOps Sky K} {l : List (TractArgs Sky K)} (hl : ∀ a ∈ l, ∃ vs, a.shape = .vertices vs)
    {b₀ b : TractBuilder} {ts : List (TractRef Sky K)} (hb : EagerSkyMap.buildAll env ops l 0 b₀ = .ok (ts, b)) :
    ∃ s, HMap.buildAll env ops l (HMap.start b₀) = (.ok (), s) ∧ ∀ acts : List (Action Sky), (∀ a ∈ acts, a.HarmlessTuples) →
      (Client.run HMap.eagerGetItem acts { map := s }).1 = (EagerSkyMap.skyMapOps ts).answers (acts.filterMap Action.request?) b := by
  obtain ⟨h1, h2, h3⟩ := HMap.start_spec (Sky := Sky) (K := K) b₀
  have e1 : (HMap.start b₀ : HMap Sky K).nextOid = 0 := congrArg MapState.nextOid h2
  have e2 : (HMap.start b₀ : HMap Sky K).builder.view (HMap.start b₀ : HMap Sky K).heap = b₀ := congrArg MapState.builder h2
  obtain ⟨s, a1, a2, a3, a4, a5⟩ := HMap.buildAll_spec env ops l h1 (ts := ts) (b := b) (by rw [e1, e2]; exact hb)
  have ht : s.Tuples := a5 hl (by intro i t hi; rw [h3] at hi; simp at hi)
  have hR : EagerIs ts s.abs b := ⟨a3, by rw [a4, h2]; rfl⟩
  refine ⟨s, a1, fun acts h => (Client.run_spec (refines_eager ts) acts (Client.start_inv a2) hR (.inr ⟨h, ht, ?_⟩)).1⟩
  intro k s _ hs
  unfold HMap.eagerGetItem
  rcases pyGetItem s.cache k with e | (_ | t) <;> exact hs

/-- C81: a client that assigns to the extent that `getPatchInnerDimensions` of any tract returned changes the tract builder of the whole sky map: all
later answers, for all tracts, are those of a sky map with the changed dimensions. -/
theorem C81_patch_dims (m : CachingDef Sky K) (b₀ : TractBuilder) (acts : List (Action Sky)) (h : ∀ a ∈ acts, a.Harmless) {n : ℕ} {r : ExtentRef}
    (hn : (Client.run (HMap.cachingGetItem m) acts { map := HMap.init m b₀ }).2.patchDims[n]? = some r) (e : Extent2I)
    (later : List (Action Sky)) (h' : ∀ a ∈ later, a.Harmless) :
    (Client.run (HMap.cachingGetItem m) later
      ((Client.run (HMap.cachingGetItem m) acts { map := HMap.init m b₀ }).2.act (HMap.cachingGetItem m) (.writePatchDims n e))).1 =
    (CachingSkyMap.skyMapOps m).answers (later.filterMap Action.request?)
      { (CachingSkyMap.skyMapOps m).afterRequests (acts.filterMap Action.request?) (CachingSkyMap.init m b₀) with
        builder := { ((CachingSkyMap.skyMapOps m).afterRequests (acts.filterMap Action.request?) (CachingSkyMap.init m b₀)).builder with
          patchInnerDimensions := e } } := by
  obtain ⟨h1, h2, -⟩ := HMap.init_spec m b₀
  obtain ⟨-, e1, e2⟩ := Client.run_spec (refines_caching m) acts (Client.start_inv h1) h2 (.inl h)
  generalize (Client.run (HMap.cachingGetItem m) acts { map := HMap.init m b₀ }).2 = c at hn e1 e2
  obtain ⟨a1, a2, -⟩ := Client.act_spec (G := HMap.cachingGetItem m) e1 (a := .writePatchDims n e) rfl
  refine (Client.run_spec (refines_caching m) later a1 ?_ (.inl h')).1
  rw [← e2]
  have hr := e1.patchDims r (List.mem_of_getElem? hn)
  unfold Client.act
  simp only [hn]
  subst hr
  exact HMap.abs_setDims e1.ok e

/-- C81: a client that assigns to the list that `getVertexList` of an explicitly placed tract returned changes the vertices of this tract, for
everybody, and nothing else. -/
theorem C81_vertices (m : CachingDef Sky K) (b₀ : TractBuilder) (acts : List (Action Sky)) (h : ∀ a ∈ acts, a.Harmless) {n k : ℕ} {r : ListRef}
    (hn : (Client.run (HMap.cachingGetItem m) acts { map := HMap.init m b₀ }).2.vertices[n]? = some r) {t : HTract Sky K}
    (hk : (Client.run (HMap.cachingGetItem m) acts { map := HMap.init m b₀ }).2.map.cache[k]? = some (some t)) (hr : t.getVertexList = .list r)
    (vs : List Sky) (later : List (Action Sky)) (h' : ∀ a ∈ later, a.Harmless) :
    ∃ v : TractRef Sky K,
      ((CachingSkyMap.skyMapOps m).afterRequests (acts.filterMap Action.request?) (CachingSkyMap.init m b₀)).cache[k]? = some (some v) ∧
      (Client.run (HMap.cachingGetItem m) later
        ((Client.run (HMap.cachingGetItem m) acts { map := HMap.init m b₀ }).2.act (HMap.cachingGetItem m) (.writeVertices n vs))).1 =
      (CachingSkyMap.skyMapOps m).answers (later.filterMap Action.request?)
        { (CachingSkyMap.skyMapOps m).afterRequests (acts.filterMap Action.request?) (CachingSkyMap.init m b₀) with
          cache := ((CachingSkyMap.skyMapOps m).afterRequests (acts.filterMap Action.request?) (CachingSkyMap.init m b₀)).cache.set k
            (some { v with info := { v.info with vertexCoordList := vs } }) } := by
  obtain ⟨h1, h2, -⟩ := HMap.init_spec m b₀
  obtain ⟨-, e1, e2⟩ := Client.run_spec (refines_caching m) acts (Client.start_inv h1) h2 (.inl h)
  generalize (Client.run (HMap.cachingGetItem m) acts { map := HMap.init m b₀ }).2 = c at hn hk e1 e2
  refine ⟨t.view c.map.heap, ?_, ?_⟩
  · rw [← e2]
    unfold HMap.abs
    dsimp only
    rw [List.getElem?_map, hk]
    rfl
  · obtain ⟨a1, a2, -⟩ := Client.act_spec (G := HMap.cachingGetItem m) e1 (a := .writeVertices n vs) rfl
    refine (Client.run_spec (refines_caching m) later a1 ?_ (.inl h')).1
    rw [← e2]
    unfold Client.act
    simp only [hn]
    have hr' : r ∈ t.vertexCoordList.refs := by
      have : t.vertexCoordList = .list r := hr
      rw [this]; simp [HVertices.refs]
    exact HMap.abs_setList e1.ok hk hr' vs

/-- The invariant holds at any point of the life of a client, harmful or not. -/
theorem Client.run_inv {G : ℤ → PyS (HMap Sky K) (HTract Sky K)} {V : SkyMapOps (MapState Sky K) Sky K} (hG : Refines G V Eq) :
    ∀ (acts : List (Action Sky)) {c : Client Sky K}, c.Inv → (Client.run G acts c).2.Inv
  | [], _, h => h
  | a :: l, c, h => by
    by_cases ha : ∃ q, a = .ask q
    · obtain ⟨q, rfl⟩ := ha
      exact Client.run_inv hG l (Client.ask_spec hG h rfl q).2.1
    · have hq : a.request? = none := by
        cases a <;> first | rfl | exact absurd ⟨_, rfl⟩ ha
      have hrun : Client.run G (a :: l) c = Client.run G l (c.act G a) := by
        cases a <;> first | rfl | exact absurd ⟨_, rfl⟩ ha
      rw [hrun]
      exact Client.run_inv hG l (Client.act_spec h hq).1

/-- The sky map with values that has the tracts of the state in a list. -/
def listOps : SkyMapOps (MapState Sky K) Sky K where
  len := 0
  getItem k ms := match pyGetItem ms.cache k with
    | .error e => (.error e, ms)
    | .ok none => (.error .IndexError, ms)
    | .ok (some t) => (.ok t, ms)
  builder := MapState.builder

omit [Field K] [LinearOrder K] [FloorRing K] in
theorem refines_list : Refines (HMap.eagerGetItem (Sky := Sky) (K := K)) listOps Eq := by
  refine ⟨fun ms x h => by subst h; rfl, ?_⟩
  rintro k s x ok rfl
  have hmap : pyGetItem s.abs.cache k = (pyGetItem s.cache k).map (Option.map (HTract.view s.heap)) := pyGetItem_map _ _ _
  unfold HMap.eagerGetItem listOps
  dsimp only
  rw [hmap]
  cases hg : pyGetItem s.cache k with
  | error e => exact ⟨_, _, _, rfl, .refl ok, rfl, rfl, fun t ht => by cases ht⟩
  | ok o =>
    obtain ⟨i, hi, -⟩ := (pyGetItem_iff _ _ _).1 hg
    cases o with
    | none => exact ⟨_, _, _, rfl, .refl ok, rfl, rfl, fun t ht => by cases ht⟩
    | some t =>
      refine ⟨_, _, _, rfl, .refl ok, rfl, rfl, fun t' ht' => ?_⟩
      simp only [Except.ok.injEq] at ht'
      subst ht'
      exact ⟨i, hi⟩

omit [Field K] [LinearOrder K] [FloorRing K] in
theorem Client.objects {G : ℤ → PyS (HMap Sky K) (HTract Sky K)} {c : Client Sky K} (h : c.Inv) {n : ℕ} {r : BoxRef} (hn : c.boxes[n]? = some r)
    {o : ℕ ⊕ ℕ} (ho : c.Owns o r) (b : Box2I) :
    (∀ (j : ℕ) p, c.patches[j]? = some p → .inl j ≠ o → p.view (c.act G (.writeBox n b)).map.heap = p.view c.map.heap) ∧
    ∀ (j : ℕ) x, c.cells[j]? = some x → .inr j ≠ o → x.view (c.act G (.writeBox n b)).map.heap = x.view c.map.heap := by
  have hr := (h.boxes r (.inr ⟨o, ho⟩)).1
  have hh : (c.act G (.writeBox n b)).map.heap = c.map.heap.setBox r b := by
    unfold Client.act
    simp only [hn]
    rfl
  rw [hh]
  have ne : ∀ o' r', c.Owns o' r' → o' ≠ o → r ≠ r' := by
    rintro o' r' ho' hne rfl
    exact hne (h.sep o' o r ho' ho)
  constructor
  · intro j p hp hj
    unfold HPatch.view
    simp only [Heap.box_setBox _ _ _ _ hr, if_neg (ne (.inl j) p.innerBBox ⟨p, hp, .inl rfl⟩ hj), if_neg (ne (.inl j) p.outerBBox ⟨p, hp, .inr rfl⟩ hj)]
    rfl
  · intro j p hp hj
    unfold HCell.view
    simp only [Heap.box_setBox _ _ _ _ hr, if_neg (ne (.inr j) p.innerBBox ⟨p, hp, .inl rfl⟩ hj), if_neg (ne (.inr j) p.outerBBox ⟨p, hp, .inr rfl⟩ hj)]

/-- C81: whatever a client does, assigning to a box of one of its patches (`o = inl k`) or cells (`o = inr k`) changes no other patch or cell that it
holds, even of the same index. -/
theorem C81_objects_caching (m : CachingDef Sky K) (b₀ : TractBuilder) (acts : List (Action Sky)) {c : Client Sky K}
    (hc : (Client.run (HMap.cachingGetItem m) acts { map := HMap.init m b₀ }).2 = c) {n : ℕ} {r : BoxRef} (hn : c.boxes[n]? = some r)
    {o : ℕ ⊕ ℕ} (ho : c.Owns o r) (b : Box2I) :
    (∀ (j : ℕ) p, c.patches[j]? = some p → .inl j ≠ o → p.view (c.act (HMap.cachingGetItem m) (.writeBox n b)).map.heap = p.view c.map.heap) ∧
    ∀ (j : ℕ) x, c.cells[j]? = some x → .inr j ≠ o → x.view (c.act (HMap.cachingGetItem m) (.writeBox n b)).map.heap = x.view c.map.heap := by
  subst hc
  exact Client.objects (Client.run_inv (refines_caching m) acts (Client.start_inv (HMap.init_spec m b₀).1)) hn ho b

/-- C81: the same for a sky map that has all its tracts in a list. -/
theorem C81_objects_eager {env : FloatEnv K} {ops : SkyOps Sky K} {l : List (TractArgs Sky K)} {b₀ b' : TractBuilder} {ts : List (TractRef Sky K)}
    (hb : EagerSkyMap.buildAll env ops l 0 b₀ = .ok (ts, b')) {s : HMap Sky K} (hs : HMap.buildAll env ops l (HMap.start b₀) = (.ok (), s))
    (acts : List (Action Sky)) {c : Client Sky K} (hc : (Client.run HMap.eagerGetItem acts { map := s }).2 = c) {n : ℕ} {r : BoxRef}
    (hn : c.boxes[n]? = some r) {o : ℕ ⊕ ℕ} (ho : c.Owns o r) (b : Box2I) :
    (∀ (j : ℕ) p, c.patches[j]? = some p → .inl j ≠ o → p.view (c.act HMap.eagerGetItem (.writeBox n b)).map.heap = p.view c.map.heap) ∧
    ∀ (j : ℕ) x, c.cells[j]? = some x → .inr j ≠ o → x.view (c.act HMap.eagerGetItem (.writeBox n b)).map.heap = x.view c.map.heap := by
  subst hc
  obtain ⟨h1, h2, h3⟩ := HMap.start_spec (Sky := Sky) (K := K) b₀
  have e1 : (HMap.start b₀ : HMap Sky K).nextOid = 0 := congrArg MapState.nextOid h2
  have e2 : (HMap.start b₀ : HMap Sky K).builder.view (HMap.start b₀ : HMap Sky K).heap = b₀ := congrArg MapState.builder h2
  obtain ⟨s', a1, a2, -⟩ := HMap.buildAll_spec env ops l h1 (ts := ts) (b := b') (by rw [e1, e2]; exact hb)
  rw [a1] at hs
  obtain rfl : s' = s := congrArg Prod.snd hs
  exact Client.objects (Client.run_inv refines_list acts (Client.start_inv a2)) hn ho b

omit [Field K] [LinearOrder K] [FloorRing K] in
/-- C81: a cell is made from what the boxes and dimensions of the patch object are at the time of the call, so a patch whose inner box the client has
moved returns moved cells. -/
theorem C81_cells {G : ℤ → PyS (HMap Sky K) (HTract Sky K)} (c : Client Sky K) {n : ℕ} {p : HPatch (Wcs Sky K)} (hp : c.patches[n]? = some p)
    (i : IndexArg) :
    (∀ e, (p.view c.map.heap).getCellInfo i = .error e → (c.act G (.cell n i)).cells = c.cells) ∧
    ∀ v, (p.view c.map.heap).getCellInfo i = .ok v →
      ∃ x, (c.act G (.cell n i)).cells = c.cells ++ [x] ∧ x.view (c.act G (.cell n i)).map.heap = v := by
  obtain ⟨r, h', a1, a2, -, -, a3, a4⟩ := HPatch.getCellInfo_spec (h := c.map.heap) p i
  unfold Client.act
  simp only [hp, HMap.onHeap, a1]
  rw [← a3]
  cases r with
  | error e => exact ⟨fun _ _ => rfl, fun v hv => by simp [Except.map] at hv⟩
  | ok x =>
    refine ⟨fun e he => by simp [Except.map] at he, fun v hv => ⟨x, rfl, ?_⟩⟩
    simpa [Except.map] using hv

end new

/-! ## Classes of sky maps -/

/-- C81 for HEALPix sky maps. -/
theorem C81_healpix [Field K] [LinearOrder K] [FloorRing K] {pi : K} {env : FloatEnv K} {ops : SkyOps (SpherePoint K) K} {hp : HpGeom K}
    {makeWcs : SpherePoint K → Wcs (SpherePoint K) K} {cfg : HealpixConfig K} {m : CachingDef (SpherePoint K) K}
    (hm : HealpixSkyMap.cachingDef pi env ops hp makeWcs cfg = .ok m) (b₀ : TractBuilder) (acts : List (Action (SpherePoint K)))
    (h : ∀ a ∈ acts, a.HarmlessTuples) :
    (Client.run (HMap.cachingGetItem m) acts { map := HMap.init m b₀ }).1 =
      (CachingSkyMap.skyMapOps m).answers (acts.filterMap Action.request?) (CachingSkyMap.init m b₀) := by
  refine C81_caching_tuples m ?_ b₀ acts h
  unfold HealpixSkyMap.cachingDef at hm
  obtain ⟨n, -, hm⟩ := bindOk hm
  simp only [pure, Except.pure, Except.ok.injEq] at hm
  subst hm
  intro k a ha
  dsimp only at ha
  obtain ⟨_, -, ha⟩ := bindOk ha
  obtain ⟨_, -, ha⟩ := bindOk ha
  obtain ⟨_, -, ha⟩ := bindOk ha
  obtain ⟨vs, -, ha⟩ := bindOk ha
  simp only [Except.ok.injEq] at ha
  subst ha
  exact ⟨vs, rfl⟩

/-- C81 for dodecahedral sky maps (`C60_builds`: such maps exist). -/
theorem C81_dodeca {tiny ov : ℝ} {mk : SpherePoint ℝ → Wcs (SpherePoint ℝ) ℝ} {o : Dodeca.SetOrder} {w : Bool} {D : Dodecahedron}
    {l : List (TractArgs (SpherePoint ℝ) ℝ)} (hl : DodecaSkyMap.tracts tiny mk o w ov = .ok (D, l)) {env : FloatEnv ℝ}
    {ops : SkyOps (SpherePoint ℝ) ℝ} {b₀ b : TractBuilder} {ts : List (TractRef (SpherePoint ℝ) ℝ)}
    (hb : EagerSkyMap.buildAll env ops l 0 b₀ = .ok (ts, b)) :
    ∃ s, HMap.buildAll env ops l (HMap.start b₀) = (.ok (), s) ∧ ∀ acts : List (Action (SpherePoint ℝ)), (∀ a ∈ acts, a.HarmlessTuples) →
      (Client.run HMap.eagerGetItem acts { map := s }).1 = (EagerSkyMap.skyMapOps ts).answers (acts.filterMap Action.request?) b := by
  refine C81_eager ?_ hb
  unfold DodecaSkyMap.tracts at hl
  obtain ⟨_, -, hl⟩ := bindOk hl
  obtain ⟨l', hl', hl⟩ := bindOk hl
  simp only [pure, Except.pure, Except.ok.injEq, Prod.mk.injEq] at hl
  obtain ⟨rfl, rfl⟩ := hl
  intro a ha
  obtain ⟨k, -, hk⟩ := (pyMapM_mem hl' a).1 ha
  unfold DodecaSkyMap.tract at hk
  obtain ⟨_, -, hk⟩ := bindOk hk
  obtain ⟨_, -, hk⟩ := bindOk hk
  obtain ⟨_, -, hk⟩ := bindOk hk
  obtain ⟨vs, -, hk⟩ := bindOk hk
  simp only [pure, Except.pure, Except.ok.injEq] at hk
  subst hk
  exact ⟨vs, rfl⟩

/-- C81 for equatorial sky maps (`C59_builds`: such maps exist). -/
theorem C81_equat [Field K] [LinearOrder K] [FloorRing K] {A : FloatArith K} {mk : SpherePoint K → Wcs (SpherePoint K) K}
    {c : EquatConfig K} {l : List (TractArgs (SpherePoint K) K)} (hl : Equat.tracts A mk c = .ok l) {env : FloatEnv K}
    {ops : SkyOps (SpherePoint K) K} {b₀ b : TractBuilder} {ts : List (TractRef (SpherePoint K) K)}
    (hb : EagerSkyMap.buildAll env ops l 0 b₀ = .ok (ts, b)) :
    ∃ s, HMap.buildAll env ops l (HMap.start b₀) = (.ok (), s) ∧ ∀ acts : List (Action (SpherePoint K)), (∀ a ∈ acts, a.HarmlessTuples) →
      (Client.run HMap.eagerGetItem acts { map := s }).1 = (EagerSkyMap.skyMapOps ts).answers (acts.filterMap Action.request?) b := by
  refine C81_eager ?_ hb
  unfold Equat.tracts at hl
  obtain ⟨_, -, hl⟩ := bindOk hl
  obtain ⟨_, -, hl⟩ := bindOk hl
  dsimp only at hl
  split at hl
  · obtain ⟨_, h, -⟩ := bindOk hl
    cases h
  intro a ha
  obtain ⟨k, -, hk⟩ := (pyMapM_mem hl a).1 ha
  unfold Equat.tract at hk
  obtain ⟨_, -, hk⟩ := bindOk hk
  obtain ⟨_, -, hk⟩ := bindOk hk
  obtain ⟨_, -, hk⟩ := bindOk hk
  obtain ⟨_, -, hk⟩ := bindOk hk
  obtain ⟨_, -, hk⟩ := bindOk hk
  obtain ⟨_, -, hk⟩ := bindOk hk
  simp only [pure, Except.pure, Except.ok.injEq] at hk
  subst hk
  exact ⟨_, rfl⟩

/-! ## Concrete cases -/

namespace Ex

/-- A client of a sky map with three explicitly placed tracts: it moves the inner box of its first patch and the copy of the box of tract 0, then asks
for the patch dimensions and the vertices of tract 1. -/
def aliasActs : List (Action (P2 ℚ)) :=
  [.ask (.patch 0 (.number 0)), .ask (.patch 0 (.number 0)), .patchInnerBBox 0, .writeBox 0 ⟨⟨500, 500⟩, ⟨600, 600⟩⟩, .ask (.bbox 0),
   .writeBox 1 ⟨⟨1, 1⟩, ⟨2, 2⟩⟩, .ask (.patchDims 1), .ask (.vertices 1)]

/-- The client after these. -/
def aliasClient (b : TractBuilder) : Client (P2 ℚ) ℚ :=
  (Client.run (HMap.cachingGetItem equalMap) aliasActs { map := HMap.init equalMap b }).2

/-- Later requests. -/
def aliasLater : List (Action (P2 ℚ)) := [.ask (.patch 0 (.number 0)), .ask (.vertices 1)]

/-- The boxes of patches and the vertices in answers. -/
def aliasShow : Reply (P2 ℚ) ℚ → List Box2I × List (ℚ × ℚ)
  | .patch (.ok p) => ([p.innerBBox, p.outerBBox], [])
  | .vertices (.ok l) => ([], l.map fun p => (p.x, p.y))
  | _ => ([], [])

/-- `C81_caching`, `C81_patch_dims`: the actions are harmless, and the client holds the extent and a list. -/
example : (∀ a ∈ aliasActs, a.Harmless) ∧ (∀ a ∈ aliasLater, a.Harmless) ∧ (aliasClient legacy).patchDims = [⟨0⟩] ∧
    (aliasClient legacy).vertices = [⟨1⟩] := by
  refine ⟨?_, ?_, by decide +kernel, by decide +kernel⟩ <;>
  simp [aliasActs, aliasLater, Action.Harmless]

/-- The first patch of the client has the box that it assigned, its second patch, of the same index, has not. -/
example : (aliasClient legacy).patches.map (fun p => (p.view (aliasClient legacy).map.heap).innerBBox) =
    [⟨⟨500, 500⟩, ⟨600, 600⟩⟩, ⟨⟨0, 0⟩, ⟨4, 3⟩⟩] ∧ (aliasClient legacy).boxes = [⟨3⟩, ⟨7⟩] ∧
    (aliasClient legacy).patches.map (fun p => (p.innerBBox, p.outerBBox)) = [(⟨3⟩, ⟨4⟩), (⟨5⟩, ⟨6⟩)] := by
  decide +kernel

/-- `C81_objects_caching`: box 0 of the client belongs to its patch 0. -/
example : (aliasClient legacy).Owns (.inl 0) ⟨3⟩ := by
  have e : (aliasClient legacy).patches.map (fun p => (p.innerBBox, p.outerBBox)) = [(⟨3⟩, ⟨4⟩), (⟨5⟩, ⟨6⟩)] := by decide +kernel
  rcases h : (aliasClient legacy).patches with _ | ⟨p, l⟩
  · rw [h] at e; simp at e
  · rw [h] at e
    simp only [List.map_cons, List.cons.injEq, Prod.mk.injEq] at e
    refine ⟨p, by rw [h]; rfl, .inl e.1.1.symm⟩

/-- The answers to later requests: as they are, after an assignment to the patch dimensions that tract 1 returned (the patches of tract 0 are larger),
and after an assignment to the vertices that tract 1 returned. -/
example : (Client.run (HMap.cachingGetItem equalMap) aliasLater (aliasClient legacy)).1.map aliasShow =
      [([⟨⟨0, 0⟩, ⟨4, 3⟩⟩, ⟨⟨0, 0⟩, ⟨6, 5⟩⟩], []),
       ([], [(23501 / 1000, 25501 / 1000), (35499 / 1000, 25501 / 1000), (35499 / 1000, 37499 / 1000), (23501 / 1000, 37499 / 1000)])] ∧
    (Client.run (HMap.cachingGetItem equalMap) aliasLater
        ((aliasClient legacy).act (HMap.cachingGetItem equalMap) (.writePatchDims 0 ⟨5, 4⟩))).1.map aliasShow =
      [([⟨⟨0, 0⟩, ⟨5, 4⟩⟩, ⟨⟨0, 0⟩, ⟨7, 6⟩⟩], []),
       ([], [(23501 / 1000, 25501 / 1000), (35499 / 1000, 25501 / 1000), (35499 / 1000, 37499 / 1000), (23501 / 1000, 37499 / 1000)])] ∧
    (Client.run (HMap.cachingGetItem equalMap) aliasLater
        ((aliasClient legacy).act (HMap.cachingGetItem equalMap) (.writeVertices 0 [⟨7, 8⟩]))).1.map aliasShow =
      [([⟨⟨0, 0⟩, ⟨4, 3⟩⟩, ⟨⟨0, 0⟩, ⟨6, 5⟩⟩], []), ([], [(7, 8)])] := by
  decide +kernel

/-- `C81_vertices`: tract 1 is the one whose list the client holds. -/
example : ((aliasClient legacy).map.cache[1]?.bind id).map (fun t => t.getVertexList.refs) = some [⟨1⟩] := by
  decide +kernel

/-- `C81_cells`: a cell of the patch with the assigned box (here of a builder with cells), and one of the other patch. -/
example : ((((aliasClient cells).act (HMap.cachingGetItem equalMap) (.cell 0 (.number 0))).act (HMap.cachingGetItem equalMap)
      (.cell 1 (.number 0))).cells.map fun x => (x.view (((aliasClient cells).act (HMap.cachingGetItem equalMap) (.cell 0 (.number 0))).act
        (HMap.cachingGetItem equalMap) (.cell 1 (.number 0))).map.heap).innerBBox) =
    [⟨⟨497, 497⟩, ⟨3, 3⟩⟩, ⟨⟨-3, -3⟩, ⟨3, 3⟩⟩] := by
  decide +kernel

end Ex

end Skymap
