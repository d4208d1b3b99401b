import Verif.Props.Caching
import Verif.Lemmas.FindPatch
import Verif.Spec.ExampleMap
import Verif.Model.Rings

/-!
# C92: what the choice of tract builder influences

Two tract builders with the same inner dimensions of patches - a legacy builder and a cells builder, or two of one kind with different
borders - give the same tracts and the same division into patches; only outer boxes and cells differ.  The border also decides how far
`findPatchList` looks, so the patches it lists are the same if the borders are equal.
-/

set_option linter.unusedSectionVars false

namespace Skymap
open TractBuilder

/-! ## Specification -/

/-- Two calls raise the same exception, or return values related by `R`. -/
def SameOutcome {α β : Type} (R : α → β → Prop) : PyM α → PyM β → Prop
  | .ok a, .ok b => R a b
  | .error e, .error e' => e = e'
  | _, _ => False

/-- Two patches with the same index, sequential index, inner box and WCS. -/
structure SamePatch {W : Type} (p p' : PatchInfo W) : Prop where
  index : p.index = p'.index
  seq : p.sequentialIndex = p'.sequentialIndex
  inner : p.innerBBox = p'.innerBBox
  wcs : p.wcs = p'.wcs

/-- Two states of a caching sky map that the same accesses have led to, from builders `b₀` and `b₀'`. -/
def SameHistory {Sky K : Type} [Field K] [LinearOrder K] [FloorRing K] (m : CachingDef Sky K) (b₀ b₀' : TractBuilder)
    (s s' : MapState Sky K) : Prop :=
  ∃ l : List Int, s = l.foldl (fun s i => (CachingSkyMap.getItem m i s).2) (CachingSkyMap.init m b₀) ∧
    s' = l.foldl (fun s i => (CachingSkyMap.getItem m i s).2) (CachingSkyMap.init m b₀')

/-! ## Lemmas -/

section
variable {α β γ δ : Type}

theorem SameOutcome.bind {R : α → β → Prop} {S : γ → δ → Prop} {x : PyM α} {y : PyM β} {f : α → PyM γ} {g : β → PyM δ}
    (h : SameOutcome R x y) (hf : ∀ a b, R a b → SameOutcome S (f a) (g b)) : SameOutcome S (x >>= f) (y >>= g) := by
  cases x <;> cases y
  · exact h
  · exact h.elim
  · exact h.elim
  · exact hf _ _ h

theorem SameOutcome.refl {R : α → α → Prop} (h : ∀ a, R a a) (x : PyM α) : SameOutcome R x x := by
  cases x with
  | error e => exact rfl
  | ok a => exact h a

theorem SameOutcome.mono {R S : α → β → Prop} (h : ∀ a b, R a b → S a b) {x : PyM α} {y : PyM β} (hx : SameOutcome R x y) :
    SameOutcome S x y := by
  cases x <;> cases y
  · exact hx
  · exact hx.elim
  · exact hx.elim
  · exact h _ _ hx

theorem sameOutcome_eq {x y : PyM α} : SameOutcome Eq x y ↔ x = y := by
  cases x <;> cases y <;> simp [SameOutcome]

theorem SameOutcome.pyMapM {R : β → γ → Prop} {f : α → PyM β} {g : α → PyM γ} (h : ∀ a, SameOutcome R (f a) (g a)) (l : List α) :
    SameOutcome (List.Forall₂ R) (pyMapM f l) (pyMapM g l) := by
  induction l with
  | nil => exact List.Forall₂.nil
  | cons a l ih =>
    have hb : ∀ (γ : Type) (f : α → PyM γ), Skymap.pyMapM f (a :: l) = f a >>= fun b => Skymap.pyMapM f l >>= fun bs => .ok (b :: bs) := by
      intro γ f
      rw [Skymap.pyMapM]
      cases f a with
      | error e => rfl
      | ok b => cases Skymap.pyMapM f l <;> rfl
    rw [hb, hb]
    exact (h a).bind (S := List.Forall₂ R) fun b c hbc =>
      ih.bind (S := List.Forall₂ R) (f := fun bs => .ok (b :: bs)) (g := fun cs => .ok (c :: cs))
        fun bs cs hbs => List.Forall₂.cons hbc hbs
end

variable {Sky K : Type} [Field K] [LinearOrder K] [FloorRing K]
variable {env : FloatEnv K} {ops : SkyOps Sky K} {b₀ b₀' b b' : TractBuilder} {a : TractArgs Sky K}

/-- Building a tract with another builder of the same patch dimensions. -/
theorem setupPatches_dims (hd : b₀.patchInnerDimensions = b₀'.patchInnerDimensions) (m : Box2I) :
    b₀'.setupPatches m = (b₀.setupPatches m).map fun r => (r.1, r.2.1, { b₀' with state := r.2.2.state }) := by
  unfold setupPatches
  rw [hd]
  cases setupAxis m.getMin.x m.getDimensions.x b₀'.patchInnerDimensions.x with
  | error e => rfl
  | ok ax =>
    cases setupAxis m.getMin.y m.getDimensions.y b₀'.patchInnerDimensions.y with
    | error e => rfl
    | ok ay => rfl

theorem new_dims (hd : b₀.patchInnerDimensions = b₀'.patchInnerDimensions) :
    TractInfo.new env ops b₀' a = (TractInfo.new env ops b₀ a).map fun r => (r.1, { b₀' with state := r.2.state }) := by
  unfold TractInfo.new
  cases minimumBoundingBox env ops a with
  | error e => rfl
  | ok mb =>
    simp only [bind, Except.bind]
    rw [setupPatches_dims hd]
    cases b₀.setupPatches mb.toBox2I with
    | error e => rfl
    | ok r => rfl

/-- Builders that may be exchanged: equal patch dimensions and state, and the state is one that `setupPatches` leaves. -/
structure Exchangeable (b b' : TractBuilder) : Prop where
  dims : b.patchInnerDimensions = b'.patchInnerDimensions
  state : b.state = b'.state
  ready : b.state = none ∨ ∃ n, b.Ready n
  border : 0 ≤ b.patchBorder
  border' : 0 ≤ b'.patchBorder

theorem Exchangeable.ready' {n : Index2D} (h : Exchangeable b b') (r : b.Ready n) : b'.Ready n :=
  ⟨h.dims ▸ r.dx, h.dims ▸ r.dy, r.nx, r.ny, by rw [← h.state, ← h.dims]; exact r.st⟩

theorem getPatchInfo_resolve {W : Type} {b : TractBuilder} {st : BuilderState} (h : b.state = some st) (index : IndexArg) (w : W) :
    b.getPatchInfo index w = b.resolve index >>= fun i => b.getPatchInfo (.index2D i) w := by
  unfold getPatchInfo
  rw [h]
  cases hr : b.resolve index with
  | error e => simp [bind, Except.bind]
  | ok i => simp [resolve, bind, Except.bind]

theorem resolve_exchange (h : Exchangeable b b') (index : IndexArg) : b.resolve index = b'.resolve index := by
  cases index <;> simp [resolve, getPatchIndexPair, getState, h.state]

/-- What `getPatchInfo` returns for exchangeable builders. -/
theorem getPatchInfo_exchange {W : Type} (h : Exchangeable b b') (index : IndexArg) (w : W) :
    SameOutcome (fun p p' => ∃ n i, p = b.patchVal n i w ∧ p' = b'.patchVal n i w ∧ b.Ready n ∧ InRange n i)
      (b.getPatchInfo index w) (b'.getPatchInfo index w) := by
  rcases h.ready with hn | ⟨n, r⟩
  · have hn' : b'.state = none := by rw [← h.state]; exact hn
    unfold getPatchInfo
    rw [hn, hn']
    exact rfl
  · have r' := h.ready' r
    rw [getPatchInfo_resolve r.st, getPatchInfo_resolve r'.st, resolve_exchange h]
    apply (SameOutcome.refl (R := Eq) (fun _ => rfl) _).bind
    rintro i _ rfl
    by_cases hi : InRange n i
    · rw [r.getPatchInfo_ok h.border hi, r'.getPatchInfo_ok h.border' hi]
      exact ⟨n, i, rfl, rfl, r, hi⟩
    · rw [r.getPatchInfo_err hi, r'.getPatchInfo_err hi]
      exact rfl

theorem patchVal_same {W : Type} (h : b.patchInnerDimensions = b'.patchInnerDimensions) (n i : Index2D) (w : W) :
    SamePatch (b.patchVal n i w) (b'.patchVal n i w) where
  index := by simp
  seq := by simp
  inner := by simp [patchInnerBBox, h]
  wcs := by simp

theorem getPatchInfo_same {W : Type} (h : Exchangeable b b') (index : IndexArg) (w : W) :
    SameOutcome SamePatch (b.getPatchInfo index w) (b'.getPatchInfo index w) :=
  (getPatchInfo_exchange h index w).mono fun _ _ => by
    rintro ⟨n, i, rfl, rfl, -, -⟩
    exact patchVal_same h.dims n i w

theorem patchOf_same (h : b.patchInnerDimensions = b'.patchInnerDimensions) (v : Point2I) :
    TractInfo.patchOf env b v = TractInfo.patchOf env b' v := by
  simp [TractInfo.patchOf, getPatchInnerDimensions, h]

theorem findPatch_same (h : Exchangeable b b') (t : TractInfo Sky K) (c : Sky) :
    SameOutcome SamePatch (t.findPatch env b c) (t.findPatch env b' c) := by
  unfold TractInfo.findPatch
  cases t.pixelIndex env c with
  | none => exact rfl
  | some q =>
    dsimp only
    split
    · exact rfl
    · rw [patchOf_same h.dims]
      apply (SameOutcome.refl (R := Eq) (fun _ => rfl) _).bind
      rintro i _ rfl
      exact getPatchInfo_same h _ _

theorem findPatchList_same (h : Exchangeable b b') (hb : b.patchBorder = b'.patchBorder) (t : TractInfo Sky K) (cs : List Sky) :
    SameOutcome (List.Forall₂ SamePatch) (t.findPatchList env b cs) (t.findPatchList env b' cs) := by
  unfold TractInfo.findPatchList getPatchBorder
  rw [hb]
  dsimp only
  split
  · exact List.Forall₂.nil
  · rw [patchOf_same h.dims, patchOf_same h.dims]
    apply (SameOutcome.refl (R := Eq) (fun _ => rfl) _).bind
    rintro ll _ rfl
    apply (SameOutcome.refl (R := Eq) (fun _ => rfl) _).bind
    rintro ur _ rfl
    exact SameOutcome.pyMapM (fun i => getPatchInfo_same h _ _) _

theorem exchangeable_of_new {t : TractInfo Sky K} (h : TractInfo.new env ops b₀ a = .ok (t, b))
    (h' : TractInfo.new env ops b₀' a = .ok (t, b')) (hd : b₀.patchInnerDimensions = b₀'.patchInnerDimensions)
    (hx : 0 < b₀.patchInnerDimensions.x) (hy : 0 < b₀.patchInnerDimensions.y) (hb : 0 ≤ b₀.patchBorder)
    (hb' : 0 ≤ b₀'.patchBorder) : Exchangeable b b' := by
  have B := TractInfo.new_built h hx hy
  have B' := TractInfo.new_built h' (hd ▸ hx) (hd ▸ hy)
  exact ⟨by rw [B.dims, B'.dims, hd], by rw [B.st, B'.st], Or.inr ⟨_, B.ready⟩, by rw [B.border]; exact hb,
    by rw [B'.border]; exact hb'⟩

/-! ## One tract -/

/-- C92: the two builders give the same tract, or construction raises the same exception: number of patches, bounding box, WCS, vertices and
all other attributes. -/
theorem C92_tract (hd : b₀.patchInnerDimensions = b₀'.patchInnerDimensions) :
    (TractInfo.new env ops b₀ a).map Prod.fst = (TractInfo.new env ops b₀' a).map Prod.fst := by
  rw [new_dims hd]
  cases TractInfo.new env ops b₀ a <;> rfl

/-- C92: so the tract of the one can be had from the other. -/
theorem C92_tract_exists (hd : b₀.patchInnerDimensions = b₀'.patchInnerDimensions) {t : TractInfo Sky K}
    (h : TractInfo.new env ops b₀ a = .ok (t, b)) : ∃ b', TractInfo.new env ops b₀' a = .ok (t, b') := by
  rw [new_dims hd, h]
  exact ⟨_, rfl⟩

section
variable {t : TractInfo Sky K} (h : TractInfo.new env ops b₀ a = .ok (t, b)) (h' : TractInfo.new env ops b₀' a = .ok (t, b'))
  (hd : b₀.patchInnerDimensions = b₀'.patchInnerDimensions) (hx : 0 < b₀.patchInnerDimensions.x)
  (hy : 0 < b₀.patchInnerDimensions.y) (hb : 0 ≤ b₀.patchBorder) (hb' : 0 ≤ b₀'.patchBorder)
include h h' hd hx hy hb hb'

/-- C92: for every index the tract raises the same exception or returns patches with the same indices, inner box and WCS. -/
theorem C92_patch (index : IndexArg) :
    SameOutcome SamePatch (t.getPatchInfo b index) (t.getPatchInfo b' index) :=
  getPatchInfo_same (exchangeable_of_new h h' hd hx hy hb hb') index t.wcs

/-- C92: iterating over the tract gives patches that agree one by one. -/
theorem C92_iter : SameOutcome (List.Forall₂ SamePatch) (t.iter b) (t.iter b') :=
  SameOutcome.pyMapM (fun _ => getPatchInfo_same (exchangeable_of_new h h' hd hx hy hb hb') _ _) _

/-- C92: `findPatch` raises the same exception or finds the patch with the same indices and inner box. -/
theorem C92_findPatch (c : Sky) : SameOutcome SamePatch (t.findPatch env b c) (t.findPatch env b' c) :=
  findPatch_same (exchangeable_of_new h h' hd hx hy hb hb') t c

/-- C92: with equal borders `findPatchList` lists patches that agree one by one. -/
theorem C92_findPatchList (he : b₀.patchBorder = b₀'.patchBorder) (cs : List Sky) :
    SameOutcome (List.Forall₂ SamePatch) (t.findPatchList env b cs) (t.findPatchList env b' cs) := by
  apply findPatchList_same (exchangeable_of_new h h' hd hx hy hb hb')
  rw [(TractInfo.new_built h hx hy).border, (TractInfo.new_built h' (hd ▸ hx) (hd ▸ hy)).border, he]

/-- C92: with equal borders the outer box of a legacy patch is the part on the tract of the outer box of the patch of the cells builder; the
former has no cells. -/
theorem C92_outer (he : b₀.patchBorder = b₀'.patchBorder) (hk : b₀.kind = .legacy) (p : CellParams) (hk' : b₀'.kind = .cells p)
    (index : IndexArg) :
    SameOutcome (fun q q' => (∀ x, q.outerBBox.contains x = true ↔ q'.outerBBox.contains x = true ∧ t.getBBox.contains x = true) ∧
        q.numCells = ⟨0, 0⟩) (t.getPatchInfo b index) (t.getPatchInfo b' index) := by
  have B := TractInfo.new_built h hx hy
  have B' := TractInfo.new_built h' (hd ▸ hx) (hd ▸ hy)
  have E := exchangeable_of_new h h' hd hx hy hb hb'
  refine (getPatchInfo_exchange E index t.wcs).mono ?_
  rintro _ _ ⟨n, i, rfl, rfl, r, -⟩
  have hn : n = t.numPatches := by
    have := r.st
    rw [B.st] at this
    simp only [Option.some.injEq, BuilderState.mk.injEq] at this
    exact this.1.symm
  have bb : b.patchBorder = b'.patchBorder := by rw [B.border, B'.border, he]
  have inn : b.patchInnerBBox i = b'.patchInnerBBox i := by simp [patchInnerBBox, E.dims]
  have hkb : b.kind = .legacy := by rw [B.kind, hk]
  have hkb' : b'.kind = .cells p := by rw [B'.kind, hk']
  constructor
  · intro x
    unfold patchVal
    rw [hkb, hkb']
    dsimp only
    rw [Box2I.contains_clip, hn, ← B.box, inn, bb]
    rfl
  · unfold patchVal
    rw [hkb]

end

/-- C92: the two configurations.  A cells builder whose cells have `cx` by `cy` pixels corresponds to the legacy builder with the inner
dimensions `cx * n`, `cy * n` and the border `nb * cx + cb`; the defaults of the cells builder to 3000 by 3000 pixels with a border of 200. -/
theorem C92_configs (cfg : CellTractBuilderConfig) (cx cy : Int) (hc : cfg.cellInnerDimensions = [cx, cy]) :
    ∃ bl bc, LegacyTractBuilder.new ⟨[cx * cfg.numCellsPerPatchInner, cy * cfg.numCellsPerPatchInner],
        cfg.numCellsInPatchBorder * cx + cfg.cellBorder⟩ = .ok bl ∧ CellTractBuilder.new cfg = .ok bc ∧
      bl.kind = .legacy ∧ (∃ p, bc.kind = .cells p) ∧ bl.patchInnerDimensions = bc.patchInnerDimensions ∧
      bl.patchBorder = bc.patchBorder := by
  have h : CellTractBuilder.new cfg = .ok
      { kind := .cells ⟨⟨cx, cy⟩, cfg.cellBorder, cfg.numCellsPerPatchInner, cfg.numCellsInPatchBorder⟩
        patchInnerDimensions := ⟨cx * cfg.numCellsPerPatchInner, cy * cfg.numCellsPerPatchInner⟩
        patchBorder := cfg.numCellsInPatchBorder * cx + cfg.cellBorder
        state := none } := by
    unfold CellTractBuilder.new
    rw [hc]
  exact ⟨_, _, rfl, h, rfl, ⟨_, rfl⟩, rfl, rfl⟩

/-! ## Sky maps -/

/-- Corresponding states of the two sky maps. -/
structure Twin (b₀ b₀' : TractBuilder) (s s' : MapState Sky K) : Prop where
  cache : s.cache = s'.cache
  oid : s.nextOid = s'.nextOid
  bld : ∃ st, s.builder = { b₀ with state := st } ∧ s'.builder = { b₀' with state := st } ∧
    (st = none ∨ ∃ n, TractBuilder.Ready { b₀ with state := st } n)

section
variable {m : CachingDef Sky K} (hd : b₀.patchInnerDimensions = b₀'.patchInnerDimensions)
  (hx : 0 < b₀.patchInnerDimensions.x) (hy : 0 < b₀.patchInnerDimensions.y)
include hd hx hy

theorem Twin.getItem {s s' : MapState Sky K} (T : Twin b₀ b₀' s s') (i : Int) :
    (CachingSkyMap.getItem m i s).1 = (CachingSkyMap.getItem m i s').1 ∧
      Twin b₀ b₀' (CachingSkyMap.getItem m i s).2 (CachingSkyMap.getItem m i s').2 := by
  obtain ⟨st, e1, e2, e3⟩ := T.bld
  unfold CachingSkyMap.getItem
  rw [T.cache]
  by_cases hr : i < 0 ∨ i > (m.numTracts : Int)
  · rw [if_pos hr, if_pos hr]
    exact ⟨rfl, T⟩
  · rw [if_neg hr, if_neg hr]
    cases pyGetItem s'.cache i with
    | error e => exact ⟨rfl, T⟩
    | ok o =>
      cases o with
      | some r => exact ⟨rfl, T⟩
      | none =>
        unfold CachingSkyMap.generateTract
        cases m.tractArgs i with
        | error e => exact ⟨rfl, T⟩
        | ok a =>
          have f1 : TractInfo.new m.env m.ops s.builder a = TractInfo.new m.env m.ops b₀ a := by
            rw [e1]; exact TractInfo.new_state _ _ _ _ _
          have f2 : TractInfo.new m.env m.ops s'.builder a =
              (TractInfo.new m.env m.ops b₀ a).map fun r => (r.1, { b₀' with state := r.2.state }) := by
            rw [e2]; exact (TractInfo.new_state _ _ _ _ _).trans (new_dims hd)
          dsimp only
          rw [f1, f2]
          cases hn : TractInfo.new m.env m.ops b₀ a with
          | error e => exact ⟨rfl, T⟩
          | ok r =>
            obtain ⟨t, b⟩ := r
            have B := TractInfo.new_built hn hx hy
            dsimp only [Except.map]
            refine ⟨by rw [T.oid], ⟨by dsimp only; rw [T.oid, T.cache], by dsimp only; rw [T.oid], b.state, ?_, rfl,
              Or.inr ⟨t.numPatches, ?_⟩⟩⟩
            · rcases b with ⟨k, d, p, s0⟩
              have := B.kind; have := B.dims; have := B.border
              dsimp only at *
              rw [TractBuilder.mk.injEq]
              tauto
            · have r := B.ready
              exact ⟨hx, hy, r.nx, r.ny, by rw [r.st, B.dims]⟩

theorem twin_of_sameHistory {s s' : MapState Sky K} (H : SameHistory m b₀ b₀' s s') (hs : b₀.state = none) (hs' : b₀'.state = none) :
    Twin b₀ b₀' s s' := by
  obtain ⟨l, rfl, rfl⟩ := H
  have T0 : Twin b₀ b₀' (CachingSkyMap.init m b₀) (CachingSkyMap.init m b₀') := by
    refine ⟨rfl, rfl, none, ?_, ?_, Or.inl rfl⟩
    · change b₀ = _
      rw [← hs]
    · change b₀' = _
      rw [← hs']
  generalize CachingSkyMap.init m b₀ = s at T0 ⊢
  generalize CachingSkyMap.init m b₀' = s' at T0 ⊢
  induction l generalizing s s' with
  | nil => exact T0
  | cons i l ih => exact ih _ _ (Twin.getItem hd hx hy T0 i).2
end

/-- Two methods that do the same on corresponding states. -/
def Parallel {σ α β : Type} (E : σ → σ → Prop) (R : α → β → Prop) (f : PyS σ α) (g : PyS σ β) : Prop :=
  ∀ s s', E s s' → SameOutcome R (f s).1 (g s').1 ∧ E (f s).2 (g s').2

section
variable {σ α β γ δ : Type} {E : σ → σ → Prop}

theorem Parallel.pure {R : α → β → Prop} {a : α} {b : β} (h : R a b) : Parallel E R (Pure.pure a : PyS σ α) (Pure.pure b) :=
  fun _ _ hE => ⟨h, hE⟩

theorem Parallel.lift {R : α → β → Prop} {a : PyM α} {b : PyM β} (h : SameOutcome R a b) : Parallel E R (PyS.lift a) (PyS.lift b) :=
  fun _ _ hE => ⟨h, hE⟩

theorem Parallel.bind {R : α → β → Prop} {S : γ → δ → Prop} {f : PyS σ α} {g : PyS σ β} {f' : α → PyS σ γ} {g' : β → PyS σ δ}
    (h : Parallel E R f g) (h' : ∀ a b, R a b → Parallel E S (f' a) (g' b)) : Parallel E S (f >>= f') (g >>= g') := by
  intro s s' hE
  obtain ⟨h1, h2⟩ := h s s' hE
  rw [PyS.bind_apply, PyS.bind_apply]
  rcases hf : f s with ⟨r, s₁⟩
  rcases hg : g s' with ⟨r', s₁'⟩
  rw [hf, hg] at h1 h2
  cases r <;> cases r'
  · exact ⟨h1, h2⟩
  · exact h1.elim
  · exact h1.elim
  · exact h' _ _ h1 _ _ h2

theorem Parallel.mapM {R : β → γ → Prop} {f : α → PyS σ β} {g : α → PyS σ γ} (h : ∀ a, Parallel E R (f a) (g a)) (l : List α) :
    Parallel E (List.Forall₂ R) (PyS.mapM f l) (PyS.mapM g l) := by
  induction l with
  | nil => exact Parallel.pure List.Forall₂.nil
  | cons a l ih =>
    rw [PyS.mapM_cons, PyS.mapM_cons]
    exact (h a).bind fun b c hbc => ih.bind fun bs cs hbs => Parallel.pure (List.Forall₂.cons hbc hbs)

theorem Parallel.mono {R S : α → β → Prop} (h : ∀ a b, R a b → S a b) {f : PyS σ α} {g : PyS σ β} (hf : Parallel E R f g) :
    Parallel E S f g := fun s s' hE => ⟨(hf s s' hE).1.mono h, (hf s s' hE).2⟩
end

theorem forall₂_eq {α : Type} {l l' : List α} (h : List.Forall₂ Eq l l') : l = l' := by
  induction h with
  | nil => rfl
  | cons h _ ih => rw [h, ih]

section
variable {m : CachingDef Sky K} {s s' : MapState Sky K} (H : SameHistory m b₀ b₀' s s')
  (hs : b₀.state = none) (hs' : b₀'.state = none) (hd : b₀.patchInnerDimensions = b₀'.patchInnerDimensions)
  (hx : 0 < b₀.patchInnerDimensions.x) (hy : 0 < b₀.patchInnerDimensions.y)
include H hs hs' hd hx hy

/-- C92: after the same accesses, any two sky maps that differ in the builder give the same tract at every index, or raise the same
exception. -/
theorem C92_access (i : Int) : (CachingSkyMap.getItem m i s).1 = (CachingSkyMap.getItem m i s').1 :=
  (Twin.getItem hd hx hy (twin_of_sameHistory hd hx hy H hs hs') i).1

/-- C92: and `findTract` finds the same tract. -/
theorem C92_findTract (ops : SkyOps Sky K) (c : Sky) :
    (BaseSkyMap.findTract ops (CachingSkyMap.skyMapOps m) c s).1 = (BaseSkyMap.findTract ops (CachingSkyMap.skyMapOps m) c s').1 := by
  have T := twin_of_sameHistory hd hx hy H hs hs'
  have P : Parallel (Twin b₀ b₀') Eq (BaseSkyMap.findTract ops (CachingSkyMap.skyMapOps m) c)
      (BaseSkyMap.findTract ops (CachingSkyMap.skyMapOps m) c) := by
    unfold BaseSkyMap.findTract BaseSkyMap.forTracts
    apply Parallel.bind (R := Eq)
    · refine (Parallel.mapM (R := Eq) (fun i => ?_) _).mono fun _ _ => forall₂_eq
      apply Parallel.bind (R := Eq)
      · intro s s' hT
        exact ⟨sameOutcome_eq.2 (Twin.getItem hd hx hy hT _).1, (Twin.getItem hd hx hy hT _).2⟩
      · rintro t _ rfl
        exact Parallel.pure rfl
    · rintro l _ rfl
      cases (pySort BaseSkyMap.tupleLe l).head? with
      | none => exact Parallel.lift rfl
      | some x => exact Parallel.pure rfl
  exact sameOutcome_eq.1 (P s s' T).1

/-- C92: with equal borders `findTractPatchList` lists the same tracts, each with patches that agree one by one. -/
theorem C92_findTractPatchList (hb : 0 ≤ b₀.patchBorder) (he : b₀.patchBorder = b₀'.patchBorder) (env : FloatEnv K) (cs : List Sky) :
    SameOutcome (List.Forall₂ fun e e' => e.1 = e'.1 ∧ List.Forall₂ SamePatch e.2 e'.2)
      (BaseSkyMap.findTractPatchList env (CachingSkyMap.skyMapOps m) cs s).1
      (BaseSkyMap.findTractPatchList env (CachingSkyMap.skyMapOps m) cs s').1 := by
  have T := twin_of_sameHistory hd hx hy H hs hs'
  have P : Parallel (Twin b₀ b₀') (List.Forall₂ fun e e' => e.1 = e'.1 ∧ List.Forall₂ SamePatch e.2 e'.2)
      (BaseSkyMap.findTractPatchList env (CachingSkyMap.skyMapOps m) cs)
      (BaseSkyMap.findTractPatchList env (CachingSkyMap.skyMapOps m) cs) := by
    unfold BaseSkyMap.findTractPatchList BaseSkyMap.forTracts
    apply Parallel.bind (R := List.Forall₂ fun e e' => e.1 = e'.1 ∧ List.Forall₂ SamePatch e.2 e'.2)
    · refine Parallel.mapM (fun i => ?_) _
      apply Parallel.bind (R := Eq)
      · intro s s' hT
        exact ⟨sameOutcome_eq.2 (Twin.getItem hd hx hy hT _).1, (Twin.getItem hd hx hy hT _).2⟩
      · rintro t _ rfl
        apply Parallel.bind (R := List.Forall₂ SamePatch)
        · intro s s' hT
          obtain ⟨st, e1, e2, e3⟩ := hT.bld
          refine ⟨?_, hT⟩
          change SameOutcome _ (t.info.findPatchList env s.builder cs) (t.info.findPatchList env s'.builder cs)
          rw [e1, e2]
          have hE : Exchangeable { b₀ with state := st } { b₀' with state := st } :=
            ⟨hd, rfl, e3, hb, by change 0 ≤ b₀'.patchBorder; rw [← he]; exact hb⟩
          exact findPatchList_same hE he _ _
        · exact fun _ _ hl => Parallel.pure ⟨rfl, hl⟩
    · intro l l' hl
      apply Parallel.pure
      induction hl with
      | nil => exact List.Forall₂.nil
      | @cons e e' l l' h1 h2 ih =>
        have hemp : e.2.isEmpty = e'.2.isEmpty := by
          rcases e with ⟨t, pl⟩
          rcases e' with ⟨t', pl'⟩
          have h2 := h1.2
          dsimp only at h2 ⊢
          cases h2 <;> rfl
        rw [List.filter_cons, List.filter_cons, hemp]
        split
        · exact List.Forall₂.cons h1 ih
        · exact ih
  exact (P s s' T).1

end

/-- C92: `RingsSkyMap.findTract` and `RingsSkyMap.findAllTracts`, which look the tracts up themselves, find the same tracts. -/
theorem C92_rings {A : FloatArith K} {R : Rings K} {env : FloatEnv K} {ops : SkyOps (SpherePoint K) K}
    {makeWcs : SpherePoint K → Wcs (SpherePoint K) K} {s s' : MapState (SpherePoint K) K}
    (H : SameHistory (R.cachingDef A env ops makeWcs) b₀ b₀' s s')
    (hs : b₀.state = none) (hs' : b₀'.state = none) (hd : b₀.patchInnerDimensions = b₀'.patchInnerDimensions)
    (hx : 0 < b₀.patchInnerDimensions.x) (hy : 0 < b₀.patchInnerDimensions.y) (c : SpherePoint K) :
    (R.findTract A (CachingSkyMap.skyMapOps (R.cachingDef A env ops makeWcs)) c s).1 =
        (R.findTract A (CachingSkyMap.skyMapOps (R.cachingDef A env ops makeWcs)) c s').1 ∧
      (R.findAllTracts A (CachingSkyMap.skyMapOps (R.cachingDef A env ops makeWcs)) c s).1 =
        (R.findAllTracts A (CachingSkyMap.skyMapOps (R.cachingDef A env ops makeWcs)) c s').1 := by
  have T := twin_of_sameHistory hd hx hy H hs hs'
  have G : ∀ i, Parallel (Twin b₀ b₀') Eq ((CachingSkyMap.skyMapOps (R.cachingDef A env ops makeWcs)).getItem i)
      ((CachingSkyMap.skyMapOps (R.cachingDef A env ops makeWcs)).getItem i) := fun i s s' hT =>
    ⟨sameOutcome_eq.2 (Twin.getItem hd hx hy hT i).1, (Twin.getItem hd hx hy hT i).2⟩
  constructor
  · have P : Parallel (Twin b₀ b₀') Eq (R.findTract A (CachingSkyMap.skyMapOps (R.cachingDef A env ops makeWcs)) c)
        (R.findTract A (CachingSkyMap.skyMapOps (R.cachingDef A env ops makeWcs)) c) := by
      unfold Rings.findTract
      apply Parallel.bind (R := Eq) (Parallel.lift (sameOutcome_eq.2 rfl))
      rintro i _ rfl
      exact G i
    exact sameOutcome_eq.1 (P s s' T).1
  · have P : Parallel (Twin b₀ b₀') Eq (R.findAllTracts A (CachingSkyMap.skyMapOps (R.cachingDef A env ops makeWcs)) c)
        (R.findAllTracts A (CachingSkyMap.skyMapOps (R.cachingDef A env ops makeWcs)) c) := by
      unfold Rings.findAllTracts Rings.keepContaining
      apply Parallel.bind (R := Eq) (Parallel.lift (sameOutcome_eq.2 rfl))
      rintro near _ rfl
      apply Parallel.bind (R := Eq)
      · refine (Parallel.mapM (R := Eq) (fun i => ?_) _).mono fun _ _ => forall₂_eq
        apply Parallel.bind (R := Eq) (G i)
        rintro t _ rfl
        exact Parallel.pure rfl
      · rintro ts _ rfl
        exact Parallel.pure rfl
    exact sameOutcome_eq.1 (P s s' T).1

/-- C92: a sky map that builds its tracts in the constructor gets the same tracts from the two builders, or its constructor raises the same
exception. -/
theorem C92_eager (hd : b₀.patchInnerDimensions = b₀'.patchInnerDimensions) (hx : 0 < b₀.patchInnerDimensions.x)
    (hy : 0 < b₀.patchInnerDimensions.y) (l : List (TractArgs Sky K)) (n : Nat) :
    (EagerSkyMap.buildAll env ops l n b₀).map Prod.fst = (EagerSkyMap.buildAll env ops l n b₀').map Prod.fst := by
  induction l generalizing n b₀ b₀' with
  | nil => rfl
  | cons a l ih =>
    unfold EagerSkyMap.buildAll
    rw [new_dims hd]
    cases h : TractInfo.new env ops b₀ a with
    | error e => rfl
    | ok r =>
      have hdd := (TractInfo.new_built h hx hy).dims
      have := ih (b₀ := r.2) (b₀' := { b₀' with state := r.2.state }) (by rw [hdd]; exact hd) (by rw [hdd]; exact hx)
        (by rw [hdd]; exact hy) (n + 1)
      simp only [bind, Except.bind, Except.map] at this ⊢
      revert this
      cases EagerSkyMap.buildAll env ops l (n + 1) r.2 <;>
        cases EagerSkyMap.buildAll env ops l (n + 1) { b₀' with state := r.2.state } <;> intro this <;>
        simp_all [pure, Except.pure]

/-! ## Witnesses -/

/-- The legacy builder with the patches of `Ex.cells`. -/
def Ex.likeCells : TractBuilder := ⟨.legacy, ⟨6, 6⟩, 4, none⟩

/-- The hypotheses are met by a tract of 2 by 2 patches, and the outer boxes really differ. -/
example : ∃ t b b', TractInfo.new Ex.env Ex.ops Ex.likeCells Ex.args = .ok (t, b) ∧
    TractInfo.new Ex.env Ex.ops Ex.cells Ex.args = .ok (t, b') ∧ t.numPatches = ⟨2, 2⟩ ∧
    ((t.getPatchInfo b (.number 1)).map fun p => (p.innerBBox, p.outerBBox)) =
      .ok (⟨⟨6, 0⟩, ⟨6, 6⟩⟩, ⟨⟨2, 0⟩, ⟨10, 10⟩⟩) ∧
    ((t.getPatchInfo b' (.number 1)).map fun p => (p.innerBBox, p.outerBBox)) =
      .ok (⟨⟨6, 0⟩, ⟨6, 6⟩⟩, ⟨⟨2, -4⟩, ⟨14, 14⟩⟩) := by
  have hw : (TractInfo.new Ex.env Ex.ops Ex.likeCells Ex.args).map (fun r => (r.1.numPatches,
      (r.1.getPatchInfo r.2 (.number 1)).map fun p => (p.innerBBox, p.outerBBox),
      (r.1.getPatchInfo { Ex.cells with state := r.2.state } (.number 1)).map fun p => (p.innerBBox, p.outerBBox))) =
      .ok (⟨2, 2⟩, .ok (⟨⟨6, 0⟩, ⟨6, 6⟩⟩, ⟨⟨2, 0⟩, ⟨10, 10⟩⟩), .ok (⟨⟨6, 0⟩, ⟨6, 6⟩⟩, ⟨⟨2, -4⟩, ⟨14, 14⟩⟩)) := by
    decide +kernel
  obtain ⟨⟨t, b⟩, h1, h2⟩ := Except.map_ok_inv hw
  simp only [Prod.mk.injEq] at h2
  refine ⟨t, b, { Ex.cells with state := b.state }, h1, ?_, h2.1, h2.2.1, h2.2.2⟩
  rw [new_dims (b₀ := Ex.likeCells) (by decide), h1]
  rfl

/-- And by two sky maps after the accesses 2, 0, 7. -/
example : ∃ s s', SameHistory Ex.equalMap Ex.likeCells Ex.cells s s' ∧ (s.cache.map Option.isSome) = [true, false, true] ∧
    Ex.likeCells.state = none ∧ Ex.cells.state = none ∧
    Ex.likeCells.patchInnerDimensions = Ex.cells.patchInnerDimensions ∧ 0 < Ex.likeCells.patchInnerDimensions.x ∧
    0 < Ex.likeCells.patchInnerDimensions.y ∧ 0 ≤ Ex.likeCells.patchBorder ∧ Ex.likeCells.patchBorder = Ex.cells.patchBorder :=
  ⟨_, _, ⟨[2, 0, 7], rfl, rfl⟩, by decide +kernel, by decide, by decide, by decide, by decide, by decide, by decide, by decide⟩

end Skymap
