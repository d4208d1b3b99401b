import Verif.Model.Config

/-! # C51: the backward-compatible configuration accessors -/

namespace Skymap
open SkyMapConfig

variable {F : Type}

/-! ## Specification vocabulary -/

/-- The assignments of a program. -/
inductive Assign
  | innerDimensions (v : List Int)
  | border (v : Int)
  | select (name : BuilderName)
  | cells (v : CellTractBuilderConfig)

/-- The method called by an assignment. -/
def Assign.call : Assign → PyS (SkyMapConfig F) Unit
  | .innerDimensions v => setPatchInnerDimensions v
  | .border v => setPatchBorder v
  | .select n => selectBuilder n
  | .cells v => setCells v

/-- The configuration after a program of assignments (which goes on after an exception). -/
def runAssigns : List Assign → SkyMapConfig F → SkyMapConfig F
  | [], c => c
  | a :: l, c => runAssigns l (a.call c).2

/-- The last value assigned, if any. -/
def lastOf {α : Type} (f : Assign → Option α) : List Assign → Option α
  | [] => none
  | a :: l => match lastOf f l with
    | some v => some v
    | none => f a

/-- The value an assignment gives to `patchInnerDimensions`, if it assigns that. -/
def Assign.innerDimensions? : Assign → Option (List Int)
  | .innerDimensions v => some v
  | _ => none
/-- ... to `patchBorder`. -/
def Assign.border? : Assign → Option Int
  | .border v => some v
  | _ => none
/-- ... to the selection. -/
def Assign.select? : Assign → Option BuilderName
  | .select v => some v
  | _ => none
/-- ... to the cells configuration. -/
def Assign.cells? : Assign → Option CellTractBuilderConfig
  | .cells v => some v
  | _ => none

/-- The value read from an attribute. -/
def read {α : Type} (m : PyS (SkyMapConfig F) α) (c : SkyMapConfig F) : PyM α := (m c).1

/-! ## C51 -/

/-- C51: after every sequence of assignments to an unfrozen configuration, the accessors read back the
value assigned last to them (or the initial one); the selected builder and the cells configuration are
those last assigned, and nothing else has changed: assigning `patchInnerDimensions` or `patchBorder` changes
only that.  No assignment raises, and reading changes nothing. -/
theorem C51_last_assignment (c : SkyMapConfig F) (hc : c.frozen = false) (l : List Assign) :
    read getPatchInnerDimensions (runAssigns l c) =
      .ok ((lastOf Assign.innerDimensions? l).getD c.legacy.patchInnerDimensions) ∧
    read getPatchBorder (runAssigns l c) = .ok ((lastOf Assign.border? l).getD c.legacy.patchBorder) ∧
    runAssigns l c = { c with
      legacy := ⟨(lastOf Assign.innerDimensions? l).getD c.legacy.patchInnerDimensions,
                 (lastOf Assign.border? l).getD c.legacy.patchBorder⟩
      cells := (lastOf Assign.cells? l).getD c.cells
      builderName := (lastOf Assign.select? l).getD c.builderName } ∧
    (∀ a : Assign, (a.call (runAssigns l c)).1 = .ok ()) ∧
    (getPatchInnerDimensions (runAssigns l c)).2 = runAssigns l c ∧
    (getPatchBorder (runAssigns l c)).2 = runAssigns l c := by
  have key : runAssigns l c = { c with
      legacy := ⟨(lastOf Assign.innerDimensions? l).getD c.legacy.patchInnerDimensions,
                 (lastOf Assign.border? l).getD c.legacy.patchBorder⟩
      cells := (lastOf Assign.cells? l).getD c.cells
      builderName := (lastOf Assign.select? l).getD c.builderName } := by
    induction l generalizing c with
    | nil => rfl
    | cons a l ih =>
      have h2 : (a.call c).2.frozen = false := by
        cases a <;> simp [Assign.call, setPatchInnerDimensions, setPatchBorder, selectBuilder, setCells, assign, hc]
      rw [runAssigns, ih _ h2]
      cases a <;>
        simp only [Assign.call, setPatchInnerDimensions, setPatchBorder, selectBuilder, setCells, assign, hc, lastOf,
          Bool.false_eq_true, if_false] <;>
        cases lastOf Assign.innerDimensions? l <;> cases lastOf Assign.border? l <;>
        cases lastOf Assign.cells? l <;> cases lastOf Assign.select? l <;> rfl
  have hf : (runAssigns l c).frozen = false := by rw [key]; exact hc
  refine ⟨by rw [key]; rfl, by rw [key]; rfl, key, fun a => ?_, rfl, rfl⟩
  cases a <;> simp [Assign.call, setPatchInnerDimensions, setPatchBorder, selectBuilder, setCells, assign, hf]

/-- C51: what the sky map built from the configuration gets: with the legacy builder, the patch size and
border assigned last; with the cells builder, nothing of them. -/
theorem C51_effect (c : SkyMapConfig F) (hc : c.frozen = false) (l : List Assign)
    (hp : c.projection.length = 3) (b : TractBuilder)
    (h : (BaseSkyMap.init (runAssigns l c)).1 = .ok b) :
    ((lastOf Assign.select? l).getD c.builderName = .legacy →
      [b.getPatchInnerDimensions.x, b.getPatchInnerDimensions.y] =
        (lastOf Assign.innerDimensions? l).getD c.legacy.patchInnerDimensions ∧
      b.getPatchBorder = (lastOf Assign.border? l).getD c.legacy.patchBorder ∧ b.kind = .legacy) ∧
    ((lastOf Assign.select? l).getD c.builderName = .cells →
      CellTractBuilder.new ((lastOf Assign.cells? l).getD c.cells) = .ok b) := by
  obtain ⟨-, -, key, -⟩ := C51_last_assignment c hc l
  rw [key] at h
  unfold BaseSkyMap.init wcsFactoryCheck at h
  simp only [hp, ne_eq, not_true_eq_false, if_false, makeBuilder] at h
  constructor
  · intro hs
    rw [hs] at h
    unfold LegacyTractBuilder.new at h
    dsimp only at h
    split at h
    · rename_i a b' e
      simp only [Except.ok.injEq] at h
      subst h
      exact ⟨e.symm, rfl, rfl⟩
    · simp at h
  · intro hs
    rw [hs] at h
    exact h

/-- C51: once a sky map has been built from the configuration (or building it failed), every assignment raises
and the configuration stays as it was. -/
theorem C51_frozen (c : SkyMapConfig F) (l : List Assign) :
    let c' := (BaseSkyMap.init c).2
    c' = { c with frozen := true } ∧ runAssigns l c' = c' ∧
      ∀ a : Assign, a.call (runAssigns l c') = (.error .FieldValidationError, c') := by
  have h1 : (BaseSkyMap.init c).2 = { c with frozen := true } := by
    unfold BaseSkyMap.init
    dsimp only
    cases wcsFactoryCheck c.projection <;> rfl
  have h2 : ∀ a : Assign, a.call ({ c with frozen := true } : SkyMapConfig F) =
      (.error .FieldValidationError, { c with frozen := true }) := by
    intro a
    cases a <;> rfl
  have h3 : ∀ l : List Assign, runAssigns l ({ c with frozen := true } : SkyMapConfig F) = { c with frozen := true } := by
    intro l
    induction l with
    | nil => rfl
    | cons a l ih => rw [runAssigns, h2, ih]
  dsimp only
  rw [h1, h3 l]
  exact ⟨rfl, rfl, h2⟩

/-! ## Examples -/

/-- A configuration with rational numbers for floats. -/
def Ex.config : SkyMapConfig Int := { tractOverlap := 1, pixelScale := 1, rotation := 0 }

example : Ex.config.frozen = false ∧ Ex.config.projection.length = 3 ∧
    (BaseSkyMap.init (runAssigns [.border 7, .innerDimensions [30, 40], .select .cells, .border 8, .select .legacy]
      Ex.config)).1 = .ok ⟨.legacy, ⟨30, 40⟩, 8, none⟩ := by decide

end Skymap
