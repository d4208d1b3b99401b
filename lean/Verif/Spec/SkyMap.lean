import Verif.Model.SkyMap

/-! # Specification vocabulary for sky maps -/

namespace Skymap
variable {Sky K σ : Type}

/-- `s'` is a state reached from `s` by some history of tract accesses `skyMap[i]`, for any indices,
including accesses that raise. -/
def SkyMapOps.After (M : SkyMapOps σ Sky K) (s s' : σ) : Prop :=
  ∃ l : List Int, s' = l.foldl (fun s i => (M.getItem i s).2) s

/-- A method changes the state only through tract accesses. -/
def SkyMapOps.OnlyAccesses {α : Type} (M : SkyMapOps σ Sky K) (m : PyS σ α) : Prop :=
  ∀ s, M.After s (m s).2

end Skymap

namespace Skymap
variable {Sky K σ : Type}

/-- From state `s` on, tracts are permanent: once `skyMap[i]` has been returned, every later access
returns the identical object and changes nothing. -/
def SkyMapOps.Permanent (M : SkyMapOps σ Sky K) (s : σ) : Prop :=
  ∀ s₁, M.After s s₁ → ∀ (i : Int) (r : TractRef Sky K) (s₂ : σ), M.getItem i s₁ = (.ok r, s₂) →
    ∀ s₃, M.After s₂ s₃ → M.getItem i s₃ = (.ok r, s₃)

/-- All tracts that a newly built sky map can generate have the same number of patches. -/
def CachingDef.Uniform [Field K] [LinearOrder K] [FloorRing K] (m : CachingDef Sky K) (b₀ : TractBuilder) : Prop :=
  ∀ (i j : Int) (r r' : TractRef Sky K) (s s' : MapState Sky K),
    CachingSkyMap.getItem m i (CachingSkyMap.init m b₀) = (.ok r, s) →
    CachingSkyMap.getItem m j (CachingSkyMap.init m b₀) = (.ok r', s') → r.info.numPatches = r'.info.numPatches

end Skymap

namespace Skymap
variable {Sky K σ : Type}

/-- From state `s` on, once a method has returned a value it returns that value for ever and changes
nothing any more. -/
def SkyMapOps.Settled {α : Type} (M : SkyMapOps σ Sky K) (f : PyS σ α) (s : σ) : Prop :=
  ∀ s₁, M.After s s₁ → ∀ a s₂, f s₁ = (.ok a, s₂) → ∀ s₃, M.After s₂ s₃ → f s₃ = (.ok a, s₃)

/-- A method that finds a tract for a coordinate: it changes the sky map only by accessing tracts, and
the tract it returns is one that it accessed. -/
structure SkyMapOps.TractFinder (M : SkyMapOps σ Sky K) (find : Sky → PyS σ (TractRef Sky K)) : Prop where
  only : ∀ c, M.OnlyAccesses (find c)
  accessed : ∀ c s r s', find c s = (.ok r, s') →
    ∃ i s₁ s₂, M.After s s₁ ∧ M.getItem i s₁ = (.ok r, s₂) ∧ M.After s₂ s'

/-- From state `s` on, once any tract has been returned the shared builder does not change any more. -/
def SkyMapOps.StableBuilder (M : SkyMapOps σ Sky K) (s : σ) : Prop :=
  ∀ s₁, M.After s s₁ → ∀ i r s₂, M.getItem i s₁ = (.ok r, s₂) → ∀ s₃, M.After s₂ s₃ → M.builder s₃ = M.builder s₂

end Skymap
