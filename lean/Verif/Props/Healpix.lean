import Verif.Model.Healpix
import Verif.Props.Caching
import Verif.Spec.ExampleMap
import Mathlib.Tactic.Positivity

/-! # C53: HEALPix sky maps -/

namespace Skymap
open CachingSkyMap

set_option linter.unusedSectionVars false
variable {K : Type} [Field K] [LinearOrder K] [FloorRing K] [IsStrictOrderedRing K]

/-! ## Specification vocabulary -/

/-- A position as `SpherePoint` holds it. -/
def SpherePoint.Valid (pi : K) (c : SpherePoint K) : Prop := 0 ≤ c.lon ∧ c.lon < 2 * pi ∧ -(pi / 2) ≤ c.lat ∧ c.lat ≤ pi / 2

/-- Angles in HEALPix's ranges. -/
def AngValid (pi : K) (a : K × K) : Prop := 0 ≤ a.1 ∧ a.1 ≤ pi ∧ 0 ≤ a.2 ∧ a.2 < 2 * pi

/-- What is assumed of `hpgeom`: the centre of a pixel has angles in range and lies in that pixel; every direction lies in
some pixel; the boundary of a pixel has angles in range. -/
structure HpGeom.Ok (pi : K) (hp : HpGeom K) (n : Nat) (nest : Bool) : Prop where
  center : ∀ k : Int, 0 ≤ k → k < (12 * n * n : Nat) →
    ∃ a, hp.pixelToAngle n nest k = .ok a ∧ AngValid pi a ∧ hp.angleToPixel n nest a = k
  pixel : ∀ a, AngValid pi a → 0 ≤ hp.angleToPixel n nest a ∧ hp.angleToPixel n nest a < (12 * n * n : Nat)
  boundary : ∀ k : Int, 0 ≤ k → k < (12 * n * n : Nat) → ∃ l, hp.boundaries n nest k = .ok l ∧ ∀ a ∈ l, AngValid pi a

/-! ## C53 -/

theorem wrap_of_range {pi x : K} (h0 : 0 ≤ x) (h1 : x < 2 * pi) : wrapAngle pi x = x := by
  have hp : 0 < 2 * pi := lt_of_le_of_lt h0 h1
  have : ⌊x / (2 * pi)⌋ = 0 := by
    rw [Int.floor_eq_iff]
    constructor
    · simpa using div_nonneg h0 hp.le
    · simpa using (div_lt_one hp).2 h1
  simp [wrapAngle, this]

/-- C53: `angToCoord` accepts exactly 0 <= theta <= pi, and the two conversions are inverse to each other. -/
theorem C53_inverse (pi : K) :
    (∀ a : K × K, AngValid pi a → ∃ c, angToCoord pi a = .ok c ∧ c.Valid pi ∧ coordToAng pi c = a) ∧
    (∀ c : SpherePoint K, c.Valid pi → AngValid pi (coordToAng pi c) ∧ angToCoord pi (coordToAng pi c) = .ok c) ∧
    (∀ a : K × K, a.1 < 0 ∨ pi < a.1 → angToCoord pi a = .error .PexError) := by
  refine ⟨?_, ?_, ?_⟩
  · rintro ⟨θ, φ⟩ ⟨h1, h2, h3, h4⟩
    dsimp only at h1 h2 h3 h4
    refine ⟨⟨φ, θ - 1 / 2 * pi⟩, ?_, ⟨h3, h4, by dsimp only; linarith, by dsimp only; linarith⟩, ?_⟩
    · unfold angToCoord SpherePoint.new
      rw [if_neg, wrap_of_range h3 h4]
      dsimp only
      rintro (h | h) <;> linarith
    · simp [coordToAng]
  · rintro ⟨φ, δ⟩ ⟨h1, h2, h3, h4⟩
    dsimp only at h1 h2 h3 h4
    refine ⟨⟨?_, ?_, h1, h2⟩, ?_⟩
    · simp only [coordToAng]; linarith
    · simp only [coordToAng]; linarith
    · unfold angToCoord coordToAng SpherePoint.new
      rw [if_neg, wrap_of_range h1 h2]
      · simp
      · dsimp only; rintro (h | h) <;> linarith
  · rintro ⟨θ, φ⟩ h
    unfold angToCoord SpherePoint.new
    rw [if_pos]
    dsimp only at h ⊢
    rcases h with h | h
    · left; linarith
    · right; linarith

variable {pi : K} {env : FloatEnv K} {ops : SkyOps (SpherePoint K) K} {hp : HpGeom K}
  {makeWcs : SpherePoint K → Wcs (SpherePoint K) K} {c : HealpixConfig K} {m : CachingDef (SpherePoint K) K}

theorem healpix_def_inv (hm : HealpixSkyMap.cachingDef pi env ops hp makeWcs c = .ok m) :
    0 ≤ c.log2NSide ∧ m = {
      env := env, ops := ops, numTracts := 12 * 2 ^ c.log2NSide.toNat * 2 ^ c.log2NSide.toNat
      tractArgs := fun index => do
        let ang ← hp.pixelToAngle (2 ^ c.log2NSide.toNat) c.nest index
        let center ← angToCoord pi ang
        let bnd ← hp.boundaries (2 ^ c.log2NSide.toNat) c.nest index
        let vertexList ← pyMapM (angToCoord pi) bnd
        return { id := index, ctrCoord := center, shape := .vertices vertexList
                 tractOverlap := c.tractOverlap, wcs := makeWcs center } } := by
  unfold HealpixSkyMap.cachingDef HealpixSkyMap.nside pyShiftLeft at hm
  by_cases h : c.log2NSide < 0
  · simp [h, bind, Except.bind] at hm
  · refine ⟨by omega, ?_⟩
    simp only [h, if_false, one_mul] at hm
    exact (Except.ok.inj hm).symm

/-- C53: a sky map is made for every non-negative log2NSide, and has 12*4**log2NSide tracts; a negative one is refused with
`ValueError`. -/
theorem C53_number_of_tracts :
    (0 ≤ c.log2NSide → ∃ m, HealpixSkyMap.cachingDef pi env ops hp makeWcs c = .ok m ∧
      (skyMapOps m).len = 12 * 4 ^ c.log2NSide.toNat) ∧
    (c.log2NSide < 0 → HealpixSkyMap.cachingDef pi env ops hp makeWcs c = .error .ValueError) := by
  constructor
  · intro h
    refine ⟨_, by
      unfold HealpixSkyMap.cachingDef HealpixSkyMap.nside pyShiftLeft
      rw [if_neg (by omega)]
      rfl, ?_⟩
    change 12 * (1 * 2 ^ c.log2NSide.toNat) * (1 * 2 ^ c.log2NSide.toNat) = _
    rw [one_mul, mul_assoc, ← mul_pow]
    norm_num
  · intro h
    unfold HealpixSkyMap.cachingDef HealpixSkyMap.nside pyShiftLeft
    rw [if_pos h]
    rfl

theorem pyMapM_total {α β : Type} {f : α → PyM β} {l : List α} (h : ∀ a ∈ l, ∃ b, f a = .ok b) :
    ∃ bs, pyMapM f l = .ok bs := by
  induction l with
  | nil => exact ⟨[], rfl⟩
  | cons a l ih =>
    obtain ⟨b, hb⟩ := h a (by simp)
    obtain ⟨bs, hbs⟩ := ih fun x hx => h x (by simp [hx])
    exact ⟨b :: bs, by simp [pyMapM, hb, hbs]⟩

/-- C53: tract k is generated with id k, centred on pixel k of `hpgeom`; its arguments are computed for every k in range. -/
theorem C53_tract_args (hm : HealpixSkyMap.cachingDef pi env ops hp makeWcs c = .ok m)
    (hok : hp.Ok pi (2 ^ c.log2NSide.toNat) c.nest) (k : Int) (h0 : 0 ≤ k) (h1 : k < (skyMapOps m).len) :
    ∃ a, m.tractArgs k = .ok a ∧ a.id = k ∧ a.ctrCoord.Valid pi ∧ a.tractOverlap = c.tractOverlap ∧
      hp.pixelToAngle (2 ^ c.log2NSide.toNat) c.nest k = .ok (coordToAng pi a.ctrCoord) := by
  obtain ⟨-, rfl⟩ := healpix_def_inv hm
  obtain ⟨g1, -, -⟩ := C53_inverse pi
  obtain ⟨ang, e1, v1, -⟩ := hok.center k h0 h1
  obtain ⟨ctr, e2, v2, e3⟩ := g1 ang v1
  obtain ⟨l, e4, hl⟩ := hok.boundary k h0 h1
  obtain ⟨vs, e5⟩ := pyMapM_total (f := angToCoord pi) (l := l) fun a ha => by
    obtain ⟨c', hc, -⟩ := g1 a (hl a ha)
    exact ⟨c', hc⟩
  refine ⟨{ id := k, ctrCoord := ctr, shape := .vertices vs, tractOverlap := c.tractOverlap, wcs := makeWcs ctr },
    by simp only [e1, e2, e4, e5, bind, Except.bind, pure, Except.pure], rfl, v2, rfl, by rw [e1, e3]⟩

theorem healpix_id (hm : HealpixSkyMap.cachingDef pi env ops hp makeWcs c = .ok m) :
    ∀ i a, m.tractArgs i = .ok a → a.id = i := by
  obtain ⟨-, rfl⟩ := healpix_def_inv hm
  intro i a h
  dsimp only at h
  simp only [bind, Except.bind] at h
  split at h <;> try (simp at h; done)
  split at h <;> try (simp at h; done)
  split at h <;> try (simp at h; done)
  split at h <;> try (simp at h; done)
  simp only [pure, Except.pure, Except.ok.injEq] at h
  rw [← h]

/-- C53: `findTract` of any position is `skyMap[k]` for a valid tract index k, the pixel that the position lies in. -/
theorem C53_findTract (hm : HealpixSkyMap.cachingDef pi env ops hp makeWcs c = .ok m)
    (hok : hp.Ok pi (2 ^ c.log2NSide.toNat) c.nest) (p : SpherePoint K) (hv : p.Valid pi) :
    ∃ k : Int, 0 ≤ k ∧ k < (skyMapOps m).len ∧
      hp.angleToPixel (2 ^ c.log2NSide.toNat) c.nest (coordToAng pi p) = k ∧
      HealpixSkyMap.findTract pi hp (2 ^ c.log2NSide.toNat) c.nest m p = (skyMapOps m).getItem k := by
  obtain ⟨-, g2, -⟩ := C53_inverse pi
  have := hok.pixel _ (g2 p hv).1
  refine ⟨_, this.1, ?_, rfl, rfl⟩
  obtain ⟨-, rfl⟩ := healpix_def_inv hm
  exact this.2

/-- C53: `findTract` of the centre of any tract finds that tract - the identical object - after every history of accesses. -/
theorem C53_findTract_center (hm : HealpixSkyMap.cachingDef pi env ops hp makeWcs c = .ok m)
    (hok : hp.Ok pi (2 ^ c.log2NSide.toNat) c.nest) {b₀ : TractBuilder} {s s' s'' : MapState (SpherePoint K) K}
    (h : (skyMapOps m).After (init m b₀) s) (k : Int) (r : TractRef (SpherePoint K) K)
    (hg : (skyMapOps m).getItem k s = (.ok r, s')) (h' : (skyMapOps m).After s' s'') :
    HealpixSkyMap.findTract pi hp (2 ^ c.log2NSide.toNat) c.nest m r.info.ctrCoord s'' = (.ok r, s'') := by
  obtain ⟨⟨h0, h1⟩, hid, hperm⟩ := C18_permanent (healpix_id hm) h k r hg
  have hctr : ∃ a, m.tractArgs k = .ok a ∧ r.info.ctrCoord = a.ctrCoord := by
    have I := (Inv.init m b₀).after h
    obtain ⟨j, rfl, hj, hc⟩ := cached_after_ok I hg
    have I' : Inv m b₀ s' := by
      have := I.getItem (j : Int)
      rw [show CachingSkyMap.getItem m (j : Int) s = (.ok r, s') from hg] at this
      exact this
    obtain ⟨-, b, hf⟩ := I'.info j r hc
    unfold fresh at hf
    cases ha : m.tractArgs (j : Int) with
    | error e => rw [ha] at hf; simp at hf
    | ok a =>
      rw [ha] at hf
      refine ⟨a, rfl, ?_⟩
      obtain ⟨_, _, _, -, -, e⟩ := TractInfo.new_inv hf
      rw [e]
  obtain ⟨a, ha, hca⟩ := hctr
  obtain ⟨a', ha', -, -, -, hang⟩ := C53_tract_args hm hok k h0 h1
  rw [ha] at ha'
  obtain rfl := Except.ok.inj ha'
  obtain ⟨-, e⟩ := healpix_def_inv hm
  obtain ⟨ang, e1, -, e2⟩ := hok.center k h0 (by
    rw [e] at h1
    exact h1)
  rw [hang] at e1
  obtain rfl := Except.ok.inj e1
  unfold HealpixSkyMap.findTract
  rw [hca, e2]
  exact hperm s'' h'

/-! ## Example: a division of the sky into slices of longitude meets the assumptions on `hpgeom` -/

/-- `12*n*n` equal slices of longitude; with a "pi" of 3. -/
def Ex.slices : HpGeom ℚ where
  boundaries _ _ _ := .ok [(0, 0), (3, 0)]
  pixelToAngle n _ k := .ok (3 / 2, (k + 1 / 2) * 6 / (12 * n * n : Nat))
  angleToPixel n _ a := ⌊a.2 * (12 * n * n : Nat) / 6⌋

theorem Ex.slices_ok (n : Nat) (hn : 0 < n) (nest : Bool) : Ex.slices.Ok 3 n nest where
  center k h0 h1 := by
    have hN : (0 : ℚ) < (12 * n * n : Nat) := by exact_mod_cast (by positivity : 0 < 12 * n * n)
    have k0 : (0 : ℚ) ≤ k := by exact_mod_cast h0
    have k1 : (k : ℚ) + 1 ≤ (12 * n * n : Nat) := by
      have : k + 1 ≤ ((12 * n * n : Nat) : Int) := h1
      exact_mod_cast this
    generalize hNN : ((12 * n * n : Nat) : ℚ) = N at hN k1
    refine ⟨(3 / 2, ((k : ℚ) + 1 / 2) * 6 / N), by simp only [Ex.slices, hNN], ⟨by norm_num, by norm_num, ?_, ?_⟩, ?_⟩
    · dsimp only; positivity
    · dsimp only
      rw [div_lt_iff₀ hN]
      linarith
    · simp only [Ex.slices, hNN]
      rw [div_mul_cancel₀ _ hN.ne', Int.floor_eq_iff]
      constructor <;> linarith
  pixel a ha := by
    have hN : (0 : ℚ) < (12 * n * n : Nat) := by exact_mod_cast (by positivity : 0 < 12 * n * n)
    obtain ⟨-, -, h3, h4⟩ := ha
    simp only [Ex.slices]
    constructor
    · exact Int.floor_nonneg.2 (by positivity)
    · rw [Int.floor_lt]
      rw [div_lt_iff₀ (by norm_num)]
      push_cast at *
      nlinarith
  boundary k _ _ := ⟨_, rfl, by
    intro a ha
    simp only [List.mem_cons, List.not_mem_nil, or_false] at ha
    rcases ha with rfl | rfl <;> refine ⟨?_, ?_, ?_, ?_⟩ <;> norm_num⟩

/-- The hypotheses of the theorems are met: a sky map of 48 tracts, whose tract 7 is found at its centre. -/
example : ∃ m : CachingDef (SpherePoint ℚ) ℚ,
    HealpixSkyMap.cachingDef 3 Ex.env ⟨fun c _ _ => c, fun a b => |a.lon - b.lon|⟩ Ex.slices
      (fun _ => ⟨fun c => .pix ⟨c.lon * 10, c.lat * 10⟩, fun p => ⟨p.x / 10, p.y / 10⟩⟩) ⟨1, false, 0⟩ = .ok m ∧
    Ex.slices.Ok 3 (2 ^ (1 : Int).toNat) false ∧ (skyMapOps m).len = 48 ∧
    ∃ r s', (skyMapOps m).getItem 7 (init m Ex.legacy) = (.ok r, s') := by
  obtain ⟨m, hm, hl⟩ := (C53_number_of_tracts (pi := (3 : ℚ)) (env := Ex.env)
    (ops := ⟨fun c _ _ => c, fun a b => |a.lon - b.lon|⟩) (hp := Ex.slices)
    (makeWcs := fun _ => ⟨fun c => .pix ⟨c.lon * 10, c.lat * 10⟩, fun p => ⟨p.x / 10, p.y / 10⟩⟩)
    (c := ⟨1, false, 0⟩)).1 (by decide)
  refine ⟨m, hm, Ex.slices_ok _ (by decide) _, hl, ?_⟩
  have key : ((skyMapOps m).getItem 7 (init m Ex.legacy)).1.isOk = true := by
    have e := (healpix_def_inv hm).2
    subst e
    decide +kernel
  cases hr : (skyMapOps m).getItem 7 (init m Ex.legacy) with
  | mk x s' =>
    rw [hr] at key
    cases x with
    | error e => simp [Except.isOk, Except.toBool] at key
    | ok r => exact ⟨r, s', rfl⟩

end Skymap
