import Verif.Model.Packer
import Mathlib.Data.Nat.Log
import Mathlib.Tactic.Ring
import Mathlib.Tactic.Linarith

/-! # C42 - C46: packing data IDs into integers -/

namespace Skymap
open Packer

set_option linter.unusedSimpArgs false

/-! ## Specification vocabulary -/

/-- The band mapping numbers the bands by their position, as the default mapping does. -/
def BandDict.Positional (d : BandDict) : Prop := ∀ (k : Nat) (b : Option String) (v : Int), d[k]? = some (b, v) → v = k

/-- A Python dict has every key once. -/
def BandDict.Dict (d : BandDict) : Prop := (d.map Prod.fst).Nodup

/-- Different bands have different numbers. -/
def BandDict.Distinct (d : BandDict) : Prop := ∀ b b' v, d.get b = some v → d.get b' = some v → b = b'

/-- All bands have non-negative numbers. -/
def BandDict.Nonneg (d : BandDict) : Prop := ∀ b v, d.get b = some v → 0 ≤ v

/-- A data ID has the dimensions of the packer: a band exactly if the packer's dimensions include it. -/
def Packer.Fits (p : Packer) (d : DataId) : Prop := d.band.isSome = p.hasBand

/-- The packer uses bands exactly if its dimensions include them. -/
def Packer.Consistent (p : Packer) : Prop := p.hasBand = true ↔ p.nBands ≠ 0

/-- The number of data IDs that a packer leaves room for. -/
def Packer.room (p : Packer) : Int := p.nTracts * p.nPatches * (if p.nBands = 0 then 1 else p.nBands)

/-! ## Lemmas -/

/-- What `pack` accepts, and what it returns. -/
theorem pack_iff (p : Packer) (d : DataId) (k : Int) :
    p.pack d = .ok k ↔ d.skymap = p.fixed.skymap ∧ d.patch < p.nPatches ∧ d.tract < p.nTracts ∧
      ((p.nBands = 0 ∧ k = d.patch + p.nPatches * d.tract) ∨
       (p.nBands ≠ 0 ∧ ∃ b v, d.band = some b ∧ p.bands.get (some b) = some v ∧ v < p.nBands ∧
          k = d.patch + p.nPatches * d.tract + v * p.nPatches * p.nTracts)) := by
  unfold pack
  by_cases h1 : d.skymap = p.fixed.skymap
  swap
  · simp [h1, bind, Except.bind, throw, throwThe, MonadExceptOf.throw]
  by_cases h2 : d.patch < p.nPatches
  swap
  · simp [h1, h2, bind, Except.bind, throw, throwThe, MonadExceptOf.throw, pure, Except.pure, not_lt.1 h2]
  by_cases h3 : d.tract < p.nTracts
  swap
  · simp [h1, h2, h3, bind, Except.bind, throw, throwThe, MonadExceptOf.throw, pure, Except.pure, not_lt.1 h3]
  have h2' : ¬ (d.patch ≥ p.nPatches) := by omega
  have h3' : ¬ (d.tract ≥ p.nTracts) := by omega
  by_cases h4 : p.nBands = 0
  · simp [h1, h2, h3, h2', h3', h4, bind, Except.bind, pure, Except.pure, eq_comm]
  · simp only [h1, h2, h3, h2', h3', h4, ne_eq, not_true_eq_false, not_false_eq_true, if_true, if_false, bind, Except.bind,
      pure, Except.pure, true_and, false_and, false_or]
    cases hb : d.band with
    | none => simp [throw, throwThe, MonadExceptOf.throw]
    | some b =>
      cases hg : p.bands.get (some b) with
      | none => simp [throw, throwThe, MonadExceptOf.throw, hg]
      | some v =>
        by_cases h5 : v < p.nBands
        · have h5' : ¬ (v ≥ p.nBands) := by omega
          simp [h5, h5', hg, eq_comm]
        · simp [h5, not_lt.1 h5, throw, throwThe, MonadExceptOf.throw, hg]

theorem pyDivMod_pos {a b : Int} (h : 0 < b) : pyDivMod a b = .ok (a / b, a % b) := by
  unfold pyDivMod
  rw [if_neg (by omega), Int.fdiv_eq_ediv_of_nonneg _ (by omega), Int.fmod_eq_emod_of_nonneg _ (by omega)]

/-- Splitting patch + nPatches * tract. -/
theorem split_patch {q t n : Int} (h0 : 0 ≤ q) (h1 : q < n) : (q + n * t) / n = t ∧ (q + n * t) % n = q := by
  have hn : n ≠ 0 := by omega
  constructor
  · rw [Int.add_mul_ediv_left _ _ hn, Int.ediv_eq_zero_of_lt h0 h1]; omega
  · rw [Int.add_mul_emod_self_left, Int.emod_eq_of_lt h0 h1]

theorem inner_range {q t n m : Int} (h0 : 0 ≤ q) (h1 : q < n) (h2 : 0 ≤ t) (h3 : t < m) :
    0 ≤ q + n * t ∧ q + n * t < m * n := by
  have : 0 ≤ n * t := Int.mul_nonneg (by omega) h2
  have h5 : n * (t + 1) ≤ n * m := Int.mul_le_mul_of_nonneg_left (by omega) (by omega)
  have h6 : n * (t + 1) = n * t + n := by ring
  have h7 : m * n = n * m := by ring
  omega

/-- `unpack` of a packed integer. -/
theorem unpack_packed (p : Packer) (d : DataId) (ht : 0 ≤ d.tract) (hq : 0 ≤ d.patch) :
    ∀ k, p.pack d = .ok k →
    (p.nBands = 0 → p.unpack k = p.standardize ⟨d.skymap, d.tract, d.patch, none⟩) ∧
    (∀ b v, p.nBands ≠ 0 → d.band = some b → p.bands.get (some b) = some v →
      p.unpack k = match pyGetItem (p.bands.map Prod.fst) v with
        | .error e => .error e
        | .ok key => p.standardize ⟨d.skymap, d.tract, d.patch, key⟩) := by
  intro k hk
  obtain ⟨h1, h2, h3, h4⟩ := (pack_iff p d k).1 hk
  obtain ⟨r1, r2⟩ := inner_range hq h2 ht h3
  obtain ⟨s1, s2⟩ := split_patch (t := d.tract) hq h2
  have hp : 0 < p.nPatches := by omega
  constructor
  · intro h0
    rcases h4 with ⟨-, rfl⟩ | ⟨h, -⟩
    · simp [unpack, h0, pyDivMod_pos hp, s1, s2, bind, Except.bind, h1]
    · exact absurd h0 h
  · intro b v h0 hb hv
    rcases h4 with ⟨h, -⟩ | ⟨-, b', v', hb', hv', -, rfl⟩
    · exact absurd h h0
    · rw [hb] at hb'
      obtain rfl : b = b' := by simpa using hb'
      rw [hv] at hv'
      obtain rfl : v = v' := by simpa using hv'
      have hn : 0 < p.nTracts * p.nPatches := Int.mul_pos (by omega) hp
      have e : d.patch + p.nPatches * d.tract + v * p.nPatches * p.nTracts =
          (d.patch + p.nPatches * d.tract) + (p.nTracts * p.nPatches) * v := by ring
      obtain ⟨t1, t2⟩ := split_patch (t := v) r1 r2
      simp only [unpack, h0, ne_eq, not_false_eq_true, if_true, pyDivMod_pos hn, pyDivMod_pos hp, bind, Except.bind, e, t1, t2, s1,
        s2, h1]
      cases pyGetItem (p.bands.map Prod.fst) v <;> rfl

theorem standardize_fits (p : Packer) (d : DataId) (h : p.Fits d) : p.standardize d = .ok d := by
  unfold standardize
  unfold Packer.Fits at h
  cases hb : p.hasBand with
  | true =>
    rw [hb] at h
    cases hd : d.band with
    | none => rw [hd] at h; simp at h
    | some b => rfl
  | false =>
    rw [hb] at h
    cases hd : d.band with
    | none => simp [hd.symm]
    | some b => rw [hd] at h; simp at h

theorem get_mem {d : BandDict} {b : Option String} {v : Int} (h : d.get b = some v) :
    ∃ k : Nat, d[k]? = some (b, v) := by
  unfold BandDict.get at h
  rw [Option.map_eq_some_iff] at h
  obtain ⟨⟨b', v'⟩, h1, h2⟩ := h
  have h3 := List.find?_some h1
  have h4 := List.mem_of_find?_eq_some h1
  simp only [beq_iff_eq] at h3
  dsimp only at h2
  subst h2 h3
  exact List.getElem?_of_mem h4

theorem mem_get {d : BandDict} (hd : d.Dict) {k : Nat} {b : Option String} {v : Int} (h : d[k]? = some (b, v)) :
    d.get b = some v := by
  induction d generalizing k with
  | nil => simp at h
  | cons e d ih =>
    obtain ⟨hn1, hn2⟩ := List.nodup_cons.1 hd
    cases k with
    | zero =>
      simp only [List.getElem?_cons_zero, Option.some.injEq] at h
      subst h
      simp [BandDict.get]
    | succ k =>
      simp only [List.getElem?_cons_succ] at h
      have hne : e.1 ≠ b := by
        rintro rfl
        apply hn1
        have := List.mem_of_getElem? h
        exact List.mem_map.2 ⟨_, this, rfl⟩
      have := ih hn2 h
      unfold BandDict.get at this ⊢
      rw [List.find?_cons_of_neg (by simpa using hne)]
      exact this

theorem positional_key {d : BandDict} (hd : d.Positional) {b : Option String} {v : Int} (h : d.get b = some v) :
    pyGetItem (d.map Prod.fst) v = .ok b := by
  obtain ⟨k, hk⟩ := get_mem h
  have := hd k b v hk
  subst this
  unfold pyGetItem
  dsimp only
  rw [if_neg (by omega), if_neg (by omega), Int.toNat_natCast, List.getElem?_map, hk]
  rfl

/-! ## C42 -/

/-- C42: the exact condition, for every packer and every accepted data ID with non-negative tract and
patch: without bands unpacking gives the data ID back; with bands it does if and only if the band's
number is the position of the band in the mapping (where a negative number counts from the end). -/
theorem C42_unpack_pack_iff_partial (p : Packer) (hc : p.Consistent) (d : DataId) (hfit : p.Fits d)
    (ht : 0 ≤ d.tract) (hq : 0 ≤ d.patch) (k : Int) (hk : p.pack d = .ok k) :
    (p.nBands = 0 → p.unpack k = .ok d) ∧
    (p.nBands ≠ 0 → ∀ v, p.bands.get d.band = some v →
      (p.unpack k = .ok d ↔ pyGetItem (p.bands.map Prod.fst) v = .ok d.band)) := by
  obtain ⟨u1, u2⟩ := unpack_packed p d ht hq k hk
  constructor
  · intro h0
    rw [u1 h0]
    have hb : p.hasBand = false := by
      have := hc.not.2 (by simpa using h0)
      simpa using this
    have hd : d.band = none := by
      unfold Packer.Fits at hfit
      rw [hb] at hfit
      simpa using hfit
    rw [show (⟨d.skymap, d.tract, d.patch, none⟩ : DataId) = d by rw [← hd]]
    exact standardize_fits p d hfit
  · intro h0 v hv
    have hb : p.hasBand = true := hc.2 h0
    have hd : d.band.isSome = true := by unfold Packer.Fits at hfit; rw [hfit, hb]
    obtain ⟨b, hb'⟩ := Option.isSome_iff_exists.1 hd
    rw [hb'] at hv
    rw [u2 b v h0 hb' hv]
    cases hg : pyGetItem (p.bands.map Prod.fst) v with
    | error e => simp
    | ok key =>
      dsimp only
      constructor
      · intro h
        unfold standardize at h
        rw [hb] at h
        cases key with
        | none => simp at h
        | some x =>
          simp only [if_true, Except.ok.injEq] at h
          rw [← h]
      · intro h
        simp only [Except.ok.injEq] at h
        subst h
        exact standardize_fits p d hfit

/-- C42 for the mappings that number bands by position, as the default mapping does. -/
theorem C42_positional_partial (p : Packer) (hc : p.Consistent) (hpos : p.bands.Positional) (d : DataId)
    (hfit : p.Fits d) (ht : 0 ≤ d.tract) (hq : 0 ≤ d.patch) (k : Int) (hk : p.pack d = .ok k) :
    p.unpack k = .ok d := by
  obtain ⟨h1, h2⟩ := C42_unpack_pack_iff_partial p hc d hfit ht hq k hk
  by_cases h0 : p.nBands = 0
  · exact h1 h0
  · obtain ⟨-, -, -, ⟨h, -⟩ | ⟨-, b, v, hb, hv, -, -⟩⟩ := (pack_iff p d k).1 hk
    · exact absurd h h0
    · rw [← hb] at hv
      exact (h2 h0 v hv).2 (positional_key hpos hv)

/-- C42: the default band mapping is positional and has every band once, and a packer made without
explicit dimensions is consistent. -/
theorem C42_default : defaultBands.Positional ∧ defaultBands.Dict ∧
    ∀ fixed bands nb nt np p, Packer.new fixed none bands nb nt np = .ok p → p.Consistent := by
  refine ⟨?_, by unfold BandDict.Dict; decide, ?_⟩
  · intro k b v h
    unfold defaultBands at h
    rw [List.getElem?_map, Option.map_eq_some_iff] at h
    obtain ⟨⟨b', n⟩, h1, h2⟩ := h
    rw [List.getElem?_zipIdx] at h1
    rw [Option.map_eq_some_iff] at h1
    obtain ⟨x, -, h3⟩ := h1
    simp only [Prod.mk.injEq] at h2 h3
    omega
  · intro fixed bands nb nt np p h
    unfold Packer.new at h
    simp only [bind, Except.bind, pure, Except.pure] at h
    cases hr : fixed.getRecord with
    | error e =>
      rw [hr] at h
      cases nt <;> cases np <;> simp only [reduceCtorEq, Except.ok.injEq] at h
      subst h
      simp [Packer.Consistent]
    | ok r =>
      rw [hr] at h
      cases nt <;> cases np <;> simp only [Except.ok.injEq] at h <;> subst h <;> simp [Packer.Consistent]

/-- C42 is false: with the mapping {"g": 1, "r": 0} band g is packed as 1 and unpacked as r. -/
theorem C42_fails_for_reordered_bands :
    let p : Packer := ⟨⟨"m", none⟩, true, [(some "g", 1), (some "r", 0)], 2, 5, 7⟩
    let d : DataId := ⟨"m", 3, 4, some "g"⟩
    Packer.new ⟨"m", none⟩ none (some [(some "g", 1), (some "r", 0)]) none (some 5) (some 7) = .ok p ∧
    p.Fits d ∧ p.pack d = .ok 60 ∧ p.unpack 60 = .ok ⟨"m", 3, 4, some "r"⟩ := by
  refine ⟨by decide, rfl, by decide, by decide⟩

/-- C42 is false for negative numbers, which `pack` does not reject: tract 1, patch -1 is packed like
tract 0, last patch. -/
theorem C42_fails_for_negative_patch :
    let p : Packer := ⟨⟨"m", none⟩, false, [], 0, 5, 7⟩
    p.pack ⟨"m", 1, -1, none⟩ = .ok 6 ∧ p.unpack 6 = .ok ⟨"m", 0, 6, none⟩ := by
  refine ⟨by decide, by decide⟩

/-- C42 is false for a packer made with explicit dimensions that include band and with n_bands = 0: the
band is silently dropped by `pack`, and `unpack` raises. -/
theorem C42_fails_for_dropped_band :
    ∃ p, Packer.new ⟨"m", none⟩ (some ["skymap", "tract", "patch", "band"]) none (some 0) (some 5) (some 7) = .ok p ∧
      p.pack ⟨"m", 3, 4, some "g"⟩ = .ok 25 ∧ p.pack ⟨"m", 3, 4, some "r"⟩ = .ok 25 ∧
      p.unpack 25 = .error .KeyError := by
  refine ⟨⟨⟨"m", none⟩, true, defaultBands, 0, 5, 7⟩, by decide, by decide, by decide, by decide⟩

/-! ## C43 -/

/-- C43: different data IDs are packed to different integers. -/
theorem C43_injective (p : Packer) (hc : p.Consistent) (hb : p.bands.Distinct) (d d' : DataId)
    (hf : p.Fits d) (hf' : p.Fits d') (ht : 0 ≤ d.tract) (hq : 0 ≤ d.patch) (ht' : 0 ≤ d'.tract) (hq' : 0 ≤ d'.patch)
    (k : Int) (hk : p.pack d = .ok k) (hk' : p.pack d' = .ok k) : d = d' := by
  obtain ⟨a1, a2, a3, a4⟩ := (pack_iff p d k).1 hk
  obtain ⟨b1, b2, b3, b4⟩ := (pack_iff p d' k).1 hk'
  obtain ⟨r1, r2⟩ := inner_range hq a2 ht a3
  obtain ⟨r1', r2'⟩ := inner_range hq' b2 ht' b3
  obtain ⟨s1, s2⟩ := split_patch (t := d.tract) hq a2
  obtain ⟨s1', s2'⟩ := split_patch (t := d'.tract) hq' b2
  have fin : d.patch + p.nPatches * d.tract = d'.patch + p.nPatches * d'.tract → d.band = d'.band → d = d' := by
    intro e eb
    have e1 : d.tract = d'.tract := by rw [← s1, ← s1', e]
    have e2 : d.patch = d'.patch := by rw [← s2, ← s2', e]
    obtain ⟨x1, x2, x3, x4⟩ := d
    obtain ⟨y1, y2, y3, y4⟩ := d'
    simp only at *
    rw [a1, b1, e1, e2, eb]
  rcases a4 with ⟨h0, e1⟩ | ⟨h0, b, v, hb1, hv, -, e1⟩
  · rcases b4 with ⟨-, e2⟩ | ⟨h, -⟩
    · apply fin (by omega)
      have hb0 : p.hasBand = false := by
        have := hc.not.2 (by simpa using h0)
        simpa using this
      unfold Packer.Fits at hf hf'
      rw [hb0] at hf hf'
      have x1 : d.band = none := by simpa using hf
      have x2 : d'.band = none := by simpa using hf'
      rw [x1, x2]
    · exact absurd h0 h
  · rcases b4 with ⟨h, -⟩ | ⟨-, b', v', hb2, hv', -, e2⟩
    · exact absurd h h0
    · have g : ∀ x y w : Int, x + y + w * p.nPatches * p.nTracts = (x + y) + (p.nTracts * p.nPatches) * w := by
        intros; ring
      rw [g] at e1 e2
      obtain ⟨t1, t2⟩ := split_patch (t := v) r1 r2
      obtain ⟨t1', t2'⟩ := split_patch (t := v') r1' r2'
      rw [← e1] at t1 t2
      rw [← e2] at t1' t2'
      have ev : v = v' := by rw [← t1, ← t1']
      subst ev
      apply fin (by omega)
      rw [hb1, hb2, hb _ _ _ hv hv']

/-! ## C44 -/

theorem bitLength_le_iff {n : Int} (hn : 0 ≤ n) (m : Nat) : pyBitLength n ≤ m ↔ n + 1 ≤ 2 ^ m := by
  obtain ⟨k, rfl⟩ := Int.eq_ofNat_of_zero_le hn
  unfold pyBitLength
  by_cases h0 : k = 0
  · subst h0
    have : (1 : Int) ≤ 2 ^ m := one_le_pow₀ (by norm_num)
    simp [this]
  · have h0' : ((k : Nat) : Int) ≠ 0 := by omega
    rw [if_neg h0', Int.natAbs_natCast]
    have e : (((k : Nat) : Int) + 1 ≤ 2 ^ m) ↔ k < 2 ^ m := by
      rw [← Nat.succ_le_iff]
      constructor
      · intro h; exact_mod_cast h
      · intro h; exact_mod_cast h
    rw [e, Nat.succ_le_iff, Nat.log2_lt h0]

/-- C44: packed integers of accepted data IDs with non-negative fields and band numbers fit in `maxBits`
bits, and `maxBits` is the least number of bits with room for all declared tracts, patches and bands. -/
theorem C44_fits (p : Packer) (d : DataId) (ht : 0 ≤ d.tract) (hq : 0 ≤ d.patch) (hb : p.bands.Nonneg) (k : Int)
    (hk : p.pack d = .ok k) :
    0 ≤ k ∧ k < p.room ∧ k < 2 ^ p.maxBits ∧ ∀ m : Nat, p.room ≤ 2 ^ m ↔ p.maxBits ≤ m := by
  obtain ⟨a1, a2, a3, a4⟩ := (pack_iff p d k).1 hk
  obtain ⟨r1, r2⟩ := inner_range hq a2 ht a3
  have hroom : 0 ≤ k ∧ k < p.room := by
    unfold Packer.room
    rcases a4 with ⟨h0, e1⟩ | ⟨h0, b, v, hb1, hv, hlt, e1⟩
    · rw [if_pos h0]; omega
    · rw [if_neg h0]
      have hv0 := hb _ _ hv
      have e : d.patch + p.nPatches * d.tract + v * p.nPatches * p.nTracts =
          (d.patch + p.nPatches * d.tract) + (p.nTracts * p.nPatches) * v := by ring
      have := inner_range r1 r2 hv0 hlt
      have e2 : p.nBands * (p.nTracts * p.nPatches) = p.nTracts * p.nPatches * p.nBands := by ring
      omega
  have hmax : p.maxBits = pyBitLength (p.room - 1) := by
    unfold Packer.maxBits Packer.room
    by_cases h0 : p.nBands = 0 <;> simp [h0]
  have hm : ∀ m : Nat, p.room ≤ 2 ^ m ↔ p.maxBits ≤ m := by
    intro m
    rw [hmax, bitLength_le_iff (by omega)]
    constructor <;> intro h <;> omega
  refine ⟨hroom.1, hroom.2, ?_, hm⟩
  have := (hm p.maxBits).2 le_rfl
  omega

/-- C44: the room is used: the last tract, patch and band are packed to the last integer. -/
theorem C44_last (p : Packer) (b : String) (hv : p.nBands ≠ 0 → p.bands.get (some b) = some (p.nBands - 1)) :
    p.pack ⟨p.fixed.skymap, p.nTracts - 1, p.nPatches - 1, some b⟩ = .ok (p.room - 1) := by
  rw [pack_iff]
  refine ⟨rfl, by dsimp only; omega, by dsimp only; omega, ?_⟩
  by_cases h0 : p.nBands = 0
  · left
    refine ⟨h0, ?_⟩
    unfold Packer.room
    rw [if_pos h0]
    ring
  · right
    refine ⟨h0, b, _, rfl, hv h0, by omega, ?_⟩
    unfold Packer.room
    rw [if_neg h0]
    ring

/-! ## C45 -/

/-- C45: `pack` accepts exactly the data IDs whose patch, tract and band number are below the declared
limits, and rejects the others with `ValueError`. -/
theorem C45_rejects (p : Packer) (d : DataId) (hs : d.skymap = p.fixed.skymap)
    (hb : p.nBands ≠ 0 → ∃ b, d.band = some b) :
    ((∃ k, p.pack d = .ok k) ↔ d.patch < p.nPatches ∧ d.tract < p.nTracts ∧
      (p.nBands ≠ 0 → ∃ v, p.bands.get d.band = some v ∧ v < p.nBands)) ∧
    ((∃ k, p.pack d = .ok k) ∨ p.pack d = .error .ValueError) := by
  constructor
  · constructor
    · rintro ⟨k, hk⟩
      obtain ⟨a1, a2, a3, a4⟩ := (pack_iff p d k).1 hk
      refine ⟨a2, a3, fun h0 => ?_⟩
      rcases a4 with ⟨h, -⟩ | ⟨-, b, v, hb1, hv, hlt, -⟩
      · exact absurd h h0
      · exact ⟨v, by rw [hb1]; exact hv, hlt⟩
    · rintro ⟨a2, a3, a4⟩
      by_cases h0 : p.nBands = 0
      · exact ⟨_, (pack_iff p d _).2 ⟨hs, a2, a3, Or.inl ⟨h0, rfl⟩⟩⟩
      · obtain ⟨v, hv, hlt⟩ := a4 h0
        obtain ⟨b, hb'⟩ := hb h0
        rw [hb'] at hv
        exact ⟨_, (pack_iff p d _).2 ⟨hs, a2, a3, Or.inr ⟨h0, b, v, hb', hv, hlt, rfl⟩⟩⟩
  · unfold pack
    by_cases h2 : d.patch < p.nPatches
    swap
    · right; simp [hs, bind, Except.bind, throw, throwThe, MonadExceptOf.throw, pure, Except.pure, not_lt.1 h2]
    by_cases h3 : d.tract < p.nTracts
    swap
    · right; simp [hs, h2, bind, Except.bind, throw, throwThe, MonadExceptOf.throw, pure, Except.pure, not_lt.1 h3]
    have h2' : ¬ (d.patch ≥ p.nPatches) := by omega
    have h3' : ¬ (d.tract ≥ p.nTracts) := by omega
    by_cases h0 : p.nBands = 0
    · left; simp [hs, h2', h3', h0, bind, Except.bind, pure, Except.pure]
    · obtain ⟨b, hb'⟩ := hb h0
      simp only [hs, h2', h3', h0, hb', ne_eq, not_true_eq_false, not_false_eq_true, if_true, if_false, bind, Except.bind, pure,
        Except.pure]
      cases hg : p.bands.get (some b) with
      | none => right; simp [throw, throwThe, MonadExceptOf.throw]
      | some v =>
        by_cases h5 : v ≥ p.nBands
        · right; simp [h5, throw, throwThe, MonadExceptOf.throw]
        · left; simp [h5]

/-- C45: with explicit dimensions, a packer is constructed (the sizes being given) exactly if they are
{skymap, tract, patch}, possibly with band, as sets; otherwise `ValueError`. -/
theorem C45_dimensions (fixed : FixedId) (names : List String) (bands : Option BandDict) (nb : Option Int)
    (nt np : Int) :
    ((∃ p, Packer.new fixed (some names) bands nb (some nt) (some np) = .ok p) ↔
      (∀ x, x ∈ names ↔ x = "tract" ∨ x = "patch" ∨ x = "skymap") ∨
      (∀ x, x ∈ names ↔ x = "tract" ∨ x = "patch" ∨ x = "skymap" ∨ x = "band")) ∧
    ((∃ p, Packer.new fixed (some names) bands nb (some nt) (some np) = .ok p) ∨
      Packer.new fixed (some names) bands nb (some nt) (some np) = .error .ValueError) ∧
    ∀ p, Packer.new fixed (some names) bands nb (some nt) (some np) = .ok p →
      (p.hasBand = true ↔ "band" ∈ names) ∧ (p.hasBand = false → p.nBands = 0) ∧ p.nTracts = nt ∧ p.nPatches = np := by
  have same : ∀ l : List String, sameNames names l = true ↔ ∀ x, x ∈ names ↔ x ∈ l := by
    intro l
    unfold sameNames
    rw [Bool.and_eq_true, List.all_eq_true, List.all_eq_true]
    simp only [List.contains_iff_mem]
    constructor
    · rintro ⟨h1, h2⟩ x
      exact ⟨h1 x, h2 x⟩
    · intro h
      exact ⟨fun x hx => (h x).1 hx, fun x hx => (h x).2 hx⟩
  have s3 := same ["tract", "patch", "skymap"]
  have s4 := same ["tract", "patch", "skymap", "band"]
  simp only [List.mem_cons, List.not_mem_nil, or_false] at s3 s4
  by_cases hb : "band" ∈ names
  · have hb' : names.contains "band" = true := by rw [List.contains_iff_mem]; exact hb
    have no3 : ¬ ∀ x, x ∈ names ↔ x = "tract" ∨ x = "patch" ∨ x = "skymap" := by
      intro h
      have := (h "band").1 hb
      simp at this
    by_cases h4 : sameNames names ["tract", "patch", "skymap", "band"] = true
    · have e : Packer.new fixed (some names) bands nb (some nt) (some np) = .ok
          ⟨fixed, true, bands.getD defaultBands, nb.getD (bands.getD defaultBands).length, nt, np⟩ := by
        simp only [Packer.new, hb', h4]
        rfl
      rw [e]
      exact ⟨⟨fun _ => Or.inr (s4.1 h4), fun _ => ⟨_, rfl⟩⟩, Or.inl ⟨_, rfl⟩, by
        intro p hp
        simp only [Except.ok.injEq] at hp
        subst hp
        simp [hb]⟩
    · have e : Packer.new fixed (some names) bands nb (some nt) (some np) = .error .ValueError := by
        simp only [Bool.not_eq_true] at h4
        simp only [Packer.new, hb', h4]
        rfl
      rw [e]
      refine ⟨⟨by rintro ⟨p, hp⟩; simp at hp, ?_⟩, Or.inr rfl, by simp⟩
      rintro (h | h)
      · exact absurd h no3
      · exact absurd (s4.2 h) h4
  · have hb' : names.contains "band" = false := by
      rw [← Bool.not_eq_true, List.contains_iff_mem]; exact hb
    have no4 : ¬ ∀ x, x ∈ names ↔ x = "tract" ∨ x = "patch" ∨ x = "skymap" ∨ x = "band" := by
      intro h
      exact hb ((h "band").2 (by simp))
    by_cases h3 : sameNames names ["tract", "patch", "skymap"] = true
    · have e : Packer.new fixed (some names) bands nb (some nt) (some np) = .ok
          ⟨fixed, false, bands.getD defaultBands, 0, nt, np⟩ := by
        simp only [Packer.new, hb', h3]
        rfl
      rw [e]
      exact ⟨⟨fun _ => Or.inl (s3.1 h3), fun _ => ⟨_, rfl⟩⟩, Or.inl ⟨_, rfl⟩, by
        intro p hp
        simp only [Except.ok.injEq] at hp
        subst hp
        simp [hb]⟩
    · have e : Packer.new fixed (some names) bands nb (some nt) (some np) = .error .ValueError := by
        simp only [Bool.not_eq_true] at h3
        simp only [Packer.new, hb', h3]
        rfl
      rw [e]
      refine ⟨⟨by rintro ⟨p, hp⟩; simp at hp, ?_⟩, Or.inr rfl, by simp⟩
      rintro (h | h)
      · exact absurd (s3.2 h) h3
      · exact absurd h no4

/-- C45: sizes that are not given are taken from the skymap record; the default number of bands is that of
the mapping (or zero when made from a default configuration). -/
theorem C45_defaults (name : String) (r : SkyMapRecord) :
    Packer.new ⟨name, some r⟩ = .ok ⟨⟨name, some r⟩, true, defaultBands, 28, r.tract_max,
      r.patch_nx_max * r.patch_ny_max⟩ ∧
    Packer.fromConfig ⟨name, some r⟩ {} = .ok ⟨⟨name, some r⟩, false, defaultBands, 0, r.tract_max,
      r.patch_nx_max * r.patch_ny_max⟩ ∧
    (∀ nb b nt np p, Packer.fromConfig ⟨name, some r⟩ ⟨b, some nb, nt, np⟩ = .ok p →
      p.nBands = nb ∧ p.hasBand = decide (nb ≠ 0) ∧ p.bands = b.getD defaultBands ∧ p.nTracts = nt.getD r.tract_max ∧
      p.nPatches = np.getD (r.patch_nx_max * r.patch_ny_max)) := by
  refine ⟨rfl, rfl, fun nb b nt np p h => ?_⟩
  cases nt <;> cases np <;> cases b <;>
  · have h' := Except.ok.inj h
    subst h'
    exact ⟨rfl, rfl, rfl, rfl, rfl⟩

/-! ## C46 -/

/-- C46: every integer in range is the packed form of the data ID that it unpacks to; and it unpacks,
unless it stands for the `None` entry of the mapping. -/
theorem C46_pack_unpack (p : Packer) (hc : p.Consistent) (hpos : p.bands.Positional) (hdict : p.bands.Dict)
    (hT : 0 < p.nTracts) (hP : 0 < p.nPatches) (hB : 0 ≤ p.nBands ∧ p.nBands ≤ p.bands.length)
    (k : Int) (h0 : 0 ≤ k) (h1 : k < p.room) :
    (∀ d, p.unpack k = .ok d → p.pack d = .ok k ∧ p.Fits d) ∧
    ((∃ d, p.unpack k = .ok d) ∨
      (p.nBands ≠ 0 ∧ p.unpack k = .error .KeyError ∧
        (p.bands.map Prod.fst)[(k / (p.nTracts * p.nPatches)).toNat]? = some none)) := by
  have hn : 0 < p.nTracts * p.nPatches := Int.mul_pos hT hP
  unfold Packer.room at h1
  by_cases hz : p.nBands = 0
  · rw [if_pos hz, mul_one] at h1
    have hb : p.hasBand = false := by
      have := hc.not.2 (by simpa using hz)
      simpa using this
    have hu : p.unpack k = .ok ⟨p.fixed.skymap, k / p.nPatches, k % p.nPatches, none⟩ := by
      simp [unpack, hz, pyDivMod_pos hP, bind, Except.bind, standardize, hb]
    refine ⟨fun d hd => ?_, Or.inl ⟨_, hu⟩⟩
    rw [hu] at hd
    simp only [Except.ok.injEq] at hd
    subst hd
    refine ⟨?_, by simp [Packer.Fits, hb]⟩
    rw [pack_iff]
    refine ⟨rfl, Int.emod_lt_of_pos _ hP, Int.ediv_lt_of_lt_mul hP h1, Or.inl ⟨hz, ?_⟩⟩
    have := Int.mul_ediv_add_emod k p.nPatches
    dsimp only
    omega
  · rw [if_neg hz] at h1
    have hb : p.hasBand = true := hc.2 hz
    have hi0 : 0 ≤ k / (p.nTracts * p.nPatches) := Int.ediv_nonneg h0 (by omega)
    have hi1 : k / (p.nTracts * p.nPatches) < p.nBands := Int.ediv_lt_of_lt_mul hn (by
      rw [mul_comm p.nBands]; exact h1)
    obtain ⟨i, hi⟩ := Int.eq_ofNat_of_zero_le hi0
    have hil : i < p.bands.length := by omega
    obtain ⟨⟨key, v⟩, hkv⟩ : ∃ e, p.bands[i]? = some e := ⟨_, List.getElem?_eq_getElem hil⟩
    have hv := hpos i key v hkv
    have hgi : pyGetItem (p.bands.map Prod.fst) (k / (p.nTracts * p.nPatches)) = .ok key := by
      rw [hi, ← hv]
      exact positional_key hpos (mem_get hdict hkv)
    have hm0 := Int.emod_nonneg k hn.ne'
    have hm1 := Int.emod_lt_of_pos k hn
    have hu : p.unpack k = p.standardize ⟨p.fixed.skymap, k % (p.nTracts * p.nPatches) / p.nPatches,
        k % (p.nTracts * p.nPatches) % p.nPatches, key⟩ := by
      simp [unpack, hz, pyDivMod_pos hn, pyDivMod_pos hP, bind, Except.bind, hgi]
    cases key with
    | none =>
      have hu' : p.unpack k = .error .KeyError := by rw [hu]; simp [standardize, hb]
      refine ⟨fun d hd => by rw [hu'] at hd; simp at hd, Or.inr ⟨hz, hu', ?_⟩⟩
      rw [hi]
      simp [List.getElem?_map, hkv]
    | some b =>
      have hu' : p.unpack k = .ok ⟨p.fixed.skymap, k % (p.nTracts * p.nPatches) / p.nPatches,
        k % (p.nTracts * p.nPatches) % p.nPatches, some b⟩ := by rw [hu]; simp [standardize, hb]
      refine ⟨fun d hd => ?_, Or.inl ⟨_, hu'⟩⟩
      rw [hu'] at hd
      simp only [Except.ok.injEq] at hd
      subst hd
      refine ⟨?_, by simp [Packer.Fits, hb]⟩
      rw [pack_iff]
      refine ⟨rfl, Int.emod_lt_of_pos _ hP, Int.ediv_lt_of_lt_mul hP hm1, Or.inr ⟨hz, b, v, rfl,
        mem_get hdict hkv, by omega, ?_⟩⟩
      have q1 := Int.mul_ediv_add_emod (k % (p.nTracts * p.nPatches)) p.nPatches
      have q2 := Int.mul_ediv_add_emod k (p.nTracts * p.nPatches)
      have q3 : v * p.nPatches * p.nTracts = p.nTracts * p.nPatches * (k / (p.nTracts * p.nPatches)) := by
        rw [hi, hv]; ring
      dsimp only
      omega

/-! ## Examples -/

/-- A packer with the default bands, 5 tracts of 7 patches: it is consistent, positional and so on. -/
def Ex.packer : Packer := ⟨⟨"m", some ⟨5, 1, 7⟩⟩, true, defaultBands, 28, 5, 7⟩

example : Packer.new ⟨"m", some ⟨5, 1, 7⟩⟩ = .ok Ex.packer := rfl
example : Ex.packer.Consistent ∧ Ex.packer.Fits ⟨"m", 3, 4, some "r"⟩ ∧
    Ex.packer.pack ⟨"m", 3, 4, some "r"⟩ = .ok 130 ∧ Ex.packer.unpack 130 = .ok ⟨"m", 3, 4, some "r"⟩ ∧
    Ex.packer.maxBits = 10 ∧ Ex.packer.room = 980 := by
  refine ⟨by simp [Packer.Consistent, Ex.packer], rfl, by decide, by decide, by decide, by decide⟩
example : Ex.packer.pack ⟨"m", 3, 7, some "r"⟩ = .error .ValueError ∧
    Ex.packer.pack ⟨"m", 3, 6, some "w"⟩ = .error .ValueError := by decide
example : Ex.packer.unpack 3 = .error .KeyError := by decide

end Skymap
