import Verif.Model.PackerObj
import Verif.Props.Packer

/-! # C69, C70: packers in use, and which packers give every data ID back -/

namespace Skymap
open Packer

/-! ## Specification vocabulary -/

/-- Calls of a packer. -/
inductive PackerCall
  | pack (d : DataId)
  | unpack (n : Int)

/-- The state after a call. -/
def PackerCall.after (o : PackerObj) : PackerCall → PackerObj
  | .pack d => (PackerObj.pack d o).2
  | .unpack n => (PackerObj.unpack n o).2

/-- The packer gives every data ID of its dimensions, with non-negative tract and patch numbers, back. -/
def Packer.Faithful (p : Packer) : Prop :=
  ∀ d k, p.Fits d → 0 ≤ d.tract → 0 ≤ d.patch → p.pack d = .ok k → p.unpack k = .ok d

/-- Every band that is given a number below the number of bands has the number of its position in the mapping; a negative number is a
position counted from the end. -/
def Packer.BandsInPlace (p : Packer) : Prop :=
  ∀ (b : String) (v : Int), p.bands.get (some b) = some v → v < p.nBands →
    ∃ j : Nat, (p.bands.map Prod.fst)[j]? = some (some b) ∧ (v = j ∨ v = (j : Int) - p.bands.length)

/-! ## C69 -/

/-- C69: after any calls, successful or not, a packer whose mapping was not changed packs and unpacks as it did at first. -/
theorem C69_history (p : Packer) (l : List PackerCall) :
    let o := l.foldl PackerCall.after ⟨p, none⟩
    (∀ d, (PackerObj.pack d o).1 = p.pack d) ∧ ∀ n, (PackerObj.unpack n o).1 = p.unpack n := by
  intro o
  have ho : o.packer = p ∧ (o.bandsList = none ∨ o.bandsList = some (p.bands.map Prod.fst)) := by
    suffices H : ∀ (l : List PackerCall) (o : PackerObj),
        o.packer = p ∧ (o.bandsList = none ∨ o.bandsList = some (p.bands.map Prod.fst)) →
        (l.foldl PackerCall.after o).packer = p ∧
          ((l.foldl PackerCall.after o).bandsList = none ∨
            (l.foldl PackerCall.after o).bandsList = some (p.bands.map Prod.fst)) from H l _ ⟨rfl, .inl rfl⟩
    intro l
    induction l with
    | nil => exact fun o h => h
    | cons c l ih =>
      rintro o ⟨h1, h2⟩
      refine ih _ ?_
      cases c with
      | pack d => exact ⟨h1, h2⟩
      | unpack n =>
        have hk : o.keys = p.bands.map Prod.fst := by
          unfold PackerObj.keys
          rcases h2 with h | h <;> rw [h, ← h1] <;> rfl
        unfold PackerCall.after PackerObj.unpack
        dsimp only
        split
        · split
          · exact ⟨h1, h2⟩
          · exact ⟨h1, .inr (by rw [← hk])⟩
        · exact ⟨h1, h2⟩
  obtain ⟨h1, h2⟩ := ho
  have hk : o.keys = p.bands.map Prod.fst := by
    unfold PackerObj.keys
    rcases h2 with h | h <;> rw [h, ← h1] <;> rfl
  refine ⟨fun d => by unfold PackerObj.pack; rw [h1], fun n => ?_⟩
  unfold PackerObj.unpack Packer.unpack
  rw [hk, h1]
  dsimp only
  split
  · cases pyDivMod n (p.nTracts * p.nPatches) with
    | error e => rfl
    | ok x => rfl
  · rfl

/-- C69: the mapping is not copied.  If the caller adds a band to it after the packer has unpacked an integer, `pack` accepts the new
band and `unpack` raises `IndexError` for the result. -/
theorem C69_added_band (p : Packer) (h0 : 0 < p.nTracts) (h1 : 0 < p.nPatches) (b : String)
    (hb : p.bands.get (some b) = none) (hroom : (p.bands.length : Int) < p.nBands) (n : Int) (d : DataId)
    (hm : d.skymap = p.fixed.skymap) (ht : 0 ≤ d.tract ∧ d.tract < p.nTracts) (hq : 0 ≤ d.patch ∧ d.patch < p.nPatches)
    (hd : d.band = some b) :
    let o := (PackerObj.setBands (p.bands ++ [(some b, (p.bands.length : Int))]) (PackerObj.unpack n ⟨p, none⟩).2).2
    ∃ k, (PackerObj.pack d o).1 = .ok k ∧ (PackerObj.unpack k o).1 = .error .IndexError := by
  have hn0 : p.nBands ≠ 0 := by omega
  have hn : 0 < p.nTracts * p.nPatches := Int.mul_pos h0 h1
  intro o
  have ho : o = ⟨{ p with bands := p.bands ++ [(some b, (p.bands.length : Int))] }, some (p.bands.map Prod.fst)⟩ := by
    simp only [o, PackerObj.setBands, PackerObj.unpack, hn0, ne_eq, not_false_eq_true, if_true, pyDivMod_pos hn]
    rfl
  have hget : BandDict.get (p.bands ++ [(some b, (p.bands.length : Int))]) (some b) = some (p.bands.length : Int) := by
    unfold BandDict.get at hb ⊢
    rw [Option.map_eq_none_iff] at hb
    rw [List.find?_append, hb]
    simp
  have hpack : (PackerObj.pack d o).1 = .ok (d.patch + p.nPatches * d.tract + p.bands.length * p.nPatches * p.nTracts) := by
    rw [ho]
    unfold PackerObj.pack
    exact (pack_iff _ _ _).2 ⟨hm, hq.2, ht.2, .inr ⟨hn0, b, _, hd, hget, hroom, rfl⟩⟩
  refine ⟨_, hpack, ?_⟩
  obtain ⟨r1, r2⟩ := inner_range hq.1 hq.2 ht.1 ht.2
  have e : d.patch + p.nPatches * d.tract + p.bands.length * p.nPatches * p.nTracts =
      (d.patch + p.nPatches * d.tract) + (p.nTracts * p.nPatches) * p.bands.length := by ring
  obtain ⟨t1, t2⟩ := split_patch (t := (p.bands.length : Int)) r1 r2
  rw [ho]
  simp only [PackerObj.unpack, hn0, ne_eq, not_false_eq_true, if_true, pyDivMod_pos hn, e, t1, PackerObj.keys, Option.getD]
  have : pyGetItem (p.bands.map Prod.fst) (p.bands.length : Int) = .error .IndexError := by
    unfold pyGetItem
    dsimp only
    rw [if_neg (by omega), if_neg (by omega), Int.toNat_natCast, List.getElem?_eq_none (by simp)]
  rw [this]
  rfl

/-! ## C70 -/

theorem pyGetItem_iff {α : Type} (l : List α) (i : Int) (a : α) :
    pyGetItem l i = .ok a ↔ ∃ j : Nat, l[j]? = some a ∧ (i = j ∨ i = (j : Int) - l.length) := by
  unfold pyGetItem
  dsimp only
  constructor
  · intro h
    by_cases h0 : i < 0
    · rw [if_pos h0] at h
      by_cases h1 : i + (l.length : Int) < 0
      · rw [if_pos h1] at h; simp at h
      · rw [if_neg h1] at h
        cases hx : l[(i + (l.length : Int)).toNat]? with
        | none => rw [hx] at h; simp at h
        | some x =>
          rw [hx] at h
          simp only [Except.ok.injEq] at h
          subst h
          exact ⟨_, hx, by omega⟩
    · rw [if_neg h0, if_neg h0] at h
      cases hx : l[i.toNat]? with
      | none => rw [hx] at h; simp at h
      | some x =>
        rw [hx] at h
        simp only [Except.ok.injEq] at h
        subst h
        exact ⟨_, hx, by omega⟩
  · rintro ⟨j, hj, hi⟩
    have hlt : j < l.length := by
      by_contra hc
      rw [List.getElem?_eq_none (by omega)] at hj
      simp at hj
    rcases hi with rfl | rfl
    · rw [if_neg (by omega), if_neg (by omega), Int.toNat_natCast, hj]
    · rw [if_pos (show (j : Int) - l.length < 0 by omega), show (j : Int) - l.length + l.length = j by omega, if_neg (by omega), Int.toNat_natCast, hj]

/-- C70: a packer that leaves room for tracts and patches gives every data ID back if and only if the bands have the numbers of their
positions (without bands: always). -/
theorem C70_faithful_iff (p : Packer) (hc : p.Consistent) (h0 : 0 < p.nTracts) (h1 : 0 < p.nPatches) :
    p.Faithful ↔ (p.nBands ≠ 0 → p.BandsInPlace) := by
  constructor
  · intro H hn b v hv hlt
    have hfit : p.Fits ⟨p.fixed.skymap, 0, 0, some b⟩ := by
      unfold Packer.Fits
      rw [hc.2 hn]
      rfl
    have hk := (pack_iff p ⟨p.fixed.skymap, 0, 0, some b⟩ _).2 ⟨rfl, h1, h0, .inr ⟨hn, b, v, rfl, hv, hlt, rfl⟩⟩
    have hu := H _ _ hfit le_rfl le_rfl hk
    have := ((C42_unpack_pack_iff_partial p hc _ hfit le_rfl le_rfl _ hk).2 hn v hv).1 hu
    rw [pyGetItem_iff, List.length_map] at this
    exact this
  · intro H d k hfit ht hq hk
    obtain ⟨a1, a2⟩ := C42_unpack_pack_iff_partial p hc d hfit ht hq k hk
    by_cases hn : p.nBands = 0
    · exact a1 hn
    · obtain ⟨-, -, -, ⟨h, -⟩ | ⟨-, b, v, hb, hv, hlt, -⟩⟩ := (pack_iff p d k).1 hk
      · exact absurd h hn
      · rw [← hb] at hv
        refine (a2 hn v hv).2 ?_
        rw [pyGetItem_iff, List.length_map, hb]
        rw [hb] at hv
        exact H hn b v hv hlt

/-- C70: `unpack` never returns a negative patch number, nor, with bands in use, a negative tract number; so a data ID with such
numbers, which `pack` does not refuse, does not come back. -/
theorem C70_unpack_range (p : Packer) (h0 : 0 < p.nTracts) (h1 : 0 < p.nPatches) (d : DataId) (k : Int) (hu : p.unpack k = .ok d) :
    0 ≤ d.patch ∧ d.patch < p.nPatches ∧ (p.nBands ≠ 0 → 0 ≤ d.tract ∧ d.tract < p.nTracts) := by
  have std : ∀ x y, p.standardize x = .ok y → y.tract = x.tract ∧ y.patch = x.patch := by
    intro x y h
    unfold standardize at h
    split at h
    · split at h
      · simp at h
      · simp only [Except.ok.injEq] at h; subst h; exact ⟨rfl, rfl⟩
    · simp only [Except.ok.injEq] at h; subst h; exact ⟨rfl, rfl⟩
  have hn : 0 < p.nTracts * p.nPatches := Int.mul_pos h0 h1
  unfold unpack at hu
  by_cases hb : p.nBands = 0
  · simp only [hb, ne_eq, not_true_eq_false, if_false, pyDivMod_pos h1, bind, Except.bind] at hu
    have := std _ _ hu
    dsimp only at this
    have := Int.emod_nonneg k h1.ne'
    have := Int.emod_lt_of_pos k h1
    omega
  · simp only [hb, ne_eq, not_false_eq_true, if_true, pyDivMod_pos h1, pyDivMod_pos hn, bind, Except.bind] at hu
    split at hu
    · simp at hu
    · have := std _ _ hu
      dsimp only at this
      have := Int.emod_nonneg (k % (p.nTracts * p.nPatches)) h1.ne'
      have := Int.emod_lt_of_pos (k % (p.nTracts * p.nPatches)) h1
      have := Int.ediv_nonneg (Int.emod_nonneg k hn.ne') h1.le
      have := (Int.ediv_lt_iff_lt_mul h1).2 (Int.emod_lt_of_pos k hn)
      omega

/-! ## Concrete cases -/

/-- The default mapping, bands numbered from the end, and two bands exchanged. -/
example : (⟨⟨"m", none⟩, true, defaultBands, 28, 5, 7⟩ : Packer).Faithful := by
  rw [C70_faithful_iff _ (by simp [Packer.Consistent]) (by decide) (by decide)]
  intro _ b v hv _
  have := positional_key C42_default.1 hv
  rwa [pyGetItem_iff, List.length_map] at this

example : (⟨⟨"m", none⟩, true, [(some "g", 1), (some "r", 0)], 2, 5, 7⟩ : Packer).Consistent ∧
    ¬ (⟨⟨"m", none⟩, true, [(some "g", 1), (some "r", 0)], 2, 5, 7⟩ : Packer).Faithful := by
  refine ⟨by simp [Packer.Consistent], fun h => ?_⟩
  have := h ⟨"m", 3, 4, some "g"⟩ 60 rfl (by decide) (by decide) (by decide)
  revert this
  decide

example : (⟨⟨"m", none⟩, true, [(some "g", -2), (some "r", -1)], 2, 5, 7⟩ : Packer).BandsInPlace := by
  intro b v hv _
  obtain ⟨k, hk⟩ := get_mem hv
  match k, hk with
  | 0, hk => exact ⟨0, by simp at hk; simp [hk.1], by simp at hk ⊢; omega⟩
  | 1, hk => exact ⟨1, by simp at hk; simp [hk.1], by simp at hk ⊢; omega⟩
  | k + 2, hk => simp at hk

/-- A negative patch number. -/
example : let p : Packer := ⟨⟨"m", none⟩, false, [], 0, 5, 7⟩
    p.pack ⟨"m", 1, -1, none⟩ = .ok 6 ∧ p.unpack 6 = .ok ⟨"m", 0, 6, none⟩ := by decide

/-- A packer is made, unpacks an integer, and then the mapping gets a third band. -/
example : let p : Packer := ⟨⟨"m", none⟩, true, [(some "g", 0), (some "r", 1)], 4, 5, 7⟩
    Packer.new ⟨"m", none⟩ none (some [(some "g", 0), (some "r", 1)]) (some 4) (some 5) (some 7) = .ok p ∧
    let o := (PackerObj.setBands (p.bands ++ [(some "i", 2)]) (PackerObj.unpack 60 ⟨p, none⟩).2).2
    (PackerObj.pack ⟨"m", 3, 4, some "i"⟩ o).1 = .ok 95 ∧ (PackerObj.unpack 95 o).1 = .error .IndexError ∧
    (PackerObj.unpack 95 ⟨o.packer, none⟩).1 = .ok ⟨"m", 3, 4, some "i"⟩ := by
  decide

end Skymap
