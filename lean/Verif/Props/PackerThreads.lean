import Verif.Model.PackerThreads
import Verif.Lemmas.Threads
import Verif.Props.PackerHistory

/-! # C87: threads that share a packer -/

namespace Skymap
namespace PackerThreads
open Packer

/-! ## Specification vocabulary -/

/-- What one thread gets from a packer: the answer of `Packer.pack` and `Packer.unpack` (C42-C46). -/
def Answer (p : Packer) : PackerReq → PyM PackerRes → Prop
  | .pack d, r => r = (p.pack d).map .int
  | .unpack n, r => r = (p.unpack n).map .dataId
  | .change _, r => r = .ok .unit

/-- The packer with other bands. -/
def withBands (p : Packer) (m : BandDict) : Packer := { p with bands := m }

/-- Calls that only change the mapping to one that `P` permits. -/
def Permits (P : BandDict → Prop) (_ : List (PackerReq × PyM PackerRes)) : PackerReq → Prop
  | .change m => P m
  | _ => True

/-- What a call may give if the mapping is changed to any permitted one at any time: `unpack` goes by the keys of one permitted mapping;
`pack` checks the band with one permitted mapping and numbers it with one, perhaps another. -/
def AnswerAmong (P : BandDict → Prop) (p : Packer) : PackerReq → PyM PackerRes → Prop
  | .pack d, r => ∃ m m', P m ∧ P m' ∧
      ((∃ e, (withBands p m).pack d = .error e ∧ r = .error e) ∨
        (∃ k, (withBands p m).pack d = .ok k ∧
          (p.nBands = 0 ∧ r = .ok (.int k) ∨
            p.nBands ≠ 0 ∧ (m'.get d.band = none ∧ r = .error .KeyError ∨
              ∃ v, m'.get d.band = some v ∧ r = .ok (.int (d.patch + p.nPatches * d.tract + v * p.nPatches * p.nTracts))))))
  | .unpack n, r => ∃ m, P m ∧ r = ((withBands p m).unpack n).map .dataId
  | .change _, r => r = .ok .unit

/-! ## Proofs -/

/-- The shared state of permitted mappings. -/
def Inv (P : BandDict → Prop) (s : SharedPacker) : Prop :=
  P s.bands ∧ (s.bandsList = none ∨ ∃ m, P m ∧ s.bandsList = some (m.map Prod.fst))

/-- The list, once written, stays. -/
def Le (s s' : SharedPacker) : Prop := s.bandsList.isSome → s'.bandsList.isSome

theorem pack_eq (p : Packer) (d : DataId) : p.pack d =
    if d.skymap ≠ p.fixed.skymap then .error .ValueError
    else if d.patch ≥ p.nPatches then .error .ValueError
    else if d.tract ≥ p.nTracts then .error .ValueError
    else if p.nBands ≠ 0 then
      match d.band with
      | none => .error .KeyError
      | some b =>
        match p.bands.get (some b) with
        | none => .error .ValueError
        | some v => if v ≥ p.nBands then .error .ValueError else .ok (d.patch + p.nPatches * d.tract + v * p.nPatches * p.nTracts)
    else .ok (d.patch + p.nPatches * d.tract) := by
  unfold Packer.pack
  by_cases h1 : d.skymap ≠ p.fixed.skymap
  · rw [if_pos h1, if_pos h1]; rfl
  rw [if_neg h1, if_neg h1]
  by_cases h2 : d.patch ≥ p.nPatches
  · simp only [h2, if_true]; rfl
  simp only [h2, if_false]
  by_cases h3 : d.tract ≥ p.nTracts
  · simp only [h3, if_true]; rfl
  simp only [h3, if_false]
  by_cases h4 : p.nBands ≠ 0
  · rw [if_pos h4, if_pos h4]
    cases d.band with
    | none => rfl
    | some b =>
      dsimp only
      cases p.bands.get (some b) with
      | none => rfl
      | some v => dsimp only; split <;> rfl
  · rw [if_neg h4, if_neg h4]
    rfl

theorem pack_with (p : Packer) (m : BandDict) (d : DataId) : (withBands p m).pack d =
    if d.skymap ≠ p.fixed.skymap then .error .ValueError
    else if d.patch ≥ p.nPatches then .error .ValueError
    else if d.tract ≥ p.nTracts then .error .ValueError
    else if p.nBands ≠ 0 then
      match d.band with
      | none => .error .KeyError
      | some b =>
        match m.get (some b) with
        | none => .error .ValueError
        | some v => if v ≥ p.nBands then .error .ValueError else .ok (d.patch + p.nPatches * d.tract + v * p.nPatches * p.nTracts)
    else .ok (d.patch + p.nPatches * d.tract) := pack_eq (withBands p m) d

theorem unpack_keys (p : Packer) (m : BandDict) (n index rest : Int) (h0 : p.nBands ≠ 0)
    (hd : pyDivMod n (p.nTracts * p.nPatches) = .ok (index, rest)) :
    finish p index rest (m.map Prod.fst) = ((withBands p m).unpack n).map .dataId := by
  unfold Packer.unpack finish withBands
  dsimp only
  rw [if_pos h0, hd]
  simp only [bind, Except.bind]
  cases pyGetItem (m.map Prod.fst) index with
  | error e => rfl
  | ok key =>
    dsimp only
    cases pyDivMod rest p.nPatches with
    | error e => rfl
    | ok x =>
      dsimp only
      have hw : ∀ y, (withBands p m).standardize y = p.standardize y := fun _ => rfl
      unfold withBands at hw
      rw [hw]
      cases p.standardize _ <;> rfl

theorem useList_safe (P : BandDict → Prop) (p : Packer) (n index rest : Int) (h0 : p.nBands ≠ 0)
    (hd : pyDivMod n (p.nTracts * p.nPatches) = .ok (index, rest)) (s : SharedPacker) (hs : s.bandsList.isSome) :
    (useList p index rest).Safe (Inv P) Le (fun _ r => AnswerAmong P p (.unpack n) r) s := by
  intro s' hl hI
  refine ⟨hI, id, ?_⟩
  rcases hI.2 with h | ⟨m, hm, h⟩
  · have := hl hs
    rw [h] at this
    exact absurd this (by decide)
  · dsimp only [id]
    rw [h]
    exact ⟨m, hm, unpack_keys p m n index rest h0 hd⟩

theorem program_safe (P : BandDict → Prop) (hP : ∃ m, P m) (p : Packer) (q : PackerReq) (hq : Permits P [] q) (s : SharedPacker) :
    (program p q).Safe (Inv P) Le (fun _ r => AnswerAmong P p q r) s := by
  obtain ⟨m₀, hm₀⟩ := hP
  cases q with
  | change m =>
    intro s' _ hI
    exact ⟨⟨hq, hI.2⟩, id, rfl⟩
  | pack d =>
    change (PackerThreads.pack p d).Safe _ _ _ s
    have fail : ∀ m e, P m → (withBands p m).pack d = .error e → AnswerAmong P p (.pack d) (.error e) :=
      fun m e hm h => ⟨m, m, hm, hm, .inl ⟨e, h, rfl⟩⟩
    unfold PackerThreads.pack
    split
    · next h => exact fail m₀ _ hm₀ (by rw [pack_with, if_pos h])
    · next h1 =>
      split
      · next h => exact fail m₀ _ hm₀ (by rw [pack_with, if_neg h1, if_pos h])
      · next h2 =>
        split
        · next h => exact fail m₀ _ hm₀ (by rw [pack_with, if_neg h1, if_neg h2, if_pos h])
        · next h3 =>
          have pre : ∀ m, (withBands p m).pack d = (if p.nBands ≠ 0 then
              match d.band with
              | none => .error .KeyError
              | some b =>
                match m.get (some b) with
                | none => .error .ValueError
                | some v => if v ≥ p.nBands then .error .ValueError
                    else .ok (d.patch + p.nPatches * d.tract + v * p.nPatches * p.nTracts)
            else .ok (d.patch + p.nPatches * d.tract)) := by
            intro m
            rw [pack_with, if_neg h1, if_neg h2, if_neg h3]
          split
          · next h4 =>
            cases hb : d.band with
            | none =>
              refine fail m₀ _ hm₀ ?_
              rw [pre, if_pos h4, hb]
            | some b =>
              intro s₁ _ hI₁
              refine ⟨hI₁, id, ?_⟩
              dsimp only [id]
              cases hg : s₁.bands.get (some b) with
              | none =>
                refine fail _ _ hI₁.1 ?_
                rw [pre, if_pos h4, hb]
                dsimp only
                rw [hg]
              | some v =>
                dsimp only
                split
                · next hv =>
                  refine fail _ _ hI₁.1 ?_
                  rw [pre, if_pos h4, hb]
                  dsimp only
                  rw [hg]
                  dsimp only
                  rw [if_pos hv]
                · next hv =>
                  intro s₂ _ hI₂
                  refine ⟨hI₂, id, ?_⟩
                  dsimp only [id]
                  have ok : (withBands p s₁.bands).pack d = .ok (d.patch + p.nPatches * d.tract + v * p.nPatches * p.nTracts) := by
                    rw [pre, if_pos h4, hb]
                    dsimp only
                    rw [hg]
                    dsimp only
                    rw [if_neg hv]
                  cases hg' : s₂.bands.get (some b) with
                  | none => exact ⟨_, _, hI₁.1, hI₂.1, .inr ⟨_, ok, .inr ⟨h4, .inl ⟨by rw [hb]; exact hg', rfl⟩⟩⟩⟩
                  | some w => exact ⟨_, _, hI₁.1, hI₂.1, .inr ⟨_, ok, .inr ⟨h4, .inr ⟨w, by rw [hb]; exact hg', rfl⟩⟩⟩⟩
          · next h4 =>
            refine ⟨m₀, m₀, hm₀, hm₀, .inr ⟨_, ?_, .inl ⟨not_not.1 h4, rfl⟩⟩⟩
            rw [pre, if_neg h4]
  | unpack n =>
    change (PackerThreads.unpack p n).Safe _ _ _ s
    unfold PackerThreads.unpack
    split
    · next h0 =>
      cases hd : pyDivMod n (p.nTracts * p.nPatches) with
      | error e =>
        refine ⟨m₀, hm₀, ?_⟩
        unfold Packer.unpack withBands
        dsimp only
        rw [if_pos h0, hd]
        rfl
      | ok x =>
        obtain ⟨index, rest⟩ := x
        intro s₁ _ hI₁
        refine ⟨hI₁, id, ?_⟩
        dsimp only [id]
        split
        · intro s₂ _ hI₂
          refine ⟨hI₂, id, ?_⟩
          intro s₃ _ hI₃
          refine ⟨⟨hI₃.1, .inr ⟨_, hI₂.1, rfl⟩⟩, fun _ => rfl, ?_⟩
          exact useList_safe P p n index rest h0 hd _ rfl
        · next hs =>
          refine useList_safe P p n index rest h0 hd _ ?_
          cases hx : s₁.bandsList with
          | none => rw [hx] at hs; exact absurd rfl hs
          | some _ => rfl
    · next h0 =>
      refine ⟨m₀, hm₀, ?_⟩
      unfold Packer.unpack withBands
      dsimp only
      rw [if_neg h0]
      cases pyDivMod n p.nPatches with
      | error e => rfl
      | ok x =>
        simp only [bind, Except.bind]
        have hw : ∀ y, (withBands p m₀).standardize y = p.standardize y := fun _ => rfl
        unfold withBands at hw
        rw [hw]
        cases p.standardize _ <;> rfl

/-- C87: if the mapping is only changed to permitted ones, every call that has ended gave an answer of permitted mappings. -/
theorem C87_changed (P : BandDict → Prop) (p : Packer) (hp : P p.bands) (l : Option (List (Option String)))
    (hl : l = none ∨ l = some (p.bands.map Prod.fst)) {S : System SharedPacker PackerReq PackerRes}
    (h : System.Reached (Permits P) (program p) ⟨p.bands, l⟩ S) : ∀ x ∈ S.ended, AnswerAmong P p x.1 x.2 :=
  (System.Reached.sound (I := Inv P) (le := Le) (post := fun q _ r => AnswerAmong P p q r) (fun _ => id) (fun _ _ _ a b c => b (a c))
    (fun _ _ _ _ _ h => h) ⟨hp, hl.imp id fun e => ⟨_, hp, e⟩⟩ (fun s _ q _ _ hq => program_safe P ⟨_, hp⟩ p q (by cases q <;> exact hq) s) h).2.2

/-- C87: threads that share a packer, new or used before, and do not change the mapping get what one thread gets: every `pack` and every
`unpack` that has ended gave its result, or raised its exception. -/
theorem C87_shared (p : Packer) (l : Option (List (Option String))) (hl : l = none ∨ l = some (p.bands.map Prod.fst))
    {S : System SharedPacker PackerReq PackerRes}
    (h : System.Reached (Permits fun _ => False) (program p) ⟨p.bands, l⟩ S) : ∀ x ∈ S.ended, Answer p x.1 x.2 := by
  have mono : System.Reached (Permits (· = p.bands)) (program p) ⟨p.bands, l⟩ S := by
    induction h with
    | init => exact .init
    | next _ hn ih =>
      refine .next ih ?_
      cases hn with
      | start S q ha =>
        refine .start _ q ?_
        cases q with
        | change m => exact absurd ha id
        | _ => trivial
      | work s l₁ l₂ e q u n => exact .work s l₁ l₂ e q u n
      | finish s l₁ l₂ e q r => exact .finish s l₁ l₂ e q r
  intro x hx
  have := C87_changed (· = p.bands) p rfl l hl mono x hx
  obtain ⟨q, r⟩ := x
  cases q with
  | change m => exact this
  | unpack n =>
    obtain ⟨m, rfl, hr⟩ := this
    exact hr
  | pack d =>
    obtain ⟨m, m', rfl, rfl, ⟨e, he, hr⟩ | ⟨k, hk, hr⟩⟩ := this
    · have he : p.pack d = .error e := he
      change r = (p.pack d).map .int
      rw [he]; exact hr
    · have hk : p.pack d = .ok k := hk
      change r = (p.pack d).map .int
      rw [hk]
      rcases hr with ⟨-, hr⟩ | ⟨h0, ⟨hn, hr⟩ | ⟨v, hv, hr⟩⟩
      · exact hr
      · obtain ⟨-, -, -, ⟨h, -⟩ | ⟨-, b, v, hb, hg, -⟩⟩ := (pack_iff _ _ _).1 hk
        · exact absurd h h0
        · rw [hb, hg] at hn; cases hn
      · obtain ⟨-, -, -, ⟨h, -⟩ | ⟨-, b, w, hb, hg, -, hkk⟩⟩ := (pack_iff _ _ _).1 hk
        · exact absurd h h0
        · rw [hb, hg] at hv
          cases hv
          rw [hkk]
          exact hr

/-- C87: changes that do not concern a call do not disturb it.  `pack` of a band gives what it gave at first, whatever happens to other bands,
as long as this band keeps its number; and `unpack` gives what it gave at first as long as the names and order of the bands stay. -/
theorem C87_undisturbed (P : BandDict → Prop) (p : Packer) (hp : P p.bands) (l : Option (List (Option String)))
    (hl : l = none ∨ l = some (p.bands.map Prod.fst)) {S : System SharedPacker PackerReq PackerRes}
    (h : System.Reached (Permits P) (program p) ⟨p.bands, l⟩ S) :
    (∀ d r, (.pack d, r) ∈ S.ended → (∀ m, P m → m.get d.band = p.bands.get d.band) → r = (p.pack d).map .int) ∧
    ∀ n r, (.unpack n, r) ∈ S.ended → (∀ m, P m → m.map Prod.fst = p.bands.map Prod.fst) → r = (p.unpack n).map .dataId := by
  constructor
  · intro d r hx hk
    have same : ∀ m, P m → (withBands p m).pack d = p.pack d := by
      intro m hm
      rw [pack_with, pack_eq]
      have := hk m hm
      cases hb : d.band with
      | none => rfl
      | some b =>
        rw [hb] at this
        dsimp only
        rw [this]
    obtain ⟨m, m', hm, hm', ⟨e, he, hr⟩ | ⟨k, hk', hr⟩⟩ := C87_changed P p hp l hl h _ hx
    · rw [← same m hm, he]; exact hr
    · rw [same m hm] at hk'
      rw [hk']
      rcases hr with ⟨-, hr⟩ | ⟨h0, ⟨hn, hr⟩ | ⟨v, hv, hr⟩⟩
      · exact hr
      · obtain ⟨-, -, -, ⟨h, -⟩ | ⟨-, b, v, hb, hg, -⟩⟩ := (pack_iff _ _ _).1 hk'
        · exact absurd h h0
        · rw [hk m' hm', hb, hg] at hn; cases hn
      · obtain ⟨-, -, -, ⟨h, -⟩ | ⟨-, b, w, hb, hg, -, hkk⟩⟩ := (pack_iff _ _ _).1 hk'
        · exact absurd h h0
        · rw [hk m' hm', hb, hg] at hv
          cases hv
          rw [hkk]
          exact hr
  · intro n r hx hk
    obtain ⟨m, hm, hr⟩ := C87_changed P p hp l hl h _ hx
    change r = _ at hr
    rw [hr]
    unfold Packer.unpack withBands
    dsimp only
    rw [hk m hm]
    rfl

/-- C87: a call with no other thread in between is the call of one thread on the packer object (C69), and leaves the same object. -/
theorem C87_single (p : Packer) (o : PackerObj) (ho : o.packer = p) :
    (∀ d, (pack p d).run ⟨p.bands, o.bandsList⟩ = ((PackerObj.pack d o).1.map .int, ⟨p.bands, (PackerObj.pack d o).2.bandsList⟩)) ∧
    ∀ n, (unpack p n).run ⟨p.bands, o.bandsList⟩ =
      ((PackerObj.unpack n o).1.map .dataId, ⟨p.bands, (PackerObj.unpack n o).2.bandsList⟩) := by
  subst ho
  obtain ⟨p, l⟩ := o
  refine ⟨fun d => ?_, fun n => ?_⟩
  · dsimp only [PackerObj.pack]
    unfold PackerThreads.pack
    rw [pack_eq]
    by_cases h1 : d.skymap ≠ p.fixed.skymap
    · rw [if_pos h1, if_pos h1]; rfl
    rw [if_neg h1, if_neg h1]
    by_cases h2 : d.patch ≥ p.nPatches
    · rw [if_pos h2, if_pos h2]; rfl
    rw [if_neg h2, if_neg h2]
    by_cases h3 : d.tract ≥ p.nTracts
    · rw [if_pos h3, if_pos h3]; rfl
    rw [if_neg h3, if_neg h3]
    by_cases h4 : p.nBands ≠ 0
    · rw [if_pos h4, if_pos h4]
      cases d.band with
      | none => rfl
      | some b =>
        dsimp only [Thread.run, id]
        cases hg : p.bands.get (some b) with
        | none => rfl
        | some v =>
          dsimp only
          by_cases h5 : v ≥ p.nBands
          · rw [if_pos h5, if_pos h5]; rfl
          · rw [if_neg h5, if_neg h5]
            dsimp only [Thread.run, id]
            rw [hg]
            rfl
    · rw [if_neg h4, if_neg h4]; rfl
  · dsimp only [PackerObj.unpack]
    unfold PackerThreads.unpack
    by_cases h0 : p.nBands ≠ 0
    · rw [if_pos h0, if_pos h0]
      cases hd : pyDivMod n (p.nTracts * p.nPatches) with
      | error e => rfl
      | ok x =>
        obtain ⟨index, rest⟩ := x
        have fin : ∀ keys, finish p index rest keys = Except.map PackerRes.dataId (do
            let key ← pyGetItem keys index
            let (tract, patch) ← pyDivMod rest p.nPatches
            p.standardize ⟨p.fixed.skymap, tract, patch, key⟩) := by
          intro keys
          unfold finish
          simp only [bind, Except.bind]
          cases pyGetItem keys index with
          | error e => rfl
          | ok key =>
            dsimp only
            cases pyDivMod rest p.nPatches with
            | error e => rfl
            | ok x => dsimp only; cases p.standardize _ <;> rfl
        cases l with
        | none =>
          change (finish p index rest _, _) = _
          rw [fin]
          rfl
        | some keys =>
          change (finish p index rest _, _) = _
          rw [fin]
          rfl
    · rw [if_neg h0, if_neg h0]
      simp only [bind, Except.bind]
      cases pyDivMod n p.nPatches with
      | error e => rfl
      | ok x => dsimp only; cases p.standardize _ <;> rfl

/-- A packer of two bands, three tracts of four patches. -/
def racePacker : Packer := ⟨⟨"m", none⟩, true, [(some "g", 0), (some "r", 1)], 2, 3, 4⟩

/-- A schedule for the examples: start a call, or let the n-th one in execution take a step (or end). -/
inductive Move
  | start (q : PackerReq)
  | go (n : Nat)

/-- One step of a schedule. -/
def play (p : Packer) (S : System SharedPacker PackerReq PackerRes) : Move → System SharedPacker PackerReq PackerRes
  | .start q => { S with running := S.running ++ [(q, program p q)] }
  | .go n => match S.running[n]? with
    | some (q, .step u f) => ⟨u S.shared, S.running.take n ++ (q, f S.shared) :: S.running.drop (n + 1), S.ended⟩
    | some (q, .done r) => ⟨S.shared, S.running.take n ++ S.running.drop (n + 1), S.ended ++ [(q, r)]⟩
    | none => S

theorem play_reached (P : BandDict → Prop) (p : Packer) (s₀ : SharedPacker) (l : List Move)
    (hl : ∀ q, Move.start q ∈ l → Permits P [] q) :
    System.Reached (Permits P) (program p) s₀ (l.foldl (play p) ⟨s₀, [], []⟩) := by
  have step : ∀ S a, (∀ q, a = Move.start q → Permits P [] q) → System.Reached (Permits P) (program p) s₀ S →
      System.Reached (Permits P) (program p) s₀ (play p S a) := by
    intro S a ha hS
    cases a with
    | start q => exact hS.next (.start S q (by have := ha q rfl; cases q <;> exact this))
    | go n =>
      obtain ⟨s, l, e⟩ := S
      have hl : ∀ x, l[n]? = some x → l = l.take n ++ x :: l.drop (n + 1) := by
        intro x hx
        obtain ⟨h1, rfl⟩ := List.getElem?_eq_some_iff.1 hx
        rw [List.getElem_cons_drop, List.take_append_drop]
      unfold play
      dsimp only
      split
      · rename_i q u f hq
        have hS' := hS
        rw [hl _ hq] at hS'
        exact hS'.next (.work s _ _ e q u f)
      · rename_i q r hq
        have hS' := hS
        rw [hl _ hq] at hS'
        exact hS'.next (.finish s _ _ e q r)
      · exact hS
  have : ∀ S, System.Reached (Permits P) (program p) s₀ S → System.Reached (Permits P) (program p) s₀ (l.foldl (play p) S) := by
    induction l with
    | nil => exact fun S hS => hS
    | cons a l ih => exact fun S hS => ih (fun q hq => hl q (List.mem_cons_of_mem _ hq)) _ (step S a (fun q hq => hl q (by simp [hq])) hS)
  exact this _ .init

/-- Without changes: two threads unpack at the same time, both find no list of bands and both write it; a third packs. -/
example : ∃ S, System.Reached (Permits fun _ => False) (program racePacker) ⟨racePacker.bands, none⟩ S ∧
    S.ended = [(.unpack 17, .ok (.dataId ⟨"m", 1, 1, some "r"⟩)), (.unpack 5, .ok (.dataId ⟨"m", 1, 1, some "g"⟩)),
      (.pack ⟨"m", 1, 1, some "r"⟩, .ok (.int 17))] := by
  refine ⟨_, play_reached _ racePacker _ [.start (.unpack 5), .start (.unpack 17), .go 0, .go 1, .go 0, .go 1, .go 0, .go 1, .go 1, .go 1,
    .go 0, .go 0, .start (.pack ⟨"m", 1, 1, some "r"⟩), .go 0, .go 0, .go 0] (by simp [Permits]), ?_⟩
  rfl

/-- With changes: while one thread packs band g, the caller renumbers band r. -/
example : ∃ (P : BandDict → Prop) (S : System SharedPacker PackerReq PackerRes), P racePacker.bands ∧
    System.Reached (Permits P) (program racePacker) ⟨racePacker.bands, none⟩ S ∧ S.shared.bands ≠ racePacker.bands ∧
    (∀ m, P m → m.get (some "g") = racePacker.bands.get (some "g")) ∧
    (.pack ⟨"m", 1, 1, some "g"⟩, .ok (.int 5)) ∈ S.ended := by
  refine ⟨fun m => m.get (some "g") = racePacker.bands.get (some "g"), _, rfl,
    play_reached _ racePacker _ [.start (.pack ⟨"m", 1, 1, some "g"⟩), .go 0, .start (.change [(some "g", 0), (some "r", 5)]), .go 1, .go 1,
      .go 0, .go 0] ?_, by decide, fun m hm => hm, ?_⟩
  · intro q hq
    simp only [List.mem_cons, Move.start.injEq, reduceCtorEq, false_or, List.not_mem_nil, or_false] at hq
    rcases hq with rfl | rfl
    · trivial
    · rfl
  · exact List.mem_append_right _ (List.mem_singleton.2 rfl)

/-- C87: it is not true that `pack` goes by the mapping of one moment.  The band is looked up twice; if the caller changes its number in
between, `pack` returns an integer that neither mapping gives and that does not fit in `maxBits`. -/
theorem C87_race : ∃ (m : BandDict) (d : DataId) (k : Int) (S : System SharedPacker PackerReq PackerRes),
    System.Reached (Permits (· = m)) (program racePacker) ⟨racePacker.bands, none⟩ S ∧ (.pack d, .ok (.int k)) ∈ S.ended ∧
    racePacker.pack d ≠ .ok k ∧ (∃ e, (withBands racePacker m).pack d = .error e) ∧ (2 : Int) ^ racePacker.maxBits ≤ k := by
  refine ⟨[(some "g", 0), (some "r", 5)], ⟨"m", 1, 1, some "r"⟩, 65, _,
    play_reached _ racePacker _ [.start (.pack ⟨"m", 1, 1, some "r"⟩), .go 0, .start (.change [(some "g", 0), (some "r", 5)]), .go 1, .go 1,
      .go 0, .go 0] (by simp [Permits]), ?_, by decide, ⟨.ValueError, rfl⟩, by decide⟩
  exact List.mem_append_right _ (List.mem_singleton.2 rfl)

end PackerThreads
end Skymap
