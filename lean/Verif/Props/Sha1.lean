import Verif.Model.Pickle
import Verif.Props.Caching
import Verif.Props.Config

/-! # C38, C40, C41: hashing, equality and pickling of sky maps -/

namespace Skymap

set_option linter.unusedSectionVars false
set_option linter.unusedSimpArgs false

/-! ## Specification vocabulary -/

/-- Two sky maps have the same class, the same class-specific configuration, the same tract builder with the same
configuration, and the same values of all the other configuration fields.  (The configuration of the builder that is not
selected, and the version, do not count.) -/
structure HashedMap.Same (m m' : HashedMap) : Prop where
  cls : m.cls = m'.cls
  builder : m.config.builderName = m'.config.builderName
  legacy : m.config.builderName = .legacy → m.config.legacy = m'.config.legacy
  cells : m.config.builderName = .cells → m.config.cells = m'.config.cells
  tractOverlap : m.config.tractOverlap = m'.config.tractOverlap
  pixelScale : m.config.pixelScale = m'.config.pixelScale
  projection : m.config.projection = m'.config.projection
  rotation : m.config.rotation = m'.config.rotation

/-- What `BaseSkyMap.__init__` has checked about a sky map that exists: the projection code has three characters and the
tract builder was constructed. -/
def HashedMap.Constructed (m : HashedMap) : Prop :=
  m.config.projection.length = 3 ∧ ∃ b, m.config.makeBuilder = .ok b

/-! ## Lemmas on the encodings -/

theorem leBytes_length (n x : Nat) : (leBytes n x).length = n := by
  induction n generalizing x with
  | zero => rfl
  | succ n ih => simp [leBytes, ih]

theorem leBytes_inj {n x y : Nat} (hx : x < 256 ^ n) (hy : y < 256 ^ n) (h : leBytes n x = leBytes n y) : x = y := by
  induction n generalizing x y with
  | zero => simp at hx hy; omega
  | succ n ih =>
    simp only [leBytes, List.cons.injEq] at h
    have h1 : x % 256 = y % 256 := by
      have := congrArg UInt8.toNat h.1
      simp only [UInt8.toNat_ofNat'] at this
      omega
    have h2 := ih (by rw [pow_succ] at hx; omega) (by rw [pow_succ] at hy; omega) h.2
    omega

theorem packI_ok {v : Int} {b : Bytes} (h : packI v = .ok b) : b.length = 4 := by
  unfold packI at h
  split at h
  · simp only [Except.ok.injEq] at h; rw [← h, leBytes_length]
  · simp at h

theorem packI_inj {v w : Int} {b : Bytes} (h : packI v = .ok b) (h' : packI w = .ok b) : v = w := by
  unfold packI at h h'
  split at h <;> simp only [Except.ok.injEq, reduceCtorEq] at h
  split at h' <;> simp only [Except.ok.injEq, reduceCtorEq] at h'
  rename_i a1 a2
  have := leBytes_inj (n := 4) (x := (v % 2 ^ 32).toNat) (y := (w % 2 ^ 32).toNat) (by omega) (by omega) (by rw [h, h'])
  omega

theorem packD_length (x : Dbl) : (packD x).length = 8 := leBytes_length _ _

theorem packD_inj {x y : Dbl} (h : packD x = packD y) : x = y :=
  BitVec.eq_of_toNat_eq (leBytes_inj (n := 8) (by have := x.isLt; omega) (by have := y.isLt; omega) h)

theorem packBool_inj {x y : Bool} (h : packBool x = packBool y) : x = y := by
  cases x <;> cases y <;> simp_all [packBool]

/-- Splitting a concatenation when the first parts have the same length. -/
theorem append_split {a b c d : Bytes} (h : a ++ b = c ++ d) (hl : a.length = c.length) : a = c ∧ b = d :=
  List.append_inj h hl

theorem packDs_flat_length (l : List Dbl) : (l.flatMap packD).length = 8 * l.length := by
  induction l with
  | nil => rfl
  | cons a l ih =>
    rw [List.flatMap_cons, List.length_append, packD_length, ih, List.length_cons]; omega

theorem packDs_flat_inj {l l' : List Dbl} (h : l.flatMap packD = l'.flatMap packD) (hl : l.length = l'.length) : l = l' := by
  induction l generalizing l' with
  | nil => cases l' with
    | nil => rfl
    | cons a l => simp at hl
  | cons a l ih =>
    cases l' with
    | nil => simp at hl
    | cons a' l' =>
      simp only [List.flatMap_cons] at h
      obtain ⟨h1, h2⟩ := append_split h (by rw [packD_length, packD_length])
      rw [packD_inj h1, ih h2 (by simpa using hl)]

theorem packDs_ok {n : Nat} {l : List Dbl} {b : Bytes} (h : packDs n l = .ok b) :
    l.length = n ∧ b = l.flatMap packD := by
  unfold packDs at h
  split at h
  · simp at h
  · rename_i hh
    simp only [Except.ok.injEq] at h
    exact ⟨not_not.1 hh, h.symm⟩

theorem ascii_inj {s s' : String} {b : Bytes} (h : encodeAscii s = .ok b) (h' : encodeAscii s' = .ok b) : s = s' := by
  unfold encodeAscii at h h'
  split at h <;> simp only [Except.ok.injEq, reduceCtorEq] at h
  split at h' <;> simp only [Except.ok.injEq, reduceCtorEq] at h'
  rename_i a1 a2
  rw [← h'] at h
  rw [List.all_eq_true] at a1 a2
  apply String.ext
  clear h'
  generalize s.toList = l at *
  generalize s'.toList = l' at *
  induction l generalizing l' with
  | nil => cases l' with
    | nil => rfl
    | cons => simp at h
  | cons c l ih =>
    cases l' with
    | nil => simp at h
    | cons c' l' =>
      simp only [List.map_cons, List.cons.injEq] at h
      have x1 := a1 c (by simp)
      have x2 := a2 c' (by simp)
      simp only [decide_eq_true_eq] at x1 x2
      have e : c = c' := by
        have := congrArg UInt8.toNat h.1
        simp only [UInt8.toNat_ofNat'] at this
        apply Char.ext
        apply UInt32.toNat_inj.1
        change c.toNat = c'.toNat
        omega
      rw [e, ih (fun x hx => a1 x (by simp [hx])) l' (fun x hx => a2 x (by simp [hx])) h.2]

theorem ascii_length {s : String} {b : Bytes} (h : encodeAscii s = .ok b) : b.length = s.length := by
  unfold encodeAscii at h
  split at h <;> simp only [Except.ok.injEq, reduceCtorEq] at h
  rw [← h, List.length_map]
  rfl

theorem pack3s_id {b : Bytes} (h : b.length = 3) : pack3s b = b := by
  unfold pack3s
  rw [List.take_append_of_le_length (by omega), List.take_of_length_le (by omega)]

/-- Inversion of sequencing. -/
theorem bindOk {α β : Type} {x : PyM α} {f : α → PyM β} {b : β} (h : (x >>= f) = .ok b) :
    ∃ a, x = .ok a ∧ f a = .ok b := by
  cases x with
  | error e => simp [bind, Except.bind] at h
  | ok a => exact ⟨a, rfl, h⟩

theorem getItem_pair {l : List Int} {x y : Int} (h : pyGetItem l 0 = .ok x) (h' : pyGetItem l 1 = .ok y) (hl : l.length = 2) :
    l = [x, y] := by
  obtain ⟨a, b, rfl⟩ := List.length_eq_two.1 hl
  simp [pyGetItem] at h h'
  rw [h, h']

/-- The tail of the packed configuration. -/
theorem tail_inj {c c' : SkyMapConfig Dbl} {p p' : Bytes} (hp : p.length = 3) (hp' : p'.length = 3) {u u' : Bytes}
    (h : packD c.tractOverlap ++ (packD c.pixelScale ++ (pack3s p ++ packD c.rotation)) ++ u =
      packD c'.tractOverlap ++ (packD c'.pixelScale ++ (pack3s p' ++ packD c'.rotation)) ++ u') :
    c.tractOverlap = c'.tractOverlap ∧ c.pixelScale = c'.pixelScale ∧ p = p' ∧ c.rotation = c'.rotation ∧ u = u' := by
  rw [pack3s_id hp, pack3s_id hp'] at h
  simp only [List.append_assoc] at h
  obtain ⟨h1, h⟩ := append_split h (by simp [packD_length])
  obtain ⟨h2, h⟩ := append_split h (by simp [packD_length])
  obtain ⟨h3, h⟩ := append_split h (by omega)
  obtain ⟨h4, h⟩ := append_split h (by simp [packD_length])
  exact ⟨packD_inj h1, packD_inj h2, h3, packD_inj h4, h⟩

theorem packed_inv {c : SkyMapConfig Dbl} {b : Bytes} (h : getPackedConfig c = .ok b)
    (hc : c.projection.length = 3 ∧ ∃ t, c.makeBuilder = .ok t) :
    ∃ head p, encodeAscii c.projection = .ok p ∧ p.length = 3 ∧
      b = head ++ (packD c.tractOverlap ++ (packD c.pixelScale ++ (pack3s p ++ packD c.rotation))) ∧
      ((c.builderName = .legacy ∧ ∃ x y a1 a2 a3, c.legacy.patchInnerDimensions = [x, y] ∧ packI x = .ok a1 ∧
          packI y = .ok a2 ∧ packI c.legacy.patchBorder = .ok a3 ∧ head = a1 ++ a2 ++ a3 ∧ head.length = 12) ∨
       (c.builderName = .cells ∧ ∃ x y a1 a2 a3 a4 a5, c.cells.cellInnerDimensions = [x, y] ∧ packI x = .ok a1 ∧
          packI y = .ok a2 ∧ packI c.cells.cellBorder = .ok a3 ∧ packI c.cells.numCellsPerPatchInner = .ok a4 ∧
          packI c.cells.numCellsInPatchBorder = .ok a5 ∧ head = a1 ++ a2 ++ a3 ++ a4 ++ a5 ∧ head.length = 20)) := by
  obtain ⟨hp3, t, ht⟩ := hc
  unfold getPackedConfig at h
  obtain ⟨head, h1, h⟩ := bindOk h
  obtain ⟨p, h2, h⟩ := bindOk h
  simp only [pure, Except.pure, Except.ok.injEq] at h
  refine ⟨head, p, h2, by rw [ascii_length h2, hp3], h.symm, ?_⟩
  unfold SkyMapConfig.makeBuilder at ht
  cases hn : c.builderName with
  | legacy =>
    simp only [packedHead, hn] at h1
    rw [hn] at ht
    left
    refine ⟨rfl, ?_⟩
    dsimp only at ht
    obtain ⟨x, x1, h1⟩ := bindOk h1
    obtain ⟨y, y1, h1⟩ := bindOk h1
    obtain ⟨a1, e1, h1⟩ := bindOk h1
    obtain ⟨a2, e2, h1⟩ := bindOk h1
    obtain ⟨a3, e3, h1⟩ := bindOk h1
    simp only [pure, Except.pure, Except.ok.injEq] at h1
    have hl : c.legacy.patchInnerDimensions.length = 2 := by
      unfold LegacyTractBuilder.new at ht
      split at ht
      · rename_i a b e; rw [e]; rfl
      · simp at ht
    refine ⟨x, y, a1, a2, a3, getItem_pair x1 y1 hl, e1, e2, e3, h1.symm, ?_⟩
    rw [← h1]
    simp [packI_ok e1, packI_ok e2, packI_ok e3]
  | cells =>
    simp only [packedHead, hn] at h1
    rw [hn] at ht
    right
    refine ⟨rfl, ?_⟩
    dsimp only at ht
    obtain ⟨x, x1, h1⟩ := bindOk h1
    obtain ⟨y, y1, h1⟩ := bindOk h1
    obtain ⟨a1, e1, h1⟩ := bindOk h1
    obtain ⟨a2, e2, h1⟩ := bindOk h1
    obtain ⟨a3, e3, h1⟩ := bindOk h1
    obtain ⟨a4, e4, h1⟩ := bindOk h1
    obtain ⟨a5, e5, h1⟩ := bindOk h1
    simp only [pure, Except.pure, Except.ok.injEq] at h1
    have hl : c.cells.cellInnerDimensions.length = 2 := by
      unfold CellTractBuilder.new at ht
      split at ht
      · rename_i a b e; rw [e]; rfl
      · simp at ht
    refine ⟨x, y, a1, a2, a3, a4, a5, getItem_pair x1 y1 hl, e1, e2, e3, e4, e5, h1.symm, ?_⟩
    rw [← h1]
    simp [packI_ok e1, packI_ok e2, packI_ok e3, packI_ok e4, packI_ok e5]

/-- The length of the class-specific part. -/
def payloadLen : MapClass → Nat
  | .dodeca _ => 1
  | .equat _ _ => 20
  | .rings _ _ => 12
  | .healpix _ _ => 5
  | .discrete _ _ rad => 24 * rad.length

/-- The length of the class-specific part: a constant, except for Discrete, where it is a multiple of 24. -/
theorem payload_length {cls : MapClass} {u : Bytes} (h : cls.updateSha1 = .ok u) :
    u.length = payloadLen cls := by
  cases cls with
  | dodeca w =>
    simp only [MapClass.updateSha1, Except.ok.injEq] at h
    rw [← h]; rfl
  | equat n r =>
    obtain ⟨a, e1, h⟩ := bindOk h
    obtain ⟨b, e2, h⟩ := bindOk h
    simp only [pure, Except.pure, Except.ok.injEq] at h
    obtain ⟨l2, rfl⟩ := packDs_ok e2
    dsimp only [payloadLen]
    rw [← h, List.length_append, packI_ok e1, packDs_flat_length, l2]
  | rings n s =>
    obtain ⟨a, e1, h⟩ := bindOk h
    simp only [pure, Except.pure, Except.ok.injEq] at h
    dsimp only [payloadLen]
    rw [← h, List.length_append, packI_ok e1, packD_length]
  | healpix n s =>
    obtain ⟨a, e1, h⟩ := bindOk h
    simp only [pure, Except.pure, Except.ok.injEq] at h
    dsimp only [payloadLen]
    rw [← h, List.length_append, packI_ok e1]; rfl
  | discrete ra dec rad =>
    obtain ⟨a, e1, h⟩ := bindOk h
    obtain ⟨b, e2, h⟩ := bindOk h
    obtain ⟨c, e3, h⟩ := bindOk h
    simp only [pure, Except.pure, Except.ok.injEq] at h
    obtain ⟨l1, rfl⟩ := packDs_ok e1
    obtain ⟨l2, rfl⟩ := packDs_ok e2
    obtain ⟨l3, rfl⟩ := packDs_ok e3
    dsimp only [payloadLen]
    rw [← h, List.length_append, List.length_append, packDs_flat_length, packDs_flat_length, packDs_flat_length]
    omega

/-- Within a class, the class-specific part determines the class-specific configuration. -/
theorem payload_inj {cls cls' : MapClass} {u : Bytes} (hn : cls.name = cls'.name) (h : cls.updateSha1 = .ok u)
    (h' : cls'.updateSha1 = .ok u) : cls = cls' := by
  have hlen := payload_length h
  have hlen' := payload_length h'
  cases cls <;> cases cls' <;> simp [MapClass.name] at hn
  case dodeca w w' =>
    simp only [MapClass.updateSha1, Except.ok.injEq] at h h'
    rw [packBool_inj (h.trans h'.symm)]
  case equat n r n' r' =>
    obtain ⟨a, e1, h⟩ := bindOk h
    obtain ⟨b, e2, h⟩ := bindOk h
    obtain ⟨a', e1', h'⟩ := bindOk h'
    obtain ⟨b', e2', h'⟩ := bindOk h'
    simp only [pure, Except.pure, Except.ok.injEq] at h h'
    obtain ⟨l2, rfl⟩ := packDs_ok e2
    obtain ⟨l2', rfl⟩ := packDs_ok e2'
    rw [← h'] at h
    obtain ⟨h1, h2⟩ := append_split h (by rw [packI_ok e1, packI_ok e1'])
    subst h1
    rw [packI_inj e1 e1', packDs_flat_inj h2 (by omega)]
  case rings n r n' r' =>
    obtain ⟨a, e1, h⟩ := bindOk h
    obtain ⟨a', e1', h'⟩ := bindOk h'
    simp only [pure, Except.pure, Except.ok.injEq] at h h'
    rw [← h'] at h
    obtain ⟨h1, h2⟩ := append_split h (by rw [packI_ok e1, packI_ok e1'])
    subst h1
    rw [packI_inj e1 e1', packD_inj h2]
  case healpix n r n' r' =>
    obtain ⟨a, e1, h⟩ := bindOk h
    obtain ⟨a', e1', h'⟩ := bindOk h'
    simp only [pure, Except.pure, Except.ok.injEq] at h h'
    rw [← h'] at h
    obtain ⟨h1, h2⟩ := append_split h (by rw [packI_ok e1, packI_ok e1'])
    subst h1
    rw [packI_inj e1 e1', packBool_inj h2]
  case discrete ra dec rad ra' dec' rad' =>
    obtain ⟨a, e1, h⟩ := bindOk h
    obtain ⟨b, e2, h⟩ := bindOk h
    obtain ⟨c, e3, h⟩ := bindOk h
    obtain ⟨a', e1', h'⟩ := bindOk h'
    obtain ⟨b', e2', h'⟩ := bindOk h'
    obtain ⟨c', e3', h'⟩ := bindOk h'
    simp only [pure, Except.pure, Except.ok.injEq] at h h'
    obtain ⟨l1, rfl⟩ := packDs_ok e1
    obtain ⟨l2, rfl⟩ := packDs_ok e2
    obtain ⟨l3, rfl⟩ := packDs_ok e3
    obtain ⟨l1', rfl⟩ := packDs_ok e1'
    obtain ⟨l2', rfl⟩ := packDs_ok e2'
    obtain ⟨l3', rfl⟩ := packDs_ok e3'
    dsimp only [payloadLen] at hlen hlen'
    rw [← h'] at h
    obtain ⟨h1, h⟩ := append_split h (by rw [packDs_flat_length, packDs_flat_length]; omega)
    obtain ⟨h2, h3⟩ := append_split h (by rw [packDs_flat_length, packDs_flat_length]; omega)
    rw [packDs_flat_inj h1 (by omega), packDs_flat_inj h2 (by omega), packDs_flat_inj h3 (by omega)]

/-- No class name is the beginning of a message of another class. -/
theorem name_split {cls cls' : MapClass} {n n' r r' : Bytes} (h : encodeAscii cls.name = .ok n)
    (h' : encodeAscii cls'.name = .ok n') (e : n ++ r = n' ++ r') : cls.name = cls'.name ∧ r = r' := by
  have fin : cls.name = cls'.name → cls.name = cls'.name ∧ r = r' := by
    intro hn
    refine ⟨hn, ?_⟩
    rw [hn, h'] at h
    obtain rfl := Except.ok.inj h
    exact List.append_cancel_left e
  by_cases hn : cls.name = cls'.name
  · exact fin hn
  · exfalso
    have g : ∀ c : MapClass, ∀ m : Bytes, encodeAscii c.name = .ok m → ∃ t, m = (match c with
        | .dodeca _ => [68, 111] | .equat _ _ => [69, 113] | .rings _ _ => [82, 105] | .healpix _ _ => [72, 101]
        | .discrete _ _ _ => [68, 105]) ++ t := by
      intro c m hm
      cases c <;> simp [encodeAscii, MapClass.name] at hm <;> subst hm <;> exact ⟨_, rfl⟩
    obtain ⟨t, rfl⟩ := g _ _ h
    obtain ⟨t', rfl⟩ := g _ _ h'
    cases cls <;> cases cls' <;> simp [MapClass.name] at hn e

/-! ## C38 -/

/-- C38: the hashed message determines the class, the class's configuration, the tract builder, its configuration, and all other
configuration values: two sky maps with the same message are the same. -/
theorem C38_message_injective (m m' : HashedMap) (hc : m.Constructed) (hc' : m'.Constructed) (b : Bytes)
    (h : sha1Message m.cls m.config = .ok b) (h' : sha1Message m'.cls m'.config = .ok b) : m.Same m' := by
  obtain ⟨n, n1, h⟩ := bindOk h
  obtain ⟨p, p1, h⟩ := bindOk h
  obtain ⟨u, u1, h⟩ := bindOk h
  obtain ⟨n', n1', h'⟩ := bindOk h'
  obtain ⟨p', p1', h'⟩ := bindOk h'
  obtain ⟨u', u1', h'⟩ := bindOk h'
  simp only [pure, Except.pure, Except.ok.injEq] at h h'
  rw [← h'] at h
  obtain ⟨hn, h⟩ := name_split n1 n1' h
  obtain ⟨hd, q, q1, q3, rfl, hk⟩ := packed_inv p1 hc
  obtain ⟨hd', q', q1', q3', rfl, hk'⟩ := packed_inv p1' hc'
  have hlen := congrArg List.length h
  simp only [List.length_append, packD_length, pack3s_id q3, pack3s_id q3', q3, q3'] at hlen
  have hl1 := payload_length u1
  have hl2 := payload_length u1'
  have key : ∀ (x x' t t' v v' : Bytes), x ++ t ++ v = x' ++ t' ++ v' → x.length = x'.length → x = x' ∧ t ++ v = t' ++ v' := by
    intro x x' t t' v v' e el
    rw [List.append_assoc, List.append_assoc] at e
    exact append_split e el
  rcases hk with ⟨k, x, y, a1, a2, a3, d1, e1, e2, e3, rfl, kl⟩ | ⟨k, x, y, a1, a2, a3, a4, a5, d1, e1, e2, e3, e4, e5, rfl, kl⟩
  · rcases hk' with ⟨k', x', y', a1', a2', a3', d1', e1', e2', e3', rfl, kl'⟩ | ⟨k', x', y', a1', a2', a3', a4', a5', d1', e1', e2', e3', e4', e5', rfl, kl'⟩
    · obtain ⟨g1, g2⟩ := key _ _ _ _ _ _ h (by omega)
      obtain ⟨r1, r2, r3, r4, rfl⟩ := tail_inj q3 q3' g2
      subst r3
      obtain ⟨g1, w3⟩ := append_split g1 (by simp [packI_ok e1, packI_ok e2, packI_ok e1', packI_ok e2'])
      obtain ⟨w1, w2⟩ := append_split g1 (by simp [packI_ok e1, packI_ok e1'])
      subst w1 w2 w3
      refine ⟨payload_inj hn u1 u1', by rw [k, k'], fun _ => ?_, fun hh => by rw [k] at hh; simp at hh, r1, r2, ascii_inj q1 q1', r4⟩
      have z1 : m.config.legacy.patchInnerDimensions = m'.config.legacy.patchInnerDimensions := by
        rw [d1, d1', packI_inj e1 e1', packI_inj e2 e2']
      have z2 := packI_inj e3 e3'
      cases hL : m.config.legacy
      cases hL' : m'.config.legacy
      simp only [hL, hL'] at z1 z2
      rw [z1, z2]
    · exfalso
      cases hcl : m.cls <;> cases hcl' : m'.cls <;> simp [hcl, hcl', MapClass.name, payloadLen] at hn hl1 hl2 <;> omega
  · rcases hk' with ⟨k', x', y', a1', a2', a3', d1', e1', e2', e3', rfl, kl'⟩ | ⟨k', x', y', a1', a2', a3', a4', a5', d1', e1', e2', e3', e4', e5', rfl, kl'⟩
    · exfalso
      cases hcl : m.cls <;> cases hcl' : m'.cls <;> simp [hcl, hcl', MapClass.name, payloadLen] at hn hl1 hl2 <;> omega
    · obtain ⟨g1, g2⟩ := key _ _ _ _ _ _ h (by omega)
      obtain ⟨r1, r2, r3, r4, rfl⟩ := tail_inj q3 q3' g2
      subst r3
      obtain ⟨g1, w5⟩ := append_split g1 (by simp [packI_ok e1, packI_ok e2, packI_ok e1', packI_ok e2', packI_ok e3, packI_ok e3', packI_ok e4, packI_ok e4'])
      obtain ⟨g1, w4⟩ := append_split g1 (by simp [packI_ok e1, packI_ok e2, packI_ok e1', packI_ok e2', packI_ok e3, packI_ok e3'])
      obtain ⟨g1, w3⟩ := append_split g1 (by simp [packI_ok e1, packI_ok e2, packI_ok e1', packI_ok e2'])
      obtain ⟨w1, w2⟩ := append_split g1 (by simp [packI_ok e1, packI_ok e1'])
      subst w1 w2 w3 w4 w5
      refine ⟨payload_inj hn u1 u1', by rw [k, k'], fun hh => by rw [k] at hh; simp at hh, fun _ => ?_, r1, r2, ascii_inj q1 q1', r4⟩
      have z1 : m.config.cells.cellInnerDimensions = m'.config.cells.cellInnerDimensions := by
        rw [d1, d1', packI_inj e1 e1', packI_inj e2 e2']
      have z2 := packI_inj e3 e3'
      have z3 := packI_inj e4 e4'
      have z4 := packI_inj e5 e5'
      cases hL : m.config.cells
      cases hL' : m'.config.cells
      simp only [hL, hL'] at z1 z2 z3 z4
      rw [z1, z2, z3, z4]

/-- Same sky maps have the same message, or fail to make one in the same way. -/
theorem message_of_same {m m' : HashedMap} (h : m.Same m') : sha1Message m.cls m.config = sha1Message m'.cls m'.config := by
  have hp : getPackedConfig m.config = getPackedConfig m'.config := by
    have hh : packedHead m.config = packedHead m'.config := by
      unfold packedHead
      rw [← h.builder]
      cases hb : m.config.builderName with
      | legacy => simp only [h.legacy hb]
      | cells => simp only [h.cells hb]
    unfold getPackedConfig
    rw [hh, h.tractOverlap, h.pixelScale, h.projection, h.rotation]
  unfold sha1Message
  rw [h.cls, hp]

/-- A sky map's cached hash, if any, is the one computed from its class and configuration. -/
def HashedMap.CacheOk (H : Bytes → Bytes) (m : HashedMap) : Prop :=
  ∀ h, m.sha1 = some h → ∃ b, sha1Message m.cls m.config = .ok b ∧ h = H b

theorem getSha1_val {H : Bytes → Bytes} {m : HashedMap} (hm : m.CacheOk H) :
    (m.getSha1 H).1 = (sha1Message m.cls m.config).map H ∧ (m.getSha1 H).2.CacheOk H ∧
      (m.getSha1 H).2 = { m with sha1 := (m.getSha1 H).2.sha1 } := by
  unfold HashedMap.getSha1
  cases h : m.sha1 with
  | some x =>
    obtain ⟨b, h1, h2⟩ := hm x h
    refine ⟨by rw [h1, h2]; rfl, hm, rfl⟩
  | none =>
    dsimp only
    cases h1 : sha1Message m.cls m.config with
    | error e => exact ⟨rfl, hm, rfl⟩
    | ok b =>
      refine ⟨rfl, ?_, rfl⟩
      intro x hx
      simp only [Option.some.injEq] at hx
      exact ⟨b, h1, hx.symm⟩

/-- The result of `==` in terms of the messages. -/
theorem eq_val {H : Bytes → Bytes} {m m' : HashedMap} (hm : m.CacheOk H) (hm' : m'.CacheOk H) :
    (HashedMap.eq H (m, m')).1 = (do
      let a ← sha1Message m.cls m.config
      let b ← sha1Message m'.cls m'.config
      return H a == H b) := by
  have h1 := (getSha1_val hm).1
  have h2 := (getSha1_val hm').1
  unfold HashedMap.eq
  rcases h : m.getSha1 H with ⟨x, n⟩
  rcases h' : m'.getSha1 H with ⟨x', n'⟩
  rw [h] at h1
  rw [h'] at h2
  dsimp only at h1 h2 ⊢
  cases ha : sha1Message m.cls m.config with
  | error e => rw [ha] at h1; simp only [Except.map] at h1; subst h1; rfl
  | ok a =>
    rw [ha] at h1; simp only [Except.map] at h1; subst h1
    dsimp only
    cases hb : sha1Message m'.cls m'.config with
    | error e => rw [hb] at h2; simp only [Except.map] at h2; subst h2; rfl
    | ok b => rw [hb] at h2; simp only [Except.map] at h2; subst h2; rfl

/-- C38: sky maps that are the same compare equal and have the same `hash()`, for every hash function, whether or not hashes
were computed before - or the configuration cannot be packed, and then both operations raise. -/
theorem C38_equal_of_same (H : Bytes → Bytes) (hash : Bytes → Int) (m m' : HashedMap) (hm : m.CacheOk H) (hm' : m'.CacheOk H)
    (h : m.Same m') :
    ((HashedMap.eq H (m, m')).1 = .ok true ∧ (HashedMap.ne H (m, m')).1 = .ok false ∧
      ∃ n, (m.pyHash H hash).1 = .ok n ∧ (m'.pyHash H hash).1 = .ok n) ∨
    (∃ e, sha1Message m.cls m.config = .error e ∧ (HashedMap.eq H (m, m')).1 = .error e ∧
      (m.pyHash H hash).1 = .error e ∧ (m'.pyHash H hash).1 = .error e) := by
  have he := eq_val hm hm'
  have h1 := (getSha1_val hm).1
  have h2 := (getSha1_val hm').1
  rw [← message_of_same h] at he h2
  have hne : (HashedMap.ne H (m, m')).1 = (HashedMap.eq H (m, m')).1.map (!·) := by
    unfold HashedMap.ne
    rcases HashedMap.eq H (m, m') with ⟨x, y⟩
    cases x <;> rfl
  have hh : ∀ m : HashedMap, (m.pyHash H hash).1 = (m.getSha1 H).1.map hash := by
    intro m
    unfold HashedMap.pyHash
    rcases m.getSha1 H with ⟨x, y⟩
    cases x <;> rfl
  rw [hne, hh, hh, h1, h2, he]
  cases sha1Message m.cls m.config with
  | ok a => left; exact ⟨by simp [bind, Except.bind, pure, Except.pure], by simp [bind, Except.bind, pure, Except.pure, Except.map], _, rfl, rfl⟩
  | error e => right; exact ⟨e, rfl, rfl, rfl, rfl⟩

/-- C38: conversely, sky maps that compare equal are the same, or exhibit a collision: two different byte strings with the same
SHA-1.  `!=` is the opposite of `==`. -/
theorem C38_same_of_equal (H : Bytes → Bytes) (m m' : HashedMap) (hc : m.Constructed) (hc' : m'.Constructed)
    (hm : m.CacheOk H) (hm' : m'.CacheOk H) (h : (HashedMap.eq H (m, m')).1 = .ok true) :
    m.Same m' ∨ ∃ a b : Bytes, a ≠ b ∧ H a = H b := by
  rw [eq_val hm hm'] at h
  obtain ⟨a, h1, h⟩ := bindOk h
  obtain ⟨b, h2, h⟩ := bindOk h
  simp only [pure, Except.pure, Except.ok.injEq, beq_iff_eq] at h
  by_cases hab : a = b
  · subst hab
    exact .inl (C38_message_injective m m' hc hc' a h1 h2)
  · exact .inr ⟨a, b, hab, h⟩

/-- C38: `!=` is the opposite of `==`, and sky maps that compare equal have equal `hash()`. -/
theorem C38_ne_and_hash (H : Bytes → Bytes) (hash : Bytes → Int) (m m' : HashedMap) (hm : m.CacheOk H) (hm' : m'.CacheOk H) :
    (HashedMap.ne H (m, m')).1 = (HashedMap.eq H (m, m')).1.map (!·) ∧
    ((HashedMap.eq H (m, m')).1 = .ok true → (m.pyHash H hash).1 = (m'.pyHash H hash).1) := by
  refine ⟨?_, fun h => ?_⟩
  · unfold HashedMap.ne
    rcases HashedMap.eq H (m, m') with ⟨x, y⟩
    cases x <;> rfl
  · have hh : ∀ m : HashedMap, (m.pyHash H hash).1 = (m.getSha1 H).1.map hash := by
      intro m
      unfold HashedMap.pyHash
      rcases m.getSha1 H with ⟨x, y⟩
      cases x <;> rfl
    rw [eq_val hm hm'] at h
    obtain ⟨a, h1, h⟩ := bindOk h
    obtain ⟨b, h2, h⟩ := bindOk h
    simp only [pure, Except.pure, Except.ok.injEq, beq_iff_eq] at h
    rw [hh, hh, (getSha1_val hm).1, (getSha1_val hm').1, h1, h2]
    simp [Except.map, h]

/-! ## C41 -/

variable {Sky K : Type} [Field K] [LinearOrder K] [FloorRing K]

/-- What a program can do to a sky map. -/
inductive MapOp
  | getSha1
  | getItem (i : Int)
  | assign (f : SkyMapConfig Dbl → SkyMapConfig Dbl)

/-- The sky map after an operation, which may raise. -/
def MapOp.run (H : Bytes → Bytes) (o : SkyMapObj Sky K) : MapOp → SkyMapObj Sky K
  | .getSha1 => (o.getSha1 H).2
  | .getItem i => (o.getItem i).2
  | .assign f => (o.assign f).2

/-- `o'` is `o` after some history of operations. -/
def MapHistory (H : Bytes → Bytes) (o o' : SkyMapObj Sky K) : Prop := ∃ l : List MapOp, o' = l.foldl (MapOp.run H) o

/-- How the tracts of a sky map can change. -/
def TractsAfter : Tracts Sky K → Tracts Sky K → Prop
  | .caching m s, .caching m' s' => m = m' ∧ (CachingSkyMap.skyMapOps m).After s s'
  | .eager l b, .eager l' b' => l = l' ∧ b = b'
  | _, _ => False

theorem TractsAfter.refl (t : Tracts Sky K) : TractsAfter t t := by
  cases t with
  | caching m s => exact ⟨rfl, .refl s⟩
  | eager l b => exact ⟨rfl, rfl⟩

/-- Everything that is kept in a history. -/
structure HistInv (H : Bytes → Bytes) (o o' : SkyMapObj Sky K) : Prop where
  cls : o'.hashed.cls = o.hashed.cls
  config : o'.hashed.config = o.hashed.config
  version : o'.hashed.version = o.hashed.version
  cache : o'.hashed.CacheOk H
  tracts : TractsAfter o.tracts o'.tracts

theorem HistInv.step {H : Bytes → Bytes} {o o' : SkyMapObj Sky K} (hf : o.hashed.config.frozen = true) (h : HistInv H o o')
    (op : MapOp) : HistInv H o (op.run H o') := by
  cases op with
  | getSha1 =>
    obtain ⟨-, h2, h3⟩ := getSha1_val h.cache
    have e : MapOp.run H o' .getSha1 = { o' with hashed := (o'.hashed.getSha1 H).2 } := rfl
    rw [e]
    refine ⟨?_, ?_, ?_, h2, h.tracts⟩
    · dsimp only; rw [h3]; exact h.cls
    · dsimp only; rw [h3]; exact h.config
    · dsimp only; rw [h3]; exact h.version
  | getItem i =>
    have ht := h.tracts
    obtain ⟨hd, t⟩ := o'
    cases hto : o.tracts with
    | caching m s =>
      cases t with
      | caching m' s' =>
        rw [hto] at ht
        obtain ⟨rfl, ha⟩ := ht
        refine ⟨h.cls, h.config, h.version, h.cache, ?_⟩
        rw [hto]
        exact ⟨rfl, ha.trans (.step i s')⟩
      | eager l b => rw [hto] at ht; exact ht.elim
    | eager l b =>
      cases t with
      | caching m' s' => rw [hto] at ht; exact ht.elim
      | eager l' b' => exact ⟨h.cls, h.config, h.version, h.cache, h.tracts⟩
  | assign f =>
    have e : MapOp.run H o' (.assign f) = o' := by
      unfold MapOp.run SkyMapObj.assign SkyMapConfig.assign
      rw [h.config, hf]
      simp [← h.config]
    rw [e]
    exact h

theorem histInv {H : Bytes → Bytes} {o o' : SkyMapObj Sky K} (hf : o.hashed.config.frozen = true) (hc : o.hashed.CacheOk H)
    (h : MapHistory H o o') : HistInv H o o' := by
  obtain ⟨l, rfl⟩ := h
  have h0 : HistInv H o o := ⟨rfl, rfl, rfl, hc, .refl _⟩
  have key : ∀ (l : List MapOp) (x : SkyMapObj Sky K), HistInv H o x → HistInv H o (l.foldl (MapOp.run H) x) := by
    intro l
    induction l with
    | nil => exact fun x hx => hx
    | cons a l ih => exact fun x hx => ih _ (hx.step hf a)
  exact key l o h0

/-- What a constructor leaves. -/
theorem new_spec {impl : ClassImpl Sky K} {cls : MapClass} {config : SkyMapConfig Dbl} {version : Version} {o : SkyMapObj Sky K}
    (h : SkyMapObj.new impl cls config version = .ok o) :
    o.hashed = ⟨cls, { config with frozen := true }, SkyMapObj.versionOf cls version, none⟩ ∧ o.hashed.Constructed ∧
    (∀ m s, o.tracts = .caching m s → ∃ b, s = CachingSkyMap.init m b) := by
  unfold SkyMapObj.new BaseSkyMap.init at h
  dsimp only at h
  cases hw : wcsFactoryCheck config.projection with
  | error e => rw [hw] at h; simp at h
  | ok u =>
    rw [hw] at h
    dsimp only at h
    have hp : config.projection.length = 3 := by
      unfold wcsFactoryCheck at hw
      split at hw
      · simp at hw
      · rename_i hh; exact not_not.1 hh
    cases hb : ({ config with frozen := true } : SkyMapConfig Dbl).makeBuilder with
    | error e => rw [hb] at h; simp at h
    | ok b =>
      rw [hb] at h
      dsimp only at h
      split at h
      · simp at h
      · simp only [Except.ok.injEq] at h
        subst h
        exact ⟨rfl, ⟨hp, b, hb⟩, fun m s e => by
          simp only [Tracts.caching.injEq] at e
          obtain ⟨rfl, rfl⟩ := e
          exact ⟨_, rfl⟩⟩
      · split at h
        · simp at h
        · simp only [Except.ok.injEq] at h
          subst h
          exact ⟨rfl, ⟨hp, b, hb⟩, fun m s e => by simp at e⟩

theorem new_cacheOk {impl : ClassImpl Sky K} {cls : MapClass} {config : SkyMapConfig Dbl} {version : Version}
    {o : SkyMapObj Sky K} (h : SkyMapObj.new impl cls config version = .ok o) (H : Bytes → Bytes) : o.hashed.CacheOk H := by
  intro x hx
  rw [(new_spec h).1] at hx
  simp at hx

/-- C41: at every point of every history of a constructed sky map - hash computations, tract accesses and attempts to modify the
configuration - `getSha1` returns the same value, that of the class and the configuration given to the constructor (or raises the
same error, if that cannot be packed), the configuration is still the one given, and every assignment to it raises. -/
theorem C41_hash_never_changes (H : Bytes → Bytes) (impl : ClassImpl Sky K) (cls : MapClass) (config : SkyMapConfig Dbl)
    (version : Version) (o o' : SkyMapObj Sky K) (h : SkyMapObj.new impl cls config version = .ok o) (hh : MapHistory H o o') :
    (o'.getSha1 H).1 = (sha1Message cls config).map H ∧ o'.hashed.config = { config with frozen := true } ∧
    o'.hashed.cls = cls ∧ ∀ f, o'.assign f = (.error .FieldValidationError, o') := by
  obtain ⟨e, -⟩ := new_spec h
  have hf : o.hashed.config.frozen = true := by rw [e]
  have I := histInv hf (new_cacheOk h H) hh
  have hc : o'.hashed.config = { config with frozen := true } := by rw [I.config, e]
  have hk : o'.hashed.cls = cls := by rw [I.cls, e]
  refine ⟨?_, hc, hk, fun f => ?_⟩
  · have h1 := (getSha1_val I.cache).1
    rw [hk, hc] at h1
    exact h1
  · unfold SkyMapObj.assign SkyMapConfig.assign
    rw [hc]
    simp [← hc]

/-- C41: the answer of `==` between two sky maps never changes either. -/
theorem C41_equality_never_changes (H : Bytes → Bytes) (impl : ClassImpl Sky K) (cls₁ cls₂ : MapClass)
    (config₁ config₂ : SkyMapConfig Dbl) (version₁ version₂ : Version) (o₁ o₁' o₂ o₂' : SkyMapObj Sky K)
    (h₁ : SkyMapObj.new impl cls₁ config₁ version₁ = .ok o₁) (h₂ : SkyMapObj.new impl cls₂ config₂ version₂ = .ok o₂)
    (hh₁ : MapHistory H o₁ o₁') (hh₂ : MapHistory H o₂ o₂') :
    (HashedMap.eq H (o₁'.hashed, o₂'.hashed)).1 = (HashedMap.eq H (o₁.hashed, o₂.hashed)).1 := by
  have I₁ := histInv (by rw [(new_spec h₁).1]) (new_cacheOk h₁ H) hh₁
  have I₂ := histInv (by rw [(new_spec h₂).1]) (new_cacheOk h₂ H) hh₂
  rw [eq_val I₁.cache I₂.cache, eq_val (new_cacheOk h₁ H) (new_cacheOk h₂ H), I₁.cls, I₁.config, I₂.cls, I₂.config]

/-! ## C40 -/

/-- Constructing is determined by the arguments; freezing the configuration first makes no difference. -/
theorem new_unfreeze (impl : ClassImpl Sky K) (cls : MapClass) (config : SkyMapConfig Dbl) (version version' : Version) (x : Bool)
    (hv : SkyMapObj.versionOf cls version' = SkyMapObj.versionOf cls version) :
    SkyMapObj.new impl cls { config with frozen := x } version' = SkyMapObj.new impl cls config version := by
  unfold SkyMapObj.new
  rw [hv]
  rfl

/-- C40: at every point of its life a sky map that was constructed can be pickled and unpickled; the result has the same class,
configuration and version, compares equal to the original (unless its hash raises) and has the same tracts: the same number, and
at every index the same contents or the same exception. -/
theorem C40_pickle_roundtrip (H : Bytes → Bytes) (impl : ClassImpl Sky K) (cls : MapClass) (config : SkyMapConfig Dbl)
    (version : Version) (o o' : SkyMapObj Sky K) (h : SkyMapObj.new impl cls config version = .ok o) (hh : MapHistory H o o') :
    ∃ p, SkyMapObj.unpickle impl (SkyMapObj.pickle o') = .ok p ∧ p.hashed.cls = o'.hashed.cls ∧
      p.hashed.config = o'.hashed.config ∧ p.hashed.version = o'.hashed.version ∧
      (HashedMap.eq H (o'.hashed, p.hashed)).1 = (sha1Message cls config).map (fun _ => true) ∧
      p.len = o'.len ∧
      ∀ i, (p.getItem i).1.map TractRef.info = (o'.getItem i).1.map TractRef.info := by
  obtain ⟨e, -, hcach⟩ := new_spec h
  have hf : o.hashed.config.frozen = true := by rw [e]
  have I := histInv hf (new_cacheOk h H) hh
  have hc : o'.hashed.config = { config with frozen := true } := by rw [I.config, e]
  have hk : o'.hashed.cls = cls := by rw [I.cls, e]
  have hv : o'.hashed.version = SkyMapObj.versionOf cls version := by rw [I.version, e]
  have hp : SkyMapObj.unpickle impl (SkyMapObj.pickle o') = .ok o := by
    rw [← h]
    unfold SkyMapObj.pickle HashedMap.pickle
    rw [hk, hc, hv]
    by_cases hca : cls.isCaching
    · rw [if_pos hca]
      exact new_unfreeze impl cls config _ _ _ (by simp [SkyMapObj.versionOf, hca])
    · rw [if_neg hca]
      have hv1 : SkyMapObj.versionOf cls version = .tuple [1, 0] := by simp [SkyMapObj.versionOf, hca]
      rw [hv1]
      exact new_unfreeze impl cls config _ _ _ (by rw [hv1]; simp [SkyMapObj.versionOf, hca])
  refine ⟨o, hp, I.cls.symm, I.config.symm, I.version.symm, ?_, ?_, ?_⟩
  · rw [eq_val I.cache (new_cacheOk h H), I.cls, I.config, e]
    change (do
      let a ← sha1Message cls config
      let b ← sha1Message cls config
      return H a == H b) = _
    cases sha1Message cls config with
    | error x => rfl
    | ok b => simp [bind, Except.bind, pure, Except.pure, Except.map]
  · have ht := I.tracts
    unfold SkyMapObj.len
    cases hto : o.tracts <;> cases hto' : o'.tracts <;> rw [hto, hto'] at ht
    · rw [ht.1]
    · exact ht.elim
    · exact ht.elim
    · rw [ht.1]
  · intro i
    have ht := I.tracts
    unfold SkyMapObj.getItem
    cases hto : o.tracts <;> cases hto' : o'.tracts <;> rw [hto, hto'] at ht
    · rename_i m s m' s'
      obtain ⟨rfl, ha⟩ := ht
      obtain ⟨b, rfl⟩ := hcach m s hto
      exact (C19_history_independent ha i).symm
    · exact ht.elim
    · exact ht.elim
    · rw [ht.1]

/-- C40: Dodeca and Equat refuse exactly the states written with version (2, 0) or later, with `RuntimeError`; states with an
older pair are read, whatever the pair. -/
theorem C40_version_check (impl : ClassImpl Sky K) (cls : MapClass) (config : SkyMapConfig Dbl) (a b : Int)
    (hcls : cls.isCaching = false) :
    ((2 < a ∨ a = 2 ∧ 0 ≤ b) → SkyMapObj.unpickle impl (.state cls (.tuple [a, b]) config) = .error .RuntimeError) ∧
    (¬ (2 < a ∨ a = 2 ∧ 0 ≤ b) → SkyMapObj.unpickle impl (.state cls (.tuple [a, b]) config) =
      SkyMapObj.new impl cls config (.tuple [1, 0])) := by
  have hg : (Version.tuple [a, b]).ge20 = .ok (decide (2 < a ∨ a = 2 ∧ 0 ≤ b)) := by
    unfold Version.ge20
    simp only [tupleGe]
    by_cases h1 : 2 < a
    · simp [h1]
    · by_cases h2 : a = 2
      · subst h2
        by_cases h3 : 0 < b
        · have : 0 ≤ b := by omega
          simp [h3, this]
        · by_cases h4 : b = 0
          · simp [h4]
          · have : ¬ 0 ≤ b := by omega
            simp [h3, h4, this]
      · simp [h1, h2]
  constructor
  · intro h
    unfold SkyMapObj.unpickle
    dsimp only
    rw [hg, decide_eq_true h]
    rfl
  · intro h
    unfold SkyMapObj.unpickle
    dsimp only
    rw [hg, decide_eq_false h]
    exact new_unfreeze impl cls config _ _ _ (by simp [SkyMapObj.versionOf, hcls])

/-! ## The hypotheses can be met -/

namespace Ex

/-- A configuration (0.5, 0.25 and 0 as bit patterns). -/
def hashConfig : SkyMapConfig Dbl where
  builderName := .cells
  tractOverlap := 0x3fe0000000000000
  pixelScale := 0x3fd0000000000000
  rotation := 0

/-- A class implementation: a discrete sky map with two tracts on the flat sky; Dodeca with one. -/
def impl : ClassImpl (P2 ℚ) ℚ where
  env := env
  ops := ops
  tracts cls _ _ := match cls with
    | .dodeca _ => match unequalMap.tractArgs 0 with
      | .ok a => .ok (.inr [a])
      | .error e => .error e
    | _ => .ok (.inl unequalMap)

/-- `CacheOk` holds of a new sky map and after its hash was computed; `Constructed` and a packable message. -/
example : ∃ b, sha1Message (.rings 120 0) hashConfig = .ok b ∧ b.length = 70 := by
  refine ⟨_, rfl, ?_⟩
  decide +kernel

example : (HashedMap.mk (.rings 120 0) hashConfig (.int 1) none).Constructed := by
  refine ⟨by decide, _, rfl⟩

/-- Sky maps that differ only in an unused configuration field or in the version are the same. -/
example : (HashedMap.mk (.rings 120 0) hashConfig (.int 1) none).Same
    (HashedMap.mk (.rings 120 0) { hashConfig with legacy := ⟨[5, 6], 7⟩, frozen := true } (.int 0) none) := by
  refine ⟨rfl, rfl, fun h => ?_, fun _ => rfl, rfl, rfl, rfl, rfl⟩
  simp [hashConfig] at h

/-- Construction succeeds, for a caching and for an eager class; histories are non-trivial. -/
example : (∃ o, SkyMapObj.new impl (.discrete [0] [0] [0]) hashConfig (.int 3) = .ok o) ∧
    (∃ o, SkyMapObj.new impl (.dodeca true) { hashConfig with builderName := .legacy, legacy := ⟨[4, 5], 1⟩ } (.int 3) = .ok o ∧
      o.len = 1) := by
  refine ⟨⟨_, rfl⟩, ?_⟩
  have h : (match SkyMapObj.new impl (.dodeca true) { hashConfig with builderName := .legacy, legacy := ⟨[4, 5], 1⟩ }
      (.int 3) with
    | .ok o => o.len
    | .error _ => 0) = 1 := by decide +kernel
  cases hn : SkyMapObj.new impl (.dodeca true) { hashConfig with builderName := .legacy, legacy := ⟨[4, 5], 1⟩ } (.int 3) with
  | error e => rw [hn] at h; simp at h
  | ok o => rw [hn] at h; exact ⟨o, rfl, h⟩

end Ex
end Skymap
