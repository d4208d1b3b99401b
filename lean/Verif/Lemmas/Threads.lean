import Verif.Model.Threads
import Verif.Lemmas.Search

/-! # Rely-guarantee reasoning about threads -/

namespace Skymap
namespace Thread
variable {σ α β γ : Type}

theorem bind_eq (p : Thread σ α) (f : α → Thread σ β) : (p >>= f) = p.bind f := rfl
theorem pure_eq (a : α) : (pure a : Thread σ α) = .done (.ok a) := rfl

/-- From shared state `s` on, whatever other threads do that keeps `I` and goes up in `le`: the thread keeps `I`, goes up in `le`, and ends
with `post`. -/
def Safe (I : σ → Prop) (le : σ → σ → Prop) (post : σ → PyM α → Prop) : Thread σ α → σ → Prop
  | .done r, s => post s r
  | .step u n, s => ∀ s', le s s' → I s' → I (u s') ∧ le s' (u s') ∧ Safe I le post (n s') (u s')

section
variable {I : σ → Prop} {le : σ → σ → Prop} {post : σ → PyM α → Prop}

theorem Safe.mono (htr : ∀ a b c, le a b → le b c → le a c) (hpost : ∀ s s' r, le s s' → post s r → post s' r) {p : Thread σ α} {s s' : σ}
    (h : Safe I le post p s) (hl : le s s') : Safe I le post p s' := by
  cases p with
  | done r => exact hpost _ _ _ hl h
  | step u n => exact fun s'' h1 h2 => h s'' (htr _ _ _ hl h1) h2

theorem Safe.weaken {post' : σ → PyM α → Prop} (hpost : ∀ s r, post s r → post' s r) {p : Thread σ α} {s : σ}
    (h : Safe I le post p s) : Safe I le post' p s := by
  induction p generalizing s with
  | done r => exact hpost _ _ h
  | step u n ih =>
    intro s' h1 h2
    obtain ⟨a, b, c⟩ := h s' h1 h2
    exact ⟨a, b, ih _ c⟩

theorem Safe.bind (hrf : ∀ a, le a a) (htr : ∀ a b c, le a b → le b c → le a c) {Q : σ → PyM α → Prop} {post : σ → PyM β → Prop} {p : Thread σ α}
    {f : α → Thread σ β} {s : σ} (h : Safe I le Q p s) (hok : ∀ s' a, le s s' → Q s' (.ok a) → Safe I le post (f a) s')
    (herr : ∀ s' e, le s s' → Q s' (.error e) → post s' (.error e)) : Safe I le post (p.bind f) s := by
  induction p generalizing s with
  | done r =>
    cases r with
    | ok a => exact hok s a (hrf s) h
    | error e => exact herr s e (hrf s) h
  | step u n ih =>
    intro s' h1 h2
    obtain ⟨a, b, c⟩ := h s' h1 h2
    exact ⟨a, b, ih s' c (fun s'' x h3 h4 => hok s'' x (htr _ _ _ h1 (htr _ _ _ b h3)) h4)
      (fun s'' x h3 h4 => herr s'' x (htr _ _ _ h1 (htr _ _ _ b h3)) h4)⟩

/-- A loop, compared with a computation on values: `φ` is what is compared, `F` is a fact that lasts. -/
theorem Safe.mapM (hrf : ∀ a, le a a) (htr : ∀ a b c, le a b → le b c → le a c) {f : α → Thread σ β} {φ : β → γ} {g : α → PyM γ}
    {F : σ → β → Prop} (hF : ∀ s s' b, le s s' → F s b → F s' b) (l : List α) {s : σ}
    (h : ∀ a ∈ l, ∀ s', le s s' → Safe I le (fun s r => r.map φ = g a ∧ ∀ b, r = .ok b → F s b) (f a) s') :
    Safe I le (fun s r => r.map (List.map φ) = pyMapM g l ∧ ∀ bs, r = .ok bs → ∀ b ∈ bs, F s b) (Thread.mapM f l) s := by
  induction l generalizing s with
  | nil =>
    refine ⟨rfl, ?_⟩
    rintro bs h b hb
    rw [← Except.ok.inj h] at hb
    simp at hb
  | cons a l ih =>
    refine Safe.bind hrf htr (h a (by simp) s (hrf s)) ?_ ?_
    · rintro s1 b h1 ⟨g1, F1⟩
      refine Safe.bind hrf htr (ih fun a' ha' s' hs' => h a' (by simp [ha']) s' (htr _ _ _ h1 hs')) ?_ ?_
      · rintro s2 bs h2 ⟨g2, F2⟩
        refine ⟨?_, ?_⟩
        · unfold pyMapM
          rw [← g1, ← g2]
          rfl
        · rintro bs' h' b' hb'
          rw [← Except.ok.inj h'] at hb'
          rcases List.mem_cons.1 hb' with rfl | hb'
          · exact hF _ _ _ h2 (F1 _ rfl)
          · exact F2 bs rfl b' hb'
      · rintro s2 e h2 ⟨g2, -⟩
        refine ⟨?_, by rintro bs h'; simp at h'⟩
        unfold pyMapM
        rw [← g1, ← g2]
        rfl
    · rintro s1 e h1 ⟨g1, -⟩
      refine ⟨?_, by rintro bs h'; simp at h'⟩
      unfold pyMapM
      rw [← g1]
      rfl

end

/-- In shared states that satisfy `c` the thread only reads, and it ends with `x`. -/
def Det (c : σ → Prop) : Thread σ α → PyM α → Prop
  | .done r, x => r = x
  | .step u n, x => ∀ s, c s → u s = s ∧ Det c (n s) x

section
variable {c : σ → Prop}

theorem Det.bind {p : Thread σ α} {x : PyM α} {f : α → Thread σ β} {g : α → PyM β} (h : Det c p x) (hf : ∀ a, x = .ok a → Det c (f a) (g a)) :
    Det c (p.bind f) (x.bind g) := by
  induction p with
  | done r =>
    obtain rfl : r = x := h
    cases r with
    | ok a => exact hf a rfl
    | error e => rfl
  | step u n ih => exact fun s hs => ⟨(h s hs).1, ih s (h s hs).2⟩

theorem Det.lift (x : PyM α) : Det c (Thread.lift x) x := rfl

theorem Det.read {f : σ → PyM α} {x : PyM α} (h : ∀ s, c s → f s = x) : Det c (Thread.read f) x := fun s hs => ⟨rfl, h s hs⟩

theorem Det.mapM {f : α → Thread σ β} {g : α → PyM β} (l : List α) (h : ∀ a ∈ l, Det c (f a) (g a)) :
    Det c (Thread.mapM f l) (pyMapM g l) := by
  induction l with
  | nil => rfl
  | cons a l ih =>
    have e : pyMapM g (a :: l) = (g a).bind fun b => (pyMapM g l).bind fun bs => .ok (b :: bs) := by
      simp only [pyMapM, Except.bind]
      split <;> rename_i h1 <;> rw [h1]
      dsimp only
      split <;> rename_i h2 <;> rw [h2]
    rw [e]
    exact (h a (by simp)).bind fun b _ => (ih fun a' ha' => h a' (by simp [ha'])).bind fun bs _ => rfl

theorem Det.run {p : Thread σ α} {x : PyM α} (h : Det c p x) {s : σ} (hs : c s) : p.run s = (x, s) := by
  induction p with
  | done r => cases h; rfl
  | step u n ih =>
    obtain ⟨h1, h2⟩ := h s hs
    unfold Thread.run
    rw [h1]
    exact ih s h2

theorem Det.safe {I : σ → Prop} {le : σ → σ → Prop} (hrf : ∀ a, le a a) (htr : ∀ a b c, le a b → le b c → le a c) {p : Thread σ α} {x : PyM α}
    (h : Det c p x) {s : σ} (hc : ∀ s', le s s' → I s' → c s') : Safe I le (fun _ r => r = x) p s := by
  induction p generalizing s with
  | done r => exact h
  | step u n ih =>
    intro s' h1 h2
    obtain ⟨e, h3⟩ := h s' (hc s' h1 h2)
    rw [e]
    exact ⟨h2, hrf _, ih s' h3 fun s'' h4 h5 => hc s'' (htr _ _ _ h1 h4) h5⟩

end

/-- The thread only reads. -/
def ReadOnly : Thread σ α → Prop
  | .done _ => True
  | .step u n => (∀ s, u s = s) ∧ ∀ s, ReadOnly (n s)

theorem ReadOnly.bind {p : Thread σ α} {f : α → Thread σ β} (h : p.ReadOnly) (hf : ∀ a, (f a).ReadOnly) : (p.bind f).ReadOnly := by
  induction p with
  | done r =>
    cases r with
    | ok a => exact hf a
    | error e => trivial
  | step u n ih => exact ⟨h.1, fun s => ih s (h.2 s)⟩

theorem ReadOnly.read (f : σ → PyM α) : (Thread.read f).ReadOnly := ⟨fun _ => rfl, fun _ => trivial⟩

theorem ReadOnly.mapM {f : α → Thread σ β} (h : ∀ a, (f a).ReadOnly) (l : List α) : (Thread.mapM f l).ReadOnly := by
  induction l with
  | nil => trivial
  | cons a l ih => exact (h a).bind fun b => ih.bind fun bs => trivial

theorem ReadOnly.safe {I : σ → Prop} {le : σ → σ → Prop} (hrf : ∀ a, le a a) {p : Thread σ α} (h : p.ReadOnly) (s : σ) :
    Safe I le (fun _ _ => True) p s := by
  induction p generalizing s with
  | done r => trivial
  | step u n ih =>
    intro s' _ h2
    rw [h.1 s']
    exact ⟨h2, hrf _, ih s' (h.2 s') s'⟩

theorem run_bind (p : Thread σ α) (f : α → Thread σ β) (s : σ) : (p.bind f).run s =
    match p.run s with
    | (.ok a, s') => (f a).run s'
    | (.error e, s') => (.error e, s') := by
  induction p generalizing s with
  | done r => cases r <;> rfl
  | step u n ih => exact ih s (u s)

end Thread

/-! ## Systems -/

namespace System
variable {σ Req Res : Type} {allowed : List (Req × PyM Res) → Req → Prop} {program : Req → Thread σ Res}

/-- What holds of every system reached: the invariant, every call in execution is safe, and every call that ended has its postcondition. -/
theorem Reached.sound {I : σ → Prop} {le : σ → σ → Prop} {post : Req → σ → PyM Res → Prop} (hrf : ∀ a, le a a)
    (htr : ∀ a b c, le a b → le b c → le a c) (hpost : ∀ q s s' r, le s s' → post q s r → post q s' r) {s₀ : σ} (h0 : I s₀)
    (hstart : ∀ s ended q, I s → (∀ x ∈ ended, post x.1 s x.2) → allowed ended q → (program q).Safe I le (post q) s)
    {S : System σ Req Res} (h : Reached allowed program s₀ S) :
    I S.shared ∧ (∀ x ∈ S.running, x.2.Safe I le (post x.1) S.shared) ∧ ∀ x ∈ S.ended, post x.1 S.shared x.2 := by
  induction h with
  | init => exact ⟨h0, by simp, by simp⟩
  | next _ hn ih =>
    obtain ⟨i1, i2, i3⟩ := ih
    cases hn with
    | start S q ha =>
      refine ⟨i1, fun x hx => ?_, i3⟩
      rcases List.mem_append.1 hx with hx | hx
      · exact i2 x hx
      · rw [List.mem_singleton.1 hx]
        exact hstart _ _ q i1 i3 ha
    | work s l₁ l₂ e q u n =>
      dsimp only at i1 i2 i3
      obtain ⟨a, b, c⟩ := i2 (q, .step u n) (by simp) s (hrf s) i1
      refine ⟨a, fun x hx => ?_, fun x hx => hpost _ _ _ _ b (i3 x hx)⟩
      rcases List.mem_append.1 hx with hx | hx
      · exact (i2 x (by simp [hx])).mono htr (hpost x.1) b
      · rcases List.mem_cons.1 hx with rfl | hx
        · exact c
        · exact (i2 x (by simp [hx])).mono htr (hpost x.1) b
    | finish s l₁ l₂ e q r =>
      dsimp only at i1 i2 i3
      refine ⟨i1, fun x hx => i2 x ?_, fun x hx => ?_⟩
      · rcases List.mem_append.1 hx with hx | hx <;> simp [hx]
      · rcases List.mem_append.1 hx with hx | hx
        · exact i3 x hx
        · rw [List.mem_singleton.1 hx]
          exact i2 (q, .done r) (by simp)

end System
end Skymap
