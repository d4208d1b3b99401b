import Verif.Model.ThreadSearch
import Verif.Lemmas.Threads

/-! # Loops with an accumulator in threads -/

namespace Skymap
variable {σ α β γ : Type}

/-- A loop with an accumulator, on values. -/
def pyFoldM (g : γ → α → PyM γ) : List α → γ → PyM γ
  | [], c => .ok c
  | a :: l, c => (g c a).bind (pyFoldM g l)

namespace Thread

/-- The same exception, or values related by `R`. -/
def Rel (R : β → γ → Prop) (r : PyM β) (x : PyM γ) : Prop :=
  (∃ b c, r = .ok b ∧ x = .ok c ∧ R b c) ∨ ∃ e, r = .error e ∧ x = .error e

theorem Safe.foldM {I : σ → Prop} {le : σ → σ → Prop} (hrf : ∀ a, le a a) (htr : ∀ a b c, le a b → le b c → le a c) {f : β → α → Thread σ β}
    {g : γ → α → PyM γ} {R : σ → β → γ → Prop} (l : List α) {s : σ} {b : β} {c : γ}
    (h : ∀ a ∈ l, ∀ s', le s s' → ∀ b c, R s' b c → Safe I le (fun s r => Rel (R s) r (g c a)) (f b a) s') (h0 : R s b c) :
    Safe I le (fun s r => Rel (R s) r (pyFoldM g l c)) (Thread.foldM f l b) s := by
  induction l generalizing s b c with
  | nil => exact .inl ⟨b, c, rfl, rfl, h0⟩
  | cons a l ih =>
    refine Safe.bind hrf htr (h a (by simp) s (hrf s) b c h0) ?_ ?_
    · rintro s1 b1 h1 (⟨b2, c2, e1, e2, h2⟩ | ⟨e, e1, -⟩)
      · cases e1
        unfold pyFoldM
        rw [e2]
        exact ih (fun a' ha' s' hs' => h a' (by simp [ha']) s' (htr _ _ _ h1 hs')) h2
      · cases e1
    · rintro s1 e h1 (⟨b2, c2, e1, -, -⟩ | ⟨e', e1, e2⟩)
      · cases e1
      · cases e1
        exact .inr ⟨e, rfl, by unfold pyFoldM; rw [e2]; rfl⟩

/-- A loop in states that satisfy `c`, where it only reads. -/
theorem Det.foldM {c : σ → Prop} {f : β → α → Thread σ β} {g : β → α → PyM β} (l : List α) (h : ∀ b, ∀ a ∈ l, Det c (f b a) (g b a)) (b : β) :
    Det c (Thread.foldM f l b) (pyFoldM g l b) := by
  induction l generalizing b with
  | nil => rfl
  | cons a l ih => exact (h b a (by simp)).bind fun b' _ => ih (fun b a ha => h b a (by simp [ha])) b'

end Thread

namespace System
variable {Req Res : Type} {allowed : List (Req × PyM Res) → Req → Prop} {program : Req → Thread σ Res} {s₀ : σ}

theorem run_one (q : Req) (p : Thread σ Res) (s : σ) (l : List (Req × Thread σ Res)) (e : List (Req × PyM Res))
    (h : Reached allowed program s₀ ⟨s, (q, p) :: l, e⟩) : Reached allowed program s₀ ⟨(p.run s).2, l, e ++ [(q, (p.run s).1)]⟩ := by
  induction p generalizing s with
  | done r => exact h.next (.finish s [] l e q r)
  | step u n ih => exact ih s (u s) (h.next (.work s [] l e q u n))

theorem run_all {S : System σ Req Res} (hS : Reached allowed program s₀ S) :
    ∃ S', Reached allowed program s₀ S' ∧ S'.running = [] ∧ ∃ l, S'.ended = S.ended ++ l ∧ l.map Prod.fst = S.running.map Prod.fst := by
  obtain ⟨s, l, e⟩ := S
  induction l generalizing s e with
  | nil => exact ⟨_, hS, rfl, [], by simp, rfl⟩
  | cons x l ih =>
    obtain ⟨q, p⟩ := x
    obtain ⟨S', h1, h2, l', h3, h4⟩ := ih _ _ (run_one q p s l e hS)
    refine ⟨S', h1, h2, (q, (p.run s).1) :: l', ?_, ?_⟩
    · rw [h3]
      simp
    · rw [List.map_cons, h4]
      rfl

end System
end Skymap
