import Verif.Model.CoordFromVec
import Mathlib.Tactic.Linarith
import Mathlib.Algebra.Order.Ring.Rat

/-! # C54: pole handling of `coordFromVec` -/

namespace Skymap

variable {K : Type} [Field K] [LinearOrder K]

/-- C54: near the poles (|x| and |y| both below the threshold) the result is the pole on the side of z with the given
right ascension, or `RuntimeError` without one; elsewhere the given right ascension is ignored and the result is
that of the library. -/
theorem C54_coordFromVec (tiny piBy2 : K) (ofVec : K → K → K → PyM (SpherePoint K)) (x y z : K) (defRA : Option K) :
    (|x| < tiny → |y| < tiny →
      (defRA = none → coordFromVec tiny piBy2 ofVec (x, y, z) defRA = .error .RuntimeError) ∧
      (∀ ra, defRA = some ra → 0 < z → coordFromVec tiny piBy2 ofVec (x, y, z) defRA = .ok ⟨ra, piBy2⟩) ∧
      (∀ ra, defRA = some ra → z ≤ 0 → coordFromVec tiny piBy2 ofVec (x, y, z) defRA = .ok ⟨ra, -piBy2⟩)) ∧
    (tiny ≤ |x| ∨ tiny ≤ |y| → coordFromVec tiny piBy2 ofVec (x, y, z) defRA = ofVec x y z) := by
  unfold coordFromVec
  refine ⟨fun h1 h2 => ?_, fun h => ?_⟩
  · simp only [h1, h2, and_self, if_true]
    refine ⟨?_, ?_, ?_⟩
    · rintro rfl; rfl
    · rintro ra rfl hz; simp [hz]
    · rintro ra rfl hz; simp [not_lt.2 hz]
  · rw [if_neg]
    rintro ⟨a, b⟩
    rcases h with h | h
    · exact absurd a (not_lt.2 h)
    · exact absurd b (not_lt.2 h)

/-- C54: so with a right ascension the result is only ever an error of the library's, away from the poles. -/
theorem C54_total (tiny piBy2 : K) (ofVec : K → K → K → PyM (SpherePoint K)) (v : K × K × K) (ra : K)
    (e : PyErr) (h : coordFromVec tiny piBy2 ofVec v (some ra) = .error e) : ofVec v.1 v.2.1 v.2.2 = .error e := by
  unfold coordFromVec at h
  split at h
  · dsimp only at h
    split at h <;> simp at h
  · exact h

example : coordFromVec (1 / 1000 : ℚ) 90 (fun x _ _ => .ok ⟨x, 0⟩) (0, 0, -1) (some 7) = .ok ⟨7, -90⟩ ∧
    coordFromVec (1 / 1000 : ℚ) 90 (fun x _ _ => .ok ⟨x, 0⟩) (0, 1, -1) none = .ok ⟨0, 0⟩ := by decide +kernel

end Skymap
