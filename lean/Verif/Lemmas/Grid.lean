import Verif.Lemmas.Box
import Mathlib.Data.List.Basic
import Mathlib.Data.List.Range

/-! # Row-by-row enumeration of a grid, and Python `//` and `%` -/

namespace Skymap

theorem grid_nat {α : Type} (f : Nat → Nat → α) (nx ny : Nat) :
    ((List.range ny).flatMap fun y => (List.range nx).map fun x => f x y) =
      (List.range (nx * ny)).map fun k => f (k % nx) (k / nx) := by
  induction ny with
  | zero => simp
  | succ n ih =>
    rw [List.range_succ, List.flatMap_append, ih, Nat.mul_succ, List.range_add, List.map_append]
    congr 1
    simp only [List.flatMap_cons, List.flatMap_nil, List.append_nil, List.map_map]
    apply List.map_congr_left
    intro x hx
    have hx' := List.mem_range.1 hx
    have hpos : 0 < nx := by omega
    simp only [Function.comp]
    rw [Nat.mul_add_mod, Nat.mod_eq_of_lt hx', Nat.mul_add_div hpos, Nat.div_eq_of_lt hx']
    simp

/-- The order in which `__iter__` visits a grid. -/
theorem grid_eq (n : Index2D) (hx : 0 ≤ n.x) (hy : 0 ≤ n.y) :
    ((pyRange 0 n.y).flatMap fun y => (pyRange 0 n.x).map fun x => (⟨x, y⟩ : Index2D)) =
      (List.range (n.x * n.y).toNat).map fun k : Nat => (⟨(k : Int) % n.x, (k : Int) / n.x⟩ : Index2D) := by
  obtain ⟨a, ha⟩ := Int.eq_ofNat_of_zero_le hx
  obtain ⟨c, hc⟩ := Int.eq_ofNat_of_zero_le hy
  have h := grid_nat (fun x y => (⟨(x : Int), (y : Int)⟩ : Index2D)) a c
  rw [ha, hc]
  have e : ((a : Int) * (c : Int)).toNat = a * c := by
    rw [← Int.natCast_mul, Int.toNat_natCast]
  rw [e]
  simp only [Int.natCast_emod, Int.natCast_ediv] at h
  rw [← h]
  simp [pyRange, List.flatMap_map, List.map_map, Function.comp_def]

theorem pyMod_pos {a b : Int} (h : 0 < b) : pyMod a b = .ok (a % b) := by
  unfold pyMod
  rw [if_neg (by omega), Int.fmod_eq_emod_of_nonneg _ (by omega)]

theorem pyFloorDiv_pos {a b : Int} (h : 0 < b) : pyFloorDiv a b = .ok (a / b) := by
  unfold pyFloorDiv
  rw [if_neg (by omega), Int.fdiv_eq_ediv_of_nonneg _ (by omega)]

/-- Index arithmetic of a grid, forward. -/
theorem seq_inv {n : Index2D} {s : Int} (hx : 0 < n.x) (h0 : 0 ≤ s) (h1 : s < n.x * n.y) :
    InRange n ⟨s % n.x, s / n.x⟩ ∧ n.x * (s / n.x) + s % n.x = s := by
  refine ⟨⟨Int.emod_nonneg _ (by omega), Int.emod_lt_of_pos _ hx, Int.ediv_nonneg h0 (by omega), ?_⟩,
    Int.mul_ediv_add_emod s n.x⟩
  dsimp only
  rw [Int.ediv_lt_iff_lt_mul hx, mul_comm]
  exact h1

/-- Index arithmetic of a grid, backward. -/
theorem pair_inv {n i : Index2D} (hi : InRange n i) :
    0 ≤ n.x * i.y + i.x ∧ n.x * i.y + i.x < n.x * n.y ∧
      (n.x * i.y + i.x) % n.x = i.x ∧ (n.x * i.y + i.x) / n.x = i.y := by
  obtain ⟨h1, h2, h3, h4⟩ := hi
  have hx : 0 < n.x := by omega
  have h5 : 0 ≤ n.x * i.y := Int.mul_nonneg (by omega) h3
  have h6 : n.x * (i.y + 1) ≤ n.x * n.y := Int.mul_le_mul_of_nonneg_left (by omega) (by omega)
  have h7 : n.x * (i.y + 1) = n.x * i.y + n.x := by ring
  refine ⟨by omega, by omega, ?_, ?_⟩
  · rw [Int.add_comm, Int.add_mul_emod_self_left, Int.emod_eq_of_lt h1 h2]
  · rw [Int.add_comm, Int.add_mul_ediv_left _ _ (by omega), Int.ediv_eq_zero_of_lt h1 h2]
    simp

/-- A sequential index outside `0 .. nx*ny-1` does not convert to an index in range. -/
theorem seq_out {n : Index2D} {s : Int} (hx : 0 < n.x) (h : ¬ (0 ≤ s ∧ s < n.x * n.y)) :
    ¬ InRange n ⟨s % n.x, s / n.x⟩ := by
  rintro ⟨h1, h2, h3, h4⟩
  dsimp only at *
  apply h
  have e := Int.mul_ediv_add_emod s n.x
  have h5 : 0 ≤ n.x * (s / n.x) := Int.mul_nonneg (by omega) h3
  have h6 : n.x * (s / n.x + 1) ≤ n.x * n.y := Int.mul_le_mul_of_nonneg_left (by omega) (by omega)
  have h7 : n.x * (s / n.x + 1) = n.x * (s / n.x) + n.x := by ring
  omega

end Skymap
