import Verif.Spec.Ffdhe
import Mathlib.Analysis.Complex.Exponential
/-!
# The integer part of `2^k e`, by the partial sums of `Σ 1/m!`
-/

namespace Siotls.Ffdhe
open Finset

/-- `(n-1)! Σ_{m<n} 1/m!` -/
def eSum : ℕ → ℕ
  | 0 => 0
  | n + 1 => eSum n * n + 1

theorem eSum_succ (n : ℕ) :
    (eSum (n + 1) : ℝ) = n.factorial * ∑ m ∈ range (n + 1), (1 : ℝ) ^ m / m.factorial := by
  induction n with
  | zero => simp [eSum]
  | succ n ih =>
    rw [sum_range_succ, mul_add, Nat.factorial_succ]
    rw [show eSum (n + 1 + 1) = eSum (n + 1) * (n + 1) + 1 from rfl]
    push_cast
    rw [ih]
    have : ((n.factorial : ℕ) : ℝ) ≠ 0 := by exact_mod_cast n.factorial_ne_zero
    have h1 : ((n : ℝ) + 1) ≠ 0 := by positivity
    field_simp
    simp

/-- `(n+1) + 1` terms: the error of the sum, over a common denominator. -/
theorem exp_one_bounds (n : ℕ) :
    |Real.exp 1 * ((n + 1).factorial * (n + 1)) - eSum (n + 1) * (n + 1) * (n + 1)| ≤ n + 2 := by
  have hb := Real.exp_bound (x := 1) (by simp) (n := n + 1) (Nat.succ_pos n)
  have hD : (0 : ℝ) < ((n + 1).factorial : ℝ) * ((n + 1 : ℕ) : ℝ) := by positivity
  rw [abs_one, one_pow, one_mul, le_div_iff₀ hD] at hb
  rw [eSum_succ]
  have hf : (((n + 1).factorial : ℕ) : ℝ) = (n + 1) * n.factorial := by
    rw [Nat.factorial_succ]; push_cast; ring
  have key : Real.exp 1 * ((n + 1).factorial * (n + 1)) -
      n.factorial * (∑ m ∈ range (n + 1), (1 : ℝ) ^ m / m.factorial) * (n + 1) * (n + 1) =
      (Real.exp 1 - ∑ m ∈ range (n + 1), (1 : ℝ) ^ m / m.factorial) *
        (((n + 1).factorial : ℝ) * ((n + 1 : ℕ) : ℝ)) := by
    rw [hf]; push_cast; ring
  rw [key, abs_mul, abs_of_pos hD]
  calc _ ≤ _ := hb
    _ = _ := by push_cast; ring

/-- `[2^k e]` from a computation on natural numbers. -/
theorem floor_exp {k N n : ℕ}
    (h1 : N * ((n + 1).factorial * (n + 1)) + 2 ^ k * (n + 2) ≤ 2 ^ k * (eSum (n + 1) * (n + 1) * (n + 1)))
    (h2 : 2 ^ k * (eSum (n + 1) * (n + 1) * (n + 1)) + 2 ^ k * (n + 2) <
      (N + 1) * ((n + 1).factorial * (n + 1))) :
    ⌊(2 : ℝ) ^ k * Real.exp 1⌋ = N := by
  have hD : (0 : ℝ) < ((n + 1).factorial : ℝ) * ((n : ℝ) + 1) := by positivity
  have hk : (0 : ℝ) < (2 : ℝ) ^ k := by positivity
  obtain ⟨lo, hi⟩ := abs_le.mp (exp_one_bounds n)
  have h1' : (N : ℝ) * ((n + 1).factorial * (n + 1)) + 2 ^ k * (n + 2) ≤
      2 ^ k * (eSum (n + 1) * (n + 1) * (n + 1)) := by exact_mod_cast h1
  have h2' : (2 : ℝ) ^ k * (eSum (n + 1) * (n + 1) * (n + 1)) + 2 ^ k * (n + 2) <
      (N + 1) * ((n + 1).factorial * (n + 1)) := by exact_mod_cast h2
  have lo' := mul_le_mul_of_nonneg_left lo hk.le
  have hi' := mul_le_mul_of_nonneg_left hi hk.le
  rw [Int.floor_eq_iff]
  constructor
  · refine le_of_mul_le_mul_right ?_ hD
    push_cast
    nlinarith
  · refine lt_of_mul_lt_mul_right ?_ hD.le
    push_cast
    nlinarith

end Siotls.Ffdhe
