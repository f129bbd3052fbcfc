import Verif.Phys.Solver
import Mathlib.Tactic.Module
import Mathlib.Tactic.NormNum
import Mathlib.Data.Rat.Floor
import Mathlib.Algebra.Module.Prod

/-!
# C147: the coefficients of the solver are those of a method of order five

Both statements hold for one step of any size, so a wrong coefficient shows.
-/

set_option linter.unusedSectionVars false

namespace Verif
namespace Phys

variable {K : Type} [Field K] [LinearOrder K] [IsStrictOrderedRing K] {V : Type} [AddCommGroup V] [Module K V]

/-- **C147.** On a linear system one step of `RK45` agrees with the exponential up to the fifth power of the size of
the step; the sixth coefficient is 1/600 (in the exponential it is 1/720). -/
theorem C147_rk45_linear (A : V →ₗ[K] V) (h : K) (y : V) : rkStep A dormandPrince h y =
    y + h • A y + (h ^ 2 / 2) • A (A y) + (h ^ 3 / 6) • A (A (A y)) + (h ^ 4 / 24) • A (A (A (A y))) +
      (h ^ 5 / 120) • A (A (A (A (A y)))) + (h ^ 6 / 600) • A (A (A (A (A (A y))))) := by
  simp only [rkStep, dormandPrince, slopes, weighted, List.zipWith_cons_cons, List.zipWith_nil_right, List.sum_cons,
    List.sum_nil, List.cons_append, List.nil_append, map_add, map_smul, add_zero]
  module

/-- **C147.** One step of `RK45` integrates powers of the time up to the fourth without error. -/
theorem C147_rk45_powers (k : Nat) (hk : k ≤ 4) (h t y : K) :
    rkStep (fun z : K × K => ((1 : K), z.1 ^ k)) dormandPrince h (t, y) =
      (t + h, y + ((t + h) ^ (k + 1) - t ^ (k + 1)) / (k + 1)) := by
  simp only [rkStep, dormandPrince, slopes, weighted, List.zipWith_cons_cons, List.zipWith_nil_right, List.sum_cons,
    List.sum_nil, List.cons_append, List.nil_append, Prod.mk_add_mk, Prod.smul_mk, smul_eq_mul, mul_one, add_zero]
  refine Prod.ext ?_ ?_
  · norm_num
  · rcases (by omega : k = 0 ∨ k = 1 ∨ k = 2 ∨ k = 3 ∨ k = 4) with rfl | rfl | rfl | rfl | rfl <;> norm_num <;> ring

/-- Decay with rate two over a step of one half. -/
example : rkStep ((-2 : ℚ) • (LinearMap.id : ℚ →ₗ[ℚ] ℚ)) dormandPrince (1 / 2 : ℚ) 1 = 221 / 600 := by
  rw [C147_rk45_linear]
  norm_num

/-- The integral of the fourth power from 1 to 3. -/
example : rkStep (fun z : ℚ × ℚ => ((1 : ℚ), z.1 ^ 4)) dormandPrince (2 : ℚ) (1, 0) = (3, 242 / 5) := by
  rw [C147_rk45_powers 4 le_rfl]
  norm_num

/-- The fifth power is not integrated exactly. -/
example : (rkStep (fun z : ℚ × ℚ => ((1 : ℚ), z.1 ^ 5)) dormandPrince (1 : ℚ) (0, 0)).2 ≠ 1 / 6 := by
  norm_num [rkStep, dormandPrince, slopes, weighted]

end Phys
end Verif
