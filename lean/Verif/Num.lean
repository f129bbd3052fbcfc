import Mathlib.Order.Lattice
import Mathlib.Order.MinMax
import Mathlib.Algebra.Order.Field.Basic

/-!
# Numeric helpers shared by the models
-/

namespace Verif

/-- `np.clip(x, lo, hi)` = `minimum(maximum(x, lo), hi)` (numpy; used throughout /repo). -/
def npClip {K : Type*} [LinearOrder K] (x lo hi : K) : K := min (max x lo) hi

section
variable {K : Type*} [LinearOrder K]

theorem npClip_le (x lo hi : K) : npClip x lo hi ≤ hi := min_le_right _ _

theorem le_npClip (x lo hi : K) (h : lo ≤ hi) : lo ≤ npClip x lo hi :=
  le_min (le_max_right _ _) h

theorem npClip_of_mem (x lo hi : K) (h1 : lo ≤ x) (h2 : x ≤ hi) : npClip x lo hi = x := by
  unfold npClip; rw [max_eq_left h1, min_eq_left h2]

theorem npClip_mono {x y : K} (lo hi : K) (h : x ≤ y) : npClip x lo hi ≤ npClip y lo hi :=
  min_le_min_right _ (max_le_max_right _ h)
end

/-- `kmh2ms`, sim/models/utils.py:16-17. -/
def kmh2ms {K : Type*} [Field K] (v : K) : K := v / (18 / 5)

end Verif
