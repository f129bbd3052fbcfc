import Verif.Seq.Model
import Mathlib.Analysis.SpecialFunctions.Complex.Circle
import Mathlib.Analysis.SpecialFunctions.Pow.Real

/-!
# Frequency-weighted acceleration (src/dg_commons/eval/comfort.py:25-60)

`np.fft.rfft`, `np.fft.rfftfreq` and `np.fft.irfft` are modelled by their documented formulas over
the complex numbers.
-/

namespace Verif
namespace Eval

variable {α : Type}

/-- `acc_freq_filter`, comfort.py:52-60. -/
noncomputable def accFreqFilter (f : ℝ) : ℝ :=
  (1455 / 100 * f ^ 2 + 6026 / 1000 * f + 7725 / 1000) /
    (f ^ 3 + 1502 / 100 * f ^ 2 + 5163 / 100 * f + 4761 / 100)

/-- `np.fft.rfft(x)`, comfort.py:40: the coefficients of the frequencies `0 … n // 2`; NumPy refuses an
empty array with `ValueError`. -/
noncomputable def rfft (x : List ℝ) : Except Err (List ℂ) :=
  if x.length = 0 then .error .value
  else .ok ((List.range (x.length / 2 + 1)).map fun (k : Nat) =>
    ∑ j ∈ Finset.range x.length, (x.getD j 0 : ℂ) *
      Complex.exp (-(2 * Real.pi * Complex.I * j * k / x.length)))

/-- `np.fft.rfftfreq(n, d)`, comfort.py:41, for `n` positive. -/
noncomputable def rfftfreq (n : Nat) (d : ℝ) : List ℝ :=
  (List.range (n / 2 + 1)).map fun (k : Nat) => (k : ℝ) / (n * d)

/-- `np.fft.irfft(X)`, comfort.py:44, without the optional length: `N = 2 (m - 1)` real samples from
`m` coefficients, the missing coefficients being the conjugates of the given ones; the imaginary parts
of the first and the last coefficient are ignored. NumPy refuses `N < 1` with `ValueError`. -/
noncomputable def irfft (X : List ℂ) : Except Err (List ℝ) :=
  let N := 2 * (X.length - 1)
  if N < 1 then .error .value
  else .ok ((List.range N).map fun (j : Nat) => 1 / (N : ℝ) *
    ∑ k ∈ Finset.range X.length, (if k = 0 ∨ 2 * k = N then 1 else 2) *
      (X.getD k 0 * Complex.exp (2 * Real.pi * Complex.I * j * k / N)).re)

/-- Lines 39-49 for the array `x` of the accelerations. -/
noncomputable def weightedRms (x : List ℝ) : Except Err ℝ :=
  match rfft x with
  | .error e => .error e
  | .ok X =>
    let Y := (X.zip (rfftfreq x.length (1 / 10))).map fun q => q.1 * (accFreqFilter q.2 : ℂ)
    match irfft Y with
    | .error e => .error e
    | .ok y => .ok (Real.sqrt ((y.map fun a => a ^ 2).sum / y.length))

/-- A bound of the time range, or else the timestamp taken instead, comfort.py:30-31. -/
def boundOr (o : Option ℝ) (d : Except Err ℝ) : Except Err ℝ :=
  match o with
  | some a => .ok a
  | none => d

/-- `get_acc_rms`, comfort.py:25-49; `acc` reads the acceleration of a command. A missing bound is
taken from the first or last timestamp, `IndexError` if there is none. -/
noncomputable def getAccRms (acc : α → ℝ) (lo hi : Option ℝ) (s : Seq ℝ α) : Except Err ℝ :=
  match boundOr lo (pyGet s.ts 0) with
  | .error e => .error e
  | .ok a => match boundOr hi (pyGet s.ts (-1)) with
    | .error e => .error e
    | .ok b => weightedRms
        (((s.vs.zip s.ts).filter fun q => decide (a ≤ q.2) && decide (q.2 ≤ b)).map fun q => acc q.1)

end Eval
end Verif
