import Verif.Control.Pid
import Verif.Sim.Clock

/-!
# The PID controller with rounded arithmetic

`Control/Pid` computes with exact numbers. Here every operation of pid.py on floats is followed by a rounding `r`
(`Sim.double` for Python's floats; no overflow, no underflow). `np.clip` compares and selects, it does not round.
-/

namespace Verif

/-- `get_control`, pid.py:43-57, with rounded operations. -/
def PIDState.getControlF (r : ℚ → ℚ) (p : PIDParam ℚ) (s : PIDState ℚ) (t : ℚ) : PIDState ℚ × Except Err ℚ :=
  let dt : ℚ := match s.lastRequestAt with
    | none => 0
    | some t0 => r (t - t0)
  let s1 := { s with lastRequestAt := some t }
  let pError := r (s1.reference - s1.measurement)
  let integral := npClip (r (s1.lastIntegralError + r (r (p.kI * pError) * dt))) p.antiwindup.1 p.antiwindup.2
  let s2 := { s1 with lastIntegralError := integral }
  let dError : Except Err ℚ :=
    if ¬ dt = 0 then (if dt = 0 then .error .zeroDiv else .ok (r (r (pError - s2.lastProportionalError) / dt)))
    else .ok 0
  match dError with
  | .error e => (s2, .error e)
  | .ok d =>
    let s3 := { s2 with lastProportionalError := pError }
    let out := r (r (r (p.kP * pError) + s3.lastIntegralError) + r (p.kD * d))
    (s3, .ok (npClip out p.output.1 p.output.2))

/-- One call, pid.py:35-57; measurements and references are stored (clipped) without arithmetic. -/
def PIDState.stepF (r : ℚ → ℚ) (p : PIDParam ℚ) (s : PIDState ℚ) : PIDOp ℚ → PIDState ℚ × Option (Except Err ℚ)
  | .measure m => (s.updateMeasurement m, none)
  | .refer x => (s.updateReference p x, none)
  | .control t => ((s.getControlF r p t).1, some (s.getControlF r p t).2)

/-- A history of calls (pid.py:35-57): final state and the results in order. -/
def PIDState.runF (r : ℚ → ℚ) (p : PIDParam ℚ) : PIDState ℚ → List (PIDOp ℚ) → PIDState ℚ × List (Except Err ℚ)
  | s, [] => (s, [])
  | s, op :: ops =>
    let a := s.stepF r p op
    let q := PIDState.runF r p a.1 ops
    (q.1, a.2.toList ++ q.2)

end Verif
