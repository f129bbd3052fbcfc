import Verif.Plan.TrajModel
import Verif.Phys.Limits

/-!
# Motion primitives and the commands sampler

src/dg_commons/planning/motion_primitives.py and commands_sampler.py. The vehicle dynamics are a
parameter of the code (a callable) and of the model. The result of the code is a set of trajectories;
the model returns the list of the trajectories added, in order, so statements are about membership.
Logging and the decorator `time_function` are not modelled (see `Misc/TimeFunction.lean`).
-/

namespace Verif
namespace Plan

open Phys

variable {K : Type} [Field K] [LinearOrder K]

/-- `np.linspace(lo, hi, n)`: evenly spaced, the last one set to `hi`; a negative number of samples is a
`ValueError`. A `LinSpaceTuple` of the code is `(lo, hi, n)`. -/
def linspace (q : K × K × Int) : Except Err (List K) :=
  if q.2.2 < 0 then .error .value
  else .ok (match q.2.2.toNat with
    | 0 => []
    | 1 => [q.1]
    | n + 2 => (List.range (n + 2)).map fun i : Nat =>
        if i = n + 1 then q.2.1 else q.1 + (i : K) * ((q.2.1 - q.1) / ((n : K) + 1)))

/-- `MPGParam`, motion_primitives.py:16-24. `dt` is a `Decimal` by the assertion. -/
structure MPGParam (K : Type) where
  dt : K
  nSteps : Int
  velocity : K × K × Int
  steering : K × K × Int

/-- `MPGParam.from_vehicle_parameters`, motion_primitives.py:26-40. -/
def MPGParam.fromVehicle (dt : K) (nSteps nVel nSteer : Int) (vp : VehicleParams K) : MPGParam K :=
  { dt := dt, nSteps := nSteps, velocity := (vp.vxMin, vp.vxMax, nVel),
    steering := (-vp.deltaMax, vp.deltaMax, nSteer) }

/-- The dynamics given to the generators: state, acceleration and steering rate, time step. -/
abbrev Dyn (K : Type) := VehicleState K → K × K → K → Except Err (VehicleState K)

/-- `check_input_constraints`, motion_primitives.py:109-125: `none` for `(False, 0, 0)`. For a horizon of
zero the numpy division gives an infinity or not-a-number, which fails the comparisons. -/
def checkInput (par : MPGParam K) (vp : VehicleParams K) (v0 v1 s0 s1 : K) : Option (K × K) :=
  let horizon := par.dt * (par.nSteps : K)
  if horizon = 0 then none
  else
    let acc := (v1 - v0) / horizon
    let rate := (s1 - s0) / horizon
    if ¬ (-vp.ddeltaMax ≤ rate ∧ rate ≤ vp.ddeltaMax) ∨ ¬ (vp.accMin ≤ acc ∧ acc ≤ vp.accMax) then none
    else some (acc, rate)

/-- The states appended by the inner loop, motion_primitives.py:95-98, in `n` passes. -/
def rollStates (dyn : Dyn K) (cmd : K × K) (dt : K) : Nat → VehicleState K →
    Except Err (List (VehicleState K))
  | 0, _ => .ok []
  | n + 1, x => match dyn x cmd dt with
    | .error e => .error e
    | .ok y => match rollStates dyn cmd dt n y with
      | .error e => .error e
      | .ok ys => .ok (y :: ys)

/-- One primitive, motion_primitives.py:86-99. `range(1, n_steps + 1)` is empty for non-positive
`n_steps`. -/
def primitive (dyn : Dyn K) (par : MPGParam K) (x : VehicleState K) (cmd : K × K) :
    Except Err (Traj K) :=
  match rollStates dyn cmd par.dt par.nSteps.toNat x with
  | .error e => .error e
  | .ok states =>
    Seq.mk? (0 :: (List.range par.nSteps.toNat).map (fun k : Nat => ((k : K) + 1) * par.dt)) (x :: states)

/-- The combinations visited by the two nested `product` loops, motion_primitives.py:80-81. -/
def combos (vi si v s : List K) : List ((K × K) × (K × K)) :=
  (vi.product si).flatMap fun a => (v.product s).map fun b => (a, b)

/-- One pass of the loop body, motion_primitives.py:82-99. -/
def generateOne (dyn : Dyn K) (par : MPGParam K) (vp : VehicleParams K) (x0 : Option (VehicleState K))
    (q : (K × K) × (K × K)) : Except Err (List (Traj K)) :=
  match checkInput par vp q.1.1 q.2.1 q.1.2 q.2.2 with
  | none => .ok []
  | some cmd =>
    match primitive dyn par (x0.getD ⟨0, 0, 0, q.1.1, q.1.2⟩) cmd with
    | .error e => .error e
    | .ok t => .ok [t]

/-- `generate`, motion_primitives.py:55-102. -/
def generate (dyn : Dyn K) (par : MPGParam K) (vp : VehicleParams K) (x0 : Option (VehicleState K)) :
    Except Err (List (Traj K)) :=
  match linspace par.velocity with
  | .error e => .error e
  | .ok v => match linspace par.steering with
    | .error e => .error e
    | .ok s =>
      let vi := match x0 with | none => v | some x => [x.vx]
      let si := match x0 with | none => s | some x => [x.delta]
      match mapE (generateOne dyn par vp x0) (combos vi si v s) with
      | .error e => .error e
      | .ok ts => .ok ts.flatten

/-! ## Commands sampler -/

/-- `CommandsSamplerParam`, commands_sampler.py:17-27. -/
structure SamplerParam (K : Type) where
  dt : K
  nSteps : Int
  acc : K × K × Int
  steerRate : K × K × Int

/-- `CommandsSamplerParam.__post_init__`, commands_sampler.py:24-27, for a `Decimal` step. -/
def SamplerParam.mk? (dt : K) (nSteps : Int) (acc steerRate : K × K × Int) :
    Except Err (SamplerParam K) :=
  if nSteps = 1 then .ok ⟨dt, nSteps, acc, steerRate⟩ else .error .assertion

/-- `CommandsSamplerParam.from_vehicle_parameters`, commands_sampler.py:29-43: speed and steering angle
limits are used for the acceleration and steering rate. -/
def SamplerParam.fromVehicle (dt : K) (nSteps nAcc nRate : Int) (vp : VehicleParams K) :
    Except Err (SamplerParam K) :=
  SamplerParam.mk? dt nSteps (vp.vxMin, vp.vxMax, nAcc) (-vp.deltaMax, vp.deltaMax, nRate)

/-- `update_params`, commands_sampler.py:76-84; also run by the constructor. -/
def updateParams (vp : VehicleParams K) (par : SamplerParam K) : Except Err (SamplerParam K) :=
  if ¬ (vp.accMin ≤ par.acc.1 ∧ par.acc.1 ≤ par.acc.2.1 ∧ par.acc.2.1 ≤ vp.accMax) then
    .error .assertion
  else if ¬ (-vp.ddeltaMax ≤ par.steerRate.1 ∧ par.steerRate.1 ≤ par.steerRate.2.1 ∧
      par.steerRate.2.1 ≤ vp.ddeltaMax) then .error .assertion
  else .ok par

/-- One trajectory of `CommandsSampler.generate`, commands_sampler.py:61-72. -/
def sampleOne (dyn : Dyn K) (dt : K) (x : VehicleState K) (cmd : K × K) : Except Err (Traj K) :=
  match dyn x cmd dt with
  | .error e => .error e
  | .ok y => Seq.mk? [0, dt] [x, y]

/-- `CommandsSampler.generate`, commands_sampler.py:57-74. -/
def samplerGenerate (dyn : Dyn K) (par : SamplerParam K) (x : VehicleState K) :
    Except Err (List (Traj K)) :=
  match linspace par.acc with
  | .error e => .error e
  | .ok a => match linspace par.steerRate with
    | .error e => .error e
    | .ok s => mapE (sampleOne dyn par.dt x) (a.product s)

end Plan
end Verif
