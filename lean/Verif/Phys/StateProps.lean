import Verif.Phys.States
import Mathlib.Tactic.Ring
import Mathlib.Tactic.FieldSimp
import Mathlib.Tactic.NormNum
import Mathlib.Data.Rat.Defs
import Mathlib.Algebra.Field.Rat

/-!
# Properties C45 and C46: state and command arithmetic, array round trips

Specification of the arithmetic: on the arrays (`as_ndarray`) the operators act componentwise
as numpy does, and the cancellation laws hold for the objects themselves.
-/

set_option linter.unusedSimpArgs false
set_option linter.unusedSectionVars false

namespace Verif

/-- The vector space laws of a class with Python operators. -/
structure ArithLaws (K T : Type*) [Field K] [DecidableEq K] (add sub : T → T → T) (mul : T → K → T)
    (div : T → K → Except Err T) (arr : T → List K) : Prop where
  /-- `+` is componentwise -/
  arr_add : ∀ a b, arr (add a b) = List.zipWith (· + ·) (arr a) (arr b)
  /-- `-` is componentwise -/
  arr_sub : ∀ a b, arr (sub a b) = List.zipWith (· - ·) (arr a) (arr b)
  /-- `s * k` is componentwise -/
  arr_mul : ∀ a k, arr (mul a k) = (arr a).map (· * k)
  /-- `s / k` is componentwise and raises only for `k = 0` -/
  arr_div : ∀ a k, k ≠ 0 → ∃ b, div a k = .ok b ∧ arr b = (arr a).map (· / k)
  div_zero : ∀ a, div a 0 = .error .zeroDiv
  sub_add_cancel : ∀ a b, add (sub a b) b = a
  add_sub_cancel : ∀ a b, sub (add a b) b = a
  mul_div_cancel : ∀ a k, k ≠ 0 → div (mul a k) k = .ok a
  mul_one : ∀ a, mul a 1 = a
  mul_mul : ∀ a j k, mul (mul a j) k = mul a (j * k)
  mul_add : ∀ a j k, mul a (j + k) = add (mul a j) (mul a k)
  add_mul : ∀ a b k, mul (add a b) k = add (mul a k) (mul b k)
  add_assoc : ∀ a b c, add (add a b) c = add a (add b c)

variable {K : Type*} [Field K] [DecidableEq K]

/-! ## C45 -/

/-- **C45** for `VehicleState`. -/
theorem C45_VehicleState : ArithLaws K (VehicleState K) VehicleState.add VehicleState.sub VehicleState.mul VehicleState.div
    VehicleState.toArray where
  arr_add a b := by simp [VehicleState.add, VehicleState.sub, VehicleState.mul, VehicleState.div, VehicleState.toArray]
  arr_sub a b := by simp [VehicleState.add, VehicleState.sub, VehicleState.mul, VehicleState.div, VehicleState.toArray, sub_eq_add_neg]
  arr_mul a k := by simp [VehicleState.add, VehicleState.sub, VehicleState.mul, VehicleState.div, VehicleState.toArray]
  arr_div a k hk := by simp [VehicleState.add, VehicleState.sub, VehicleState.mul, VehicleState.div, VehicleState.toArray, hk, div_eq_mul_inv]
  div_zero a := by simp [VehicleState.div]
  sub_add_cancel a b := by simp [VehicleState.add, VehicleState.sub, VehicleState.mul, VehicleState.div, VehicleState.toArray]
  add_sub_cancel a b := by simp [VehicleState.add, VehicleState.sub, VehicleState.mul, VehicleState.div, VehicleState.toArray]
  mul_div_cancel a k hk := by simp [VehicleState.add, VehicleState.sub, VehicleState.mul, VehicleState.div, VehicleState.toArray, hk, mul_assoc]
  mul_one a := by simp [VehicleState.mul]
  mul_mul a j k := by simp [VehicleState.mul, mul_assoc]
  mul_add a j k := by simp [VehicleState.mul, VehicleState.add, mul_add]
  add_mul a b k := by simp [VehicleState.mul, VehicleState.add, add_mul]
  add_assoc a b c := by simp [VehicleState.add, add_assoc]

/-- C45: scalars may stand on either side. -/
theorem C45_VehicleState_rmul (k : K) (s : VehicleState K) : s.rmul k = s.mul k := rfl

/-- C45: `+` is commutative. -/
theorem C45_VehicleState_comm (a b : VehicleState K) : a.add b = b.add a := by
  simp [VehicleState.add, add_comm]

/-- **C45** for `VehicleStateDyn`. -/
theorem C45_VehicleStateDyn : ArithLaws K (VehicleStateDyn K) VehicleStateDyn.add VehicleStateDyn.sub VehicleStateDyn.mul VehicleStateDyn.div
    VehicleStateDyn.toArray where
  arr_add a b := by simp [VehicleStateDyn.add, VehicleStateDyn.sub, VehicleStateDyn.mul, VehicleStateDyn.div, VehicleStateDyn.toArray]
  arr_sub a b := by simp [VehicleStateDyn.add, VehicleStateDyn.sub, VehicleStateDyn.mul, VehicleStateDyn.div, VehicleStateDyn.toArray, sub_eq_add_neg]
  arr_mul a k := by simp [VehicleStateDyn.add, VehicleStateDyn.sub, VehicleStateDyn.mul, VehicleStateDyn.div, VehicleStateDyn.toArray]
  arr_div a k hk := by simp [VehicleStateDyn.add, VehicleStateDyn.sub, VehicleStateDyn.mul, VehicleStateDyn.div, VehicleStateDyn.toArray, hk, div_eq_mul_inv]
  div_zero a := by simp [VehicleStateDyn.div]
  sub_add_cancel a b := by simp [VehicleStateDyn.add, VehicleStateDyn.sub, VehicleStateDyn.mul, VehicleStateDyn.div, VehicleStateDyn.toArray]
  add_sub_cancel a b := by simp [VehicleStateDyn.add, VehicleStateDyn.sub, VehicleStateDyn.mul, VehicleStateDyn.div, VehicleStateDyn.toArray]
  mul_div_cancel a k hk := by simp [VehicleStateDyn.add, VehicleStateDyn.sub, VehicleStateDyn.mul, VehicleStateDyn.div, VehicleStateDyn.toArray, hk, mul_assoc]
  mul_one a := by simp [VehicleStateDyn.mul]
  mul_mul a j k := by simp [VehicleStateDyn.mul, mul_assoc]
  mul_add a j k := by simp [VehicleStateDyn.mul, VehicleStateDyn.add, mul_add]
  add_mul a b k := by simp [VehicleStateDyn.mul, VehicleStateDyn.add, add_mul]
  add_assoc a b c := by simp [VehicleStateDyn.add, add_assoc]

/-- C45 is false for `val * s` on dynamic vehicle states: the inherited operator does not scale
`vy` and `dpsi`. -/
theorem C45_false_dyn_rmul : ¬ ∀ (k : ℚ) (s : VehicleStateDyn ℚ), s.rmul k = s.mul k := by
  intro h
  have := h 2 ⟨0, 0, 0, 0, 0, 1, 0⟩
  simp [VehicleStateDyn.rmul, VehicleStateDyn.mul] at this

/-- What does hold: the five inherited fields are scaled. -/
theorem C45_dyn_rmul_partial (k : K) (s : VehicleStateDyn K) :
    s.rmul k = { s.mul k with vy := s.vy, dpsi := s.dpsi } := rfl

/-- C45: `+` is commutative. -/
theorem C45_VehicleStateDyn_comm (a b : VehicleStateDyn K) : a.add b = b.add a := by
  simp [VehicleStateDyn.add, add_comm]

/-- **C45** for `PedestrianState`. -/
theorem C45_PedestrianState : ArithLaws K (PedestrianState K) PedestrianState.add PedestrianState.sub PedestrianState.mul PedestrianState.div
    PedestrianState.toArray where
  arr_add a b := by simp [PedestrianState.add, PedestrianState.sub, PedestrianState.mul, PedestrianState.div, PedestrianState.toArray]
  arr_sub a b := by simp [PedestrianState.add, PedestrianState.sub, PedestrianState.mul, PedestrianState.div, PedestrianState.toArray, sub_eq_add_neg]
  arr_mul a k := by simp [PedestrianState.add, PedestrianState.sub, PedestrianState.mul, PedestrianState.div, PedestrianState.toArray]
  arr_div a k hk := by simp [PedestrianState.add, PedestrianState.sub, PedestrianState.mul, PedestrianState.div, PedestrianState.toArray, hk, div_eq_mul_inv]
  div_zero a := by simp [PedestrianState.div]
  sub_add_cancel a b := by simp [PedestrianState.add, PedestrianState.sub, PedestrianState.mul, PedestrianState.div, PedestrianState.toArray]
  add_sub_cancel a b := by simp [PedestrianState.add, PedestrianState.sub, PedestrianState.mul, PedestrianState.div, PedestrianState.toArray]
  mul_div_cancel a k hk := by simp [PedestrianState.add, PedestrianState.sub, PedestrianState.mul, PedestrianState.div, PedestrianState.toArray, hk, mul_assoc]
  mul_one a := by simp [PedestrianState.mul]
  mul_mul a j k := by simp [PedestrianState.mul, mul_assoc]
  mul_add a j k := by simp [PedestrianState.mul, PedestrianState.add, mul_add]
  add_mul a b k := by simp [PedestrianState.mul, PedestrianState.add, add_mul]
  add_assoc a b c := by simp [PedestrianState.add, add_assoc]

/-- C45: scalars may stand on either side. -/
theorem C45_PedestrianState_rmul (k : K) (s : PedestrianState K) : s.rmul k = s.mul k := rfl

/-- C45: `+` is commutative. -/
theorem C45_PedestrianState_comm (a b : PedestrianState K) : a.add b = b.add a := by
  simp [PedestrianState.add, add_comm]

/-- **C45** for `DiffDriveState`. -/
theorem C45_DiffDriveState : ArithLaws K (DiffDriveState K) DiffDriveState.add DiffDriveState.sub DiffDriveState.mul DiffDriveState.div
    DiffDriveState.toArray where
  arr_add a b := by simp [DiffDriveState.add, DiffDriveState.sub, DiffDriveState.mul, DiffDriveState.div, DiffDriveState.toArray]
  arr_sub a b := by simp [DiffDriveState.add, DiffDriveState.sub, DiffDriveState.mul, DiffDriveState.div, DiffDriveState.toArray, sub_eq_add_neg]
  arr_mul a k := by simp [DiffDriveState.add, DiffDriveState.sub, DiffDriveState.mul, DiffDriveState.div, DiffDriveState.toArray]
  arr_div a k hk := by simp [DiffDriveState.add, DiffDriveState.sub, DiffDriveState.mul, DiffDriveState.div, DiffDriveState.toArray, hk, div_eq_mul_inv]
  div_zero a := by simp [DiffDriveState.div]
  sub_add_cancel a b := by simp [DiffDriveState.add, DiffDriveState.sub, DiffDriveState.mul, DiffDriveState.div, DiffDriveState.toArray]
  add_sub_cancel a b := by simp [DiffDriveState.add, DiffDriveState.sub, DiffDriveState.mul, DiffDriveState.div, DiffDriveState.toArray]
  mul_div_cancel a k hk := by simp [DiffDriveState.add, DiffDriveState.sub, DiffDriveState.mul, DiffDriveState.div, DiffDriveState.toArray, hk, mul_assoc]
  mul_one a := by simp [DiffDriveState.mul]
  mul_mul a j k := by simp [DiffDriveState.mul, mul_assoc]
  mul_add a j k := by simp [DiffDriveState.mul, DiffDriveState.add, mul_add]
  add_mul a b k := by simp [DiffDriveState.mul, DiffDriveState.add, add_mul]
  add_assoc a b c := by simp [DiffDriveState.add, add_assoc]

/-- C45: scalars may stand on either side. -/
theorem C45_DiffDriveState_rmul (k : K) (s : DiffDriveState K) : s.rmul k = s.mul k := rfl

/-- C45: `+` is commutative. -/
theorem C45_DiffDriveState_comm (a b : DiffDriveState K) : a.add b = b.add a := by
  simp [DiffDriveState.add, add_comm]

/-- **C45** for `SpacecraftState`. -/
theorem C45_SpacecraftState : ArithLaws K (SpacecraftState K) SpacecraftState.add SpacecraftState.sub SpacecraftState.mul SpacecraftState.div
    SpacecraftState.toArray where
  arr_add a b := by simp [SpacecraftState.add, SpacecraftState.sub, SpacecraftState.mul, SpacecraftState.div, SpacecraftState.toArray]
  arr_sub a b := by simp [SpacecraftState.add, SpacecraftState.sub, SpacecraftState.mul, SpacecraftState.div, SpacecraftState.toArray, sub_eq_add_neg]
  arr_mul a k := by simp [SpacecraftState.add, SpacecraftState.sub, SpacecraftState.mul, SpacecraftState.div, SpacecraftState.toArray]
  arr_div a k hk := by simp [SpacecraftState.add, SpacecraftState.sub, SpacecraftState.mul, SpacecraftState.div, SpacecraftState.toArray, hk, div_eq_mul_inv]
  div_zero a := by simp [SpacecraftState.div]
  sub_add_cancel a b := by simp [SpacecraftState.add, SpacecraftState.sub, SpacecraftState.mul, SpacecraftState.div, SpacecraftState.toArray]
  add_sub_cancel a b := by simp [SpacecraftState.add, SpacecraftState.sub, SpacecraftState.mul, SpacecraftState.div, SpacecraftState.toArray]
  mul_div_cancel a k hk := by simp [SpacecraftState.add, SpacecraftState.sub, SpacecraftState.mul, SpacecraftState.div, SpacecraftState.toArray, hk, mul_assoc]
  mul_one a := by simp [SpacecraftState.mul]
  mul_mul a j k := by simp [SpacecraftState.mul, mul_assoc]
  mul_add a j k := by simp [SpacecraftState.mul, SpacecraftState.add, mul_add]
  add_mul a b k := by simp [SpacecraftState.mul, SpacecraftState.add, add_mul]
  add_assoc a b c := by simp [SpacecraftState.add, add_assoc]

/-- C45: scalars may stand on either side. -/
theorem C45_SpacecraftState_rmul (k : K) (s : SpacecraftState K) : s.rmul k = s.mul k := rfl

/-- C45: `+` is commutative. -/
theorem C45_SpacecraftState_comm (a b : SpacecraftState K) : a.add b = b.add a := by
  simp [SpacecraftState.add, add_comm]

/-- **C45** for `SpaceshipState`. -/
theorem C45_SpaceshipState : ArithLaws K (SpaceshipState K) SpaceshipState.add SpaceshipState.sub SpaceshipState.mul SpaceshipState.div
    SpaceshipState.toArray where
  arr_add a b := by simp [SpaceshipState.add, SpaceshipState.sub, SpaceshipState.mul, SpaceshipState.div, SpaceshipState.toArray]
  arr_sub a b := by simp [SpaceshipState.add, SpaceshipState.sub, SpaceshipState.mul, SpaceshipState.div, SpaceshipState.toArray, sub_eq_add_neg]
  arr_mul a k := by simp [SpaceshipState.add, SpaceshipState.sub, SpaceshipState.mul, SpaceshipState.div, SpaceshipState.toArray]
  arr_div a k hk := by simp [SpaceshipState.add, SpaceshipState.sub, SpaceshipState.mul, SpaceshipState.div, SpaceshipState.toArray, hk, div_eq_mul_inv]
  div_zero a := by simp [SpaceshipState.div]
  sub_add_cancel a b := by simp [SpaceshipState.add, SpaceshipState.sub, SpaceshipState.mul, SpaceshipState.div, SpaceshipState.toArray]
  add_sub_cancel a b := by simp [SpaceshipState.add, SpaceshipState.sub, SpaceshipState.mul, SpaceshipState.div, SpaceshipState.toArray]
  mul_div_cancel a k hk := by simp [SpaceshipState.add, SpaceshipState.sub, SpaceshipState.mul, SpaceshipState.div, SpaceshipState.toArray, hk, mul_assoc]
  mul_one a := by simp [SpaceshipState.mul]
  mul_mul a j k := by simp [SpaceshipState.mul, mul_assoc]
  mul_add a j k := by simp [SpaceshipState.mul, SpaceshipState.add, mul_add]
  add_mul a b k := by simp [SpaceshipState.mul, SpaceshipState.add, add_mul]
  add_assoc a b c := by simp [SpaceshipState.add, add_assoc]

/-- C45: scalars may stand on either side. -/
theorem C45_SpaceshipState_rmul (k : K) (s : SpaceshipState K) : s.rmul k = s.mul k := rfl

/-- C45: `+` is commutative. -/
theorem C45_SpaceshipState_comm (a b : SpaceshipState K) : a.add b = b.add a := by
  simp [SpaceshipState.add, add_comm]

/-- **C45** for `RocketState`. -/
theorem C45_RocketState : ArithLaws K (RocketState K) RocketState.add RocketState.sub RocketState.mul RocketState.div
    RocketState.toArray where
  arr_add a b := by simp [RocketState.add, RocketState.sub, RocketState.mul, RocketState.div, RocketState.toArray]
  arr_sub a b := by simp [RocketState.add, RocketState.sub, RocketState.mul, RocketState.div, RocketState.toArray, sub_eq_add_neg]
  arr_mul a k := by simp [RocketState.add, RocketState.sub, RocketState.mul, RocketState.div, RocketState.toArray]
  arr_div a k hk := by simp [RocketState.add, RocketState.sub, RocketState.mul, RocketState.div, RocketState.toArray, hk, div_eq_mul_inv]
  div_zero a := by simp [RocketState.div]
  sub_add_cancel a b := by simp [RocketState.add, RocketState.sub, RocketState.mul, RocketState.div, RocketState.toArray]
  add_sub_cancel a b := by simp [RocketState.add, RocketState.sub, RocketState.mul, RocketState.div, RocketState.toArray]
  mul_div_cancel a k hk := by simp [RocketState.add, RocketState.sub, RocketState.mul, RocketState.div, RocketState.toArray, hk, mul_assoc]
  mul_one a := by simp [RocketState.mul]
  mul_mul a j k := by simp [RocketState.mul, mul_assoc]
  mul_add a j k := by simp [RocketState.mul, RocketState.add, mul_add]
  add_mul a b k := by simp [RocketState.mul, RocketState.add, add_mul]
  add_assoc a b c := by simp [RocketState.add, add_assoc]

/-- C45: scalars may stand on either side. -/
theorem C45_RocketState_rmul (k : K) (s : RocketState K) : s.rmul k = s.mul k := rfl

/-- C45: `+` is commutative. -/
theorem C45_RocketState_comm (a b : RocketState K) : a.add b = b.add a := by
  simp [RocketState.add, add_comm]

/-- **C45** for `DynObstacleState`. -/
theorem C45_DynObstacleState : ArithLaws K (DynObstacleState K) DynObstacleState.add DynObstacleState.sub DynObstacleState.mul DynObstacleState.div
    DynObstacleState.toArray where
  arr_add a b := by simp [DynObstacleState.add, DynObstacleState.sub, DynObstacleState.mul, DynObstacleState.div, DynObstacleState.toArray]
  arr_sub a b := by simp [DynObstacleState.add, DynObstacleState.sub, DynObstacleState.mul, DynObstacleState.div, DynObstacleState.toArray, sub_eq_add_neg]
  arr_mul a k := by simp [DynObstacleState.add, DynObstacleState.sub, DynObstacleState.mul, DynObstacleState.div, DynObstacleState.toArray]
  arr_div a k hk := by simp [DynObstacleState.add, DynObstacleState.sub, DynObstacleState.mul, DynObstacleState.div, DynObstacleState.toArray, hk, div_eq_mul_inv]
  div_zero a := by simp [DynObstacleState.div]
  sub_add_cancel a b := by simp [DynObstacleState.add, DynObstacleState.sub, DynObstacleState.mul, DynObstacleState.div, DynObstacleState.toArray]
  add_sub_cancel a b := by simp [DynObstacleState.add, DynObstacleState.sub, DynObstacleState.mul, DynObstacleState.div, DynObstacleState.toArray]
  mul_div_cancel a k hk := by simp [DynObstacleState.add, DynObstacleState.sub, DynObstacleState.mul, DynObstacleState.div, DynObstacleState.toArray, hk, mul_assoc]
  mul_one a := by simp [DynObstacleState.mul]
  mul_mul a j k := by simp [DynObstacleState.mul, mul_assoc]
  mul_add a j k := by simp [DynObstacleState.mul, DynObstacleState.add, mul_add]
  add_mul a b k := by simp [DynObstacleState.mul, DynObstacleState.add, add_mul]
  add_assoc a b c := by simp [DynObstacleState.add, add_assoc]

/-- C45: scalars may stand on either side. -/
theorem C45_DynObstacleState_rmul (k : K) (s : DynObstacleState K) : s.rmul k = s.mul k := rfl

/-- C45: `+` is commutative. -/
theorem C45_DynObstacleState_comm (a b : DynObstacleState K) : a.add b = b.add a := by
  simp [DynObstacleState.add, add_comm]

/-- **C45** for `VehicleCommands`. -/
theorem C45_VehicleCommands : ArithLaws K (VehicleCommands K) VehicleCommands.add VehicleCommands.sub VehicleCommands.mul VehicleCommands.div
    VehicleCommands.toArray where
  arr_add a b := by simp [VehicleCommands.add, VehicleCommands.sub, VehicleCommands.mul, VehicleCommands.div, VehicleCommands.toArray]
  arr_sub a b := by simp [VehicleCommands.add, VehicleCommands.sub, VehicleCommands.mul, VehicleCommands.div, VehicleCommands.toArray, sub_eq_add_neg]
  arr_mul a k := by simp [VehicleCommands.add, VehicleCommands.sub, VehicleCommands.mul, VehicleCommands.div, VehicleCommands.toArray]
  arr_div a k hk := by simp [VehicleCommands.add, VehicleCommands.sub, VehicleCommands.mul, VehicleCommands.div, VehicleCommands.toArray, hk, div_eq_mul_inv]
  div_zero a := by simp [VehicleCommands.div]
  sub_add_cancel a b := by simp [VehicleCommands.add, VehicleCommands.sub, VehicleCommands.mul, VehicleCommands.div, VehicleCommands.toArray]
  add_sub_cancel a b := by simp [VehicleCommands.add, VehicleCommands.sub, VehicleCommands.mul, VehicleCommands.div, VehicleCommands.toArray]
  mul_div_cancel a k hk := by simp [VehicleCommands.add, VehicleCommands.sub, VehicleCommands.mul, VehicleCommands.div, VehicleCommands.toArray, hk, mul_assoc]
  mul_one a := by simp [VehicleCommands.mul]
  mul_mul a j k := by simp [VehicleCommands.mul, mul_assoc]
  mul_add a j k := by simp [VehicleCommands.mul, VehicleCommands.add, mul_add]
  add_mul a b k := by simp [VehicleCommands.mul, VehicleCommands.add, add_mul]
  add_assoc a b c := by simp [VehicleCommands.add, add_assoc]

/-- C45: scalars may stand on either side. -/
theorem C45_VehicleCommands_rmul (k : K) (s : VehicleCommands K) : s.rmul k = s.mul k := rfl

/-- C45: `+` on vehicle commands is commutative up to the lights, which are those of the left
operand (see `C45_false_lights_comm`). -/
theorem C45_VehicleCommands_comm_partial (a b : VehicleCommands K) :
    (a.add b).toArray = (b.add a).toArray ∧ (a.add b).lights = a.lights := by
  simp [VehicleCommands.add, VehicleCommands.toArray, add_comm]

/-- Addition of vehicle commands with different lights does not commute. -/
theorem C45_false_lights_comm : ¬ ∀ a b : VehicleCommands ℚ, a.add b = b.add a := by
  intro h
  have := h ⟨0, 0, .none⟩ ⟨0, 0, .hazard⟩
  simp [VehicleCommands.add] at this

/-- **C45** for `PedestrianCommands`. -/
theorem C45_PedestrianCommands : ArithLaws K (PedestrianCommands K) PedestrianCommands.add PedestrianCommands.sub PedestrianCommands.mul PedestrianCommands.div
    PedestrianCommands.toArray where
  arr_add a b := by simp [PedestrianCommands.add, PedestrianCommands.sub, PedestrianCommands.mul, PedestrianCommands.div, PedestrianCommands.toArray]
  arr_sub a b := by simp [PedestrianCommands.add, PedestrianCommands.sub, PedestrianCommands.mul, PedestrianCommands.div, PedestrianCommands.toArray, sub_eq_add_neg]
  arr_mul a k := by simp [PedestrianCommands.add, PedestrianCommands.sub, PedestrianCommands.mul, PedestrianCommands.div, PedestrianCommands.toArray]
  arr_div a k hk := by simp [PedestrianCommands.add, PedestrianCommands.sub, PedestrianCommands.mul, PedestrianCommands.div, PedestrianCommands.toArray, hk, div_eq_mul_inv]
  div_zero a := by simp [PedestrianCommands.div]
  sub_add_cancel a b := by simp [PedestrianCommands.add, PedestrianCommands.sub, PedestrianCommands.mul, PedestrianCommands.div, PedestrianCommands.toArray]
  add_sub_cancel a b := by simp [PedestrianCommands.add, PedestrianCommands.sub, PedestrianCommands.mul, PedestrianCommands.div, PedestrianCommands.toArray]
  mul_div_cancel a k hk := by simp [PedestrianCommands.add, PedestrianCommands.sub, PedestrianCommands.mul, PedestrianCommands.div, PedestrianCommands.toArray, hk, mul_assoc]
  mul_one a := by simp [PedestrianCommands.mul]
  mul_mul a j k := by simp [PedestrianCommands.mul, mul_assoc]
  mul_add a j k := by simp [PedestrianCommands.mul, PedestrianCommands.add, mul_add]
  add_mul a b k := by simp [PedestrianCommands.mul, PedestrianCommands.add, add_mul]
  add_assoc a b c := by simp [PedestrianCommands.add, add_assoc]

/-- C45: scalars may stand on either side. -/
theorem C45_PedestrianCommands_rmul (k : K) (s : PedestrianCommands K) : s.rmul k = s.mul k := rfl

/-- C45: `+` is commutative. -/
theorem C45_PedestrianCommands_comm (a b : PedestrianCommands K) : a.add b = b.add a := by
  simp [PedestrianCommands.add, add_comm]

/-- **C45** for `DiffDriveCommands`. -/
theorem C45_DiffDriveCommands : ArithLaws K (DiffDriveCommands K) DiffDriveCommands.add DiffDriveCommands.sub DiffDriveCommands.mul DiffDriveCommands.div
    DiffDriveCommands.toArray where
  arr_add a b := by simp [DiffDriveCommands.add, DiffDriveCommands.sub, DiffDriveCommands.mul, DiffDriveCommands.div, DiffDriveCommands.toArray]
  arr_sub a b := by simp [DiffDriveCommands.add, DiffDriveCommands.sub, DiffDriveCommands.mul, DiffDriveCommands.div, DiffDriveCommands.toArray, sub_eq_add_neg]
  arr_mul a k := by simp [DiffDriveCommands.add, DiffDriveCommands.sub, DiffDriveCommands.mul, DiffDriveCommands.div, DiffDriveCommands.toArray]
  arr_div a k hk := by simp [DiffDriveCommands.add, DiffDriveCommands.sub, DiffDriveCommands.mul, DiffDriveCommands.div, DiffDriveCommands.toArray, hk, div_eq_mul_inv]
  div_zero a := by simp [DiffDriveCommands.div]
  sub_add_cancel a b := by simp [DiffDriveCommands.add, DiffDriveCommands.sub, DiffDriveCommands.mul, DiffDriveCommands.div, DiffDriveCommands.toArray]
  add_sub_cancel a b := by simp [DiffDriveCommands.add, DiffDriveCommands.sub, DiffDriveCommands.mul, DiffDriveCommands.div, DiffDriveCommands.toArray]
  mul_div_cancel a k hk := by simp [DiffDriveCommands.add, DiffDriveCommands.sub, DiffDriveCommands.mul, DiffDriveCommands.div, DiffDriveCommands.toArray, hk, mul_assoc]
  mul_one a := by simp [DiffDriveCommands.mul]
  mul_mul a j k := by simp [DiffDriveCommands.mul, mul_assoc]
  mul_add a j k := by simp [DiffDriveCommands.mul, DiffDriveCommands.add, mul_add]
  add_mul a b k := by simp [DiffDriveCommands.mul, DiffDriveCommands.add, add_mul]
  add_assoc a b c := by simp [DiffDriveCommands.add, add_assoc]

/-- C45: scalars may stand on either side. -/
theorem C45_DiffDriveCommands_rmul (k : K) (s : DiffDriveCommands K) : s.rmul k = s.mul k := rfl

/-- C45: `+` is commutative. -/
theorem C45_DiffDriveCommands_comm (a b : DiffDriveCommands K) : a.add b = b.add a := by
  simp [DiffDriveCommands.add, add_comm]

/-- **C45** for `SpacecraftCommands`. -/
theorem C45_SpacecraftCommands : ArithLaws K (SpacecraftCommands K) SpacecraftCommands.add SpacecraftCommands.sub SpacecraftCommands.mul SpacecraftCommands.div
    SpacecraftCommands.toArray where
  arr_add a b := by simp [SpacecraftCommands.add, SpacecraftCommands.sub, SpacecraftCommands.mul, SpacecraftCommands.div, SpacecraftCommands.toArray]
  arr_sub a b := by simp [SpacecraftCommands.add, SpacecraftCommands.sub, SpacecraftCommands.mul, SpacecraftCommands.div, SpacecraftCommands.toArray, sub_eq_add_neg]
  arr_mul a k := by simp [SpacecraftCommands.add, SpacecraftCommands.sub, SpacecraftCommands.mul, SpacecraftCommands.div, SpacecraftCommands.toArray]
  arr_div a k hk := by simp [SpacecraftCommands.add, SpacecraftCommands.sub, SpacecraftCommands.mul, SpacecraftCommands.div, SpacecraftCommands.toArray, hk, div_eq_mul_inv]
  div_zero a := by simp [SpacecraftCommands.div]
  sub_add_cancel a b := by simp [SpacecraftCommands.add, SpacecraftCommands.sub, SpacecraftCommands.mul, SpacecraftCommands.div, SpacecraftCommands.toArray]
  add_sub_cancel a b := by simp [SpacecraftCommands.add, SpacecraftCommands.sub, SpacecraftCommands.mul, SpacecraftCommands.div, SpacecraftCommands.toArray]
  mul_div_cancel a k hk := by simp [SpacecraftCommands.add, SpacecraftCommands.sub, SpacecraftCommands.mul, SpacecraftCommands.div, SpacecraftCommands.toArray, hk, mul_assoc]
  mul_one a := by simp [SpacecraftCommands.mul]
  mul_mul a j k := by simp [SpacecraftCommands.mul, mul_assoc]
  mul_add a j k := by simp [SpacecraftCommands.mul, SpacecraftCommands.add, mul_add]
  add_mul a b k := by simp [SpacecraftCommands.mul, SpacecraftCommands.add, add_mul]
  add_assoc a b c := by simp [SpacecraftCommands.add, add_assoc]

/-- C45: scalars may stand on either side. -/
theorem C45_SpacecraftCommands_rmul (k : K) (s : SpacecraftCommands K) : s.rmul k = s.mul k := rfl

/-- C45: `+` is commutative. -/
theorem C45_SpacecraftCommands_comm (a b : SpacecraftCommands K) : a.add b = b.add a := by
  simp [SpacecraftCommands.add, add_comm]

/-- **C45** for `SpaceshipCommands`. -/
theorem C45_SpaceshipCommands : ArithLaws K (SpaceshipCommands K) SpaceshipCommands.add SpaceshipCommands.sub SpaceshipCommands.mul SpaceshipCommands.div
    SpaceshipCommands.toArray where
  arr_add a b := by simp [SpaceshipCommands.add, SpaceshipCommands.sub, SpaceshipCommands.mul, SpaceshipCommands.div, SpaceshipCommands.toArray]
  arr_sub a b := by simp [SpaceshipCommands.add, SpaceshipCommands.sub, SpaceshipCommands.mul, SpaceshipCommands.div, SpaceshipCommands.toArray, sub_eq_add_neg]
  arr_mul a k := by simp [SpaceshipCommands.add, SpaceshipCommands.sub, SpaceshipCommands.mul, SpaceshipCommands.div, SpaceshipCommands.toArray]
  arr_div a k hk := by simp [SpaceshipCommands.add, SpaceshipCommands.sub, SpaceshipCommands.mul, SpaceshipCommands.div, SpaceshipCommands.toArray, hk, div_eq_mul_inv]
  div_zero a := by simp [SpaceshipCommands.div]
  sub_add_cancel a b := by simp [SpaceshipCommands.add, SpaceshipCommands.sub, SpaceshipCommands.mul, SpaceshipCommands.div, SpaceshipCommands.toArray]
  add_sub_cancel a b := by simp [SpaceshipCommands.add, SpaceshipCommands.sub, SpaceshipCommands.mul, SpaceshipCommands.div, SpaceshipCommands.toArray]
  mul_div_cancel a k hk := by simp [SpaceshipCommands.add, SpaceshipCommands.sub, SpaceshipCommands.mul, SpaceshipCommands.div, SpaceshipCommands.toArray, hk, mul_assoc]
  mul_one a := by simp [SpaceshipCommands.mul]
  mul_mul a j k := by simp [SpaceshipCommands.mul, mul_assoc]
  mul_add a j k := by simp [SpaceshipCommands.mul, SpaceshipCommands.add, mul_add]
  add_mul a b k := by simp [SpaceshipCommands.mul, SpaceshipCommands.add, add_mul]
  add_assoc a b c := by simp [SpaceshipCommands.add, add_assoc]

/-- C45: scalars may stand on either side. -/
theorem C45_SpaceshipCommands_rmul (k : K) (s : SpaceshipCommands K) : s.rmul k = s.mul k := rfl

/-- C45: `+` is commutative. -/
theorem C45_SpaceshipCommands_comm (a b : SpaceshipCommands K) : a.add b = b.add a := by
  simp [SpaceshipCommands.add, add_comm]

/-- **C45** for `RocketCommands`. -/
theorem C45_RocketCommands : ArithLaws K (RocketCommands K) RocketCommands.add RocketCommands.sub RocketCommands.mul RocketCommands.div
    RocketCommands.toArray where
  arr_add a b := by simp [RocketCommands.add, RocketCommands.sub, RocketCommands.mul, RocketCommands.div, RocketCommands.toArray]
  arr_sub a b := by simp [RocketCommands.add, RocketCommands.sub, RocketCommands.mul, RocketCommands.div, RocketCommands.toArray, sub_eq_add_neg]
  arr_mul a k := by simp [RocketCommands.add, RocketCommands.sub, RocketCommands.mul, RocketCommands.div, RocketCommands.toArray]
  arr_div a k hk := by simp [RocketCommands.add, RocketCommands.sub, RocketCommands.mul, RocketCommands.div, RocketCommands.toArray, hk, div_eq_mul_inv]
  div_zero a := by simp [RocketCommands.div]
  sub_add_cancel a b := by simp [RocketCommands.add, RocketCommands.sub, RocketCommands.mul, RocketCommands.div, RocketCommands.toArray]
  add_sub_cancel a b := by simp [RocketCommands.add, RocketCommands.sub, RocketCommands.mul, RocketCommands.div, RocketCommands.toArray]
  mul_div_cancel a k hk := by simp [RocketCommands.add, RocketCommands.sub, RocketCommands.mul, RocketCommands.div, RocketCommands.toArray, hk, mul_assoc]
  mul_one a := by simp [RocketCommands.mul]
  mul_mul a j k := by simp [RocketCommands.mul, mul_assoc]
  mul_add a j k := by simp [RocketCommands.mul, RocketCommands.add, mul_add]
  add_mul a b k := by simp [RocketCommands.mul, RocketCommands.add, add_mul]
  add_assoc a b c := by simp [RocketCommands.add, add_assoc]

/-- C45: scalars may stand on either side. -/
theorem C45_RocketCommands_rmul (k : K) (s : RocketCommands K) : s.rmul k = s.mul k := rfl

/-- C45: `+` is commutative. -/
theorem C45_RocketCommands_comm (a b : RocketCommands K) : a.add b = b.add a := by
  simp [RocketCommands.add, add_comm]

/-- **C45** for `DynObstacleCommands`. -/
theorem C45_DynObstacleCommands : ArithLaws K (DynObstacleCommands K) DynObstacleCommands.add DynObstacleCommands.sub DynObstacleCommands.mul DynObstacleCommands.div
    DynObstacleCommands.toArray where
  arr_add a b := by simp [DynObstacleCommands.add, DynObstacleCommands.sub, DynObstacleCommands.mul, DynObstacleCommands.div, DynObstacleCommands.toArray]
  arr_sub a b := by simp [DynObstacleCommands.add, DynObstacleCommands.sub, DynObstacleCommands.mul, DynObstacleCommands.div, DynObstacleCommands.toArray, sub_eq_add_neg]
  arr_mul a k := by simp [DynObstacleCommands.add, DynObstacleCommands.sub, DynObstacleCommands.mul, DynObstacleCommands.div, DynObstacleCommands.toArray]
  arr_div a k hk := by simp [DynObstacleCommands.add, DynObstacleCommands.sub, DynObstacleCommands.mul, DynObstacleCommands.div, DynObstacleCommands.toArray, hk, div_eq_mul_inv]
  div_zero a := by simp [DynObstacleCommands.div]
  sub_add_cancel a b := by simp [DynObstacleCommands.add, DynObstacleCommands.sub, DynObstacleCommands.mul, DynObstacleCommands.div, DynObstacleCommands.toArray]
  add_sub_cancel a b := by simp [DynObstacleCommands.add, DynObstacleCommands.sub, DynObstacleCommands.mul, DynObstacleCommands.div, DynObstacleCommands.toArray]
  mul_div_cancel a k hk := by simp [DynObstacleCommands.add, DynObstacleCommands.sub, DynObstacleCommands.mul, DynObstacleCommands.div, DynObstacleCommands.toArray, hk, mul_assoc]
  mul_one a := by simp [DynObstacleCommands.mul]
  mul_mul a j k := by simp [DynObstacleCommands.mul, mul_assoc]
  mul_add a j k := by simp [DynObstacleCommands.mul, DynObstacleCommands.add, mul_add]
  add_mul a b k := by simp [DynObstacleCommands.mul, DynObstacleCommands.add, add_mul]
  add_assoc a b c := by simp [DynObstacleCommands.add, add_assoc]

/-- C45: scalars may stand on either side. -/
theorem C45_DynObstacleCommands_rmul (k : K) (s : DynObstacleCommands K) : s.rmul k = s.mul k := rfl

/-- C45: `+` is commutative. -/
theorem C45_DynObstacleCommands_comm (a b : DynObstacleCommands K) : a.add b = b.add a := by
  simp [DynObstacleCommands.add, add_comm]

example : (VehicleState.mk (1 : ℚ) 2 3 4 5).sub ⟨1, 1, 1, 1, 1⟩ = ⟨0, 1, 2, 3, 4⟩ := by
  simp [VehicleState.sub, VehicleState.add, VehicleState.mul]; norm_num
example : (VehicleStateDyn.mk (1 : ℚ) 2 3 4 5 6 7).toArray = [1, 2, 3, 4, 6, 7, 5] := rfl

/-! ## C46 -/

/-- Specification of a pair of mutually inverse conversions between objects and arrays of
length `n`, rejecting arrays of other lengths. -/
structure RoundTrip (K T : Type*) (n : Nat) (arr : T → List K) (frm : List K → Except Err T) : Prop where
  from_to : ∀ s, frm (arr s) = .ok s
  to_from : ∀ z, z.length = n → ∃ s, frm z = .ok s ∧ arr s = z
  reject : ∀ z, z.length ≠ n → frm z = .error .assertion
  length : ∀ s, (arr s).length = n

/-- An array of known length is an explicit list. -/
theorem list_len2 (z : List K) (h : z.length = 2) : ∃ a b, z = [a, b] :=
  List.length_eq_two.mp h
theorem list_len3 (z : List K) (h : z.length = 3) : ∃ a b c, z = [a, b, c] :=
  List.length_eq_three.mp h

theorem list_len5 (z : List K) (h : z.length = 5) : ∃ a b c d e, z = [a, b, c, d, e] := by
  match z, h with
  | [a, b, c, d, e], _ => exact ⟨a, b, c, d, e, rfl⟩

theorem list_len6 (z : List K) (h : z.length = 6) : ∃ a b c d e f, z = [a, b, c, d, e, f] := by
  match z, h with
  | [a, b, c, d, e, f], _ => exact ⟨a, b, c, d, e, f, rfl⟩

theorem list_len7 (z : List K) (h : z.length = 7) : ∃ a b c d e f g, z = [a, b, c, d, e, f, g] := by
  match z, h with
  | [a, b, c, d, e, f, g], _ => exact ⟨a, b, c, d, e, f, g, rfl⟩

theorem list_len8 (z : List K) (h : z.length = 8) : ∃ a b c d e f g h, z = [a, b, c, d, e, f, g, h] := by
  match z, h with
  | [a, b, c, d, e, f, g, h], _ => exact ⟨a, b, c, d, e, f, g, h, rfl⟩

/-- **C46** for `VehicleState`. -/
theorem C46_VehicleState : RoundTrip K (VehicleState K) 5 VehicleState.toArray VehicleState.fromArray where
  from_to s := rfl
  to_from z h := by
    obtain ⟨a, b, c, d, e, rfl⟩ := list_len5 z h
    exact ⟨_, rfl, rfl⟩
  reject z h := by simp [VehicleState.fromArray, VehicleState.idx, Ne.symm h]
  length s := rfl

/-- **C46** for `VehicleStateDyn`. -/
theorem C46_VehicleStateDyn : RoundTrip K (VehicleStateDyn K) 7 VehicleStateDyn.toArray VehicleStateDyn.fromArray where
  from_to s := rfl
  to_from z h := by
    obtain ⟨a, b, c, d, e, f, g, rfl⟩ := list_len7 z h
    exact ⟨_, rfl, rfl⟩
  reject z h := by simp [VehicleStateDyn.fromArray, VehicleStateDyn.idx, Ne.symm h]
  length s := rfl

/-- **C46** for `PedestrianState`. -/
theorem C46_PedestrianState : RoundTrip K (PedestrianState K) 6 PedestrianState.toArray PedestrianState.fromArray where
  from_to s := rfl
  to_from z h := by
    obtain ⟨a, b, c, d, e, f, rfl⟩ := list_len6 z h
    exact ⟨_, rfl, rfl⟩
  reject z h := by simp [PedestrianState.fromArray, PedestrianState.idx, Ne.symm h]
  length s := rfl

/-- **C46** for `DiffDriveState`. -/
theorem C46_DiffDriveState : RoundTrip K (DiffDriveState K) 3 DiffDriveState.toArray DiffDriveState.fromArray where
  from_to s := rfl
  to_from z h := by
    obtain ⟨a, b, c, rfl⟩ := list_len3 z h
    exact ⟨_, rfl, rfl⟩
  reject z h := by simp [DiffDriveState.fromArray, DiffDriveState.idx, Ne.symm h]
  length s := rfl

/-- **C46** for `SpacecraftState`. -/
theorem C46_SpacecraftState : RoundTrip K (SpacecraftState K) 6 SpacecraftState.toArray SpacecraftState.fromArray where
  from_to s := rfl
  to_from z h := by
    obtain ⟨a, b, c, d, e, f, rfl⟩ := list_len6 z h
    exact ⟨_, rfl, rfl⟩
  reject z h := by simp [SpacecraftState.fromArray, SpacecraftState.idx, Ne.symm h]
  length s := rfl

/-- **C46** for `SpaceshipState`. -/
theorem C46_SpaceshipState : RoundTrip K (SpaceshipState K) 8 SpaceshipState.toArray SpaceshipState.fromArray where
  from_to s := rfl
  to_from z h := by
    obtain ⟨a, b, c, d, e, f, g, h, rfl⟩ := list_len8 z h
    exact ⟨_, rfl, rfl⟩
  reject z h := by simp [SpaceshipState.fromArray, SpaceshipState.idx, Ne.symm h]
  length s := rfl

/-- **C46** for `RocketState`. -/
theorem C46_RocketState : RoundTrip K (RocketState K) 8 RocketState.toArray RocketState.fromArray where
  from_to s := rfl
  to_from z h := by
    obtain ⟨a, b, c, d, e, f, g, h, rfl⟩ := list_len8 z h
    exact ⟨_, rfl, rfl⟩
  reject z h := by simp [RocketState.fromArray, RocketState.idx, Ne.symm h]
  length s := rfl

/-- **C46** for `DynObstacleState`. -/
theorem C46_DynObstacleState : RoundTrip K (DynObstacleState K) 6 DynObstacleState.toArray DynObstacleState.fromArray where
  from_to s := rfl
  to_from z h := by
    obtain ⟨a, b, c, d, e, f, rfl⟩ := list_len6 z h
    exact ⟨_, rfl, rfl⟩
  reject z h := by simp [DynObstacleState.fromArray, DynObstacleState.idx, Ne.symm h]
  length s := rfl

/-- **C46** is false for `VehicleCommands` with lights: the round trip resets them. -/
theorem C46_false_VehicleCommands : ¬ ∀ c : VehicleCommands ℚ, VehicleCommands.fromArray c.toArray = .ok c := by
  intro h
  have := h ⟨0, 0, .hazard⟩
  simp [VehicleCommands.fromArray, VehicleCommands.toArray, VehicleCommands.idx, arrGet,
    List.lookup, bind, Except.bind, pure, Except.pure] at this

/-- What does hold: the round trip keeps everything but the lights, and the other direction is exact. -/
theorem C46_VehicleCommands_partial (c : VehicleCommands K) :
    VehicleCommands.fromArray c.toArray = .ok { c with lights := .none } := rfl

theorem C46_VehicleCommands_to_from (z : List K) (h : z.length = 2) :
    ∃ s, VehicleCommands.fromArray z = .ok s ∧ s.toArray = z := by
  obtain ⟨a, b, rfl⟩ := list_len2 z h
  exact ⟨_, rfl, rfl⟩

theorem C46_VehicleCommands_reject (z : List K) (h : z.length ≠ 2) :
    VehicleCommands.fromArray z = .error .assertion := by
  simp [VehicleCommands.fromArray, VehicleCommands.idx, Ne.symm h]

/-- **C46** for `PedestrianCommands`. -/
theorem C46_PedestrianCommands : RoundTrip K (PedestrianCommands K) 2 PedestrianCommands.toArray PedestrianCommands.fromArray where
  from_to s := rfl
  to_from z h := by
    obtain ⟨a, b, rfl⟩ := list_len2 z h
    exact ⟨_, rfl, rfl⟩
  reject z h := by simp [PedestrianCommands.fromArray, PedestrianCommands.idx, Ne.symm h]
  length s := rfl

/-- **C46** for `DiffDriveCommands`. -/
theorem C46_DiffDriveCommands : RoundTrip K (DiffDriveCommands K) 2 DiffDriveCommands.toArray DiffDriveCommands.fromArray where
  from_to s := rfl
  to_from z h := by
    obtain ⟨a, b, rfl⟩ := list_len2 z h
    exact ⟨_, rfl, rfl⟩
  reject z h := by simp [DiffDriveCommands.fromArray, DiffDriveCommands.idx, Ne.symm h]
  length s := rfl

/-- **C46** is false for `SpacecraftCommands`: `from_array` raises `KeyError` for every array of the
right length (the key in the code has a trailing space). -/
theorem C46_false_SpacecraftCommands (z : List K) (h : z.length = 2) :
    SpacecraftCommands.fromArray z = .error .key := by
  obtain ⟨a, b, rfl⟩ := list_len2 z h
  rfl

/-- **C46** for `SpaceshipCommands`. -/
theorem C46_SpaceshipCommands : RoundTrip K (SpaceshipCommands K) 2 SpaceshipCommands.toArray SpaceshipCommands.fromArray where
  from_to s := rfl
  to_from z h := by
    obtain ⟨a, b, rfl⟩ := list_len2 z h
    exact ⟨_, rfl, rfl⟩
  reject z h := by simp [SpaceshipCommands.fromArray, SpaceshipCommands.idx, Ne.symm h]
  length s := rfl

/-- **C46** for `RocketCommands`. -/
theorem C46_RocketCommands : RoundTrip K (RocketCommands K) 3 RocketCommands.toArray RocketCommands.fromArray where
  from_to s := rfl
  to_from z h := by
    obtain ⟨a, b, c, rfl⟩ := list_len3 z h
    exact ⟨_, rfl, rfl⟩
  reject z h := by simp [RocketCommands.fromArray, RocketCommands.idx, Ne.symm h]
  length s := rfl

/-- **C46** for `DynObstacleCommands`. -/
theorem C46_DynObstacleCommands : RoundTrip K (DynObstacleCommands K) 3 DynObstacleCommands.toArray DynObstacleCommands.fromArray where
  from_to s := rfl
  to_from z h := by
    obtain ⟨a, b, c, rfl⟩ := list_len3 z h
    exact ⟨_, rfl, rfl⟩
  reject z h := by simp [DynObstacleCommands.fromArray, DynObstacleCommands.idx, Ne.symm h]
  length s := rfl

example : RocketState.fromArray ([1, 2, 3, 4, 5, 6, 7, 8] : List ℚ) = .ok ⟨1, 2, 3, 4, 5, 6, 7, 8⟩ := rfl

end Verif
