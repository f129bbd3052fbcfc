import Verif.Phys.States
import Mathlib.Tactic.Module
import Mathlib.Algebra.Module.Basic
import Mathlib.Tactic.Ring

/-!
# Vehicle and other states as vector spaces

Instances used to apply the theorems on interpolated lookup to state sequences. Addition,
subtraction and scaling are the operators of the code; `0` and `-s` are added.
-/

set_option linter.unusedSimpArgs false
set_option linter.unusedSectionVars false

namespace Verif

variable {K : Type*} [Field K]

instance : Zero (VehicleState K) := ⟨⟨0, 0, 0, 0, 0⟩⟩
instance : Add (VehicleState K) := ⟨VehicleState.add⟩
instance : Sub (VehicleState K) := ⟨VehicleState.sub⟩
instance : Neg (VehicleState K) := ⟨fun a => a.mul (-1)⟩
instance : SMul K (VehicleState K) := ⟨fun k a => a.mul k⟩

theorem VehicleState.ext' {a b : VehicleState K} (h : a.toArray = b.toArray) : a = b := by
  cases a; cases b
  simp only [VehicleState.toArray, List.cons.injEq] at h
  simp [h]

theorem VehicleState.add_def (a b : VehicleState K) : a + b = a.add b := rfl
theorem VehicleState.sub_def (a b : VehicleState K) : a - b = a.sub b := rfl
theorem VehicleState.neg_def (a : VehicleState K) : -a = a.mul (-1) := rfl
theorem VehicleState.smul_def (k : K) (a : VehicleState K) : k • a = a.mul k := rfl
theorem VehicleState.zero_def : (0 : VehicleState K) = ⟨0, 0, 0, 0, 0⟩ := rfl

instance : AddCommGroup (VehicleState K) where
  add_assoc a b c := by simp [VehicleState.add_def, VehicleState.add, add_assoc]
  zero_add a := by simp [VehicleState.add_def, VehicleState.zero_def, VehicleState.add]
  add_zero a := by simp [VehicleState.add_def, VehicleState.zero_def, VehicleState.add]
  add_comm a b := by simp [VehicleState.add_def, VehicleState.add, add_comm]
  neg_add_cancel a := by
    simp [VehicleState.add_def, VehicleState.neg_def, VehicleState.zero_def, VehicleState.add, VehicleState.sub, VehicleState.mul]
  sub_eq_add_neg a b := rfl
  nsmul := nsmulRec
  zsmul := zsmulRec

instance : Module K (VehicleState K) where
  one_smul a := by simp [VehicleState.smul_def, VehicleState.mul]
  mul_smul j k a := by
    simp only [VehicleState.smul_def, VehicleState.mul]
    congr 1 <;> ring
  smul_zero k := by simp [VehicleState.smul_def, VehicleState.zero_def, VehicleState.mul]
  smul_add k a b := by simp [VehicleState.smul_def, VehicleState.add_def, VehicleState.mul, VehicleState.add, add_mul]
  add_smul j k a := by simp [VehicleState.smul_def, VehicleState.add_def, VehicleState.mul, VehicleState.add, mul_add]
  zero_smul a := by simp [VehicleState.smul_def, VehicleState.zero_def, VehicleState.mul]

instance : Zero (VehicleStateDyn K) := ⟨⟨0, 0, 0, 0, 0, 0, 0⟩⟩
instance : Add (VehicleStateDyn K) := ⟨VehicleStateDyn.add⟩
instance : Sub (VehicleStateDyn K) := ⟨VehicleStateDyn.sub⟩
instance : Neg (VehicleStateDyn K) := ⟨fun a => a.mul (-1)⟩
instance : SMul K (VehicleStateDyn K) := ⟨fun k a => a.mul k⟩

theorem VehicleStateDyn.ext' {a b : VehicleStateDyn K} (h : a.toArray = b.toArray) : a = b := by
  cases a; cases b
  simp only [VehicleStateDyn.toArray, List.cons.injEq] at h
  simp [h]

theorem VehicleStateDyn.add_def (a b : VehicleStateDyn K) : a + b = a.add b := rfl
theorem VehicleStateDyn.sub_def (a b : VehicleStateDyn K) : a - b = a.sub b := rfl
theorem VehicleStateDyn.neg_def (a : VehicleStateDyn K) : -a = a.mul (-1) := rfl
theorem VehicleStateDyn.smul_def (k : K) (a : VehicleStateDyn K) : k • a = a.mul k := rfl
theorem VehicleStateDyn.zero_def : (0 : VehicleStateDyn K) = ⟨0, 0, 0, 0, 0, 0, 0⟩ := rfl

instance : AddCommGroup (VehicleStateDyn K) where
  add_assoc a b c := by simp [VehicleStateDyn.add_def, VehicleStateDyn.add, add_assoc]
  zero_add a := by simp [VehicleStateDyn.add_def, VehicleStateDyn.zero_def, VehicleStateDyn.add]
  add_zero a := by simp [VehicleStateDyn.add_def, VehicleStateDyn.zero_def, VehicleStateDyn.add]
  add_comm a b := by simp [VehicleStateDyn.add_def, VehicleStateDyn.add, add_comm]
  neg_add_cancel a := by
    simp [VehicleStateDyn.add_def, VehicleStateDyn.neg_def, VehicleStateDyn.zero_def, VehicleStateDyn.add, VehicleStateDyn.sub, VehicleStateDyn.mul]
  sub_eq_add_neg a b := rfl
  nsmul := nsmulRec
  zsmul := zsmulRec

instance : Module K (VehicleStateDyn K) where
  one_smul a := by simp [VehicleStateDyn.smul_def, VehicleStateDyn.mul]
  mul_smul j k a := by
    simp only [VehicleStateDyn.smul_def, VehicleStateDyn.mul]
    congr 1 <;> ring
  smul_zero k := by simp [VehicleStateDyn.smul_def, VehicleStateDyn.zero_def, VehicleStateDyn.mul]
  smul_add k a b := by simp [VehicleStateDyn.smul_def, VehicleStateDyn.add_def, VehicleStateDyn.mul, VehicleStateDyn.add, add_mul]
  add_smul j k a := by simp [VehicleStateDyn.smul_def, VehicleStateDyn.add_def, VehicleStateDyn.mul, VehicleStateDyn.add, mul_add]
  zero_smul a := by simp [VehicleStateDyn.smul_def, VehicleStateDyn.zero_def, VehicleStateDyn.mul]

instance : Zero (PedestrianState K) := ⟨⟨0, 0, 0, 0, 0, 0⟩⟩
instance : Add (PedestrianState K) := ⟨PedestrianState.add⟩
instance : Sub (PedestrianState K) := ⟨PedestrianState.sub⟩
instance : Neg (PedestrianState K) := ⟨fun a => a.mul (-1)⟩
instance : SMul K (PedestrianState K) := ⟨fun k a => a.mul k⟩

theorem PedestrianState.ext' {a b : PedestrianState K} (h : a.toArray = b.toArray) : a = b := by
  cases a; cases b
  simp only [PedestrianState.toArray, List.cons.injEq] at h
  simp [h]

theorem PedestrianState.add_def (a b : PedestrianState K) : a + b = a.add b := rfl
theorem PedestrianState.sub_def (a b : PedestrianState K) : a - b = a.sub b := rfl
theorem PedestrianState.neg_def (a : PedestrianState K) : -a = a.mul (-1) := rfl
theorem PedestrianState.smul_def (k : K) (a : PedestrianState K) : k • a = a.mul k := rfl
theorem PedestrianState.zero_def : (0 : PedestrianState K) = ⟨0, 0, 0, 0, 0, 0⟩ := rfl

instance : AddCommGroup (PedestrianState K) where
  add_assoc a b c := by simp [PedestrianState.add_def, PedestrianState.add, add_assoc]
  zero_add a := by simp [PedestrianState.add_def, PedestrianState.zero_def, PedestrianState.add]
  add_zero a := by simp [PedestrianState.add_def, PedestrianState.zero_def, PedestrianState.add]
  add_comm a b := by simp [PedestrianState.add_def, PedestrianState.add, add_comm]
  neg_add_cancel a := by
    simp [PedestrianState.add_def, PedestrianState.neg_def, PedestrianState.zero_def, PedestrianState.add, PedestrianState.sub, PedestrianState.mul]
  sub_eq_add_neg a b := rfl
  nsmul := nsmulRec
  zsmul := zsmulRec

instance : Module K (PedestrianState K) where
  one_smul a := by simp [PedestrianState.smul_def, PedestrianState.mul]
  mul_smul j k a := by
    simp only [PedestrianState.smul_def, PedestrianState.mul]
    congr 1 <;> ring
  smul_zero k := by simp [PedestrianState.smul_def, PedestrianState.zero_def, PedestrianState.mul]
  smul_add k a b := by simp [PedestrianState.smul_def, PedestrianState.add_def, PedestrianState.mul, PedestrianState.add, add_mul]
  add_smul j k a := by simp [PedestrianState.smul_def, PedestrianState.add_def, PedestrianState.mul, PedestrianState.add, mul_add]
  zero_smul a := by simp [PedestrianState.smul_def, PedestrianState.zero_def, PedestrianState.mul]

instance : Zero (DiffDriveState K) := ⟨⟨0, 0, 0⟩⟩
instance : Add (DiffDriveState K) := ⟨DiffDriveState.add⟩
instance : Sub (DiffDriveState K) := ⟨DiffDriveState.sub⟩
instance : Neg (DiffDriveState K) := ⟨fun a => a.mul (-1)⟩
instance : SMul K (DiffDriveState K) := ⟨fun k a => a.mul k⟩

theorem DiffDriveState.ext' {a b : DiffDriveState K} (h : a.toArray = b.toArray) : a = b := by
  cases a; cases b
  simp only [DiffDriveState.toArray, List.cons.injEq] at h
  simp [h]

theorem DiffDriveState.add_def (a b : DiffDriveState K) : a + b = a.add b := rfl
theorem DiffDriveState.sub_def (a b : DiffDriveState K) : a - b = a.sub b := rfl
theorem DiffDriveState.neg_def (a : DiffDriveState K) : -a = a.mul (-1) := rfl
theorem DiffDriveState.smul_def (k : K) (a : DiffDriveState K) : k • a = a.mul k := rfl
theorem DiffDriveState.zero_def : (0 : DiffDriveState K) = ⟨0, 0, 0⟩ := rfl

instance : AddCommGroup (DiffDriveState K) where
  add_assoc a b c := by simp [DiffDriveState.add_def, DiffDriveState.add, add_assoc]
  zero_add a := by simp [DiffDriveState.add_def, DiffDriveState.zero_def, DiffDriveState.add]
  add_zero a := by simp [DiffDriveState.add_def, DiffDriveState.zero_def, DiffDriveState.add]
  add_comm a b := by simp [DiffDriveState.add_def, DiffDriveState.add, add_comm]
  neg_add_cancel a := by
    simp [DiffDriveState.add_def, DiffDriveState.neg_def, DiffDriveState.zero_def, DiffDriveState.add, DiffDriveState.sub, DiffDriveState.mul]
  sub_eq_add_neg a b := rfl
  nsmul := nsmulRec
  zsmul := zsmulRec

instance : Module K (DiffDriveState K) where
  one_smul a := by simp [DiffDriveState.smul_def, DiffDriveState.mul]
  mul_smul j k a := by
    simp only [DiffDriveState.smul_def, DiffDriveState.mul]
    congr 1 <;> ring
  smul_zero k := by simp [DiffDriveState.smul_def, DiffDriveState.zero_def, DiffDriveState.mul]
  smul_add k a b := by simp [DiffDriveState.smul_def, DiffDriveState.add_def, DiffDriveState.mul, DiffDriveState.add, add_mul]
  add_smul j k a := by simp [DiffDriveState.smul_def, DiffDriveState.add_def, DiffDriveState.mul, DiffDriveState.add, mul_add]
  zero_smul a := by simp [DiffDriveState.smul_def, DiffDriveState.zero_def, DiffDriveState.mul]

instance : Zero (SpacecraftState K) := ⟨⟨0, 0, 0, 0, 0, 0⟩⟩
instance : Add (SpacecraftState K) := ⟨SpacecraftState.add⟩
instance : Sub (SpacecraftState K) := ⟨SpacecraftState.sub⟩
instance : Neg (SpacecraftState K) := ⟨fun a => a.mul (-1)⟩
instance : SMul K (SpacecraftState K) := ⟨fun k a => a.mul k⟩

theorem SpacecraftState.ext' {a b : SpacecraftState K} (h : a.toArray = b.toArray) : a = b := by
  cases a; cases b
  simp only [SpacecraftState.toArray, List.cons.injEq] at h
  simp [h]

theorem SpacecraftState.add_def (a b : SpacecraftState K) : a + b = a.add b := rfl
theorem SpacecraftState.sub_def (a b : SpacecraftState K) : a - b = a.sub b := rfl
theorem SpacecraftState.neg_def (a : SpacecraftState K) : -a = a.mul (-1) := rfl
theorem SpacecraftState.smul_def (k : K) (a : SpacecraftState K) : k • a = a.mul k := rfl
theorem SpacecraftState.zero_def : (0 : SpacecraftState K) = ⟨0, 0, 0, 0, 0, 0⟩ := rfl

instance : AddCommGroup (SpacecraftState K) where
  add_assoc a b c := by simp [SpacecraftState.add_def, SpacecraftState.add, add_assoc]
  zero_add a := by simp [SpacecraftState.add_def, SpacecraftState.zero_def, SpacecraftState.add]
  add_zero a := by simp [SpacecraftState.add_def, SpacecraftState.zero_def, SpacecraftState.add]
  add_comm a b := by simp [SpacecraftState.add_def, SpacecraftState.add, add_comm]
  neg_add_cancel a := by
    simp [SpacecraftState.add_def, SpacecraftState.neg_def, SpacecraftState.zero_def, SpacecraftState.add, SpacecraftState.sub, SpacecraftState.mul]
  sub_eq_add_neg a b := rfl
  nsmul := nsmulRec
  zsmul := zsmulRec

instance : Module K (SpacecraftState K) where
  one_smul a := by simp [SpacecraftState.smul_def, SpacecraftState.mul]
  mul_smul j k a := by
    simp only [SpacecraftState.smul_def, SpacecraftState.mul]
    congr 1 <;> ring
  smul_zero k := by simp [SpacecraftState.smul_def, SpacecraftState.zero_def, SpacecraftState.mul]
  smul_add k a b := by simp [SpacecraftState.smul_def, SpacecraftState.add_def, SpacecraftState.mul, SpacecraftState.add, add_mul]
  add_smul j k a := by simp [SpacecraftState.smul_def, SpacecraftState.add_def, SpacecraftState.mul, SpacecraftState.add, mul_add]
  zero_smul a := by simp [SpacecraftState.smul_def, SpacecraftState.zero_def, SpacecraftState.mul]

instance : Zero (SpaceshipState K) := ⟨⟨0, 0, 0, 0, 0, 0, 0, 0⟩⟩
instance : Add (SpaceshipState K) := ⟨SpaceshipState.add⟩
instance : Sub (SpaceshipState K) := ⟨SpaceshipState.sub⟩
instance : Neg (SpaceshipState K) := ⟨fun a => a.mul (-1)⟩
instance : SMul K (SpaceshipState K) := ⟨fun k a => a.mul k⟩

theorem SpaceshipState.ext' {a b : SpaceshipState K} (h : a.toArray = b.toArray) : a = b := by
  cases a; cases b
  simp only [SpaceshipState.toArray, List.cons.injEq] at h
  simp [h]

theorem SpaceshipState.add_def (a b : SpaceshipState K) : a + b = a.add b := rfl
theorem SpaceshipState.sub_def (a b : SpaceshipState K) : a - b = a.sub b := rfl
theorem SpaceshipState.neg_def (a : SpaceshipState K) : -a = a.mul (-1) := rfl
theorem SpaceshipState.smul_def (k : K) (a : SpaceshipState K) : k • a = a.mul k := rfl
theorem SpaceshipState.zero_def : (0 : SpaceshipState K) = ⟨0, 0, 0, 0, 0, 0, 0, 0⟩ := rfl

instance : AddCommGroup (SpaceshipState K) where
  add_assoc a b c := by simp [SpaceshipState.add_def, SpaceshipState.add, add_assoc]
  zero_add a := by simp [SpaceshipState.add_def, SpaceshipState.zero_def, SpaceshipState.add]
  add_zero a := by simp [SpaceshipState.add_def, SpaceshipState.zero_def, SpaceshipState.add]
  add_comm a b := by simp [SpaceshipState.add_def, SpaceshipState.add, add_comm]
  neg_add_cancel a := by
    simp [SpaceshipState.add_def, SpaceshipState.neg_def, SpaceshipState.zero_def, SpaceshipState.add, SpaceshipState.sub, SpaceshipState.mul]
  sub_eq_add_neg a b := rfl
  nsmul := nsmulRec
  zsmul := zsmulRec

instance : Module K (SpaceshipState K) where
  one_smul a := by simp [SpaceshipState.smul_def, SpaceshipState.mul]
  mul_smul j k a := by
    simp only [SpaceshipState.smul_def, SpaceshipState.mul]
    congr 1 <;> ring
  smul_zero k := by simp [SpaceshipState.smul_def, SpaceshipState.zero_def, SpaceshipState.mul]
  smul_add k a b := by simp [SpaceshipState.smul_def, SpaceshipState.add_def, SpaceshipState.mul, SpaceshipState.add, add_mul]
  add_smul j k a := by simp [SpaceshipState.smul_def, SpaceshipState.add_def, SpaceshipState.mul, SpaceshipState.add, mul_add]
  zero_smul a := by simp [SpaceshipState.smul_def, SpaceshipState.zero_def, SpaceshipState.mul]

instance : Zero (RocketState K) := ⟨⟨0, 0, 0, 0, 0, 0, 0, 0⟩⟩
instance : Add (RocketState K) := ⟨RocketState.add⟩
instance : Sub (RocketState K) := ⟨RocketState.sub⟩
instance : Neg (RocketState K) := ⟨fun a => a.mul (-1)⟩
instance : SMul K (RocketState K) := ⟨fun k a => a.mul k⟩

theorem RocketState.ext' {a b : RocketState K} (h : a.toArray = b.toArray) : a = b := by
  cases a; cases b
  simp only [RocketState.toArray, List.cons.injEq] at h
  simp [h]

theorem RocketState.add_def (a b : RocketState K) : a + b = a.add b := rfl
theorem RocketState.sub_def (a b : RocketState K) : a - b = a.sub b := rfl
theorem RocketState.neg_def (a : RocketState K) : -a = a.mul (-1) := rfl
theorem RocketState.smul_def (k : K) (a : RocketState K) : k • a = a.mul k := rfl
theorem RocketState.zero_def : (0 : RocketState K) = ⟨0, 0, 0, 0, 0, 0, 0, 0⟩ := rfl

instance : AddCommGroup (RocketState K) where
  add_assoc a b c := by simp [RocketState.add_def, RocketState.add, add_assoc]
  zero_add a := by simp [RocketState.add_def, RocketState.zero_def, RocketState.add]
  add_zero a := by simp [RocketState.add_def, RocketState.zero_def, RocketState.add]
  add_comm a b := by simp [RocketState.add_def, RocketState.add, add_comm]
  neg_add_cancel a := by
    simp [RocketState.add_def, RocketState.neg_def, RocketState.zero_def, RocketState.add, RocketState.sub, RocketState.mul]
  sub_eq_add_neg a b := rfl
  nsmul := nsmulRec
  zsmul := zsmulRec

instance : Module K (RocketState K) where
  one_smul a := by simp [RocketState.smul_def, RocketState.mul]
  mul_smul j k a := by
    simp only [RocketState.smul_def, RocketState.mul]
    congr 1 <;> ring
  smul_zero k := by simp [RocketState.smul_def, RocketState.zero_def, RocketState.mul]
  smul_add k a b := by simp [RocketState.smul_def, RocketState.add_def, RocketState.mul, RocketState.add, add_mul]
  add_smul j k a := by simp [RocketState.smul_def, RocketState.add_def, RocketState.mul, RocketState.add, mul_add]
  zero_smul a := by simp [RocketState.smul_def, RocketState.zero_def, RocketState.mul]

instance : Zero (DynObstacleState K) := ⟨⟨0, 0, 0, 0, 0, 0⟩⟩
instance : Add (DynObstacleState K) := ⟨DynObstacleState.add⟩
instance : Sub (DynObstacleState K) := ⟨DynObstacleState.sub⟩
instance : Neg (DynObstacleState K) := ⟨fun a => a.mul (-1)⟩
instance : SMul K (DynObstacleState K) := ⟨fun k a => a.mul k⟩

theorem DynObstacleState.ext' {a b : DynObstacleState K} (h : a.toArray = b.toArray) : a = b := by
  cases a; cases b
  simp only [DynObstacleState.toArray, List.cons.injEq] at h
  simp [h]

theorem DynObstacleState.add_def (a b : DynObstacleState K) : a + b = a.add b := rfl
theorem DynObstacleState.sub_def (a b : DynObstacleState K) : a - b = a.sub b := rfl
theorem DynObstacleState.neg_def (a : DynObstacleState K) : -a = a.mul (-1) := rfl
theorem DynObstacleState.smul_def (k : K) (a : DynObstacleState K) : k • a = a.mul k := rfl
theorem DynObstacleState.zero_def : (0 : DynObstacleState K) = ⟨0, 0, 0, 0, 0, 0⟩ := rfl

instance : AddCommGroup (DynObstacleState K) where
  add_assoc a b c := by simp [DynObstacleState.add_def, DynObstacleState.add, add_assoc]
  zero_add a := by simp [DynObstacleState.add_def, DynObstacleState.zero_def, DynObstacleState.add]
  add_zero a := by simp [DynObstacleState.add_def, DynObstacleState.zero_def, DynObstacleState.add]
  add_comm a b := by simp [DynObstacleState.add_def, DynObstacleState.add, add_comm]
  neg_add_cancel a := by
    simp [DynObstacleState.add_def, DynObstacleState.neg_def, DynObstacleState.zero_def, DynObstacleState.add, DynObstacleState.sub, DynObstacleState.mul]
  sub_eq_add_neg a b := rfl
  nsmul := nsmulRec
  zsmul := zsmulRec

instance : Module K (DynObstacleState K) where
  one_smul a := by simp [DynObstacleState.smul_def, DynObstacleState.mul]
  mul_smul j k a := by
    simp only [DynObstacleState.smul_def, DynObstacleState.mul]
    congr 1 <;> ring
  smul_zero k := by simp [DynObstacleState.smul_def, DynObstacleState.zero_def, DynObstacleState.mul]
  smul_add k a b := by simp [DynObstacleState.smul_def, DynObstacleState.add_def, DynObstacleState.mul, DynObstacleState.add, add_mul]
  add_smul j k a := by simp [DynObstacleState.smul_def, DynObstacleState.add_def, DynObstacleState.mul, DynObstacleState.add, mul_add]
  zero_smul a := by simp [DynObstacleState.smul_def, DynObstacleState.zero_def, DynObstacleState.mul]

end Verif
