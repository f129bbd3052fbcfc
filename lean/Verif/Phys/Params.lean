import Verif.Phys.Models

/-!
# Construction of the parameters of the models

The dataclasses of parameters and what their `__post_init__` asserts: model_structures.py:73-84,
vehicle_utils.py:9-31, pedestrian_utils.py:9-20, obstacles.py:43-54, diff_drive_structures.py:113-131,
spacecraft_structures.py:108-123, rocket_structures.py:183-218, spaceship_structures.py:174-210. A failed
assertion is the value `Err.assertion`. Python compares the limits as floats; a limit that is not a
number fails its assertion and has no counterpart here.
-/

namespace Verif
namespace Phys

noncomputable section

/-- `assert lo < hi`. -/
def assertLt (lo hi : ℝ) : Except Err Unit := if lo < hi then .ok () else .error .assertion

/-- `ModelParameters.__post_init__`, model_structures.py:81-83. -/
def ModelParams.mk? (vx acc : ℝ × ℝ) : Except Err (ModelParams ℝ) := do
  assertLt vx.1 vx.2
  assertLt acc.1 acc.2
  return ⟨vx.1, vx.2, acc.1, acc.2⟩

/-- `VehicleParameters.__post_init__`, vehicle_utils.py:28-31. -/
def VehicleParams.mk? (vx acc : ℝ × ℝ) (deltaMax ddeltaMax : ℝ) : Except Err (VehicleParams ℝ) := do
  let b ← ModelParams.mk? vx acc
  assertLt 0 deltaMax
  assertLt 0 ddeltaMax
  return ⟨b, deltaMax, ddeltaMax⟩

/-- `VehicleParameters.default_car`, vehicle_utils.py:15-18. -/
def defaultCarParams : Except Err (VehicleParams ℝ) :=
  VehicleParams.mk? (kmh2ms (-10), kmh2ms 130) (-8, 5) 1 (1 / 2)

/-- `VehicleParameters.default_truck`, vehicle_utils.py:20-22. -/
def defaultTruckParams : Except Err (VehicleParams ℝ) :=
  VehicleParams.mk? (kmh2ms (-10), kmh2ms 90) (-6, 7 / 2) 1 (1 / 2)

/-- `VehicleParameters.default_bicycle`, vehicle_utils.py:24-26. -/
def defaultBicycleParams : Except Err (VehicleParams ℝ) :=
  VehicleParams.mk? (kmh2ms (-1), kmh2ms 50) (-4, 3) 1 (1 / 2)

/-- `PedestrianParameters`, pedestrian_utils.py:9-20. -/
structure PedestrianParams extends ModelParams ℝ where
  dthetaMax : ℝ

/-- `PedestrianParameters.__post_init__`, pedestrian_utils.py:18-20. -/
def PedestrianParams.mk? (vx acc : ℝ × ℝ) (dthetaMax : ℝ) : Except Err PedestrianParams := do
  let b ← ModelParams.mk? vx acc
  assertLt 0 dthetaMax
  return ⟨b, dthetaMax⟩

/-- `PedestrianParameters.default`, pedestrian_utils.py:14-16. -/
def defaultPedestrianParams : Except Err PedestrianParams :=
  PedestrianParams.mk? (kmh2ms (-5), kmh2ms 20) (-3, 5) Real.pi

/-- Parameters with limits of a rotation speed beside those of `ModelParameters`:
`SpacecraftParameters` (`dpsi_limits`), spacecraft_structures.py:108-123, and `DiffDriveParameters`
(`omega_limits`, of the wheels), diff_drive_structures.py:113-131. -/
structure RotParams extends ModelParams ℝ where
  rotMin : ℝ
  rotMax : ℝ

/-- `SpacecraftParameters.__post_init__`, spacecraft_structures.py:121-123, and
`DiffDriveParameters.__post_init__`, diff_drive_structures.py:129-131. -/
def RotParams.mk? (vx acc rot : ℝ × ℝ) : Except Err RotParams := do
  let b ← ModelParams.mk? vx acc
  assertLt rot.1 rot.2
  return ⟨b, rot.1, rot.2⟩

/-- `SpacecraftParameters.default`, spacecraft_structures.py:113-117. -/
def defaultSpacecraftParams : Except Err RotParams :=
  RotParams.mk? (kmh2ms (-50), kmh2ms 50) (-10, 10) (-2 * Real.pi, 2 * Real.pi)

/-- `DiffDriveParameters.default`, diff_drive_structures.py:119-127. -/
def defaultDiffDriveParams (omega : ℝ × ℝ) : Except Err RotParams :=
  RotParams.mk? (0, 1) (0, 1) omega

/-- `DynObstacleParameters`, obstacles.py:43-54. -/
structure DynObstacleParams extends ModelParams ℝ where
  dpsiMin : ℝ
  dpsiMax : ℝ
  ddpsiMin : ℝ
  ddpsiMax : ℝ

/-- `DynObstacleParameters.__post_init__`, obstacles.py:51-54. -/
def DynObstacleParams.mk? (vx acc dpsi ddpsi : ℝ × ℝ) : Except Err DynObstacleParams := do
  let b ← ModelParams.mk? vx acc
  assertLt dpsi.1 dpsi.2
  assertLt ddpsi.1 ddpsi.2
  return ⟨b, dpsi.1, dpsi.2, ddpsi.1, ddpsi.2⟩

/-- `RocketParameters.__post_init__`, rocket_structures.py:214-218, and
`SpaceshipParameters.__post_init__`, spaceship_structures.py:206-210; the limits of the speed and of the
acceleration are checked and then never used by the dynamics. `iz` and `arm` are those of the geometry,
which nothing checks. -/
def ThrustParams.mk? (mv cT : ℝ) (vx acc f ang dang : ℝ × ℝ) (iz arm : ℝ) : Except Err ThrustParams := do
  let _ ← ModelParams.mk? vx acc
  assertLt dang.1 dang.2
  assertLt ang.1 ang.2
  assertLt f.1 f.2
  return ⟨mv, cT, f.1, f.2, ang.1, ang.2, dang.1, dang.2, iz, arm⟩

/-- `np.deg2rad`. -/
def deg2rad (a : ℝ) : ℝ := a * (Real.pi / 180)

/-- `RocketParameters.default`, rocket_structures.py:195-212, with the geometry of
`RocketGeometry.default` (`Iz` = 1, `l_m` = 0.25), rocket_structures.py:49-64. -/
def defaultRocketParams : Except Err ThrustParams :=
  ThrustParams.mk? 2 (1 / 100) (kmh2ms (-(72 / 10)), kmh2ms (72 / 10)) (-1, 1) (0, 2)
    (-deg2rad 60, deg2rad 60) (-deg2rad 20, deg2rad 20) 1 (1 / 4)

/-- `SpaceshipParameters.default`, spaceship_structures.py:187-204, with the geometry of
`SpaceshipGeometry.default` (`Iz` = 1, `l_r` = 1), spaceship_structures.py:43-56. -/
def defaultSpaceshipParams : Except Err ThrustParams :=
  ThrustParams.mk? 2 (1 / 100) (kmh2ms (-10), kmh2ms 10) (-1, 1) (-2, 2)
    (-deg2rad 60, deg2rad 60) (-deg2rad 45, deg2rad 45) 1 1

end

end Phys
end Verif
