import Verif.Phys.Models
import Mathlib.Tactic.LinearCombination

/-!
# C47, C74: velocities of the models

Specification: a velocity with its frame is turned into the world frame by `world`, written out with
the sine and cosine of the heading; nothing else of the model is used.
-/

namespace Verif
namespace Phys

/-- Specification: a velocity given in the model frame (`true`) or in the world frame (`false`) of a
body with heading `psi`, expressed in the world frame. -/
noncomputable def world (psi : ℝ) (inModel : Bool) (v : ℝ × ℝ) : ℝ × ℝ :=
  match inModel with
  | true => (v.1 * Real.cos psi - v.2 * Real.sin psi, v.1 * Real.sin psi + v.2 * Real.cos psi)
  | false => v

/-- Specification of C47: what was set in one frame is read, up to the change of frame, in any frame,
and the pose stays. -/
def RoundTrip {S : Type} (heading : S → ℝ) (pose : S → ℝ × ℝ × ℝ) (get : S → Bool → (ℝ × ℝ) × ℝ)
    (set : S → ℝ × ℝ → ℝ → Bool → S) : Prop :=
  ∀ (s : S) (v : ℝ × ℝ) (w : ℝ) (b b' : Bool),
    world (heading s) b' (get (set s v w b) b').1 = world (heading s) b v ∧
    (get (set s v w b) b').2 = w ∧
    (get (set s v w b) b).1 = v ∧
    pose (set s v w b) = pose s

theorem rot_unrot (a : ℝ) (v : ℝ × ℝ) : rotBy a (rotBy (-a) v) = v := by
  have h := Real.sin_sq_add_cos_sq a
  unfold rotBy
  rw [Real.cos_neg, Real.sin_neg]
  ext
  · simp only; linear_combination v.1 * h
  · simp only; linear_combination v.2 * h

theorem outFrame_inFrame (a : ℝ) (b : Bool) (v : ℝ × ℝ) : outFrame a b (inFrame a b v) = v := by
  cases b
  · exact rot_unrot a v
  · rfl

theorem world_true (a : ℝ) (v : ℝ × ℝ) : world a true v = rotBy a v := by
  unfold world rotBy
  ext <;> simp only <;> ring

theorem world_outFrame (a : ℝ) (b : Bool) (v : ℝ × ℝ) :
    world a b (outFrame a b v) = rotBy a v := by
  cases b
  · rfl
  · exact world_true a v

theorem rotBy_inFrame (a : ℝ) (b : Bool) (v : ℝ × ℝ) :
    rotBy a (inFrame a b v) = world a b v := by
  cases b
  · exact rot_unrot a v
  · exact (world_true a v).symm

/-- **C47.** Spacecraft. -/
theorem C47_spacecraft : RoundTrip SpacecraftState.psi (fun s => (s.x, s.y, s.psi))
    SpacecraftState.getVelocity SpacecraftState.setVelocity := by
  intro s v w b b'
  refine ⟨?_, rfl, ?_, rfl⟩
  · exact (world_outFrame s.psi b' _).trans (rotBy_inFrame s.psi b v)
  · exact outFrame_inFrame s.psi b v

/-- **C47.** Spaceship. -/
theorem C47_spaceship : RoundTrip SpaceshipState.psi (fun s => (s.x, s.y, s.psi))
    SpaceshipState.getVelocity SpaceshipState.setVelocity := by
  intro s v w b b'
  refine ⟨?_, rfl, ?_, rfl⟩
  · exact (world_outFrame s.psi b' _).trans (rotBy_inFrame s.psi b v)
  · exact outFrame_inFrame s.psi b v

/-- **C47.** Rocket. -/
theorem C47_rocket : RoundTrip RocketState.psi (fun s => (s.x, s.y, s.psi))
    RocketState.getVelocity RocketState.setVelocity := by
  intro s v w b b'
  refine ⟨?_, rfl, ?_, rfl⟩
  · exact (world_outFrame s.psi b' _).trans (rotBy_inFrame s.psi b v)
  · exact outFrame_inFrame s.psi b v

/-- **C47.** Dynamic obstacles. -/
theorem C47_dynObstacle : RoundTrip DynObstacleState.psi (fun s => (s.x, s.y, s.psi))
    DynObstacleState.getVelocity DynObstacleState.setVelocity := by
  intro s v w b b'
  refine ⟨?_, rfl, ?_, rfl⟩
  · exact (world_outFrame s.psi b' _).trans (rotBy_inFrame s.psi b v)
  · exact outFrame_inFrame s.psi b v

/-- **C47, remaining state.** The four models above keep steering angles and masses. -/
theorem C47_rest (a : SpaceshipState ℝ) (r : RocketState ℝ) (v : ℝ × ℝ) (w : ℝ) (b : Bool) :
    (a.setVelocity v w b).delta = a.delta ∧ (a.setVelocity v w b).m = a.m ∧
    (r.setVelocity v w b).phi = r.phi ∧ (r.setVelocity v w b).m = r.m := ⟨rfl, rfl, rfl, rfl⟩

/-- A spacecraft looking along the second axis, hit towards the negative first axis. -/
example : let s : SpacecraftState ℝ := ⟨5, 6, Real.pi / 2, 1, 0, 0⟩
    s.setVelocity (-3, 0) 2 false = ⟨5, 6, Real.pi / 2, 0, 3, 2⟩ := by
  simp [SpacecraftState.setVelocity, inFrame, rotBy, Real.cos_neg, Real.sin_neg]

/-- **C47 is false for the dynamic vehicle**: the rotation is not stored. -/
theorem C47_false_vehicleDyn : ¬ RoundTrip VehicleStateDyn.psi (fun s => (s.x, s.y, s.psi))
    VehicleStateDyn.getVelocity VehicleStateDyn.setVelocity := by
  intro h
  have := (h ⟨0, 0, 0, 0, 0, 0, 0⟩ (0, 0) 1 true true).2.1
  simp [VehicleStateDyn.getVelocity, VehicleStateDyn.setVelocity] at this

/-- **C47, what holds for the dynamic vehicle.** The linear velocity is read back and the pose and
steering stay; the rotation is read back exactly when it was there before. Missing: the rotation. -/
theorem C47_vehicleDyn_partial (s : VehicleStateDyn ℝ) (v : ℝ × ℝ) (w : ℝ) (b b' : Bool) :
    world s.psi b' ((s.setVelocity v w b).getVelocity b').1 = world s.psi b v ∧
    ((s.setVelocity v w b).getVelocity b).1 = v ∧
    (((s.setVelocity v w b).getVelocity b').2 = w ↔ s.dpsi = w) ∧
    (s.setVelocity v w b).x = s.x ∧ (s.setVelocity v w b).y = s.y ∧
    (s.setVelocity v w b).psi = s.psi ∧ (s.setVelocity v w b).delta = s.delta := by
  refine ⟨?_, ?_, Iff.rfl, rfl, rfl, rfl, rfl⟩
  · exact (world_outFrame s.psi b' _).trans (rotBy_inFrame s.psi b v)
  · exact outFrame_inFrame s.psi b v

/-- **C47 is false for pedestrians**: the rotation overwrites the forward speed. -/
theorem C47_false_pedestrian : ¬ RoundTrip PedestrianState.psi (fun s => (s.x, s.y, s.psi))
    PedestrianState.getVelocity PedestrianState.setVelocity := by
  intro h
  have := congrArg Prod.fst (h ⟨0, 0, 0, 0, 0, 0⟩ (1, 0) 0 true true).2.2.1
  simp [PedestrianState.getVelocity, PedestrianState.setVelocity, outFrame] at this

/-- Specification: the components of a velocity in the world forwardOf and sidewaysOf a heading. -/
noncomputable def forwardOf (psi : ℝ) (u : ℝ × ℝ) : ℝ := Real.cos psi * u.1 + Real.sin psi * u.2

@[inherit_doc forwardOf]
noncomputable def sidewaysOf (psi : ℝ) (u : ℝ × ℝ) : ℝ := Real.cos psi * u.2 - Real.sin psi * u.1

theorem inFrame_world (a : ℝ) (b : Bool) (v : ℝ × ℝ) : inFrame a b v = (forwardOf a (world a b v), sidewaysOf a (world a b v)) := by
  have h := Real.sin_sq_add_cos_sq a
  rw [← rotBy_inFrame]
  unfold forwardOf sidewaysOf rotBy
  ext
  · simp only; linear_combination (-(inFrame a b v).1) * h
  · simp only; linear_combination (-(inFrame a b v).2) * h

theorem inFrame_outFrame (a : ℝ) (b : Bool) (v : ℝ × ℝ) : inFrame a b (outFrame a b v) = v := by
  cases b
  · have := rot_unrot (-a) v
    rwa [neg_neg] at this
  · rfl

theorem outFrame_eq_iff (a : ℝ) (b : Bool) (u v : ℝ × ℝ) : outFrame a b u = v ↔ u = inFrame a b v :=
  ⟨fun h => by rw [← h, inFrame_outFrame], fun h => by rw [h, outFrame_inFrame]⟩

/-- **C47, what holds for pedestrians.** Whichever frames are used, the lateral velocity is read back and the
pose stays; the forward speed read is the rotation given, the rotation read is the old one. So the
round trip holds exactly when the forward speed and the old rotation both equal the rotation given. -/
theorem C47_pedestrian_partial (s : PedestrianState ℝ) (v : ℝ × ℝ) (w : ℝ) (b b' : Bool) :
    sidewaysOf s.psi (world s.psi b' ((s.setVelocity v w b).getVelocity b').1) = sidewaysOf s.psi (world s.psi b v) ∧
    forwardOf s.psi (world s.psi b' ((s.setVelocity v w b).getVelocity b').1) = w ∧
    ((s.setVelocity v w b).getVelocity b').2 = s.dpsi ∧
    (s.setVelocity v w b).x = s.x ∧ (s.setVelocity v w b).y = s.y ∧
    (s.setVelocity v w b).psi = s.psi ∧
    (((s.setVelocity v w b).getVelocity b) = (v, w) ↔ forwardOf s.psi (world s.psi b v) = w ∧ s.dpsi = w) := by
  have h1 := inFrame_world s.psi b' ((s.setVelocity v w b).getVelocity b').1
  have h2 : inFrame s.psi b' ((s.setVelocity v w b).getVelocity b').1 = (w, (inFrame s.psi b v).2) :=
    inFrame_outFrame s.psi b' _
  have h3 := inFrame_world s.psi b v
  rw [h2, h3] at h1
  refine ⟨(congrArg Prod.snd h1).symm, (congrArg Prod.fst h1).symm, rfl, rfl, rfl, rfl, ?_⟩
  show (outFrame s.psi b (w, (inFrame s.psi b v).2), s.dpsi) = (v, w) ↔ _
  rw [Prod.mk.injEq, outFrame_eq_iff, h3, Prod.mk.injEq]
  exact ⟨fun h => ⟨h.1.1.symm, h.2⟩, fun h => ⟨⟨h.1.symm, rfl⟩, h.2⟩⟩

/-- A pedestrian walking along the second axis, told in the world to walk along it with speed 3 and to turn with rate 3. -/
example : (⟨0, 0, Real.pi / 2, 1, 0, 3⟩ : PedestrianState ℝ).dpsi = 3 ∧
    forwardOf (Real.pi / 2) (world (Real.pi / 2) false (0, 3)) = 3 := by
  simp [forwardOf, world]

/-- **C47 is false for the kinematic vehicle.** -/
theorem C47_false_vehicle (wb lr : ℝ) : ¬ RoundTrip VehicleState.psi (fun s => (s.x, s.y, s.psi))
    (VehicleState.getVelocity wb lr) VehicleState.setVelocity := by
  intro h
  have := (h ⟨0, 0, 0, 0, 0⟩ (0, 0) 1 true true).2.1
  simp [VehicleState.getVelocity, VehicleState.setVelocity, inFrame] at this

/-- **C47, what holds for the kinematic vehicle.** Whichever frames are used, the pose and steering stay, the forward
speed is the one given, and the whole velocity is read back exactly when it satisfies the no-slip relation of the
bicycle, `w = v₁ tan δ / wheelbase` and `v₂ = w lr` with the components along and across the vehicle. -/
theorem C47_vehicle_partial (wb lr : ℝ) (s : VehicleState ℝ) (v : ℝ × ℝ) (w : ℝ) (b b' : Bool) :
    forwardOf s.psi (world s.psi b' ((s.setVelocity v w b).getVelocity wb lr b').1) = forwardOf s.psi (world s.psi b v) ∧
    (s.setVelocity v w b).x = s.x ∧ (s.setVelocity v w b).y = s.y ∧
    (s.setVelocity v w b).psi = s.psi ∧ (s.setVelocity v w b).delta = s.delta ∧
    ((s.setVelocity v w b).getVelocity wb lr b = (v, w) ↔
      w = forwardOf s.psi (world s.psi b v) * Real.tan s.delta / wb ∧ sidewaysOf s.psi (world s.psi b v) = w * lr) := by
  have h1 := inFrame_world s.psi b' ((s.setVelocity v w b).getVelocity wb lr b').1
  have h2 : inFrame s.psi b' ((s.setVelocity v w b).getVelocity wb lr b').1 =
      ((inFrame s.psi b v).1, (inFrame s.psi b v).1 * Real.tan s.delta / wb * lr) := inFrame_outFrame s.psi b' _
  have h3 := inFrame_world s.psi b v
  rw [h2, h3] at h1
  refine ⟨(congrArg Prod.fst h1).symm, rfl, rfl, rfl, rfl, ?_⟩
  show (outFrame s.psi b ((inFrame s.psi b v).1, (inFrame s.psi b v).1 * Real.tan s.delta / wb * lr),
    (inFrame s.psi b v).1 * Real.tan s.delta / wb) = (v, w) ↔ _
  rw [Prod.mk.injEq, outFrame_eq_iff, h3, Prod.mk.injEq]
  constructor
  · rintro ⟨⟨-, h4⟩, h5⟩
    exact ⟨h5.symm, by rw [← h4, h5]⟩
  · rintro ⟨h4, h5⟩
    exact ⟨⟨rfl, by rw [← h4, h5]⟩, h4.symm⟩

/-- A velocity satisfying the relation: straight ahead. -/
example (wb lr : ℝ) : (⟨1, 2, 3, 0, 0⟩ : VehicleState ℝ).setVelocity (7, 0) 0 true
    = ⟨1, 2, 3, 7, 0⟩ ∧ (0 : ℝ) = 7 * Real.tan 0 / wb ∧ (0 : ℝ) = 0 * lr := by
  simp [VehicleState.setVelocity, inFrame]

/-- **C47 is false for the differential drive**, which always reports standstill. -/
theorem C47_false_diffDrive : ¬ RoundTrip DiffDriveState.psi (fun s => (s.x, s.y, s.psi))
    DiffDriveState.getVelocity DiffDriveState.setVelocity := by
  intro h
  have := (h ⟨0, 0, 0⟩ (0, 0) 1 true true).2.1
  simp [DiffDriveState.getVelocity] at this

/-- **C47, what holds for the differential drive.** The pose stays; the velocity is read back exactly
for standstill. -/
theorem C47_diffDrive_partial (s : DiffDriveState ℝ) (v : ℝ × ℝ) (w : ℝ) (b b' : Bool) :
    s.setVelocity v w b = s ∧
    ((s.setVelocity v w b).getVelocity b' = (v, w) ↔ v = (0, 0) ∧ w = 0) := by
  refine ⟨rfl, ?_⟩
  simp only [DiffDriveState.getVelocity, Prod.mk.injEq]
  constructor
  · rintro ⟨h1, h2⟩
    exact ⟨h1.symm, h2.symm⟩
  · rintro ⟨h1, h2⟩
    exact ⟨h1.symm, h2.symm⟩

/-! ## C74 -/

/-- **C74.** The velocity a kinematic vehicle reports in the world frame is the rate of its pose. -/
theorem C74_vehicle (wb lr : ℝ) (p : VehicleParams ℝ) (s : VehicleState ℝ) (u : ℝ × ℝ) :
    let r := vehicleRate realTrig wb lr p s u
    s.getVelocity wb lr false = ((r.x, r.y), r.psi) := by
  simp only [vehicleRate, bicycleRate, realTrig, VehicleState.getVelocity, outFrame, rotBy]
  ext <;> simp only <;> simp <;> ring

/-- **C74.** Spacecraft. -/
theorem C74_spacecraft (p : ModelParams ℝ) (lo hi w m iz : ℝ) (s : SpacecraftState ℝ)
    (u : SpacecraftCommands ℝ) :
    let r := spacecraftRate p lo hi w m iz s u
    s.getVelocity false = ((r.x, r.y), r.psi) := by
  simp only [spacecraftRate, SpacecraftState.getVelocity, outFrame, rotBy]
  ext <;> simp only <;> simp <;> ring

/-- **C74.** Spaceship, whenever the rate is defined. -/
theorem C74_spaceship (p : ThrustParams) (s r : SpaceshipState ℝ) (u : SpaceshipCommands ℝ)
    (h : spaceshipRate p s u = .ok r) : s.getVelocity false = ((r.x, r.y), r.psi) := by
  unfold spaceshipRate at h
  simp only at h
  split at h
  · cases h
  · injection h with h
    subst h
    simp only [SpaceshipState.getVelocity, outFrame, rotBy]
    ext <;> simp only <;> simp <;> ring

/-- **C74.** Dynamic obstacles. -/
theorem C74_dynObstacle (p : ModelParams ℝ) (lo hi : ℝ) (s : DynObstacleState ℝ)
    (u : DynObstacleCommands ℝ) :
    let r := dynObstacleRate p lo hi s u
    s.getVelocity false = ((r.x, r.y), r.psi) := by
  simp only [dynObstacleRate, DynObstacleState.getVelocity, outFrame, rotBy]
  ext <;> simp only <;> simp <;> ring

/-- **C74.** Dynamic vehicle at speed, whenever the rate is defined. -/
theorem C74_vehicleDyn_partial (g : VehicleGeom) (p : VehicleParams ℝ) (front rear : Pacejka)
    (c : Bool) (held s r : VehicleStateDyn ℝ) (u : VehicleCommands ℝ) (hv : 1 / 10 ≤ s.vx)
    (h : vehicleDynRate g p front rear c held s u = .ok r) :
    s.getVelocity false = ((r.x, r.y), r.psi) := by
  unfold vehicleDynRate at h
  simp only [if_neg (not_lt.mpr hv)] at h
  cases hf : tyreForces g front rear (fullAccelerationLimits p.toModelParams s.vx u.acc) s with
  | error e => simp [hf, bind, Except.bind] at h
  | ok f =>
    simp only [hf, bind, Except.bind, pure, Except.pure] at h
    injection h with h
    subst h
    simp only [VehicleStateDyn.getVelocity, outFrame, rotBy]
    ext <;> simp only <;> simp <;> ring

/-- **C74 is false for the dynamic vehicle below 0.1 m/s**: the kinematic formulas then move the pose,
while the stored lateral speed and rotation are reported. -/
theorem C74_false_vehicleDyn (g : VehicleGeom) (p : VehicleParams ℝ) (front rear : Pacejka)
    (u : VehicleCommands ℝ) : ∃ s r : VehicleStateDyn ℝ,
      vehicleDynRate g p front rear false s s u = .ok r ∧ (s.getVelocity false).2 ≠ r.psi := by
  refine ⟨{ x := 0, y := 0, psi := 0, vx := 0, vy := 0, dpsi := 1, delta := 0 }, ?_⟩
  unfold vehicleDynRate
  simp only [if_pos (show (0 : ℝ) < 1 / 10 by norm_num)]
  refine ⟨_, rfl, ?_⟩
  simp [VehicleStateDyn.getVelocity, vehicleRate, bicycleRate]

/-- **C74, pedestrians.** The linear velocity is the rate of the position; the rotation is the rate of
the heading only when it equals the (limited) command. -/
theorem C74_pedestrian_partial (p : ModelParams ℝ) (m : ℝ) (c : Bool) (held s : PedestrianState ℝ)
    (u : PedestrianCommands ℝ) :
    let r := pedestrianRate p m c held s u
    (s.getVelocity false).1 = (r.x, r.y) ∧
      ((s.getVelocity false).2 = r.psi ↔ s.dpsi = rotationConstraint m u.dpsi) := by
  refine ⟨?_, Iff.rfl⟩
  simp only [pedestrianRate, PedestrianState.getVelocity, outFrame, rotBy]
  ext <;> simp only <;> simp <;> ring

/-- **C74 is false for pedestrians**: one that turns on command reports no rotation. -/
theorem C74_false_pedestrian (p : ModelParams ℝ) : ∃ (s : PedestrianState ℝ)
    (u : PedestrianCommands ℝ), (s.getVelocity false).2 ≠ (pedestrianRate p 2 false s s u).psi := by
  refine ⟨⟨0, 0, 0, 0, 0, 0⟩, ⟨0, 1⟩, ?_⟩
  simp only [PedestrianState.getVelocity, pedestrianRate, rotationConstraint]
  norm_num

/-- **C74, rocket.** The rotation is the rate of the heading. The linear velocity is reported as if it
were stored in the model frame but moves the rocket in the world frame: they agree exactly when the
rotation by the heading leaves the stored velocity as it is. -/
theorem C74_rocket_partial (p : ThrustParams) (s r : RocketState ℝ) (u : RocketCommands ℝ)
    (h : rocketRate p s u = .ok r) :
    (s.getVelocity false).2 = r.psi ∧
      ((s.getVelocity false).1 = (r.x, r.y) ↔
        (s.vx, s.vy) = (0, 0) ∨ Real.cos s.psi = 1) ∧
      (s.getVelocity true).1 = (r.x, r.y) := by
  unfold rocketRate at h
  simp only at h
  split at h
  · cases h
  · injection h with h
    subst h
    refine ⟨rfl, ?_, rfl⟩
    simp only [RocketState.getVelocity, outFrame, rotBy]
    have hs := Real.sin_sq_add_cos_sq s.psi
    constructor
    · intro h
      by_cases hc : Real.cos s.psi = 1
      · exact Or.inr hc
      · left
        have e1 : Real.cos s.psi * s.vx - Real.sin s.psi * s.vy = s.vx := congrArg Prod.fst h
        have e2 : Real.sin s.psi * s.vx + Real.cos s.psi * s.vy = s.vy := congrArg Prod.snd h
        have hc' : (2 - 2 * Real.cos s.psi) ≠ 0 := by
          intro h0; apply hc; linarith
        have f1 : (2 - 2 * Real.cos s.psi) * s.vx = 0 := by
          linear_combination (-1 + Real.cos s.psi) * e1 + Real.sin s.psi * e2 - s.vx * hs
        have f2 : (2 - 2 * Real.cos s.psi) * s.vy = 0 := by
          linear_combination (-1 + Real.cos s.psi) * e2 - Real.sin s.psi * e1 - s.vy * hs
        have g1 := (mul_eq_zero.mp f1).resolve_left hc'
        have g2 := (mul_eq_zero.mp f2).resolve_left hc'
        rw [g1, g2]
    · rintro (h | h)
      · have h1 : s.vx = 0 := congrArg Prod.fst h
        have h2 : s.vy = 0 := congrArg Prod.snd h
        simp [h1, h2]
      · have hsin : Real.sin s.psi = 0 := by
          rw [h] at hs
          have : Real.sin s.psi ^ 2 = 0 := by linarith
          exact pow_eq_zero_iff (two_ne_zero) |>.mp this
        simp [h, hsin]

/-- **C74 is false for the rocket**: flying up with the nose up it reports a sideways velocity. -/
theorem C74_false_rocket : ∃ (p : ThrustParams) (s r : RocketState ℝ) (u : RocketCommands ℝ),
    rocketRate p s u = .ok r ∧ (s.getVelocity false).1 ≠ (r.x, r.y) := by
  have h : ∃ r, rocketRate ⟨2, 1 / 100, 0, 2, -1, 1, -1, 1, 1, 1⟩
      (⟨0, 0, Real.pi / 2, 0, 1, 0, 0, 3⟩ : RocketState ℝ) ⟨0, 0, 0⟩ = .ok r ∧ r.x = 0 := by
    unfold rocketRate
    simp only
    rw [if_neg (by norm_num)]
    exact ⟨_, rfl, rfl⟩
  obtain ⟨r, hr, hx⟩ := h
  refine ⟨_, _, r, _, hr, fun h => ?_⟩
  have := congrArg Prod.fst h
  simp [RocketState.getVelocity, outFrame, rotBy, hx] at this

/-- **C74 is false for the differential drive**: it reports standstill while moving. -/
theorem C74_false_diffDrive : ∃ (s : DiffDriveState ℝ) (u : DiffDriveCommands ℝ),
    (s.getVelocity false).1 ≠ ((diffDriveRate 1 1 (-5) 5 s u).x, (diffDriveRate 1 1 (-5) 5 s u).y) := by
  refine ⟨⟨0, 0, 0⟩, ⟨1, 1⟩, ?_⟩
  intro h
  have := congrArg Prod.fst h
  simp only [DiffDriveState.getVelocity, diffDriveRate, DiffDriveState.mul, clip] at this
  norm_num at this

/-- A rate is defined: the spaceship at full fuel. -/
example : ∃ r, spaceshipRate ⟨2, 1 / 100, -2, 2, -1, 1, -1, 1, 1, 1⟩
    (⟨0, 0, 0, 1, 0, 0, 0, 3⟩ : SpaceshipState ℝ) ⟨5, 0⟩ = .ok r ∧ r.x = 1 ∧ r.m = -1 / 50 := by
  unfold spaceshipRate
  simp only
  rw [if_neg (by norm_num)]
  refine ⟨_, rfl, by simp, ?_⟩
  simp only [ThrustParams.thrust, forceLimits]
  norm_num

end Phys
end Verif
