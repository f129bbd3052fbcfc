import Verif.Phys.SolverFrameProps

/-!
# C158: what `update` computes does not depend on the units of length, mass and time
-/

namespace Verif
namespace Phys
namespace Units

section General
variable {K : Type} [Field K] [LinearOrder K] [IsStrictOrderedRing K]
variable {V W : Type} [AddCommGroup V] [Module K V] [AddCommGroup W] [Module K W]

theorem slopesE_time (f : V → Except Err V) (c : K) (y : V) (h : K) (rows : List (List K)) (ks : List V) :
    slopesE (fun z => (f z).map (c • ·)) y h rows (ks.map (c • ·)) = (slopesE f y (c * h) rows ks).map (List.map (c • ·)) := by
  induction rows generalizing ks with
  | nil => rfl
  | cons a rows ih =>
    have e : h • weighted a (ks.map (c • ·)) = (c * h) • weighted a ks := by
      have := weighted_map (c • LinearMap.id : V →ₗ[K] V) a ks
      have e2 : ((c • LinearMap.id : V →ₗ[K] V) : V → V) = (c • ·) := rfl
      rw [e2] at this
      rw [← this, smul_smul, mul_comm]
    simp only [slopesE]
    rw [e]
    cases hk : f (y + (c * h) • weighted a ks) with
    | error e => rfl
    | ok k =>
      have := ih (ks ++ [k])
      rw [List.map_append] at this
      exact this

theorem rkStepE_time (f : V → Except Err V) (c : K) (m : Tableau K) (h : K) (y : V) :
    rkStepE (fun z => (f z).map (c • ·)) m h y = rkStepE f m (c * h) y := by
  unfold rkStepE
  cases hk : f y with
  | error e =>
    simp only [hk]
    rfl
  | ok k =>
    simp only [hk]
    have := slopesE_time f c y h m.rows [k]
    rw [List.map_singleton] at this
    change (slopesE _ y h m.rows [c • k] >>= fun ks => pure (y + h • weighted m.weights ks)) =
      (slopesE f y (c * h) m.rows [k] >>= fun ks => pure (y + (c * h) • weighted m.weights ks))
    rw [this]
    cases slopesE f y (c * h) m.rows [k] with
    | error e => rfl
    | ok ks =>
      change Except.ok (y + h • weighted m.weights (ks.map (c • ·))) = Except.ok (y + (c * h) • weighted m.weights ks)
      have := weighted_map (c • LinearMap.id : V →ₗ[K] V) m.weights ks
      have e2 : ((c • LinearMap.id : V →ₗ[K] V) : V → V) = (c • ·) := rfl
      rw [e2] at this
      rw [← this, smul_smul, mul_comm]

theorem rkRunE_time (f : V → Except Err V) (c : K) (m : Tableau K) (hs : List K) (y : V) :
    rkRunE (fun z => (f z).map (c • ·)) m hs y = rkRunE f m (hs.map (c * ·)) y := by
  induction hs generalizing y with
  | nil => rfl
  | cons h hs ih =>
    unfold rkRunE at ih ⊢
    rw [List.map_cons, List.foldlM_cons, List.foldlM_cons, rkStepE_time]
    cases rkStepE f m (c * h) y with
    | error e => rfl
    | ok z => exact ih z

/-- Rates that belong to other units, and steps in the other unit of time. -/
theorem rkRunE_scaled {A : V →ₗ[K] W} {c : K} (hc : c ≠ 0) {f : V → Except Err V} {f' : W → Except Err W}
    (hf : ∀ z, f' (A z) = (f z).map (fun d => c⁻¹ • A d)) (m : Tableau K) (hs : List K) (y : V) :
    rkRunE f' m (hs.map (c * ·)) (A y) = (rkRunE f m hs y).map A := by
  have hsame : Same A 0 f (fun z => (f' z).map (c • ·)) := by
    intro z
    simp only [add_zero, hf]
    cases f z with
    | error e => rfl
    | ok d =>
      change Except.ok (c • c⁻¹ • A d) = Except.ok (A d)
      rw [smul_smul, mul_inv_cancel₀ hc, one_smul]
  have h := rkRunE_affine hsame m hs y
  simp only [add_zero] at h
  rw [← rkRunE_time, h]

end General

noncomputable section

variable {S U : Type}

theorem solve_scaled [AddCommGroup S] [Module ℝ S] (m m' : UpdateOf S U) (act act' : U → U) (hm : Faithful m act)
    (hm' : Faithful m' act') (hl : LinearArray m.toS) (hl' : LinearArray m'.toS) (A : S →ₗ[ℝ] S) (c : ℝ) (hc : c ≠ 0)
    (u u' : U) (h : ∀ z, m'.rate (A z) (act' u') = (m.rate z (act u)).map (fun d => c⁻¹ • A d)) (tab : Tableau ℝ)
    (hs : List ℝ) (x : S) :
    m'.solve tab u' (hs.map (c * ·)) (A x) = (m.solve tab u hs x).map A := by
  rw [C149_refines m act hm hl, C149_refines m' act' hm' hl']
  exact rkRunE_scaled (f := fun z => m.rate z (act u)) (f' := fun z => m'.rate z (act' u')) hc h tab hs x

theorem calls_map_mem (step step' : Call U → S → Except Err S) (g : Call U → Call U) (mv : S → S) (cs : List (Call U))
    (h : ∀ c ∈ cs, ∀ x, step' (g c) (mv x) = (step c x).map mv) (x : S) :
    calls step' (cs.map g) (mv x) = (calls step cs x).map mv := by
  induction cs generalizing x with
  | nil => rfl
  | cons c cs ih =>
    unfold calls at ih ⊢
    rw [List.map_cons, List.foldlM_cons, List.foldlM_cons, h c (by simp)]
    cases step c x with
    | error e => rfl
    | ok z => exact ih (fun c' hc' => h c' (by simp [hc'])) z

/-! ## Units -/

/-- Specification: the units of length, mass and time are `len`, `mass` and `time` times smaller. -/
structure System where
  len : ℝ
  mass : ℝ
  time : ℝ
  len_pos : 0 < len
  mass_pos : 0 < mass
  time_pos : 0 < time

namespace System

/-- Specification: speeds. -/
def vel (Q : System) : ℝ := Q.len / Q.time
/-- Specification: accelerations. -/
def acc (Q : System) : ℝ := Q.len / Q.time ^ 2
/-- Specification: rates of angles. -/
def rate (Q : System) : ℝ := 1 / Q.time
/-- Specification: rates of rates of angles. -/
def rate2 (Q : System) : ℝ := 1 / Q.time ^ 2
/-- Specification: forces. -/
def force (Q : System) : ℝ := Q.mass * Q.len / Q.time ^ 2
/-- Specification: moments of inertia. -/
def inertia (Q : System) : ℝ := Q.mass * Q.len ^ 2

theorem vel_pos (Q : System) : 0 < Q.vel := div_pos Q.len_pos Q.time_pos
theorem acc_pos (Q : System) : 0 < Q.acc := div_pos Q.len_pos (pow_pos Q.time_pos 2)
theorem rate_pos (Q : System) : 0 < Q.rate := div_pos one_pos Q.time_pos
theorem rate2_pos (Q : System) : 0 < Q.rate2 := div_pos one_pos (pow_pos Q.time_pos 2)
theorem force_pos (Q : System) : 0 < Q.force := div_pos (mul_pos Q.mass_pos Q.len_pos) (pow_pos Q.time_pos 2)
theorem inertia_pos (Q : System) : 0 < Q.inertia := mul_pos Q.mass_pos (pow_pos Q.len_pos 2)

/-- Specification: a call of `update`; the steps of the solver are times. -/
def call {U : Type} (Q : System) (g : U → U) (c : Call U) : Call U :=
  { c with cmd := g c.cmd, steps := c.steps.map (Q.time * ·) }

/-- Specification: limits of speed and acceleration. -/
def params (Q : System) (p : ModelParams ℝ) : ModelParams ℝ :=
  ⟨Q.vel * p.vxMin, Q.vel * p.vxMax, Q.acc * p.accMin, Q.acc * p.accMax⟩

/-- Specification: limits of a vehicle; the steering angle has no unit. -/
def vparams (Q : System) (p : VehicleParams ℝ) : VehicleParams ℝ :=
  { Q.params p.toModelParams with deltaMax := p.deltaMax, ddeltaMax := Q.rate * p.ddeltaMax }

/-- Specification: parameters of spaceships and rockets; `cT` is a mass per force and time. -/
def tparams (Q : System) (p : ThrustParams) : ThrustParams :=
  { mv := Q.mass * p.mv, cT := Q.time / Q.len * p.cT, fMin := Q.force * p.fMin, fMax := Q.force * p.fMax,
    angMin := p.angMin, angMax := p.angMax, dangMin := Q.rate * p.dangMin, dangMax := Q.rate * p.dangMax,
    iz := Q.inertia * p.iz, arm := Q.len * p.arm }

end System

/-! ## Limits -/

theorem mul_lt_zero' {a b : ℝ} (ha : 0 < a) : a * b < 0 ↔ b < 0 := by
  constructor
  · intro h; by_contra h'; exact absurd (mul_nonneg ha.le (not_lt.mp h')) (not_le.mpr h)
  · exact mul_neg_of_pos_of_neg ha

theorem speedConstraint_scaled {a b : ℝ} (ha : 0 < a) (hb : 0 < b) (lo hi s c : ℝ) :
    speedConstraint (a * lo) (a * hi) (a * s) (b * c) = b * speedConstraint lo hi s c := by
  unfold speedConstraint
  simp only [mul_le_mul_iff_right₀ ha, mul_le_mul_iff_right₀ ha, mul_lt_zero' hb, mul_pos_iff_of_pos_left hb]
  split <;> simp

theorem accelerationLimits_scaled {a : ℝ} (ha : 0 < a) (lo hi c : ℝ) :
    accelerationLimits (a * lo) (a * hi) (a * c) = a * accelerationLimits lo hi c := by
  unfold accelerationLimits
  simp only [mul_lt_mul_iff_right₀ ha, mul_lt_mul_iff_right₀ ha]
  split
  · rfl
  · split <;> rfl

theorem fullAccelerationLimits_scaled (Q : System) (p : ModelParams ℝ) (s c : ℝ) :
    fullAccelerationLimits (Q.params p) (Q.vel * s) (Q.acc * c) = Q.acc * fullAccelerationLimits p s c := by
  show speedConstraint (Q.vel * p.vxMin) (Q.vel * p.vxMax) (Q.vel * s)
    (accelerationLimits (Q.acc * p.accMin) (Q.acc * p.accMax) (Q.acc * c)) = _
  rw [accelerationLimits_scaled Q.acc_pos, speedConstraint_scaled Q.vel_pos Q.acc_pos]
  rfl

theorem forceLimits_scaled {a : ℝ} (ha : 0 < a) (lo hi c : ℝ) :
    forceLimits (a * lo) (a * hi) (a * c) = a * forceLimits lo hi c := by
  unfold forceLimits
  simp only [mul_lt_mul_iff_right₀ ha, mul_lt_mul_iff_right₀ ha]
  split
  · rfl
  · rw [mul_max_of_nonneg _ _ ha.le, mul_min_of_nonneg _ _ ha.le]

theorem angVelLimits_scaled {a : ℝ} (ha : 0 < a) (lo hi c : ℝ) :
    angVelLimits (a * lo) (a * hi) (a * c) = a * angVelLimits lo hi c := by
  unfold angVelLimits
  simp only [mul_le_mul_iff_right₀ ha, mul_le_mul_iff_right₀ ha]
  split
  · rfl
  · split <;> rfl

theorem fullAngVelLimits_scaled {a : ℝ} (ha : 0 < a) (lo hi dlo dhi ang d : ℝ) :
    fullAngVelLimits lo hi (a * dlo) (a * dhi) ang (a * d) = a * fullAngVelLimits lo hi dlo dhi ang d := by
  unfold fullAngVelLimits
  rw [angVelLimits_scaled ha]
  have := speedConstraint_scaled one_pos ha lo hi ang (angVelLimits dlo dhi d)
  simpa only [one_mul] using this

theorem steeringConstraint_scaled {a : ℝ} (ha : 0 < a) (m dm ang r : ℝ) :
    steeringConstraint m (a * dm) ang (a * r) = a * steeringConstraint m dm ang r := by
  unfold steeringConstraint
  simp only [mul_lt_zero' ha, mul_pos_iff_of_pos_left ha, ← mul_neg, mul_lt_mul_iff_right₀ ha, mul_lt_mul_iff_right₀ ha]
  split
  · simp
  · split
    · rfl
    · split <;> rfl

theorem rotationConstraint_scaled {a : ℝ} (ha : 0 < a) (m r : ℝ) :
    rotationConstraint (a * m) (a * r) = a * rotationConstraint m r := by
  unfold rotationConstraint
  simp only [← mul_neg, mul_le_mul_iff_right₀ ha, mul_le_mul_iff_right₀ ha]
  split
  · rfl
  · split <;> rfl

theorem clip_scaled {a : ℝ} (ha : 0 < a) (x lo hi : ℝ) : clip (a * x) (a * lo) (a * hi) = a * clip x lo hi := by
  unfold clip
  rw [mul_min_of_nonneg _ _ ha.le, mul_max_of_nonneg _ _ ha.le]

theorem thrust_scaled (Q : System) (p : ThrustParams) (m f : ℝ) :
    (Q.tparams p).thrust (Q.mass * m) (Q.force * f) = Q.force * p.thrust m f := by
  unfold ThrustParams.thrust
  show (if Q.mass * m ≤ Q.mass * p.mv then 0 else forceLimits (Q.force * p.fMin) (Q.force * p.fMax) (Q.force * f)) = _
  simp only [mul_le_mul_iff_right₀ Q.mass_pos, forceLimits_scaled Q.force_pos]
  split <;> simp

/-! ## States and commands in other units -/

/-- Specification: the state of a kinematic vehicle in other units. -/
def System.stV (Q : System) : VehicleState ℝ →ₗ[ℝ] VehicleState ℝ where
  toFun s := { s with x := Q.len * s.x, y := Q.len * s.y, vx := Q.vel * s.vx }
  map_add' a b := by
    simp only [VehicleState.add_def, VehicleState.add, VehicleState.mk.injEq]
    refine ⟨?_, ?_, ?_, ?_, ?_⟩ <;> first | trivial | ring
  map_smul' k a := by
    simp only [VehicleState.smul_def, VehicleState.mul, VehicleState.mk.injEq, RingHom.id_apply]
    refine ⟨?_, ?_, ?_, ?_, ?_⟩ <;> first | trivial | ring

/-- Specification: the state of a pedestrian in other units. -/
def System.stP (Q : System) : PedestrianState ℝ →ₗ[ℝ] PedestrianState ℝ where
  toFun s := { s with x := Q.len * s.x, y := Q.len * s.y, vx := Q.vel * s.vx, vy := Q.vel * s.vy, dpsi := Q.rate * s.dpsi }
  map_add' a b := by
    simp only [PedestrianState.add_def, PedestrianState.add, PedestrianState.mk.injEq]
    refine ⟨?_, ?_, ?_, ?_, ?_, ?_⟩ <;> first | trivial | ring
  map_smul' k a := by
    simp only [PedestrianState.smul_def, PedestrianState.mul, PedestrianState.mk.injEq, RingHom.id_apply]
    refine ⟨?_, ?_, ?_, ?_, ?_, ?_⟩ <;> first | trivial | ring

/-- Specification: the state of a differential drive in other units. -/
def System.stR (Q : System) : DiffDriveState ℝ →ₗ[ℝ] DiffDriveState ℝ where
  toFun s := { s with x := Q.len * s.x, y := Q.len * s.y }
  map_add' a b := by
    simp only [DiffDriveState.add_def, DiffDriveState.add, DiffDriveState.mk.injEq]
    refine ⟨?_, ?_, ?_⟩ <;> first | trivial | ring
  map_smul' k a := by
    simp only [DiffDriveState.smul_def, DiffDriveState.mul, DiffDriveState.mk.injEq, RingHom.id_apply]
    refine ⟨?_, ?_, ?_⟩ <;> first | trivial | ring

/-- Specification: the state of a spacecraft in other units. -/
def System.stC (Q : System) : SpacecraftState ℝ →ₗ[ℝ] SpacecraftState ℝ where
  toFun s := { s with x := Q.len * s.x, y := Q.len * s.y, vx := Q.vel * s.vx, vy := Q.vel * s.vy, dpsi := Q.rate * s.dpsi }
  map_add' a b := by
    simp only [SpacecraftState.add_def, SpacecraftState.add, SpacecraftState.mk.injEq]
    refine ⟨?_, ?_, ?_, ?_, ?_, ?_⟩ <;> first | trivial | ring
  map_smul' k a := by
    simp only [SpacecraftState.smul_def, SpacecraftState.mul, SpacecraftState.mk.injEq, RingHom.id_apply]
    refine ⟨?_, ?_, ?_, ?_, ?_, ?_⟩ <;> first | trivial | ring

/-- Specification: the state of a spaceship in other units. -/
def System.stS (Q : System) : SpaceshipState ℝ →ₗ[ℝ] SpaceshipState ℝ where
  toFun s := { s with x := Q.len * s.x, y := Q.len * s.y, vx := Q.vel * s.vx, vy := Q.vel * s.vy, dpsi := Q.rate * s.dpsi, m := Q.mass * s.m }
  map_add' a b := by
    simp only [SpaceshipState.add_def, SpaceshipState.add, SpaceshipState.mk.injEq]
    refine ⟨?_, ?_, ?_, ?_, ?_, ?_, ?_, ?_⟩ <;> first | trivial | ring
  map_smul' k a := by
    simp only [SpaceshipState.smul_def, SpaceshipState.mul, SpaceshipState.mk.injEq, RingHom.id_apply]
    refine ⟨?_, ?_, ?_, ?_, ?_, ?_, ?_, ?_⟩ <;> first | trivial | ring

/-- Specification: the state of a rocket in other units. -/
def System.stT (Q : System) : RocketState ℝ →ₗ[ℝ] RocketState ℝ where
  toFun s := { s with x := Q.len * s.x, y := Q.len * s.y, m := Q.mass * s.m, vx := Q.vel * s.vx, vy := Q.vel * s.vy, dpsi := Q.rate * s.dpsi }
  map_add' a b := by
    simp only [RocketState.add_def, RocketState.add, RocketState.mk.injEq]
    refine ⟨?_, ?_, ?_, ?_, ?_, ?_, ?_, ?_⟩ <;> first | trivial | ring
  map_smul' k a := by
    simp only [RocketState.smul_def, RocketState.mul, RocketState.mk.injEq, RingHom.id_apply]
    refine ⟨?_, ?_, ?_, ?_, ?_, ?_, ?_, ?_⟩ <;> first | trivial | ring

/-- Specification: the state of a moving obstacle in other units. -/
def System.stO (Q : System) : DynObstacleState ℝ →ₗ[ℝ] DynObstacleState ℝ where
  toFun s := { s with x := Q.len * s.x, y := Q.len * s.y, vx := Q.vel * s.vx, vy := Q.vel * s.vy, dpsi := Q.rate * s.dpsi }
  map_add' a b := by
    simp only [DynObstacleState.add_def, DynObstacleState.add, DynObstacleState.mk.injEq]
    refine ⟨?_, ?_, ?_, ?_, ?_, ?_⟩ <;> first | trivial | ring
  map_smul' k a := by
    simp only [DynObstacleState.smul_def, DynObstacleState.mul, DynObstacleState.mk.injEq, RingHom.id_apply]
    refine ⟨?_, ?_, ?_, ?_, ?_, ?_⟩ <;> first | trivial | ring

/-- Specification: the commands of a vehicle in other units. -/
def System.cmdV (Q : System) (u : VehicleCommands ℝ) : VehicleCommands ℝ := { u with acc := Q.acc * u.acc, ddelta := Q.rate * u.ddelta }

/-- Specification: the commands of a pedestrian in other units. -/
def System.cmdP (Q : System) (u : PedestrianCommands ℝ) : PedestrianCommands ℝ := { u with acc := Q.acc * u.acc, dpsi := Q.rate * u.dpsi }

/-- Specification: the commands of a differential drive in other units. -/
def System.cmdR (Q : System) (u : DiffDriveCommands ℝ) : DiffDriveCommands ℝ := { u with omega_l := Q.rate * u.omega_l, omega_r := Q.rate * u.omega_r }

/-- Specification: the commands of a spacecraft in other units. -/
def System.cmdC (Q : System) (u : SpacecraftCommands ℝ) : SpacecraftCommands ℝ := { u with acc_left := Q.acc * u.acc_left, acc_right := Q.acc * u.acc_right }

/-- Specification: the commands of a spaceship in other units. -/
def System.cmdS (Q : System) (u : SpaceshipCommands ℝ) : SpaceshipCommands ℝ := { u with thrust := Q.force * u.thrust, ddelta := Q.rate * u.ddelta }

/-- Specification: the commands of a rocket in other units. -/
def System.cmdT (Q : System) (u : RocketCommands ℝ) : RocketCommands ℝ := { u with F_left := Q.force * u.F_left, F_right := Q.force * u.F_right, dphi := Q.rate * u.dphi }

/-- Specification: the commands of a moving obstacle in other units. -/
def System.cmdO (Q : System) (u : DynObstacleCommands ℝ) : DynObstacleCommands ℝ := { u with acc_x := Q.acc * u.acc_x, acc_y := Q.acc * u.acc_y, acc_psi := Q.rate2 * u.acc_psi }

/-! ## Rates -/

theorem vehicleRate_scaled (Q : System) (wb lr : ℝ) (p : VehicleParams ℝ) (x : VehicleState ℝ) (a d : ℝ) :
    vehicleRate realTrig (Q.len * wb) (Q.len * lr) (Q.vparams p) (Q.stV x) (Q.acc * a, Q.rate * d) =
      Q.time⁻¹ • Q.stV (vehicleRate realTrig wb lr p x (a, d)) := by
  have hl := Q.len_pos.ne'
  have ht := Q.time_pos.ne'
  have h1 := fullAccelerationLimits_scaled Q p.toModelParams x.vx a
  have h2 := steeringConstraint_scaled Q.rate_pos p.deltaMax p.ddeltaMax x.delta d
  have e1 : vehicleRate realTrig (Q.len * wb) (Q.len * lr) (Q.vparams p) (Q.stV x) (Q.acc * a, Q.rate * d) =
      bicycleRate realTrig (Q.len * wb) (Q.len * lr) (Q.stV x)
        (fullAccelerationLimits (Q.params p.toModelParams) (Q.vel * x.vx) (Q.acc * a))
        (steeringConstraint p.deltaMax (Q.rate * p.ddeltaMax) x.delta (Q.rate * d)) := rfl
  rw [e1, h1, h2]
  show (⟨_, _, _, _, _⟩ : VehicleState ℝ) = VehicleState.mul _ _
  simp only [VehicleState.mul, System.stV, LinearMap.coe_mk, AddHom.coe_mk, vehicleRate, bicycleRate,
    VehicleState.mk.injEq, System.vel, System.acc, System.rate, div_eq_mul_inv, mul_inv]
  generalize wb⁻¹ = w
  refine ⟨?_, ?_, ?_, ?_, ?_⟩ <;> field_simp

theorem pedestrianRate_scaled (Q : System) (p : ModelParams ℝ) (dm : ℝ) (held held' x : PedestrianState ℝ)
    (u : PedestrianCommands ℝ) :
    pedestrianRate (Q.params p) (Q.rate * dm) false held' (Q.stP x) (Q.cmdP u) =
      Q.time⁻¹ • Q.stP (pedestrianRate p dm false held x u) := by
  have hl := Q.len_pos.ne'
  have ht := Q.time_pos.ne'
  have h1 := fullAccelerationLimits_scaled Q p x.vx u.acc
  have h2 := rotationConstraint_scaled Q.rate_pos dm u.dpsi
  show _ = PedestrianState.mul _ _
  simp only [PedestrianState.mul, System.stP, System.cmdP, LinearMap.coe_mk, AddHom.coe_mk, pedestrianRate,
    PedestrianState.mk.injEq, collisionFriction, h1, h2]
  simp only [System.vel, System.acc, System.rate]
  refine ⟨?_, ?_, ?_, ?_, ?_, ?_⟩ <;> first | (simp; done) | (field_simp; done) | (simp; field_simp)

theorem diffDriveRate_scaled (Q : System) (wb R lo hi : ℝ) (x : DiffDriveState ℝ) (u : DiffDriveCommands ℝ) :
    diffDriveRate (Q.len * wb) (Q.len * R) (Q.rate * lo) (Q.rate * hi) (Q.stR x) (Q.cmdR u) =
      Q.time⁻¹ • Q.stR (diffDriveRate wb R lo hi x u) := by
  have hl := Q.len_pos.ne'
  have ht := Q.time_pos.ne'
  have h1 := clip_scaled Q.rate_pos u.omega_l lo hi
  have h2 := clip_scaled Q.rate_pos u.omega_r lo hi
  show _ = DiffDriveState.mul _ _
  simp only [DiffDriveState.mul, System.stR, System.cmdR, LinearMap.coe_mk, AddHom.coe_mk, diffDriveRate,
    DiffDriveState.mk.injEq, h1, h2]
  simp only [System.rate, div_eq_mul_inv, mul_inv]
  generalize wb⁻¹ = w
  refine ⟨?_, ?_, ?_⟩ <;> field_simp

theorem spacecraftRate_scaled (Q : System) (p : ModelParams ℝ) (lo hi w m iz : ℝ) (x : SpacecraftState ℝ)
    (u : SpacecraftCommands ℝ) :
    spacecraftRate (Q.params p) (Q.rate * lo) (Q.rate * hi) (Q.len * w) (Q.mass * m) (Q.inertia * iz) (Q.stC x)
        (Q.cmdC u) = Q.time⁻¹ • Q.stC (spacecraftRate p lo hi w m iz x u) := by
  have hl := Q.len_pos.ne'
  have ht := Q.time_pos.ne'
  have hm := Q.mass_pos.ne'
  have h1 := accelerationLimits_scaled Q.acc_pos p.accMin p.accMax u.acc_left
  have h2 := accelerationLimits_scaled Q.acc_pos p.accMin p.accMax u.acc_right
  have h3 := speedConstraint_scaled Q.rate_pos Q.rate2_pos lo hi x.dpsi
    (w * m / iz * (accelerationLimits p.accMin p.accMax u.acc_right - accelerationLimits p.accMin p.accMax u.acc_left))
  have e : Q.len * w * (Q.mass * m) / (Q.inertia * iz) *
      (Q.acc * accelerationLimits p.accMin p.accMax u.acc_right -
        Q.acc * accelerationLimits p.accMin p.accMax u.acc_left) =
      Q.rate2 * (w * m / iz * (accelerationLimits p.accMin p.accMax u.acc_right -
        accelerationLimits p.accMin p.accMax u.acc_left)) := by
    simp only [System.inertia, System.acc, System.rate2, div_eq_mul_inv, mul_inv]
    generalize iz⁻¹ = j
    field_simp
  show _ = SpacecraftState.mul _ _
  simp only [SpacecraftState.mul, System.stC, System.cmdC, System.params, LinearMap.coe_mk, AddHom.coe_mk, spacecraftRate,
    SpacecraftState.mk.injEq, h1, h2, e, h3]
  simp only [System.vel, System.acc, System.rate, System.rate2]
  refine ⟨?_, ?_, ?_, ?_, ?_, ?_⟩ <;> field_simp

theorem spaceshipRate_scaled (Q : System) (p : ThrustParams) (x : SpaceshipState ℝ) (u : SpaceshipCommands ℝ) :
    spaceshipRate (Q.tparams p) (Q.stS x) (Q.cmdS u) = (spaceshipRate p x u).map (fun d => Q.time⁻¹ • Q.stS d) := by
  have hl := Q.len_pos.ne'
  have ht := Q.time_pos.ne'
  have hm := Q.mass_pos.ne'
  have h1 := thrust_scaled Q p x.m u.thrust
  have h2 := fullAngVelLimits_scaled Q.rate_pos p.angMin p.angMax p.dangMin p.dangMax x.delta u.ddelta
  have hz : (Q.mass * x.m = 0 ∨ Q.inertia * p.iz = 0) ↔ (x.m = 0 ∨ p.iz = 0) := by
    rw [mul_eq_zero_iff_left Q.mass_pos.ne', mul_eq_zero_iff_left Q.inertia_pos.ne']
  unfold spaceshipRate
  by_cases h0 : x.m = 0 ∨ p.iz = 0
  · have h0' := hz.mpr h0
    rw [if_pos h0, if_pos (show (Q.stS x).m = 0 ∨ (Q.tparams p).iz = 0 from h0')]
    rfl
  · have h0' := hz.not.mpr h0
    rw [if_neg h0, if_neg (show ¬((Q.stS x).m = 0 ∨ (Q.tparams p).iz = 0) from h0')]
    obtain ⟨hx, hi⟩ := not_or.mp h0
    refine congrArg Except.ok ?_
    show _ = SpaceshipState.mul _ _
    have h1' : (Q.tparams p).thrust (Q.stS x).m (Q.cmdS u).thrust = Q.force * p.thrust x.m u.thrust := h1
    simp only [h1']
    simp only [SpaceshipState.mul, System.stS, System.cmdS, System.tparams, LinearMap.coe_mk, AddHom.coe_mk,
      SpaceshipState.mk.injEq, h2]
    generalize p.thrust x.m u.thrust = f
    simp only [System.vel, System.rate, System.force, System.inertia]
    refine ⟨?_, ?_, ?_, ?_, ?_, ?_, ?_, ?_⟩ <;> field_simp

theorem rocketRate_scaled (Q : System) (p : ThrustParams) (x : RocketState ℝ) (u : RocketCommands ℝ) :
    rocketRate (Q.tparams p) (Q.stT x) (Q.cmdT u) = (rocketRate p x u).map (fun d => Q.time⁻¹ • Q.stT d) := by
  have hl := Q.len_pos.ne'
  have ht := Q.time_pos.ne'
  have hm := Q.mass_pos.ne'
  have h1 := thrust_scaled Q p x.m u.F_left
  have h3 := thrust_scaled Q p x.m u.F_right
  have h2 := fullAngVelLimits_scaled Q.rate_pos p.angMin p.angMax p.dangMin p.dangMax x.phi u.dphi
  have hz : (Q.mass * x.m = 0 ∨ Q.inertia * p.iz = 0) ↔ (x.m = 0 ∨ p.iz = 0) := by
    rw [mul_eq_zero_iff_left Q.mass_pos.ne', mul_eq_zero_iff_left Q.inertia_pos.ne']
  unfold rocketRate
  by_cases h0 : x.m = 0 ∨ p.iz = 0
  · have h0' := hz.mpr h0
    rw [if_pos h0, if_pos (show (Q.stT x).m = 0 ∨ (Q.tparams p).iz = 0 from h0')]
    rfl
  · have h0' := hz.not.mpr h0
    rw [if_neg h0, if_neg (show ¬((Q.stT x).m = 0 ∨ (Q.tparams p).iz = 0) from h0')]
    obtain ⟨hx, hi⟩ := not_or.mp h0
    refine congrArg Except.ok ?_
    show _ = RocketState.mul _ _
    have h1' : (Q.tparams p).thrust (Q.stT x).m (Q.cmdT u).F_left = Q.force * p.thrust x.m u.F_left := h1
    have h3' : (Q.tparams p).thrust (Q.stT x).m (Q.cmdT u).F_right = Q.force * p.thrust x.m u.F_right := h3
    simp only [h1', h3']
    simp only [RocketState.mul, System.stT, System.cmdT, System.tparams, LinearMap.coe_mk, AddHom.coe_mk,
      RocketState.mk.injEq, h2]
    generalize p.thrust x.m u.F_left = f
    generalize p.thrust x.m u.F_right = g
    simp only [System.vel, System.rate, System.force, System.inertia]
    refine ⟨?_, ?_, ?_, ?_, ?_, ?_, ?_, ?_⟩ <;> field_simp

theorem dynObstacleRate_scaled (Q : System) (p : ModelParams ℝ) (lo hi : ℝ) (x : DynObstacleState ℝ)
    (u : DynObstacleCommands ℝ) :
    dynObstacleRate (Q.params p) (Q.rate * lo) (Q.rate * hi) (Q.stO x) (Q.cmdO u) =
      Q.time⁻¹ • Q.stO (dynObstacleRate p lo hi x u) := by
  have hl := Q.len_pos.ne'
  have ht := Q.time_pos.ne'
  have h1 := fullAccelerationLimits_scaled Q p x.vx (u.acc_x + x.dpsi * x.vy)
  have h2 := fullAccelerationLimits_scaled Q p x.vy (u.acc_y - x.dpsi * x.vx)
  have h3 := speedConstraint_scaled Q.rate_pos Q.rate2_pos lo hi x.dpsi u.acc_psi
  have e1 : Q.acc * u.acc_x + Q.rate * x.dpsi * (Q.vel * x.vy) = Q.acc * (u.acc_x + x.dpsi * x.vy) := by
    simp only [System.vel, System.acc, System.rate]; field_simp
  have e2 : Q.acc * u.acc_y - Q.rate * x.dpsi * (Q.vel * x.vx) = Q.acc * (u.acc_y - x.dpsi * x.vx) := by
    simp only [System.vel, System.acc, System.rate]; field_simp
  show _ = DynObstacleState.mul _ _
  simp only [DynObstacleState.mul, System.stO, System.cmdO, LinearMap.coe_mk, AddHom.coe_mk, dynObstacleRate,
    DynObstacleState.mk.injEq, e1, e2, h1, h2, h3]
  simp only [System.vel, System.acc, System.rate, System.rate2]
  refine ⟨?_, ?_, ?_, ?_, ?_, ?_⟩ <;> field_simp

/-! ## Sequences of updates -/

/-- **C158.** Any sequence of updates of a kinematic vehicle in other units is the same sequence of updates; errors
are the same. -/
theorem C158_vehicle (Q : System) (wb lr : ℝ) (p : VehicleParams ℝ) (isCar : Bool) (tab : Tableau ℝ)
    (cs : List (Call (VehicleCommands ℝ))) (x : VehicleState ℝ) :
    calls (vehicleCall (Q.len * wb) (Q.len * lr) (Q.vparams p) isCar tab) (cs.map (Q.call Q.cmdV)) (Q.stV x) =
      (calls (vehicleCall wb lr p isCar tab) cs x).map Q.stV :=
  calls_map _ _ _ _ cs (fun c x => solve_scaled _ _ _ _ (C94_vehicle wb lr p c.collided isCar)
    (C94_vehicle (Q.len * wb) (Q.len * lr) (Q.vparams p) c.collided isCar) vehicle_linear vehicle_linear Q.stV Q.time
    Q.time_pos.ne' c.cmd (Q.cmdV c.cmd) (fun z => by
      refine congrArg Except.ok ?_
      by_cases hd : c.collided = true ∧ isCar = false
      · have := vehicleRate_scaled Q wb lr p z 0 0
        simp only [mul_zero] at this
        simp only [if_pos hd]
        exact this
      · simp only [if_neg hd]
        exact vehicleRate_scaled Q wb lr p z c.cmd.acc c.cmd.ddelta) tab c.steps x) x

/-- **C158.** Any sequence of updates of a pedestrian who does not collide in other units is the same sequence of
updates. What is missing: updates after a collision, for which it is false (`C158_false_friction`). -/
theorem C158_pedestrian_partial (Q : System) (p : ModelParams ℝ) (dm : ℝ) (tab : Tableau ℝ)
    (cs : List (Call (PedestrianCommands ℝ))) (hcs : ∀ c ∈ cs, c.collided = false) (x : PedestrianState ℝ) :
    calls (pedestrianCall (Q.params p) (Q.rate * dm) tab) (cs.map (Q.call Q.cmdP)) (Q.stP x) =
      (calls (pedestrianCall p dm tab) cs x).map Q.stP :=
  calls_map_mem _ _ _ _ cs (fun c hc x => solve_scaled _ _ _ _ (C94_pedestrian p dm c.collided x)
    (C94_pedestrian (Q.params p) (Q.rate * dm) c.collided (Q.stP x)) pedestrian_linear pedestrian_linear Q.stP Q.time
    Q.time_pos.ne' c.cmd (Q.cmdP c.cmd) (fun z => by
      refine congrArg Except.ok ?_
      simp only [hcs c hc]
      exact pedestrianRate_scaled Q p dm x (Q.stP x) z c.cmd) tab c.steps x) x

/-- **C158.** Any sequence of updates of a differential drive in other units is the same sequence of updates. -/
theorem C158_diffDrive (Q : System) (wb R lo hi : ℝ) (tab : Tableau ℝ)
    (cs : List (Call (DiffDriveCommands ℝ))) (x : DiffDriveState ℝ) :
    calls (diffDriveCall (Q.len * wb) (Q.len * R) (Q.rate * lo) (Q.rate * hi) tab) (cs.map (Q.call Q.cmdR)) (Q.stR x) =
      (calls (diffDriveCall wb R lo hi tab) cs x).map Q.stR :=
  calls_map _ _ _ _ cs (fun c x => solve_scaled _ _ _ _ (C94_diffDrive wb R lo hi c.collided)
    (C94_diffDrive (Q.len * wb) (Q.len * R) (Q.rate * lo) (Q.rate * hi) c.collided) diffDrive_linear diffDrive_linear
    Q.stR Q.time Q.time_pos.ne' c.cmd (Q.cmdR c.cmd) (fun z => by
      refine congrArg Except.ok ?_
      by_cases hd : c.collided = true
      · have := diffDriveRate_scaled Q wb R lo hi z ⟨0, 0⟩
        simp only [System.cmdR, mul_zero] at this
        simp only [if_pos hd]
        exact this
      · simp only [if_neg hd]
        exact diffDriveRate_scaled Q wb R lo hi z c.cmd) tab c.steps x) x

/-- **C158.** Any sequence of updates of a spacecraft in other units is the same sequence of updates. -/
theorem C158_spacecraft (Q : System) (p : ModelParams ℝ) (lo hi w m iz : ℝ) (tab : Tableau ℝ)
    (cs : List (Call (SpacecraftCommands ℝ))) (x : SpacecraftState ℝ) :
    calls (spacecraftCall (Q.params p) (Q.rate * lo) (Q.rate * hi) (Q.len * w) (Q.mass * m) (Q.inertia * iz) tab)
        (cs.map (Q.call Q.cmdC)) (Q.stC x) =
      (calls (spacecraftCall p lo hi w m iz tab) cs x).map Q.stC :=
  calls_map _ _ _ _ cs (fun c x => solve_scaled _ _ _ _ (C94_spacecraft p lo hi w m iz c.collided)
    (C94_spacecraft (Q.params p) (Q.rate * lo) (Q.rate * hi) (Q.len * w) (Q.mass * m) (Q.inertia * iz) c.collided)
    spacecraft_linear spacecraft_linear
    Q.stC Q.time Q.time_pos.ne' c.cmd (Q.cmdC c.cmd) (fun z => by
      refine congrArg Except.ok ?_
      by_cases hd : c.collided = true
      · have := spacecraftRate_scaled Q p lo hi w m iz z ⟨0, 0⟩
        simp only [System.cmdC, mul_zero] at this
        simp only [if_pos hd]
        exact this
      · simp only [if_neg hd]
        exact spacecraftRate_scaled Q p lo hi w m iz z c.cmd) tab c.steps x) x

/-- **C158.** Any sequence of updates of a spaceship in other units is the same sequence of updates; errors are the
same. -/
theorem C158_spaceship (Q : System) (p : ThrustParams) (tab : Tableau ℝ)
    (cs : List (Call (SpaceshipCommands ℝ))) (x : SpaceshipState ℝ) :
    calls (spaceshipCall (Q.tparams p) tab) (cs.map (Q.call Q.cmdS)) (Q.stS x) =
      (calls (spaceshipCall p tab) cs x).map Q.stS :=
  calls_map _ _ _ _ cs (fun c x => solve_scaled _ _ _ _ (C94_spaceship p c.collided)
    (C94_spaceship (Q.tparams p) c.collided) spaceship_linear spaceship_linear
    Q.stS Q.time Q.time_pos.ne' c.cmd (Q.cmdS c.cmd) (fun z => by
      by_cases hd : c.collided = true
      · have := spaceshipRate_scaled Q p z ⟨0, 0⟩
        simp only [System.cmdS, mul_zero] at this
        simp only [if_pos hd]
        exact this
      · simp only [if_neg hd]
        exact spaceshipRate_scaled Q p z c.cmd) tab c.steps x) x

/-- **C158.** Any sequence of updates of a rocket in other units is the same sequence of updates; errors are the
same. -/
theorem C158_rocket (Q : System) (p : ThrustParams) (tab : Tableau ℝ)
    (cs : List (Call (RocketCommands ℝ))) (x : RocketState ℝ) :
    calls (rocketCall (Q.tparams p) tab) (cs.map (Q.call Q.cmdT)) (Q.stT x) =
      (calls (rocketCall p tab) cs x).map Q.stT :=
  calls_map _ _ _ _ cs (fun c x => solve_scaled _ _ _ _ (C94_rocket p c.collided)
    (C94_rocket (Q.tparams p) c.collided) rocket_linear rocket_linear
    Q.stT Q.time Q.time_pos.ne' c.cmd (Q.cmdT c.cmd) (fun z => by
      by_cases hd : c.collided = true
      · have := rocketRate_scaled Q p z ⟨0, 0, 0⟩
        simp only [System.cmdT, mul_zero] at this
        simp only [if_pos hd]
        exact this
      · simp only [if_neg hd]
        exact rocketRate_scaled Q p z c.cmd) tab c.steps x) x

/-- **C158.** Any sequence of updates of a moving obstacle in other units is the same sequence of updates. -/
theorem C158_dynObstacle (Q : System) (p : ModelParams ℝ) (lo hi : ℝ) (tab : Tableau ℝ)
    (cs : List (Call (DynObstacleCommands ℝ))) (x : DynObstacleState ℝ) :
    calls (dynObstacleCall (Q.params p) (Q.rate * lo) (Q.rate * hi) tab) (cs.map (Q.call Q.cmdO)) (Q.stO x) =
      (calls (dynObstacleCall p lo hi tab) cs x).map Q.stO :=
  calls_map _ _ _ _ cs (fun c x => solve_scaled _ _ _ _ (C94_dynObstacle p lo hi)
    (C94_dynObstacle (Q.params p) (Q.rate * lo) (Q.rate * hi)) dynObstacle_linear dynObstacle_linear
    Q.stO Q.time Q.time_pos.ne' c.cmd (Q.cmdO c.cmd) (fun z =>
      congrArg Except.ok (dynObstacleRate_scaled Q p lo hi z c.cmd)) tab c.steps x) x

/-- **C158.** One step of the discrete bicycle model in other units is the same step. -/
theorem C158_bicycle (Q : System) (wb lr : ℝ) (p : VehicleParams ℝ) (x : VehicleState ℝ) (a d dt : ℝ) :
    bicycleStep realTrig (Q.len * wb) (Q.len * lr) (Q.vparams p) (Q.stV x) (Q.acc * a, Q.rate * d) (Q.time * dt) =
      Q.stV (bicycleStep realTrig wb lr p x (a, d) dt) := by
  have hl := Q.len_pos.ne'
  have ht := Q.time_pos.ne'
  have h1 := clip_scaled Q.acc_pos a p.accMin p.accMax
  have h2 := clip_scaled Q.rate_pos d (-p.ddeltaMax) p.ddeltaMax
  rw [mul_neg] at h2
  have h3 := clip_scaled Q.vel_pos (x.vx + clip a p.accMin p.accMax * dt) p.vxMin p.vxMax
  have e1 : Q.vel * x.vx + Q.acc * clip a p.accMin p.accMax * (Q.time * dt) =
      Q.vel * (x.vx + clip a p.accMin p.accMax * dt) := by
    simp only [System.vel, System.acc]; field_simp
  have e2 : x.delta + Q.rate * clip d (-p.ddeltaMax) p.ddeltaMax * (Q.time * dt) =
      x.delta + clip d (-p.ddeltaMax) p.ddeltaMax * dt := by
    simp only [System.rate]; field_simp
  simp only [bicycleStep, bicycleRate, VehicleState.add, VehicleState.mul, System.vparams, System.params, System.stV,
    LinearMap.coe_mk, AddHom.coe_mk, h1, h2, e1, e2, h3, VehicleState.mk.injEq]
  simp only [System.vel, div_eq_mul_inv, mul_inv]
  generalize wb⁻¹ = w
  refine ⟨?_, ?_, ?_, ?_, ?_⟩ <;> first | trivial | field_simp

/-! ## Constants with units -/

/-- The method of Euler. -/
def oneStage : Tableau ℝ := ⟨[], [1]⟩

/-- Half seconds instead of seconds. -/
def halfSeconds : System := ⟨1, 1, 2, one_pos, one_pos, two_pos⟩

/-- **C158, false part.** The friction of a pedestrian after a collision is 2 per unit of time, whatever the unit. -/
theorem C158_false_friction :
    ¬ ∀ (Q : System) (p : ModelParams ℝ) (dm : ℝ) (tab : Tableau ℝ) (c : Call (PedestrianCommands ℝ))
      (x : PedestrianState ℝ),
      pedestrianCall (Q.params p) (Q.rate * dm) tab (Q.call Q.cmdP c) (Q.stP x) = (pedestrianCall p dm tab c x).map Q.stP := by
  intro h
  have h := h halfSeconds ⟨-1, 3, -1, 1⟩ 1 oneStage ⟨⟨0, 0⟩, true, [1 / 10]⟩ ⟨0, 0, 0, 1, 0, 0⟩
  unfold pedestrianCall at h
  rw [C149_refines _ _ (C94_pedestrian _ _ _ _) pedestrian_linear, C149_refines _ _ (C94_pedestrian _ _ _ _) pedestrian_linear] at h
  have e : ∀ (p : ModelParams ℝ) (dm : ℝ) (held : PedestrianState ℝ) (x : PedestrianState ℝ) (t : ℝ)
      (u : PedestrianCommands ℝ),
      rkRunE (fun z => (pedestrianUpdate p dm true held).rate z u) oneStage [t] x =
        .ok (x + t • weighted [(1 : ℝ)] [pedestrianRate p dm true held x u]) := fun _ _ _ _ _ _ => rfl
  have hs : (halfSeconds.call halfSeconds.cmdP ⟨⟨0, 0⟩, true, [1 / 10]⟩).steps = [2 * (1 / 10)] := rfl
  have hc : (halfSeconds.call halfSeconds.cmdP ⟨⟨0, 0⟩, true, [1 / 10]⟩).collided = true := rfl
  rw [hs, hc] at h
  simp only [e] at h
  have h : (_ : PedestrianState ℝ) = _ := Except.ok.inj h
  have h := congrArg PedestrianState.vx h
  simp [weighted, PedestrianState.add_def, PedestrianState.add, PedestrianState.smul_def, PedestrianState.mul, System.stP,
    pedestrianRate, collisionFriction, halfSeconds, System.vel, System.params, fullAccelerationLimits,
    accelerationLimits, speedConstraint, System.acc] at h
  norm_num at h

/-! ## The dynamic vehicle -/

/-- Specification: the state of a dynamic vehicle in other units. -/
def System.stD (Q : System) (s : VehicleStateDyn ℝ) : VehicleStateDyn ℝ :=
  { s with x := Q.len * s.x, y := Q.len * s.y, vx := Q.vel * s.vx, vy := Q.vel * s.vy, dpsi := Q.rate * s.dpsi }

/-- Specification: the rate of a dynamic vehicle in other units: the state per time. -/
def System.rateD (Q : System) (s : VehicleStateDyn ℝ) : VehicleStateDyn ℝ := (Q.stD s).mul Q.time⁻¹

/-- Specification: the geometry of a dynamic vehicle in other units. -/
def System.geomD (Q : System) (g : VehicleGeom) : VehicleGeom :=
  { g with m := Q.mass * g.m, iz := Q.inertia * g.iz, lf := Q.len * g.lf, lr := Q.len * g.lr,
           aDrag := Q.len ^ 2 * g.aDrag, hCog := Q.len * g.hCog }

theorem slipAngle_scaled {k : ℝ} (hk : 0 < k) (v : ℝ × ℝ) : slipAngle (k * v.1, k * v.2) = slipAngle v := by
  unfold slipAngle
  have e : k * v.2 / (k * v.1) = v.2 / v.1 := mul_div_mul_left _ _ hk.ne'
  simp only [e, ne_eq, mul_eq_zero, hk.ne', false_or, mul_pos_iff_of_pos_left hk, mul_lt_zero' hk]

theorem axleForces_scaled {k : ℝ} (hk : 0 < k) (t : Pacejka) (load demand slip : ℝ) :
    axleForces t (k * load) (k * demand) slip =
      (axleForces t load demand slip).map (fun f => (k * f.1, k * f.2)) := by
  have e0 : t.evaluate slip * (k * load) = k * (t.evaluate slip * load) := by ring
  have e1 : k * load * t.d = k * (load * t.d) := by ring
  have e2 : k * (t.evaluate slip * load) / (k * (load * t.d)) = t.evaluate slip * load / (load * t.d) :=
    mul_div_mul_left _ _ hk.ne'
  unfold axleForces
  simp only [e0, e1, e2, mul_eq_zero, hk.ne', false_or]
  by_cases h : load = 0 ∨ t.d = 0
  · rw [if_pos h, if_pos h]; rfl
  · rw [if_neg h, if_neg h]
    by_cases h2 : 1 - (t.evaluate slip * load / (load * t.d)) ^ 2 < 0
    · rw [if_pos h2, if_pos h2]; rfl
    · rw [if_neg h2, if_neg h2]
      show Except.ok _ = Except.ok _
      rw [mul_assoc]

theorem accelerationSplit_scaled {k : ℝ} (hk : 0 < k) (f : ℝ) :
    accelerationSplit (k * f) = (k * (accelerationSplit f).1, k * (accelerationSplit f).2) := by
  unfold accelerationSplit
  have : k * f ≤ 0 ↔ f ≤ 0 := by
    constructor
    · intro h; by_contra h'; exact absurd (mul_pos hk (not_le.mp h')) (not_lt.mpr h)
    · intro h; exact mul_nonpos_of_nonneg_of_nonpos hk.le h
  simp only [this]
  split <;> simp only [mul_assoc]

theorem rotBy_scaled (k a : ℝ) (v : ℝ × ℝ) : rotBy a (k * v.1, k * v.2) = (k * (rotBy a v).1, k * (rotBy a v).2) := by
  simp only [rotBy, Prod.mk.injEq]
  constructor <;> ring

theorem tyreForces_scaled (Q : System) (hG : Q.acc = 1) (g : VehicleGeom) (front rear : Pacejka) (a : ℝ)
    (x : VehicleStateDyn ℝ) :
    tyreForces (Q.geomD g) front rear (Q.acc * a) (Q.stD x) =
      (tyreForces g front rear a x).map
        (fun f => ((Q.force * f.1.1, Q.force * f.1.2), (Q.force * f.2.1, Q.force * f.2.2))) := by
  have hl := Q.len_pos.ne'
  have ht := Q.time_pos.ne'
  have hf : Q.force = Q.mass := by
    have : Q.force = Q.mass * Q.acc := by simp only [System.force, System.acc]; ring
    rw [this, hG, mul_one]
  have n1 : ((Q.geomD g).loads (Q.acc * a)).1 = Q.force * (g.loads a).1 := by
    rw [hG, hf]
    simp only [VehicleGeom.loads, VehicleGeom.wheelbase, System.geomD, ← mul_add, div_eq_mul_inv, mul_inv]
    generalize (g.lf + g.lr)⁻¹ = w
    field_simp
  have n2 : ((Q.geomD g).loads (Q.acc * a)).2 = Q.force * (g.loads a).2 := by
    rw [hG, hf]
    simp only [VehicleGeom.loads, VehicleGeom.wheelbase, System.geomD, ← mul_add, div_eq_mul_inv, mul_inv]
    generalize (g.lf + g.lr)⁻¹ = w
    field_simp
  have s0 : (Q.geomD g).m * (Q.acc * a) = Q.force * (g.m * a) := by
    rw [hG, hf]; simp only [System.geomD]; ring
  have v1 : rotBy (-(Q.stD x).delta) ((Q.stD x).vx, (Q.stD x).vy + (Q.geomD g).lf * (Q.stD x).dpsi) =
      (Q.vel * (rotBy (-x.delta) (x.vx, x.vy + g.lf * x.dpsi)).1,
        Q.vel * (rotBy (-x.delta) (x.vx, x.vy + g.lf * x.dpsi)).2) := by
    rw [← rotBy_scaled]
    simp only [System.stD, System.geomD, System.vel, System.rate]
    congr 2
    field_simp
  have v2 : ((Q.stD x).vx, (Q.stD x).vy - (Q.geomD g).lr * (Q.stD x).dpsi) =
      (Q.vel * (x.vx, x.vy - g.lr * x.dpsi).1, Q.vel * (x.vx, x.vy - g.lr * x.dpsi).2) := by
    simp only [System.stD, System.geomD, System.vel, System.rate]
    congr 1
    field_simp
  have s2 : slipAngle (Q.vel * x.vx, Q.vel * (x.vy - g.lr * x.dpsi)) = slipAngle (x.vx, x.vy - g.lr * x.dpsi) :=
    slipAngle_scaled Q.vel_pos (x.vx, x.vy - g.lr * x.dpsi)
  have c1 : (Q.geomD g).cRrF = g.cRrF := rfl
  have c2 : (Q.geomD g).cRrR = g.cRrR := rfl
  have d1 : ∀ s c n : ℝ, Q.force * s + c * (Q.force * n) = Q.force * (s + c * n) := fun s c n => by ring
  have hd : (Q.stD x).delta = x.delta := rfl
  unfold tyreForces
  simp only [v1, v2, s0, accelerationSplit_scaled Q.force_pos, n1, n2, c1, c2, d1, slipAngle_scaled Q.vel_pos,
    axleForces_scaled Q.force_pos]
  simp only [hd, s2]
  cases slipAngle (rotBy (-x.delta) (x.vx, x.vy + g.lf * x.dpsi)) with
  | none => rfl
  | some s1 =>
    change (Except.map _ (axleForces front _ _ s1) >>= _) = Except.map _ (axleForces front _ _ s1 >>= _)
    cases axleForces front (g.loads a).1 ((accelerationSplit (g.m * a)).1 + g.cRrF * (g.loads a).1) s1 with
    | error e => rfl
    | ok f1 =>
      simp only [Except.map, bind, Except.bind]
      cases slipAngle (x.vx, x.vy - g.lr * x.dpsi) with
      | none => rfl
      | some s2 =>
        dsimp only
        cases axleForces rear (g.loads a).2 ((accelerationSplit (g.m * a)).2 + g.cRrR * (g.loads a).2) s2 with
        | error e => rfl
        | ok f2 =>
          change Except.ok (rotBy x.delta (Q.force * f1.1, Q.force * f1.2), (Q.force * f2.1, Q.force * f2.2)) = Except.ok _
          rw [rotBy_scaled]

/-- **C158.** The rate of a dynamic vehicle that has not collided is the same in other units, if the units keep the
number 9.81 of the gravity (`hG`), the speed is on the same side of the number 0.1 of the threshold (`hv`), and there
is no drag (`hD`). What is missing: other units, which change these numbers, the drag, for which it is false in all
units (`C158_false_drag`), and vehicles that have collided (`C158_false_friction_car`). -/
theorem C158_vehicleDyn_partial (Q : System) (hG : Q.acc = 1) (g : VehicleGeom) (hD : g.cDrag = 0)
    (p : VehicleParams ℝ) (front rear : Pacejka) (held held' x : VehicleStateDyn ℝ) (u : VehicleCommands ℝ)
    (hv : Q.vel * x.vx < 1 / 10 ↔ x.vx < 1 / 10) :
    vehicleDynRate (Q.geomD g) (Q.vparams p) front rear false held' (Q.stD x) (Q.cmdV u) =
      (vehicleDynRate g p front rear false held x u).map Q.rateD := by
  have hl := Q.len_pos.ne'
  have ht := Q.time_pos.ne'
  have hm := Q.mass_pos.ne'
  have hvx : (Q.stD x).vx = Q.vel * x.vx := rfl
  unfold vehicleDynRate
  by_cases h : x.vx < 1 / 10
  · have h' : (Q.stD x).vx < 1 / 10 := hv.mpr h
    simp only [if_pos h, if_pos h']
    have hw : (Q.geomD g).wheelbase = Q.len * g.wheelbase := by
      simp only [VehicleGeom.wheelbase, System.geomD]; ring
    have := vehicleRate_scaled Q g.wheelbase g.lr p ⟨x.x, x.y, x.psi, x.vx, x.delta⟩ u.acc u.ddelta
    rw [hw]
    change Except.ok _ = Except.ok _
    have e : vehicleRate realTrig (Q.len * g.wheelbase) (Q.geomD g).lr (Q.vparams p)
        ⟨(Q.stD x).x, (Q.stD x).y, (Q.stD x).psi, (Q.stD x).vx, (Q.stD x).delta⟩ ((Q.cmdV u).acc, (Q.cmdV u).ddelta) =
        Q.time⁻¹ • Q.stV (vehicleRate realTrig g.wheelbase g.lr p ⟨x.x, x.y, x.psi, x.vx, x.delta⟩ (u.acc, u.ddelta)) :=
      this
    rw [e]
    generalize vehicleRate realTrig g.wheelbase g.lr p ⟨x.x, x.y, x.psi, x.vx, x.delta⟩ (u.acc, u.ddelta) = k
    simp only [VehicleState.smul_def, VehicleState.mul, System.stV, LinearMap.coe_mk, AddHom.coe_mk, collisionFriction,
      System.rateD, System.stD, VehicleStateDyn.mul]
    simp
  · have h' : ¬ (Q.stD x).vx < 1 / 10 := hv.not.mpr h
    simp only [if_neg h, if_neg h']
    have h1 : fullAccelerationLimits (Q.vparams p).toModelParams (Q.stD x).vx (Q.cmdV u).acc =
        Q.acc * fullAccelerationLimits p.toModelParams x.vx u.acc :=
      fullAccelerationLimits_scaled Q p.toModelParams x.vx u.acc
    have h2 : steeringConstraint (Q.vparams p).deltaMax (Q.vparams p).ddeltaMax (Q.stD x).delta (Q.cmdV u).ddelta =
        Q.rate * steeringConstraint p.deltaMax p.ddeltaMax x.delta u.ddelta :=
      steeringConstraint_scaled Q.rate_pos p.deltaMax p.ddeltaMax x.delta u.ddelta
    simp only [h1, h2, tyreForces_scaled Q hG]
    cases tyreForces g front rear (fullAccelerationLimits p.toModelParams x.vx u.acc) x with
    | error e => rfl
    | ok f =>
      change Except.ok _ = Except.ok _
      have hD' : (Q.geomD g).cDrag = 0 := hD
      have hf : Q.force = Q.mass * Q.len / Q.time ^ 2 := rfl
      simp only [hD, hD', collisionFriction, System.rateD, System.stD, VehicleStateDyn.mul, System.geomD, System.vel,
        System.rate, hf, System.inertia, div_eq_mul_inv, mul_inv]
      generalize g.m⁻¹ = M
      generalize g.iz⁻¹ = J
      refine congrArg Except.ok ?_
      rw [VehicleStateDyn.mk.injEq]
      refine ⟨?_, ?_, ?_, ?_, ?_, ?_, ?_⟩ <;> (try field_simp) <;> (try simp) <;> (try ring)

/-- Units in which the numbers 9.81 and 1.25 of gravity and density of air stay the same. -/
def sameConstants : System := ⟨4, 64, 2, by norm_num, by norm_num, by norm_num⟩

/-- A car that feels the air. -/
def airCar : VehicleGeom := ⟨1, 1, 1, 1, 1, 1, 0, 0, 0, false⟩

theorem coasting (g : VehicleGeom) (hm : g.m ≠ 0) (hlf : 0 < g.lf) (hlr : 0 < g.lr) (h1 : g.cRrF = 0) (h2 : g.cRrR = 0)
    (p : VehicleParams ℝ) (hp : p.accMin ≤ 0 ∧ 0 ≤ p.accMax) (v : ℝ) (hv : 1 / 10 ≤ v) :
    ∃ d, vehicleDynRate g p ⟨1, 1, 1, none⟩ ⟨1, 1, 1, none⟩ false ⟨0, 0, 0, v, 0, 0, 0⟩ ⟨0, 0, 0, v, 0, 0, 0⟩
      ⟨0, 0, .none⟩ = .ok d ∧ d.vx = -(5 / 10) * v * g.aDrag * g.cDrag * rhoAir ^ 2 / g.m := by
  have ha : fullAccelerationLimits p.toModelParams v 0 = 0 := by
    simp [fullAccelerationLimits, speedConstraint, accelerationLimits, not_lt.mpr hp.1, not_lt.mpr hp.2]
  have hv0 : v ≠ 0 := by linarith
  have hG : gravity ≠ 0 := by norm_num [gravity]
  have hw : g.wheelbase ≠ 0 := by unfold VehicleGeom.wheelbase; linarith
  have n1 : (g.loads 0).1 ≠ 0 := by
    simp only [VehicleGeom.loads, mul_zero, sub_zero]
    exact div_ne_zero (mul_ne_zero (neg_ne_zero.mpr hm) (mul_ne_zero hG hlr.ne')) hw
  have n2 : (g.loads 0).2 ≠ 0 := by
    simp only [VehicleGeom.loads, mul_zero, add_zero]
    exact div_ne_zero (mul_ne_zero (neg_ne_zero.mpr hm) (mul_ne_zero hG hlf.ne')) hw
  have ax : ∀ n : ℝ, n ≠ 0 → axleForces ⟨1, 1, 1, none⟩ n 0 0 = .ok (0, 0) := by
    intro n hn
    simp [axleForces, Pacejka.evaluate, hn]
  have hs : slipAngle (v, 0) = some 0 := by simp [slipAngle, hv0]
  have ht : tyreForces g ⟨1, 1, 1, none⟩ ⟨1, 1, 1, none⟩ 0 ⟨0, 0, 0, v, 0, 0, 0⟩ = .ok ((0, 0), (0, 0)) := by
    simp only [tyreForces, rotBy, hs, accelerationSplit, h1, h2, mul_zero, zero_mul, add_zero, sub_zero, neg_zero,
      Real.cos_zero, Real.sin_zero, one_mul, le_refl, if_true]
    change (axleForces _ (g.loads 0).1 0 0 >>= _) = _
    rw [ax _ n1]
    change (axleForces _ (g.loads 0).2 0 0 >>= _) = _
    rw [ax _ n2]
    simp only [pure, Except.pure, bind, Except.bind, mul_zero, sub_zero, add_zero]
  unfold vehicleDynRate
  simp only [if_neg (not_lt.mpr hv), ha, ht]
  refine ⟨_, rfl, ?_⟩
  simp [collisionFriction]

/-- **C158, false part.** The drag is no force: half the product of speed, area, coefficient and squared density. Even in
units that keep the numbers of gravity and of the density of the air, a car that coasts straight ahead loses speed at
another rate. -/
theorem C158_false_drag :
    sameConstants.acc = 1 ∧ sameConstants.mass / sameConstants.len ^ 3 = 1 ∧
    ∃ (p : VehicleParams ℝ) (t : Pacejka) (x : VehicleStateDyn ℝ) (u : VehicleCommands ℝ) (d d' : VehicleStateDyn ℝ),
      1 ≤ x.vx ∧ 1 ≤ (sameConstants.stD x).vx ∧
      vehicleDynRate airCar p t t false x x u = .ok d ∧
      vehicleDynRate (sameConstants.geomD airCar) (sameConstants.vparams p) t t false (sameConstants.stD x)
        (sameConstants.stD x) (sameConstants.cmdV u) = .ok d' ∧
      d'.vx ≠ (sameConstants.rateD d).vx := by
  refine ⟨by norm_num [sameConstants, System.acc], by norm_num [sameConstants], ?_⟩
  obtain ⟨d, h1, h2⟩ := coasting airCar (by norm_num [airCar]) (by norm_num [airCar]) (by norm_num [airCar]) rfl rfl
    ⟨⟨-2, 30, -8, 5⟩, 1, 1⟩ (by norm_num) 1 (by norm_num)
  obtain ⟨d', h3, h4⟩ := coasting (sameConstants.geomD airCar) (by norm_num [airCar, System.geomD, sameConstants])
    (by norm_num [airCar, System.geomD, sameConstants]) (by norm_num [airCar, System.geomD, sameConstants]) rfl rfl
    (sameConstants.vparams ⟨⟨-2, 30, -8, 5⟩, 1, 1⟩)
    (by norm_num [System.vparams, System.params, System.acc, sameConstants]) 2 (by norm_num)
  have ex : sameConstants.stD ⟨0, 0, 0, 1, 0, 0, 0⟩ = ⟨0, 0, 0, 2, 0, 0, 0⟩ := by
    norm_num [System.stD, sameConstants, System.vel]
  have eu : sameConstants.cmdV ⟨0, 0, .none⟩ = ⟨0, 0, .none⟩ := by simp [System.cmdV]
  refine ⟨⟨⟨-2, 30, -8, 5⟩, 1, 1⟩, ⟨1, 1, 1, none⟩, ⟨0, 0, 0, 1, 0, 0, 0⟩, ⟨0, 0, .none⟩, d, d', le_refl _, ?_, h1, ?_, ?_⟩
  · rw [ex]; norm_num
  · rw [ex, eu]; exact h3
  · rw [h4]
    show _ ≠ (sameConstants.vel * d.vx) * sameConstants.time⁻¹
    rw [h2]
    norm_num [airCar, System.geomD, sameConstants, System.vel, rhoAir]

/-- **C158, false part.** The friction of a dynamic vehicle after a collision is a number per unit of time, whatever the unit:
even without drag and in units that keep the number of gravity, a car pushed sideways slows down at another rate. -/
theorem C158_false_friction_car :
    sameConstants.acc = 1 ∧
    ∃ (g : VehicleGeom) (p : VehicleParams ℝ) (t : Pacejka) (x : VehicleStateDyn ℝ) (u : VehicleCommands ℝ)
      (d d' : VehicleStateDyn ℝ),
      g.cDrag = 0 ∧ (sameConstants.vel * x.vx < 1 / 10 ↔ x.vx < 1 / 10) ∧
      vehicleDynRate g p t t true x x u = .ok d ∧
      vehicleDynRate (sameConstants.geomD g) (sameConstants.vparams p) t t true (sameConstants.stD x)
        (sameConstants.stD x) (sameConstants.cmdV u) = .ok d' ∧
      d'.vy ≠ (sameConstants.rateD d).vy := by
  refine ⟨by norm_num [sameConstants, System.acc], { airCar with cDrag := 0 }, ⟨⟨-2, 30, -8, 5⟩, 1, 1⟩, ⟨1, 1, 1, none⟩,
    ⟨0, 0, 0, 0, 0, 1, 0⟩, ⟨0, 0, .none⟩, ?_⟩
  have e : ∀ (g : VehicleGeom) (p : VehicleParams ℝ) (t : Pacejka) (x : VehicleStateDyn ℝ) (u : VehicleCommands ℝ),
      x.vx = 0 → g.twoWheels = false → ∃ d, vehicleDynRate g p t t true x x u = .ok d ∧ d.vy = -x.vy := by
    intro g p t x u hx hg
    unfold vehicleDynRate
    rw [if_pos (by rw [hx]; norm_num)]
    refine ⟨_, rfl, ?_⟩
    simp [collisionFriction, hg]
  obtain ⟨d, h1, h2⟩ := e { airCar with cDrag := 0 } ⟨⟨-2, 30, -8, 5⟩, 1, 1⟩ ⟨1, 1, 1, none⟩ ⟨0, 0, 0, 0, 0, 1, 0⟩
    ⟨0, 0, .none⟩ rfl rfl
  obtain ⟨d', h3, h4⟩ := e (sameConstants.geomD { airCar with cDrag := 0 }) (sameConstants.vparams ⟨⟨-2, 30, -8, 5⟩, 1, 1⟩)
    ⟨1, 1, 1, none⟩ (sameConstants.stD ⟨0, 0, 0, 0, 0, 1, 0⟩) (sameConstants.cmdV ⟨0, 0, .none⟩)
    (by simp [System.stD]) rfl
  refine ⟨d, d', rfl, by norm_num, h1, h3, ?_⟩
  rw [h4]
  show _ ≠ (sameConstants.vel * d.vy) * sameConstants.time⁻¹
  rw [h2]
  norm_num [System.stD, sameConstants, System.vel]

/-! ## Examples -/

/-- Centimetres, grams and minutes. -/
def cgm : System := ⟨100, 1000, 1 / 60, by norm_num, by norm_num, by norm_num⟩

-- ten metres per second are sixty thousand centimetres per minute
example : (cgm.stV ⟨1, 2, 3, 10, 1 / 2⟩) = ⟨100, 200, 3, 60000, 1 / 2⟩ := by
  norm_num [System.stV, cgm, System.vel]

-- a thrust of one newton
example : (cgm.cmdS ⟨1, 0⟩).thrust = 100000 * 3600 := by norm_num [System.cmdS, cgm, System.force]

-- units that keep the gravity, a speed on the same side of the threshold, no drag
example : sameConstants.acc = 1 ∧ (sameConstants.vel * 3 < 1 / 10 ↔ (3 : ℝ) < 1 / 10) ∧
    ({ airCar with cDrag := 0 } : VehicleGeom).cDrag = 0 := by
  refine ⟨by norm_num [sameConstants, System.acc], by norm_num [sameConstants, System.vel], rfl⟩

-- a pedestrian that does not collide
example : ∀ c ∈ [(⟨⟨1, 0⟩, false, [1 / 10]⟩ : Call (PedestrianCommands ℝ))], c.collided = false := by simp

end

end Units
end Phys
end Verif
