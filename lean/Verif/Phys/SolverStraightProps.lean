import Verif.Phys.SolverFrameProps

/-!
# C150: straight motion is exact with the solver of the code
-/

namespace Verif
namespace Phys

noncomputable section

/-! ## Uniform acceleration -/

/-- Specification: way and speed under a constant acceleration `a` for the time `T`. -/
def uniform (a T : ℝ) (y : ℝ × ℝ) : ℝ × ℝ := (y.1 + y.2 * T + a * T ^ 2 / 2, y.2 + a * T)

/-- One step of RK45 is exact if the acceleration is `a` at all speeds between the first and the last. -/
theorem rk45_uniform_step (f : ℝ × ℝ → ℝ × ℝ) (a h d v : ℝ)
    (hf : ∀ c, 0 ≤ c → c ≤ 1 → ∀ d', f (d', v + c * (a * h)) = (v + c * (a * h), a)) :
    rkStep f dormandPrince h (d, v) = uniform a h (d, v) := by
  have key : ∀ c d' w, 0 ≤ c → c ≤ 1 → w = v + c * (a * h) → f (d', w) = (w, a) := by
    intro c d' w h0 h1 hw; subst hw; exact hf c h0 h1 d'
  have e1 : f (d, v) = (v, a) := key 0 d v le_rfl zero_le_one (by ring)
  simp only [rkStep, dormandPrince, slopes, List.cons_append, List.nil_append, weighted, List.zipWith_cons_cons,
    List.zipWith_nil_left, List.sum_cons, List.sum_nil, e1, Prod.smul_mk, smul_eq_mul, Prod.mk_add_mk, add_zero]
  rw [key (1 / 5) _ _ (by norm_num) (by norm_num) (by ring)]
  simp only [Prod.smul_mk, smul_eq_mul, Prod.mk_add_mk, add_zero]
  rw [key (3 / 10) _ _ (by norm_num) (by norm_num) (by ring)]
  simp only [Prod.smul_mk, smul_eq_mul, Prod.mk_add_mk, add_zero]
  rw [key (4 / 5) _ _ (by norm_num) (by norm_num) (by ring)]
  simp only [Prod.smul_mk, smul_eq_mul, Prod.mk_add_mk, add_zero]
  rw [key (8 / 9) _ _ (by norm_num) (by norm_num) (by ring)]
  simp only [Prod.smul_mk, smul_eq_mul, Prod.mk_add_mk, add_zero]
  rw [key 1 _ _ (by norm_num) (by norm_num) (by ring)]
  simp only [Prod.smul_mk, smul_eq_mul, Prod.mk_add_mk, add_zero, uniform, Prod.mk.injEq]
  constructor <;> ring

theorem rk45_uniform (f : ℝ × ℝ → ℝ × ℝ) (a : ℝ) (hs : List ℝ) (hh : ∀ h ∈ hs, 0 ≤ h) (d v : ℝ)
    (hf : ∀ c, 0 ≤ c → c ≤ hs.sum → ∀ d', f (d', v + a * c) = (v + a * c, a)) :
    rkRun f dormandPrince hs (d, v) = uniform a hs.sum (d, v) := by
  induction hs generalizing d v with
  | nil => simp [rkRun, uniform]
  | cons h hs ih =>
    have h0 := hh h (by simp)
    have h1 : 0 ≤ hs.sum := List.sum_nonneg fun x hx => hh x (by simp [hx])
    rw [List.sum_cons] at hf
    show rkRun f dormandPrince hs (rkStep f dormandPrince h (d, v)) = _
    rw [rk45_uniform_step f a h d v (fun c c0 c1 d' => by
      have := hf (c * h) (mul_nonneg c0 h0) (by nlinarith) d'
      rwa [show a * (c * h) = c * (a * h) by ring] at this), uniform,
      ih (fun x hx => hh x (by simp [hx])) _ _ (fun c c0 c1 d' => by
        have := hf (h + c) (by linarith) (by linarith) d'
        rwa [show v + a * (h + c) = v + a * h + a * c by ring] at this)]
    simp only [uniform, List.sum_cons, Prod.mk.injEq]
    constructor <;> ring

/-! ## Vehicles -/

/-- The line through the place of `x` along its heading. -/
def onLine (psi : ℝ) : (ℝ × ℝ) →ₗ[ℝ] VehicleState ℝ where
  toFun z := ⟨z.1 * Real.cos psi, z.1 * Real.sin psi, 0, z.2, 0⟩
  map_add' a b := by
    simp only [VehicleState.add_def, VehicleState.add, Prod.fst_add, Prod.snd_add, VehicleState.mk.injEq]
    refine ⟨?_, ?_, ?_, ?_, ?_⟩ <;> first | trivial | ring
  map_smul' k a := by
    simp only [VehicleState.smul_def, VehicleState.mul, Prod.smul_fst, Prod.smul_snd, VehicleState.mk.injEq,
      RingHom.id_apply, smul_eq_mul]
    refine ⟨?_, ?_, ?_, ?_, ?_⟩ <;> first | trivial | ring

/-- Specification: `x` driven by `d` along its heading, to the speed `v`. -/
def driven (x : VehicleState ℝ) (d v : ℝ) : VehicleState ℝ :=
  { x with x := x.x + d * Real.cos x.psi, y := x.y + d * Real.sin x.psi, vx := v }

theorem driven_eq (x : VehicleState ℝ) (hx : x.delta = 0) (z : ℝ × ℝ) :
    driven x z.1 z.2 = onLine x.psi z + ⟨x.x, x.y, x.psi, 0, 0⟩ := by
  show _ = VehicleState.add _ _
  simp only [driven, onLine, LinearMap.coe_mk, AddHom.coe_mk, VehicleState.add, VehicleState.mk.injEq]
  refine ⟨?_, ?_, ?_, ?_, ?_⟩ <;> first | rw [hx, add_zero] | ring

/-- Specification: the acceleration the vehicle is asked for; none after a collision, except for cars. -/
def askedAcc (isCar : Bool) (c : Call (VehicleCommands ℝ)) : ℝ :=
  if c.collided = true ∧ isCar = false then 0 else c.cmd.acc

/-- The update of a vehicle with straight wheels is the update of way and speed. -/
theorem straight_solve (wb lr : ℝ) (p : VehicleParams ℝ) (hd : 0 ≤ p.ddeltaMax) (isCar : Bool) (tab : Tableau ℝ)
    (c : Call (VehicleCommands ℝ)) (hc : c.cmd.ddelta = 0) (x : VehicleState ℝ) (hx : x.delta = 0) :
    vehicleCall wb lr p isCar tab c x =
      let z := rkRun (fun z => (z.2, fullAccelerationLimits p.toModelParams z.2 (askedAcc isCar c))) tab c.steps
        (0, x.vx)
      .ok (driven x z.1 z.2) := by
  have h1 := C149_refines (vehicleUpdate wb lr p c.collided isCar) _ (C94_vehicle wb lr p c.collided isCar)
    vehicle_linear tab c.cmd c.steps x
  have hst : steeringConstraint p.deltaMax p.ddeltaMax 0 0 = 0 := by
    simp [steeringConstraint, not_lt.mpr hd, not_lt.mpr (neg_nonpos.mpr hd)]
  have hu : (if c.collided = true ∧ isCar = false then ({ acc := 0, ddelta := 0 } : VehicleCommands ℝ)
      else { acc := c.cmd.acc, ddelta := c.cmd.ddelta }) = { acc := askedAcc isCar c, ddelta := 0 } := by
    unfold askedAcc
    by_cases h : c.collided = true ∧ isCar = false
    · rw [if_pos h, if_pos h]
    · rw [if_neg h, if_neg h, hc]
  have hsame : Same (onLine x.psi) ⟨x.x, x.y, x.psi, 0, 0⟩
      (fun z => .ok (z.2, fullAccelerationLimits p.toModelParams z.2 (askedAcc isCar c)))
      (fun z => (vehicleUpdate wb lr p c.collided isCar).rate z { acc := askedAcc isCar c, ddelta := 0 }) := by
    intro z
    simp only [← driven_eq x hx]
    show Except.ok _ = Except.ok _
    simp [vehicleRate, bicycleRate, driven, hx, realTrig, hst, onLine]
  have h2 := rkRunE_affine hsame tab c.steps (0, x.vx)
  rw [rkRunE_ok, ← driven_eq x hx] at h2
  have e : driven x 0 x.vx = x := by simp [driven]
  unfold vehicleCall
  rw [h1, hu]
  refine Eq.trans ?_ (h2.trans ?_)
  · rw [e]
  · simp only [Except.map, ← driven_eq x hx]

/-- **C150.** A vehicle whose wheels are straight, and that is not asked to steer, keeps exactly to its line and its
heading in every update, whatever it is asked to accelerate and whatever steps the solver takes. -/
theorem C150_straight (wb lr : ℝ) (p : VehicleParams ℝ) (hd : 0 ≤ p.ddeltaMax) (isCar : Bool) (tab : Tableau ℝ)
    (cs : List (Call (VehicleCommands ℝ))) (hc : ∀ c ∈ cs, c.cmd.ddelta = 0) (x : VehicleState ℝ) (hx : x.delta = 0) :
    ∃ d v, calls (vehicleCall wb lr p isCar tab) cs x = .ok (driven x d v) := by
  induction cs generalizing x with
  | nil => exact ⟨0, x.vx, by simp [calls, driven]; rfl⟩
  | cons c cs ih =>
    obtain ⟨d, v, h⟩ : ∃ d v, vehicleCall wb lr p isCar tab c x = .ok (driven x d v) :=
      ⟨_, _, straight_solve wb lr p hd isCar tab c (hc c (by simp)) x hx⟩
    obtain ⟨d', v', h'⟩ := ih (fun c hc' => hc c (by simp [hc'])) (driven x d v) hx
    refine ⟨d + d', v', ?_⟩
    unfold calls at h' ⊢
    rw [List.foldlM_cons, h]
    refine h'.trans ?_
    simp only [driven]
    congr 2 <;> ring

/-- **C150.** As long as the limits are not reached, the solver of the code is exact for straight driving: in the time
`T` a vehicle at the speed `v` under the acceleration `a` covers `v T + a T² / 2` and has the speed `v + a T`. -/
theorem C150_exact (wb lr : ℝ) (p : VehicleParams ℝ) (hd : 0 ≤ p.ddeltaMax) (isCar : Bool)
    (c : Call (VehicleCommands ℝ)) (hc : c.cmd.ddelta = 0) (hs : ∀ h ∈ c.steps, 0 ≤ h) (x : VehicleState ℝ)
    (hx : x.delta = 0) (ha : p.accMin ≤ askedAcc isCar c ∧ askedAcc isCar c ≤ p.accMax)
    (hlo : askedAcc isCar c < 0 → p.vxMin < x.vx + askedAcc isCar c * c.steps.sum)
    (hhi : 0 < askedAcc isCar c → x.vx + askedAcc isCar c * c.steps.sum < p.vxMax) :
    vehicleCall wb lr p isCar dormandPrince c x =
      .ok (driven x (x.vx * c.steps.sum + askedAcc isCar c * c.steps.sum ^ 2 / 2)
        (x.vx + askedAcc isCar c * c.steps.sum)) := by
  rw [straight_solve wb lr p hd isCar dormandPrince c hc x hx]
  generalize askedAcc isCar c = a at *
  have hr : rkRun (fun z : ℝ × ℝ => (z.2, fullAccelerationLimits p.toModelParams z.2 a)) dormandPrince c.steps
      (0, x.vx) = uniform a c.steps.sum (0, x.vx) := by
    refine rk45_uniform _ a c.steps hs 0 x.vx (fun k k0 k1 d' => ?_)
    have hl : accelerationLimits p.accMin p.accMax a = a := by
      simp [accelerationLimits, not_lt.mpr ha.1, not_lt.mpr ha.2]
    have hno : ¬((x.vx + a * k ≤ p.vxMin ∧ a < 0) ∨ (p.vxMax ≤ x.vx + a * k ∧ 0 < a)) := by
      rintro (⟨h1, h2⟩ | ⟨h1, h2⟩)
      · have := hlo h2
        nlinarith
      · have := hhi h2
        nlinarith
    simp only [fullAccelerationLimits, hl, speedConstraint, if_neg hno]
  simp only [hr, uniform, zero_add]

/-- **C150.** In particular a coasting vehicle drives exactly `v T` along its heading, in any number of updates. -/
theorem C150_coast (wb lr : ℝ) (p : VehicleParams ℝ) (hp : p.accMin ≤ 0 ∧ 0 ≤ p.accMax) (hd : 0 ≤ p.ddeltaMax)
    (isCar : Bool) (cs : List (Call (VehicleCommands ℝ)))
    (hc : ∀ c ∈ cs, c.cmd.ddelta = 0 ∧ askedAcc isCar c = 0 ∧ ∀ h ∈ c.steps, 0 ≤ h) (x : VehicleState ℝ)
    (hx : x.delta = 0) :
    calls (vehicleCall wb lr p isCar dormandPrince) cs x =
      .ok (driven x (x.vx * (cs.map fun c => c.steps.sum).sum) x.vx) := by
  induction cs generalizing x with
  | nil => simp [calls, driven]; rfl
  | cons c cs ih =>
    obtain ⟨h1, h2, h3⟩ := hc c (by simp)
    have h := C150_exact wb lr p hd isCar c h1 h3 x hx (by rw [h2]; exact hp) (by rw [h2]; simp) (by rw [h2]; simp)
    rw [h2] at h
    have h' := ih (fun c hc' => hc c (by simp [hc'])) (driven x (x.vx * c.steps.sum) x.vx) hx
    unfold calls at h' ⊢
    rw [List.foldlM_cons, h]
    simp only [zero_mul, zero_div, add_zero]
    refine h'.trans ?_
    simp only [driven, List.map_cons, List.sum_cons]
    congr 2 <;> ring

/-! ## Differential drives -/

/-- The heading as a linear map. -/
def headingR : DiffDriveState ℝ →ₗ[ℝ] ℝ where
  toFun s := s.psi
  map_add' _ _ := rfl
  map_smul' k s := by show s.psi * k = k * s.psi; ring

/-- Places along a heading. -/
def onLineR (psi : ℝ) : ℝ →ₗ[ℝ] DiffDriveState ℝ where
  toFun d := ⟨d * Real.cos psi, d * Real.sin psi, 0⟩
  map_add' a b := by
    simp only [DiffDriveState.add_def, DiffDriveState.add, DiffDriveState.mk.injEq]
    refine ⟨?_, ?_, ?_⟩ <;> first | trivial | ring
  map_smul' k a := by
    simp only [DiffDriveState.smul_def, DiffDriveState.mul, DiffDriveState.mk.injEq, RingHom.id_apply, smul_eq_mul]
    refine ⟨?_, ?_, ?_⟩ <;> first | trivial | ring

/-- **C150.** The heading of a differential drive is exact under any commands; with equal wheels it drives exactly
along its heading. This holds for every consistent method, RK45 among them. -/
theorem C150_diffDrive (wb R lo hi : ℝ) {tab : Tableau ℝ} {reach : ℝ} (ht : tab.Ok reach) (c : Call (DiffDriveCommands ℝ))
    (hcol : c.collided = false) (x : DiffDriveState ℝ) :
    ∃ x', diffDriveCall wb R lo hi tab c x = .ok x' ∧
      x'.psi = x.psi + R * (clip c.cmd.omega_r lo hi - clip c.cmd.omega_l lo hi) / wb * c.steps.sum ∧
      (clip c.cmd.omega_l lo hi = clip c.cmd.omega_r lo hi →
        x' = ⟨x.x + R * clip c.cmd.omega_l lo hi * c.steps.sum * Real.cos x.psi,
          x.y + R * clip c.cmd.omega_l lo hi * c.steps.sum * Real.sin x.psi, x.psi⟩) := by
  have h1 : diffDriveCall wb R lo hi tab c x =
      rkRunE (fun z => .ok (diffDriveRate wb R lo hi z c.cmd)) tab c.steps x := by
    unfold diffDriveCall
    rw [C149_refines _ _ (C94_diffDrive wb R lo hi c.collided) diffDrive_linear, hcol]
    rfl
  rw [h1, rkRunE_ok]
  refine ⟨_, rfl, ?_, fun he => ?_⟩
  · have h2 := (rkRun_proj headingR (0 : DiffDriveState ℝ →ₗ[ℝ] ℝ) (fun z => diffDriveRate wb R lo hi z c.cmd)
      (fun _ => R * (clip c.cmd.omega_r lo hi - clip c.cmd.omega_l lo hi) / wb) tab c.steps x (fun _ => rfl)
      (fun z _ => by
        show (clip c.cmd.omega_r lo hi - clip c.cmd.omega_l lo hi) / wb * R = _
        ring)).1
    rw [rkRun_const ht] at h2
    refine h2.trans ?_
    show x.psi + _ • _ = _
    rw [smul_eq_mul]
    ring
  · have hsame : Same (onLineR x.psi) x (fun _ => .ok (R * clip c.cmd.omega_l lo hi))
        (fun z => .ok (diffDriveRate wb R lo hi z c.cmd)) := by
      intro z
      show Except.ok _ = Except.ok _
      congr 1
      have e : (onLineR x.psi z + x).psi = x.psi := by
        show 0 + x.psi = x.psi
        ring
      unfold diffDriveRate
      rw [e]
      simp only [onLineR, LinearMap.coe_mk, AddHom.coe_mk, DiffDriveState.mul, ← he, DiffDriveState.mk.injEq]
      refine ⟨?_, ?_, ?_⟩ <;> ring
    have h2 := rkRunE_affine hsame tab c.steps 0
    rw [rkRunE_ok, rkRunE_ok, map_zero, zero_add, rkRun_const ht, zero_add] at h2
    injection h2 with h2
    rw [h2]
    show DiffDriveState.add _ _ = _
    simp only [onLineR, LinearMap.coe_mk, AddHom.coe_mk, DiffDriveState.add, DiffDriveState.mk.injEq, smul_eq_mul]
    refine ⟨?_, ?_, ?_⟩ <;> ring

/-! ## Spacecraft -/

/-- Way ahead, speed ahead and way to the side. -/
def onLineC (psi : ℝ) : ((ℝ × ℝ) × ℝ) →ₗ[ℝ] SpacecraftState ℝ where
  toFun z := ⟨z.1.1 * Real.cos psi - z.2 * Real.sin psi, z.1.1 * Real.sin psi + z.2 * Real.cos psi, 0, z.1.2, 0, 0⟩
  map_add' a b := by
    simp only [SpacecraftState.add_def, SpacecraftState.add, Prod.fst_add, Prod.snd_add, SpacecraftState.mk.injEq]
    refine ⟨?_, ?_, ?_, ?_, ?_, ?_⟩ <;> first | trivial | ring
  map_smul' k a := by
    simp only [SpacecraftState.smul_def, SpacecraftState.mul, Prod.smul_fst, Prod.smul_snd, SpacecraftState.mk.injEq,
      RingHom.id_apply, smul_eq_mul]
    refine ⟨?_, ?_, ?_, ?_, ?_, ?_⟩ <;> first | trivial | ring

/-- **C150.** A spacecraft that does not rotate and fires both engines alike keeps its heading exactly, and its way and
velocity in its own frame are those of uniform acceleration. -/
theorem C150_spacecraft (p : ModelParams ℝ) (lo hi w m iz : ℝ) (c : Call (SpacecraftCommands ℝ))
    (hcol : c.collided = false) (hc : c.cmd.acc_left = c.cmd.acc_right) (hs : ∀ h ∈ c.steps, 0 ≤ h)
    (x : SpacecraftState ℝ) (hx : x.dpsi = 0) :
    let T := c.steps.sum
    let a := 2 * accelerationLimits p.accMin p.accMax c.cmd.acc_left
    let d := x.vx * T + a * T ^ 2 / 2
    let e := x.vy * T
    spacecraftCall p lo hi w m iz dormandPrince c x =
      .ok { x with x := x.x + (d * Real.cos x.psi - e * Real.sin x.psi),
                   y := x.y + (d * Real.sin x.psi + e * Real.cos x.psi), vx := x.vx + a * T } := by
  intro T a d e
  have h1 : spacecraftCall p lo hi w m iz dormandPrince c x =
      rkRunE (fun z => .ok (spacecraftRate p lo hi w m iz z c.cmd)) dormandPrince c.steps x := by
    unfold spacecraftCall
    rw [C149_refines _ _ (C94_spacecraft p lo hi w m iz c.collided) spacecraft_linear, hcol]
    rfl
  have hsame : Same (onLineC x.psi) ⟨x.x, x.y, x.psi, 0, x.vy, 0⟩ (fun z => .ok ((z.1.2, a), x.vy))
      (fun z => .ok (spacecraftRate p lo hi w m iz z c.cmd)) := by
    intro z
    have e : onLineC x.psi z + ⟨x.x, x.y, x.psi, 0, x.vy, 0⟩ =
        ⟨x.x + (z.1.1 * Real.cos x.psi - z.2 * Real.sin x.psi), x.y + (z.1.1 * Real.sin x.psi + z.2 * Real.cos x.psi),
          x.psi, z.1.2, x.vy, 0⟩ := by
      show SpacecraftState.add _ _ = _
      simp only [onLineC, LinearMap.coe_mk, AddHom.coe_mk, SpacecraftState.add, SpacecraftState.mk.injEq]
      refine ⟨?_, ?_, ?_, ?_, ?_, ?_⟩ <;> ring
    simp only [e]
    show Except.ok _ = Except.ok _
    simp [spacecraftRate, onLineC, ← hc, speedConstraint, a, two_mul]
  have h2 := rkRunE_affine hsame dormandPrince c.steps ((0, x.vx), 0)
  have e0 : onLineC x.psi ((0, x.vx), 0) + ⟨x.x, x.y, x.psi, 0, x.vy, 0⟩ = x := by
    show SpacecraftState.add _ _ = _
    cases x
    simp only at hx
    simp [onLineC, SpacecraftState.add, hx]
  rw [e0, rkRunE_ok (f := fun z : (ℝ × ℝ) × ℝ => ((z.1.2, a), x.vy))] at h2
  rw [h1, h2]
  have hf := (rkRun_proj (LinearMap.fst ℝ (ℝ × ℝ) ℝ) (0 : ((ℝ × ℝ) × ℝ) →ₗ[ℝ] ℝ) (fun z => ((z.1.2, a), x.vy))
    (fun z => (z.2, a)) dormandPrince c.steps ((0, x.vx), 0) (fun _ => rfl) (fun _ _ => rfl)).1
  have hg := (rkRun_proj (LinearMap.snd ℝ (ℝ × ℝ) ℝ) (0 : ((ℝ × ℝ) × ℝ) →ₗ[ℝ] ℝ) (fun z => ((z.1.2, a), x.vy))
    (fun _ => x.vy) dormandPrince c.steps ((0, x.vx), 0) (fun _ => rfl) (fun _ _ => rfl)).1
  rw [rkRun_const dormandPrince_ok] at hg
  rw [show (LinearMap.fst ℝ (ℝ × ℝ) ℝ) ((0, x.vx), 0) = (0, x.vx) from rfl,
    rk45_uniform _ a c.steps hs 0 x.vx (fun _ _ _ _ => rfl)] at hf
  have hz : rkRun (fun z : (ℝ × ℝ) × ℝ => ((z.1.2, a), x.vy)) dormandPrince c.steps ((0, x.vx), 0) =
      (uniform a T (0, x.vx), T * x.vy) := by
    refine Prod.ext hf (hg.trans ?_)
    simp [T]
  rw [hz]
  show Except.ok (SpacecraftState.add _ _) = _
  simp only [onLineC, LinearMap.coe_mk, AddHom.coe_mk, SpacecraftState.add, uniform, Except.ok.injEq,
    SpacecraftState.mk.injEq, hx]
  refine ⟨?_, ?_, ?_, ?_, ?_, ?_⟩ <;> ring

/-! ## Examples -/

-- a car brakes from 10 to 8 m/s within half a second, in two steps of the solver
example : vehicleCall 2 1 ⟨⟨-2, 30, -8, 5⟩, 1, 1 / 2⟩ true dormandPrince
    ⟨⟨-4, 0, .none⟩, true, [1 / 10, 2 / 5]⟩ ⟨0, 0, 0, 10, 0⟩ = .ok ⟨9 / 2, 0, 0, 8, 0⟩ := by
  have := C150_exact 2 1 ⟨⟨-2, 30, -8, 5⟩, 1, 1 / 2⟩ (by norm_num) true ⟨⟨-4, 0, .none⟩, true, [1 / 10, 2 / 5]⟩ rfl
    (by norm_num) ⟨0, 0, 0, 10, 0⟩ rfl (by norm_num [askedAcc]) (by norm_num [askedAcc]) (by norm_num [askedAcc])
  rw [this]
  norm_num [driven, askedAcc]

-- a differential drive ahead
example : ∃ x', diffDriveCall 1 1 (-5) 5 dormandPrince ⟨⟨1, 1⟩, false, [1]⟩ ⟨0, 0, 0⟩ = .ok x' ∧ x' = ⟨1, 0, 0⟩ := by
  obtain ⟨x', h1, -, h2⟩ := C150_diffDrive 1 1 (-5) 5 dormandPrince_ok ⟨⟨1, 1⟩, false, [1]⟩ rfl ⟨0, 0, 0⟩
  refine ⟨x', h1, (h2 rfl).trans ?_⟩
  norm_num [clip]

end

end Phys
end Verif
