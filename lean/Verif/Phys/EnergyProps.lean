import Verif.Phys.Models
import Verif.Phys.TyreProps

/-!
# Properties C78 (axles) and C92: power and kinetic energy of the dynamic vehicle

`frontVel`, `rearVel` are the velocities of the two axles of a rigid body, in the frame of the vehicle,
and `tyreVel` the velocity of the front wheel in its own, steered frame.
-/

namespace Verif
namespace Phys

noncomputable section

/-- Velocity of the front axle in the frame of the vehicle: rigid body with rate of turn `dpsi`. -/
def frontVel (g : VehicleGeom) (s : VehicleStateDyn ℝ) : ℝ × ℝ := (s.vx, s.vy + s.dpsi * g.lf)

/-- Velocity of the rear axle in the frame of the vehicle. -/
def rearVel (g : VehicleGeom) (s : VehicleStateDyn ℝ) : ℝ × ℝ := (s.vx, s.vy + s.dpsi * -g.lr)

/-- Components of a vector along and across a direction at angle `a`. -/
def along (a : ℝ) (v : ℝ × ℝ) : ℝ := v.1 * Real.cos a + v.2 * Real.sin a
/-- Component to the left of a direction at angle `a`. -/
def across (a : ℝ) (v : ℝ × ℝ) : ℝ := v.2 * Real.cos a - v.1 * Real.sin a

/-- Kinetic energy, `0.5 m |v|² + 0.5 I ω²`. -/
def kinetic (g : VehicleGeom) (s : VehicleStateDyn ℝ) : ℝ :=
  g.m * (s.vx ^ 2 + s.vy ^ 2) / 2 + g.iz * s.dpsi ^ 2 / 2

/-- The rate of the kinetic energy when the state changes at the rate `r`. -/
def power (g : VehicleGeom) (s r : VehicleStateDyn ℝ) : ℝ :=
  g.m * (s.vx * r.vx + s.vy * r.vy) + g.iz * s.dpsi * r.dpsi

/-- `power` is the derivative of the kinetic energy along a motion of the model. -/
theorem hasDerivAt_kinetic (g : VehicleGeom) (s : ℝ → VehicleStateDyn ℝ) (r : VehicleStateDyn ℝ) (t : ℝ)
    (h1 : HasDerivAt (fun τ => (s τ).vx) r.vx t) (h2 : HasDerivAt (fun τ => (s τ).vy) r.vy t)
    (h3 : HasDerivAt (fun τ => (s τ).dpsi) r.dpsi t) :
    HasDerivAt (fun τ => kinetic g (s τ)) (power g (s t) r) t := by
  have h := ((((h1.pow 2).add (h2.pow 2)).const_mul g.m).div_const 2).add
    (((h3.pow 2).const_mul g.iz).div_const 2)
  have e : power g (s t) r =
      g.m * ((2 : ℕ) * (s t).vx ^ (2 - 1) * r.vx + (2 : ℕ) * (s t).vy ^ (2 - 1) * r.vy) / 2 +
      g.iz * ((2 : ℕ) * (s t).dpsi ^ (2 - 1) * r.dpsi) / 2 := by
    unfold power; push_cast; ring
  rw [e]
  exact h

theorem arctan_sign (a b : ℝ) (hb : 0 < b) :
    (0 < a → 0 < Real.arctan (a / b)) ∧ (a < 0 → Real.arctan (a / b) < 0) ∧
      (a = 0 → Real.arctan (a / b) = 0) :=
  ⟨fun h => Real.arctan_pos.mpr (div_pos h hb), fun h => by
    rw [← neg_pos, ← Real.arctan_neg, ← neg_div]; exact Real.arctan_pos.mpr (div_pos (by linarith) hb),
    fun h => by rw [h, zero_div, Real.arctan_zero]⟩

theorem tyre_parts (g : VehicleGeom) (front rear : Pacejka) (acc : ℝ) (s : VehicleStateDyn ℝ)
    (F : (ℝ × ℝ) × (ℝ × ℝ)) (h : tyreForces g front rear acc s = .ok F) :
    ∃ a b f, slipAngle (along s.delta (frontVel g s), across s.delta (frontVel g s)) = some a ∧
      slipAngle (rearVel g s) = some b ∧
      axleForces front (g.loads acc).1 ((accelerationSplit (g.m * acc)).1 + g.cRrF * (g.loads acc).1) a = .ok f ∧
      axleForces rear (g.loads acc).2 ((accelerationSplit (g.m * acc)).2 + g.cRrR * (g.loads acc).2) b = .ok F.2 ∧
      f = (along s.delta F.1, across s.delta F.1) := by
  have v1 : rotBy (-s.delta) (s.vx, s.vy + g.lf * s.dpsi) =
      (along s.delta (frontVel g s), across s.delta (frontVel g s)) := by
    simp only [rotBy, along, across, frontVel, Real.cos_neg, Real.sin_neg, Prod.mk.injEq]
    constructor <;> ring
  have v2 : (s.vx, s.vy - g.lr * s.dpsi) = rearVel g s := by
    simp only [rearVel, Prod.mk.injEq, true_and]; ring
  unfold tyreForces at h
  simp only [v1, v2] at h
  cases h1 : slipAngle (along s.delta (frontVel g s), across s.delta (frontVel g s)) with
  | none => simp [h1, bind, Except.bind] at h
  | some a =>
    simp only [h1, bind, Except.bind] at h
    cases h2 : axleForces front (g.loads acc).1 ((accelerationSplit (g.m * acc)).1 + g.cRrF * (g.loads acc).1) a with
    | error e => simp [h2] at h
    | ok f =>
      simp only [h2] at h
      cases h3 : slipAngle (rearVel g s) with
      | none => simp [h3] at h
      | some b =>
        simp only [h3] at h
        cases h4 : axleForces rear (g.loads acc).2 ((accelerationSplit (g.m * acc)).2 + g.cRrR * (g.loads acc).2) b with
        | error e => simp [h4] at h
        | ok f' =>
          simp only [h4, pure, Except.pure] at h
          injection h with h
          subst h
          refine ⟨a, b, f, rfl, rfl, h2, h4, ?_⟩
          have hc := Real.cos_sq_add_sin_sq s.delta
          ext
          · simp only [along, rotBy]; linear_combination -f.1 * hc
          · simp only [across, rotBy]; linear_combination -f.2 * hc

/-- **C78.** On the whole vehicle, at 0.1 m/s and above, with both axles pressed to the ground: the lateral
force of the rear axle is directed against the sideways motion of the rear axle, and, as long as the front
wheel rolls forwards, the lateral force of the front wheel (in its steered frame) against the sideways
motion of that wheel. -/
theorem C78_axles (g : VehicleGeom) (front rear : Pacejka) (hf : front.Regular) (hr : rear.Regular)
    (acc : ℝ) (s : VehicleStateDyn ℝ) (hv : 1 / 10 ≤ s.vx) (h1 : (g.loads acc).1 < 0)
    (h2 : (g.loads acc).2 < 0) (F1 F2 : ℝ × ℝ) (h : tyreForces g front rear acc s = .ok (F1, F2)) :
    ((0 < (rearVel g s).2 → F2.2 < 0) ∧ ((rearVel g s).2 < 0 → 0 < F2.2) ∧
      ((rearVel g s).2 = 0 → F2.2 = 0)) ∧
    (0 < along s.delta (frontVel g s) →
      (0 < across s.delta (frontVel g s) → across s.delta F1 < 0) ∧
      (across s.delta (frontVel g s) < 0 → 0 < across s.delta F1) ∧
      (across s.delta (frontVel g s) = 0 → across s.delta F1 = 0)) := by
  obtain ⟨a, b, f, ha, hb, hA, hB, hfe⟩ := tyre_parts g front rear acc s (F1, F2) h
  subst hfe
  have hvx : 0 < s.vx := by linarith
  constructor
  · have hbe : b = Real.arctan ((rearVel g s).2 / s.vx) := by
      unfold slipAngle at hb
      rw [if_pos (show (rearVel g s).1 ≠ 0 from hvx.ne')] at hb
      injection hb with hb
      exact hb.symm
    obtain ⟨s1, s2, s3⟩ := arctan_sign (rearVel g s).2 s.vx hvx
    obtain ⟨o1, o2, o3⟩ := C78_opposes_partial rear hr _ _ b F2.1 F2.2 h2 hB
    rw [hbe] at o1 o2 o3
    exact ⟨fun k => o1 (s1 k), fun k => o2 (s2 k), fun k => o3 (s3 k)⟩
  · intro hx
    have hae : a = Real.arctan (across s.delta (frontVel g s) / along s.delta (frontVel g s)) := by
      unfold slipAngle at ha
      rw [if_pos hx.ne'] at ha
      injection ha with ha
      exact ha.symm
    obtain ⟨s1, s2, s3⟩ := arctan_sign (across s.delta (frontVel g s)) _ hx
    obtain ⟨o1, o2, o3⟩ := C78_opposes_partial front hf _ _ a _ _ h1 hA
    rw [hae] at o1 o2 o3
    exact ⟨fun k => o1 (s1 k), fun k => o2 (s2 k), fun k => o3 (s3 k)⟩

/-- **C76.** Straight driving of the dynamic vehicle, at 0.1 m/s and above and before any collision: with
no steering, no sideways motion and no spin there is none to come, and mass times the rate of the speed is
the demanded force, less the rolling resistance of both axles under their loads (which balance the weight
and the pitching moment of the acceleration) and the drag. -/
theorem C76_straight (g : VehicleGeom) (hm : g.m ≠ 0) (hw : g.lf + g.lr ≠ 0) (p : VehicleParams ℝ)
    (front rear : Pacejka) (held s r : VehicleStateDyn ℝ) (u : VehicleCommands ℝ) (hv : 1 / 10 ≤ s.vx)
    (hd : s.delta = 0) (hy : s.vy = 0) (hs : s.dpsi = 0)
    (hr : vehicleDynRate g p front rear false held s u = .ok r) :
    r.vy = 0 ∧ r.dpsi = 0 ∧ r.psi = 0 ∧
    ∃ n1 n2 acc, n1 + n2 = -(g.m * gravity) ∧ n1 * g.lf - n2 * g.lr = g.m * g.hCog * acc ∧
      acc = fullAccelerationLimits p.toModelParams s.vx u.acc ∧
      g.m * r.vx = g.m * acc + g.cRrF * n1 + g.cRrR * n2 -
        1 / 2 * s.vx * g.aDrag * g.cDrag * rhoAir ^ 2 := by
  have hvx : 0 < s.vx := by linarith
  simp only [vehicleDynRate, if_neg (not_lt.mpr hv)] at hr
  generalize hA : fullAccelerationLimits p.toModelParams s.vx u.acc = acc at hr ⊢
  cases hF : tyreForces g front rear acc s with
  | error e => rw [hF] at hr; cases hr
  | ok F =>
    obtain ⟨a, b, f, ha, hb, h1, h2, hf⟩ := tyre_parts g front rear acc s F hF
    have e0 : ∀ t : Pacejka, t.evaluate 0 = 0 := by
      intro t
      unfold Pacejka.evaluate
      cases t.e <;> simp
    have ea : a = 0 := by
      simp only [slipAngle, along, across, frontVel, hd, hy, hs, Real.cos_zero, Real.sin_zero] at ha
      simpa [hvx.ne'] using ha.symm
    have eb : b = 0 := by
      simp only [slipAngle, rearVel, hy, hs] at hb
      simpa [hvx.ne'] using hb.symm
    have ax : ∀ (t : Pacejka) (l d : ℝ) (f : ℝ × ℝ), axleForces t l d 0 = .ok f → f = (d, 0) := by
      intro t l d f h
      unfold axleForces at h
      simp only [e0, zero_mul, zero_div] at h
      split at h
      · cases h
      · norm_num at h
        exact h.symm
    rw [ea] at h1
    rw [eb] at h2
    have f1 := ax _ _ _ _ h1
    have f2 := ax _ _ _ _ h2
    rw [f1] at hf
    simp only [along, across, hd, Real.cos_zero, Real.sin_zero, Prod.mk.injEq] at hf
    have fx : F.1.1 = (accelerationSplit (g.m * acc)).1 + g.cRrF * (g.loads acc).1 := by
      linear_combination -hf.1
    have fy : F.1.2 = 0 := by linear_combination -hf.2
    have hsum : (accelerationSplit (g.m * acc)).1 + (accelerationSplit (g.m * acc)).2 = g.m * acc := by
      unfold accelerationSplit
      split <;> ring
    simp only [hF, bind, Except.bind, pure, Except.pure, Except.ok.injEq, collisionFriction,
      Bool.false_eq_true, if_false] at hr
    subst hr
    simp only [fx, fy, f2, hy, hs]
    refine ⟨by simp, by simp, trivial, (g.loads acc).1, (g.loads acc).2, acc, ?_, ?_, rfl, ?_⟩
    · unfold VehicleGeom.loads VehicleGeom.wheelbase
      field_simp
      ring
    · unfold VehicleGeom.loads VehicleGeom.wheelbase
      field_simp
      ring
    · field_simp
      linear_combination 20 * hsum

/-- The default car going straight at 10 m/s meets the hypotheses. -/
example : let p : VehicleParams ℝ := ⟨⟨-4, 36, -8, 5⟩, 1 / 2, 1⟩
    let s : VehicleStateDyn ℝ := { x := 0, y := 0, psi := 0, vx := 10, delta := 0, vy := 0, dpsi := 0 }
    defaultCar.m ≠ 0 ∧ defaultCar.lf + defaultCar.lr ≠ 0 ∧ 1 / 10 ≤ s.vx ∧
      ∃ r, vehicleDynRate defaultCar p ⟨10, 1.9, 0.9, none⟩ ⟨10, 1.9, 0.9, none⟩ false s s
        { acc := -3, ddelta := 0 } = .ok r := by
  intro p s
  refine ⟨by norm_num [defaultCar], by norm_num [defaultCar], by norm_num [s], ?_⟩
  apply C49_defined
  · exact ⟨⟨by norm_num [p], by norm_num [p]⟩, by norm_num [p], by norm_num [p]⟩
  all_goals norm_num [p, defaultCar, gravity]

/-- **C92.** Power balance, at 0.1 m/s and above and before any collision: the kinetic energy changes by the
work of the axle forces at the velocities of the axles and of the drag at the forward speed, by nothing
else. -/
theorem C92_power (g : VehicleGeom) (hm : g.m ≠ 0) (hi : g.iz ≠ 0) (p : VehicleParams ℝ)
    (front rear : Pacejka) (held s r : VehicleStateDyn ℝ) (u : VehicleCommands ℝ) (hv : 1 / 10 ≤ s.vx)
    (h : vehicleDynRate g p front rear false held s u = .ok r) :
    ∃ F1 F2 : ℝ × ℝ,
      tyreForces g front rear (fullAccelerationLimits p.toModelParams s.vx u.acc) s = .ok (F1, F2) ∧
      power g s r = (F1.1 * (frontVel g s).1 + F1.2 * (frontVel g s).2) +
        (F2.1 * (rearVel g s).1 + F2.2 * (rearVel g s).2) -
        s.vx ^ 2 * g.aDrag * g.cDrag * rhoAir ^ 2 / 2 := by
  unfold vehicleDynRate at h
  simp only [if_neg (not_lt.mpr hv)] at h
  cases hf : tyreForces g front rear (fullAccelerationLimits p.toModelParams s.vx u.acc) s with
  | error e => simp [hf, bind, Except.bind] at h
  | ok F =>
    simp only [hf, bind, Except.bind, pure, Except.pure] at h
    injection h with h
    subst h
    refine ⟨F.1, F.2, rfl, ?_⟩
    simp only [power, frontVel, rearVel, collisionFriction, if_false, Bool.false_eq_true]
    field_simp
    ring

theorem along_across (a : ℝ) (f v : ℝ × ℝ) :
    f.1 * v.1 + f.2 * v.2 = along a f * along a v + across a f * across a v := by
  have hc := Real.cos_sq_add_sin_sq a
  simp only [along, across]
  linear_combination -(f.1 * v.1 + f.2 * v.2) * hc

/-- **C92 (partial).** Without accelerating (limited acceleration not positive), at 0.1 m/s and above and before any
collision, the kinetic energy does not grow while the front wheel rolls forwards. Missing: a front wheel
that is moving backwards in its own frame, for which the claim is false (`C92_false_backwards`). -/
theorem C92_coasting_partial (g : VehicleGeom) (hm : 0 < g.m) (hi : g.iz ≠ 0) (hd : 0 ≤ g.aDrag * g.cDrag)
    (hc1 : 0 ≤ g.cRrF) (hc2 : 0 ≤ g.cRrR) (p : VehicleParams ℝ) (front rear : Pacejka)
    (hf : front.Regular) (hr : rear.Regular) (held s r : VehicleStateDyn ℝ) (u : VehicleCommands ℝ)
    (hv : 1 / 10 ≤ s.vx) (hroll : 0 < along s.delta (frontVel g s))
    (ha : fullAccelerationLimits p.toModelParams s.vx u.acc ≤ 0)
    (l1 : (g.loads (fullAccelerationLimits p.toModelParams s.vx u.acc)).1 < 0)
    (l2 : (g.loads (fullAccelerationLimits p.toModelParams s.vx u.acc)).2 < 0)
    (h : vehicleDynRate g p front rear false held s u = .ok r) : power g s r ≤ 0 := by
  obtain ⟨F1, F2, hF, hp⟩ := C92_power g hm.ne' hi p front rear held s r u hv h
  generalize fullAccelerationLimits p.toModelParams s.vx u.acc = acc at *
  obtain ⟨⟨r1, r2, r3⟩, hfr⟩ := C78_axles g front rear hf hr acc s hv l1 l2 F1 F2 hF
  obtain ⟨f1, f2, f3⟩ := hfr hroll
  obtain ⟨a, b, f, -, -, hA, hB, hfe⟩ := tyre_parts g front rear acc s (F1, F2) hF
  subst hfe
  have hma : g.m * acc ≤ 0 := mul_nonpos_of_nonneg_of_nonpos hm.le ha
  have d1 : (accelerationSplit (g.m * acc)).1 + g.cRrF * (g.loads acc).1 ≤ 0 := by
    simp only [accelerationSplit, if_pos hma]
    nlinarith [mul_nonneg hc1 (neg_nonneg.mpr l1.le)]
  have d2 : (accelerationSplit (g.m * acc)).2 + g.cRrR * (g.loads acc).2 ≤ 0 := by
    simp only [accelerationSplit, if_pos hma]
    nlinarith [mul_nonneg hc2 (neg_nonneg.mpr l2.le)]
  have hnp : ∀ (t : Pacejka) (load demand slip fx fy : ℝ), axleForces t load demand slip = .ok (fx, fy) →
      demand ≤ 0 → fx ≤ 0 := by
    intro t load demand slip fx fy hh hd0
    unfold axleForces at hh
    simp only at hh
    split at hh
    · cases hh
    · split at hh
      · cases hh
      · injection hh with hh
        obtain ⟨h', -⟩ := Prod.mk.injEq .. ▸ hh
        rw [← h']
        exact mul_nonpos_of_nonpos_of_nonneg hd0 (Real.sqrt_nonneg _)
  have x1 := hnp front _ _ a _ _ hA d1
  have x2 : F2.1 ≤ 0 := hnp rear _ _ b F2.1 F2.2 hB d2
  have lat : ∀ v fy : ℝ, (0 < v → fy < 0) → (v < 0 → 0 < fy) → (v = 0 → fy = 0) → fy * v ≤ 0 := by
    intro v fy k1 k2 k3
    rcases lt_trichotomy v 0 with hk | hk | hk
    · exact mul_nonpos_of_nonneg_of_nonpos (k2 hk).le hk.le
    · rw [hk, mul_zero]
    · exact mul_nonpos_of_nonpos_of_nonneg (k1 hk).le hk.le
  have p1 := lat _ _ f1 f2 f3
  have p2 := lat _ _ r1 r2 r3
  have q1 : along s.delta F1 * along s.delta (frontVel g s) ≤ 0 :=
    mul_nonpos_of_nonpos_of_nonneg x1 hroll.le
  have q2 : F2.1 * (rearVel g s).1 ≤ 0 :=
    mul_nonpos_of_nonpos_of_nonneg x2 (by show (0 : ℝ) ≤ s.vx; linarith)
  have q3 : 0 ≤ s.vx ^ 2 * g.aDrag * g.cDrag * rhoAir ^ 2 / 2 := by
    have : s.vx ^ 2 * g.aDrag * g.cDrag * rhoAir ^ 2 / 2 = s.vx ^ 2 * (g.aDrag * g.cDrag) * rhoAir ^ 2 / 2 := by
      ring
    rw [this]; positivity
  rw [hp, along_across s.delta F1 (frontVel g s)]
  linarith

/-- The state of `C92_false_backwards`: spinning with the wheels turned. -/
def spinning : VehicleStateDyn ℝ :=
  { x := 0, y := 0, psi := 0, vx := 1 / 10, delta := Real.pi / 4, vy := -1 / 2, dpsi := -1 / 2 }

/-- A car without drag and rolling resistance. -/
def freeCar : VehicleGeom := ⟨1000, 1000, 1, 1, 0, 0, 0, 0, 1 / 2, false⟩

/-- **C92 is false** when the front wheel moves backwards in its own frame: the slip angle is computed without
its quadrant, so that the lateral force of any regular tyre pushes the sliding wheel on, and a car without
any commands and resistances gains energy. -/
theorem C92_false_backwards (p : VehicleParams ℝ) (hp : p.Valid) (h0 : p.accMin ≤ 0) (h1 : 0 ≤ p.accMax)
    (front rear : Pacejka) (hf : front.Regular) (hr : rear.Regular) (u : VehicleCommands ℝ)
    (hu : u.acc = 0) (held : VehicleStateDyn ℝ) :
    ∃ r, vehicleDynRate freeCar p front rear false held spinning u = .ok r ∧ 0 < power freeCar spinning r := by
  have hv : (1 : ℝ) / 10 ≤ spinning.vx := le_refl _
  have hacc : fullAccelerationLimits p.toModelParams spinning.vx u.acc = 0 := by
    rw [hu]
    simp [fullAccelerationLimits, accelerationLimits, speedConstraint, not_lt.mpr h0, not_lt.mpr h1]
  have l1 : (freeCar.loads 0).1 < 0 := by norm_num [VehicleGeom.loads, freeCar, gravity, VehicleGeom.wheelbase]
  have l2 : (freeCar.loads 0).2 < 0 := by norm_num [VehicleGeom.loads, freeCar, gravity, VehicleGeom.wheelbase]
  obtain ⟨F, hF⟩ := (C49_forces_defined freeCar front rear 0 spinning hv).mpr
    ⟨mul_ne_zero l1.ne hf.d.ne', mul_ne_zero l2.ne hr.d.ne'⟩
  have hrate : ∃ r, vehicleDynRate freeCar p front rear false held spinning u = .ok r := by
    unfold vehicleDynRate
    simp only [if_neg (not_lt.mpr hv), hacc, hF, bind, Except.bind]
    exact ⟨_, rfl⟩
  obtain ⟨r, hrr⟩ := hrate
  refine ⟨r, hrr, ?_⟩
  obtain ⟨F1, F2, hF', hpow⟩ := C92_power freeCar (by norm_num [freeCar]) (by norm_num [freeCar]) p front rear
    held spinning r u hv hrr
  rw [hacc] at hF'
  obtain ⟨a, b, f, ha, -, hA, hB, hfe⟩ := tyre_parts freeCar front rear 0 spinning (F1, F2) hF'
  obtain ⟨⟨-, -, r3⟩, -⟩ := C78_axles freeCar front rear hf hr 0 spinning hv l1 l2 F1 F2 hF'
  subst hfe
  have hz : ∀ (t : Pacejka) (load demand slip fx fy : ℝ), axleForces t load demand slip = .ok (fx, fy) →
      demand = 0 → fx = 0 := by
    intro t load demand slip fx fy hh hd0
    unfold axleForces at hh
    simp only at hh
    split at hh
    · cases hh
    · split at hh
      · cases hh
      · injection hh with hh
        obtain ⟨h', -⟩ := Prod.mk.injEq .. ▸ hh
        rw [← h', hd0, zero_mul]
  have x1 := hz _ _ _ _ _ _ hA (by simp [accelerationSplit, freeCar])
  have x2 : F2.1 = 0 := hz _ _ _ _ F2.1 F2.2 hB (by simp [accelerationSplit, freeCar])
  have y2 : F2.2 = 0 := r3 (by norm_num [rearVel, spinning, freeCar])
  have hs2 : (0 : ℝ) < Real.sqrt 2 := Real.sqrt_pos.mpr (by norm_num)
  have w1 : along spinning.delta (frontVel freeCar spinning) = -(9 / 20) * Real.sqrt 2 := by
    simp only [along, frontVel, spinning, freeCar, Real.cos_pi_div_four, Real.sin_pi_div_four]; ring
  have w2 : across spinning.delta (frontVel freeCar spinning) = -(11 / 20) * Real.sqrt 2 := by
    simp only [across, frontVel, spinning, freeCar, Real.cos_pi_div_four, Real.sin_pi_div_four]; ring
  have hsl : 0 < a := by
    unfold slipAngle at ha
    simp only [w1, w2] at ha
    rw [if_pos (by nlinarith)] at ha
    injection ha with ha
    rw [← ha]
    exact Real.arctan_pos.mpr (div_pos_of_neg_of_neg (by nlinarith) (by nlinarith))
  have hneg := (C78_opposes_partial front hf _ _ a _ _ l1 hA).1 hsl
  rw [hpow, along_across spinning.delta F1 (frontVel freeCar spinning), x1, x2, y2, w2]
  have e : freeCar.aDrag = 0 := rfl
  rw [e]
  nlinarith [mul_pos (neg_pos.mpr hneg) hs2]

/-- A coasting default car, going straight at 10 m/s and drifting, meets the hypotheses of
`C92_coasting_partial`. -/
example : 0 < defaultCar.m ∧ defaultCar.iz ≠ 0 ∧ 0 ≤ defaultCar.aDrag * defaultCar.cDrag ∧ 0 ≤ defaultCar.cRrF ∧
    0 ≤ defaultCar.cRrR ∧ (⟨10, 1.9, 0.9, none⟩ : Pacejka).Regular ∧
    (let s : VehicleStateDyn ℝ := { x := 0, y := 0, psi := 0, vx := 10, delta := 0, vy := 1, dpsi := 1 / 10 }
     1 / 10 ≤ s.vx ∧ 0 < along s.delta (frontVel defaultCar s) ∧
     fullAccelerationLimits (⟨-4, 36, -8, 5⟩ : ModelParams ℝ) s.vx 0 ≤ 0) ∧
    (defaultCar.loads 0).1 < 0 ∧ (defaultCar.loads 0).2 < 0 := by
  refine ⟨?_, ?_, ?_, ?_, ?_, ⟨?_, ?_, ?_, ?_, ?_⟩, ⟨?_, ?_, ?_⟩, ?_, ?_⟩
  all_goals first
    | (intro e he; cases he; done)
    | norm_num [defaultCar, along, frontVel, fullAccelerationLimits, speedConstraint, accelerationLimits,
        VehicleGeom.loads, VehicleGeom.wheelbase, gravity]

end

end Phys
end Verif
