import Verif.Phys.Models
import Verif.Phys.LimitProps
import Mathlib.Analysis.Real.Pi.Bounds
import Mathlib.Analysis.SpecialFunctions.Trigonometric.Bounds

/-!
# C49, C78: tyre forces of the dynamic vehicle
-/

namespace Verif
namespace Phys

theorem evaluate_sin (t : Pacejka) (slip : ℝ) : ∃ a, t.evaluate slip = t.d * Real.sin a := by
  unfold Pacejka.evaluate
  cases t.e <;> exact ⟨_, rfl⟩

/-- **C49.** The normalised lateral force is at most the peak, for every slip, with three or four
parameters of any values. -/
theorem C49_lateral (t : Pacejka) (slip : ℝ) : |t.evaluate slip| ≤ |t.d| := by
  obtain ⟨a, ha⟩ := evaluate_sin t slip
  rw [ha, abs_mul]
  exact mul_le_of_le_one_right (abs_nonneg _) (Real.abs_sin_le_one a)

/-- **C49.** One axle. The square root is never taken of a negative number: the forces are defined unless
the load or the peak is zero. The lateral force is at most the peak times the load, the longitudinal
force is the demand scaled down, without changing its direction, and the pair lies on the ellipse with
the half axes `demand` and `peak * load`. -/
theorem C49_axle (t : Pacejka) (load demand slip : ℝ) :
    (load * t.d = 0 → axleForces t load demand slip = .error .zeroDiv) ∧
    (load * t.d ≠ 0 → ∃ fx fy, axleForces t load demand slip = .ok (fx, fy) ∧
      |fy| ≤ |load * t.d| ∧ |fx| ≤ |demand| ∧ 0 ≤ fx * demand ∧
      (fx * (load * t.d)) ^ 2 + (fy * demand) ^ 2 = (demand * (load * t.d)) ^ 2) := by
  constructor
  · intro h
    unfold axleForces
    simp only
    rw [if_pos h]
  · intro h
    obtain ⟨a, ha⟩ := evaluate_sin t slip
    have hq : t.evaluate slip * load / (load * t.d) = Real.sin a := by
      rw [ha]
      have h1 : load ≠ 0 := left_ne_zero_of_mul h
      have h2 : t.d ≠ 0 := right_ne_zero_of_mul h
      field_simp
    have hs : 1 - Real.sin a ^ 2 = Real.cos a ^ 2 := by
      linear_combination -(Real.sin_sq_add_cos_sq a)
    refine ⟨demand * |Real.cos a|, t.d * Real.sin a * load, ?_, ?_, ?_, ?_, ?_⟩
    · unfold axleForces
      simp only
      rw [if_neg h, hq, hs, if_neg (not_lt.mpr (sq_nonneg _)), Real.sqrt_sq_eq_abs, ha]
    · have : t.d * Real.sin a * load = load * t.d * Real.sin a := by ring
      rw [this, abs_mul]
      exact mul_le_of_le_one_right (abs_nonneg _) (Real.abs_sin_le_one a)
    · rw [abs_mul, abs_abs]
      exact mul_le_of_le_one_right (abs_nonneg _) (Real.abs_cos_le_one a)
    · have : demand * |Real.cos a| * demand = demand ^ 2 * |Real.cos a| := by ring
      rw [this]
      exact mul_nonneg (sq_nonneg _) (abs_nonneg _)
    · have h2 := sq_abs (Real.cos a)
      have h3 := Real.sin_sq_add_cos_sq a
      linear_combination (demand * (load * t.d)) ^ 2 * h2 + (demand * (load * t.d)) ^ 2 * h3

/-- **C49.** Friction circle: if the demand alone could be transmitted, so can the combined force. -/
theorem C49_circle (t : Pacejka) (load demand slip fx fy : ℝ)
    (h : axleForces t load demand slip = .ok (fx, fy)) (hd : |demand| ≤ |load * t.d|) :
    Real.sqrt (fx ^ 2 + fy ^ 2) ≤ |load * t.d| := by
  by_cases h0 : load * t.d = 0
  · rw [(C49_axle t load demand slip).1 h0] at h
    cases h
  · obtain ⟨gx, gy, hg, h1, h2, h3, h4⟩ := (C49_axle t load demand slip).2 h0
    rw [h] at hg
    injection hg with hg
    obtain ⟨rfl, rfl⟩ := Prod.mk.injEq .. ▸ hg
    rw [Real.sqrt_le_left (abs_nonneg _)]
    have hd2 : demand ^ 2 ≤ (load * t.d) ^ 2 := sq_le_sq.mpr hd
    have hp : 0 < (load * t.d) ^ 2 := by positivity
    have hy2 : fy ^ 2 ≤ (load * t.d) ^ 2 := sq_le_sq.mpr h1
    rw [sq_abs]
    -- (fx² + fy²) P² = d² P² + fy² (P² - d²) ≤ P⁴
    have e : (fx ^ 2 + fy ^ 2) * (load * t.d) ^ 2 =
        demand ^ 2 * (load * t.d) ^ 2 + fy ^ 2 * ((load * t.d) ^ 2 - demand ^ 2) := by
      linear_combination h4
    have : (fx ^ 2 + fy ^ 2) * (load * t.d) ^ 2 ≤ (load * t.d) ^ 2 * (load * t.d) ^ 2 := by
      rw [e]
      nlinarith [mul_le_mul_of_nonneg_right hy2 (sub_nonneg.mpr hd2)]
    exact le_of_mul_le_mul_right this hp

/-- **C49.** The two loads add up to the weight, and both axles are pressed to the ground as long as the
acceleration does not lift a wheel. -/
theorem C49_loads (g : VehicleGeom) (hm : 0 < g.m) (hw : 0 < g.lf + g.lr) (acc : ℝ) :
    (g.loads acc).1 + (g.loads acc).2 = -(g.m * gravity) ∧
    (g.hCog * acc < gravity * g.lr → (g.loads acc).1 < 0) ∧
    (-(g.hCog * acc) < gravity * g.lf → (g.loads acc).2 < 0) := by
  unfold VehicleGeom.loads VehicleGeom.wheelbase
  refine ⟨?_, fun h => ?_, fun h => ?_⟩
  · field_simp
    ring
  · apply div_neg_of_neg_of_pos _ hw
    have : 0 < gravity * g.lr - g.hCog * acc := by linarith
    simp only [neg_mul]
    exact neg_neg_of_pos (mul_pos hm this)
  · apply div_neg_of_neg_of_pos _ hw
    have : 0 < gravity * g.lf + g.hCog * acc := by linarith
    simp only [neg_mul]
    exact neg_neg_of_pos (mul_pos hm this)

theorem slip_defined (v : ℝ × ℝ) (h : v ≠ (0, 0)) : ∃ s, slipAngle v = some s := by
  unfold slipAngle
  by_cases h1 : v.1 = 0
  · rw [if_neg (not_not.mpr h1)]
    rcases lt_trichotomy v.2 0 with h2 | h2 | h2
    · rw [if_neg (by linarith), if_pos h2]; exact ⟨_, rfl⟩
    · exact absurd (Prod.ext h1 h2) h
    · rw [if_pos h2]; exact ⟨_, rfl⟩
  · rw [if_pos h1]; exact ⟨_, rfl⟩

theorem rotBy_ne_zero (a : ℝ) (v : ℝ × ℝ) (h : v.1 ≠ 0) : rotBy a v ≠ (0, 0) := by
  intro e
  have e1 : Real.cos a * v.1 - Real.sin a * v.2 = 0 := congrArg Prod.fst e
  have e2 : Real.sin a * v.1 + Real.cos a * v.2 = 0 := congrArg Prod.snd e
  apply h
  linear_combination Real.cos a * e1 + Real.sin a * e2 - v.1 * Real.sin_sq_add_cos_sq a

/-- **C49.** At 0.1 m/s and above the tyre forces are defined (no not-a-number slip, no division by zero,
no root of a negative number) exactly when both loads and both peaks are non-zero. -/
theorem C49_forces_defined (g : VehicleGeom) (front rear : Pacejka) (acc : ℝ) (x : VehicleStateDyn ℝ)
    (hv : 1 / 10 ≤ x.vx) :
    (∃ f, tyreForces g front rear acc x = .ok f) ↔
      (g.loads acc).1 * front.d ≠ 0 ∧ (g.loads acc).2 * rear.d ≠ 0 := by
  have hv0 : x.vx ≠ 0 := by intro h; rw [h] at hv; norm_num at hv
  obtain ⟨s1, h1⟩ := slip_defined _ (rotBy_ne_zero (-x.delta) (x.vx, x.vy + g.lf * x.dpsi) hv0)
  obtain ⟨s2, h2⟩ := slip_defined (x.vx, x.vy - g.lr * x.dpsi) (by
    intro e; exact hv0 (congrArg Prod.fst e))
  unfold tyreForces
  simp only [h1, h2, bind, Except.bind, pure, Except.pure]
  constructor
  · rintro ⟨f, hf⟩
    constructor
    · intro h0
      rw [(C49_axle front _ _ s1).1 h0] at hf
      cases hf
    · intro h0
      rw [(C49_axle rear _ _ s2).1 h0] at hf
      split at hf <;> cases hf
  · rintro ⟨ha, hb⟩
    obtain ⟨fx, fy, hf, -⟩ := (C49_axle front _
      ((accelerationSplit (g.m * acc)).1 + g.cRrF * (g.loads acc).1) s1).2 ha
    obtain ⟨gx, gy, hg, -⟩ := (C49_axle rear _
      ((accelerationSplit (g.m * acc)).2 + g.cRrR * (g.loads acc).2) s2).2 hb
    rw [hf, hg]
    exact ⟨_, rfl⟩

/-- **C49.** The whole rate of the dynamic vehicle is defined in every state, for every command, when
the acceleration limits cannot lift a wheel. -/
theorem C49_defined (g : VehicleGeom) (p : VehicleParams ℝ) (hp : p.Valid) (hm : 0 < g.m)
    (hw : 0 < g.lf + g.lr) (hh : 0 ≤ g.hCog) (h0 : p.accMin ≤ 0) (h1 : 0 ≤ p.accMax)
    (hf : g.hCog * p.accMax < gravity * g.lr) (hr : -(g.hCog * p.accMin) < gravity * g.lf)
    (front rear : Pacejka) (hd1 : front.d ≠ 0) (hd2 : rear.d ≠ 0) (c : Bool)
    (held x : VehicleStateDyn ℝ) (u : VehicleCommands ℝ) :
    ∃ r, vehicleDynRate g p front rear c held x u = .ok r := by
  unfold vehicleDynRate
  by_cases hv : x.vx < 1 / 10
  · simp only [if_pos hv]
    exact ⟨_, rfl⟩
  · simp only [if_neg hv]
    have ha := C42_limits p.toModelParams hp.base x.vx u.acc
    have hb : p.accMin ≤ fullAccelerationLimits p.toModelParams x.vx u.acc ∧
        fullAccelerationLimits p.toModelParams x.vx u.acc ≤ p.accMax := ha.1 h0 h1
    generalize fullAccelerationLimits p.toModelParams x.vx u.acc = acc at *
    have hl := C49_loads g hm hw acc
    have l1 := hl.2.1 (lt_of_le_of_lt (mul_le_mul_of_nonneg_left hb.2 hh) hf)
    have l2 := hl.2.2 (by nlinarith [mul_le_mul_of_nonneg_left hb.1 hh])
    obtain ⟨f, hf⟩ := (C49_forces_defined g front rear acc x (not_lt.mp hv)).2
      ⟨mul_ne_zero l1.ne hd1, mul_ne_zero l2.ne hd2⟩
    rw [hf]
    exact ⟨_, rfl⟩

/-- The default car, vehicle_structures.py:50-75 and vehicle_utils.py:18. -/
noncomputable def defaultCar : VehicleGeom :=
  ⟨1300, 1600, 1.2, 1.2, 0.3756, 2, 0.003, 0.003, 0.7, false⟩
/-- The default truck, vehicle_structures.py:97-110. -/
noncomputable def defaultTruck : VehicleGeom :=
  ⟨8000, 6300, 4, 4, 0.3756, 4, 0.003, 0.003, 0.7, false⟩
/-- The default bicycle, vehicle_structures.py:77-95. -/
noncomputable def defaultBicycle : VehicleGeom :=
  ⟨85, 90, 1, 1, 0.01, 0.2, 0.003, 0.003, 0.7, true⟩

/-- The default vehicles meet the hypotheses of `C49_defined`. -/
example :
    (∀ q ∈ [(defaultCar, (-8 : ℝ), (5 : ℝ)), (defaultTruck, -6, 3.5), (defaultBicycle, -4, 3)],
      0 < q.1.m ∧ 0 < q.1.lf + q.1.lr ∧ 0 ≤ q.1.hCog ∧ q.2.1 ≤ 0 ∧ 0 ≤ q.2.2 ∧
      q.1.hCog * q.2.2 < gravity * q.1.lr ∧ -(q.1.hCog * q.2.1) < gravity * q.1.lf) := by
  simp only [List.mem_cons, List.not_mem_nil, or_false, forall_eq_or_imp, forall_eq, defaultCar,
    defaultTruck, defaultBicycle, gravity]
  norm_num

/-! ## C78: the lateral force opposes the slip -/

/-- **C78.** The tyre curve is odd: left and right are treated alike. -/
theorem C78_odd (t : Pacejka) (slip : ℝ) : t.evaluate (-slip) = -t.evaluate slip := by
  unfold Pacejka.evaluate
  cases t.e with
  | none =>
    simp only [mul_neg, Real.arctan_neg, Real.sin_neg]
  | some e =>
    simp only
    have h : t.b * -slip - e * (t.b * -slip - e * Real.arctan (t.b * -slip)) =
        -(t.b * slip - e * (t.b * slip - e * Real.arctan (t.b * slip))) := by
      rw [mul_neg, Real.arctan_neg]; ring
    rw [h, Real.arctan_neg, mul_neg, Real.sin_neg, mul_neg]

theorem sin_c_arctan_pos {c a : ℝ} (hc : 0 < c) (hc2 : c ≤ 2) (ha : 0 < a) :
    0 < Real.sin (c * Real.arctan a) := by
  have h1 : 0 < Real.arctan a := Real.arctan_pos.mpr ha
  have h2 := Real.arctan_lt_pi_div_two a
  apply Real.sin_pos_of_pos_of_lt_pi (mul_pos hc h1)
  nlinarith

/-- The condition on the parameters for C78: stiffness and peak positive, shape at most two, curvature
between zero and one. -/
structure Pacejka.Regular (t : Pacejka) : Prop where
  b : 0 < t.b
  c : 0 < t.c
  c2 : t.c ≤ 2
  d : 0 < t.d
  e : ∀ e, t.e = some e → 0 ≤ e ∧ e ≤ 1

theorem evaluate_pos (t : Pacejka) (ht : t.Regular) {slip : ℝ} (hs : 0 < slip) :
    0 < t.evaluate slip := by
  unfold Pacejka.evaluate
  have hb := mul_pos ht.b hs
  cases he : t.e with
  | none => exact mul_pos ht.d (sin_c_arctan_pos ht.c ht.c2 hb)
  | some e =>
    refine mul_pos ht.d (sin_c_arctan_pos ht.c ht.c2 ?_)
    obtain ⟨h0, h1⟩ := ht.e e he
    have ha : 0 < Real.arctan (t.b * slip) := Real.arctan_pos.mpr hb
    have e1 : t.b * slip - e * (t.b * slip - e * Real.arctan (t.b * slip)) =
        (1 - e) * (t.b * slip) + e ^ 2 * Real.arctan (t.b * slip) := by ring
    rw [e1]
    rcases h0.lt_or_eq with h | h
    · have := mul_pos (pow_pos h 2) ha
      nlinarith [mul_nonneg (sub_nonneg.mpr h1) hb.le]
    · rw [← h]; nlinarith

/-- **C78.** For regular parameters the lateral force on a pressed axle is directed against the slip:
strictly negative for positive slip, strictly positive for negative slip, zero without slip. -/
theorem C78_opposes_partial (t : Pacejka) (ht : t.Regular) (load demand slip fx fy : ℝ) (hl : load < 0)
    (h : axleForces t load demand slip = .ok (fx, fy)) :
    (0 < slip → fy < 0) ∧ (slip < 0 → 0 < fy) ∧ (slip = 0 → fy = 0) := by
  have hfy : fy = t.evaluate slip * load := by
    unfold axleForces at h
    simp only at h
    split at h
    · cases h
    · split at h
      · cases h
      · injection h with h
        exact (congrArg Prod.snd h).symm
  rw [hfy]
  refine ⟨fun hs => mul_neg_of_pos_of_neg (evaluate_pos t ht hs) hl, fun hs => ?_, fun hs => ?_⟩
  · have := evaluate_pos t ht (neg_pos.mpr hs)
    rw [C78_odd] at this
    exact mul_pos_of_neg_of_neg (by linarith) hl
  · have := C78_odd t 0
    rw [neg_zero] at this
    have h0 : t.evaluate 0 = 0 := by linarith
    rw [hs, h0, zero_mul]

/-- The default tyres of cars, trucks and of the rear wheel of bicycles (tires.py:22-48) are regular. -/
example : (⟨10, 1.9, 0.9, none⟩ : Pacejka).Regular ∧ (⟨11, 1.9, 1, none⟩ : Pacejka).Regular ∧
    (⟨12, 2, 1, none⟩ : Pacejka).Regular := by
  refine ⟨⟨?_, ?_, ?_, ?_, ?_⟩, ⟨?_, ?_, ?_, ?_, ?_⟩, ⟨?_, ?_, ?_, ?_, ?_⟩⟩ <;>
    first | (intro e he; cases he; done) | norm_num

/-- **C78 is false for the default front wheel of bicycles** (shape 2.3, tires.py:38-42): at a slip
angle of one radian the force points the wrong way. -/
theorem C78_false_bicycle_front : (⟨12, 2.3, 0.8, none⟩ : Pacejka).evaluate 1 < 0 := by
  simp only [Pacejka.evaluate]
  have h12 : Real.arctan (12 * 1) = Real.pi / 2 - Real.arctan (12⁻¹) := by
    rw [Real.arctan_inv_of_pos (by norm_num)]
    rw [mul_one]; ring
  have hle : Real.arctan (12⁻¹ : ℝ) ≤ 12⁻¹ := by
    have h := Real.le_tan (Real.arctan_pos.mpr (show (0 : ℝ) < 12⁻¹ by norm_num)).le
      (Real.arctan_lt_pi_div_two _)
    rwa [Real.tan_arctan] at h
  have hpos : 0 < Real.arctan (12⁻¹ : ℝ) := Real.arctan_pos.mpr (by norm_num)
  have hpi := Real.pi_gt_three
  have hs : Real.sin (2.3 * Real.arctan (12 * 1)) < 0 := by
    rw [← neg_pos, ← Real.sin_sub_pi]
    apply Real.sin_pos_of_pos_of_lt_pi
    · rw [h12]; norm_num at hle ⊢; nlinarith
    · rw [h12]; norm_num; nlinarith
  nlinarith

end Phys
end Verif
