import Verif.Basic
import Verif.Num
import Mathlib.Tactic.Ring
import Mathlib.Data.Rat.Defs
import Mathlib.Algebra.Order.Ring.Rat

/-!
# The PID controller (src/dg_commons/controllers/pid.py) and properties C18, C19
-/

namespace Verif

variable {K : Type*} [Field K] [LinearOrder K]

/-- `PIDParam`, pid.py:9-21. -/
structure PIDParam (K : Type*) where
  kP : K
  kI : K
  kD : K
  antiwindup : K × K
  setpoint : K × K
  output : K × K
  deriving DecidableEq, Repr

/-- `PIDParam.__post_init__`, pid.py:18-21. -/
def PIDParam.mk? (kP kI kD : K) (antiwindup setpoint output : K × K) :
    Except Err (PIDParam K) :=
  if ¬ antiwindup.1 < antiwindup.2 then .error .assertion
  else if ¬ setpoint.1 < setpoint.2 then .error .assertion
  else if ¬ output.1 < output.2 then .error .assertion
  else .ok ⟨kP, kI, kD, antiwindup, setpoint, output⟩

/-- Attributes of a `PID` object, pid.py:27-33 (the parameters are kept apart). -/
structure PIDState (K : Type*) where
  measurement : K
  reference : K
  lastRequestAt : Option K
  lastIntegralError : K
  lastProportionalError : K
  deriving DecidableEq, Repr

/-- `PID.__init__`, pid.py:27-33. -/
def PIDState.init : PIDState K := ⟨0, 0, none, 0, 0⟩

/-- `update_measurement`, pid.py:35-36. -/
def PIDState.updateMeasurement (s : PIDState K) (m : K) : PIDState K := { s with measurement := m }

/-- `update_reference`, pid.py:38-41. -/
def PIDState.updateReference (p : PIDParam K) (s : PIDState K) (r : K) : PIDState K :=
  { s with reference := npClip r p.setpoint.1 p.setpoint.2 }

/-- `get_control`, pid.py:43-57: state after the call and result. Division is guarded by
`dt == 0` as in the code; Python's `ZeroDivisionError` is the `.error .zeroDiv` branch, reached
only if the guard were missing. -/
def PIDState.getControl (p : PIDParam K) (s : PIDState K) (t : K) :
    PIDState K × Except Err K :=
  let dt : K := match s.lastRequestAt with
    | none => 0
    | some t0 => t - t0
  let s1 := { s with lastRequestAt := some t }
  let pError := s1.reference - s1.measurement
  let integral := npClip (s1.lastIntegralError + p.kI * pError * dt) p.antiwindup.1 p.antiwindup.2
  let s2 := { s1 with lastIntegralError := integral }
  let dError : Except Err K :=
    if ¬ dt = 0 then (if dt = 0 then .error .zeroDiv else .ok ((pError - s2.lastProportionalError) / dt))
    else .ok 0
  match dError with
  | .error e => (s2, .error e)
  | .ok d =>
    let s3 := { s2 with lastProportionalError := pError }
    let out := p.kP * pError + s3.lastIntegralError + p.kD * d
    (s3, .ok (npClip out p.output.1 p.output.2))

/-- The calls a user can make. -/
inductive PIDOp (K : Type*) where
  | measure (m : K)
  | refer (r : K)
  | control (t : K)
  deriving DecidableEq, Repr

/-- One call; `none` for calls that return nothing. -/
def PIDState.step (p : PIDParam K) (s : PIDState K) : PIDOp K → PIDState K × Option (Except Err K)
  | .measure m => (s.updateMeasurement m, none)
  | .refer r => (s.updateReference p r, none)
  | .control t => ((s.getControl p t).1, some (s.getControl p t).2)

/-- A history of calls from a fresh controller: final state and the results in order. -/
def PIDState.run (p : PIDParam K) : PIDState K → List (PIDOp K) →
    PIDState K × List (Except Err K)
  | s, [] => (s, [])
  | s, op :: ops =>
    let r := s.step p op
    let q := PIDState.run p r.1 ops
    (q.1, r.2.toList ++ q.2)

/-! ## C18 -/

theorem getControl_out (p : PIDParam K) (s : PIDState K) (t : K) :
    ∃ x, (s.getControl p t).2 = .ok (npClip x p.output.1 p.output.2) := by
  simp only [PIDState.getControl]
  by_cases h : (match s.lastRequestAt with | none => (0 : K) | some t0 => t - t0) = 0
  · simp only [h, not_true_eq_false, if_false]; exact ⟨_, rfl⟩
  · simp only [h, not_false_eq_true, if_true, if_false]; exact ⟨_, rfl⟩

theorem getControl_integral (p : PIDParam K) (s : PIDState K) (t : K) :
    ∃ x, (s.getControl p t).1.lastIntegralError = npClip x p.antiwindup.1 p.antiwindup.2 := by
  simp only [PIDState.getControl]
  by_cases h : (match s.lastRequestAt with | none => (0 : K) | some t0 => t - t0) = 0
  · simp only [h, not_true_eq_false, if_false]; exact ⟨_, rfl⟩
  · simp only [h, not_false_eq_true, if_true, if_false]; exact ⟨_, rfl⟩

theorem getControl_reference (p : PIDParam K) (s : PIDState K) (t : K) :
    (s.getControl p t).1.reference = s.reference := by
  simp only [PIDState.getControl]
  by_cases h : (match s.lastRequestAt with | none => (0 : K) | some t0 => t - t0) = 0
  · simp only [h, not_true_eq_false, if_false]
  · simp only [h, not_false_eq_true, if_true, if_false]

/-- **C18** In every history of calls with validated parameters every request for control
returns a number, within the output limits. -/
theorem C18_outputs (kP kI kD : K) (aw sp om : K × K) (p : PIDParam K)
    (hp : PIDParam.mk? kP kI kD aw sp om = .ok p) (ops : List (PIDOp K)) :
    (PIDState.run p PIDState.init ops).2.length =
      (ops.filter (fun o => match o with | .control _ => true | _ => false)).length ∧
    ∀ r ∈ (PIDState.run p PIDState.init ops).2, ∃ x, r = .ok x ∧ om.1 ≤ x ∧ x ≤ om.2 := by
  obtain ⟨h3, rfl⟩ : om.1 < om.2 ∧ p = ⟨kP, kI, kD, aw, sp, om⟩ := by
    unfold PIDParam.mk? at hp
    split at hp
    · cases hp
    · split at hp
      · cases hp
      · split at hp
        · cases hp
        · rename_i h; injection hp with hp; exact ⟨not_not.mp h, hp.symm⟩
  generalize (PIDState.init : PIDState K) = s
  induction ops generalizing s with
  | nil => simp [PIDState.run]
  | cons op ops ih =>
    simp only [PIDState.run]
    cases op with
    | measure m =>
      simpa [PIDState.step] using ih _
    | refer r =>
      simpa [PIDState.step] using ih _
    | control t =>
      obtain ⟨h1, h2⟩ := ih (s.getControl ⟨kP, kI, kD, aw, sp, om⟩ t).1
      simp only [PIDState.step, Option.toList, List.singleton_append, List.length_cons, h1,
        List.filter_cons]
      refine ⟨by simp, ?_⟩
      intro r hr
      rcases List.mem_cons.mp hr with rfl | hr
      · obtain ⟨x, hx⟩ := getControl_out (⟨kP, kI, kD, aw, sp, om⟩ : PIDParam K) s t
        exact ⟨_, hx, le_npClip _ _ _ h3.le, npClip_le _ _ _⟩
      · exact h2 r hr

/-- **C18** After any history that has set a reference the stored reference is within the set
point limits; after any history with a request the integral term is within the antiwindup
limits. -/
theorem C18_state (kP kI kD : K) (aw sp om : K × K) (p : PIDParam K)
    (hp : PIDParam.mk? kP kI kD aw sp om = .ok p) (ops : List (PIDOp K)) :
    ((∃ r, .refer r ∈ ops) →
      sp.1 ≤ (PIDState.run p PIDState.init ops).1.reference ∧
      (PIDState.run p PIDState.init ops).1.reference ≤ sp.2) ∧
    ((∃ t, .control t ∈ ops) →
      aw.1 ≤ (PIDState.run p PIDState.init ops).1.lastIntegralError ∧
      (PIDState.run p PIDState.init ops).1.lastIntegralError ≤ aw.2) := by
  obtain ⟨h1, h2, rfl⟩ : aw.1 < aw.2 ∧ sp.1 < sp.2 ∧ p = ⟨kP, kI, kD, aw, sp, om⟩ := by
    unfold PIDParam.mk? at hp
    split at hp
    · cases hp
    · split at hp
      · cases hp
      · split at hp
        · cases hp
        · rename_i a b _; injection hp with hp; exact ⟨not_not.mp a, not_not.mp b, hp.symm⟩
  have key : ∀ (ops : List (PIDOp K)) (s : PIDState K),
      (((∃ r, .refer r ∈ ops) ∨ (sp.1 ≤ s.reference ∧ s.reference ≤ sp.2)) →
        sp.1 ≤ (PIDState.run ⟨kP, kI, kD, aw, sp, om⟩ s ops).1.reference ∧
        (PIDState.run ⟨kP, kI, kD, aw, sp, om⟩ s ops).1.reference ≤ sp.2) ∧
      (((∃ t, .control t ∈ ops) ∨ (aw.1 ≤ s.lastIntegralError ∧ s.lastIntegralError ≤ aw.2)) →
        aw.1 ≤ (PIDState.run ⟨kP, kI, kD, aw, sp, om⟩ s ops).1.lastIntegralError ∧
        (PIDState.run ⟨kP, kI, kD, aw, sp, om⟩ s ops).1.lastIntegralError ≤ aw.2) := by
    intro ops
    induction ops with
    | nil =>
      intro s
      simp [PIDState.run]
    | cons op ops ih =>
      intro s
      simp only [PIDState.run]
      cases op with
      | measure m =>
        have := ih (s.updateMeasurement m)
        simpa [PIDState.step, PIDState.updateMeasurement] using this
      | refer r =>
        obtain ⟨i1, i2⟩ := ih (s.updateReference ⟨kP, kI, kD, aw, sp, om⟩ r)
        constructor
        · intro _
          exact i1 (Or.inr ⟨le_npClip _ _ _ h2.le, npClip_le _ _ _⟩)
        · rintro (⟨t, ht⟩ | h)
          · exact i2 (Or.inl ⟨t, by simpa using ht⟩)
          · exact i2 (Or.inr h)
      | control t =>
        obtain ⟨i1, i2⟩ := ih (s.getControl ⟨kP, kI, kD, aw, sp, om⟩ t).1
        constructor
        · rintro (⟨t, ht⟩ | h)
          · exact i1 (Or.inl ⟨t, by simpa using ht⟩)
          · exact i1 (Or.inr (by rw [getControl_reference]; exact h))
        · intro _
          obtain ⟨x, hx⟩ := getControl_integral (⟨kP, kI, kD, aw, sp, om⟩ : PIDParam K) s t
          exact i2 (Or.inr (by rw [hx]; exact ⟨le_npClip _ _ _ h1.le, npClip_le _ _ _⟩))
  exact ⟨fun h => (key ops _).1 (Or.inl h), fun h => (key ops _).2 (Or.inl h)⟩

example : PIDParam.mk? (4 : ℚ) (1/100) (1/10) (-2, 2) (-3, 40) (-8, 5) =
    .ok ⟨4, 1/100, 1/10, (-2, 2), (-3, 40), (-8, 5)⟩ := by decide +kernel
example : (PIDState.run (⟨4, 1/100, 1/10, (-2, 2), (-3, 40), (-8, 5)⟩ : PIDParam ℚ) PIDState.init
    [.refer 1, .control 0, .measure (1/2), .control 1, .control 1]).2 =
    [.ok 4, .ok (391/200), .ok (401/200)] := by decide +kernel

/-- C18: parameters are accepted exactly when the three ranges are proper, and are then stored as
given. -/
theorem C18_accepted (kP kI kD : K) (aw sp om : K × K) :
    PIDParam.mk? kP kI kD aw sp om =
      if aw.1 < aw.2 ∧ sp.1 < sp.2 ∧ om.1 < om.2 then .ok ⟨kP, kI, kD, aw, sp, om⟩
      else .error .assertion := by
  unfold PIDParam.mk?
  by_cases h1 : aw.1 < aw.2 <;> by_cases h2 : sp.1 < sp.2 <;> by_cases h3 : om.1 < om.2 <;>
    simp [h1, h2, h3]

theorem getControl_measurement (p : PIDParam K) (s : PIDState K) (t : K) :
    (s.getControl p t).1.measurement = s.measurement := by
  simp only [PIDState.getControl]
  by_cases h : (match s.lastRequestAt with | none => (0 : K) | some t0 => t - t0) = 0
  · simp only [h, not_true_eq_false, if_false]
  · simp only [h, not_false_eq_true, if_true, if_false]

theorem run_append (p : PIDParam K) (s : PIDState K) (a b : List (PIDOp K)) :
    (PIDState.run p s (a ++ b)).1 = (PIDState.run p (PIDState.run p s a).1 b).1 := by
  induction a generalizing s with
  | nil => rfl
  | cons op a ih => simp only [List.cons_append, PIDState.run]; exact ih _

/-- C18: after any history the reference in use is the last one set, moved to the nearest value of
the set point range, and the measurement in use is the last one given. -/
theorem C18_last (p : PIDParam K) (s : PIDState K) (before after : List (PIDOp K)) (x : K) :
    ((∀ r, .refer r ∉ after) →
      (PIDState.run p s (before ++ .refer x :: after)).1.reference =
        npClip x p.setpoint.1 p.setpoint.2) ∧
    ((∀ m, .measure m ∉ after) →
      (PIDState.run p s (before ++ .measure x :: after)).1.measurement = x) := by
  have keyR : ∀ (ops : List (PIDOp K)) (s : PIDState K), (∀ r, .refer r ∉ ops) →
      (PIDState.run p s ops).1.reference = s.reference := by
    intro ops
    induction ops with
    | nil => intro s _; rfl
    | cons op ops ih =>
      intro s h
      simp only [PIDState.run]
      rw [ih _ (fun r hr => h r (List.mem_cons_of_mem _ hr))]
      cases op with
      | measure m => rfl
      | refer r => exact absurd List.mem_cons_self (h r)
      | control t => exact getControl_reference p s t
  have keyM : ∀ (ops : List (PIDOp K)) (s : PIDState K), (∀ r, .measure r ∉ ops) →
      (PIDState.run p s ops).1.measurement = s.measurement := by
    intro ops
    induction ops with
    | nil => intro s _; rfl
    | cons op ops ih =>
      intro s h
      simp only [PIDState.run]
      rw [ih _ (fun r hr => h r (List.mem_cons_of_mem _ hr))]
      cases op with
      | measure m => exact absurd List.mem_cons_self (h m)
      | refer r => rfl
      | control t => exact getControl_measurement p s t
  constructor
  · intro h
    rw [run_append]
    simp only [PIDState.run]
    rw [keyR _ _ h]; rfl
  · intro h
    rw [run_append]
    simp only [PIDState.run]
    rw [keyM _ _ h]; rfl

example : (PIDState.run (⟨4, 1/100, 1/10, (-2, 2), (-3, 40), (-8, 5)⟩ : PIDParam ℚ) PIDState.init
    ([.control 0] ++ .refer 50 :: [.measure 1, .control 1])).1.reference = 40 := by decide +kernel

/-! ## C19 -/

/-- The control law of a digital PID, written out: clipped sum of the three terms. -/
def pidLaw (p : PIDParam K) (pErr integral dErr : K) : K :=
  npClip (p.kP * pErr + integral + p.kD * dErr) p.output.1 p.output.2

/-- C19: no request ever divides by zero. -/
theorem C19_no_division_by_zero (p : PIDParam K) (s : PIDState K) (t : K) :
    ∃ x, (s.getControl p t).2 = .ok x := by
  obtain ⟨x, hx⟩ := getControl_out p s t; exact ⟨_, hx⟩

/-- **C19** The first request to a controller, whatever its time and whatever was measured and set before, is answered by
the proportional term alone (beside the integral zero, clipped to the limits of the integral). -/
theorem C19_fresh (p : PIDParam K) (ops : List (PIDOp K)) (hops : ∀ t, .control t ∉ ops) (t : K) :
    let s := (PIDState.run p PIDState.init ops).1
    (s.getControl p t).2 =
      .ok (pidLaw p (s.reference - s.measurement) (npClip 0 p.antiwindup.1 p.antiwindup.2) 0) := by
  have key : ∀ (ops : List (PIDOp K)) (s : PIDState K), (∀ t, .control t ∉ ops) → s.lastRequestAt = none →
      s.lastIntegralError = 0 → (PIDState.run p s ops).1.lastRequestAt = none ∧
        (PIDState.run p s ops).1.lastIntegralError = 0 := by
    intro ops
    induction ops with
    | nil => intro s _ h1 h2; exact ⟨h1, h2⟩
    | cons o ops ih =>
      intro s h h1 h2
      have h' : ∀ t, .control t ∉ ops := fun t ht => h t (List.mem_cons_of_mem _ ht)
      cases o with
      | measure m => exact ih _ h' h1 h2
      | refer r => exact ih _ h' h1 h2
      | control t => exact absurd List.mem_cons_self (h t)
  intro s
  obtain ⟨h1, h2⟩ := key ops PIDState.init hops rfl rfl
  simp only [PIDState.getControl, h1, s, h2]
  simp [pidLaw]

example : ∀ t, PIDOp.control t ∉ [PIDOp.measure (1 : ℚ), .refer 3] := by simp

/-- **C19** A second request at the same time without a new measurement or reference leaves the
whole state (integrator included) unchanged and answers with proportional and integral term only,
i.e. a zero derivative term. -/
theorem C19_repeat (p : PIDParam K) (h : p.antiwindup.1 ≤ p.antiwindup.2) (s : PIDState K) (t : K) :
    let s1 := (s.getControl p t).1
    (s1.getControl p t).1 = s1 ∧
    (s1.getControl p t).2 =
      .ok (pidLaw p (s.reference - s.measurement) s1.lastIntegralError 0) := by
  intro s1
  have e : ∃ i, s1 = ⟨s.measurement, s.reference, some t,
      npClip i p.antiwindup.1 p.antiwindup.2, s.reference - s.measurement⟩ := by
    simp only [s1, PIDState.getControl]
    by_cases hd : (match s.lastRequestAt with | none => (0 : K) | some t0 => t - t0) = 0
    · simp only [hd, not_true_eq_false, if_false]; exact ⟨_, rfl⟩
    · simp only [hd, not_false_eq_true, if_true, if_false]; exact ⟨_, rfl⟩
  obtain ⟨i, hi⟩ := e
  rw [hi]
  have hc : npClip (npClip i p.antiwindup.1 p.antiwindup.2) p.antiwindup.1 p.antiwindup.2 =
      npClip i p.antiwindup.1 p.antiwindup.2 :=
    npClip_of_mem _ _ _ (le_npClip _ _ _ h) (npClip_le _ _ _)
  simp only [PIDState.getControl, sub_self, mul_zero, add_zero, not_true_eq_false, if_false, hc,
    pidLaw]
  exact ⟨trivial, trivial⟩

/-- C19: a second request at the same time after a new measurement `m` or reference still leaves
the integrator unchanged and uses no derivative term. -/
theorem C19_repeat_measurement (p : PIDParam K) (h : p.antiwindup.1 ≤ p.antiwindup.2)
    (s : PIDState K) (t m r : K) :
    let s1 := (s.getControl p t).1
    let s2 := (s1.updateMeasurement m).updateReference p r
    (s2.getControl p t).1.lastIntegralError = s1.lastIntegralError ∧
    (s2.getControl p t).2 = .ok (pidLaw p (s2.reference - m) s1.lastIntegralError 0) := by
  intro s1 s2
  have e : ∃ i, s1 = ⟨s.measurement, s.reference, some t,
      npClip i p.antiwindup.1 p.antiwindup.2, s.reference - s.measurement⟩ := by
    simp only [s1, PIDState.getControl]
    by_cases hd : (match s.lastRequestAt with | none => (0 : K) | some t0 => t - t0) = 0
    · simp only [hd, not_true_eq_false, if_false]; exact ⟨_, rfl⟩
    · simp only [hd, not_false_eq_true, if_true, if_false]; exact ⟨_, rfl⟩
  obtain ⟨i, hi⟩ := e
  have hc : npClip (npClip i p.antiwindup.1 p.antiwindup.2) p.antiwindup.1 p.antiwindup.2 =
      npClip i p.antiwindup.1 p.antiwindup.2 :=
    npClip_of_mem _ _ _ (le_npClip _ _ _ h) (npClip_le _ _ _)
  simp only [s2, hi, PIDState.updateMeasurement, PIDState.updateReference, PIDState.getControl,
    sub_self, mul_zero, add_zero, not_true_eq_false, if_false, hc, pidLaw]
  exact ⟨trivial, trivial⟩

/-- C19: what the first request computes, whatever its time: no derivative term, and an integral
term that has not accumulated anything. -/
theorem C19_first (p : PIDParam K) (s : PIDState K) (t : K) (h0 : s.lastRequestAt = none) :
    let e := s.reference - s.measurement
    let i := npClip s.lastIntegralError p.antiwindup.1 p.antiwindup.2
    s.getControl p t = (⟨s.measurement, s.reference, some t, i, e⟩, .ok (pidLaw p e i 0)) := by
  simp only [PIDState.getControl, h0, mul_zero, add_zero, not_true_eq_false, if_false, pidLaw]

example : ((PIDState.init : PIDState ℚ).updateReference
    ⟨4, 1/100, 1/10, (-2, 2), (-3, 40), (-8, 5)⟩ 1).lastRequestAt = none := rfl

/-- C19: what a request at a later time computes (the law with the textbook derivative and
rectangle-rule integral). -/
theorem C19_law (p : PIDParam K) (s : PIDState K) (t0 t : K) (h0 : s.lastRequestAt = some t0)
    (ht : t ≠ t0) :
    let e := s.reference - s.measurement
    let i := npClip (s.lastIntegralError + p.kI * e * (t - t0)) p.antiwindup.1 p.antiwindup.2
    s.getControl p t = (⟨s.measurement, s.reference, some t, i, e⟩,
      .ok (pidLaw p e i ((e - s.lastProportionalError) / (t - t0)))) := by
  have : t - t0 ≠ 0 := sub_ne_zero.mpr ht
  simp only [PIDState.getControl, h0, this, not_false_eq_true, if_true, if_false, pidLaw]

end Verif
