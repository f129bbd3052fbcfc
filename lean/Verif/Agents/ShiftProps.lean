import Verif.Agents.AgentProps
import Verif.Perception.Filters
import Verif.Seq.InterpProps
import Verif.Sim.ShiftProps

/-!
# C156: controllers, agents and observation filters do not depend on the time at which the clock starts

These are the laws that `Timeless` asks of the parts of a simulation. The lane follower violates them in one place:
its lights follow a table of absolute times.
-/

set_option linter.unusedSectionVars false

namespace Verif

/-! ## The controller -/

section Pid

variable {K : Type*} [Field K] [LinearOrder K] [IsStrictOrderedRing K]

/-- The controller with the time of its last request later by `τ`. -/
def PIDState.later (τ : K) (s : PIDState K) : PIDState K := { s with lastRequestAt := s.lastRequestAt.map (· + τ) }

/-- The call, later by `τ`. -/
def PIDOp.later (τ : K) : PIDOp K → PIDOp K
  | .measure m => .measure m
  | .refer r => .refer r
  | .control t => .control (t + τ)

theorem getControl_later (p : PIDParam K) (s : PIDState K) (t τ : K) :
    (s.later τ).getControl p (t + τ) = ((s.getControl p t).1.later τ, (s.getControl p t).2) := by
  obtain ⟨m, r, l, i, q⟩ := s
  cases l with
  | none => simp [PIDState.getControl, PIDState.later]
  | some u =>
    have hd : t + τ - (u + τ) = t - u := by ring
    by_cases h : t - u = 0
    · simp [PIDState.getControl, PIDState.later, hd, h]
    · simp [PIDState.getControl, PIDState.later, hd, h]

/-- **C156.** A controller gives the same outputs when all requests are later by the same time. -/
theorem C156_pid (p : PIDParam K) (τ : K) (ops : List (PIDOp K)) : ∀ s : PIDState K,
    PIDState.run p (s.later τ) (ops.map (PIDOp.later τ)) =
      ((PIDState.run p s ops).1.later τ, (PIDState.run p s ops).2) := by
  induction ops with
  | nil => exact fun _ => rfl
  | cons o ops ih =>
    intro s
    have h : (s.later τ).step p (o.later τ) = ((s.step p o).1.later τ, (s.step p o).2) := by
      cases o with
      | measure m => rfl
      | refer r => rfl
      | control t =>
        show ((PIDState.getControl p (s.later τ) (t + τ)).1, some (PIDState.getControl p (s.later τ) (t + τ)).2) = _
        rw [getControl_later]
        rfl
    simp only [List.map_cons, PIDState.run, h, ih]

/-- **C156.** In particular a new controller: the outputs depend on the differences of the times alone. -/
theorem C156_pid_new (p : PIDParam K) (τ : K) (ops : List (PIDOp K)) :
    (PIDState.run p PIDState.init (ops.map (PIDOp.later τ))).2 = (PIDState.run p PIDState.init ops).2 :=
  (congrArg Prod.snd (C156_pid p τ ops PIDState.init) :)

/-- A controller that is asked twice. -/
example := C156_pid_new (⟨4, 1 / 100, 1 / 10, (-2, 2), (-3, 36), (-8, 5)⟩ : PIDParam ℚ) 7
  [.measure 1, .refer 2, .control 0, .measure 3 , .control (1 / 2)]

end Pid

namespace Perception

open Sim (Obs)
open Sim.Shift (obs RelV)

variable {N K X P Sc : Type} [DecidableEq N] [Field K] [LinearOrder K] [IsStrictOrderedRing K]

/-- The filter answers a later observation in the same way, later; `R s s'` says that `s'` is the memory `s` with all
times later by `τ`. -/
structure Timeless (f : Filter N K X P Sc) (τ : K) (R : f.S → f.S → Prop) : Prop where
  init : R f.init f.init
  sense : ∀ s s' sc o n, R s s' →
    RelV (fun a b => R a.1 b.1 ∧ b.2 = obs τ a.2) (f.sense s sc o n) (f.sense s' sc (obs τ o) n)

/-- **C156.** The filter that changes nothing. -/
theorem C156_id (τ : K) : Timeless (idFilter N K X P Sc) τ Eq where
  init := rfl
  sense s s' _ o _ h := ⟨h, rfl⟩

theorem bisectLeftFrom_map {L : Type*} [LinearOrder L] (f : K → L) (hf : StrictMono f) (a : List K) (x : K) :
    ∀ (n lo hi : Nat), hi - lo ≤ n → bisectLeftFrom (a.map f) (f x) lo hi = bisectLeftFrom a x lo hi := by
  intro n
  induction n with
  | zero =>
    intro lo hi h
    rw [bisectLeftFrom, bisectLeftFrom]
    simp [show ¬ lo < hi from by omega]
  | succ n ih =>
    intro lo hi h
    rw [bisectLeftFrom]
    conv_rhs => rw [bisectLeftFrom]
    by_cases hlt : lo < hi
    · simp only [hlt, dite_true, List.getElem?_map]
      cases a[(lo + hi) / 2]? with
      | none => rfl
      | some y =>
        simp only [Option.map_some, hf.lt_iff_lt]
        rw [ih lo ((lo + hi) / 2) (by omega), ih ((lo + hi) / 2 + 1) hi (by omega)]
    · simp [hlt]

/-- The stored observations, later by `τ`. -/
def laterHistory (τ : K) (h : History N K X P) : History N K X P := h.map fun p => (p.1 + τ, obs τ p.2)

theorem delayStep_later (latency τ : K) (h : History N K X P) (o : Obs N K X P) :
    delayStep latency (laterHistory τ h) (obs τ o) =
      (delayStep latency h o).map fun r => (laterHistory τ r.1, obs τ r.2) := by
  have e : laterHistory τ h ++ [((obs τ o).time + latency, { obs τ o with time := (obs τ o).time + latency })] =
      laterHistory τ (h ++ [(o.time + latency, { o with time := o.time + latency })]) := by
    simp only [laterHistory, List.map_append, List.map_cons, List.map_nil, obs]
    rw [add_right_comm]
  have e2 (l : History N K X P) : bisectLeft ((laterHistory τ l).map Prod.fst) (obs τ o).time =
      bisectLeft (l.map Prod.fst) o.time := by
    have : (laterHistory τ l).map Prod.fst = (l.map Prod.fst).map (· + τ) := by
      simp [laterHistory, List.map_map, Function.comp_def]
    rw [this]
    unfold bisectLeft
    rw [List.length_map]
    exact bisectLeftFrom_map (fun x => x + τ) (fun a b h => by simpa using h) _ _ _ _ _ le_rfl
  unfold delayStep
  simp only [e, e2]
  generalize h ++ [(o.time + latency, { o with time := o.time + latency })] = l
  generalize ((bisectLeft (l.map Prod.fst) o.time : Nat) : Int) = i
  rw [show laterHistory τ l = l.map fun p => (p.1 + τ, obs τ p.2) from rfl, pyGet_map]
  cases pyGet l i <;> rfl

/-- **C156.** A delay on top of a filter. -/
theorem C156_delayed {f : Filter N K X P Sc} {τ : K} {R : f.S → f.S → Prop} (T : Timeless f τ R) (latency : K) :
    Timeless (delayed f latency) τ fun s s' => R s.1 s'.1 ∧ s'.2 = laterHistory τ s.2 where
  init := ⟨T.init, rfl⟩
  sense := by
    rintro ⟨s, h⟩ ⟨s', h'⟩ sc o n ⟨hR, rfl : h' = _⟩
    have h1 := T.sense s s' sc o n hR
    simp only [delayed]
    revert h1
    generalize f.sense s sc o n = a
    generalize f.sense s' sc (obs τ o) n = b
    intro h1
    rcases a with a | ⟨s1, o1⟩ <;> rcases b with b | ⟨s2, o2⟩ <;> first | exact (h1 : False).elim | skip
    · exact h1
    · obtain ⟨hR, rfl : o2 = _⟩ := h1
      simp only [delayStep_later]
      cases delayStep latency h o1 with
      | error e => rfl
      | ok r => exact ⟨⟨hR, rfl⟩, rfl⟩

/-- **C156.** A ghost on top of a filter. -/
theorem C156_ghosted {f : Filter N K X P Sc} {τ : K} {R : f.S → f.S → Prop} (T : Timeless f τ R) (pos : X → ℝ × ℝ)
    (ghost : N) (d : ℝ) : Timeless (ghosted f pos ghost d) τ R where
  init := T.init
  sense := by
    intro s s' sc o n hR
    have h1 := T.sense s s' sc o n hR
    simp only [ghosted]
    revert h1
    generalize f.sense s sc o n = a
    generalize f.sense s' sc (obs τ o) n = b
    intro h1
    rcases a with a | ⟨s1, o1⟩ <;> rcases b with b | ⟨s2, o2⟩ <;> first | exact (h1 : False).elim | skip
    · exact h1
    · obtain ⟨hR, rfl : o2 = _⟩ := h1
      have h2 : ghostStep pos ghost d (obs τ o1) n = (ghostStep pos ghost d o1 n).map (obs τ) := by
        unfold ghostStep
        show (if n = ghost ∨ ghost ∉ Dict.keys o1.players then _ else
          match getKey o1.players n, getKey o1.players ghost with
          | .ok a, .ok b => _ | .error e, _ => _ | _, .error e => _) = _
        split
        · rfl
        · cases getKey o1.players n with
          | error e => rfl
          | ok a =>
            cases getKey o1.players ghost with
            | error e => rfl
            | ok b =>
              simp only
              split <;> rfl
      simp only [h2]
      cases ghostStep pos ghost d o1 n with
      | error e => rfl
      | ok r => exact ⟨hR, rfl⟩

/-- **C156.** The field of view. -/
theorem C156_fov (G : Fov X P) (τ : K) : Timeless (fov N K G) τ Eq where
  init := rfl
  sense := by
    rintro s _ sc o n rfl
    simp only [fov]
    show RelV _ _ (match getKey o.players n with | .error e => _ | .ok me => _)
    cases getKey o.players n with
    | error e => rfl
    | ok me =>
      simp only [obs]
      cases G.area (G.pose me.1) _ with
      | error e => rfl
      | ok area =>
        simp only
        cases lookLoop G n area o.players [(n, me)] with
        | error e => rfl
        | ok ps => exact ⟨rfl, rfl⟩

/-- **C156.** A filter used again and again gives the same answers, later. -/
theorem C156_sense_all {f : Filter N K X P Sc} {τ : K} {R : f.S → f.S → Prop} (T : Timeless f τ R)
    (l : List (Sc × Obs N K X P × N)) : ∀ s s', R s s' →
    RelV (fun a b => R a.1 b.1 ∧ b.2 = a.2.map (obs τ)) (senseAll f s l)
      (senseAll f s' (l.map fun q => (q.1, obs τ q.2.1, q.2.2))) := by
  induction l with
  | nil => exact fun _ _ h => ⟨h, rfl⟩
  | cons q l ih =>
    obtain ⟨sc, o, n⟩ := q
    intro s s' h
    have h1 := T.sense s s' sc o n h
    simp only [List.map_cons, senseAll]
    revert h1
    generalize f.sense s sc o n = a
    generalize f.sense s' sc (obs τ o) n = b
    intro h1
    rcases a with a | ⟨s1, o1⟩ <;> rcases b with b | ⟨s2, o2⟩ <;> first | exact (h1 : False).elim | skip
    · exact h1
    · obtain ⟨hR, rfl : o2 = _⟩ := h1
      have h2 := ih s1 s2 hR
      simp only
      revert h2
      generalize senseAll f s1 l = a
      generalize senseAll f s2 _ = b
      intro h2
      rcases a with a | ⟨s3, o3⟩ <;> rcases b with b | ⟨s4, o4⟩ <;> first | exact (h2 : False).elim | skip
      · exact h2
      · obtain ⟨hR, rfl : o4 = _⟩ := h2
        exact ⟨hR, rfl⟩

/-- A delay of one second, asked three times. -/
example := C156_sense_all (C156_delayed (C156_id (N := Nat) (X := ℚ) (P := ℚ) (Sc := Unit) (3 : ℚ)) 1)
  [((), ⟨[(0, (5, 5))], 0⟩, 0), ((), ⟨[(0, (6, 6))], 1⟩, 0), ((), ⟨[(0, (7, 7))], 2⟩, 0)] _ _
  (C156_delayed (C156_id (3 : ℚ)) 1).init

end Perception

namespace Agents

open Maps

variable {N : Type} [DecidableEq N]

/-- **C156.** An agent with a plan gives the same command at a later time from the plan that is later by as much. -/
theorem C156_plan {K U : Type} [Field K] [LinearOrder K] [IsStrictOrderedRing K] (plan plan' : Seq K U)
    (h : plan.Valid) (τ : K) (hp : plan.shiftTimestamps τ = .ok plan') (t : K) :
    npCommands plan' (t + τ) = npCommands plan t :=
  C06_at_or_previous_shift plan plan' h τ hp t

/-- The lane follower with the times of the last requests of its controllers later by `τ`. -/
noncomputable def LF.later (τ : ℝ) (a : LF N) : LF N := { a with speedPid := a.speedPid.later τ, steerPid := a.steerPid.later τ }

/-- What is commanded, without the lights. -/
def Cmd.motion {L : Type} (u : Cmd L) : ℝ × ℝ := (u.acc, u.ddelta)

/-- The call, later by `τ`. -/
noncomputable def Call.later (τ : ℝ) : Call N → Call N
  | .init n => .init n
  | .ask ps t => .ask ps (t + τ)

/-- The call is at a time from zero on. -/
def Call.FromZero : Call N → Prop
  | .init _ => True
  | .ask _ t => 0 ≤ t

theorem control_later {L : Type} (c : Conf L) (hl : c.lights.length = 5) (a : LF N) (t τ : ℝ) (h0 : 0 ≤ t)
    (h1 : 0 ≤ t + τ) : ((a.later τ).control c (t + τ)).1 = (a.control c t).1.later τ ∧
      ((a.later τ).control c (t + τ)).2.map Cmd.motion = (a.control c t).2.map Cmd.motion := by
  obtain ⟨l0, e0⟩ := lights_at c.lights hl t h0
  obtain ⟨l1, e1⟩ := lights_at c.lights hl (t + τ) h1
  unfold LF.control
  have hs : (a.later τ).speedPid.getControl c.speedP (t + τ) =
      ((a.speedPid.getControl c.speedP t).1.later τ, (a.speedPid.getControl c.speedP t).2) :=
    getControl_later c.speedP a.speedPid t τ
  simp only [hs]
  cases (a.speedPid.getControl c.speedP t).2 with
  | error e => exact ⟨rfl, rfl⟩
  | ok acc =>
    simp only
    have hp : (a.later τ).pursuit = a.pursuit := rfl
    simp only [hp]
    cases a.pursuit.desiredSteering c.minim c.pursuitP with
    | error e => exact ⟨rfl, rfl⟩
    | ok d =>
      have ht : ((a.later τ).steerPid.updateReference c.steerP d).getControl c.steerP (t + τ) =
          (((a.steerPid.updateReference c.steerP d).getControl c.steerP t).1.later τ,
            ((a.steerPid.updateReference c.steerP d).getControl c.steerP t).2) :=
        getControl_later c.steerP (a.steerPid.updateReference c.steerP d) t τ
      simp only [ht]
      cases ((a.steerPid.updateReference c.steerP d).getControl c.steerP t).2 with
      | error e => exact ⟨rfl, rfl⟩
      | ok dd =>
        simp only [e0, e1]
        exact ⟨rfl, rfl⟩

/-- **C156.** One request of a lane follower, later by `τ`: the same acceleration and the same steering rate. -/
theorem C156_lane_follower_once {L : Type} (c : Conf L) (hl : c.lights.length = 5) (a : LF N) (ps : Dict N ObsState)
    (t τ : ℝ) (h0 : 0 ≤ t) (h1 : 0 ≤ t + τ) :
    ((a.later τ).getCommands c ps (t + τ)).1 = (a.getCommands c ps t).1.later τ ∧
      ((a.later τ).getCommands c ps (t + τ)).2.map Cmd.motion = (a.getCommands c ps t).2.map Cmd.motion := by
  unfold LF.getCommands
  have hn : (a.later τ).myName = a.myName := rfl
  simp only [hn]
  cases a.myName with
  | none => exact ⟨rfl, rfl⟩
  | some me =>
    simp only
    cases Dict.get? ps me with
    | none => exact ⟨rfl, rfl⟩
    | some my =>
      simp only
      cases lanePoseOf c.closest c.lane my.pose with
      | error e => exact ⟨rfl, rfl⟩
      | ok lp =>
        simp only
        cases speedRef c.behavior me ps with
        | error e => exact ⟨rfl, rfl⟩
        | ok r =>
          exact control_later c hl (LF.refer c { a.measure my with
            pursuit := (a.measure my).pursuit.updatePose my.pose lp.along } r.1 r.2) t τ h0 h1

/-- **C156.** The life of a lane follower, later by `τ`: all accelerations and steering rates are the same, as long as
no request is before time zero. The lights are not: see `C156_false_lights`. -/
theorem C156_lane_follower_partial {L : Type} (c : Conf L) (hl : c.lights.length = 5) (τ : ℝ) (ops : List (Call N))
    (h0 : ∀ o ∈ ops, o.FromZero) (h1 : ∀ o ∈ ops, (o.later τ).FromZero) : ∀ a : LF N,
    ((a.later τ).run c (ops.map (Call.later τ))).1 = (a.run c ops).1.later τ ∧
      ((a.later τ).run c (ops.map (Call.later τ))).2.map (Except.map Cmd.motion) =
        (a.run c ops).2.map (Except.map Cmd.motion) := by
  induction ops with
  | nil => exact fun _ => ⟨rfl, rfl⟩
  | cons o ops ih =>
    intro a
    have hi := ih (fun o h => h0 o (by simp [h])) (fun o h => h1 o (by simp [h]))
    cases o with
    | init n => exact hi (a.onInit c n)
    | ask ps t =>
      obtain ⟨e1, e2⟩ := C156_lane_follower_once c hl a ps t τ (h0 (.ask ps t) (by simp))
        (h1 (.ask ps t) (by simp))
      obtain ⟨i1, i2⟩ := hi (a.getCommands c ps t).1
      rw [← e1] at i1 i2
      refine ⟨i1, ?_⟩
      simp only [List.map_cons, Call.later, LF.run, LF.step, Option.toList, List.cons_append, List.nil_append] at i2 ⊢
      rw [e2, i2]

/-- Two requests, a second apart, five seconds later. -/
example := C156_lane_follower_partial (Straight.dotConf [0, 1, 2, 3, 4]) rfl 5
  [.init 0, .ask Straight.alone 0, .ask Straight.alone 1]
  (by intro o ho; rcases (by simpa using ho) with rfl | rfl | rfl <;> simp [Call.FromZero])
  (by intro o ho; rcases (by simpa using ho) with rfl | rfl | rfl <;> norm_num [Call.FromZero, Call.later]) LF.init

/-- A plan with three commands, ten seconds later. -/
example := C156_plan (⟨[0, 1, 2], [1, 2, 3]⟩ : Seq ℚ ℚ) ⟨[10, 11, 12], [1, 2, 3]⟩ ⟨rfl, by decide +kernel⟩ 10
  (by decide +kernel) (3 / 2)

/-- **C156.** The lights of a lane follower depend on the absolute time: the same first request two seconds later is
answered with other lights. -/
theorem C156_false_lights : ∃ (c : Conf Nat) (ps : Dict Nat ObsState) (u u' : Cmd Nat),
    ((LF.init.onInit c 0).getCommands c ps 0).2 = .ok u ∧
    ((LF.init.onInit c 0).getCommands c ps 2).2 = .ok u' ∧ u.motion = u'.motion ∧ u.lights ≠ u'.lights := by
  obtain ⟨u, hu, e⟩ := Straight.dot_answer [0, 1, 2, 3, 4] 0 rfl rfl
  have hu : ((LF.init.onInit (Straight.dotConf [0, 1, 2, 3, 4]) 0).getCommands (Straight.dotConf [0, 1, 2, 3, 4])
    Straight.alone 0).2 = .ok u := hu
  have h2 := (C156_lane_follower_once (Straight.dotConf [0, 1, 2, 3, 4]) rfl
    (LF.init.onInit (Straight.dotConf [0, 1, 2, 3, 4]) 0) Straight.alone 0 2 le_rfl (by norm_num)).2
  rw [hu, zero_add] at h2
  have hn : (LF.init.onInit (Straight.dotConf [0, 1, 2, 3, 4]) 0 : LF Nat).later 2 =
    LF.init.onInit (Straight.dotConf [0, 1, 2, 3, 4]) 0 := rfl
  rw [hn] at h2
  cases hr : ((LF.init.onInit (Straight.dotConf [0, 1, 2, 3, 4]) 0).getCommands (Straight.dotConf [0, 1, 2, 3, 4])
    Straight.alone 2).2 with
  | error er => rw [hr] at h2; cases h2
  | ok u' =>
    rw [hr] at h2
    injection h2 with h2
    refine ⟨_, _, u, u', hu, hr, h2.symm, ?_⟩
    have := (C66_lights _ _ rfl _ _ _ hr).2 1 (by norm_num) (by norm_num) (by norm_num)
    rw [e, this]
    decide

end Agents
end Verif
