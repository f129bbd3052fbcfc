import Verif.Agents.ViewProps
import Verif.Control.PursuitProps
import Verif.Sim.EventProps
import Verif.Seq.Props

/-!
# Properties of the agents (C66, C67)
-/

namespace Verif
namespace Agents

open Maps Mat3

variable {N : Type} [DecidableEq N]

/-! ## C67: agents with a plan or a policy -/

/-- **C67.** An agent with a plan returns the last planned command not after the time, and raises
exactly when the plan is empty or starts later. -/
theorem C67_plan {K U : Type} [Field K] [LinearOrder K] [IsStrictOrderedRing K] (plan : Seq K U)
    (h : plan.Valid) (t : K) :
    (∀ u, npCommands plan t = .ok u ↔ IsLatest plan.samples t u) ∧
    ((∃ e, npCommands plan t = .error e) ↔ ∀ p ∈ plan.samples, t < p.1) := by
  refine ⟨C03_at_or_previous_ok_iff plan h t, ?_⟩
  have hts : ∀ u, u ∈ plan.ts ↔ ∃ p ∈ plan.samples, p.1 = u := by
    intro u
    constructor
    · intro hu
      obtain ⟨i, hi, rfl⟩ := List.getElem_of_mem hu
      have hi' : i < plan.vs.length := by rw [← h.1]; exact hi
      refine ⟨(plan.ts[i], plan.vs[i]), ?_, rfl⟩
      exact List.mem_iff_getElem.mpr ⟨i, by simp [Seq.samples, hi, hi'], by simp [Seq.samples]⟩
    · rintro ⟨p, hp, rfl⟩
      exact (List.of_mem_zip hp).1
  constructor
  · rintro ⟨e, he⟩ p hp
    rcases (C03_at_or_previous_error_iff plan h t e).mp he with ⟨h0, -⟩ | ⟨-, h1, -⟩
    · have := (hts p.1).mpr ⟨p, hp, rfl⟩
      rw [h0] at this
      cases this
    · exact h1 _ ((hts p.1).mpr ⟨p, hp, rfl⟩)
  · intro hall
    by_cases h0 : plan.ts = []
    · exact ⟨.zValue, (C03_at_or_previous_error_iff plan h t _).mpr (Or.inl ⟨h0, rfl⟩)⟩
    · refine ⟨.undefinedAtTime, (C03_at_or_previous_error_iff plan h t _).mpr (Or.inr ⟨h0, ?_, rfl⟩)⟩
      intro u hu
      obtain ⟨p, hp, rfl⟩ := (hts u).mp hu
      exact hall p hp

example : (⟨[0, 1, 2], ["a", "b", "c"]⟩ : Seq ℚ String).Valid := by
  refine ⟨rfl, ?_⟩
  simp

/-- **C67.** An agent with a policy, once told its name, returns what the policy makes of the player's
own observation, whatever else is observed; it raises `KeyError` if it is not observed or was not
told its name. -/
theorem C67_policy {O U : Type} (policy : O → Except Err U) (n : N) (players : Dict N O) :
    (∀ o, Dict.get? players n = some o → policyCommands policy (some n) players = policy o) ∧
    (n ∉ Dict.keys players → policyCommands policy (some n) players = .error .key) ∧
    policyCommands policy none players = .error .key := by
  refine ⟨fun o ho => by simp only [policyCommands, ho], fun h => ?_, rfl⟩
  simp only [policyCommands, (Dict.get?_eq_none_iff players n).mpr h]

example : Dict.get? [(3, "x"), (4, "y")] 4 = some "y" := rfl

section Sim
variable {K : Type} [Field K] [LinearOrder K] [IsStrictOrderedRing K] [FloorRing K] {Wd : Sim.World N K}

/-- **C67.** In a simulation: a player with a plan, whose sensor does not delay, is driven in every step
with the last planned command not after the time of the last request for commands. -/
theorem C67_simulated {cfg : Sim.Cfg Wd} {σ : Nat → Sim.St Wd} {j : Nat} (h0 : Sim.Ready (σ 0))
    (hdt : 0 < cfg.dt) (hm : Dict.Wf cfg.missions) (hex : Sim.Exec cfg σ (j + 1)) (n : N)
    (hn : n ∈ (σ j).players) (plan : Seq K Wd.C) (hplan : plan.Valid)
    (hag : ∀ w o w' c i, Wd.getCommands w n o = .ok (w', c, i) → npCommands plan o.time = .ok c)
    (hse : ∀ w o w' o', Wd.sense w n o = .ok (w', o') → o'.time = o.time) :
    ∃ m c i, Sim.Event.drive ((j : K) * cfg.dt) n m c ∈ Sim.eventsOf σ j ∧ Sim.LastRequest cfg i j ∧
      IsLatest plan.samples ((i : K) * cfg.dt) c := by
  obtain ⟨m, c, hd, -, i, hi, hnp, o, w, w', inf, hask, hcmd⟩ := (Sim.C24_driven h0 hdt hm hex n).2 hn
  refine ⟨m, c, i, hd, hi, ?_⟩
  have hexi : Sim.Exec cfg σ (i + 1) := fun k hk => hex k (by have := hi.1; omega)
  obtain ⟨o1, ht, -, -, -, -, hs⟩ := Sim.C25_snapshot h0 hdt hm hexi hi.2.1
  obtain ⟨w1, w2, hsense⟩ := hs _ _ _ hask
  have := hag _ _ _ _ _ hcmd
  rw [hse _ _ _ _ hsense, ht] at this
  exact (C03_at_or_previous_ok_iff plan hplan _ _).mp this

end Sim

/-! ## C66: the lane follower -/

section LF
variable {L : Type} (c : Conf L)

theorem mk?_limits {kP kI kD : ℝ} {aw sp om : ℝ × ℝ} {p : PIDParam ℝ}
    (hp : PIDParam.mk? kP kI kD aw sp om = .ok p) : p.setpoint = sp ∧ p.output = om ∧ om.1 < om.2 := by
  unfold PIDParam.mk? at hp
  split at hp
  · cases hp
  · split at hp
    · cases hp
    · split at hp
      · cases hp
      · rename_i h
        injection hp with hp
        subst hp
        exact ⟨rfl, rfl, not_not.mp h⟩

theorem conf_limits {lane : List CtrPoint} {p : Phys.VehicleParams ℝ} {wb lr : ℝ}
    {b : SpeedBehaviorParam ℝ} {lights : List L} {cl : ℝ × ℝ → ℝ}
    {mi : (ℝ → Except Err ℝ) → ℝ → ℝ → Except Err ℝ} {c : Conf L}
    (h : Conf.mk? lane p wb lr b lights cl mi = .ok c) :
    c.lane = lane ∧ c.lights = lights ∧ c.minim = mi ∧ c.pursuitP = Pursuit.Param.fromGeo wb lr ∧
      c.speedP.setpoint = (p.vxMin, p.vxMax) ∧ c.speedP.output = (p.accMin, p.accMax) ∧
      p.accMin < p.accMax ∧ c.steerP.output = (-p.ddeltaMax, p.ddeltaMax) ∧ 0 < p.ddeltaMax ∧
      c.behavior = b := by
  unfold Conf.mk? at h
  cases h1 : speedParam p with
  | error e => rw [h1] at h; cases h
  | ok sp =>
    cases h2 : steerParam p with
    | error e => rw [h1, h2] at h; cases h
    | ok st =>
      rw [h1, h2] at h
      injection h with h
      subst h
      obtain ⟨a1, a2, a3⟩ := mk?_limits h1
      obtain ⟨b1, b2, b3⟩ := mk?_limits h2
      simp only at b3
      exact ⟨rfl, rfl, rfl, rfl, a1, a2, a3, b2, by linarith, rfl⟩

/-- With valid parameters of the vehicle the agent can be built. -/
theorem C66_built (lane : List CtrPoint) (p : Phys.VehicleParams ℝ) (wb lr : ℝ)
    (b : SpeedBehaviorParam ℝ) (lights : List L) (cl : ℝ × ℝ → ℝ)
    (mi : (ℝ → Except Err ℝ) → ℝ → ℝ → Except Err ℝ) :
    (∃ c, Conf.mk? lane p wb lr b lights cl mi = .ok c) ↔ p.Valid := by
  unfold Conf.mk? speedParam steerParam PIDParam.mk?
  constructor
  · rintro ⟨c, h⟩
    by_cases h1 : p.vxMin < p.vxMax
    · by_cases h2 : p.accMin < p.accMax
      · by_cases h3 : -p.deltaMax < p.deltaMax
        · by_cases h4 : -p.ddeltaMax < p.ddeltaMax
          · exact ⟨⟨h1, h2⟩, by linarith, by linarith⟩
          · exfalso
            norm_num [h1, h2, h3, h4] at h
            cases h
        · exfalso
          norm_num [h1, h2, h3] at h
          cases h
      · norm_num [h1, h2] at h
        cases h
    · norm_num [h1] at h
      cases h
  · rintro ⟨⟨h1, h2⟩, h3, h4⟩
    have h3' : -p.deltaMax < p.deltaMax := by linarith
    have h4' : -p.ddeltaMax < p.ddeltaMax := by linarith
    norm_num [h1, h2, h3', h4']

theorem control_ok (a : LF N) (t : ℝ) (u : Cmd L) (h : (a.control c t).2 = .ok u) :
    (∃ x, u.acc = npClip x c.speedP.output.1 c.speedP.output.2) ∧
    (∃ x, u.ddelta = npClip x c.steerP.output.1 c.steerP.output.2) ∧
    (lightsSeq c.lights).atOrPrevious t = .ok u.lights := by
  unfold LF.control at h
  obtain ⟨x, hx⟩ := getControl_out c.speedP a.speedPid t
  simp only [hx] at h
  cases hd : a.pursuit.desiredSteering c.minim c.pursuitP with
  | error e => rw [hd] at h; cases h
  | ok d =>
    rw [hd] at h
    simp only at h
    obtain ⟨y, hy⟩ := getControl_out c.steerP (a.steerPid.updateReference c.steerP d) t
    simp only [hy] at h
    cases hl : (lightsSeq c.lights).atOrPrevious t with
    | error e => rw [hl] at h; cases h
    | ok l =>
      rw [hl] at h
      injection h with h
      subst h
      exact ⟨⟨x, rfl⟩, ⟨y, rfl⟩, rfl⟩

theorem control_state (a : LF N) (t : ℝ) :
    (a.control c t).1.emergency = a.emergency ∧ (a.control c t).1.myName = a.myName ∧
    (a.control c t).1.pursuit = a.pursuit ∧
    (a.control c t).1.speedPid.reference = a.speedPid.reference := by
  have hr := getControl_reference c.speedP a.speedPid t
  unfold LF.control
  obtain ⟨x, hx⟩ := getControl_out c.speedP a.speedPid t
  simp only [hx]
  cases hd : a.pursuit.desiredSteering c.minim c.pursuitP with
  | error e => exact ⟨rfl, rfl, rfl, hr⟩
  | ok d =>
    simp only
    obtain ⟨y, hy⟩ := getControl_out c.steerP (a.steerPid.updateReference c.steerP d) t
    simp only [hy]
    cases hl : (lightsSeq c.lights).atOrPrevious t with
    | error e => exact ⟨rfl, rfl, rfl, hr⟩
    | ok l => exact ⟨rfl, rfl, rfl, hr⟩

/-- The call gets as far as deciding on the speed: the agent knows its name, sees itself and finds its
place on the lane. -/
def Decides (name : Option N) (ps : Dict N ObsState) (me : N) (my : ObsState) (lp : LanePose) (ref : ℝ)
    (em : Bool) : Prop :=
  name = some me ∧ Dict.get? ps me = some my ∧ lanePoseOf c.closest c.lane my.pose = .ok lp ∧
    speedRef c.behavior me ps = .ok (ref, em)

theorem getCommands_cases (a : LF N) (ps : Dict N ObsState) (t : ℝ) :
    ((∀ me my lp ref em, ¬ Decides c a.myName ps me my lp ref em) ∧
      (∃ e, (a.getCommands c ps t).2 = .error e) ∧
      (a.getCommands c ps t).1.emergency = a.emergency ∧ (a.getCommands c ps t).1.myName = a.myName ∧
      (a.getCommands c ps t).1.pursuit.speed = a.pursuit.speed ∧
      (a.getCommands c ps t).1.pursuit.path = a.pursuit.path ∧
      (a.getCommands c ps t).1.speedPid.reference = a.speedPid.reference) ∨
    ∃ me my lp ref em, ∃ a2 : LF N, Decides c a.myName ps me my lp ref em ∧ a2.myName = a.myName ∧
      a2.emergency = a.emergency ∧ a2.pursuit = a.pursuit.updatePose my.pose lp.along ∧
      a.getCommands c ps t = (a2.refer c ref em).control c t := by
  unfold LF.getCommands Decides
  cases h1 : a.myName with
  | none => exact Or.inl ⟨by simp, ⟨_, rfl⟩, rfl, h1, rfl, rfl, rfl⟩
  | some me =>
    simp only
    cases h2 : Dict.get? ps me with
    | none =>
      refine Or.inl ⟨?_, ⟨_, rfl⟩, rfl, h1, rfl, rfl, rfl⟩
      rintro me' my lp ref em ⟨g1, g2, -⟩
      injection g1 with g1
      subst g1
      rw [h2] at g2; cases g2
    | some my =>
      simp only
      cases h3 : lanePoseOf c.closest c.lane my.pose with
      | error e =>
        refine Or.inl ⟨?_, ⟨_, rfl⟩, rfl, h1, rfl, rfl, rfl⟩
        rintro me' my' lp ref em ⟨g1, g2, g3, -⟩
        injection g1 with g1
        subst g1
        rw [h2] at g2; injection g2 with g2; subst g2
        rw [h3] at g3; cases g3
      | ok lp =>
        simp only
        cases h4 : speedRef c.behavior me ps with
        | error e =>
          refine Or.inl ⟨?_, ⟨_, rfl⟩, rfl, h1, rfl, rfl, rfl⟩
          rintro me' my' lp ref em ⟨g1, g2, g3, g4⟩
          injection g1 with g1
          subst g1
          rw [h4] at g4; cases g4
        | ok r =>
          obtain ⟨ref, em⟩ := r
          refine Or.inr ⟨me, my, lp, ref, em,
            { a.measure my with pursuit := (a.measure my).pursuit.updatePose my.pose lp.along },
            ⟨rfl, h2, h3, h4⟩, h1, rfl, rfl, ?_⟩
          simp only

/-- **C66.** What a returned command is made of: the acceleration is the answer of the speed controller to
the observed own speed and the chosen speed (zero in or after an emergency), the steering rate the answer of
the steering controller to the observed own steering angle and the steering angle desired by the pursuit at
the observed pose and chosen speed; each controller otherwise continues from its own past. -/
theorem C66_signal (a : LF N) (ps : Dict N ObsState) (t : ℝ) (u : Cmd L)
    (h : (a.getCommands c ps t).2 = .ok u) :
    ∃ me my lp ref em d, Decides c a.myName ps me my lp ref em ∧
      (let r := if (em || a.emergency) = true then 0 else ref
       ((a.pursuit.updatePose my.pose lp.along).updateSpeed r).desiredSteering c.minim c.pursuitP = .ok d ∧
       (PIDState.getControl c.speedP
         { a.speedPid with
           measurement := my.vx
           reference := npClip r c.speedP.setpoint.1 c.speedP.setpoint.2 } t).2 = .ok u.acc ∧
       (PIDState.getControl c.steerP
         { a.steerPid with
           measurement := my.delta
           reference := npClip d c.steerP.setpoint.1 c.steerP.setpoint.2 } t).2 = .ok u.ddelta) := by
  unfold LF.getCommands at h
  cases h1 : a.myName with
  | none => rw [h1] at h; cases h
  | some me =>
    rw [h1] at h
    simp only at h
    cases h2 : Dict.get? ps me with
    | none => rw [h2] at h; cases h
    | some my =>
      rw [h2] at h
      simp only at h
      cases h3 : lanePoseOf c.closest c.lane my.pose with
      | error e => rw [h3] at h; cases h
      | ok lp =>
        rw [h3] at h
        simp only at h
        cases h4 : speedRef c.behavior me ps with
        | error e => rw [h4] at h; cases h
        | ok re =>
          obtain ⟨ref, em⟩ := re
          rw [h4] at h
          simp only [LF.control, LF.refer, LF.measure] at h
          split at h
          · cases h
          · rename_i acc hacc
            split at h
            · cases h
            · rename_i d hd
              split at h
              · cases h
              · rename_i dd hdd
                split at h
                · cases h
                · injection h with h
                  subst h
                  exact ⟨me, my, lp, ref, em, d, ⟨rfl, h2, h3, h4⟩, hd, hacc, hdd⟩

/-- **C66.** In every history of episodes and requests every command returned by an agent built from
parameters of a vehicle is within the acceleration limits and the limit on the steering rate. -/
theorem C66_limits {lane : List CtrPoint} {p : Phys.VehicleParams ℝ} {wb lr : ℝ}
    {b : SpeedBehaviorParam ℝ} {lights : List L} {cl : ℝ × ℝ → ℝ}
    {mi : (ℝ → Except Err ℝ) → ℝ → ℝ → Except Err ℝ} {c : Conf L}
    (h : Conf.mk? lane p wb lr b lights cl mi = .ok c) (a : LF N) (ops : List (Call N)) :
    ∀ u, Except.ok u ∈ (LF.run c a ops).2 →
      p.accMin ≤ u.acc ∧ u.acc ≤ p.accMax ∧ |u.ddelta| ≤ p.ddeltaMax := by
  obtain ⟨-, -, -, -, -, ho, hacc, hs, hdd, -⟩ := conf_limits h
  have key : ∀ (a : LF N) ps t u, (a.getCommands c ps t).2 = .ok u →
      p.accMin ≤ u.acc ∧ u.acc ≤ p.accMax ∧ |u.ddelta| ≤ p.ddeltaMax := by
    intro a ps t u hu
    rcases getCommands_cases c a ps t with ⟨-, ⟨e, he⟩, -⟩ | ⟨me, my, lp, ref, em, a2, -, -, -, -, he⟩
    · rw [he] at hu; cases hu
    · rw [he] at hu
      obtain ⟨⟨x, hx⟩, ⟨y, hy⟩, -⟩ := control_ok c _ t u hu
      rw [hx, hy, ho, hs]
      refine ⟨le_npClip _ _ _ hacc.le, npClip_le _ _ _, abs_le.mpr ⟨le_npClip _ _ _ ?_, npClip_le _ _ _⟩⟩
      linarith
  induction ops generalizing a with
  | nil => intro u hu; simp [LF.run] at hu
  | cons o os ih =>
    intro u hu
    simp only [LF.run, List.mem_append] at hu
    rcases hu with hu | hu
    · cases o with
      | init n => simp [LF.step] at hu
      | ask ps t =>
        simp only [LF.step, Option.toList, List.mem_singleton] at hu
        exact key a ps t u hu.symm
    · exact ih _ u hu

/-- The name told last in a history. -/
def lastName (ops : List (Call N)) : Option N :=
  (ops.filterMap fun o => match o with | .init n => some n | _ => none).getLast?

/-- Specification: at some request in the history another player came from the left or the front (and
the agent knew its name, saw itself, and found its place on the lane). -/
def SawDanger (ops : List (Call N)) : Prop :=
  ∃ pre ps t post me my lp, ops = pre ++ Call.ask ps t :: post ∧ lastName pre = some me ∧
    Dict.get? ps me = some my ∧ lanePoseOf c.closest c.lane my.pose = .ok lp ∧
    Other me ps (fun o => FromLeft c.behavior my o ∨ FromFront c.behavior my o)

theorem run_append (a : LF N) (xs ys : List (Call N)) :
    (LF.run c a (xs ++ ys)).1 = (LF.run c (LF.run c a xs).1 ys).1 := by
  induction xs generalizing a with
  | nil => rfl
  | cons x xs ih => simp only [List.cons_append, LF.run]; exact ih _

theorem run_snoc (a : LF N) (xs : List (Call N)) (x : Call N) :
    (LF.run c a (xs ++ [x])).1 = ((LF.run c a xs).1.step c x).1 := by
  rw [run_append]; rfl

theorem run_name (ops : List (Call N)) : (LF.run c LF.init ops).1.myName = lastName ops := by
  induction ops using List.reverseRecOn with
  | nil => rfl
  | append_singleton ops o ih =>
    rw [run_snoc]
    cases o with
    | init n => simp [LF.step, LF.onInit, lastName]
    | ask ps t =>
      have : lastName (ops ++ [Call.ask ps t]) = lastName ops := by simp [lastName]
      rw [this, ← ih]
      simp only [LF.step]
      rcases getCommands_cases c (LF.run c LF.init ops).1 ps t with
        ⟨-, -, -, h, -⟩ | ⟨me, my, lp, ref, em, a2, -, h, -, -, he⟩
      · exact h
      · rw [he, (control_state c _ t).2.1]; exact h

theorem sawDanger_snoc (ops : List (Call N)) (o : Call N) :
    SawDanger c (ops ++ [o]) ↔ SawDanger c ops ∨ ∃ ps t me my lp, o = .ask ps t ∧
      lastName ops = some me ∧ Dict.get? ps me = some my ∧
      lanePoseOf c.closest c.lane my.pose = .ok lp ∧
      Other me ps (fun o => FromLeft c.behavior my o ∨ FromFront c.behavior my o) := by
  constructor
  · rintro ⟨pre, ps, t, post, me, my, lp, he, h⟩
    rcases List.eq_nil_or_concat post with rfl | ⟨post', x, rfl⟩
    · obtain ⟨e1, e2⟩ := List.append_inj' he rfl
      injection e2 with e2
      exact Or.inr ⟨ps, t, me, my, lp, e2, by rw [e1]; exact h.1, h.2⟩
    · left
      rw [List.concat_eq_append, ← List.cons_append, ← List.append_assoc] at he
      obtain ⟨e1, -⟩ := List.append_inj' he rfl
      exact ⟨pre, ps, t, post', me, my, lp, e1, h⟩
  · rintro (⟨pre, ps, t, post, me, my, lp, he, h⟩ | ⟨ps, t, me, my, lp, rfl, h⟩)
    · exact ⟨pre, ps, t, post ++ [o], me, my, lp, by rw [he]; simp, h⟩
    · exact ⟨ops, ps, t, [], me, my, lp, rfl, h⟩

theorem latch_inv (ops : List (Call N)) :
    ((LF.run c LF.init ops).1.emergency = true ↔ SawDanger c ops) ∧
    ((LF.run c LF.init ops).1.emergency = true →
      (LF.run c LF.init ops).1.speedPid.reference = npClip 0 c.speedP.setpoint.1 c.speedP.setpoint.2 ∧
      (LF.run c LF.init ops).1.pursuit.speed = 0) := by
  induction ops using List.reverseRecOn with
  | nil =>
    refine ⟨⟨fun h => (by cases h), ?_⟩, fun h => (by cases h)⟩
    rintro ⟨pre, ps, t, post, me, my, lp, he, -⟩
    simp at he
  | append_singleton ops o ih =>
    obtain ⟨ih1, ih2⟩ := ih
    rw [run_snoc, sawDanger_snoc]
    set a := (LF.run c LF.init ops).1 with ha
    have hname : a.myName = lastName ops := run_name c ops
    cases o with
    | init n =>
      refine ⟨?_, ih2⟩
      show a.emergency = true ↔ _
      rw [ih1]
      simp
    | ask ps t =>
      simp only [LF.step]
      rcases getCommands_cases c a ps t with
        ⟨hno, -, h1, -, h2, -, h3⟩ | ⟨me, my, lp, ref, em, a2, hd, h1, h2, h3, he⟩
      · rw [h1, h2, h3]
        refine ⟨?_, ih2⟩
        rw [ih1]
        constructor
        · exact Or.inl
        · rintro (h | ⟨ps', t', me, my, lp, e1, e2, e3, e4, e5⟩)
          · exact h
          · injection e1 with e1 _
            subst e1
            obtain ⟨v, e, hv, -⟩ := C20_states c.behavior me ps my e3
            exact absurd ⟨hname.trans e2, e3, e4, hv⟩ (hno me my lp v e)
      · obtain ⟨s1, s2, s3, s4⟩ := control_state c (a2.refer c ref em) t
        rw [he, s1, s3, s4]
        have hem : (a2.refer c ref em).emergency = (em || a.emergency) := by
          rw [← h2]; rfl
        obtain ⟨g1, g2, g3, g4⟩ := hd
        obtain ⟨v, e, hv, hve, -⟩ := C20_states c.behavior me ps my g2
        rw [g4] at hv
        injection hv with hv
        injection hv with hv1 hv2
        subst hv1 hv2
        constructor
        · rw [hem, Bool.or_eq_true, hve, ih1, or_comm]
          apply or_congr Iff.rfl
          constructor
          · intro h
            exact ⟨ps, t, me, my, lp, rfl, hname ▸ g1, g2, g3, h⟩
          · rintro ⟨ps', t', me', my', lp', e1, e2, e3, e4, e5⟩
            injection e1 with e1 _
            subst e1
            rw [← hname, g1] at e2
            injection e2 with e2
            subst e2
            rw [g2] at e3
            injection e3 with e3
            subst e3
            exact e5
        · intro h
          rw [hem] at h
          rw [← h2] at h
          simp only [LF.refer, h, if_true, PIDState.updateReference, Pursuit.State.updateSpeed]
          trivial

/-- **C66.** Once another player came from the left or from the front at some request, the agent asks
for speed zero for ever, also in later episodes: the reference of the speed controller is zero (as far
as the speed limits allow) and the pure pursuit looks ahead for speed zero. Until then it is not
latched. -/
theorem C66_latch {lane : List CtrPoint} {p : Phys.VehicleParams ℝ} {wb lr : ℝ}
    {b : SpeedBehaviorParam ℝ} {lights : List L} {cl : ℝ × ℝ → ℝ}
    {mi : (ℝ → Except Err ℝ) → ℝ → ℝ → Except Err ℝ} {c : Conf L}
    (h : Conf.mk? lane p wb lr b lights cl mi = .ok c) (ops later : List (Call N)) :
    (SawDanger c ops → ((LF.run c LF.init (ops ++ later)).1.emergency = true ∧
      (LF.run c LF.init (ops ++ later)).1.speedPid.reference = max p.vxMin (min 0 p.vxMax) ∧
      (LF.run c LF.init (ops ++ later)).1.pursuit.speed = 0)) ∧
    (¬ SawDanger c ops → (LF.run c LF.init ops).1.emergency = false) := by
  have hmono : ∀ later : List (Call N), SawDanger c ops → SawDanger c (ops ++ later) := by
    intro later hs
    induction later using List.reverseRecOn with
    | nil => rw [List.append_nil]; exact hs
    | append_singleton l o ih => rw [← List.append_assoc, sawDanger_snoc]; exact Or.inl ih
  have hp : p.Valid := (C66_built lane p wb lr b lights cl mi).mp ⟨c, h⟩
  obtain ⟨-, -, -, -, hsp, -⟩ := conf_limits h
  constructor
  · intro hs
    obtain ⟨h1, h2⟩ := latch_inv c (ops ++ later)
    have he := h1.mpr (hmono later hs)
    refine ⟨he, ?_, (h2 he).2⟩
    rw [(h2 he).1, hsp]
    simp only [npClip]
    have hv := hp.base.vx
    rcases le_total p.vxMin 0 with h0 | h0
    · rcases le_total 0 p.vxMax with h3 | h3
      · rw [max_eq_left h0, min_eq_left h3, max_eq_right h0]
      · rw [max_eq_left h0, min_eq_right h3, max_eq_right hv.le]
    · rw [max_eq_right h0, min_eq_left hv.le, max_eq_left]
      exact (min_le_left _ _).trans h0
  · intro hs
    rw [← Bool.not_eq_true, (latch_inv c ops).1]
    exact hs

/-! ### When a command is returned, and which lights -/

theorem center_rigid (cps : List CtrPoint) (hne : cps ≠ []) (b : ℝ) :
    ∃ q, centerPoint cps b = .ok q ∧ IsRigid q := by
  obtain ⟨f, hf, he⟩ := C55_center cps hne
  refine ⟨f b, he b, ?_⟩
  have hlen : 0 < cps.length := List.length_pos_iff.mpr hne
  have hlK : ((cps.length - 1 : Nat) : ℝ) = (cps.length : ℝ) - 1 := by
    rw [Nat.cast_sub hlen]; simp
  obtain ⟨⟨c, hc⟩, ⟨cl, hcl⟩⟩ := head_last cps hne
  have hrr : ∀ x : ℝ, IsRigid (rigid (1 : ℝ) 0 x 0) := fun x => ⟨1, 0, x, 0, by norm_num, rfl⟩
  rcases lt_or_ge b 0 with h | h
  · rw [hf.before c (by rw [List.head?_eq_getElem?]; exact hc) b h.le]
    exact (asSE2_rigid _).mul (hrr _)
  · rcases lt_or_ge b ((cps.length : ℝ) - 1) with h' | h'
    · rw [← hlK] at h'
      obtain ⟨i, hi, -, h1, h2⟩ := floor_nat b _ h h'
      have := hf.seg i cps[i] cps[i + 1] (List.getElem?_eq_getElem (by omega))
        (List.getElem?_eq_getElem (by omega)) (b - i) (by linarith) (by linarith)
      rw [add_sub_cancel] at this
      rw [this]
      exact (C56_interpolate _ _ (asSE2_rigid _) (asSE2_rigid _)).2.2.1 _
    · have := hf.after cl hcl (b - ((cps.length : ℝ) - 1)) (by linarith)
      rw [add_sub_cancel] at this
      rw [this]
      exact (asSE2_rigid _).mul (hrr _)

theorem lanePoseOf_total (closest : ℝ × ℝ → ℝ) (cps : List CtrPoint) (hne : cps ≠ []) (q : Mat3 ℝ)
    (hq : IsRigid q) : ∃ lp, lanePoseOf closest cps q = .ok lp := by
  obtain ⟨q0, h0, hr0⟩ := center_rigid cps hne (closest (q.a02, q.a12))
  obtain ⟨al, h1⟩ := (C53_lane cps hne).1 (closest (q.a02, q.a12))
  obtain ⟨rel, h2, -, -⟩ := (C56_relative q0 q).2 hr0 hq
  obtain ⟨b, hb⟩ := (C53_lane cps hne).2.1 al
  obtain ⟨cq, hcq, -⟩ := center_rigid cps hne b
  obtain ⟨f, -, hf⟩ := C55_radius (cps.map (·.r)) (by simpa using hne)
  unfold lanePoseOf
  simp only [h0, h1, h2]
  unfold lanePose
  simp only [hb, hcq, hf b]
  exact ⟨_, rfl⟩

theorem run_path (ops : List (Call N)) (n : N) (h : lastName ops = some n) :
    (LF.run c LF.init ops).1.pursuit.path = some c.lane := by
  induction ops using List.reverseRecOn generalizing n with
  | nil => cases h
  | append_singleton ops o ih =>
    rw [run_snoc]
    cases o with
    | init m => rfl
    | ask ps t =>
      have hl : lastName (ops ++ [Call.ask ps t]) = lastName ops := by simp [lastName]
      rw [hl] at h
      have hp := ih n h
      simp only [LF.step]
      rcases getCommands_cases c (LF.run c LF.init ops).1 ps t with
        ⟨-, -, -, -, -, h2, -⟩ | ⟨me, my, lp, ref, em, a2, -, -, -, h3, he⟩
      · rw [h2]; exact hp
      · rw [he, (control_state c _ t).2.2.1]
        show a2.pursuit.path = _
        rw [h3]; exact hp

theorem lights_at (lights : List L) (hl : lights.length = 5) (t : ℝ) (h0 : 0 ≤ t) :
    ∃ l, (lightsSeq lights).atOrPrevious t = .ok l := by
  have hv : (lightsSeq lights).Valid := by
    refine ⟨by simp [lightsSeq, hl], ?_⟩
    simp only [lightsSeq]
    norm_num
  cases h : (lightsSeq lights).atOrPrevious t with
  | ok l => exact ⟨l, rfl⟩
  | error e =>
    rcases (C03_at_or_previous_error_iff _ hv t e).mp h with ⟨h1, -⟩ | ⟨-, h1, -⟩
    · simp [lightsSeq] at h1
    · have := h1 0 (by simp [lightsSeq])
      linarith

/-- **C66.** The lights of a command: the agent shows its five lights for two seconds each from time zero, and stays with
the last. -/
theorem C66_lights (a : LF N) (hl : c.lights.length = 5) (ps : Dict N ObsState) (t : ℝ) (u : Cmd L)
    (h : (a.getCommands c ps t).2 = .ok u) :
    0 ≤ t ∧ ∀ (k : Nat) (hk : k < 5), 2 * (k : ℝ) ≤ t → (k < 4 → t < 2 * (k : ℝ) + 2) → u.lights = c.lights[k] := by
  have hv : (lightsSeq c.lights).Valid := by
    refine ⟨by simp [lightsSeq, hl], ?_⟩
    simp only [lightsSeq]
    norm_num
  have hu : (lightsSeq c.lights).atOrPrevious t = .ok u.lights := by
    rcases getCommands_cases c a ps t with ⟨-, ⟨e, he⟩, -⟩ | ⟨me, my, lp, ref, em, a2, -, -, -, -, he⟩
    · rw [he] at h; cases h
    · rw [he] at h
      exact (control_ok c _ t u h).2.2
  have h0 : 0 ≤ t := by
    by_contra h0
    push Not at h0
    have := (C03_at_or_previous_error_iff _ hv t .undefinedAtTime).mpr (Or.inr ⟨by simp [lightsSeq], fun x hx => by
      simp only [lightsSeq, List.mem_cons, List.not_mem_nil, or_false] at hx
      rcases hx with rfl | rfl | rfl | rfl | rfl <;> linarith, rfl⟩)
    rw [hu] at this; cases this
  refine ⟨h0, fun k hk h1 h2 => ?_⟩
  obtain ⟨m, hm, hm', e1, e2, e3⟩ := atOrPrevious_eq (lightsSeq c.lights) hv t (by simp [lightsSeq])
    (by simpa [lightsSeq] using h0)
  rw [hu] at e1
  injection e1 with e1
  rw [e1]
  have hts : ∀ (i : Nat) (hi : i < (lightsSeq c.lights).ts.length), (lightsSeq c.lights).ts[i] = 2 * (i : ℝ) := by
    intro i hi
    have hi5 : i < 5 := by simpa [lightsSeq] using hi
    rcases (by omega : i = 0 ∨ i = 1 ∨ i = 2 ∨ i = 3 ∨ i = 4) with rfl | rfl | rfl | rfl | rfl <;>
      simp [lightsSeq] <;> norm_num
  have hmk : m = k := by
    rw [hts m hm] at e2
    rcases lt_trichotomy m k with hlt | rfl | hlt
    · have := e3 k (by simp [lightsSeq]; omega) hlt
      rw [hts] at this
      linarith
    · rfl
    · have h3 := h2 (by simp [lightsSeq] at hm; omega)
      have h4 : (k : ℝ) + 1 ≤ m := by exact_mod_cast hlt
      linarith
  subst hmk
  rfl

/-- **C66.** When a command is returned: an agent with a lane that was told its name and sees itself
answers every request from time zero on with a command, except for the division by zero of the pure
pursuit; it raises before time zero. -/
theorem C66_answers {lane : List CtrPoint} {p : Phys.VehicleParams ℝ} {wb lr : ℝ}
    {b : SpeedBehaviorParam ℝ} {lights : List L} {cl : ℝ × ℝ → ℝ}
    {mi : (ℝ → Except Err ℝ) → ℝ → ℝ → Except Err ℝ} {c : Conf L}
    (h : Conf.mk? lane p wb lr b lights cl mi = .ok c) (hlane : lane ≠ [])
    (hmi : Pursuit.BoundedSearch mi) (hl : lights.length = 5) (ops : List (Call N)) (me : N)
    (hname : lastName ops = some me) (ps : Dict N ObsState) (my : ObsState)
    (hmy : Dict.get? ps me = some my) (t : ℝ) :
    (0 ≤ t → (∃ u, ((LF.run c LF.init ops).1.getCommands c ps t).2 = .ok u) ∨
      ((LF.run c LF.init ops).1.getCommands c ps t).2 = .error .zeroDiv) ∧
    (t < 0 → ∃ e, ((LF.run c LF.init ops).1.getCommands c ps t).2 = .error e) := by
  obtain ⟨e1, e2, e3, e4, -⟩ := conf_limits h
  obtain ⟨lp, hlp⟩ := lanePoseOf_total c.closest c.lane (by rw [e1]; exact hlane) my.pose (pose_rigid my)
  obtain ⟨v, e, hv, -⟩ := C20_states c.behavior me ps my hmy
  set a := (LF.run c LF.init ops).1 with ha
  have hn : a.myName = some me := (run_name c ops).trans hname
  have hpath : a.pursuit.path = some c.lane := run_path c ops me hname
  rcases getCommands_cases c a ps t with ⟨hno, -⟩ | ⟨me', my', lp', ref, em, a2, -, -, -, h3, he⟩
  · exact absurd ⟨hn, hmy, hlp, hv⟩ (hno me my lp v e)
  · rw [he]
    have hs : (∃ δ, (a2.refer c ref em).pursuit.desiredSteering c.minim c.pursuitP = .ok δ) ∨
        (a2.refer c ref em).pursuit.desiredSteering c.minim c.pursuitP = .error .zeroDiv := by
      generalize hr : (if em || a2.emergency then 0 else ref) = r
      have hpu : (a2.refer c ref em).pursuit =
          (a.pursuit.updatePose my'.pose lp'.along).updateSpeed r := by
        rw [← h3, ← hr]; rfl
      have hlk : 0 ≤ Pursuit.lookahead c.pursuitP r := by
        rw [e4]
        exact le_trans (by norm_num [Pursuit.Param.fromGeo])
          ((Pursuit.C68_lookahead (Pursuit.Param.fromGeo wb lr) (by norm_num [Pursuit.Param.fromGeo])).1 r).1
      obtain ⟨x, hx, -⟩ := hmi (Pursuit.goalPointError c.lane my'.pose (Pursuit.lookahead c.pursuitP r))
        (lp'.along + c.pursuitP.minDistance)
        (lp'.along + c.pursuitP.minDistance + Pursuit.lookahead c.pursuitP r) (by linarith) (fun x => by
          obtain ⟨g, hg⟩ := Pursuit.pointAt_total c.lane (by rw [e1]; exact hlane) x
          refine ⟨|normBetween my'.pose g - Pursuit.lookahead c.pursuitP r|, ?_⟩
          simp only [Pursuit.goalPointError, hg])
      obtain ⟨g, hg⟩ := Pursuit.pointAt_total c.lane (by rw [e1]; exact hlane) x
      have : (a2.refer c ref em).pursuit.desiredSteering c.minim c.pursuitP =
          Pursuit.steeringTo c.pursuitP my'.pose g r := by
        rw [hpu]
        simp only [Pursuit.State.desiredSteering, Pursuit.State.updateSpeed, Pursuit.State.updatePose, hpath,
          Pursuit.findGoalPoint, e3, hx, hg]
      rw [this]
      unfold Pursuit.steeringTo
      simp only
      split_ifs
      · exact Or.inr rfl
      · exact Or.inr rfl
      · exact Or.inl ⟨_, rfl⟩
    constructor
    · intro h0
      obtain ⟨l, hl⟩ := lights_at c.lights (by rw [e2]; exact hl) t h0
      unfold LF.control
      obtain ⟨x, hx⟩ := getControl_out c.speedP (a2.refer c ref em).speedPid t
      simp only [hx]
      rcases hs with ⟨δ, hδ⟩ | hδ
      · simp only [hδ]
        obtain ⟨y, hy⟩ := getControl_out c.steerP ((a2.refer c ref em).steerPid.updateReference c.steerP δ) t
        simp only [hy, hl]
        exact Or.inl ⟨_, rfl⟩
      · simp only [hδ]
        exact Or.inr trivial
    · intro h0
      cases hr : ((a2.refer c ref em).control c t).2 with
      | error e => exact ⟨e, rfl⟩
      | ok u =>
        have hlu := (control_ok c _ t u hr).2.2
        have hv : (lightsSeq c.lights).Valid := by
          refine ⟨by simp [lightsSeq, e2, hl], ?_⟩
          simp only [lightsSeq]
          norm_num
        obtain ⟨t', ht', hle, -⟩ := (C03_at_or_previous_ok_iff _ hv t u.lights).mp hlu
        have := (List.of_mem_zip ht').1
        simp only [lightsSeq, List.mem_cons, List.not_mem_nil, or_false] at this
        rcases this with rfl | rfl | rfl | rfl | rfl <;> linarith

end LF

/-! ### A lane follower on a straight lane -/

namespace Straight

/-- The limits of a car. -/
noncomputable def params : Phys.VehicleParams ℝ :=
  { vxMin := -3, vxMax := 36, accMin := -8, accMax := 5, deltaMax := 1, ddeltaMax := 1 / 2 }

/-- A lane along the first axis. -/
noncomputable def lane : List CtrPoint := [⟨⟨0, 0, 0⟩, 2⟩, ⟨⟨100, 0, 0⟩, 2⟩]

/-- The constants of the agent, with a given order of the lights. -/
noncomputable def conf (lights : List Nat) : Conf Nat :=
  ⟨lane, ⟨4, 1 / 100, 1 / 10, (-2, 2), (-3, 36), (-8, 5)⟩,
    ⟨4, 1 / 10, 2 / 10, (-5 / 10, 5 / 10), (-1, 1), (-(1 / 2), 1 / 2)⟩, Pursuit.Param.fromGeo 3 1,
    ⟨11, 7, 2, 3 / 2⟩, lights, fun _ => 0, fun _ lo _ => .ok lo⟩

theorem conf_mk (lights : List Nat) : Conf.mk? lane params 3 1 ⟨11, 7, 2, 3 / 2⟩ lights (fun _ => 0)
    (fun _ lo _ => .ok lo) = .ok (conf lights) := by
  norm_num [Conf.mk?, speedParam, steerParam, PIDParam.mk?, params, conf]

theorem bounded : Pursuit.BoundedSearch (fun _ lo _ => .ok lo) :=
  fun _ lo _ h _ => ⟨lo, rfl, le_rfl, h⟩

/-- The observations: the agent 0 alone at the start of the lane. -/
noncomputable def alone : Dict Nat ObsState := [(0, ⟨0, 0, 0, 10, 0⟩)]

/-- The observations: a car comes head-on. -/
noncomputable def danger : Dict Nat ObsState := [(0, ⟨0, 0, 0, 10, 0⟩), (1, ⟨5, 0, Real.pi, 10, 0⟩)]

/-- The danger is seen. -/
theorem saw (lights : List Nat) : SawDanger (conf lights) [Call.init 0, Call.ask danger 0] := by
  obtain ⟨lp, hlp⟩ := lanePoseOf_total (fun _ => 0) lane (by simp [lane])
    (ObsState.pose ⟨0, 0, 0, 10, 0⟩) (pose_rigid _)
  refine ⟨[Call.init 0], danger, 0, [], 0, ⟨0, 0, 0, 10, 0⟩, lp, rfl, rfl, rfl, hlp, 1,
    ⟨5, 0, Real.pi, 10, 0⟩, by norm_num, by simp [danger], Or.inr ?_⟩
  refine ⟨5, 0, Real.pi, ⟨?_, by linarith [Real.pi_pos], le_rfl⟩, ?_, by norm_num, by norm_num, ?_⟩
  · ext <;> norm_num [ObsState.pose, rigid, Mat3.mul]
  · rw [abs_of_pos Real.pi_pos]; linarith [Real.pi_pos]
  · show norm2 5 0 < (3 / 2 : ℝ) * (10 + 10)
    rw [norm2, Real.sqrt_lt' (by norm_num)]; norm_num

example := C66_latch (conf_mk [0, 1, 2, 3, 4]) [Call.init 0, Call.ask danger 0]
  [Call.init 0, Call.ask alone 0, Call.ask alone 5]

example := C66_answers (conf_mk [0, 1, 2, 3, 4]) (by simp [lane]) bounded rfl [Call.init 0] 0 rfl alone
  ⟨0, 0, 0, 10, 0⟩ rfl 0

/-- A lane with one control point. -/
noncomputable def dot : List CtrPoint := [⟨⟨0, 0, 0⟩, 2⟩]

theorem dot_pose : ∃ lp, lanePoseOf (fun _ => 0) dot (ObsState.pose ⟨0, 0, 0, 10, 0⟩) = .ok lp ∧
    lp.along = 0 := by
  obtain ⟨q0, h0, hr0⟩ := center_rigid dot (by simp [dot]) 0
  obtain ⟨rel, h2, -, -⟩ := (C56_relative q0 (ObsState.pose ⟨0, 0, 0, 10, 0⟩)).2 hr0 (pose_rigid _)
  have h1 : alongFromBeta (laneLengths dot) dot.length (0 : ℝ) = .ok 0 := by
    norm_num [alongFromBeta, laneLengths, dot]
  obtain ⟨lp, -, -, hp, -, -, -, -, -, -, -, ha, -⟩ := C54_lane dot (by simp [dot]) (by simp [dot]) 0
    (atan2 rel.a10 rel.a00) rel.a12
  refine ⟨lp, ?_, ha⟩
  unfold lanePoseOf
  simp only [h0, h1, h2, hp]

theorem dot_point : ∃ g, Pursuit.pointAt dot 2 = .ok g ∧ g.a02 = 2 / 10 ∧ g.a12 = 0 := by
  have h1 : betaFromAlong (laneLengths dot) dot.length (2 : ℝ) = .ok 2 := by
    norm_num [betaFromAlong, laneLengths, dot]
  have h2 : centerPoint dot 2 = .ok ((Transform.asSE2 ⟨0, 0, 0⟩).mul (rigid 1 0 (2 / 10) 0)) := by
    have := (center_after dot ⟨⟨0, 0, 0⟩, 2⟩ rfl 2 (by norm_num [dot])).1
    rw [this, interp_ahead]
    norm_num [dot]
  refine ⟨(Transform.asSE2 ⟨0, 0, 0⟩).mul (rigid 1 0 (2 / 10) 0),
    by simp only [Pursuit.pointAt, h1, h2], ?_, ?_⟩ <;>
    norm_num [Transform.asSE2, rigid, Mat3.mul]

/-- The agent on that lane. -/
noncomputable def dotConf (lights : List Nat) : Conf Nat := { conf lights with lane := dot }

theorem dot_answer (lights : List Nat) (l : Nat) (h : lights.head? = some l) (hl : lights.length = 5) :
    ∃ u, (LF.getCommands (dotConf lights) (LF.run (dotConf lights) LF.init [Call.init 0]).1 alone 0).2 =
      .ok u ∧ u.lights = l := by
  obtain ⟨lp, hlp, hal⟩ := dot_pose
  obtain ⟨g, hg, hg1, hg2⟩ := dot_point
  set a := (LF.run (dotConf lights) LF.init [Call.init 0]).1 with ha
  obtain ⟨v, e, hv, -⟩ := C20_states (dotConf lights).behavior 0 alone ⟨0, 0, 0, 10, 0⟩ rfl
  rcases getCommands_cases (dotConf lights) a alone 0 with
    ⟨hno, -⟩ | ⟨me', my', lp', ref, em, a2, ⟨d1, d2, d3, d4⟩, -, -, h3, he⟩
  · exact absurd ⟨rfl, rfl, hlp, hv⟩ (hno 0 ⟨0, 0, 0, 10, 0⟩ lp v e)
  · have e1 : me' = 0 := by
      have : a.myName = some 0 := rfl
      rw [this] at d1; injection d1 with d1; exact d1.symm
    subst e1
    have e2 : my' = ⟨0, 0, 0, 10, 0⟩ := by
      have : Dict.get? alone 0 = some ⟨0, 0, 0, 10, 0⟩ := rfl
      rw [this] at d2; injection d2 with d2; exact d2.symm
    subst e2
    have e3 : lp' = lp := by
      have : lanePoseOf (dotConf lights).closest (dotConf lights).lane (ObsState.pose ⟨0, 0, 0, 10, 0⟩) =
        .ok lp := hlp
      rw [this] at d3; injection d3 with d3; exact d3.symm
    subst e3
    rw [he]
    generalize hr : (if em || a2.emergency then 0 else ref) = r
    have hpu : (a2.refer (dotConf lights) ref em).pursuit =
        (a.pursuit.updatePose (ObsState.pose ⟨0, 0, 0, 10, 0⟩) 0).updateSpeed r := by
      rw [hal] at h3
      rw [← h3, ← hr]; rfl
    obtain ⟨δ, hδ, -⟩ := Pursuit.C68_false_straight (Pursuit.Param.fromGeo 3 1)
      (by norm_num [Pursuit.Param.fromGeo]) (by norm_num [Pursuit.Param.fromGeo])
      (by norm_num [Pursuit.Param.fromGeo]) (ObsState.pose ⟨0, 0, 0, 10, 0⟩) g (pose_rigid _) (2 / 10) r
      (by rw [hg1, hg2]; norm_num [applyT2, ObsState.pose, rigid]) (by norm_num [Pursuit.Param.fromGeo])
    have hs : (a2.refer (dotConf lights) ref em).pursuit.desiredSteering (dotConf lights).minim
        (dotConf lights).pursuitP = .ok δ := by
      rw [hpu, ← hδ]
      have hpath : a.pursuit.path = some dot := rfl
      have hm : (dotConf lights).minim = fun _ lo _ => .ok lo := rfl
      have hp : (dotConf lights).pursuitP = Pursuit.Param.fromGeo 3 1 := rfl
      have hmd : (0 : ℝ) + (Pursuit.Param.fromGeo 3 1).minDistance = 2 := by
        norm_num [Pursuit.Param.fromGeo]
      simp only [Pursuit.State.desiredSteering, Pursuit.State.updateSpeed, Pursuit.State.updatePose, hpath,
        Pursuit.findGoalPoint, hm, hp, hmd, hg]
    have hlt : (lightsSeq lights).atOrPrevious (0 : ℝ) = .ok l := by
      have hv : (lightsSeq lights).Valid := by
        refine ⟨by simp [lightsSeq, hl], ?_⟩
        simp only [lightsSeq]
        norm_num
      refine (C03_at_or_previous_ok_iff _ hv 0 l).mpr ⟨0, ?_, le_rfl, ?_⟩
      · cases lights with
        | nil => cases h
        | cons x xs => injection h with h; subst h; simp [lightsSeq, Seq.samples]
      · intro q _ hq; exact hq
    unfold LF.control
    obtain ⟨x, hx⟩ := getControl_out (dotConf lights).speedP (a2.refer (dotConf lights) ref em).speedPid 0
    simp only [hx, hs]
    obtain ⟨y, hy⟩ := getControl_out (dotConf lights).steerP
      ((a2.refer (dotConf lights) ref em).steerPid.updateReference (dotConf lights).steerP δ) 0
    have hll : (dotConf lights).lights = lights := rfl
    simp only [hy, hll, hlt]
    exact ⟨_, rfl, rfl⟩

/-- The first command of the agent on a lane with one control point. -/
example : ∃ u me my lp ref em, (LF.getCommands (dotConf [0, 1, 2, 3, 4])
    (LF.run (dotConf [0, 1, 2, 3, 4]) LF.init [Call.init 0]).1 alone 0).2 = .ok u ∧
    Decides (dotConf [0, 1, 2, 3, 4]) (some 0) alone me my lp ref em ∧ my.vx = 10 := by
  obtain ⟨u, hu, -⟩ := dot_answer [0, 1, 2, 3, 4] 0 rfl rfl
  obtain ⟨me, my, lp, ref, em, d, hd, -⟩ := C66_signal _ _ _ _ _ hu
  refine ⟨u, me, my, lp, ref, em, hu, hd, ?_⟩
  obtain ⟨h1, h2, -⟩ := hd
  injection h1 with h1
  subst h1
  injection h2 with h2
  rw [← h2]

/-- The hypotheses of `C66_lights` are met. -/
example : ∃ u, (LF.getCommands (dotConf [0, 1, 2, 3, 4])
    (LF.run (dotConf [0, 1, 2, 3, 4]) LF.init [Call.init 0]).1 alone 0).2 = .ok u ∧
    (dotConf [0, 1, 2, 3, 4]).lights.length = 5 := by
  obtain ⟨u, hu, -⟩ := dot_answer [0, 1, 2, 3, 4] 0 rfl rfl
  exact ⟨u, hu, rfl⟩

/-- **C66.** The lights are not reproducible: the same agent given the same observations answers with
different lights when the elements of the set of lights come in another order, which in Python depends
on the hash seed of the process. -/
theorem _root_.Verif.Agents.C66_lights_counterexample : ∃ (l1 l2 : List Nat) (u1 u2 : Cmd Nat),
    l1.Perm l2 ∧ l1.Nodup ∧ l1.length = 5 ∧
    (LF.getCommands (dotConf l1) (LF.run (dotConf l1) LF.init [Call.init 0]).1 alone 0).2 = .ok u1 ∧
    (LF.getCommands (dotConf l2) (LF.run (dotConf l2) LF.init [Call.init 0]).1 alone 0).2 = .ok u2 ∧
    u1.lights ≠ u2.lights := by
  obtain ⟨u1, h1, e1⟩ := dot_answer [0, 1, 2, 3, 4] 0 rfl rfl
  obtain ⟨u2, h2, e2⟩ := dot_answer [1, 0, 2, 3, 4] 1 rfl rfl
  exact ⟨_, _, u1, u2, List.Perm.swap 1 0 _, by decide, rfl, h1, h2, by rw [e1, e2]; decide⟩

end Straight

/-! ### A simulation with an agent that has a plan -/

namespace PlanToy
open Sim

/-- The plan: one command per second. -/
def plan : Seq ℚ ℚ := ⟨[0, 1, 2], [1, 2, 3]⟩

/-- The cars of the toy world, all following the plan. -/
abbrev wd : World Nat ℚ :=
  { Toy.wd with
    getCommands := fun w n o => match npCommands plan o.time with
      | .ok c => .ok (w, c, w n)
      | .error e => .error e }

def cfg : Cfg wd := ⟨1 / 2, 1, 6, 1, []⟩

def start : St wd where
  models := [(0, (0 : ℚ))]
  players := [0]
  w := fun _ => 0
  time := 0
  terminated := false
  reports := []
  firstColl := none
  lastObs := ⟨[], 0⟩
  lastCmdTs := none
  lastCmds := []
  logger := []
  trace := []

theorem fresh : Fresh start where
  time := rfl
  terminated := rfl
  reports := rfl
  firstColl := rfl
  lastCmdTs := rfl
  wfModels := by unfold Dict.Wf; decide
  players := by decide
  keys := by intro n; rfl
  trace := rfl

def σ : Nat → St wd
  | 0 => Toy.orElse start (initLoop start start.players)
  | j + 1 => Toy.orElse (σ j) (step cfg (σ j))

theorem ready : Ready (σ 0) := by
  have h : initLoop start start.players = .ok (σ 0) := Toy.eq_ok start (by decide +kernel)
  exact ((safe_initLoop_fresh start fresh).ok h).1

theorem exec : Exec cfg σ 6 := by
  intro i hi
  have h : ∀ i < 6, (σ i).terminated = false ∧ Toy.isOk (step cfg (σ i)) = true := by decide +kernel
  exact ⟨(h i hi).1, Toy.eq_ok (σ i) (h i hi).2⟩

/-- The hypotheses of `C67_simulated` are met in the sixth step of this run. -/
example := C67_simulated (j := 5) ready (show 0 < cfg.dt by decide +kernel)
  (show Dict.Wf cfg.missions by unfold Dict.Wf; decide) exec 0 (by decide +kernel) plan
  ⟨rfl, by simp [plan]⟩
  (by
    intro w o w' c i h
    simp only at h
    cases hp : npCommands plan o.time with
    | error e => rw [hp] at h; cases h
    | ok c' =>
      rw [hp] at h
      injection h with h
      injection h with h1 h2
      injection h2 with h2 h3
      rw [h2])
  (by
    intro w o w' o' h
    injection h with h
    injection h with h1 h2
    rw [h2])

end PlanToy

end Agents
end Verif
