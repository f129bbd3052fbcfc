import Verif.Maps.FrameProps
import Verif.Agents.Model
import Verif.Control.PursuitProps

/-!
# C152: steering, the reference speed and the lane follower do not depend on the frame of the world
-/

namespace Verif
namespace Agents

open Maps Pursuit

variable {N : Type} [DecidableEq N] {g : Mat3 ℝ} {cps cps' : List CtrPoint}

/-! ## Specification -/

/-- Specification: the same vehicle seen from a moved frame. -/
structure MovedState (g : Mat3 ℝ) (s s' : ObsState) : Prop where
  pose : s'.pose = g.mul s.pose
  vx : s'.vx = s.vx
  delta : s'.delta = s.delta

/-- Specification: the same observed players, all seen from a moved frame. -/
def MovedPlayers (g : Mat3 ℝ) (ps ps' : Dict N ObsState) : Prop :=
  List.Forall₂ (fun a b => b.1 = a.1 ∧ MovedState g a.2 b.2) ps ps'

/-- Specification: the same lane follower, with its lane moved. Both use the same search for the closest point. -/
structure MovedConf {L : Type} (g : Mat3 ℝ) (search : Search) (c c' : Conf L) : Prop where
  lane : MovedLane g c.lane c'.lane
  closest : c.closest = closestBy search c.lane
  closest' : c'.closest = closestBy search c'.lane
  speedP : c'.speedP = c.speedP
  steerP : c'.steerP = c.steerP
  pursuitP : c'.pursuitP = c.pursuitP
  behavior : c'.behavior = c.behavior
  lights : c'.lights = c.lights
  minim : c'.minim = c.minim

/-- Specification: the same calls, with the observations from a moved frame. -/
inductive MovedCalls (g : Mat3 ℝ) : List (Call N) → List (Call N) → Prop where
  | nil : MovedCalls g [] []
  | init (n : N) {l l'} (h : MovedCalls g l l') : MovedCalls g (.init n :: l) (.init n :: l')
  | ask {ps ps'} (t : ℝ) (hp : MovedPlayers g ps ps') {l l'} (h : MovedCalls g l l') :
      MovedCalls g (.ask ps t :: l) (.ask ps' t :: l')

/-- Specification: the goal point that is found on the lane is never exactly the center of the rear axle. -/
def GoalApart {L : Type} (c : Conf L) (my : ObsState) : Prop :=
  ∀ lp, lanePoseOf c.closest c.lane my.pose = .ok lp → ∀ v x q, findGoalPoint c.minim c.pursuitP c.lane my.pose lp.along v =
    .ok (x, q) → (q.a02, q.a12) ≠ applyT2 my.pose (-c.pursuitP.lr, 0)

/-- Specification: in every call, whatever entry is the own one, the goal point is not the center of the rear axle. -/
def AllApart {L : Type} (c : Conf L) (calls : List (Call N)) : Prop :=
  ∀ ps t, Call.ask ps t ∈ calls → ∀ n my, Dict.get? ps n = some my → GoalApart c my

/-! ## Steering -/

theorem pointAt_frame (hg : IsRigid g) (h : MovedLane g cps cps') (x : ℝ) :
    Agree (fun q q' => q' = g.mul q ∧ IsRigid q) (pointAt cps x) (pointAt cps' x) := by
  unfold pointAt
  rw [h.lengths hg, h.length]
  cases betaFromAlong (laneLengths cps) cps.length x with
  | error e => rfl
  | ok b =>
    have hc := h.center hg b
    have hr := centerPoint_rigid cps b
    simp only
    revert hc hr
    cases centerPoint cps b <;> cases centerPoint cps' b <;> simp only [Agree] <;> intro hc hr <;> try exact hc
    exact ⟨hc, hr _ rfl⟩

theorem goal_frame (hg : IsRigid g) (h : MovedLane g cps cps') (minim : (ℝ → Except Err ℝ) → ℝ → ℝ → Except Err ℝ) (p : Param)
    (pose : Mat3 ℝ) (hp : IsRigid pose) (along v : ℝ) :
    Agree (fun r r' => r'.1 = r.1 ∧ r'.2 = g.mul r.2 ∧ IsRigid r.2) (findGoalPoint minim p cps pose along v)
      (findGoalPoint minim p cps' (g.mul pose) along v) := by
  have he : goalPointError cps' (g.mul pose) (lookahead p v) = goalPointError cps pose (lookahead p v) := by
    funext x
    unfold goalPointError
    have := pointAt_frame hg h x
    revert this
    cases pointAt cps x <;> cases pointAt cps' x <;> simp only [Agree] <;> intro hc <;> try exact False.elim hc
    · rw [hc]
    · rw [hc.1, (C56_distance_frame g _ _ hg hp hc.2).2]
  unfold findGoalPoint
  simp only [he]
  cases minim (goalPointError cps pose (lookahead p v)) (along + p.minDistance) (along + p.minDistance + lookahead p v) with
  | error e => rfl
  | ok x =>
    simp only
    have := pointAt_frame hg h x
    revert this
    cases pointAt cps x <;> cases pointAt cps' x <;> simp only [Agree] <;> intro hc <;> try exact hc
    exact ⟨trivial, hc⟩

/-- **C152.** The wheel angle for a pose and a goal is the same in every frame, if the goal is not the center of the rear
axle. -/
theorem C152_steering_partial (hg : IsRigid g) (p : Param) (pose goal : Mat3 ℝ) (hp : IsRigid pose) (hq : IsRigid goal) (v : ℝ)
    (hne : (goal.a02, goal.a12) ≠ applyT2 pose (-p.lr, 0)) :
    steeringTo p (g.mul pose) (g.mul goal) v = steeringTo p pose goal v := by
  have hrear : applyT2 (g.mul pose) (-p.lr, 0) = applyT2 g (applyT2 pose (-p.lr, 0)) := by
    obtain ⟨c, s, x, y, h, rfl⟩ := hg
    obtain ⟨c', s', x', y', h', rfl⟩ := hp
    simp only [applyT2, rigid, Mat3.mul, Prod.mk.injEq]
    constructor <;> ring
  have hn : norm2 (goal.a02 - (applyT2 pose (-p.lr, 0)).1) (goal.a12 - (applyT2 pose (-p.lr, 0)).2) ≠ 0 := by
    intro h0
    obtain ⟨h1, h2⟩ := (norm2_eq_zero _ _).mp h0
    exact hne (Prod.ext (by simp only; linarith) (by simp only; linarith))
  have hpos := mul_pos' hg goal hq
  simp only [Prod.ext_iff] at hpos
  have hnf := norm_frame hg (goal.a02, goal.a12) (applyT2 pose (-p.lr, 0))
  have hsin : Real.sin (atan2 ((g.mul goal).a12 - (applyT2 (g.mul pose) (-p.lr, 0)).2)
        ((g.mul goal).a02 - (applyT2 (g.mul pose) (-p.lr, 0)).1) - atan2 (g.mul pose).a10 (g.mul pose).a00) =
      Real.sin (atan2 (goal.a12 - (applyT2 pose (-p.lr, 0)).2) (goal.a02 - (applyT2 pose (-p.lr, 0)).1) -
        atan2 pose.a10 pose.a00) := by
    rw [hrear, hpos.1, hpos.2]
    have hgp := hg.mul hp
    have hu : ∀ m : Mat3 ℝ, IsRigid m → m.a00 ^ 2 + m.a10 ^ 2 = 1 := by
      rintro m ⟨c, s, x, y, h, rfl⟩; exact h
    rw [sin_atan2_sub _ _ _ _ (hu _ hgp) (by rw [hnf]; exact hn), sin_atan2_sub _ _ _ _ (hu _ hp) hn, hnf]
    congr 1
    obtain ⟨c, s, x, y, h, rfl⟩ := hg
    obtain ⟨c', s', x', y', h', rfl⟩ := hp
    simp only [applyT2, rigid, Mat3.mul]
    linear_combination (c' * (goal.a12 - (s' * -p.lr + c' * 0 + y' * 1)) - s' * (goal.a02 - (c' * -p.lr + -s' * 0 + x' * 1))) * h
  unfold steeringTo
  simp only [hsin]

/-- **C152 does not hold when the goal is the center of the rear axle**: `atan2` of a zero vector is zero in every frame, so
the wheel angle follows the heading of the vehicle in the world. -/
theorem C152_false_goal : ∃ (p : Param) (g pose goal : Mat3 ℝ), IsRigid g ∧ IsRigid pose ∧ IsRigid goal ∧ 0 < p.lookMin ∧
    p.lookMin ≤ p.lookMax ∧ 0 < p.length ∧ (goal.a02, goal.a12) = applyT2 pose (-p.lr, 0) ∧
    steeringTo p (g.mul pose) (g.mul goal) 0 ≠ steeringTo p pose goal 0 := by
  refine ⟨Param.fromGeo 3 1, rigid 0 1 0 0, rigid 1 0 0 0, rigid 1 0 (-1) 0, ⟨0, 1, 0, 0, by norm_num, rfl⟩,
    ⟨1, 0, 0, 0, by norm_num, rfl⟩, ⟨1, 0, -1, 0, by norm_num, rfl⟩, by norm_num [Param.fromGeo], by norm_num [Param.fromGeo],
    by norm_num [Param.fromGeo], by simp [applyT2, rigid, Param.fromGeo], ?_⟩
  have h0 : atan2 0 0 = 0 := Complex.arg_zero
  have h1 : atan2 0 1 = 0 := by
    have := atan2_cos_sin 0 (by linarith [Real.pi_pos]) Real.pi_pos.le
    simpa using this
  have h2 : atan2 1 0 = Real.pi / 2 := by
    have := atan2_cos_sin (Real.pi / 2) (by linarith [Real.pi_pos]) (by linarith [Real.pi_pos])
    simpa using this
  have hl : lookahead (Param.fromGeo 3 1) 0 = 3 := by
    norm_num [lookahead, Param.fromGeo, npClip]
  have hL : (Param.fromGeo 3 1).length = 3 := rfl
  have hr : (Param.fromGeo 3 1).lr = 1 := rfl
  unfold steeringTo
  simp [Mat3.mul, rigid, applyT2, hl, hL, hr, h0, h1, h2, eps]
  norm_num
  intro h
  have := congrArg Real.tan h
  rw [Real.tan_arctan] at this
  norm_num at this

/-! ## Reference speed -/

theorem state_rigid (s : ObsState) : IsRigid s.pose :=
  ⟨_, _, _, _, by rw [Real.cos_sq_add_sin_sq], rfl⟩

theorem get_frame {ps ps' : Dict N ObsState} (h : MovedPlayers g ps ps') (n : N) :
    (Dict.get? ps n = none ∧ Dict.get? ps' n = none) ∨
    ∃ s s', Dict.get? ps n = some s ∧ Dict.get? ps' n = some s' ∧ MovedState g s s' := by
  induction h with
  | nil => exact Or.inl ⟨rfl, rfl⟩
  | @cons a b l l' hab _ ih =>
    obtain ⟨n1, s⟩ := a
    obtain ⟨n2, s'⟩ := b
    obtain ⟨h1, h2⟩ := hab
    simp only at h1 h2
    subst h1
    simp only [Dict.get?]
    by_cases hn : n2 = n
    · simp only [hn, if_true]; exact Or.inr ⟨s, s', rfl, rfl, h2⟩
    · simp only [hn, if_false]; exact ih

theorem views_frame (hg : IsRigid g) {ps ps' : Dict N ObsState} (h : MovedPlayers g ps ps') {my my' : ObsState}
    (hm : MovedState g my my') : viewsOf my' ps' = viewsOf my ps := by
  induction h with
  | nil => rfl
  | @cons a b l l' hab _ ih =>
    obtain ⟨n1, s⟩ := a
    obtain ⟨n2, s'⟩ := b
    obtain ⟨h1, h2⟩ := hab
    simp only at h1 h2
    subst h1
    have hv : viewOf my' s' = viewOf my s := by
      unfold viewOf
      rw [hm.pose, h2.pose, C56_frame g _ _ hg.det_ne, h2.vx]
    simp only [viewsOf, hv, ih]

/-- **C152.** The reference speed and the emergency flag are the same in every frame. -/
theorem C152_speed (hg : IsRigid g) (prm : SpeedBehaviorParam ℝ) (me : N) {ps ps' : Dict N ObsState}
    (h : MovedPlayers g ps ps') : speedRef prm me ps' = speedRef prm me ps := by
  unfold speedRef
  rcases get_frame h me with ⟨h1, h2⟩ | ⟨s, s', h1, h2, hs⟩
  · rw [h1, h2]
  · rw [h1, h2]
    simp only [views_frame hg h hs]

/-! ## The lane follower -/

/-- The attributes of the two agents after the same calls. -/
structure MovedAgent (g : Mat3 ℝ) (a a' : LF N) : Prop where
  myName : a'.myName = a.myName
  emergency : a'.emergency = a.emergency
  speedPid : a'.speedPid = a.speedPid
  steerPid : a'.steerPid = a.steerPid
  speed : a'.pursuit.speed = a.pursuit.speed
  along : a'.pursuit.alongPath = a.pursuit.alongPath
  pose : a'.pursuit.pose = a.pursuit.pose.map g.mul
  path : (a.pursuit.path = none ∧ a'.pursuit.path = none) ∨
    ∃ l l', a.pursuit.path = some l ∧ a'.pursuit.path = some l' ∧ MovedLane g l l'

theorem desired_frame (hg : IsRigid g) (minim : (ℝ → Except Err ℝ) → ℝ → ℝ → Except Err ℝ) (p : Param) (a a' : LF N)
    (h : MovedAgent g a a') (hr : ∀ q, a.pursuit.pose = some q → IsRigid q)
    (hgo : ∀ l q al, a.pursuit.path = some l → a.pursuit.pose = some q → a.pursuit.alongPath = some al →
      ∀ v x r, findGoalPoint minim p l q al v = .ok (x, r) → (r.a02, r.a12) ≠ applyT2 q (-p.lr, 0)) :
    a'.pursuit.desiredSteering minim p = a.pursuit.desiredSteering minim p := by
  unfold State.desiredSteering
  rw [h.pose, h.along, h.speed]
  rcases h.path with ⟨h1, h2⟩ | ⟨l, l', h1, h2, hl⟩
  · rw [h1, h2]; cases a.pursuit.pose <;> rfl
  · rw [h1, h2]
    cases hq : a.pursuit.pose with
    | none => rfl
    | some q =>
      simp only [Option.map_some]
      cases ha : a.pursuit.alongPath with
      | none => rfl
      | some al =>
        simp only
        have hgoal := goal_frame hg hl minim p q (hr q hq) al a.pursuit.speed
        have hap := hgo l q al h1 hq ha a.pursuit.speed
        revert hgoal hap
        cases findGoalPoint minim p l q al a.pursuit.speed <;> cases findGoalPoint minim p l' (g.mul q) al a.pursuit.speed <;>
          simp only [Agree] <;> intro hgoal hap <;> try exact False.elim hgoal
        · rw [hgoal]
        · rename_i r r'
          rw [hgoal.2.1]
          exact C152_steering_partial hg p q r.2 (hr q hq) hgoal.2.2 _ (hap r.1 r.2 rfl)

theorem control_frame (hg : IsRigid g) {L : Type} {search : Search} {c c' : Conf L} (hc : MovedConf g search c c') (a a' : LF N)
    (h : MovedAgent g a a') (t : ℝ) (hr : ∀ q, a.pursuit.pose = some q → IsRigid q)
    (hgo : ∀ l q al, a.pursuit.path = some l → a.pursuit.pose = some q → a.pursuit.alongPath = some al →
      ∀ v x r, findGoalPoint c.minim c.pursuitP l q al v = .ok (x, r) → (r.a02, r.a12) ≠ applyT2 q (-c.pursuitP.lr, 0)) :
    (a'.control c' t).2 = (a.control c t).2 ∧ MovedAgent g (a.control c t).1 (a'.control c' t).1 := by
  unfold LF.control
  rw [hc.speedP, hc.steerP, hc.pursuitP, hc.lights, hc.minim, h.speedPid]
  have hd := desired_frame hg c.minim c.pursuitP a a' h hr hgo
  simp only
  cases (a.speedPid.getControl c.speedP t).2 with
  | error e => exact ⟨rfl, ⟨h.myName, h.emergency, rfl, h.steerPid, h.speed, h.along, h.pose, h.path⟩⟩
  | ok acc =>
    simp only [hd, h.steerPid]
    cases a.pursuit.desiredSteering c.minim c.pursuitP with
    | error e => exact ⟨rfl, ⟨h.myName, h.emergency, rfl, rfl, h.speed, h.along, h.pose, h.path⟩⟩
    | ok d =>
      simp only
      cases ((a.steerPid.updateReference c.steerP d).getControl c.steerP t).2 with
      | error e => exact ⟨rfl, ⟨h.myName, h.emergency, rfl, rfl, h.speed, h.along, h.pose, h.path⟩⟩
      | ok dd =>
        simp only
        cases (lightsSeq c.lights).atOrPrevious t with
        | error e => exact ⟨rfl, ⟨h.myName, h.emergency, rfl, rfl, h.speed, h.along, h.pose, h.path⟩⟩
        | ok l => exact ⟨rfl, ⟨h.myName, h.emergency, rfl, rfl, h.speed, h.along, h.pose, h.path⟩⟩

/-- The path of an agent that was told its name is its lane. -/
def OwnLane {L : Type} (c : Conf L) (a : LF N) : Prop := ∀ l, a.pursuit.path = some l → l = c.lane

theorem commands_frame (hg : IsRigid g) {L : Type} {search : Search} {c c' : Conf L} (hc : MovedConf g search c c') (a a' : LF N)
    (h : MovedAgent g a a') (ho : OwnLane c a) {ps ps' : Dict N ObsState} (hp : MovedPlayers g ps ps') (t : ℝ)
    (hgo : ∀ n my, Dict.get? ps n = some my → GoalApart c my) :
    (a'.getCommands c' ps' t).2 = (a.getCommands c ps t).2 ∧ MovedAgent g (a.getCommands c ps t).1 (a'.getCommands c' ps' t).1 ∧
      OwnLane c (a.getCommands c ps t).1 := by
  unfold LF.getCommands
  rw [h.myName]
  cases hn : a.myName with
  | none => exact ⟨rfl, h, ho⟩
  | some me =>
    simp only
    rcases get_frame hp me with ⟨h1, h2⟩ | ⟨my, my', h1, h2, hm⟩
    · rw [h1, h2]; exact ⟨rfl, h, ho⟩
    · rw [h1, h2]
      simp only
      have hmeas : MovedAgent g (a.measure my) (a'.measure my') := by
        refine ⟨h.myName, h.emergency, ?_, ?_, h.speed, h.along, h.pose, h.path⟩
        · simp only [LF.measure, h.speedPid, hm.vx]
        · simp only [LF.measure, h.steerPid, hm.delta]
      have hpose := C152_pose hg hc.lane search my.pose (state_rigid my)
      have happ := hgo me my h1
      unfold GoalApart at happ
      rw [hc.closest, hc.closest', hm.pose] at *
      revert hpose happ
      cases lanePoseOf (closestBy search c.lane) c.lane my.pose <;>
        cases lanePoseOf (closestBy search c'.lane) c'.lane (g.mul my.pose) <;> simp only [Agree] <;>
        intro hpose happ <;> try exact False.elim hpose
      · rw [hpose]; exact ⟨rfl, hmeas, ho⟩
      · rename_i lp lp'
        rw [hpose.along, hc.behavior, C152_speed hg c.behavior me hp]
        have hm2 : MovedAgent g { a.measure my with pursuit := (a.measure my).pursuit.updatePose my.pose lp.along }
            { a'.measure my' with pursuit := (a'.measure my').pursuit.updatePose (g.mul my.pose) lp.along } :=
          ⟨hmeas.myName, hmeas.emergency, hmeas.speedPid, hmeas.steerPid, hmeas.speed, rfl, rfl, hmeas.path⟩
        cases speedRef c.behavior me ps with
        | error e => exact ⟨rfl, hm2, ho⟩
        | ok r =>
          obtain ⟨ref, em⟩ := r
          simp only
          generalize hb : ({ a.measure my with pursuit := (a.measure my).pursuit.updatePose my.pose lp.along } : LF N) = b at *
          generalize hb' : ({ a'.measure my' with pursuit := (a'.measure my').pursuit.updatePose (g.mul my.pose) lp.along } :
            LF N) = b' at *
          have hm3 : MovedAgent g (b.refer c ref em) (b'.refer c' ref em) := by
            refine ⟨hm2.myName, ?_, ?_, hm2.steerPid, ?_, hm2.along, hm2.pose, hm2.path⟩
            · simp only [LF.refer, hm2.emergency]
            · simp only [LF.refer, hm2.emergency, hm2.speedPid, hc.speedP]
            · simp only [LF.refer, hm2.emergency, State.updateSpeed]
          have hpo : (b.refer c ref em).pursuit.pose = some my.pose := by subst hb; rfl
          have hal : (b.refer c ref em).pursuit.alongPath = some lp.along := by subst hb; rfl
          have hpa : (b.refer c ref em).pursuit.path = a.pursuit.path := by subst hb; rfl
          have hres := control_frame hg hc (b.refer c ref em) (b'.refer c' ref em) hm3 t
            (fun q hq => by rw [hpo] at hq; injection hq with hq; rw [← hq]; exact state_rigid my)
            (fun l q al e1 e2 e3 v x r hf => by
              rw [hpo] at e2; rw [hal] at e3; rw [hpa] at e1
              injection e2 with e2; injection e3 with e3
              subst e2 e3
              rw [ho l e1] at hf
              exact happ lp rfl v x r hf)
          refine ⟨hres.1, hres.2, ?_⟩
          intro l hl
          apply ho l
          rw [← hpa, ← hl]
          unfold LF.control
          simp only
          split
          · rfl
          · split
            · rfl
            · split
              · rfl
              · split <;> rfl

/-- **C152.** A lane follower gives the same commands, and raises the same exceptions, in every frame, if the goal point it
finds is never exactly the center of its rear axle. -/
theorem C152_follower_partial (hg : IsRigid g) {L : Type} (search : Search) (c c' : Conf L) (hc : MovedConf g search c c')
    (calls calls' : List (Call N)) (hcalls : MovedCalls g calls calls') (hgo : AllApart c calls) :
    (LF.run c' LF.init calls').2 = (LF.run c LF.init calls).2 := by
  have key : ∀ a a' : LF N, MovedAgent g a a' → OwnLane c a → (LF.run c' a' calls').2 = (LF.run c a calls).2 := by
    induction hcalls with
    | nil => intro a a' _ _; rfl
    | @init n l l' _ ih =>
      intro a a' h ho
      simp only [LF.run, LF.step, Option.toList_none, List.nil_append]
      refine ih (fun ps t hm => hgo ps t (List.mem_cons_of_mem _ hm)) _ _ ?_ ?_
      · exact ⟨rfl, h.emergency, h.speedPid, h.steerPid, h.speed, h.along, h.pose, Or.inr ⟨_, _, rfl, rfl, hc.lane⟩⟩
      · intro l hl
        simp only [LF.onInit, State.updatePath, Option.some.injEq] at hl
        exact hl.symm
    | @ask ps ps' t hp l l' _ ih =>
      intro a a' h ho
      obtain ⟨h1, h2, h3⟩ := commands_frame hg hc a a' h ho hp t (hgo ps t (by simp))
      simp only [LF.run, LF.step, Option.toList_some]
      rw [h1, ih (fun ps t hm => hgo ps t (List.mem_cons_of_mem _ hm)) _ _ h2 h3]
  exact key _ _ ⟨rfl, rfl, rfl, rfl, rfl, rfl, rfl, Or.inl ⟨rfl, rfl⟩⟩ (fun l hl => by cases hl)

/-! ## Example -/

/-- A state in a frame moved by `t`. -/
noncomputable def shiftedState (t : Transform) (s : ObsState) : ObsState :=
  ⟨(applyT2 t.asSE2 (s.x, s.y)).1, (applyT2 t.asSE2 (s.x, s.y)).2, t.theta + s.psi, s.vx, s.delta⟩

/-- Every state can be seen from every frame. -/
theorem C152_shifted_state (t : Transform) (s : ObsState) : MovedState t.asSE2 s (shiftedState t s) := by
  refine ⟨?_, rfl, rfl⟩
  simp only [ObsState.pose, shiftedState, Transform.asSE2, rigid, Mat3.mul, applyT2, Real.cos_add, Real.sin_add]
  ext <;> simp <;> ring

/-- A vehicle two metres to the right of the lane `north`, heading along it, and another one in front of it. -/
noncomputable def traffic : Dict Nat ObsState := [(0, ⟨5, 2, Real.pi / 2, 4, 0⟩), (1, ⟨5, 9, Real.pi / 2, 1, 0⟩)]

/-- All hypotheses for the lane `north` and a frame turned by a quarter: the center line is at `x = 3` and the rear axle at
`x = 5`. -/
example (search : Search) (minim : (ℝ → Except Err ℝ) → ℝ → ℝ → Except Err ℝ) (sp st : PIDParam ℝ)
    (b : SpeedBehaviorParam ℝ) :
    let t : Transform := ⟨1, 2, Real.pi / 2⟩
    let lane' := north.map (shifted t)
    let c : Conf Nat := ⟨north, sp, st, Param.fromGeo 3 1, b, [1, 2], closestBy search north, minim⟩
    let c' : Conf Nat := ⟨lane', sp, st, Param.fromGeo 3 1, b, [1, 2], closestBy search lane', minim⟩
    MovedConf t.asSE2 search c c' ∧
    MovedCalls t.asSE2 [Call.init 0, .ask traffic 0] [Call.init 0, .ask (traffic.map fun q => (q.1, shiftedState t q.2)) 0] ∧
    AllApart c [Call.init 0, .ask traffic 0] := by
  intro t lane' c c'
  refine ⟨⟨C152_shifted t north, rfl, rfl, rfl, rfl, rfl, rfl, rfl, rfl⟩, .init 0 (.ask 0 ?_ .nil), ?_⟩
  · exact List.Forall₂.cons ⟨rfl, C152_shifted_state t _⟩ (List.Forall₂.cons ⟨rfl, C152_shifted_state t _⟩ List.Forall₂.nil)
  · intro ps tt hm n my hmy lp _ v x q hf
    simp only [List.mem_cons, reduceCtorEq, Call.ask.injEq, List.not_mem_nil, or_false, false_or] at hm
    obtain ⟨rfl, -⟩ := hm
    have hx : my.x = 5 ∧ my.psi = Real.pi / 2 := by
      simp only [traffic, Dict.get?] at hmy
      split at hmy
      · injection hmy with hmy; rw [← hmy]; exact ⟨rfl, rfl⟩
      · split at hmy
        · injection hmy with hmy; rw [← hmy]; exact ⟨rfl, rfl⟩
        · cases hmy
    obtain ⟨f, hf', -⟩ := C53_along (laneLengths north)
    have hq : q.a02 = 3 := by
      unfold findGoalPoint at hf
      simp only at hf
      split at hf
      · cases hf
      · split at hf
        · cases hf
        · rename_i hp
          injection hf with hf
          injection hf with h1 h2
          subst h1 h2
          unfold pointAt at hp
          split at hp
          · cases hp
          · rename_i b _
            rw [(north_straight.center f hf' b).1] at hp
            injection hp with hp
            rw [← hp]
            simp [Transform.asSE2, rigid]
    intro he
    have := congrArg Prod.fst he
    simp only [applyT2, ObsState.pose, rigid, hx.1, hx.2, hq, Real.cos_pi_div_two] at this
    norm_num at this

end Agents
end Verif
