import Verif.Agents.Model
import Verif.Agents.ViewProps
import Verif.Phys.States

/-!
# Reading states (src/dg_commons/sim/models/utils.py:27-50) and property C91

Here a state is an object of any class, given by its float attributes. The speed behaviour
(controllers/speed.py:70-156) is modelled again on such states, with the exceptions of missing attributes
and the order in which they are read.
-/

namespace Verif
namespace Agents

open Maps

variable {N : Type} [DecidableEq N]

/-- A state object by its attributes: `none` raises `AttributeError`. -/
abbrev Attrs := String → Option ℝ

/-- `SE2_from_xytheta([state.x, state.y, state.<angle>])`; `none` for an `AttributeError`. -/
noncomputable def poseWith (s : Attrs) (angle : String) : Option (Mat3 ℝ) :=
  (s "x").bind fun x => (s "y").bind fun y => (s angle).map fun t => rigid (Real.cos t) (Real.sin t) x y

/-- `extract_pose_from_state`, sim/models/utils.py:27-37. -/
noncomputable def extractPose (s : Attrs) : Except Err (Mat3 ℝ) :=
  match poseWith s "theta" with
  | some q => .ok q
  | none => match poseWith s "psi" with
    | some q => .ok q
    | none => .error .zValue

/-- `extract_2d_position_from_state`, sim/models/utils.py:40-41. -/
def extractPosition (s : Attrs) : Except Err (ℝ × ℝ) :=
  match s "x", s "y" with
  | some x, some y => .ok (x, y)
  | _, _ => .error .attribute

/-- `extract_vel_from_state`, sim/models/utils.py:44-50. -/
def extractVel (s : Attrs) : Except Err ℝ :=
  match s "vx" with
  | some v => .ok v
  | none => .error .zValue

/-- `state.vx`. -/
def attrVx (s : Attrs) : Except Err ℝ :=
  match s "vx" with
  | some v => .ok v
  | none => .error .attribute

/-- `rel_pose`, speed.py:78-80. -/
noncomputable def relOf (mypose : Mat3 ℝ) (s : Attrs) : Except Err Transform :=
  match extractPose s with
  | .error e => .error e
  | .ok q => match relativePose mypose q with
    | .error e => .error e
    | .ok r => .ok (Transform.fromSE2 r)

/-- `valmap(rel_pose, self.agents)`, speed.py:82, paired with the states. -/
noncomputable def relsOf (mypose : Mat3 ℝ) : Dict N Attrs → Except Err (Dict N (Attrs × Transform))
  | [] => .ok []
  | (n, s) :: rest => match relOf mypose s with
    | .error e => .error e
    | .ok t => match relsOf mypose rest with
      | .error e => .error e
      | .ok ts => .ok ((n, (s, t)) :: ts)

/-- Relative pose, distance and speed of an agent. -/
noncomputable def viewAt (t : Transform) (v : ℝ) : AgentView ℝ := ⟨t.x, t.y, t.theta, norm2 t.x t.y, v⟩

/-- The loops of speed.py:96-108 and 112-128, with the test of their body. -/
noncomputable def askLoop (me : N) (test : AgentView ℝ → Bool) : Dict N (Attrs × Transform) → Except Err Bool
  | [] => .ok false
  | (n, p) :: rest =>
    if n = me then askLoop me test rest
    else match extractVel p.1 with
      | .error e => .error e
      | .ok v => if test (viewAt p.2 v) then .ok true else askLoop me test rest

/-- The loop of `cruise_control`, speed.py:137-151. -/
noncomputable def cruiseLoop (prm : SpeedBehaviorParam ℝ) (me : N) (myvel : ℝ) :
    Dict N (Attrs × Transform) → Except Err (List ℝ)
  | [] => .ok []
  | (n, p) :: rest =>
    if n = me then cruiseLoop prm me myvel rest
    else match attrVx p.1 with
      | .error e => .error e
      | .ok v => match cruiseLoop prm me myvel rest with
        | .error e => .error e
        | .ok l => .ok (cruiseCandidate Real.pi prm myvel (viewAt p.2 v) :: l)

/-- The two tests and the choice of the reference, speed.py:83-89, 111, 135, 152. -/
noncomputable def decideRef (prm : SpeedBehaviorParam ℝ) (me : N) (my : Attrs)
    (ts : Dict N (Attrs × Transform)) : Except Err (ℝ × Bool) :=
  match askLoop me (yieldTest Real.pi prm) ts with
  | .error e => .error e
  | .ok yields => match attrVx my with
    | .error e => .error e
    | .ok myvel => match askLoop me (emergencyTest Real.pi prm myvel) ts with
      | .error e => .error e
      | .ok emergency =>
        if yields || emergency then .ok (0, emergency)
        else match cruiseLoop prm me myvel ts with
          | .error e => .error e
          | .ok l => .ok (minList prm.nominalSpeed l, emergency)

/-- `SpeedBehavior.get_speed_ref`, speed.py:70-89, on states of any class. -/
noncomputable def speedRefAny (prm : SpeedBehaviorParam ℝ) (me : N) (players : Dict N Attrs) :
    Except Err (ℝ × Bool) :=
  match Dict.get? players me with
  | none => .error .key
  | some my => match extractPose my with
    | .error e => .error e
    | .ok mypose => match relsOf mypose players with
      | .error e => .error e
      | .ok ts => decideRef prm me my ts

/-- The attributes of a state of one of the models, from the names in its `idx` and its array. -/
def attrsOf (idx : List (String × Nat)) (arr : List ℝ) : Attrs := fun name =>
  (idx.lookup name).bind fun i => arr[i]?

/-! ## C91 -/

/-- **C91.** The pose is read from `x`, `y`, `theta` when these exist, otherwise from `x`, `y`, `psi`, and
`ZValueError` is raised if neither is possible. -/
theorem C91_pose (s : Attrs) :
    (∀ x y t, s "x" = some x → s "y" = some y → s "theta" = some t →
      extractPose s = .ok (rigid (Real.cos t) (Real.sin t) x y)) ∧
    (∀ x y p, s "x" = some x → s "y" = some y → s "theta" = none → s "psi" = some p →
      extractPose s = .ok (rigid (Real.cos p) (Real.sin p) x y)) ∧
    (extractPose s = .error .zValue ↔
      s "x" = none ∨ s "y" = none ∨ (s "theta" = none ∧ s "psi" = none)) ∧
    (∀ e, extractPose s = .error e → e = .zValue) := by
  refine ⟨?_, ?_, ?_, ?_⟩
  · intro x y t h1 h2 h3
    simp [extractPose, poseWith, h1, h2, h3]
  · intro x y p h1 h2 h3 h4
    simp [extractPose, poseWith, h1, h2, h3, h4]
  · unfold extractPose poseWith
    cases s "x" <;> cases s "y" <;> cases s "theta" <;> cases s "psi" <;> simp
  · intro e
    unfold extractPose poseWith
    cases s "x" <;> cases s "y" <;> cases s "theta" <;> cases s "psi" <;> simp <;> exact Eq.symm

/-- **C91.** The position is read from `x` and `y`, and `AttributeError` is raised if one is missing. -/
theorem C91_position (s : Attrs) :
    (∀ x y, s "x" = some x → s "y" = some y → extractPosition s = .ok (x, y)) ∧
    (s "x" = none ∨ s "y" = none → extractPosition s = .error .attribute) := by
  refine ⟨fun x y h1 h2 => by simp [extractPosition, h1, h2], fun h => ?_⟩
  unfold extractPosition
  rcases h with h | h
  · rw [h]
  · rw [h]; cases s "x" <;> rfl

example : attrsOf VehicleState.idx (⟨1, 2, 3, 4, 5⟩ : VehicleState ℝ).toArray "y" = some 2 := by
  simp [attrsOf, VehicleState.idx, VehicleState.toArray, List.lookup]

/-- **C91.** Every class of states gives its pose with the heading `psi`; all of them except the
differential drive give the speed `vx`. -/
theorem C91_states :
    (∀ s : VehicleState ℝ, extractPose (attrsOf VehicleState.idx s.toArray) =
        .ok (rigid (Real.cos s.psi) (Real.sin s.psi) s.x s.y) ∧
      extractVel (attrsOf VehicleState.idx s.toArray) = .ok s.vx) ∧
    (∀ s : VehicleStateDyn ℝ, extractPose (attrsOf VehicleStateDyn.idx s.toArray) =
        .ok (rigid (Real.cos s.psi) (Real.sin s.psi) s.x s.y) ∧
      extractVel (attrsOf VehicleStateDyn.idx s.toArray) = .ok s.vx) ∧
    (∀ s : PedestrianState ℝ, extractPose (attrsOf PedestrianState.idx s.toArray) =
        .ok (rigid (Real.cos s.psi) (Real.sin s.psi) s.x s.y) ∧
      extractVel (attrsOf PedestrianState.idx s.toArray) = .ok s.vx) ∧
    (∀ s : DynObstacleState ℝ, extractPose (attrsOf DynObstacleState.idx s.toArray) =
        .ok (rigid (Real.cos s.psi) (Real.sin s.psi) s.x s.y) ∧
      extractVel (attrsOf DynObstacleState.idx s.toArray) = .ok s.vx) ∧
    (∀ s : SpacecraftState ℝ, extractPose (attrsOf SpacecraftState.idx s.toArray) =
        .ok (rigid (Real.cos s.psi) (Real.sin s.psi) s.x s.y) ∧
      extractVel (attrsOf SpacecraftState.idx s.toArray) = .ok s.vx) ∧
    (∀ s : SpaceshipState ℝ, extractPose (attrsOf SpaceshipState.idx s.toArray) =
        .ok (rigid (Real.cos s.psi) (Real.sin s.psi) s.x s.y) ∧
      extractVel (attrsOf SpaceshipState.idx s.toArray) = .ok s.vx) ∧
    (∀ s : RocketState ℝ, extractPose (attrsOf RocketState.idx s.toArray) =
        .ok (rigid (Real.cos s.psi) (Real.sin s.psi) s.x s.y) ∧
      extractVel (attrsOf RocketState.idx s.toArray) = .ok s.vx) ∧
    (∀ s : DiffDriveState ℝ, extractPose (attrsOf DiffDriveState.idx s.toArray) =
        .ok (rigid (Real.cos s.psi) (Real.sin s.psi) s.x s.y) ∧
      extractVel (attrsOf DiffDriveState.idx s.toArray) = .error .zValue) := by
  refine ⟨?_, ?_, ?_, ?_, ?_, ?_, ?_, ?_⟩ <;> intro s <;> exact ⟨rfl, rfl⟩

/-- The attributes the behaviour reads of an `ObsState`. -/
def Reads (o : ObsState) (s : Attrs) : Prop :=
  extractPose s = .ok o.pose ∧ s "vx" = some o.vx

theorem relsOf_ok (my : ObsState) (players : Dict N ObsState) (any : Dict N Attrs)
    (h : List.Forall₂ (fun p a => a.1 = p.1 ∧ Reads p.2 a.2) players any) :
    ∃ vs ts, viewsOf my players = .ok vs ∧ relsOf my.pose any = .ok ts ∧
      List.Forall₂ (fun (v : N × AgentView ℝ) (t : N × (Attrs × Transform)) => t.1 = v.1 ∧
        t.2.1 "vx" = some v.2.vx ∧ v.2 = viewAt t.2.2 v.2.vx) vs ts := by
  induction h with
  | nil => exact ⟨[], [], rfl, rfl, .nil⟩
  | @cons p a ps as hpa _ ih =>
    obtain ⟨n, o⟩ := p
    obtain ⟨m, s⟩ := a
    obtain ⟨hn, hp, hv⟩ := hpa
    simp only at hn hp hv
    subst hn
    obtain ⟨vs, ts, h1, h2, h3⟩ := ih
    obtain ⟨r, hr, -, -⟩ := (C56_relative my.pose o.pose).2 (pose_rigid my) (pose_rigid o)
    refine ⟨(m, viewAt (Transform.fromSE2 r) o.vx) :: vs, (m, (s, Transform.fromSE2 r)) :: ts, ?_, ?_,
      .cons ⟨rfl, hv, rfl⟩ h3⟩
    · simp only [viewsOf, viewOf, hr, h1, viewAt]
    · simp only [relsOf, relOf, hp, hr, h2]

theorem askLoop_ok (me : N) (test : AgentView ℝ → Bool) (vs : Dict N (AgentView ℝ))
    (ts : Dict N (Attrs × Transform))
    (h : List.Forall₂ (fun (v : N × AgentView ℝ) (t : N × (Attrs × Transform)) => t.1 = v.1 ∧
        t.2.1 "vx" = some v.2.vx ∧ v.2 = viewAt t.2.2 v.2.vx) vs ts) :
    askLoop me test ts = .ok (anyOther me test vs) := by
  induction h with
  | nil => rfl
  | @cons v t vs ts hvt _ ih =>
    obtain ⟨n, v⟩ := v
    obtain ⟨m, s, t⟩ := t
    obtain ⟨hn, hx, hv⟩ := hvt
    simp only at hn hx hv
    subst hn
    simp only [askLoop, anyOther, extractVel, hx, ih, ← hv]
    split
    · rfl
    · cases test v <;> rfl

theorem cruiseLoop_ok (prm : SpeedBehaviorParam ℝ) (me : N) (w : ℝ) (vs : Dict N (AgentView ℝ))
    (ts : Dict N (Attrs × Transform))
    (h : List.Forall₂ (fun (v : N × AgentView ℝ) (t : N × (Attrs × Transform)) => t.1 = v.1 ∧
        t.2.1 "vx" = some v.2.vx ∧ v.2 = viewAt t.2.2 v.2.vx) vs ts) :
    cruiseLoop prm me w ts = .ok (cruiseCandidates Real.pi prm me w vs) := by
  induction h with
  | nil => rfl
  | @cons v t vs ts hvt _ ih =>
    obtain ⟨n, v⟩ := v
    obtain ⟨m, s, t⟩ := t
    obtain ⟨hn, hx, hv⟩ := hvt
    simp only at hn hx hv
    subst hn
    simp only [cruiseLoop, cruiseCandidates, attrVx, hx, ih, ← hv]
    split <;> rfl

/-- **C91.** If every state has a pose and a speed, the speed behaviour on states of any class is the speed
behaviour of C20 on those poses and speeds. -/
theorem C91_refines_partial (prm : SpeedBehaviorParam ℝ) (me : N) (players : Dict N ObsState)
    (any : Dict N Attrs) (h : List.Forall₂ (fun p a => a.1 = p.1 ∧ Reads p.2 a.2) players any) :
    speedRefAny prm me any = speedRef prm me players := by
  have hget : ∀ o, Dict.get? players me = some o → ∃ s, Dict.get? any me = some s ∧ Reads o s := by
    clear prm
    induction h with
    | nil => intro o ho; cases ho
    | @cons p a ps as hpa _ ih =>
      obtain ⟨n, q⟩ := p
      obtain ⟨m, s⟩ := a
      obtain ⟨hn, hr⟩ := hpa
      simp only at hn hr
      subst hn
      intro o ho
      simp only [Dict.get?] at ho ⊢
      split at ho
      · rename_i hm; injection ho with ho; subst ho; exact ⟨s, by simp [hm], hr⟩
      · rename_i hm; simp only [hm, if_false]; exact ih o ho
  have hnone : Dict.get? players me = none → Dict.get? any me = none := by
    clear hget prm
    induction h with
    | nil => intro _; rfl
    | @cons p a ps as hpa _ ih =>
      obtain ⟨n, q⟩ := p
      obtain ⟨m, s⟩ := a
      obtain ⟨hn, hr⟩ := hpa
      simp only at hn
      subst hn
      intro ho
      simp only [Dict.get?] at ho ⊢
      split at ho
      · cases ho
      · rename_i hm; simp only [hm, if_false]; exact ih ho
  unfold speedRefAny speedRef
  cases hme : Dict.get? players me with
  | none => rw [hnone hme]
  | some my =>
    obtain ⟨s, hs, hp, hv⟩ := hget my hme
    obtain ⟨vs, ts, h1, h2, h3⟩ := relsOf_ok my players any h
    obtain ⟨v, hv1, hv2⟩ := get?_views my players vs (by
      obtain ⟨vs', h4, h5⟩ := viewsOf_spec my players
      rw [h1] at h4
      injection h4 with h4
      rw [h4]; exact h5) me my hme
    have hvx : v.vx = my.vx := by
      obtain ⟨_, _, _, hw, -⟩ := C20_view my my
      rw [hw] at hv2
      injection hv2 with hv2
      rw [← hv2]
    rw [hs]
    simp only [hp, h2, h1, decideRef, askLoop_ok me _ vs ts h3, attrVx, hv, getSpeedRef, hv1, hvx,
      cruiseLoop_ok prm me _ vs ts h3]

theorem askLoop_blind (me : N) (test : AgentView ℝ → Bool) (ts : Dict N (Attrs × Transform)) (n : N)
    (p : Attrs × Transform) (hn : n ≠ me) (hm : (n, p) ∈ ts) (hv : p.1 "vx" = none) :
    askLoop me test ts = .ok true ∨ askLoop me test ts = .error .zValue := by
  induction ts with
  | nil => cases hm
  | cons q rest ih =>
    obtain ⟨m, s, t⟩ := q
    rcases List.mem_cons.mp hm with hm | hm
    · injection hm with h1 h2
      subst h1; subst h2
      simp only at hv
      right
      simp [askLoop, hn, extractVel, hv]
    · simp only [askLoop]
      split
      · exact ih hm
      · unfold extractVel
        cases s "vx" with
        | none => right; rfl
        | some v =>
          simp only
          split
          · left; rfl
          · exact ih hm

theorem relsOf_mem (q : Mat3 ℝ) (any : Dict N Attrs) (ts : Dict N (Attrs × Transform))
    (h : relsOf q any = .ok ts) (n : N) (s : Attrs) (hm : (n, s) ∈ any) : ∃ t, (n, (s, t)) ∈ ts := by
  induction any generalizing ts with
  | nil => cases hm
  | cons p rest ih =>
    obtain ⟨m, a⟩ := p
    simp only [relsOf] at h
    split at h
    · cases h
    · rename_i t ht
      split at h
      · cases h
      · rename_i us hus
        injection h with h
        subst h
        rcases List.mem_cons.mp hm with hm | hm
        · injection hm with h1 h2
          subst h1; subst h2
          exact ⟨t, by simp⟩
        · obtain ⟨t', ht'⟩ := ih us hus hm
          exact ⟨t', List.mem_cons_of_mem _ ht'⟩

/-- **C91.** With an agent around whose state has no speed, the behaviour never gives a reference to drive at:
it stops in an emergency or raises. -/
theorem C91_blind (prm : SpeedBehaviorParam ℝ) (me : N) (any : Dict N Attrs) (n : N) (s : Attrs)
    (hn : n ≠ me) (hm : (n, s) ∈ any) (hv : s "vx" = none) :
    speedRefAny prm me any = .ok (0, true) ∨ ∃ e, speedRefAny prm me any = .error e := by
  unfold speedRefAny
  cases Dict.get? any me with
  | none => exact .inr ⟨_, rfl⟩
  | some my =>
    simp only
    cases extractPose my with
    | error e => exact .inr ⟨_, rfl⟩
    | ok q =>
      simp only
      cases hts : relsOf q any with
      | error e => exact .inr ⟨_, rfl⟩
      | ok ts =>
        obtain ⟨t, ht⟩ := relsOf_mem q any ts hts n s hm
        simp only [decideRef]
        rcases askLoop_blind me (yieldTest Real.pi prm) ts n _ hn ht hv with h | h
        · rw [h]
          simp only
          cases attrVx my with
          | error e => exact .inr ⟨_, rfl⟩
          | ok w =>
            simp only
            rcases askLoop_blind me (emergencyTest Real.pi prm w) ts n _ hn ht hv with h | h
            · rw [h]; left; rfl
            · rw [h]; exact .inr ⟨_, rfl⟩
        · rw [h]; exact .inr ⟨_, rfl⟩

/-- **C91 is false** for differential drives: next to a single robot, wherever it is, the speed behaviour of
a vehicle raises `ZValueError` instead of giving a reference. -/
theorem C91_false_robot (prm : SpeedBehaviorParam ℝ) (v : VehicleState ℝ) (r : DiffDriveState ℝ) :
    speedRefAny prm "Ego" [("Ego", attrsOf VehicleState.idx v.toArray),
      ("Robot", attrsOf DiffDriveState.idx r.toArray)] = .error .zValue := by
  have h1 := (C91_states.1 v).1
  have h2 := (C91_states.2.2.2.2.2.2.2 r)
  obtain ⟨a, ha, -⟩ := (C56_relative (rigid (Real.cos v.psi) (Real.sin v.psi) v.x v.y)
    (rigid (Real.cos v.psi) (Real.sin v.psi) v.x v.y)).2 ⟨_, _, _, _, Real.cos_sq_add_sin_sq v.psi, rfl⟩
      ⟨_, _, _, _, Real.cos_sq_add_sin_sq v.psi, rfl⟩
  obtain ⟨b, hb, -⟩ := (C56_relative (rigid (Real.cos v.psi) (Real.sin v.psi) v.x v.y)
    (rigid (Real.cos r.psi) (Real.sin r.psi) r.x r.y)).2 ⟨_, _, _, _, Real.cos_sq_add_sin_sq v.psi, rfl⟩
      ⟨_, _, _, _, Real.cos_sq_add_sin_sq r.psi, rfl⟩
  simp [speedRefAny, Dict.get?, h1, h2.1, relsOf, relOf, ha, hb, decideRef, askLoop, h2.2]

/-- Two vehicles meet the hypotheses of `C91_refines_partial`. -/
example (a b : VehicleState ℝ) : List.Forall₂ (fun (p : String × ObsState) (q : String × Attrs) =>
      q.1 = p.1 ∧ Reads p.2 q.2)
    [("Ego", ⟨a.x, a.y, a.psi, a.vx, a.delta⟩), ("Other", ⟨b.x, b.y, b.psi, b.vx, b.delta⟩)]
    [("Ego", attrsOf VehicleState.idx a.toArray), ("Other", attrsOf VehicleState.idx b.toArray)] :=
  .cons ⟨rfl, (C91_states.1 a).1, rfl⟩ (.cons ⟨rfl, (C91_states.1 b).1, rfl⟩ .nil)

/-- A robot meets the hypotheses of `C91_blind`. -/
example : attrsOf DiffDriveState.idx (DiffDriveState.mk (1 : ℝ) 2 3).toArray "vx" = none := rfl

end Agents
end Verif
