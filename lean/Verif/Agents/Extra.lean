import Verif.Agents.CruiseProps
import Verif.Control.PursuitProps
import Verif.Phys.Outline

/-!
# C128: what a lane follower shows of its plans (src/dg_commons/sim/agents/lane_follower.py:80-102)

The result of `on_get_extra` is a list of trajectories with their colours. Real arithmetic.
-/

namespace Verif
namespace Agents

open Maps

variable {N : Type} [DecidableEq N] {L : Type}

/-- `find_goal_point`, pure_pursuit.py:68-90, called on the object. Without a position along the path the sum in line 85
raises `TypeError`; without a path line 80 or 89 raises `AttributeError`. Pose and position are set together
(`update_pose`), so that the third case does not arise. -/
noncomputable def goalOf (minim : (ℝ → Except Err ℝ) → ℝ → ℝ → Except Err ℝ) (p : Pursuit.Param) (s : Pursuit.State) :
    Except Err (ℝ × Mat3 ℝ) :=
  match s.alongPath, s.path, s.pose with
  | none, _, _ => .error .type
  | some _, none, _ => .error .attribute
  | some _, some _, none => .error .attribute
  | some along, some path, some pose => Pursuit.findGoalPoint minim p path pose along s.speed

/-- `on_get_extra`, lane_follower.py:80-102; `ret` is `return_extra`. -/
noncomputable def LF.onGetExtra (c : Conf L) (ret : Bool) (a : LF N) :
    Except Err (Option (List (Seq ℝ (VehicleState ℝ) × String))) :=
  if !ret then .ok none
  else match goalOf c.minim c.pursuitP a.pursuit with
    | .error e => .error e
    | .ok (_, g) => match a.pursuit.pose with
      | none => .error .attribute
      | some pose =>
        let rear := applyT2 pose (-c.pursuitP.length / 2, 0)
        .ok (some [(⟨[0, 1], [{ x := rear.1, y := rear.2, psi := 0, vx := 0, delta := 0 },
          { x := g.a02, y := g.a12, psi := 0, vx := 1, delta := 0 }]⟩, "gold")])

/-- Specification: the line from `p` to `q`, in gold. -/
def Line (r : Except Err (Option (List (Seq ℝ (VehicleState ℝ) × String)))) (p q : ℝ × ℝ) : Prop :=
  ∃ tr s e, r = .ok (some [(tr, "gold")]) ∧ tr.vs = [s, e] ∧ (s.x, s.y) = p ∧ (e.x, e.y) = q

theorem getCommands_steer (c : Conf L) (a a' : LF N) (ps : Dict N ObsState) (t : ℝ) (u : Cmd L)
    (h : a.getCommands c ps t = (a', .ok u)) :
    ∃ me my d, a.myName = some me ∧ Dict.get? ps me = some my ∧ a'.pursuit.pose = some my.pose ∧
      a'.pursuit.desiredSteering c.minim c.pursuitP = .ok d ∧
      (PIDState.getControl c.steerP ((a.steerPid.updateMeasurement my.delta).updateReference c.steerP d) t).2 =
        .ok u.ddelta := by
  unfold LF.getCommands at h
  cases h1 : a.myName with
  | none => rw [h1] at h; cases h
  | some me =>
    rw [h1] at h
    simp only at h
    cases h2 : Dict.get? ps me with
    | none => rw [h2] at h; cases h
    | some my =>
      rw [h2] at h
      simp only at h
      cases h3 : lanePoseOf c.closest c.lane my.pose with
      | error e => rw [h3] at h; cases h
      | ok lp =>
        rw [h3] at h
        simp only at h
        cases h4 : speedRef c.behavior me ps with
        | error e => rw [h4] at h; cases h
        | ok re =>
          obtain ⟨ref, em⟩ := re
          rw [h4] at h
          simp only [LF.control, LF.refer, LF.measure] at h
          split at h
          · cases h
          · split at h
            · cases h
            · rename_i d hd
              split at h
              · cases h
              · rename_i dd hdd
                split at h
                · cases h
                · simp only [Prod.mk.injEq, Except.ok.injEq] at h
                  obtain ⟨rfl, rfl⟩ := h
                  exact ⟨me, my, d, rfl, h2, rfl, hd, hdd⟩

/-- Every point has coordinates in the frame of a vehicle. -/
theorem in_frame (s : ObsState) (p : ℝ × ℝ) : ∃ lon lat, p = applyT2 s.pose (lon, lat) := by
  have h := Real.cos_sq_add_sin_sq s.psi
  refine ⟨Real.cos s.psi * (p.1 - s.x) + Real.sin s.psi * (p.2 - s.y),
    Real.cos s.psi * (p.2 - s.y) - Real.sin s.psi * (p.1 - s.x), ?_⟩
  apply Prod.ext
  · simp only [ObsState.pose, rigid, applyT2]
    linear_combination (s.x - p.1) * h
  · simp only [ObsState.pose, rigid, applyT2]
    linear_combination (s.y - p.2) * h

theorem frame_inj (s : ObsState) {a b a' b' : ℝ} (h : applyT2 s.pose (a, b) = applyT2 s.pose (a', b')) :
    a = a' ∧ b = b' := by
  have hcs := Real.cos_sq_add_sin_sq s.psi
  simp only [applyT2, ObsState.pose, rigid, Prod.mk.injEq] at h
  obtain ⟨h1, h2⟩ := h
  constructor
  · linear_combination Real.cos s.psi * h1 + Real.sin s.psi * h2 - (a - a') * hcs
  · linear_combination Real.cos s.psi * h2 - Real.sin s.psi * h1 - (b - b') * hcs

variable {lane : List CtrPoint} {p : Phys.VehicleParams ℝ} {wb lr : ℝ} {b : SpeedBehaviorParam ℝ} {lights : List L}
  {cl : ℝ × ℝ → ℝ} {mi : (ℝ → Except Err ℝ) → ℝ → ℝ → Except Err ℝ} {c : Conf L}

theorem conf_pursuit (hc : Conf.mk? lane p wb lr b lights cl mi = .ok c) : c.pursuitP = Pursuit.Param.fromGeo wb lr := by
  unfold Conf.mk? at hc
  split at hc
  · cases hc
  · split at hc
    · cases hc
    · injection hc with hc
      rw [← hc]

/-- **C128.** After commands a lane follower shows a line in gold that ends at a goal point at `(lon, lat)` in the frame
of the vehicle and begins half a wheelbase behind its centre of gravity. The commands steer to the wheel angle for this
goal point: the tangent of it is the wheelbase times `2 lat / d + 1e-9` over the lookahead distance, where `d` is the
distance of the goal point from the rear axle. -/
theorem C128_goal (hc : Conf.mk? lane p wb lr b lights cl mi = .ok c) (a a' : LF N) (ps : Dict N ObsState) (t : ℝ)
    (u : Cmd L) (h : a.getCommands c ps t = (a', .ok u)) :
    ∃ me my δ lon lat look, a.myName = some me ∧ Dict.get? ps me = some my ∧
      (PIDState.getControl c.steerP ((a.steerPid.updateMeasurement my.delta).updateReference c.steerP δ) t).2 =
        .ok u.ddelta ∧
      Line (a'.onGetExtra c true) (applyT2 my.pose (-wb / 2, 0)) (applyT2 my.pose (lon, lat)) ∧ 3 ≤ look ∧ look ≤ 30 ∧
      ((lon, lat) ≠ (-lr, 0) → Real.tan δ = wb * (2 * lat / norm2 (lon + lr) lat + 1 / 10 ^ 9) / look) := by
  obtain ⟨me, my, δ, h1, h2, h3, h4, h5⟩ := getCommands_steer c a a' ps t u h
  have hp := conf_pursuit hc
  -- the goal point of the steering
  obtain ⟨along, path, x, g, g1, g2, g3, g4⟩ : ∃ along path x g, a'.pursuit.alongPath = some along ∧
      a'.pursuit.path = some path ∧
      Pursuit.findGoalPoint c.minim c.pursuitP path my.pose along a'.pursuit.speed = .ok (x, g) ∧
      Pursuit.steeringTo c.pursuitP my.pose g a'.pursuit.speed = .ok δ := by
    unfold Pursuit.State.desiredSteering at h4
    rw [h3] at h4
    cases hpath : a'.pursuit.path with
    | none => rw [hpath] at h4; cases h4
    | some path =>
      rw [hpath] at h4
      simp only at h4
      cases hal : a'.pursuit.alongPath with
      | none => rw [hal] at h4; cases h4
      | some along =>
        rw [hal] at h4
        simp only at h4
        cases hg : Pursuit.findGoalPoint c.minim c.pursuitP path my.pose along a'.pursuit.speed with
        | error e => rw [hg] at h4; cases h4
        | ok xg =>
          rw [hg] at h4
          exact ⟨along, path, xg.1, xg.2, rfl, rfl, hg, h4⟩
  obtain ⟨lon, lat, hl⟩ := in_frame my (g.a02, g.a12)
  have hlook := (Pursuit.C68_lookahead (Pursuit.Param.fromGeo wb lr) (by norm_num [Pursuit.Param.fromGeo])).1
    a'.pursuit.speed
  refine ⟨me, my, δ, lon, lat, Pursuit.lookahead (Pursuit.Param.fromGeo wb lr) a'.pursuit.speed, h1, h2, h5, ?_,
    hlook.1, hlook.2, fun hne => ?_⟩
  · have e : a'.onGetExtra c true = .ok (some [(⟨[0, 1], [⟨(applyT2 my.pose (-wb / 2, 0)).1,
        (applyT2 my.pose (-wb / 2, 0)).2, 0, 0, 0⟩, ⟨g.a02, g.a12, 0, 1, 0⟩]⟩, "gold")]) := by
      simp only [LF.onGetExtra, goalOf, g1, g2, h3, g3, Bool.not_true, Bool.false_eq_true, if_false]
      rw [hp]
      rfl
    exact ⟨_, _, _, e, rfl, rfl, hl⟩
  · rw [hp] at g4
    refine (Pursuit.C68_vehicle wb lr my.pose g (pose_rigid my) lon lat a'.pursuit.speed _ δ hl rfl ?_ g4).2.2.2
    intro h0
    rw [norm2_eq_zero] at h0
    apply hne
    rw [h0.2, show lon = -lr by linarith [h0.1]]

/-- **C128.** If the rear axle is half a wheelbase behind the centre of gravity, the line that is shown is the one from the
rear axle to the goal point for which the commands steer. -/
theorem C128_line_partial (hc : Conf.mk? lane p wb lr b lights cl mi = .ok c) (hlr : lr = wb / 2) (a a' : LF N)
    (ps : Dict N ObsState) (t : ℝ) (u : Cmd L) (h : a.getCommands c ps t = (a', .ok u)) :
    ∃ me my δ q look, a.myName = some me ∧ Dict.get? ps me = some my ∧
      (PIDState.getControl c.steerP ((a.steerPid.updateMeasurement my.delta).updateReference c.steerP δ) t).2 =
        .ok u.ddelta ∧ 3 ≤ look ∧ look ≤ 30 ∧
      Line (a'.onGetExtra c true) (applyT2 my.pose (-lr, 0)) q ∧
      ∀ r α : ℝ, 0 < r → q = applyT2 my.pose (-lr + r * Real.cos α, r * Real.sin α) →
        Real.tan δ = wb * (2 * Real.sin α + 1 / 10 ^ 9) / look := by
  obtain ⟨me, my, δ, lon, lat, look, h1, h2, h3, h4, h5, h6, h7⟩ := C128_goal hc a a' ps t u h
  refine ⟨me, my, δ, _, look, h1, h2, h3, h5, h6, by rw [hlr, ← neg_div]; exact h4, fun r α hr e => ?_⟩
  obtain ⟨e1, e2⟩ := frame_inj my e
  have hn : norm2 (lon + lr) lat = r := by
    rw [e1, e2, norm2, show (-lr + r * Real.cos α + lr) ^ 2 + (r * Real.sin α) ^ 2 = r ^ 2 by
      linear_combination r ^ 2 * Real.cos_sq_add_sin_sq α, Real.sqrt_sq hr.le]
  rw [h7 ?_, hn, e2]
  · congr 2
    field_simp
  · intro e
    rw [Prod.mk.injEq] at e
    have : norm2 (lon + lr) lat = 0 := by rw [norm2_eq_zero]; exact ⟨by linarith [e.1], e.2⟩
    rw [hn] at this
    exact hr.ne' this

/-- **C128 fails.** If the rear axle is elsewhere, the line that is shown does not begin there, and unless the goal is
straight ahead the rear axle is not even on the line: it shows another direction than that in which the commands steer. -/
theorem C128_false_axle (hc : Conf.mk? lane p wb lr b lights cl mi = .ok c) (hlr : lr ≠ wb / 2) (a a' : LF N)
    (ps : Dict N ObsState) (t : ℝ) (u : Cmd L) (h : a.getCommands c ps t = (a', .ok u)) :
    ∃ me my s q, a.myName = some me ∧ Dict.get? ps me = some my ∧ Line (a'.onGetExtra c true) s q ∧
      s ≠ applyT2 my.pose (-lr, 0) ∧
      ((∀ lon, q ≠ applyT2 my.pose (lon, 0)) → ∀ r : ℝ, s + r • (q - s) ≠ applyT2 my.pose (-lr, 0)) := by
  obtain ⟨me, my, δ, lon, lat, look, h1, h2, h3, h4, h5, h6, h7⟩ := C128_goal hc a a' ps t u h
  refine ⟨me, my, _, _, h1, h2, h4, fun e => ?_, fun hl r e => ?_⟩
  · have := (frame_inj my e).1
    apply hlr
    linarith
  · have h1 : applyT2 my.pose (-wb / 2, 0) + r • (applyT2 my.pose (lon, lat) - applyT2 my.pose (-wb / 2, 0)) =
        applyT2 my.pose (-wb / 2 + r * (lon + wb / 2), r * lat) := by
      apply Prod.ext
      · simp only [applyT2, ObsState.pose, rigid, Prod.fst_add, Prod.smul_fst, Prod.fst_sub, smul_eq_mul]
        ring
      · simp only [applyT2, ObsState.pose, rigid, Prod.snd_add, Prod.smul_snd, Prod.snd_sub, smul_eq_mul]
        ring
    rw [h1] at e
    obtain ⟨h2, h3⟩ := frame_inj my e
    have hr : r = 0 := by
      rcases mul_eq_zero.mp h3 with h | h
      · exact h
      · exact absurd (by rw [h]) (hl lon)
    rw [hr] at h2
    apply hlr
    linarith

/-- **C128.** Without `return_extra` nothing is shown; a new agent, which has no path yet, raises. -/
theorem C128_none (c : Conf L) (a : LF N) : a.onGetExtra c false = .ok none ∧
    (LF.init : LF N).onGetExtra c true = .error .type := by
  constructor
  · rfl
  · simp [LF.onGetExtra, goalOf, LF.init, Pursuit.State.init]

open Straight in
/-- A lane follower with the rear axle 1 m behind its centre and a wheelbase of 3 m shows a line, which does not begin at
its rear axle. -/
example : ∃ a a' : LF Nat, ∃ u, a.getCommands (dotConf [0, 1, 2, 3, 4]) (aloneAt 10) 0 = (a', .ok u) ∧
    ∃ s q, Line (a'.onGetExtra (dotConf [0, 1, 2, 3, 4]) true) s q ∧ s ≠ applyT2 (ObsState.pose ⟨0, 0, 0, 10, 0⟩) (-1, 0) := by
  obtain ⟨a', u, h, -⟩ := dot_goes_on (LF.run (dotConf [0, 1, 2, 3, 4]) LF.init [Call.init 0]).1 rfl rfl 10 0 le_rfl
    (aloneAt 10) rfl
  obtain ⟨me, my, s, q, h1, h2, h3, h4, -⟩ := C128_false_axle dotConf_mk (by norm_num) _ _ _ _ _ h
  refine ⟨_, a', u, h, s, q, h3, ?_⟩
  have : me = 0 := by
    injection h1 with h1
    exact h1.symm
  subst this
  injection h2 with h2
  rw [h2]
  exact h4

/-- With the geometries of `VehicleGeometry` the two agree. -/
example : ∀ g ∈ [Outline.defaultCar, Outline.defaultBicycle, Outline.defaultTruck], g.lr = (g.lf + g.lr) / 2 := by
  decide +kernel

end Agents
end Verif
