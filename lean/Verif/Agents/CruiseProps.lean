import Verif.Agents.AgentProps
import Verif.Control.DriveProps
import Mathlib.Analysis.SpecificLimits.Normed

/-!
# C121: where the speed of a lane follower ends
-/

namespace Verif
namespace Agents

open Maps Filter Topology

variable {N : Type} [DecidableEq N] {L : Type}

theorem getCommands_speed (c : Conf L) (a a' : LF N) (ps : Dict N ObsState) (t : ℝ) (u : Cmd L)
    (h : a.getCommands c ps t = (a', .ok u)) :
    ∃ me my lp ref em, Decides c a.myName ps me my lp ref em ∧ a'.emergency = (em || a.emergency) ∧
      a'.myName = a.myName ∧
      PIDState.getControl c.speedP ((a.speedPid.updateMeasurement my.vx).updateReference c.speedP
        (if (em || a.emergency) = true then 0 else ref)) t = (a'.speedPid, .ok u.acc) := by
  unfold LF.getCommands at h
  cases h1 : a.myName with
  | none => rw [h1] at h; cases h
  | some me =>
    rw [h1] at h
    simp only at h
    cases h2 : Dict.get? ps me with
    | none => rw [h2] at h; cases h
    | some my =>
      rw [h2] at h
      simp only at h
      cases h3 : lanePoseOf c.closest c.lane my.pose with
      | error e => rw [h3] at h; cases h
      | ok lp =>
        rw [h3] at h
        simp only at h
        cases h4 : speedRef c.behavior me ps with
        | error e => rw [h4] at h; cases h
        | ok re =>
          obtain ⟨ref, em⟩ := re
          rw [h4] at h
          simp only [LF.control, LF.refer, LF.measure] at h
          split at h
          · cases h
          · rename_i acc hacc
            split at h
            · cases h
            · split at h
              · cases h
              · split at h
                · cases h
                · simp only [Prod.mk.injEq, Except.ok.injEq] at h
                  obtain ⟨rfl, rfl⟩ := h
                  exact ⟨me, my, lp, ref, em, ⟨rfl, h2, h3, h4⟩, rfl, h1, Prod.ext rfl hacc⟩

/-- Specification: a lane follower `a` asked every `h` seconds, whose own speed `x`, as it observes it, grows at the
rate it has asked for last. -/
structure Follows (c : Conf L) (h : ℝ) (t : ℕ → ℝ) (a : ℕ → LF N) (ps : ℕ → Dict N ObsState) (u : ℕ → Cmd L)
    (x : ℕ → ℝ) : Prop where
  time : ∀ k, t (k + 1) = t k + h
  ask : ∀ k, (a k).getCommands c (ps k) (t k) = (a (k + 1), .ok (u k))
  own : ∀ k me my, (a k).myName = some me → Dict.get? (ps k) me = some my → my.vx = x k
  plant : ∀ k, x (k + 1) = x k + h * (u k).acc

variable {c : Conf L} {h : ℝ} {t : ℕ → ℝ} {a : ℕ → LF N} {ps : ℕ → Dict N ObsState} {u : ℕ → Cmd L} {x : ℕ → ℝ}

/-- The speed loop of a lane follower that always takes the same reference. -/
theorem Follows.closed (H : Follows c h t a ps u x) (r : ℝ)
    (hr : ∀ k me my lp ref em, Decides c (a k).myName (ps k) me my lp ref em →
      (if (em || (a k).emergency) = true then 0 else ref) = r) :
    Loop.Closed c.speedP h r t (fun k => (a k).speedPid) x (fun k => (u k).acc) := by
  refine ⟨H.time, fun k => ?_, H.plant⟩
  obtain ⟨me, my, lp, ref, em, hd, -, -, hc⟩ := getCommands_speed c _ _ _ _ _ (H.ask k)
  rw [hr k me my lp ref em hd, H.own k me my hd.1 hd.2.1] at hc
  exact hc

theorem summable_of_rate {y : ℝ} {C θ : ℝ} {M : ℕ} (h0 : 0 ≤ θ) (h1 : θ < 1)
    (hx : ∀ j, |x (M + j) - y| ≤ C * θ ^ (j / 2)) : Summable (fun k => |x k - y|) := by
  have hg : Summable (fun n : ℕ => θ ^ n) := summable_geometric_of_lt_one h0 h1
  have h2 : Summable (fun j : ℕ => C * θ ^ (j / 2)) := by
    refine Summable.mul_left C ?_
    have he : (fun k : ℕ => θ ^ (2 * k / 2)) = fun k => θ ^ k := by funext k; congr 1; omega
    have ho : (fun k : ℕ => θ ^ ((2 * k + 1) / 2)) = fun k => θ ^ k := by funext k; congr 1; omega
    refine (HasSum.even_add_odd (f := fun j : ℕ => θ ^ (j / 2)) (m := ∑' n : ℕ, θ ^ n) (m' := ∑' n : ℕ, θ ^ n)
      ?_ ?_).summable
    · rw [he]; exact hg.hasSum
    · rw [ho]; exact hg.hasSum
  have h3 : Summable (fun j => |x (j + M) - y|) :=
    Summable.of_nonneg_of_le (fun j => abs_nonneg _) (fun j => by rw [Nat.add_comm]; exact hx j) h2
  exact (summable_nat_add_iff M).mp h3

theorem conf_speed {lane : List CtrPoint} {p : Phys.VehicleParams ℝ} {wb lr : ℝ}
    {b : SpeedBehaviorParam ℝ} {lights : List L} {cl : ℝ × ℝ → ℝ}
    {mi : (ℝ → Except Err ℝ) → ℝ → ℝ → Except Err ℝ} {c : Conf L}
    (h : Conf.mk? lane p wb lr b lights cl mi = .ok c) : speedParam p = .ok c.speedP := by
  unfold Conf.mk? at h
  cases h1 : speedParam p with
  | error e => rw [h1] at h; cases h
  | ok sp =>
    cases h2 : steerParam p with
    | error e => rw [h1, h2] at h; cases h
    | ok st =>
      rw [h1, h2] at h
      injection h with h
      rw [← h]

/-- **C121.** As long as the speed behaviour asks for the same speed and sees no danger, as on a free road, a lane
follower that is asked at least every 0.225 s reaches this speed, as far as the limits of the vehicle allow. -/
theorem C121_cruise {lane : List CtrPoint} {p : Phys.VehicleParams ℝ} {wb lr : ℝ} {b : SpeedBehaviorParam ℝ}
    {lights : List L} {cl : ℝ × ℝ → ℝ} {mi : (ℝ → Except Err ℝ) → ℝ → ℝ → Except Err ℝ}
    (hc : Conf.mk? lane p wb lr b lights cl mi = .ok c) (H : Follows c h t a ps u x) (h0 : 0 < h) (h1 : h ≤ 9 / 40)
    (ha : p.accMin < 0 ∧ 0 < p.accMax)
    (hb : (2 + max (-p.accMin) p.accMax / 10) / 100 < 16 * min (-p.accMin) p.accMax)
    (hem : (a 0).emergency = false) (ref : ℝ)
    (href : ∀ k me, (a k).myName = some me → speedRef b me (ps k) = .ok (ref, false)) :
    Tendsto x atTop (𝓝 (min (max ref p.vxMin) p.vxMax)) := by
  obtain ⟨-, -, -, -, hsp, -, -, -, -, hbe⟩ := conf_limits hc
  have hno : ∀ k, (a k).emergency = false := by
    intro k
    induction k with
    | zero => exact hem
    | succ k ih =>
      obtain ⟨me, my, lp, r, em, hd, he, -, -⟩ := getCommands_speed c _ _ _ _ _ (H.ask k)
      have := hd.2.2.2
      rw [hbe, href k me hd.1] at this
      simp only [Except.ok.injEq, Prod.mk.injEq] at this
      rw [he, ih, ← this.2]
      rfl
  have hcl := H.closed ref (fun k me my lp r em hd => by
    have := hd.2.2.2
    rw [hbe, href k me hd.1] at this
    simp only [Except.ok.injEq, Prod.mk.injEq] at this
    rw [← this.1, ← this.2, hno k]
    simp)
  have := (Loop.C119_converges_partial hcl (Loop.C119_speed (conf_speed hc) h h0 h1 ha hb)).1
  rw [hsp] at this
  exact this

/-- **C121.** A lane follower that has seen a danger at some time comes to rest, whatever it sees later, and covers only
a finite distance until then. -/
theorem C121_stops {lane : List CtrPoint} {p : Phys.VehicleParams ℝ} {wb lr : ℝ} {b : SpeedBehaviorParam ℝ}
    {lights : List L} {cl : ℝ × ℝ → ℝ} {mi : (ℝ → Except Err ℝ) → ℝ → ℝ → Except Err ℝ}
    (hc : Conf.mk? lane p wb lr b lights cl mi = .ok c) (H : Follows c h t a ps u x) (h0 : 0 < h) (h1 : h ≤ 9 / 40)
    (ha : p.accMin < 0 ∧ 0 < p.accMax)
    (hb : (2 + max (-p.accMin) p.accMax / 10) / 100 < 16 * min (-p.accMin) p.accMax)
    (hv : p.vxMin ≤ 0 ∧ 0 ≤ p.vxMax) (ops : List (Call N)) (hops : a 0 = (LF.run c LF.init ops).1)
    (hsaw : SawDanger c ops) : Tendsto x atTop (𝓝 0) ∧ Summable (fun k => |x k|) := by
  obtain ⟨-, -, -, -, hsp, -⟩ := conf_limits hc
  have hem : ∀ k, (a k).emergency = true := by
    intro k
    induction k with
    | zero =>
      have := ((C66_latch hc ops []).1 hsaw).1
      rw [List.append_nil] at this
      rw [hops, this]
    | succ k ih =>
      obtain ⟨me, my, lp, r, em, hd, he, -, -⟩ := getCommands_speed c _ _ _ _ _ (H.ask k)
      rw [he, ih, Bool.or_true]
  have hcl := H.closed 0 (fun k me my lp r em hd => by rw [hem k]; simp)
  obtain ⟨h2, C, θ, M, h3, h4, h5⟩ := Loop.C119_converges_partial hcl (Loop.C119_speed (conf_speed hc) h h0 h1 ha hb)
  have hz : npClip (0 : ℝ) c.speedP.setpoint.1 c.speedP.setpoint.2 = 0 := by
    rw [hsp]; exact npClip_of_mem _ _ _ hv.1 hv.2
  rw [hz] at h2 h5
  refine ⟨h2, ?_⟩
  have := summable_of_rate h3 h4 h5
  simpa using this

/-! ### The lane follower on a lane with one control point -/

namespace Straight

/-- The observation of the agent 0, alone, with speed `v`. -/
noncomputable def aloneAt (v : ℝ) : Dict Nat ObsState := [(0, ⟨0, 0, 0, v, 0⟩)]

theorem alone_ref (b : SpeedBehaviorParam ℝ) (v : ℝ) : speedRef b 0 (aloneAt v) = .ok (b.nominalSpeed, false) := by
  obtain ⟨vs, h1, h2⟩ := viewsOf_spec (N := Nat) ⟨0, 0, 0, v, 0⟩ (aloneAt v)
  unfold speedRef
  have hg : Dict.get? (aloneAt v) 0 = some ⟨0, 0, 0, v, 0⟩ := rfl
  rw [hg]
  simp only [h1]
  unfold aloneAt at h2
  cases h2 with
  | cons hp hr =>
    cases hr
    rename_i w
    obtain ⟨n, a⟩ := w
    have : n = 0 := hp.1
    subst this
    exact C20_alone Real.pi b 0 a

theorem dot_pose_at (v : ℝ) : ∃ lp, lanePoseOf (fun _ => 0) dot (ObsState.pose ⟨0, 0, 0, v, 0⟩) = .ok lp ∧
    lp.along = 0 := dot_pose

theorem dot_goes_on (a : LF Nat) (hn : a.myName = some 0) (hpath : a.pursuit.path = some dot) (v t : ℝ) (ht : 0 ≤ t)
    (ps : Dict Nat ObsState) (hps : Dict.get? ps 0 = some ⟨0, 0, 0, v, 0⟩) :
    ∃ a' u, LF.getCommands (dotConf [0, 1, 2, 3, 4]) a ps t = (a', .ok u) ∧ a'.myName = some 0 ∧
      a'.pursuit.path = some dot := by
  set lights := [0, 1, 2, 3, 4] with hlights
  obtain ⟨lp, hlp, hal⟩ := dot_pose_at v
  obtain ⟨g, hg, hg1, hg2⟩ := dot_point
  obtain ⟨rv, re, hv, -⟩ := C20_states (dotConf lights).behavior 0 ps _ hps
  rcases getCommands_cases (dotConf lights) a ps t with
    ⟨hno, -⟩ | ⟨me', my', lp', ref, em, a2, ⟨d1, d2, d3, d4⟩, hn2, -, h3, he⟩
  · exact absurd ⟨hn, hps, hlp, hv⟩ (hno 0 ⟨0, 0, 0, v, 0⟩ lp _ _)
  · have e1 : me' = 0 := by rw [hn] at d1; injection d1 with d1; exact d1.symm
    subst e1
    have e2 : my' = ⟨0, 0, 0, v, 0⟩ := by
      rw [hps] at d2; injection d2 with d2; exact d2.symm
    subst e2
    have e3 : lp' = lp := by
      have : lanePoseOf (dotConf lights).closest (dotConf lights).lane (ObsState.pose ⟨0, 0, 0, v, 0⟩) =
        .ok lp := hlp
      rw [this] at d3; injection d3 with d3; exact d3.symm
    subst e3
    rw [he]
    generalize hr : (if em || a2.emergency then 0 else ref) = r
    have hpu : (a2.refer (dotConf lights) ref em).pursuit =
        (a.pursuit.updatePose (ObsState.pose ⟨0, 0, 0, v, 0⟩) 0).updateSpeed r := by
      rw [hal] at h3
      rw [← h3, ← hr]; rfl
    obtain ⟨δ, hδ, -⟩ := Pursuit.C68_false_straight (Pursuit.Param.fromGeo 3 1)
      (by norm_num [Pursuit.Param.fromGeo]) (by norm_num [Pursuit.Param.fromGeo])
      (by norm_num [Pursuit.Param.fromGeo]) (ObsState.pose ⟨0, 0, 0, v, 0⟩) g (pose_rigid _) (2 / 10) r
      (by rw [hg1, hg2]; norm_num [applyT2, ObsState.pose, rigid]) (by norm_num [Pursuit.Param.fromGeo])
    have hs : (a2.refer (dotConf lights) ref em).pursuit.desiredSteering (dotConf lights).minim
        (dotConf lights).pursuitP = .ok δ := by
      rw [hpu, ← hδ]
      have hm : (dotConf lights).minim = fun _ lo _ => .ok lo := rfl
      have hp : (dotConf lights).pursuitP = Pursuit.Param.fromGeo 3 1 := rfl
      have hmd : (0 : ℝ) + (Pursuit.Param.fromGeo 3 1).minDistance = 2 := by
        norm_num [Pursuit.Param.fromGeo]
      simp only [Pursuit.State.desiredSteering, Pursuit.State.updateSpeed, Pursuit.State.updatePose, hpath,
        Pursuit.findGoalPoint, hm, hp, hmd, hg]
    obtain ⟨l, hlt⟩ := lights_at lights rfl t ht
    obtain ⟨-, s2, s3, -⟩ := control_state (dotConf lights) (a2.refer (dotConf lights) ref em) t
    have hok : ∃ u, ((a2.refer (dotConf lights) ref em).control (dotConf lights) t).2 = .ok u := by
      unfold LF.control
      obtain ⟨x, hx⟩ := getControl_out (dotConf lights).speedP (a2.refer (dotConf lights) ref em).speedPid t
      simp only [hx, hs]
      obtain ⟨y, hy⟩ := getControl_out (dotConf lights).steerP
        ((a2.refer (dotConf lights) ref em).steerPid.updateReference (dotConf lights).steerP δ) t
      have hll : (dotConf lights).lights = lights := rfl
      simp only [hy, hll, hlt]
      exact ⟨_, rfl⟩
    obtain ⟨u, hu⟩ := hok
    refine ⟨_, u, Prod.ext rfl hu, ?_, ?_⟩
    · rw [s2]
      show a2.myName = some 0
      rw [hn2, hn]
    · rw [s3, hpu]
      exact hpath

/-- The agent and its speed after `k` requests, and what else it is given to remember (`q`, updated by `f` from the
speeds before and after). -/
noncomputable def drive {Q : Type} (obs : ℕ → ℝ → Q → Dict Nat ObsState) (f : Q → ℝ → ℝ → Q) (a0 : LF Nat) (v0 : ℝ)
    (q0 : Q) : ℕ → LF Nat × ℝ × Q
  | 0 => (a0, v0, q0)
  | k + 1 =>
    let q := drive obs f a0 v0 q0 k
    let r := LF.getCommands (dotConf [0, 1, 2, 3, 4]) q.1 (obs k q.2.1 q.2.2) (k * (1 / 10))
    let v' := q.2.1 + 1 / 10 * (match r.2 with | .ok u => u.acc | .error _ => 0)
    (r.1, v', f q.2.2 q.2.1 v')

/-- The lane follower can be driven, whatever it observes besides itself. -/
theorem drive_obs {Q : Type} (obs : ℕ → ℝ → Q → Dict Nat ObsState) (f : Q → ℝ → ℝ → Q)
    (hobs : ∀ k v q, Dict.get? (obs k v q) 0 = some ⟨0, 0, 0, v, 0⟩) (a0 : LF Nat) (hn : a0.myName = some 0)
    (hp : a0.pursuit.path = some dot) (v0 : ℝ) (q0 : Q) :
    ∃ t a ps u x, ∃ g : ℕ → Q, Follows (dotConf [0, 1, 2, 3, 4]) (1 / 10) t a ps u x ∧ a 0 = a0 ∧ x 0 = v0 ∧ g 0 = q0 ∧
      (∀ k, ps k = obs k (x k) (g k) ∧ (a k).myName = some 0) ∧ ∀ k, g (k + 1) = f (g k) (x k) (x (k + 1)) := by
  have inv : ∀ k, (drive obs f a0 v0 q0 k).1.myName = some 0 ∧
      (drive obs f a0 v0 q0 k).1.pursuit.path = some dot := by
    intro k
    induction k with
    | zero => exact ⟨hn, hp⟩
    | succ k ih =>
      obtain ⟨a', u, h1, h2, h3⟩ := dot_goes_on _ ih.1 ih.2 (drive obs f a0 v0 q0 k).2.1 (k * (1 / 10)) (by positivity) _
        (hobs k _ (drive obs f a0 v0 q0 k).2.2)
      simp only [drive, h1]
      exact ⟨h2, h3⟩
  have ans : ∀ k, ∃ u, (LF.getCommands (dotConf [0, 1, 2, 3, 4]) (drive obs f a0 v0 q0 k).1
      (obs k (drive obs f a0 v0 q0 k).2.1 (drive obs f a0 v0 q0 k).2.2) (k * (1 / 10))).2 = .ok u := by
    intro k
    obtain ⟨a', u, h1, -, -⟩ := dot_goes_on _ (inv k).1 (inv k).2 (drive obs f a0 v0 q0 k).2.1 (k * (1 / 10))
      (by positivity) _ (hobs k _ (drive obs f a0 v0 q0 k).2.2)
    exact ⟨u, by rw [h1]⟩
  choose u hu using ans
  refine ⟨fun k => k * (1 / 10), fun k => (drive obs f a0 v0 q0 k).1,
    fun k => obs k (drive obs f a0 v0 q0 k).2.1 (drive obs f a0 v0 q0 k).2.2, u,
    fun k => (drive obs f a0 v0 q0 k).2.1, fun k => (drive obs f a0 v0 q0 k).2.2,
    ⟨fun k => ?_, fun k => ?_, fun k me my h1 h2 => ?_, fun k => ?_⟩, rfl, rfl, rfl,
    fun k => ⟨rfl, (inv k).1⟩, fun k => rfl⟩
  · push_cast; ring
  · exact Prod.ext rfl (hu k)
  · have h1 : (drive obs f a0 v0 q0 k).1.myName = some me := h1
    rw [(inv k).1] at h1
    injection h1 with h1
    subst h1
    rw [hobs] at h2
    injection h2 with h2
    rw [← h2]
  · show (drive obs f a0 v0 q0 k).2.1 + 1 / 10 * _ = _
    simp only [hu k]

theorem drive_follows (a0 : LF Nat) (hn : a0.myName = some 0) (hp : a0.pursuit.path = some dot) (v0 : ℝ) :
    ∃ t a ps u x, Follows (dotConf [0, 1, 2, 3, 4]) (1 / 10) t a ps u x ∧ a 0 = a0 ∧ x 0 = v0 ∧
      ∀ k, ps k = aloneAt (x k) ∧ (a k).myName = some 0 := by
  obtain ⟨t, a, ps, u, x, -, H, h1, h2, -, h3, -⟩ := drive_obs (fun _ v (_ : Unit) => aloneAt v) (fun q _ _ => q)
    (fun _ _ _ => rfl) a0 hn hp v0 ()
  exact ⟨t, a, ps, u, x, H, h1, h2, h3⟩

theorem dotConf_mk : Conf.mk? dot params 3 1 ⟨11, 7, 2, 3 / 2⟩ [0, 1, 2, 3, 4] (fun _ => 0)
    (fun _ lo _ => .ok lo) = .ok (dotConf [0, 1, 2, 3, 4]) := by
  norm_num [Conf.mk?, speedParam, steerParam, PIDParam.mk?, params, conf, dotConf]

/-- The danger is seen also from the lane with one control point. -/
theorem dot_saw : SawDanger (dotConf [0, 1, 2, 3, 4]) [Call.init 0, Call.ask danger 0] := by
  obtain ⟨pre, ps, t, post, me, my, lp, h1, h2, h3, h4, h5⟩ := saw [0, 1, 2, 3, 4]
  obtain ⟨lp', hlp, -⟩ := dot_pose
  have hp : pre = [Call.init 0] ∧ ps = danger := by
    rcases pre with _ | ⟨q, _ | ⟨q', pre⟩⟩
    · simp at h1
    · simp only [List.cons_append, List.nil_append, List.cons.injEq, Call.ask.injEq] at h1
      exact ⟨by rw [h1.1], h1.2.1.1.symm⟩
    · have := congrArg List.length h1
      simp at this
  obtain ⟨rfl, rfl⟩ := hp
  have hme : me = 0 := by
    have : lastName [Call.init 0] = some (0 : Nat) := rfl
    rw [this] at h2; injection h2 with h2; exact h2.symm
  subst hme
  have hmy : my = ⟨0, 0, 0, 10, 0⟩ := by
    have : Dict.get? danger 0 = some ⟨0, 0, 0, 10, 0⟩ := rfl
    rw [this] at h3; injection h3 with h3; exact h3.symm
  subst hmy
  exact ⟨_, _, t, post, 0, _, lp', h1, h2, h3, hlp, h5⟩

-- alone it reaches its nominal speed of 11 m/s, and after the danger it stops
example : ∃ (t : ℕ → ℝ) (a : ℕ → LF Nat) (ps : ℕ → Dict Nat ObsState) (u : ℕ → Cmd Nat) (x : ℕ → ℝ),
    Follows (dotConf [0, 1, 2, 3, 4]) (1 / 10) t a ps u x ∧ x 0 = 10 ∧
    Tendsto x atTop (𝓝 11) := by
  obtain ⟨t, a, ps, u, x, H, h1, h2, h3⟩ := drive_follows
    (LF.run (dotConf [0, 1, 2, 3, 4]) LF.init [Call.init 0]).1 rfl rfl 10
  have := C121_cruise dotConf_mk H (by norm_num) (by norm_num) (by norm_num [params]) (by norm_num [params])
    (by rw [h1]; rfl) 11 (fun k me hme => by
      rw [(h3 k).2] at hme
      injection hme with hme
      rw [(h3 k).1, ← hme]
      exact alone_ref _ _)
  refine ⟨t, a, ps, u, x, H, h2, ?_⟩
  convert this using 2
  norm_num [params]

example : ∃ (t : ℕ → ℝ) (a : ℕ → LF Nat) (ps : ℕ → Dict Nat ObsState) (u : ℕ → Cmd Nat) (x : ℕ → ℝ),
    Follows (dotConf [0, 1, 2, 3, 4]) (1 / 10) t a ps u x ∧ x 0 = 10 ∧
    Tendsto x atTop (𝓝 0) ∧ Summable (fun k => |x k|) := by
  obtain ⟨t, a, ps, u, x, H, h1, h2, h3⟩ := drive_follows
    (LF.run (dotConf [0, 1, 2, 3, 4]) LF.init [Call.init 0, Call.ask danger 0]).1
    (by rw [run_name]; rfl) (run_path _ _ 0 rfl) 10
  exact ⟨t, a, ps, u, x, H, h2, C121_stops dotConf_mk H (by norm_num) (by norm_num) (by norm_num [params])
    (by norm_num [params]) (by norm_num [params]) _ h1 dot_saw⟩

end Straight

end Agents
end Verif
