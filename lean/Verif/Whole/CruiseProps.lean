import Verif.Whole.LifeProps
import Verif.Phys.CruiseMotion
import Verif.Agents.CruiseProps

/-!
# C126: a lane follower in a simulation reaches its speed
-/

namespace Verif
namespace Whole

open Sim Coll Filter Topology

set_option linter.unusedSectionVars false

/-- The value, or zero. -/
def okOr (r : Except Err ℝ) : ℝ := match r with
  | .ok u => u
  | .error _ => 0

/-- Specification: a PID controller that is asked at the times `t0`, `t0 + h`, … with the reference `ref`, and the
quantity that it controls, which grows between the requests at the rate that it has asked for. -/
noncomputable def pidLoop (p : PIDParam ℝ) (h ref t0 : ℝ) (s0 : PIDState ℝ) (x0 : ℝ) : ℕ → PIDState ℝ × ℝ
  | 0 => (s0, x0)
  | k + 1 =>
    let q := pidLoop p h ref t0 s0 x0 k
    let r := PIDState.getControl p ((q.1.updateMeasurement q.2).updateReference p ref) (t0 + k * h)
    (r.1, q.2 + h * okOr r.2)

theorem pidLoop_closed (p : PIDParam ℝ) (h ref t0 : ℝ) (s0 : PIDState ℝ) (x0 : ℝ) :
    ∃ u, Loop.Closed p h ref (fun k => t0 + k * h) (fun k => (pidLoop p h ref t0 s0 x0 k).1)
      (fun k => (pidLoop p h ref t0 s0 x0 k).2) u := by
  refine ⟨fun k => okOr (PIDState.getControl p (((pidLoop p h ref t0 s0 x0 k).1.updateMeasurement
    (pidLoop p h ref t0 s0 x0 k).2).updateReference p ref) (t0 + k * h)).2, ⟨fun k => ?_, fun k => ?_, fun k => rfl⟩⟩
  · push_cast
    ring
  · obtain ⟨i, u, hu⟩ := Loop.getControl_any p (((pidLoop p h ref t0 s0 x0 k).1.updateMeasurement
      (pidLoop p h ref t0 s0 x0 k).2).updateReference p ref) (t0 + k * h)
    simp only [pidLoop]
    rw [hu]
    rfl

variable {N : Type} [DecidableEq N] {L : Type}

/-- Specification: the parts of the world that belong to `n` are a lane follower with the configuration `c`, a sensor
that shows it its own speed, and a vehicle whose speed follows the differential equation of a car or a bicycle (see
`Phys.speedCurve_of_motion`), as long as it has not collided. -/
structure Drives {F : Iface N ℝ} (R : Parts N ℝ F.M F.S) (n : N) (dt : ℝ) (c : Agents.Conf L)
    (p : Phys.VehicleParams ℝ) (Is : R.A → Agents.LF N → Prop) (cmd : R.C → Agents.Cmd L)
    (view : Obs N ℝ R.X F.S → Dict N Agents.ObsState) (look : R.X → VehicleState ℝ) : Prop where
  ask : ∀ a lf o a' u i, Is a lf → R.ask a o = .ok (a', u, i) →
    ∃ lf', Is a' lf' ∧ lf.getCommands c (view o) o.time = (lf', .ok (cmd u))
  extra : ∀ a lf a' e, Is a lf → R.extra a = .ok (a', e) → Is a' lf
  sense : ∀ w os w' o, R.sense w n os = .ok (w', o) → o.time = os.time ∧
    ∀ x f, Dict.get? os.players n = some (x, f) → ∃ my, Dict.get? (view o) n = some my ∧ my.vx = (look x).vx
  update : ∀ v m u v' m', F.hasCollided m = false → R.update v n m u dt = .ok (v', m') → ∃ f,
    Phys.SpeedCurve p (cmd u).acc dt f ∧ f 0 = (look (R.getState m)).vx ∧ f dt = (look (R.getState m')).vx

/-- Specification: from step `i` (one of those at which commands are requested) to step `j` nothing disturbs the speed
of the lane follower of `n`: `n` is in the simulation and named in no report, its speed is strictly within its limits,
and its speed behaviour always asks for the speed `ref` and sees no danger; or it has seen one before, and `ref` is
0. In the beginning its controller is in the state `s0` and its speed is `x0`. -/
structure Quiet {F : Iface N ℝ} {sc : Bool} {R : Parts N ℝ F.M F.S} (cfg : Cfg (world F sc R))
    (σ : Nat → St (world F sc R)) (i j : Nat) (n : N) (b : SpeedBehaviorParam ℝ) (p : Phys.VehicleParams ℝ)
    (Is : R.A → Agents.LF N → Prop) (view : Obs N ℝ R.X F.S → Dict N Agents.ObsState)
    (look : R.X → VehicleState ℝ) (ref : ℝ) (s0 : PIDState ℝ) (x0 : ℝ) : Prop where
  lawful : Lawful F R cfg.dt
  dt : 0 < cfg.dt
  missions : Dict.Wf cfg.missions
  ready : Ready (σ 0)
  exec : Exec cfg σ j
  le : i ≤ j
  asked : period cfg ∣ i
  inside : ∀ k < j, n ∈ (σ k).players
  unnamed : ¬ Named (σ j).reports n
  model : ∃ m, Dict.get? (σ i).models n = some m ∧ R.isDyn m = false ∧ F.hasCollided m = false ∧
    (look (R.getState m)).vx = x0
  agent : ∃ lf, Is ((σ i).w.1 n) lf ∧ lf.myName = some n ∧ lf.speedPid = s0 ∧
    ((lf.emergency = true ∧ ref = 0) ∨ (lf.emergency = false ∧ ∀ t o, .ask t n o ∈ (σ j).trace → i * cfg.dt ≤ t →
      Agents.speedRef b n (view o) = .ok (ref, false)))
  limits : ∀ k, i ≤ k → k < j → ∀ m, Dict.get? (σ k).models n = some m →
    p.vxMin < (look (R.getState m)).vx ∧ (look (R.getState m)).vx < p.vxMax

/-- The state of affairs at step `i + k * P + r`. -/
structure At {F : Iface N ℝ} {sc : Bool} {R : Parts N ℝ F.M F.S} (cfg : Cfg (world F sc R))
    (s : St (world F sc R)) (n : N) (p : Phys.VehicleParams ℝ) (Is : R.A → Agents.LF N → Prop)
    (cmd : R.C → Agents.Cmd L) (look : R.X → VehicleState ℝ) (em : Bool) (q : ℕ → PIDState ℝ × ℝ)
    (u : ℕ → ℝ) (k r : ℕ) : Prop where
  model : ∃ m, Dict.get? s.models n = some m ∧ R.isDyn m = false ∧ F.hasCollided m = false ∧
    (look (R.getState m)).vx = (q k).2 + r * cfg.dt * u k
  agent : ∃ lf, Is (s.w.1 n) lf ∧ lf.myName = some n ∧ lf.emergency = em ∧
    (r = 0 → lf.speedPid = (q k).1) ∧ (r ≠ 0 → lf.speedPid = (q (k + 1)).1)
  held : r ≠ 0 → ∃ c, Dict.get? s.lastCmds n = some c ∧ (cmd c).acc = u k ∧ p.accMin ≤ u k ∧ u k ≤ p.accMax

variable {F : Iface N ℝ} {sc : Bool} {R : Parts N ℝ F.M F.S} {cfg : Cfg (world F sc R)}
  {σ : Nat → St (world F sc R)} {i j : Nat} {n : N} {b : SpeedBehaviorParam ℝ} {p : Phys.VehicleParams ℝ}
  {Is : R.A → Agents.LF N → Prop} {cmd : R.C → Agents.Cmd L}
  {view : Obs N ℝ R.X F.S → Dict N Agents.ObsState} {look : R.X → VehicleState ℝ} {ref : ℝ}
  {s0 : PIDState ℝ} {x0 : ℝ} {lane : List Maps.CtrPoint} {wb lr : ℝ} {lights : List L} {cl : ℝ × ℝ → ℝ}
  {mi : (ℝ → Except Err ℝ) → ℝ → ℝ → Except Err ℝ} {c : Agents.Conf L}

theorem quiet_at (hc : Agents.Conf.mk? lane p wb lr b lights cl mi = .ok c) (D : Drives R n cfg.dt c p Is cmd view look)
    (Q : Quiet cfg σ i j n b p Is view look ref s0 x0) {q : ℕ → PIDState ℝ × ℝ} {u : ℕ → ℝ}
    (hq0 : q 0 = (s0, x0))
    (hcl : Loop.Closed c.speedP (period cfg * cfg.dt) ref (fun k => i * cfg.dt + k * (period cfg * cfg.dt))
      (fun k => (q k).1) (fun k => (q k).2) u) :
    ∃ em, ∀ d, i + d ≤ j → ∃ k r, d = k * period cfg + r ∧ r < period cfg ∧
      At cfg (σ (i + d)) n p Is cmd look em q u k r := by
  obtain ⟨lf0, hIs0, hname0, hpid0, hem0⟩ := Q.agent
  obtain ⟨-, -, -, -, -, -, -, -, -, hbe⟩ := Agents.conf_limits hc
  have hP : 0 < period cfg := by unfold period; omega
  refine ⟨lf0.emergency, fun d => ?_⟩
  induction d with
  | zero =>
    intro _
    refine ⟨0, 0, by simp, hP, ⟨?_, ⟨lf0, hIs0, hname0, rfl, fun _ => by rw [hq0]; exact hpid0, fun h => absurd rfl h⟩,
      fun h => absurd rfl h⟩⟩
    obtain ⟨m, h1, h2, h3, h4⟩ := Q.model
    exact ⟨m, h1, h2, h3, by rw [hq0, h4]; simp⟩
  | succ d ih =>
    intro hd
    obtain ⟨k, r, hdk, hr, H⟩ := ih (by omega)
    obtain ⟨m, hm1, hm2, hm3, hm4⟩ := H.model
    obtain ⟨lf, ha1, ha2, ha3, ha4, ha5⟩ := H.agent
    have hex : Exec cfg σ (i + d + 1) := fun l hl => Q.exec l (by omega)
    have hinv := inv_of_exec (inv_zero cfg σ Q.ready) Q.dt Q.missions (i + d) (fun l hl => Q.exec l (by omega))
    have hun : ¬ Named (σ (i + d + 1)).reports n := by
      intro ⟨rep, h1, h2⟩
      exact Q.unnamed ⟨rep, (reports_mono Q.ready Q.exec (show i + d + 1 ≤ j by omega)).subset h1, h2⟩
    obtain ⟨m', w, v, v', g1, g2, g3, g4, g5⟩ := C126_step Q.lawful Q.dt Q.missions Q.ready hex n
      (Q.inside (i + d) (by omega)) hm1 hm2 hun
    have hcol : F.hasCollided m' = false := by rw [Q.lawful.update _ _ _ _ _ _ g2, hm3]
    have hdyn : R.isDyn m' = false := by rw [Q.lawful.dynUpdate _ _ _ _ _ _ g2, hm2]
    have hdvd : period cfg ∣ i + d ↔ r = 0 := by
      obtain ⟨i', hi'⟩ := Q.asked
      rw [hi', hdk, ← Nat.add_assoc, mul_comm k, ← Nat.mul_add, Nat.dvd_add_right (Dvd.intro _ rfl)]
      constructor
      · intro h
        rcases Nat.eq_zero_or_pos r with h' | h'
        · exact h'
        · exact absurd (Nat.le_of_dvd h' h) (by omega)
      · rintro rfl
        exact dvd_zero _
    -- the command and the agent after the step
    obtain ⟨hwu, hacc1, hacc2, lf', hb1, hb2, hb3, hb4⟩ : (cmd w).acc = u k ∧ p.accMin ≤ u k ∧ u k ≤ p.accMax ∧
        ∃ lf', Is ((σ (i + d + 1)).w.1 n) lf' ∧ lf'.myName = some n ∧ lf'.emergency = lf0.emergency ∧
          lf'.speedPid = (q (k + 1)).1 := by
      by_cases hr0 : r = 0
      · obtain ⟨os, o, w1, w2, a, inf, e, hsn, hse, hask, hextra, htr⟩ := g4 (hdvd.mpr hr0)
        obtain ⟨htime, hown⟩ := D.sense _ _ _ _ hse
        obtain ⟨lf', hl1, hl2⟩ := D.ask _ _ _ _ _ _ ha1 hask
        obtain ⟨me, my, lp, rf, em, hdec, hem, hnm, hctl⟩ := Agents.getCommands_speed c _ _ _ _ _ hl2
        have hmen : me = n := by
          have := hdec.1
          rw [ha2] at this
          injection this with this
          exact this.symm
        subst hmen
        obtain ⟨m2, hm5, hm6⟩ := hsn.2.2 me (Q.inside (i + d) (by omega))
        have hmm : m2 = m := by
          have hm5 : Dict.get? (σ (i + d)).models me = some m2 := hm5
          rw [hm1] at hm5; injection hm5 with hm5; exact hm5.symm
        subst hmm
        obtain ⟨my', hmy1, hmy2⟩ := hown _ _ hm6
        have hmy : my' = my := by
          have := hdec.2.1
          rw [hmy1] at this; injection this
        subst hmy
        have hti : o.time = i * cfg.dt + k * (period cfg * cfg.dt) := by
          rw [htime, hsn.1, hinv.time, hdk, hr0]
          push_cast
          ring
        have hvx : my'.vx = (q k).2 := by
          have hmy2 : my'.vx = (look (R.getState m2)).vx := hmy2
          rw [hmy2, hm4, hr0]; simp
        have hrf : (if (em || lf.emergency) = true then 0 else rf) = ref ∧ (em || lf.emergency) = lf0.emergency := by
          rw [ha3]
          rcases hem0 with ⟨h1, h2⟩ | ⟨h1, h2⟩
          · rw [h1, h2]; simp
          · have h3 := h2 _ _ ((trace_mono Q.ready Q.exec (show i + d + 1 ≤ j by omega)).subset htr) (by
              rw [hinv.time]
              push_cast
              have : (0 : ℝ) ≤ d * cfg.dt := mul_nonneg (Nat.cast_nonneg d) Q.dt.le
              linarith)
            have h4 := hdec.2.2.2
            rw [hbe, h3] at h4
            simp only [Except.ok.injEq, Prod.mk.injEq] at h4
            rw [← h4.1, ← h4.2, h1]; simp
        rw [hrf.1, ha4 hr0, hvx, hti, hcl.control k] at hctl
        simp only [Prod.mk.injEq, Except.ok.injEq] at hctl
        have hlim := Agents.C66_limits hc lf [.ask (view o) o.time] (cmd w)
          (by simp [Agents.LF.run, Agents.LF.step, hl2])
        refine ⟨hctl.2.symm, by rw [hctl.2]; exact hlim.1, by rw [hctl.2]; exact hlim.2.1, lf', D.extra _ _ _ _ hl1 hextra,
          by rw [hnm]; exact ha2, by rw [hem]; exact hrf.2, hctl.1.symm⟩
      · obtain ⟨e1, e2⟩ := g5 (fun h => hr0 (hdvd.mp h))
        obtain ⟨w', h1, h2, h3, h4⟩ := H.held hr0
        rw [e2] at h1
        injection h1 with h1
        subst h1
        refine ⟨h2, h3, h4, lf, ?_, ha2, ha3, ha5 hr0⟩
        rw [e1]
        exact ha1
    -- the speed after the step
    have hspeed : (look (R.getState m')).vx = (q k).2 + (r + 1 : ℕ) * cfg.dt * u k := by
      obtain ⟨f, hs1, hs2, hs3⟩ := D.update _ _ _ _ _ hm3 g2
      have := hs1.linear Q.dt.le ⟨by rw [hwu]; exact hacc1, by rw [hwu]; exact hacc2⟩
        (by rw [hs2]; exact Q.limits (i + d) (by omega) (by omega) m hm1)
      rw [hs2, hs3, hm4] at this
      rw [this, hwu]
      push_cast
      ring
    rcases Nat.lt_or_ge (r + 1) (period cfg) with hr1 | hr1
    · exact ⟨k, r + 1, by omega, hr1, ⟨m', g1, hdyn, hcol, hspeed⟩,
        ⟨lf', hb1, hb2, hb3, fun h => absurd h (by omega), fun _ => hb4⟩,
        fun _ => ⟨w, g3, hwu, hacc1, hacc2⟩⟩
    · have hrP : r + 1 = period cfg := by omega
      refine ⟨k + 1, 0, by rw [hdk, Nat.succ_mul]; omega, hP, ⟨m', g1, hdyn, hcol, ?_⟩,
        ⟨lf', hb1, hb2, hb3, fun _ => hb4, fun h => absurd rfl h⟩, fun h => absurd rfl h⟩
      rw [hspeed, hrP]
      rw [hcl.plant k]
      simp only [Nat.cast_zero, zero_mul, add_zero]

/-- **C126.** The speed of an undisturbed lane follower in a simulation is that of the PID loop at the steps at which
commands are requested, and in between on the straight line between these speeds. -/
theorem C126_speed (hc : Agents.Conf.mk? lane p wb lr b lights cl mi = .ok c)
    (D : Drives R n cfg.dt c p Is cmd view look) (Q : Quiet cfg σ i j n b p Is view look ref s0 x0) (k r : ℕ)
    (hr : r ≤ period cfg) (hj : i + k * period cfg + r ≤ j) :
    let q := fun k => (pidLoop c.speedP (period cfg * cfg.dt) ref (i * cfg.dt) s0 x0 k).2
    ∃ m, Dict.get? (σ (i + k * period cfg + r)).models n = some m ∧
      (look (R.getState m)).vx = q k + (r : ℝ) / period cfg * (q (k + 1) - q k) := by
  intro q
  have hP : 0 < period cfg := by unfold period; omega
  have hPr : (period cfg : ℝ) ≠ 0 := by exact_mod_cast hP.ne'
  obtain ⟨u, hcl⟩ := pidLoop_closed c.speedP (period cfg * cfg.dt) ref (i * cfg.dt) s0 x0
  obtain ⟨em, hat⟩ := quiet_at hc D Q rfl hcl
  obtain ⟨k', r', h1, h2, h3⟩ := hat (k * period cfg + r) (by omega)
  obtain ⟨m, g1, -, -, g2⟩ := h3.model
  refine ⟨m, by rw [Nat.add_assoc]; exact g1, ?_⟩
  have hpl := fun k => hcl.plant k
  rcases hr.eq_or_lt with hr | hr
  · have e : k' = k + 1 ∧ r' = 0 := by
      have h4 : (k + 1) * period cfg + 0 = k' * period cfg + r' := by rw [← h1, hr]; ring
      have := congrArg (· / period cfg) h4
      have h5 := congrArg (· % period cfg) h4
      simp only [Nat.mul_add_mod_self_right, Nat.zero_mod, Nat.mod_eq_of_lt h2] at h5
      rw [← h5] at h4
      exact ⟨(Nat.eq_of_mul_eq_mul_right hP (by simpa using h4)).symm, h5.symm⟩
    rw [g2, e.1, e.2, hr, div_self hPr]
    simp [q]
  · have e : k' = k ∧ r' = r := by
      have h5 := congrArg (· % period cfg) h1
      simp only [Nat.mul_add_mod_self_right, Nat.mod_eq_of_lt h2, Nat.mod_eq_of_lt hr] at h5
      rw [← h5] at h1
      exact ⟨(Nat.eq_of_mul_eq_mul_right hP (by omega)).symm, h5.symm⟩
    rw [g2, e.1, e.2]
    simp only [q]
    rw [hpl k]
    field_simp
    ring

/-- **C126.** The speed of an undisturbed lane follower in a simulation comes as close as one likes to the speed it is
asked for, as far as the limits of the vehicle allow, and stays there: after a number of steps that depends only on the
lane follower, the step size and the state in the beginning, not on the rest of the world and the other players. -/
theorem C126_reaches (hc : Agents.Conf.mk? lane p wb lr b lights cl mi = .ok c) (P : ℕ) (dt : ℝ) (hP : 0 < P)
    (h0 : 0 < dt) (h1 : P * dt ≤ 9 / 40) (ha : p.accMin < 0 ∧ 0 < p.accMax)
    (hb : (2 + max (-p.accMin) p.accMax / 10) / 100 < 16 * min (-p.accMin) p.accMax) (i : ℕ) (ref : ℝ)
    (s0 : PIDState ℝ) (x0 ε : ℝ) (hε : 0 < ε) :
    ∃ M : ℕ, ∀ (F : Iface N ℝ) (sc : Bool) (R : Parts N ℝ F.M F.S) (cfg : Cfg (world F sc R))
      (σ : Nat → St (world F sc R)) (j : Nat) (n : N) (Is : R.A → Agents.LF N → Prop) (cmd : R.C → Agents.Cmd L)
      (view : Obs N ℝ R.X F.S → Dict N Agents.ObsState) (look : R.X → VehicleState ℝ),
      cfg.dt = dt → period cfg = P → Drives R n cfg.dt c p Is cmd view look →
      Quiet cfg σ i j n b p Is view look ref s0 x0 → ∀ d, M ≤ d → i + d ≤ j →
      ∃ m, Dict.get? (σ (i + d)).models n = some m ∧
        |(look (R.getState m)).vx - min (max ref p.vxMin) p.vxMax| < ε := by
  obtain ⟨-, -, -, -, hsp, -⟩ := Agents.conf_limits hc
  obtain ⟨u, hcl⟩ := pidLoop_closed c.speedP (P * dt) ref (i * dt) s0 x0
  have hst := Loop.C119_speed (Agents.conf_speed hc) (P * dt) (mul_pos (by exact_mod_cast hP) h0) h1 ha hb
  have hlim := (Loop.C119_converges_partial hcl hst).1
  rw [hsp] at hlim
  obtain ⟨K0, hK⟩ := Metric.tendsto_atTop.mp hlim ε hε
  refine ⟨K0 * P, ?_⟩
  intro F sc R cfg σ j n Is cmd view look hdt hper D Q d hd hj
  have hdm : d = d / P * P + d % P := (Nat.div_add_mod' d P).symm
  have hlt : d % P < P := Nat.mod_lt _ hP
  obtain ⟨m, g1, g2⟩ := C126_speed hc D Q (d / P) (d % P) (by rw [hper]; exact hlt.le) (by rw [hper]; omega)
  rw [hper, hdt] at g2
  rw [hper, Nat.add_assoc, ← hdm] at g1
  refine ⟨m, g1, ?_⟩
  have hk0 : K0 ≤ d / P := (Nat.le_div_iff_mul_le hP).mpr hd
  have e1 := hK (d / P) hk0
  have e2 := hK (d / P + 1) (by omega)
  rw [Real.dist_eq, abs_lt] at e1 e2
  dsimp only at e1 e2
  rw [g2, abs_lt]
  have hl0 : (0 : ℝ) ≤ ((d % P : ℕ) : ℝ) / P := by positivity
  have hl1 : ((d % P : ℕ) : ℝ) / P < 1 := by
    rw [div_lt_one (by exact_mod_cast hP)]
    exact_mod_cast hlt
  set y : ℝ := npClip ref (p.vxMin, p.vxMax).1 (p.vxMin, p.vxMax).2 with hy
  have hy' : min (max ref p.vxMin) p.vxMax = y := rfl
  rw [hy']
  set l : ℝ := ((d % P : ℕ) : ℝ) / P
  beta_reduce
  set A := (pidLoop c.speedP (P * dt) ref (i * dt) s0 x0 (d / P)).2
  set B := (pidLoop c.speedP (P * dt) ref (i * dt) s0 x0 (d / P + 1)).2
  constructor
  · have h1 := mul_nonneg hl0 (show 0 ≤ B - y + ε by linarith)
    have h2 := mul_pos (sub_pos.mpr hl1) (show 0 < A - y + ε by linarith)
    nlinarith
  · have h1 := mul_nonneg hl0 (show 0 ≤ ε - (B - y) by linarith)
    have h2 := mul_pos (sub_pos.mpr hl1) (show 0 < ε - (A - y) by linarith)
    nlinarith

/-- A whole run, in which `n` is named in no report and at the end still there, is quiet if its log is. -/
theorem quiet_of_run {fuel : Nat} {s s' : St (world F sc R)} {log log' : Dict N (PlayerLog (world F sc R))} {m0 : F.M}
    (hdt : 0 < cfg.dt) (hL : Lawful F R cfg.dt) (hm : Dict.Wf cfg.missions) (hf : Fresh s)
    (hrun : run cfg fuel s log = some (.ok (s', log'))) (hn : n ∈ s'.players) (hnot : ¬ Named s'.reports n)
    (hm0 : Dict.get? s.models n = some m0) (hdyn : R.isDyn m0 = false) (hcol : F.hasCollided m0 = false)
    (hx0 : (look (R.getState m0)).vx = x0)
    (hin : ∀ a, R.onInit (s.w.1 n) n = .ok a →
      ∃ lf, Is a lf ∧ lf.myName = some n ∧ lf.speedPid = s0 ∧ lf.emergency = false)
    (href : ∀ t o, .ask t n o ∈ s'.trace → Agents.speedRef b n (view o) = .ok (ref, false)) :
    ∃ σ J pl, Dict.get? log' n = some pl ∧ pl.states.vs.length = J + 1 ∧
      (∀ i ≤ J, ∃ m, Dict.get? (σ i).models n = some m ∧ pl.states.vs[i]? = some (R.getState m)) ∧
      ((∀ x ∈ pl.states.vs, p.vxMin < (look x).vx ∧ (look x).vx < p.vxMax) →
        Quiet cfg σ 0 (J + 1) n b p Is view look ref s0 x0) := by
  obtain ⟨σ, J, hready, hinit, ⟨w, lgr, hs0⟩, hex, hend, hlog⟩ := log_of_run hf (hdt) hm hrun
  have hkey : n ∈ Dict.keys s.models := by
    exact (Dict.mem_keys_iff _ _).mpr ⟨m0, hm0⟩
  obtain ⟨pl, k, last, g1, gv, g2, g3, g4, -⟩ := hlog n hkey
  have hkl : k = J + 1 ∧ last = J := by
    rcases g2 with ⟨-, h⟩ | ⟨-, -, -, -, h, -⟩
    · exact h
    · exact absurd hn h
  obtain ⟨hk1, hk2⟩ := hkl
  subst hk2
  have hpl : ∀ k ≤ last + 1, n ∈ (σ k).players := by
    intro k hk
    by_contra h
    exact players_mono hready (hdt) hm hex n k h (last + 1) hk le_rfl (by rw [hend]; exact hn)
  have hmod0 : (σ 0).models = s.models := by rw [hs0]
  obtain ⟨hagents, -⟩ := initLoop_agents s.players s hf.players hinit
  refine ⟨σ, last, pl, g1, by rw [← gv.1.1, g3]; simp, g4, fun hlim => ?_⟩
  exact {
    lawful := hL
    dt := hdt
    missions := hm
    ready := hready
    exec := hex
    le := by omega
    asked := dvd_zero _
    inside := fun k hk => hpl k (by omega)
    unnamed := by rw [hend]; exact hnot
    model := ⟨m0, by rw [hmod0]; exact hm0, hdyn, hcol, hx0⟩
    agent := by
      obtain ⟨lf, e1, e2, e3, e4⟩ := hin _ (hagents n ((hf.keys n).mpr hkey))
      exact ⟨lf, e1, e2, e3, Or.inr ⟨e4, fun t o ht _ => href t o (by rw [← hend]; exact ht)⟩⟩
    limits := by
      intro k _ hk m hmk
      obtain ⟨m', e1, e2⟩ := g4 k (by omega)
      have e1 : Dict.get? (σ k).models n = some m' := e1
      rw [hmk] at e1
      injection e1 with e1
      subst e1
      exact hlim _ (List.mem_of_getElem? e2) }

/-- **C126.** The same in the log of a whole run, in which `n` is named in no report and at the end still there, for a
lane follower whose controller is in the state `s0` after the beginning of the episode: if its speed is always strictly
within its limits, the logged speeds come as close as one likes to the speed it is asked for. -/
theorem C126_log (hc : Agents.Conf.mk? lane p wb lr b lights cl mi = .ok c) (P : ℕ) (dt : ℝ) (hP : 0 < P)
    (h0 : 0 < dt) (h1 : P * dt ≤ 9 / 40) (ha : p.accMin < 0 ∧ 0 < p.accMax)
    (hb : (2 + max (-p.accMin) p.accMax / 10) / 100 < 16 * min (-p.accMin) p.accMax) (ref : ℝ)
    (s0 : PIDState ℝ) (x0 ε : ℝ) (hε : 0 < ε) :
    ∃ M : ℕ, ∀ (F : Iface N ℝ) (sc : Bool) (R : Parts N ℝ F.M F.S) (cfg : Cfg (world F sc R)) (fuel : Nat)
      (s s' : St (world F sc R)) (log log' : Dict N (PlayerLog (world F sc R))) (n : N)
      (Is : R.A → Agents.LF N → Prop) (cmd : R.C → Agents.Cmd L)
      (view : Obs N ℝ R.X F.S → Dict N Agents.ObsState) (look : R.X → VehicleState ℝ) (m0 : F.M),
      cfg.dt = dt → period cfg = P → Drives R n cfg.dt c p Is cmd view look → Lawful F R cfg.dt →
      Dict.Wf cfg.missions → Fresh s → run cfg fuel s log = some (.ok (s', log')) →
      n ∈ s'.players → ¬ Named s'.reports n →
      Dict.get? s.models n = some m0 → R.isDyn m0 = false → F.hasCollided m0 = false →
      (look (R.getState m0)).vx = x0 →
      (∀ a, R.onInit (s.w.1 n) n = .ok a →
        ∃ lf, Is a lf ∧ lf.myName = some n ∧ lf.speedPid = s0 ∧ lf.emergency = false) →
      (∀ t o, .ask t n o ∈ s'.trace → Agents.speedRef b n (view o) = .ok (ref, false)) →
      ∃ pl, Dict.get? log' n = some pl ∧
        ((∀ x ∈ pl.states.vs, p.vxMin < (look x).vx ∧ (look x).vx < p.vxMax) →
          ∀ d x, M ≤ d → pl.states.vs[d]? = some x → |(look x).vx - min (max ref p.vxMin) p.vxMax| < ε) := by
  obtain ⟨M, hM⟩ := C126_reaches (N := N) hc P dt hP h0 h1 ha hb 0 ref s0 x0 ε hε
  refine ⟨M, ?_⟩
  intro F sc R cfg fuel s s' log log' n Is cmd view look m0 hdt hper D hL hm hf hrun hn hnot hm0 hdyn hcol hx0 hin href
  obtain ⟨σ, J, pl, g1, g2, g3, g4⟩ := quiet_of_run (p := p) (by rw [hdt]; exact h0) hL hm hf hrun hn hnot hm0 hdyn hcol
    hx0 hin href
  refine ⟨pl, g1, fun hlim d x hd hx => ?_⟩
  have hdl : d ≤ J := by
    obtain ⟨h3, -⟩ := List.getElem?_eq_some_iff.mp hx
    omega
  obtain ⟨m, e1, e2⟩ := hM F sc R cfg σ (J + 1) n Is cmd view look hdt hper D (g4 hlim) d hd (by omega)
  obtain ⟨m', e3, e4⟩ := g3 d hdl
  rw [Nat.zero_add] at e1
  rw [e1] at e3
  injection e3 with e3
  subst e3
  rw [hx] at e4
  injection e4 with e4
  rw [e4]
  exact e2

/-! ## A concrete case: one car driven by the lane follower `Agents.Straight.dotConf` -/

section Case
open Agents.Straight

/-- What the lane follower makes of an observation: it is at the control point of its lane, at its own speed. -/
noncomputable def caseView (o : Obs Nat ℝ (VehicleState ℝ) Unit) : Dict Nat Agents.ObsState :=
  aloneAt (match Dict.get? o.players 0 with
    | some (x, _) => x.vx
    | none => 0)

open Classical in
noncomputable abbrev caseParts : Parts Nat ℝ bikeF.M bikeF.S where
  A := Agents.LF Nat
  V := Unit
  X := VehicleState ℝ
  C := Agents.Cmd Nat
  I := Unit
  E := Unit
  G := Unit
  getState m := m.1
  isDyn _ := false
  onInit a n := .ok (a.onInit (dotConf [0, 1, 2, 3, 4]) n)
  sense v _ o := .ok (v, o)
  ask a o := match a.getCommands (dotConf [0, 1, 2, 3, 4]) (caseView o) o.time with
    | (a', .ok u) => .ok (a', u, ())
    | (_, .error e) => .error e
  extra a := .ok (a, none)
  update v _ m u dt :=
    if (params.accMin ≤ u.acc ∧ u.acc ≤ params.accMax) ∧ (params.vxMin < m.1.vx ∧ m.1.vx < params.vxMax) ∧
        params.vxMin < m.1.vx + u.acc * dt ∧ m.1.vx + u.acc * dt < params.vxMax then
      .ok (v, ({ m.1 with vx := m.1.vx + u.acc * dt }, m.2))
    else .error .assertion
  fulfilled v _ _ _ _ := .ok (v, false)
  envQuery _ _ := []

theorem case_update {v v' : Unit} {n : Nat} {m m' : bikeF.M} {u : Agents.Cmd Nat} {dt : ℝ}
    (h : caseParts.update v n m u dt = .ok (v', m')) :
    (params.accMin ≤ u.acc ∧ u.acc ≤ params.accMax) ∧ (params.vxMin < m.1.vx ∧ m.1.vx < params.vxMax) ∧
      (params.vxMin < m.1.vx + u.acc * dt ∧ m.1.vx + u.acc * dt < params.vxMax) ∧
      m' = ({ m.1 with vx := m.1.vx + u.acc * dt }, m.2) := by
  change (if _ then _ else _) = _ at h
  split at h
  · rename_i hc
    injection h with h
    injection h with _ h
    exact ⟨hc.1, hc.2.1, hc.2.2, h.symm⟩
  · cases h

theorem case_drives (dt : ℝ) : Drives caseParts 0 dt (dotConf [0, 1, 2, 3, 4]) params (fun a lf => a = lf)
    (fun u => u) caseView (fun x => x) where
  ask a lf o a' u i h1 h := by
    subst h1
    refine ⟨a', rfl, ?_⟩
    change (match a.getCommands (dotConf [0, 1, 2, 3, 4]) (caseView o) o.time with
      | (a', .ok u) => Except.ok (a', u, ())
      | (_, .error e) => Except.error e) = Except.ok (a', u, i) at h
    split at h
    · rename_i a2 u2 h'
      injection h with h
      injection h with e1 h
      injection h with e2 e3
      subst e1 e2
      exact h'
    · cases h
  extra a lf a' e h1 h := by
    injection h with h
    injection h with h _
    rw [← h]
    exact h1
  sense w os w' o h := by
    injection h with h
    injection h with _ h
    subst h
    refine ⟨rfl, fun x f hx => ⟨⟨0, 0, 0, x.vx, 0⟩, ?_, rfl⟩⟩
    simp [caseView, hx, aloneAt, Dict.get?]
  update v m u v' m' _ h := by
    obtain ⟨h1, h2, h3, rfl⟩ := case_update h
    exact ⟨_, Phys.speedCurve_line h1 h2 h3, by simp, rfl⟩

theorem case_lawful (dt : ℝ) : Lawful bikeF caseParts dt where
  marked _ := rfl
  setVelocity _ _ _ := rfl
  update v n m c v' m' h := by
    obtain ⟨-, -, -, rfl⟩ := case_update h
    rfl
  dynMark _ := rfl
  dynVelocity _ _ _ := rfl
  dynUpdate v n m c v' m' _ := rfl

noncomputable abbrev caseCfg : Cfg (world bikeF true caseParts) :=
  { dt := 1 / 10, dtCommands := 1 / 10, maxSimTime := 1 / 20, afterCollision := 4, missions := [] }

noncomputable def caseStart : St (world bikeF true caseParts) where
  models := [(0, ((⟨0, 0, 0, 10, 0⟩ : VehicleState ℝ), false))]
  players := [0]
  w := (fun _ => Agents.LF.init, ())
  time := 0
  terminated := false
  reports := []
  firstColl := none
  lastObs := ⟨[], 0⟩
  lastCmdTs := none
  lastCmds := []
  logger := []
  trace := []

theorem case_run : ∃ s' log', run caseCfg 5 caseStart [] = some (.ok (s', log')) ∧ s'.players = [0] ∧
    s'.reports = [] ∧ ∃ pl, Dict.get? log' 0 = some pl ∧ pl.states.vs = [⟨0, 0, 0, 10, 0⟩] := by
  obtain ⟨a', u, hu, -, -⟩ := dot_goes_on (Agents.LF.onInit (dotConf [0, 1, 2, 3, 4]) Agents.LF.init 0) rfl rfl 10 0
    le_rfl (aloneAt 10) rfl
  obtain ⟨h1, h2, -⟩ := Agents.C66_limits dotConf_mk (Agents.LF.onInit (dotConf [0, 1, 2, 3, 4]) Agents.LF.init 0)
    [.ask (aloneAt 10) 0] u (by simp [Agents.LF.run, Agents.LF.step, hu])
  have hup : (params.accMin ≤ u.acc ∧ u.acc ≤ params.accMax) ∧ (params.vxMin < 10 ∧ 10 < params.vxMax) ∧
      params.vxMin < 10 + u.acc * (1 / 10) ∧ 10 + u.acc * (1 / 10) < params.vxMax := by
    refine ⟨⟨h1, h2⟩, by norm_num [params], ?_⟩
    simp only [params] at h1 h2 ⊢
    constructor <;> linarith
  have hlt : (1 / 20 : ℝ) < 1 / 10 := by norm_num
  have hlt' : (20 : ℝ)⁻¹ < 10⁻¹ := by norm_num
  have hup' := hup
  simp only [one_div] at hup'
  simp [run, initLoop, caseStart, loop, step, preUpdate, need, observe, lookup, Dict.get?, liftU, update,
    updateLoop, updatePlayer, addLog, Builder.add, maybeAsk, askPlayer, addExtra, Dict.set, postUpdate,
    removeLoop, terminationCondition, collTimer, writeLog, Dict.keys, PlayerLogger.asSequence,
    Builder.asSequence, Seq.mk?, Seq.increasing, Bind.bind, Except.bind, Pure.pure, Except.pure, hlt', hu, caseView, hup',
    PlayerLogger.seqs]

theorem case_fresh : Fresh caseStart := ⟨rfl, rfl, rfl, rfl, rfl, by simp [Dict.Wf, caseStart, Dict.keys],
  by simp [caseStart], by simp [caseStart, Dict.keys], rfl⟩

theorem case_period : period caseCfg = 1 := by
  unfold period
  norm_num

theorem case_ref (o : Obs Nat ℝ (VehicleState ℝ) Unit) :
    Agents.speedRef ⟨11, 7, 2, 3 / 2⟩ 0 (caseView o) = .ok (11, false) := alone_ref _ _

/-- The hypotheses of `C126_log` are met. -/
example : ∃ M : ℕ, ∃ s' log' pl, run caseCfg 5 caseStart [] = some (.ok (s', log')) ∧ Dict.get? log' 0 = some pl ∧
    ((∀ x ∈ pl.states.vs, params.vxMin < x.vx ∧ x.vx < params.vxMax) →
      ∀ d x, M ≤ d → pl.states.vs[d]? = some x → |x.vx - 11| < 1 / 1000) := by
  obtain ⟨s', log', hrun, hpl, hrep, -⟩ := case_run
  obtain ⟨M, hM⟩ := C126_log (N := Nat) dotConf_mk 1 (1 / 10) one_pos (by norm_num) (by norm_num)
    (by norm_num [params]) (by norm_num [params]) 11 (Agents.LF.init : Agents.LF Nat).speedPid 10 (1 / 1000) (by norm_num)
  obtain ⟨pl, h1, h2⟩ := hM _ _ _ _ _ _ _ _ _ 0 (fun a lf => a = lf) (fun u => u) caseView (fun x => x) _ rfl case_period
    (case_drives _) (case_lawful _) (by simp [Dict.Wf, Dict.keys]) case_fresh hrun (by simp [hpl])
    (by simp [Named, hrep]) rfl rfl rfl rfl (fun a ha => by
      injection ha with ha
      exact ⟨a, rfl, by rw [← ha]; rfl, by rw [← ha]; rfl, by rw [← ha]; rfl⟩) (fun t o _ => case_ref o)
  refine ⟨M, s', log', pl, hrun, h1, fun h d x h3 h4 => ?_⟩
  have := h2 h d x h3 h4
  norm_num [params] at this ⊢
  exact this

/-- The hypotheses of `C126_speed` are met, with a step of the simulation: the speed after it is that after one step of
the PID loop. -/
example : ∃ σ, Quiet caseCfg σ 0 1 0 ⟨11, 7, 2, 3 / 2⟩ params (fun a lf => a = lf) caseView (fun x => x) 11
      (Agents.LF.init : Agents.LF Nat).speedPid 10 ∧
    ∃ m, Dict.get? (σ 1).models 0 = some m ∧ m.1.vx =
      (pidLoop (dotConf [0, 1, 2, 3, 4]).speedP (1 / 10) 11 0 (Agents.LF.init : Agents.LF Nat).speedPid 10 1).2 := by
  obtain ⟨s', log', hrun, hpl, hrep, pl', hl1, hl2⟩ := case_run
  obtain ⟨σ, J, pl, g1, g2, g3, g4⟩ := quiet_of_run (p := params) (n := 0) (Is := fun a lf => a = lf) (view := caseView)
    (look := fun x => x) (b := ⟨11, 7, 2, 3 / 2⟩) (s0 := (Agents.LF.init : Agents.LF Nat).speedPid) (ref := 11)
    (cfg := caseCfg) (by norm_num) (case_lawful _) (by simp [Dict.Wf, Dict.keys]) case_fresh hrun (by simp [hpl])
    (by simp [Named, hrep]) rfl rfl rfl rfl (fun a ha => by
      injection ha with ha
      exact ⟨a, rfl, by rw [← ha]; rfl, by rw [← ha]; rfl, by rw [← ha]; rfl⟩) (fun t o _ => case_ref o)
  rw [hl1] at g1
  injection g1 with g1
  subst g1
  have hJ : J = 0 := by rw [hl2] at g2; simpa using g2.symm
  subst hJ
  have hQ := g4 (fun x hx => by
    rw [hl2] at hx
    simp only [List.mem_singleton] at hx
    rw [hx]
    norm_num [params])
  refine ⟨σ, hQ, ?_⟩
  obtain ⟨m, h1, h2⟩ := C126_speed dotConf_mk (case_drives _) hQ 0 1 (by rw [case_period]) (by rw [case_period])
  rw [case_period] at h1 h2
  refine ⟨m, h1, h2.trans ?_⟩
  norm_num

end Case

end Whole
end Verif
