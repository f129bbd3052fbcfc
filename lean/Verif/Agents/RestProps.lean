import Verif.Agents.CruiseProps
import Verif.Control.RestProps

/-!
# C123: where a lane follower comes to rest
-/

namespace Verif
namespace Agents

open Maps Filter Topology

variable {N : Type} [DecidableEq N] {L : Type}
variable {c : Conf L} {h : ℝ} {t : ℕ → ℝ} {a : ℕ → LF N} {ps : ℕ → Dict N ObsState} {u : ℕ → Cmd L} {x : ℕ → ℝ}

/-- Specification: `r` is the speed that the lane follower `a` aims at when it is asked with the observations `ps`: that
of its speed behaviour, or zero in and after an emergency. -/
def AimsAt (c : Conf L) (a : LF N) (ps : Dict N ObsState) (r : ℝ) : Prop :=
  ∃ me ref em, a.myName = some me ∧ speedRef c.behavior me ps = .ok (ref, em) ∧
    r = if em = true ∨ a.emergency = true then 0 else ref

/-- The speed controller of a lane follower. -/
theorem Follows.tracks (H : Follows c h t a ps u x) (ref : ℕ → ℝ) (hr : ∀ k, AimsAt c (a k) (ps k) (ref k)) :
    Loop.Tracks c.speedP h ref t (fun k => (a k).speedPid) x (fun k => (u k).acc) := by
  refine ⟨H.time, fun k => ?_, H.plant⟩
  obtain ⟨me, my, lp, r, em, hd, -, -, hc⟩ := getCommands_speed c _ _ _ _ _ (H.ask k)
  obtain ⟨me', r', em', h1, h2, h3⟩ := hr k
  have e1 : me' = me := by rw [hd.1] at h1; injection h1 with h1; exact h1.symm
  subst e1
  have e2 := hd.2.2.2
  rw [h2] at e2
  simp only [Except.ok.injEq, Prod.mk.injEq] at e2
  obtain ⟨rfl, rfl⟩ := e2
  rw [H.own k _ my hd.1 hd.2.1] at hc
  simp only [Bool.or_eq_true] at hc
  rw [h3]
  exact hc

/-- It always aims at some speed. -/
theorem Follows.aims (H : Follows c h t a ps u x) (k : ℕ) : ∃ r, AimsAt c (a k) (ps k) r := by
  obtain ⟨me, my, lp, r, em, hd, -⟩ := getCommands_speed c _ _ _ _ _ (H.ask k)
  exact ⟨_, me, r, em, hd.1, hd.2.2.2, rfl⟩

/-- Once there has been an emergency it aims at zero. -/
theorem Follows.emergency (H : Follows c h t a ps u x) {m : ℕ} {me : N} {r : ℝ} (hn : (a m).myName = some me)
    (hd : speedRef c.behavior me (ps m) = .ok (r, true)) (k : ℕ) (hk : m ≤ k) (ref : ℝ)
    (hr : AimsAt c (a k) (ps k) ref) : ref = 0 := by
  have hem : ∀ j, (a (m + 1 + j)).emergency = true := by
    intro j
    induction j with
    | zero =>
      obtain ⟨me', my, lp, r', em, hd', he, -⟩ := getCommands_speed c _ _ _ _ _ (H.ask m)
      have e1 : me' = me := by have := hd'.1; rw [hn] at this; injection this with this; exact this.symm
      subst e1
      have := hd'.2.2.2
      rw [hd] at this
      simp only [Except.ok.injEq, Prod.mk.injEq] at this
      rw [Nat.add_zero, he, ← this.2]
      rfl
    | succ j ih =>
      obtain ⟨_, _, _, _, _, _, he, -⟩ := getCommands_speed c _ _ _ _ _ (H.ask (m + 1 + j))
      rw [← Nat.add_assoc, he, ih, Bool.or_true]
  obtain ⟨me', ref', em, h1, h2, h3⟩ := hr
  rcases Nat.eq_or_lt_of_le hk with rfl | hlt
  · have e1 : me' = me := by rw [hn] at h1; injection h1 with h1; exact h1.symm
    subst e1
    rw [hd] at h2
    simp only [Except.ok.injEq, Prod.mk.injEq] at h2
    rw [h3, if_pos (Or.inl h2.2.symm)]
  · obtain ⟨j, rfl⟩ := Nat.exists_eq_add_of_lt hlt
    rw [h3, if_pos (Or.inr (by rw [show m + j + 1 = m + 1 + j by ring]; exact hem j))]

theorem gains_of {p : Phys.VehicleParams ℝ} {sp : PIDParam ℝ} (h : speedParam p = .ok sp)
    (hv : p.vxMin ≤ 0 ∧ 0 ≤ p.vxMax) : Loop.SpeedGains sp (-p.accMin) p.accMax := by
  unfold speedParam PIDParam.mk? at h
  split_ifs at h
  injection h with h
  subst h
  exact ⟨rfl, rfl, rfl, rfl, by simp, hv.1, hv.2⟩

/-- **C123.** Where a lane follower comes to rest that sees a danger in request `m`: it covers in the end the distance
that it would have covered with the speeds that it aimed at, provided that it is never 200 m off this. -/
theorem C123_follower {lane : List CtrPoint} {p : Phys.VehicleParams ℝ} {wb lr : ℝ} {b : SpeedBehaviorParam ℝ}
    {lights : List L} {cl : ℝ × ℝ → ℝ} {mi : (ℝ → Except Err ℝ) → ℝ → ℝ → Except Err ℝ}
    (hc : Conf.mk? lane p wb lr b lights cl mi = .ok c) (H : Follows c h t a ps u x) (h0 : 0 < h) (h1 : h ≤ 9 / 40)
    (ha : p.accMin < 0 ∧ 0 < p.accMax)
    (hb : (2 + max (-p.accMin) p.accMax / 10) / 100 < 16 * min (-p.accMin) p.accMax)
    (hnew : (a 0).speedPid = PIDState.init) (m : ℕ) (me : N) (r : ℝ) (hn : (a m).myName = some me)
    (hd : speedRef b me (ps m) = .ok (r, true)) (ref : ℕ → ℝ) (hr : ∀ k, AimsAt c (a k) (ps k) (ref k))
    (hv : ∀ k, p.vxMin ≤ ref k ∧ ref k ≤ p.vxMax)
    (hl : ∀ n, |∑ k ∈ Finset.range n, h * (ref (k + 1) - x (k + 1))| ≤ 200) :
    Tendsto (fun n => ∑ k ∈ Finset.range n, h * x (k + 1)) atTop (𝓝 (∑ k ∈ Finset.range m, h * ref (k + 1))) := by
  obtain ⟨-, -, -, -, hsp, -, -, -, -, hbe⟩ := conf_limits hc
  have hzero : ∀ k, m ≤ k → ref k = 0 := fun k hk =>
    H.emergency hn (by rw [hbe]; exact hd) k hk _ (hr k)
  have hv0 : p.vxMin ≤ 0 ∧ 0 ≤ p.vxMax := by
    have := hv m
    rwa [hzero m le_rfl] at this
  have hg := gains_of (conf_speed hc) hv0
  have hs := Loop.C119_speed (conf_speed hc) h h0 h1 ha hb
  have hT := H.tracks ref hr
  have hlag : ∀ n, Loop.lag c.speedP h ref x n = ∑ k ∈ Finset.range n, h * (ref (k + 1) - x (k + 1)) := by
    intro n
    refine Finset.sum_congr rfl (fun k _ => ?_)
    rw [hsp, npClip_of_mem _ _ _ (hv _).1 (hv _).2]
  have f1 := (hT.first hnew (by rw [hg.2.2.2.1]; norm_num)).1
  have key := Loop.C123_lag hT hs hzero (fun n => by
    obtain ⟨e1, e2⟩ := abs_le.mp (hl n)
    simp only [f1]
    rw [hg.2.1, hg.2.2.2.1, hlag]
    constructor <;> norm_num <;> linarith)
  simp only [f1, neg_zero, zero_div] at key
  have hsum : ∀ n, m ≤ n → ∑ k ∈ Finset.range n, h * x (k + 1) =
      (∑ k ∈ Finset.range m, h * ref (k + 1)) - Loop.lag c.speedP h ref x n := by
    intro n hmn
    have e1 : ∑ k ∈ Finset.range m, h * ref (k + 1) = ∑ k ∈ Finset.range n, h * ref (k + 1) := by
      refine Finset.sum_subset (Finset.range_mono hmn) (fun k _ hk => ?_)
      rw [hzero (k + 1) (by have := Finset.mem_range.not.mp hk; omega), mul_zero]
    rw [e1, hlag, ← Finset.sum_sub_distrib]
    refine Finset.sum_congr rfl (fun k _ => ?_)
    ring
  have := key.const_sub (∑ k ∈ Finset.range m, h * ref (k + 1))
  rw [sub_zero] at this
  refine this.congr' ?_
  filter_upwards [eventually_ge_atTop m] with n hn
  exact (hsum n hn).symm

/-- **C123.** What a lane follower covers in the end after a danger that it sees in request `m`, whatever its speed is
then: the distance by which it was behind the speeds that it aimed at, this request included. One that was not behind
comes back to where it saw the danger, and one that had been faster than it aimed at rolls back beyond this place. The
example below meets the hypotheses, with `m = 0`. -/
theorem C123_after {lane : List CtrPoint} {p : Phys.VehicleParams ℝ} {wb lr : ℝ} {b : SpeedBehaviorParam ℝ}
    {lights : List L} {cl : ℝ × ℝ → ℝ} {mi : (ℝ → Except Err ℝ) → ℝ → ℝ → Except Err ℝ}
    (hc : Conf.mk? lane p wb lr b lights cl mi = .ok c) (H : Follows c h t a ps u x) (h0 : 0 < h) (h1 : h ≤ 9 / 40)
    (ha : p.accMin < 0 ∧ 0 < p.accMax)
    (hb : (2 + max (-p.accMin) p.accMax / 10) / 100 < 16 * min (-p.accMin) p.accMax)
    (hnew : (a 0).speedPid = PIDState.init) (m : ℕ) (me : N) (r : ℝ) (hn : (a m).myName = some me)
    (hd : speedRef b me (ps m) = .ok (r, true)) (ref : ℕ → ℝ) (hr : ∀ k, AimsAt c (a k) (ps k) (ref k))
    (hv : ∀ k, p.vxMin ≤ ref k ∧ ref k ≤ p.vxMax)
    (hl : ∀ n, |∑ k ∈ Finset.range n, h * (ref (k + 1) - x (k + 1))| ≤ 200) :
    Tendsto (fun n => ∑ k ∈ Finset.Ico m n, h * x (k + 1)) atTop
      (𝓝 (∑ k ∈ Finset.range m, h * (ref (k + 1) - x (k + 1)))) := by
  have key := (C123_follower hc H h0 h1 ha hb hnew m me r hn hd ref hr hv hl).sub_const
    (∑ k ∈ Finset.range m, h * x (k + 1))
  rw [← Finset.sum_sub_distrib] at key
  simp only [← mul_sub] at key
  refine key.congr' ?_
  filter_upwards [eventually_ge_atTop m] with n hmn
  rw [Finset.sum_Ico_eq_sub _ hmn]

/-- Specification: the lane follower `a`, not asked before, sees a danger in request 0, at the speed `v`. The speed and
the limits of the vehicle are in a range that contains cars, trucks and bicycles. -/
structure SeesAtOnce (c : Conf L) (p : Phys.VehicleParams ℝ) (a : LF N) (ps : Dict N ObsState) (v : ℝ) : Prop where
  fresh : a.speedPid = PIDState.init
  danger : ∃ me r, a.myName = some me ∧ speedRef c.behavior me ps = .ok (r, true)
  vx : p.vxMin ≤ 0 ∧ 0 ≤ p.vxMax
  acc : -200 ≤ p.accMin ∧ p.accMin ≤ -1 ∧ 1 / 50 ≤ p.accMax
  pos : 0 < v
  far : v ^ 2 / (2 * -p.accMin) - p.accMin / 5 ≤ 200
  room : (v ^ 2 / (2 * -p.accMin) - p.accMin / 5) / 100 + p.accMax / 10 ≤ -(2 / 5) * p.accMin

theorem SeesAtOnce.tracks {p : Phys.VehicleParams ℝ} (H : Follows c h t a ps u x)
    (hd : SeesAtOnce c p (a 0) (ps 0) (x 0)) :
    Loop.Tracks c.speedP h (fun _ => 0) t (fun k => (a k).speedPid) x (fun k => (u k).acc) := by
  obtain ⟨me, r, hn, hr⟩ := hd.danger
  refine H.tracks _ (fun k => ?_)
  obtain ⟨r', hr'⟩ := H.aims k
  rwa [H.emergency hn hr k (Nat.zero_le k) _ hr'] at hr'

/-- **C123.** A lane follower that sees a danger in its first request covers at most a little more than its braking
distance, and does not get behind where it was by more than what it covers in half a period. -/
theorem C123_distance_partial {lane : List CtrPoint} {p : Phys.VehicleParams ℝ} {wb lr : ℝ} {b : SpeedBehaviorParam ℝ}
    {lights : List L} {cl : ℝ × ℝ → ℝ} {mi : (ℝ → Except Err ℝ) → ℝ → ℝ → Except Err ℝ}
    (hc : Conf.mk? lane p wb lr b lights cl mi = .ok c) (H : Follows c h t a ps u x) (h0 : 0 < h) (h1 : h ≤ 9 / 40)
    (hd : SeesAtOnce c p (a 0) (ps 0) (x 0)) (n : ℕ) : -(h * x n / 2) ≤ Loop.covered h x n ∧
    Loop.covered h x n ≤ x 0 ^ 2 / (2 * -p.accMin) - p.accMin / 4 + h * x 0 / 2 := by
  have := Loop.C123_braking (hd.tracks H) hd.fresh (gains_of (conf_speed hc) hd.vx) h0 h1 (by linarith [hd.acc.2.1])
    hd.acc.2.2 (by linarith [hd.far]) (by linarith [hd.room]) hd.pos.le n
  refine ⟨this.1, this.2.trans (le_of_eq ?_)⟩
  ring

/-- **C123 fails.** A lane follower does not stay where it has stopped: one that sees a danger in its first request brakes
and then rolls back to where it saw the danger, by nearly its braking distance. -/
theorem C123_false_follower {lane : List CtrPoint} {p : Phys.VehicleParams ℝ} {wb lr : ℝ} {b : SpeedBehaviorParam ℝ}
    {lights : List L} {cl : ℝ × ℝ → ℝ} {mi : (ℝ → Except Err ℝ) → ℝ → ℝ → Except Err ℝ}
    (hc : Conf.mk? lane p wb lr b lights cl mi = .ok c) (H : Follows c h t a ps u x) (h0 : 0 < h) (h1 : h ≤ 9 / 40)
    (hd : SeesAtOnce c p (a 0) (ps 0) (x 0)) :
    Tendsto (Loop.covered h x) atTop (𝓝 (h * x 0 / 2)) ∧
    ∃ n, (x 0 ^ 2 - (h * p.accMin) ^ 2) / (-2 * p.accMin) ≤ Loop.covered h x n := by
  obtain ⟨r1, n, r2⟩ := Loop.C123_false_back (hd.tracks H) hd.fresh (gains_of (conf_speed hc) hd.vx) h0 h1
    (by linarith [hd.acc.2.1]) hd.acc.2.2 (by linarith [hd.acc.1]) (by linarith [hd.far]) (by linarith [hd.room]) hd.pos
  refine ⟨r1, n, ?_⟩
  have e : (x 0 ^ 2 - (h * p.accMin) ^ 2) / (-2 * p.accMin) =
    (x 0 ^ 2 - (h * -p.accMin) ^ 2) / (2 * -p.accMin) := by
    rw [mul_neg, neg_sq]; congr 1; ring
  rw [e]
  exact r2

namespace Straight

/-- The first observation shows the danger, the others only the agent itself. -/
noncomputable def thenAlone (k : ℕ) (v : ℝ) : Dict Nat ObsState :=
  match k with
  | 0 => [(0, ⟨0, 0, 0, v, 0⟩), (1, ⟨5, 0, Real.pi, 10, 0⟩)]
  | _ + 1 => aloneAt v

theorem thenAlone_danger : ∃ r, speedRef (dotConf [0, 1, 2, 3, 4]).behavior 0 (thenAlone 0 10) = .ok (r, true) := by
  obtain ⟨pre, qs, t, post, me, my, lp, h1, h2, h3, h4, h5⟩ := saw [0, 1, 2, 3, 4]
  have hp : pre = [Call.init 0] ∧ qs = danger := by
    rcases pre with _ | ⟨q, _ | ⟨q', pre⟩⟩
    · simp at h1
    · simp only [List.cons_append, List.nil_append, List.cons.injEq, Call.ask.injEq] at h1
      exact ⟨by rw [h1.1], h1.2.1.1.symm⟩
    · have := congrArg List.length h1
      simp at this
  obtain ⟨rfl, rfl⟩ := hp
  have hme : me = 0 := by
    have : lastName [Call.init 0] = some (0 : Nat) := rfl
    rw [this] at h2; injection h2 with h2; exact h2.symm
  subst hme
  obtain ⟨v, e, h6, h7, -⟩ := C20_states (dotConf [0, 1, 2, 3, 4]).behavior 0 danger my h3
  have : e = true := h7.mpr h5
  subst this
  exact ⟨v, h6⟩

-- a car at 10 m/s that sees another one coming: it goes 6 m ahead, not more than 9 m, and comes back
example : ∃ (t : ℕ → ℝ) (a : ℕ → LF Nat) (ps : ℕ → Dict Nat ObsState) (u : ℕ → Cmd Nat) (x : ℕ → ℝ),
    Follows (dotConf [0, 1, 2, 3, 4]) (1 / 10) t a ps u x ∧ x 0 = 10 ∧
    SeesAtOnce (dotConf [0, 1, 2, 3, 4]) params (a 0) (ps 0) (x 0) ∧
    Tendsto (Loop.covered (1 / 10) x) atTop (𝓝 (1 / 2)) ∧ (∃ n, 6 ≤ Loop.covered (1 / 10) x n) ∧
    (∀ n, Loop.covered (1 / 10) x n ≤ 9) ∧
    Tendsto (fun n => ∑ k ∈ Finset.range n, 1 / 10 * x (k + 1)) atTop (𝓝 0) := by
  obtain ⟨t, a, ps, u, x, -, H, h1, h2, -, h3, -⟩ := drive_obs (fun k v (_ : Unit) => thenAlone k v) (fun q _ _ => q)
    (fun k v _ => by cases k <;> rfl) (LF.run (dotConf [0, 1, 2, 3, 4]) LF.init [Call.init 0]).1 rfl rfl 10 ()
  obtain ⟨r, hr⟩ := thenAlone_danger
  have hd : SeesAtOnce (dotConf [0, 1, 2, 3, 4]) params (a 0) (ps 0) (x 0) := by
    refine ⟨by rw [h1]; rfl, ⟨0, r, (h3 0).2, by rw [(h3 0).1, h2]; exact hr⟩, by norm_num [params],
      by norm_num [params], by rw [h2]; norm_num, by rw [h2]; norm_num [params], by rw [h2]; norm_num [params]⟩
  obtain ⟨h4, n, h5⟩ := C123_false_follower dotConf_mk H (by norm_num) (by norm_num) hd
  have h6 := C123_distance_partial dotConf_mk H (by norm_num) (by norm_num) hd
  rw [h2] at h4 h5
  refine ⟨t, a, ps, u, x, H, h2, hd, ?_, ⟨n, ?_⟩, fun n => ?_, ?_⟩
  · convert h4 using 2; norm_num
  · refine le_trans ?_ h5; norm_num [params]
  · refine (h6 n).2.trans ?_
    rw [h2]; norm_num [params]
  · -- the general law, which does not need the danger to be seen at once
    have hz : ∀ k, AimsAt (dotConf [0, 1, 2, 3, 4]) (a k) (ps k) 0 := by
      intro k
      obtain ⟨r', hr'⟩ := H.aims k
      rwa [H.emergency (h3 0).2 (r := r) (by rw [(h3 0).1, h2]; exact hr) k (Nat.zero_le k) _ hr'] at hr'
    have := C123_follower dotConf_mk H (by norm_num) (by norm_num) (by norm_num [params]) (by norm_num [params])
      hd.fresh 0 0 r (h3 0).2 (by rw [(h3 0).1, h2]; exact hr) (fun _ => 0) hz (by norm_num [params]) (fun n => by
        obtain ⟨_, _, b, -⟩ := Loop.brakes (hd.tracks H) hd.fresh (gains_of (conf_speed dotConf_mk) hd.vx) (by norm_num)
          (by norm_num) (by norm_num [params]) (by norm_num [params]) rfl (by rw [h2]; norm_num [params])
          (by rw [h2]; norm_num [params]) hd.pos.le n n le_rfl
        have e : ∑ k ∈ Finset.range n, (1 / 10 : ℝ) * (0 - x (k + 1)) = -∑ k ∈ Finset.range n, 1 / 10 * x (k + 1) := by
          rw [← Finset.sum_neg_distrib]
          exact Finset.sum_congr rfl (fun k _ => by ring)
        rw [e, abs_neg, abs_of_nonneg b.S0]
        refine b.SR.trans ?_
        rw [h2]; norm_num [params])
    simpa using this

end Straight
end Agents
end Verif
