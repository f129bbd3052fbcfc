import Verif.Sim.CommandLogProps
import Verif.Whole.FleetRunProps
import Verif.Eval.EfficiencyProps

/-!
# C164: the log of a simulation tells the motion

From one logged state to the next a model is driven by the logged command; collisions change velocities only.
-/

namespace Verif
namespace Whole

open Sim Coll

set_option linter.unusedSectionVars false

namespace Motion

variable {N K : Type} [DecidableEq N] [Field K] [LinearOrder K] {F : Iface N K} {R : Parts N K F.M F.S} {sc : Bool}

/-- After driving: `q` is kept, and the whole model of players that are named in none of the new reports. -/
def After {Q : Type} (q : F.M → Q) (d0 : Dict N F.M) (r0 : List (Report (world F sc R))) (d : Dict N F.M)
    (rs : List (Report (world F sc R))) : Prop :=
  ∃ new, rs = r0 ++ new ∧ ∀ n m2, Dict.get? d n = some m2 → ∃ m', Dict.get? d0 n = some m' ∧ q m2 = q m' ∧
    R.isDyn m2 = R.isDyn m' ∧ (R.isDyn m' = false → ¬ Named new n → m2 = m')

theorem after_closed {Q : Type} (q : F.M → Q) {dt : K} (hL : Lawful F R dt) (hm : ∀ m, q (F.mark m) = q m)
    (hv : ∀ m v w, q (F.setVelocity m v w) = q m) (t : K) (d0 : Dict N F.M) (r0 : List (Report (world F sc R))) :
    PostClosed (fun s : St (world F sc R) => s.players.Nodup ∧ s.time = t ∧ After q d0 r0 s.models s.reports) := by
  refine postClosed_models (Wd := world F sc R) t (fun d rs => After q d0 r0 d rs) ?_ ?_
  · rintro w p m o d rs rep hp - hr ⟨new, rfl, h⟩
    refine ⟨_, List.append_assoc _ _ _, fun n m2 hn => ?_⟩
    change Dict.get? (Dict.set d p (Coll.resolveEnv F t p m o.1 o.2).1) n = some m2 at hn
    change reportOf [p, F.envPlayer] [p] t (Coll.resolveEnv F t p m o.1 o.2).2 = .ok rep at hr
    rw [Dict.get?_set] at hn
    split at hn
    · rename_i e
      subst e
      injection hn with hn
      subst hn
      obtain ⟨m', h1, h2, h3, h4⟩ := h _ _ hp
      obtain ⟨hc, hdyn⟩ := resolveEnv_cases hL t p m o.1 o.2
      refine ⟨m', h1, ?_, hdyn.trans h3, fun hd hnot => ?_⟩
      · have := resolveEnv_kept (F := F) (fun x => q x = q m) (fun x hx => (hm x).trans hx)
          (fun x v w hx => (hv x v w).trans hx) t p m o.1 o.2 rfl
        exact this.trans h2
      · have hnew : ¬ Named new p := fun ⟨r, a, b⟩ => hnot ⟨r, List.mem_append_left _ a, b⟩
        have hdd : (world F sc R).isDyn ((world F sc R).resolveEnv w p m o t).1.2 = false := by
          change R.isDyn (Coll.resolveEnv F t p m o.1 o.2).1 = false
          rw [hdyn, h3, hd]
        rw [hdd] at hnot
        simp only [Bool.false_eq_true, if_false] at hnot
        rcases reportOf_cases hr with ⟨g1, -⟩ | ⟨d', -, g1⟩ | ⟨-, g1⟩
        · rcases hc with ⟨g2, -⟩ | ⟨-, ⟨e, g2⟩ | ⟨d', g2, -⟩⟩
          · rw [g2]; exact h4 hd hnew
          · rw [g1] at g2; cases g2
          · rw [g1] at g2; cases g2
        · exact absurd ⟨_, by rw [g1]; simp; right; rfl, by simp⟩ hnot
        · exact absurd ⟨_, by rw [g1]; simp; right; rfl, by simp⟩ hnot
    · obtain ⟨m', h1, h2, h3, h4⟩ := h _ _ hn
      exact ⟨m', h1, h2, h3, fun hd hnot => h4 hd fun ⟨r, a, b⟩ => hnot ⟨r, List.mem_append_left _ a, b⟩⟩
  · rintro w a b ma mb d rs rep hab ha hb hr ⟨new, rfl, h⟩
    refine ⟨_, List.append_assoc _ _ _, fun n m2 hn => ?_⟩
    change Dict.get? (Dict.set (Dict.set d a (Coll.resolve F sc t a ma b mb).1.1) b
      (Coll.resolve F sc t a ma b mb).1.2) n = some m2 at hn
    change reportOf [a, b] [a, b] t (Coll.resolve F sc t a ma b mb).2 = .ok rep at hr
    obtain ⟨hc, hda, hdb⟩ := resolve_cases (sc := sc) hL t a b hab ma mb
    have hk := resolve_kept (F := F) (sc := sc) (fun x => q x = q ma) (fun x => q x = q mb)
      (fun x hx => (hm x).trans hx) (fun x hx => (hm x).trans hx) (fun x v w hx => (hv x v w).trans hx)
      (fun x v w hx => (hv x v w).trans hx) t a b ma mb rfl rfl
    have hsame : (n = a ∨ n = b) → ¬ Named (new ++ rep.toList) n →
        (Coll.resolve F sc t a ma b mb).1 = (ma, mb) := by
      intro hnab hnot
      rcases reportOf_cases hr with ⟨h1, -⟩ | ⟨d', -, h1⟩ | ⟨-, h1⟩
      · rcases hc with ⟨h2, -⟩ | ⟨-, -, h2 | ⟨d, h2, -⟩⟩
        · exact h2
        · rw [h1] at h2; cases h2
        · rw [h1] at h2; cases h2
      · exact absurd ⟨_, by rw [h1]; simp; right; rfl, by simpa using hnab⟩ hnot
      · exact absurd ⟨_, by rw [h1]; simp; right; rfl, by simpa using hnab⟩ hnot
    have hold : ¬ Named (new ++ rep.toList) n → ¬ Named new n := fun hnot ⟨r, x, y⟩ =>
      hnot ⟨r, List.mem_append_left _ x, y⟩
    rw [Dict.get?_set] at hn
    split at hn
    · rename_i e
      subst e
      injection hn with hn
      subst hn
      obtain ⟨m', h1, h2, h3, h4⟩ := h _ _ hb
      refine ⟨m', h1, hk.2.trans h2, hdb.trans h3, fun hd hnot => ?_⟩
      rw [hsame (Or.inr rfl) hnot]
      exact h4 hd (hold hnot)
    · rw [Dict.get?_set] at hn
      split at hn
      · rename_i e
        subst e
        injection hn with hn
        subst hn
        obtain ⟨m', h1, h2, h3, h4⟩ := h _ _ ha
        refine ⟨m', h1, hk.1.trans h2, hda.trans h3, fun hd hnot => ?_⟩
        rw [hsame (Or.inl rfl) hnot]
        exact h4 hd (hold hnot)
      · obtain ⟨m', h1, h2, h3, h4⟩ := h _ _ hn
        exact ⟨m', h1, h2, h3, fun hd hnot => h4 hd (hold hnot)⟩

theorem removePlayer_cmds {Wd : World N K} {s s' : St Wd} {p : N} {g : Wd.G} (h : removePlayer s p g = .ok s') :
    s'.lastCmds = s.lastCmds := by
  unfold removePlayer at h
  split at h
  · obtain ⟨m, -, h⟩ := bind_ok.mp h
    obtain ⟨⟨w', b⟩, -, h⟩ := bind_ok.mp h
    dsimp only at h
    split at h
    · obtain ⟨lg, -, h⟩ := bind_ok.mp h
      obtain ⟨states, -, h⟩ := bind_ok.mp h
      injection h with h
      subst h
      rfl
    · injection h with h
      subst h
      rfl
  · injection h with h
    subst h
    rfl

theorem envObstacle_cmds {Wd : World N K} {s s' : St Wd} {p : N} {o : Wd.O} (h : envObstacle s p o = .ok s') :
    s'.lastCmds = s.lastCmds := by
  unfold envObstacle at h
  obtain ⟨m, hm, h⟩ := bind_ok.mp h
  obtain ⟨rep, hr, h⟩ := bind_ok.mp h
  injection h with h
  subst h
  cases rep with
  | none => rfl
  | some rep =>
    dsimp only
    split <;> rfl

theorem checkPair_cmds {Wd : World N K} {s s' : St Wd} {a b : N} (h : checkPair s a b = .ok s') :
    s'.lastCmds = s.lastCmds := by
  unfold checkPair at h
  obtain ⟨m1, h1, h⟩ := bind_ok.mp h
  obtain ⟨m2, h2, h⟩ := bind_ok.mp h
  dsimp only at h
  split at h
  · obtain ⟨rep, hr, h⟩ := bind_ok.mp h
    injection h with h
    subst h
    cases rep <;> rfl
  · injection h with h
    subst h
    rfl

theorem cmds_closed {Wd : World N K} (C : Dict N Wd.C) :
    PostClosed (fun s : St Wd => s.players.Nodup ∧ s.lastCmds = C) where
  nodup s h := h.1
  removed s p g s' h hr := by
    obtain ⟨-, -, e3⟩ := removePlayer_frame hr
    refine ⟨?_, (removePlayer_cmds hr).trans h.2⟩
    rcases e3 with e | e <;> rw [e]
    · exact h.1
    · exact h.1.erase p
  ended s b h := h
  traced s e h := h
  env s p o s' h _ _ he := ⟨by rw [envObstacle_players he]; exact h.1, (envObstacle_cmds he).trans h.2⟩
  pair s a b s' h _ _ _ hp := ⟨by rw [checkPair_players hp]; exact h.1, (checkPair_cmds hp).trans h.2⟩

variable [IsStrictOrderedRing K] [FloorSemiring K]

/-- One step: the model of a player is driven once, from the state at the beginning of the step and by the last
command; what marking and setting velocities keep is then as after driving, and so is the whole model of a player
that is not a moving obstacle and is named in no report of the time. -/
theorem step_motion {cfg : Cfg (world F sc R)} {Q : Type} (q : F.M → Q) (hL : Lawful F R cfg.dt)
    (hqm : ∀ m, q (F.mark m) = q m) (hqv : ∀ m v w, q (F.setVelocity m v w) = q m) {σ : Nat → St (world F sc R)}
    {j : Nat} (h0 : Ready (σ 0)) (hdt : 0 < cfg.dt) (hm : Dict.Wf cfg.missions) (hex : Exec cfg σ (j + 1)) (n : N)
    (hn : n ∈ (σ j).players) (m : F.M) (c : R.C) (hmod : Dict.get? (σ j).models n = some m)
    (hc : Dict.get? (σ (j + 1)).lastCmds n = some c) (m2 : F.M) (hm2 : Dict.get? (σ (j + 1)).models n = some m2) :
    ∃ v v' m', R.update v n m c cfg.dt = .ok (v', m') ∧ q m2 = q m' ∧
      (R.isDyn m' = false →
        (¬ ∃ r ∈ (σ (j + 1)).reports, r.atTime = ((j + 1 : Nat) : K) * cfg.dt ∧ n ∈ r.players) → m2 = m') := by
  have hinv := inv_of_exec (inv_zero cfg σ h0) hdt hm j (fun i hi => hex i (by omega))
  have hcan := canStep_of_inv hinv hdt hm
  have hstep := (hex j (by omega)).2
  have hse := stepEffect_of_inv hinv hdt hm hstep
  have htm : (σ j).time + cfg.dt = ((j + 1 : Nat) : K) * cfg.dt := by
    rw [hinv.time]; push_cast; ring
  -- the reports of the step carry its time
  have hstamp : ∀ new, (σ (j + 1)).reports = (σ j).reports ++ new →
      ∀ r ∈ new, r.atTime = ((j + 1 : Nat) : K) * cfg.dt := by
    obtain ⟨o, s1, s2, s3, s4, es, rem, rs, rfl, hsn, he, rfl, hr, hce, _⟩ := hse.eff
    intro new hnew r hrn
    have e : (σ (j + 1)).reports = (σ j).reports ++ rs := by
      rw [hce.reports]
      show s4.reports ++ rs = _
      rw [hr.reports]
      exact congrArg (· ++ rs) he.frame.reports
    rw [e] at hnew
    rw [← List.append_cancel_left hnew] at hrn
    rw [(hce.stamped r hrn).1]
    exact hr.time.trans htm
  unfold step at hstep
  obtain ⟨s1, h1, hrest⟩ := bind_ok.mp hstep
  obtain ⟨s2, h2, hpost⟩ := bind_ok.mp hrest
  obtain ⟨o, rfl, -⟩ := (safe_preUpdate cfg (σ j) (fun n hn => (hcan.can n hn).model) hcan.nodup).ok h1
  have hneed : need cfg ({ (σ j) with lastObs := o } : St (world F sc R)) = need cfg (σ j) := need_congr cfg rfl rfl
  obtain ⟨t2, es, he, hs2⟩ := (safe_update cfg { (σ j) with lastObs := o } hcan.nodup (by
    intro k hk
    rw [hneed]
    exact ⟨(hcan.can k hk).model, (hcan.can k hk).logger, (hcan.can k hk).cmd⟩)).ok h2
  have hnod : t2.players.Nodup := by rw [he.frame.players]; exact hcan.nodup
  have hp2 : s2.players = t2.players := by rw [hs2]
  have ht2 : s2.time = t2.time := by rw [hs2]
  have hm2' : s2.models = t2.models := by rw [hs2]
  have hr2 : s2.reports = t2.reports := by rw [hs2]
  have hc2 : s2.lastCmds = t2.lastCmds := by rw [hs2]
  have ha := ((after_closed q hL hqm hqv (((j + 1 : Nat) : K) * cfg.dt) t2.models t2.reports).postUpdate
    (cfg := cfg) (s := s2) ⟨by rw [← hp2] at hnod; exact hnod, by
      show s2.time + cfg.dt = _
      rw [ht2, he.frame.time]; exact htm, [], by rw [← hr2]; simp, fun k m2 hk =>
        ⟨m2, by rw [← hm2']; exact hk, rfl, rfl, fun _ _ => rfl⟩⟩ hpost).2.2
  have hcm := ((cmds_closed t2.lastCmds).postUpdate (cfg := cfg) (s := s2) ⟨by rw [← hp2] at hnod; exact hnod, hc2⟩
    hpost).2
  obtain ⟨new, e1, e2⟩ := ha
  have hre : t2.reports = (σ j).reports := he.frame.reports
  rw [hre] at e1
  obtain ⟨m', g1, g2, g3, g4⟩ := e2 n m2 hm2
  have : n ∈ es.map Prod.fst := by rw [he.names]; exact hn
  obtain ⟨x, hmem, rfl⟩ := List.mem_map.mp this
  obtain ⟨m'', lg, lg', q1, q2, ⟨w, w', q3⟩, q4, q5, q6, q7, -⟩ := he.steps x hmem
  rw [q2] at g1
  injection g1 with g1
  subst g1
  have q1' : Dict.get? (σ j).models x.1 = some x.2.2.1 := q1
  rw [hmod] at q1'
  injection q1' with q1'
  rw [hcm, q7] at hc
  injection hc with hc
  rw [← q1', hc] at q3
  obtain ⟨v', q3⟩ := world_update q3
  refine ⟨_, v', m'', q3, g2, fun hd hnot => g4 hd ?_⟩
  rintro ⟨r, h5, h6⟩
  exact hnot ⟨r, by rw [e1]; exact List.mem_append_right _ h5, hstamp new e1 r h5, h6⟩

/-- **C164.** In the log of every run: the state that follows another in the log of a player is that of the model
after it was driven, for one step, from the earlier state and by the logged command of that time, as far as collisions
are not concerned. Whatever marking a model as hit and setting its velocities keep (positions, say) is as after
driving. If the player is not a moving obstacle and no report of the time names it, its model is that after driving. -/
theorem C164_motion {cfg : Cfg (world F sc R)} {Q : Type} (q : F.M → Q) (hL : Lawful F R cfg.dt)
    (hqm : ∀ m, q (F.mark m) = q m) (hqv : ∀ m v w, q (F.setVelocity m v w) = q m) (hdt : 0 < cfg.dt)
    (hm : Dict.Wf cfg.missions) {fuel : Nat} {s s' : St (world F sc R)} {log log' : Dict N (PlayerLog (world F sc R))}
    (hf : Fresh s) (hrun : run cfg fuel s log = some (.ok (s', log'))) (n : N) (hn : n ∈ Dict.keys s.models) :
    ∃ pl, Dict.get? log' n = some pl ∧ pl.Valid ∧
      (∃ m, Dict.get? s.models n = some m ∧ pl.states.vs[0]? = some (R.getState m)) ∧
      ∀ (i : Nat) x y, pl.states.vs[i]? = some x → pl.states.vs[i + 1]? = some y →
        ∃ c m v v' m' m2, IsLatest pl.commands.samples ((i : K) * cfg.dt) c ∧ x = R.getState m ∧
          R.update v n m c cfg.dt = .ok (v', m') ∧ y = R.getState m2 ∧ q m2 = q m' ∧
          (R.isDyn m' = false → (¬ ∃ r ∈ s'.reports, r.atTime = ((i + 1 : Nat) : K) * cfg.dt ∧ n ∈ r.players) →
            m2 = m') := by
  obtain ⟨σ, J, hready, ⟨w, lg, hs⟩, hex, hend, hlog⟩ := C164_commands hf hdt hm hrun
  obtain ⟨pl, hpl, hval, hst, hnext, hdrv, -⟩ := hlog n hn
  refine ⟨pl, hpl, hval, ?_, ?_⟩
  · have hp : n ∈ (σ 0).players := by
      rw [hready.fresh.keys n, hs]; exact hn
    obtain ⟨m, c, -, h1, h2, -⟩ := hdrv 0 (Nat.zero_le _) hp
    rw [hs] at h1
    exact ⟨m, h1, h2⟩
  · intro i x y hx hy
    obtain ⟨hi, hp⟩ := hnext i y hy
    obtain ⟨m, c, -, h1, h2, h3, h4⟩ := hdrv i hi hp
    obtain ⟨-, m2, h5, rfl⟩ := hst (i + 1) y hy
    rw [hx] at h2
    injection h2 with h2
    obtain ⟨v, v', m', h6, h7, h8⟩ := step_motion q hL hqm hqv hready hdt hm (fun k hk => hex k (by omega)) n hp m c
      h1 h4 m2 h5
    refine ⟨c, m, v, v', m', m2, h3, h2, h6, rfl, h7, fun hd hnot => h8 hd ?_⟩
    rintro ⟨r, a, b⟩
    exact hnot ⟨r, by rw [← hend]; exact (reports_mono hready hex (by omega)).subset a, b⟩

/-! ## A concrete case: the collisions of `Toy` -/

namespace Crash

def result : St Toy.wd × Dict Nat (PlayerLog Toy.wd) :=
  match run Toy.cfg 20 Toy.start [] with
  | some (.ok r) => r
  | _ => (Toy.start, [])

theorem run_eq : run Toy.cfg 20 Toy.start [] = some (.ok result) := by
  have h : (match run Toy.cfg 20 Toy.start [] with | some (.ok _) => true | _ => false) = true := by
    decide +kernel
  unfold result
  cases hr : run Toy.cfg 20 Toy.start [] with
  | none => rw [hr] at h; cases h
  | some x =>
    cases x with
    | error e => rw [hr] at h; cases h
    | ok r => rfl

/-- Car 0 is hit at time 1: it is where it would have been anyway, but slower than after driving. -/
theorem told : (Dict.get? result.2 0).map (fun l => (l.states.vs.take 4, l.commands.samples.take 2)) =
    some ([(0, 4), (2, 9 / 2), (17 / 4, 1 / 2), (9 / 2, 1 / 2)], [(0, 1), (1, 0)]) := by
  decide +kernel

example := C164_motion (fun m : toyF.M => m.1) (Toy.lawful _) (fun _ => rfl) (fun _ _ _ => rfl) Toy.dt_pos Toy.wf
  Toy.fresh run_eq 0 (by decide)

end Crash

end Motion

namespace Motion

open Eval

variable {N : Type} [DecidableEq N] {F : Iface N ℝ} {R : Parts N ℝ F.M F.S} {sc : Bool}

theorem polyLen_le (d : ℝ) : ∀ ps : List (ℝ × ℝ),
    (∀ (i : Nat) x y, ps[i]? = some x → ps[i + 1]? = some y → ptDist x y ≤ d) → polyLen ps ≤ d * ((ps.length - 1 : Nat) : ℝ)
  | [], _ => by simp [polyLen]
  | [p], _ => by simp [polyLen]
  | p :: q :: r, h => by
    have h1 := h 0 p q rfl rfl
    have h2 := polyLen_le d (q :: r) fun i x y hx hy => h (i + 1) x y (by simpa using hx) (by simpa using hy)
    simp only [polyLen, List.length_cons, Nat.add_sub_cancel] at h2 ⊢
    push_cast at h2 ⊢
    linarith

/-- **C164.** If no update of a model takes it further than `v` times the time step, then in the log no two consecutive
positions of the player are further apart than that, and the distance travelled is at most `v` times the time
that the player spent in the simulation, however often it was hit. -/
theorem C164_distance {cfg : Cfg (world F sc R)} (hL : Lawful F R cfg.dt) (hdt : 0 < cfg.dt)
    (hm : Dict.Wf cfg.missions) {fuel : Nat} {s s' : St (world F sc R)} {log log' : Dict N (PlayerLog (world F sc R))}
    (hf : Fresh s) (hrun : run cfg fuel s log = some (.ok (s', log'))) (n : N) (hn : n ∈ Dict.keys s.models)
    (pos : R.X → ℝ × ℝ) (hqm : ∀ m, pos (R.getState (F.mark m)) = pos (R.getState m))
    (hqv : ∀ m v w, pos (R.getState (F.setVelocity m v w)) = pos (R.getState m)) (v : ℝ)
    (hv : ∀ u m c u' m', R.update u n m c cfg.dt = .ok (u', m') →
      ptDist (pos (R.getState m)) (pos (R.getState m')) ≤ v * cfg.dt) :
    ∃ pl d T, Dict.get? log' n = some pl ∧ distanceTraveled pos pl.states = .ok d ∧
      pl.states.ts.getLast? = some T ∧ d ≤ v * T ∧
      ∀ (i : Nat) x y, pl.states.vs[i]? = some x → pl.states.vs[i + 1]? = some y → ptDist (pos x) (pos y) ≤ v * cfg.dt := by
  obtain ⟨pl, hpl, hval, ⟨m0, -, hfirst⟩, hnext⟩ := C164_motion (fun m => pos (R.getState m)) hL hqm hqv hdt hm hf hrun n hn
  have hstep : ∀ (i : Nat) x y, pl.states.vs[i]? = some x → pl.states.vs[i + 1]? = some y →
      ptDist (pos x) (pos y) ≤ v * cfg.dt := by
    intro i x y hx hy
    obtain ⟨c, m, u, u', m', m2, -, rfl, h1, rfl, h2, -⟩ := hnext i x y hx hy
    have h2' : pos (R.getState m2) = pos (R.getState m') := h2
    rw [h2']
    exact hv _ _ _ _ _ h1
  obtain ⟨σ, J, -, -, -, -, hlog⟩ := C23_log hf hdt hm hrun
  obtain ⟨pl', k, last, hpl', -, -, hts, -⟩ := hlog n hn
  rw [hpl] at hpl'
  injection hpl' with hpl'
  subst hpl'
  have hlen : pl.states.vs.length = last + 1 := by
    have h1 := hval.1.1
    rw [hts] at h1
    simpa using h1.symm
  refine ⟨pl, _, (last : ℝ) * cfg.dt, hpl, C60_length pos pl.states hval.1, ?_, ?_, hstep⟩
  · rw [hts, List.range_succ]
    simp
  · have h := polyLen_le (v * cfg.dt) (pl.states.vs.map pos) (by
      intro i x y hx hy
      rw [List.getElem?_map] at hx hy
      obtain ⟨x', hx', rfl⟩ := Option.map_eq_some_iff.mp hx
      obtain ⟨y', hy', rfl⟩ := Option.map_eq_some_iff.mp hy
      exact hstep i x' y' hx' hy')
    rw [List.length_map, hlen, Nat.add_sub_cancel] at h
    linarith

/-- The hypotheses are met by the bicycle of `C99`, which rides at 5 m/s. -/
example : ∃ s' log' pl d T, run bikeCfg 5 bikeStart [] = some (.ok (s', log')) ∧ Dict.get? log' 1 = some pl ∧
    distanceTraveled (fun x : VehicleState ℝ => (x.x, x.y)) pl.states = .ok d ∧ pl.states.ts.getLast? = some T ∧ d ≤ 5 * T := by
  obtain ⟨s', log', hrun, -⟩ := bike_run
  have hfresh : Fresh bikeStart := ⟨rfl, rfl, rfl, rfl, rfl, by simp [Dict.Wf, bikeStart, Dict.keys],
    by simp [bikeStart], by simp [bikeStart, Dict.keys], rfl⟩
  have hup : ∀ v n m c v' m', bikeParts.update v n m c 3 = .ok (v', m') →
      m.1 = ⟨0, 0, 0, 5, 0⟩ ∧ m' = (⟨15, 0, 0, 5, 0⟩, m.2) := by
    intro v n m c v' m' h
    change (if m.1 = ⟨0, 0, 0, 5, 0⟩ then Except.ok (v, (⟨15, 0, 0, 5, 0⟩, m.2)) else Except.error Err.value) =
      Except.ok (v', m') at h
    split at h
    · rename_i hm
      injection h with h
      injection h with _ h
      exact ⟨hm, h.symm⟩
    · cases h
  have hL : Lawful bikeF bikeParts bikeCfg.dt := by
    refine ⟨fun _ => rfl, fun _ _ _ => rfl, fun v n m c v' m' h => ?_, fun _ => rfl, fun _ _ _ => rfl,
      fun _ _ _ _ _ _ _ => rfl⟩
    rw [(hup v n m c v' m' h).2]
  obtain ⟨pl, d, T, h1, h2, h3, h4, -⟩ := C164_distance hL (by norm_num) (by simp [Dict.Wf, Dict.keys]) hfresh hrun 1
    (by simp [bikeStart, Dict.keys]) (fun x : VehicleState ℝ => (x.x, x.y)) (fun _ => rfl) (fun _ _ _ => rfl) 5
    (fun u m c u' m' h => by
      obtain ⟨e1, e2⟩ := hup u 1 m c u' m' h
      rw [e2]
      change ptDist (m.1.x, m.1.y) _ ≤ _
      rw [e1]
      unfold ptDist
      rw [Real.sqrt_le_left (by norm_num)]
      norm_num)
  exact ⟨s', log', pl, d, T, hrun, h1, h2, h3, h4⟩

end Motion

namespace Fleet

open Phys

variable {N : Type} [DecidableEq N] {A : Allowed} {E : Surroundings N} {tab : Tableau ℝ} {pace : Pace A E.G.S}
  {R : Crew N E.G.S} {sc : Bool}

/-- Specification: place and heading in a state. -/
def spotOf : AnyState → (ℝ × ℝ) × ℝ
  | .car s => ((s.x, s.y), s.psi)
  | .dynamic s => ((s.x, s.y), s.psi)
  | .pedestrian s => ((s.x, s.y), s.psi)
  | .drive s => ((s.x, s.y), s.psi)
  | .craft s => ((s.x, s.y), s.psi)
  | .ship s => ((s.x, s.y), s.psi)
  | .rocket s => ((s.x, s.y), s.psi)
  | .obstacle s => ((s.x, s.y), s.psi)

theorem spotOf_setVelocity (m : Machine A) (v : ℝ × ℝ) (w : ℝ) : spotOf (m.setVelocity v w).state = spotOf m.state := by
  cases m <;> rfl

/-- **C164.** With the models of the library: the state that follows another in the log of a player has the place and
heading that the model has after its own update from the earlier state by the logged command; it is the state after the update
unless a report of the time names the player or the player is a moving obstacle. -/
theorem C164_fleet {cfg : Cfg (world (fleet E A) sc (parts E A tab pace R))} (hdt : 0 < cfg.dt)
    (hm : Dict.Wf cfg.missions) {fuel : Nat} {s s' : St (world (fleet E A) sc (parts E A tab pace R))}
    {log log' : Dict N (PlayerLog (world (fleet E A) sc (parts E A tab pace R)))} (hf : Fresh s)
    (hrun : run cfg fuel s log = some (.ok (s', log'))) (n : N) (hn : n ∈ Dict.keys s.models) :
    ∃ pl, Dict.get? log' n = some pl ∧ ∀ (i : Nat) x y, pl.states.vs[i]? = some x → pl.states.vs[i + 1]? = some y →
      ∃ (c : AnyCmd) (m : Body A E.G.S) (k k2 : Machine A),
        IsLatest pl.commands.samples ((i : ℝ) * cfg.dt) c ∧ x = m.machine.state ∧
        m.machine.update tab m.collided (pace m c cfg.dt) c = .ok k ∧ y = k2.state ∧ spotOf y = spotOf k.state ∧
        (m.machine.isObstacle = false →
          (¬ ∃ r ∈ s'.reports, r.atTime = ((i + 1 : Nat) : ℝ) * cfg.dt ∧ n ∈ r.players) → k2 = k) := by
  obtain ⟨pl, h1, -, -, h2⟩ := Motion.C164_motion (F := fleet E A) (fun m => spotOf m.machine.state) (C161_lawful cfg.dt) (fun _ => rfl)
    (fun m v w => spotOf_setVelocity m.machine v w) hdt hm hf hrun n hn
  refine ⟨pl, h1, fun i x y hx hy => ?_⟩
  obtain ⟨c, m, v, v', m', m2, g1, rfl, g2, rfl, g3, g4⟩ := h2 i x y hx hy
  obtain ⟨k, g5, rfl⟩ := parts_update g2
  refine ⟨c, m, k, m2.machine, g1, rfl, g5, rfl, g3, fun hd hnot => ?_⟩
  have := g4 (by
    change k.isObstacle = false
    rw [kind_obstacle (kind_update g5)]; exact hd) hnot
  rw [this]

-- the hypotheses are met by the car of `Racing`
example : ∃ s1 l1 pl, run Parked.cfg 5 Racing.start [] = some (.ok (s1, l1)) ∧ Dict.get? l1 0 = some pl := by
  obtain ⟨s1, l1, h1, -, -⟩ := Racing.driven
  obtain ⟨pl, h2, -⟩ := C164_fleet Racing.dt_pos Racing.missions_wf Racing.fresh h1 0 (by simp [Racing.start, Dict.keys])
  exact ⟨s1, l1, pl, h1, h2⟩

end Fleet
end Whole
end Verif
