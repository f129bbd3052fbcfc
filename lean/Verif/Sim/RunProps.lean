import Verif.Sim.Toy

/-!
# C21, C22, C23: termination, reason for stopping, and the log

`Exec cfg σ j` says that `σ 0, …, σ j` are the successive states of the loop of `Simulator.run`.
-/

set_option linter.unusedSectionVars false

namespace Verif
namespace Sim

variable {N K : Type} [DecidableEq N] [Field K] [LinearOrder K] [IsStrictOrderedRing K]
  [FloorSemiring K] {Wd : World N K}

/-! ## Reports -/

/-- The reports recorded so far: ordered in time, not later than the current time, and the first
collision time is their minimum. -/
structure RepInv (s : St Wd) : Prop where
  ordered : (s.reports.map (·.atTime)).Pairwise (· ≤ ·)
  past : ∀ r ∈ s.reports, r.atTime ≤ s.time
  none_iff : s.firstColl = none ↔ s.reports = []
  isMin : ∀ t, s.firstColl = some t → (∃ r ∈ s.reports, r.atTime = t) ∧ ∀ r ∈ s.reports, t ≤ r.atTime

theorem repInv_coll {s s' : St Wd} {rs : List (Report Wd)} {evs : List (Event Wd)}
    (h : RepInv s) (hc : CollEffect s s' rs evs) : RepInv s' := by
  refine ⟨?_, ?_, ?_, ?_⟩
  · rw [hc.reports, List.map_append, List.pairwise_append]
    refine ⟨h.ordered, ?_, ?_⟩
    · rw [List.pairwise_map]
      apply List.pairwise_of_forall_mem_list
      intro a ha b hb
      rw [(hc.stamped a ha).1, (hc.stamped b hb).1]
    · intro a ha b hb
      obtain ⟨r, hr, rfl⟩ := List.mem_map.mp ha
      obtain ⟨q, hq, rfl⟩ := List.mem_map.mp hb
      rw [(hc.stamped q hq).1]; exact h.past r hr
  · intro r hr
    rw [hc.time]
    rw [hc.reports] at hr
    rcases List.mem_append.mp hr with hr | hr
    · exact h.past r hr
    · exact (hc.stamped r hr).1.le
  · rw [hc.first, hc.reports]
    cases rs with
    | nil => simp [h.none_iff]
    | cons a l => simp
  · intro t ht
    rw [hc.first] at ht
    rw [hc.reports]
    cases rs with
    | nil =>
      simp only [List.isEmpty_nil, if_true] at ht
      simpa using h.isMin t ht
    | cons a l =>
      simp only [List.isEmpty_cons, Bool.false_eq_true, if_false, Option.some.injEq] at ht
      subst ht
      cases hf : s.firstColl with
      | none =>
        have h0 := h.none_iff.mp hf
        simp only [h0, List.nil_append, minOpt]
        refine ⟨⟨a, by simp, (hc.stamped a (by simp)).1⟩, ?_⟩
        intro r hr; rw [(hc.stamped r hr).1]
      | some u =>
        obtain ⟨⟨r0, hr0, he⟩, hmin⟩ := h.isMin u hf
        have hu : u ≤ s.time := he ▸ h.past r0 hr0
        simp only [minOpt, min_eq_left hu]
        refine ⟨⟨r0, by simp [hr0], he⟩, ?_⟩
        intro r hr
        rcases List.mem_append.mp hr with hr | hr
        · exact hmin r hr
        · rw [(hc.stamped r hr).1]; exact hu

theorem repInv_step {cfg : Cfg Wd} {s s' : St Wd} (hdt : 0 < cfg.dt) (h : RepInv s)
    (hse : StepEffect cfg s s') : RepInv s' := by
  obtain ⟨o, s1, s2, s3, s4, es, rem, rs, rfl, _, he, rfl, hr, hc, _⟩ := hse.eff
  have hrep : s4.reports = s.reports := by
    rw [hr.reports]; simp only; exact he.frame.reports
  have hfc : s4.firstColl = s.firstColl := by
    rw [hr.firstColl]; simp only; exact he.frame.firstColl
  have htm : s4.time = s.time + cfg.dt := by rw [hr.time]
  refine repInv_coll (s := { s4 with terminated := terminationCondition cfg s4 }) ?_ hc
  refine ⟨by simp only [hrep]; exact h.ordered, ?_, by simp only [hrep, hfc]; exact h.none_iff,
    by simp only [hrep, hfc]; exact h.isMin⟩
  simp only [hrep, htm]
  intro r hmem
  have := h.past r hmem
  linarith

theorem repInv_fresh {s : St Wd} (h : Fresh s) : RepInv s := by
  refine ⟨by rw [h.reports]; simp, by rw [h.reports]; simp, by rw [h.reports, h.firstColl]; simp, ?_⟩
  intro t ht; rw [h.firstColl] at ht; cases ht

theorem repInv_of_exec {cfg : Cfg Wd} {σ : Nat → St Wd} (h0 : Ready (σ 0)) (hdt : 0 < cfg.dt)
    (hm : Dict.Wf cfg.missions) : ∀ j, Exec cfg σ j → RepInv (σ j) := by
  intro j
  induction j with
  | zero => intro _; exact repInv_fresh h0.fresh
  | succ j ih =>
    intro hex
    have hex' : Exec cfg σ j := fun i hi => hex i (by omega)
    exact repInv_step hdt (ih hex')
      (stepEffect_of_inv (inv_of_exec (inv_zero cfg σ h0) hdt hm j hex') hdt hm (hex j (by omega)).2)

/-! ## The loop and executions -/

theorem loop_ok {cfg : Cfg Wd} : ∀ (fuel : Nat) (s s' : St Wd), loop cfg fuel s = some (.ok s') →
    ∃ (σ : Nat → St Wd) (j : Nat), σ 0 = s ∧ j ≤ fuel ∧ Exec cfg σ j ∧ σ j = s' ∧
      s'.terminated = true := by
  intro fuel
  induction fuel with
  | zero =>
    intro s s' h
    unfold loop at h
    split at h
    · injection h with h; injection h with h
      subst h
      exact ⟨fun _ => s, 0, rfl, le_refl _, fun i hi => by omega, rfl, by assumption⟩
    · cases h
  | succ fuel ih =>
    intro s s' h
    unfold loop at h
    by_cases ht : s.terminated = true
    · rw [if_pos ht] at h
      injection h with h; injection h with h
      subst h
      exact ⟨fun _ => s, 0, rfl, by omega, fun i hi => by omega, rfl, ht⟩
    · rw [if_neg ht] at h
      cases hs : step cfg s with
      | error e => rw [hs] at h; injection h with h; cases h
      | ok s1 =>
        rw [hs] at h
        obtain ⟨σ, j, h0, hj, hex, hend, hterm⟩ := ih s1 s' h
        refine ⟨fun i => match i with | 0 => s | i + 1 => σ i, j + 1, rfl, by omega, ?_, hend, hterm⟩
        intro i hi
        cases i with
        | zero => exact ⟨by simpa using ht, by simp only [h0]; exact hs⟩
        | succ i => exact hex i (by omega)

theorem loop_error {cfg : Cfg Wd} : ∀ (fuel : Nat) (s : St Wd) (e : SimErr),
    loop cfg fuel s = some (.error e) →
    ∃ (σ : Nat → St Wd) (j : Nat), σ 0 = s ∧ Exec cfg σ j ∧ step cfg (σ j) = .error e := by
  intro fuel
  induction fuel with
  | zero =>
    intro s e h
    unfold loop at h
    split at h
    · injection h with h; cases h
    · cases h
  | succ fuel ih =>
    intro s e h
    unfold loop at h
    by_cases ht : s.terminated = true
    · rw [if_pos ht] at h; injection h with h; cases h
    · rw [if_neg ht] at h
      cases hs : step cfg s with
      | error e' =>
        rw [hs] at h; injection h with h; injection h with h
        subst h
        exact ⟨fun _ => s, 0, rfl, fun i hi => by omega, hs⟩
      | ok s1 =>
        rw [hs] at h
        obtain ⟨σ, j, h0, hex, hend⟩ := ih s1 e h
        refine ⟨fun i => match i with | 0 => s | i + 1 => σ i, j + 1, rfl, ?_, hend⟩
        intro i hi
        cases i with
        | zero => exact ⟨by simpa using ht, by simp only [h0]; exact hs⟩
        | succ i => exact hex i (by omega)

theorem loop_none {cfg : Cfg Wd} : ∀ (fuel : Nat) (s : St Wd), loop cfg fuel s = none →
    ∃ (σ : Nat → St Wd), σ 0 = s ∧ Exec cfg σ fuel ∧ (σ fuel).terminated = false := by
  intro fuel
  induction fuel with
  | zero =>
    intro s h
    unfold loop at h
    split at h
    · cases h
    · rename_i ht
      exact ⟨fun _ => s, rfl, fun i hi => by omega, by simpa using ht⟩
  | succ fuel ih =>
    intro s h
    unfold loop at h
    by_cases ht : s.terminated = true
    · rw [if_pos ht] at h; cases h
    · rw [if_neg ht] at h
      cases hs : step cfg s with
      | error e' => rw [hs] at h; cases h
      | ok s1 =>
        rw [hs] at h
        obtain ⟨σ, h0, hex, hend⟩ := ih s1 h
        refine ⟨fun i => match i with | 0 => s | i + 1 => σ i, rfl, ?_, hend⟩
        intro i hi
        cases i with
        | zero => exact ⟨by simpa using ht, by simp only [h0]; exact hs⟩
        | succ i => exact hex i (by omega)

theorem loop_mono {cfg : Cfg Wd} : ∀ (fuel : Nat) (s : St Wd) (r : Except SimErr (St Wd)),
    loop cfg fuel s = some r → ∀ fuel', fuel ≤ fuel' → loop cfg fuel' s = some r := by
  intro fuel
  induction fuel with
  | zero =>
    intro s r h fuel' _
    unfold loop at h
    split at h
    · rename_i ht
      cases fuel' <;> (unfold loop; rw [if_pos ht]; exact h)
    · cases h
  | succ fuel ih =>
    intro s r h fuel' hf
    obtain ⟨f, rfl⟩ : ∃ f, fuel' = f + 1 := ⟨fuel' - 1, by omega⟩
    unfold loop at h ⊢
    by_cases ht : s.terminated = true
    · rw [if_pos ht] at h ⊢; exact h
    · rw [if_neg ht] at h ⊢
      cases hs : step cfg s with
      | error e => rw [hs] at h; exact h
      | ok s1 => rw [hs] at h; exact ih s1 r h f (by omega)

/-- `run` returned: it went through the loop and wrote the log. -/
theorem run_ok_init {cfg : Cfg Wd} {fuel : Nat} {s s' : St Wd} {log log' : Dict N (PlayerLog Wd)}
    (hf : Fresh s) (hrun : run cfg fuel s log = some (.ok (s', log'))) :
    ∃ (σ : Nat → St Wd) (J : Nat), Ready (σ 0) ∧ initLoop s s.players = .ok (σ 0) ∧
      (∃ w logger, σ 0 = { s with w := w, logger := logger }) ∧ Exec cfg σ (J + 1) ∧
      σ (J + 1) = s' ∧ s'.terminated = true ∧
      writeLog s'.logger (Dict.keys s'.models) log = .ok log' := by
  unfold run at hrun
  cases hi : initLoop s s.players with
  | error e => rw [hi] at hrun; injection hrun with hrun; cases hrun
  | ok s1 =>
    rw [hi] at hrun
    simp only at hrun
    obtain ⟨hready, w, lg, hs1⟩ := (safe_initLoop_fresh s hf).ok hi
    cases hl : loop cfg fuel s1 with
    | none => rw [hl] at hrun; cases hrun
    | some r =>
      rw [hl] at hrun
      cases r with
      | error e => injection hrun with hrun; cases hrun
      | ok s2 =>
        simp only at hrun
        cases hw : writeLog s2.logger (Dict.keys s2.models) log with
        | error e => rw [hw] at hrun; injection hrun with hrun; cases hrun
        | ok l =>
          rw [hw] at hrun; injection hrun with hrun; injection hrun with hrun
          injection hrun with e1 e2
          subst e1 e2
          obtain ⟨σ, j, h0, hj, hex, hend, hterm⟩ := loop_ok fuel s1 s2 hl
          have hjpos : j ≠ 0 := by
            rintro rfl
            rw [← hend, h0, hready.fresh.terminated] at hterm; cases hterm
          obtain ⟨J, rfl⟩ : ∃ J, j = J + 1 := ⟨j - 1, by omega⟩
          exact ⟨σ, J, by rw [h0]; exact hready, by rw [h0], ⟨w, lg, by rw [h0, hs1]⟩, hex, hend, hterm, hw⟩

theorem run_ok {cfg : Cfg Wd} {fuel : Nat} {s s' : St Wd} {log log' : Dict N (PlayerLog Wd)}
    (hf : Fresh s) (hrun : run cfg fuel s log = some (.ok (s', log'))) :
    ∃ (σ : Nat → St Wd) (J : Nat), Ready (σ 0) ∧
      (∃ w logger, σ 0 = { s with w := w, logger := logger }) ∧ Exec cfg σ (J + 1) ∧
      σ (J + 1) = s' ∧ s'.terminated = true ∧
      writeLog s'.logger (Dict.keys s'.models) log = .ok log' := by
  obtain ⟨σ, J, h1, -, h2⟩ := run_ok_init hf hrun
  exact ⟨σ, J, h1, h2⟩

/-! ## C22: why a run stops -/

/-- The reasons to stop at the end of a step, at time `t`: reports `reports` have been recorded
before this step ended and `left` are the players still in the simulation. -/
def MustStop (cfg : Cfg Wd) (t : K) (reports : List (Report Wd)) (left : List N) : Prop :=
  cfg.maxSimTime < t ∨ (∃ r ∈ reports, r.atTime + cfg.afterCollision < t) ∨ left = [] ∨
    (cfg.missions ≠ [] ∧ ∀ p g, (p, g) ∈ cfg.missions → p ∉ left)

theorem terminationCondition_iff (cfg : Cfg Wd) (s : St Wd) (h : RepInv s) :
    terminationCondition cfg s = true ↔ MustStop cfg s.time s.reports s.players := by
  have hcoll : collTimer cfg s = true ↔
      ∃ r ∈ s.reports, r.atTime + cfg.afterCollision < s.time := by
    unfold collTimer
    cases hf : s.firstColl with
    | none => simp [h.none_iff.mp hf]
    | some u =>
      obtain ⟨⟨r0, hr0, he⟩, hmin⟩ := h.isMin u hf
      simp only [decide_eq_true_iff]
      constructor
      · intro hu; exact ⟨r0, hr0, by rw [he]; exact hu⟩
      · rintro ⟨r, hr, hlt⟩
        have := hmin r hr
        linarith
  have hmis : ((!cfg.missions.isEmpty) = true ∧
      (Dict.keys cfg.missions).all (fun p => decide (p ∉ s.players)) = true) ↔
      (cfg.missions ≠ [] ∧ ∀ p g, (p, g) ∈ cfg.missions → p ∉ s.players) := by
    simp only [Bool.not_eq_true', List.isEmpty_eq_false_iff, ne_eq, List.all_eq_true,
      decide_eq_true_iff, Dict.keys, List.mem_map]
    constructor
    · rintro ⟨h1, h2⟩
      exact ⟨h1, fun p g hpg => h2 p ⟨(p, g), hpg, rfl⟩⟩
    · rintro ⟨h1, h2⟩
      exact ⟨h1, by rintro p ⟨⟨q, g⟩, hqg, rfl⟩; exact h2 q g hqg⟩
  unfold terminationCondition MustStop
  simp only
  rw [← hmis, ← hcoll]
  have hemp : s.players.isEmpty = true ↔ s.players = [] := List.isEmpty_iff
  rw [← hemp]
  have hmx : decide (cfg.maxSimTime < s.time) = true ↔ cfg.maxSimTime < s.time := decide_eq_true_iff
  conv_rhs => rw [← hmx]
  generalize decide (cfg.maxSimTime < s.time) = b1
  generalize collTimer cfg s = b2
  generalize s.players.isEmpty = b3
  generalize (Dict.keys cfg.missions).all (fun p => decide (p ∉ s.players)) = b4
  generalize (!cfg.missions.isEmpty) = b5
  cases b1 <;> cases b2 <;> cases b3 <;> cases b4 <;> cases b5 <;> simp

theorem terminated_iff {cfg : Cfg Wd} {σ : Nat → St Wd} {j : Nat} (h0 : Ready (σ 0))
    (hdt : 0 < cfg.dt) (hm : Dict.Wf cfg.missions) (hex : Exec cfg σ (j + 1)) :
    (σ (j + 1)).terminated = true ↔
      MustStop cfg (((j + 1 : Nat) : K) * cfg.dt) (σ j).reports (σ (j + 1)).players := by
  have hex' : Exec cfg σ j := fun i hi => hex i (by omega)
  have hinv := inv_of_exec (inv_zero cfg σ h0) hdt hm j hex'
  have hinv1 := inv_of_exec (inv_zero cfg σ h0) hdt hm (j + 1) hex
  have hrep := repInv_of_exec h0 hdt hm j hex'
  have hse := stepEffect_of_inv hinv hdt hm (hex j (by omega)).2
  obtain ⟨o, s1, s2, s3, s4, es, rem, rs, rfl, _, he, rfl, hr, hc, _⟩ := hse.eff
  have hrp : s4.reports = (σ j).reports := by
    rw [hr.reports]; simp only; exact he.frame.reports
  have hfc : s4.firstColl = (σ j).firstColl := by
    rw [hr.firstColl]; simp only; exact he.frame.firstColl
  have htm : s4.time = ((j + 1 : Nat) : K) * cfg.dt := by
    rw [← hinv1.time, hc.time]
  have hpl : s4.players = (σ (j + 1)).players := hc.players.symm
  have h4 : RepInv s4 := by
    refine ⟨by rw [hrp]; exact hrep.ordered, ?_, by rw [hrp, hfc]; exact hrep.none_iff,
      by rw [hrp, hfc]; exact hrep.isMin⟩
    intro r hmem
    rw [hrp] at hmem
    have := hrep.past r hmem
    rw [hr.time]; simp only; linarith
  rw [hc.terminated]
  simp only
  rw [terminationCondition_iff cfg s4 h4, hrp, htm, hpl]

/-- **C22.** In a fresh run the loop ends at the end of a step exactly if there is a reason to stop
there: the time exceeds the maximum, or exceeds the time of some recorded collision by more than
the extra time, or nobody is left, or there are missions and nobody with a mission is left. -/
theorem C22_stop_iff {cfg : Cfg Wd} {σ : Nat → St Wd} {j : Nat} (h0 : Ready (σ 0))
    (hdt : 0 < cfg.dt) (hm : Dict.Wf cfg.missions) (hex : Exec cfg σ (j + 1)) :
    (σ (j + 1)).terminated = true ↔
      MustStop cfg (((j + 1 : Nat) : K) * cfg.dt) (σ j).reports (σ (j + 1)).players :=
  terminated_iff h0 hdt hm hex

example : MustStop Toy.cfg (((6 + 1 : Nat) : ℚ) * Toy.cfg.dt) (Toy.σ 6).reports (Toy.σ 7).players ∧
    ¬ MustStop Toy.cfg (((5 + 1 : Nat) : ℚ) * Toy.cfg.dt) (Toy.σ 5).reports (Toy.σ 6).players := by
  have h := Toy.story
  refine ⟨(C22_stop_iff Toy.ready Toy.dt_pos Toy.wf Toy.exec).mp h.2.2.2.2.2.2.2.2.1, ?_⟩
  rw [← C22_stop_iff Toy.ready Toy.dt_pos Toy.wf (Toy.exec_le (by decide)), h.2.2.2.2.2.2.2.1]
  decide

/-- **C22.** When `run` returns, the last executed step is the first one at whose end there was a
reason to stop. -/
theorem C22_first_stop {cfg : Cfg Wd} {fuel : Nat} {s s' : St Wd}
    {log log' : Dict N (PlayerLog Wd)} (hf : Fresh s) (hdt : 0 < cfg.dt)
    (hm : Dict.Wf cfg.missions) (hrun : run cfg fuel s log = some (.ok (s', log'))) :
    ∃ (σ : Nat → St Wd) (J : Nat), Ready (σ 0) ∧
      (∃ w logger, σ 0 = { s with w := w, logger := logger }) ∧ Exec cfg σ (J + 1) ∧
      σ (J + 1) = s' ∧
      MustStop cfg (((J + 1 : Nat) : K) * cfg.dt) (σ J).reports s'.players ∧
      ∀ i, i < J →
        ¬ MustStop cfg (((i + 1 : Nat) : K) * cfg.dt) (σ i).reports (σ (i + 1)).players := by
  obtain ⟨σ, J, hready, h0, hex, hend, hterm, _⟩ := run_ok hf hrun
  refine ⟨σ, J, hready, h0, hex, hend, ?_, ?_⟩
  · have := (terminated_iff hready hdt hm hex).mp (by rw [hend]; exact hterm)
    rw [hend] at this; exact this
  · intro i hi hms
    have hex' : Exec cfg σ (i + 1) := fun k hk => hex k (by omega)
    have := (terminated_iff hready hdt hm hex').mpr hms
    rw [(hex (i + 1) (by omega)).1] at this; cases this

example := C22_first_stop Toy.fresh Toy.dt_pos Toy.wf Toy.run_eq

/-! ## C21: termination -/

/-- **C21.** For `dt > 0` a fresh run has an outcome (returns or raises) as soon as the number of
steps times `dt` exceeds the maximum time, whatever agents, models, goals and collisions do. -/
theorem C21_finishes (cfg : Cfg Wd) (s : St Wd) (log : Dict N (PlayerLog Wd)) (fuel : Nat)
    (hf : Fresh s) (hdt : 0 < cfg.dt) (hm : Dict.Wf cfg.missions) (hpos : 0 < fuel)
    (hfuel : cfg.maxSimTime < (fuel : K) * cfg.dt) : (run cfg fuel s log).isSome := by
  unfold run
  cases hi : initLoop s s.players with
  | error e => rfl
  | ok s1 =>
    simp only
    obtain ⟨hready, w, lg, hs1⟩ := (safe_initLoop_fresh s hf).ok hi
    cases hl : loop cfg fuel s1 with
    | none =>
      exfalso
      obtain ⟨σ, h0, hex, hend⟩ := loop_none fuel s1 hl
      obtain ⟨J, rfl⟩ : ∃ J, fuel = J + 1 := ⟨fuel - 1, by omega⟩
      rw [← h0] at hready
      have := (terminated_iff hready hdt hm hex).mpr (Or.inl hfuel)
      rw [hend] at this; cases this
    | some r =>
      cases r with
      | error e => rfl
      | ok s2 =>
        simp only
        cases writeLog s2.logger (Dict.keys s2.models) log <;> rfl

example : (run Toy.cfg 13 Toy.start []).isSome :=
  C21_finishes Toy.cfg Toy.start [] 13 Toy.fresh Toy.dt_pos Toy.wf (by decide) (by decide +kernel)

/-- **C21.** There is one number of steps after which the outcome is settled and no longer changes. -/
theorem C21_terminates (cfg : Cfg Wd) (s : St Wd) (log : Dict N (PlayerLog Wd))
    (hf : Fresh s) (hdt : 0 < cfg.dt) (hm : Dict.Wf cfg.missions) :
    ∃ n r, ∀ fuel, n ≤ fuel → run cfg fuel s log = some r := by
  let n := ⌈cfg.maxSimTime / cfg.dt⌉₊ + 1
  have hn : cfg.maxSimTime < (n : K) * cfg.dt := by
    rw [← div_lt_iff₀ hdt]
    have h1 : cfg.maxSimTime / cfg.dt ≤ (⌈cfg.maxSimTime / cfg.dt⌉₊ : K) := Nat.le_ceil _
    have h2 : ((⌈cfg.maxSimTime / cfg.dt⌉₊ : Nat) : K) < (n : K) := by
      exact_mod_cast Nat.lt_succ_self _
    exact lt_of_le_of_lt h1 h2
  have hsome := C21_finishes cfg s log n hf hdt hm (by omega) hn
  obtain ⟨r, hr⟩ := Option.isSome_iff_exists.mp hsome
  refine ⟨n, r, ?_⟩
  intro fuel hfuel
  unfold run at hr ⊢
  cases hi : initLoop s s.players with
  | error e => rw [hi] at hr; exact hr
  | ok s1 =>
    rw [hi] at hr
    simp only at hr ⊢
    cases hl : loop cfg n s1 with
    | none => rw [hl] at hr; cases hr
    | some q =>
      rw [loop_mono n s1 q hl fuel hfuel]
      rw [hl] at hr; exact hr

example := C21_terminates Toy.cfg Toy.start [] Toy.fresh Toy.dt_pos Toy.wf

/-- **C21.** A run never goes on past the first step whose time exceeds the maximum. -/
theorem C21_latest {cfg : Cfg Wd} {fuel : Nat} {s s' : St Wd} {log log' : Dict N (PlayerLog Wd)}
    (hf : Fresh s) (hdt : 0 < cfg.dt) (hm : Dict.Wf cfg.missions)
    (hrun : run cfg fuel s log = some (.ok (s', log'))) :
    s'.time = cfg.dt ∨ s'.time ≤ cfg.maxSimTime + cfg.dt := by
  obtain ⟨σ, J, hready, _, hex, h3, h4, h5⟩ := C22_first_stop hf hdt hm hrun
  have ht := (inv_of_exec (inv_zero cfg σ hready) hdt hm (J + 1) hex).time
  rw [h3] at ht
  rcases Nat.eq_zero_or_pos J with rfl | hJ
  · left; rw [ht]; simp
  · right
    have := h5 (J - 1) (by omega)
    have hle : ¬ cfg.maxSimTime < ((J - 1 + 1 : Nat) : K) * cfg.dt := fun h => this (Or.inl h)
    rw [Nat.sub_add_cancel hJ, not_lt] at hle
    rw [ht]; push_cast; linarith

example : Toy.result.1.time = Toy.cfg.dt ∨ Toy.result.1.time ≤ Toy.cfg.maxSimTime + Toy.cfg.dt :=
  C21_latest Toy.fresh Toy.dt_pos Toy.wf Toy.run_eq

/-! ## C23: the log -/

/-- The log read from a logger. -/
def PlayerLogger.seqs (lg : PlayerLogger Wd) : PlayerLog Wd :=
  ⟨⟨lg.states.ts, lg.states.vs⟩, ⟨lg.commands.ts, lg.commands.vs⟩, ⟨lg.extra.ts, lg.extra.vs⟩,
    ⟨lg.info.ts, lg.info.vs⟩⟩

/-- All four sequences of a log are valid sampled sequences. -/
def PlayerLog.Valid (l : PlayerLog Wd) : Prop :=
  l.states.Valid ∧ l.commands.Valid ∧ l.extra.Valid ∧ l.info.Valid

theorem logInv_asSequence {cfg : Cfg Wd} {σ : Nat → St Wd} {n : N} {k x : Nat}
    {lg : PlayerLogger Wd} (hdt : 0 < cfg.dt) (h : LogInv cfg σ n k x lg) :
    lg.asSequence = .ok lg.seqs ∧ lg.seqs.Valid := by
  have g1 : lg.states.ts.Pairwise (· < ·) := by rw [h.states]; exact grid_pairwise hdt _
  have gc : (cgrid cfg.dt (period cfg) k).Pairwise (· < ·) :=
    (grid_pairwise hdt k).sublist (cgrid_sublist_grid _ _ _)
  have g2 : lg.commands.ts.Pairwise (· < ·) := by rw [h.commands]; exact gc
  have g3 : lg.info.ts.Pairwise (· < ·) := by rw [h.info]; exact gc
  have g4 : lg.extra.ts.Pairwise (· < ·) := gc.sublist h.extra
  have l1 : lg.states.ts.length = lg.states.vs.length := by
    rw [h.states, h.statesLen, length_grid]
  refine ⟨?_, ⟨l1, g1⟩, ⟨h.commandsLen.symm, g2⟩, ⟨h.extraLen.symm, g4⟩, ⟨h.infoLen.symm, g3⟩⟩
  have e1 : lg.states.asSequence = .ok ⟨lg.states.ts, lg.states.vs⟩ :=
    Seq.mk?_of_valid _ _ l1 g1
  have e2 : lg.commands.asSequence = .ok ⟨lg.commands.ts, lg.commands.vs⟩ :=
    Seq.mk?_of_valid _ _ h.commandsLen.symm g2
  have e3 : lg.extra.asSequence = .ok ⟨lg.extra.ts, lg.extra.vs⟩ :=
    Seq.mk?_of_valid _ _ h.extraLen.symm g4
  have e4 : lg.info.asSequence = .ok ⟨lg.info.ts, lg.info.vs⟩ :=
    Seq.mk?_of_valid _ _ h.infoLen.symm g3
  unfold PlayerLogger.asSequence
  rw [e1, e2, e3, e4]
  rfl

theorem safe_writeLog (logger : Dict N (PlayerLogger Wd)) (l : List N) :
    ∀ log : Dict N (PlayerLog Wd),
      (∀ n ∈ l, ∃ lg, Dict.get? logger n = some lg ∧ lg.asSequence = .ok lg.seqs) →
      Safe (fun log' => (∀ n ∈ l, ∃ lg, Dict.get? logger n = some lg ∧
          Dict.get? log' n = some lg.seqs) ∧
        ∀ n, n ∉ l → Dict.get? log' n = Dict.get? log n) (writeLog logger l log) := by
  induction l with
  | nil => intro log _; exact ⟨by simp, fun _ _ => rfl⟩
  | cons n ns ih =>
    intro log h
    obtain ⟨lg, h1, h2⟩ := h n (by simp)
    unfold writeLog
    refine (safe_lookup h1).bind ?_
    rintro lg rfl
    simp only [h2]
    refine (ih _ (fun x hx => h x (by simp [hx]))).mono ?_
    rintro log' ⟨a, b⟩
    refine ⟨?_, ?_⟩
    · intro x hx
      by_cases hx' : x ∈ ns
      · exact a x hx'
      · have : x = n := by simpa [hx'] using hx
        subst this
        exact ⟨lg, h1, by rw [b x hx']; exact Dict.get?_set_self _ _ _⟩
    · intro x hx
      simp only [List.mem_cons, not_or] at hx
      rw [b x hx.2]; exact Dict.get?_set_ne _ (Ne.symm hx.1) _

theorem logger_of_inv {cfg : Cfg Wd} {σ : Nat → St Wd} {j : Nat} (h : Inv cfg σ j) (n : N)
    (hn : n ∈ Dict.keys (σ j).models) : ∃ lg k x, Dict.get? (σ j).logger n = some lg ∧
      LogInv cfg σ n k x lg ∧ ((x = 0 ∧ k = j ∧ n ∈ (σ j).players) ∨
        (x = 1 ∧ 0 < k ∧ k ≤ j ∧ n ∈ (σ (k - 1)).players ∧
          ∀ i, k ≤ i → i ≤ j → n ∉ (σ i).players)) := by
  by_cases hp : n ∈ (σ j).players
  · obtain ⟨lg, h1, h2, _⟩ := h.active n hp
    exact ⟨lg, j, 0, h1, h2, Or.inl ⟨rfl, rfl, hp⟩⟩
  · obtain ⟨lg, k, h1, h2, h3, h4, h5, h6⟩ := h.gone n (by rw [← h.keys]; exact hn) hp
    exact ⟨lg, k, 1, h3, h4, Or.inr ⟨rfl, h1, h2, h5, h6⟩⟩

/-- **C23.** A fresh run never ends with an exception from the logger or with a missing key: an
exception can only come from an agent, a model, a goal or a collision resolution. -/
theorem C23_never_raises {cfg : Cfg Wd} {fuel : Nat} {s : St Wd} {log : Dict N (PlayerLog Wd)}
    {e : SimErr} (hf : Fresh s) (hdt : 0 < cfg.dt) (hm : Dict.Wf cfg.missions)
    (hrun : run cfg fuel s log = some (.error e)) : ∃ u, e = .user u := by
  unfold run at hrun
  have hsafe := safe_initLoop_fresh s hf
  cases hi : initLoop s s.players with
  | error e' =>
    rw [hi] at hrun; injection hrun with hrun; injection hrun with hrun
    subst hrun
    exact hsafe.error hi
  | ok s1 =>
    rw [hi] at hrun
    simp only at hrun
    obtain ⟨hready, w, lg, hs1⟩ := hsafe.ok hi
    cases hl : loop cfg fuel s1 with
    | none => rw [hl] at hrun; cases hrun
    | some r =>
      rw [hl] at hrun
      cases r with
      | error e' =>
        injection hrun with hrun; injection hrun with hrun
        subst hrun
        obtain ⟨σ, j, h0, hex, herr⟩ := loop_error fuel s1 e' hl
        rw [← h0] at hready
        have hinv := inv_of_exec (inv_zero cfg σ hready) hdt hm j hex
        exact (safe_step cfg (σ j) (canStep_of_inv hinv hdt hm) hdt).error herr
      | ok s2 =>
        simp only at hrun
        obtain ⟨σ, j, h0, hj, hex, hend, hterm⟩ := loop_ok fuel s1 s2 hl
        rw [← h0] at hready
        have hinv := inv_of_exec (inv_zero cfg σ hready) hdt hm j hex
        have hw := safe_writeLog s2.logger (Dict.keys s2.models) log (by
          intro n hn
          rw [← hend] at hn ⊢
          obtain ⟨lg, k, x, h1, h2, _⟩ := logger_of_inv hinv n hn
          exact ⟨lg, h1, (logInv_asSequence hdt h2).1⟩)
        cases hw' : writeLog s2.logger (Dict.keys s2.models) log with
        | error e' =>
          rw [hw'] at hrun; injection hrun with hrun; injection hrun with hrun
          subst hrun
          exact hw.error hw'
        | ok l => rw [hw'] at hrun; injection hrun with hrun; cases hrun

/-- The example with agents that raise. -/
example : ∃ u, SimErr.user .runtime = .user u := by
  let wd : World Nat ℚ := { Toy.wd with getCommands := fun _ _ _ => .error .runtime }
  let cfg : Cfg wd := ⟨1 / 2, 1, 6, 1, [(0, (3 : ℚ))]⟩
  let s : St wd := ⟨[(0, (0 : ℚ))], [0], fun _ => 0, 0, false, [], none, ⟨[], 0⟩, none, [], [], []⟩
  refine C23_never_raises (Wd := wd) (cfg := cfg) (fuel := 20) (s := s) (log := [])
    ⟨rfl, rfl, rfl, rfl, rfl, ?_, ?_, fun n => Iff.rfl, rfl⟩ ?_ ?_ rfl
  · unfold Dict.Wf; decide
  · decide
  · decide +kernel
  · unfold Dict.Wf; decide

theorem log_of_run {cfg : Cfg Wd} {fuel : Nat} {s s' : St Wd} {log log' : Dict N (PlayerLog Wd)}
    (hf : Fresh s) (hdt : 0 < cfg.dt) (hm : Dict.Wf cfg.missions)
    (hrun : run cfg fuel s log = some (.ok (s', log'))) :
    ∃ (σ : Nat → St Wd) (J : Nat), Ready (σ 0) ∧ initLoop s s.players = .ok (σ 0) ∧
      (∃ w logger, σ 0 = { s with w := w, logger := logger }) ∧ Exec cfg σ (J + 1) ∧
      σ (J + 1) = s' ∧
      ∀ n ∈ Dict.keys s.models, ∃ pl k last, Dict.get? log' n = some pl ∧ pl.Valid ∧
        ((n ∈ s'.players ∧ k = J + 1 ∧ last = J) ∨
          (0 < k ∧ k ≤ J + 1 ∧ n ∈ (σ (k - 1)).players ∧ n ∉ (σ k).players ∧ n ∉ s'.players ∧
            last = k)) ∧
        pl.states.ts = (List.range (last + 1)).map (fun i : Nat => (i : K) * cfg.dt) ∧
        (∀ i, i ≤ last → ∃ m, Dict.get? (σ i).models n = some m ∧
          pl.states.vs[i]? = some (Wd.getState m)) ∧
        pl.commands.ts = ((List.range k).filter (fun i => decide (period cfg ∣ i))).map
          (fun i : Nat => (i : K) * cfg.dt) ∧
        pl.info.ts = pl.commands.ts ∧ pl.extra.ts.Sublist pl.commands.ts := by
  obtain ⟨σ, J, hready, hinit, h0, hex, hend, hterm, hw⟩ := run_ok_init hf hrun
  refine ⟨σ, J, hready, hinit, h0, hex, hend, ?_⟩
  have hinv := inv_of_exec (inv_zero cfg σ hready) hdt hm (J + 1) hex
  have hwl := (safe_writeLog s'.logger (Dict.keys s'.models) log (by
    intro n hn
    rw [← hend] at hn ⊢
    obtain ⟨lg, k, x, h1, h2, _⟩ := logger_of_inv hinv n hn
    exact ⟨lg, h1, (logInv_asSequence hdt h2).1⟩)).ok hw
  intro n hn
  have hn' : n ∈ Dict.keys s'.models := by
    obtain ⟨w, lg, h0⟩ := h0
    rw [← hend, hinv.keys, h0]; exact hn
  obtain ⟨lg', h3, h4⟩ := hwl.1 n hn'
  rw [← hend] at h3 hn'
  obtain ⟨lg, k, x, h1, h2, hcase⟩ := logger_of_inv hinv n hn'
  rw [h3] at h1
  injection h1 with h1
  subst h1
  have hlast : ∃ last, k + x = last + 1 ∧ ((n ∈ s'.players ∧ k = J + 1 ∧ last = J) ∨
      (0 < k ∧ k ≤ J + 1 ∧ n ∈ (σ (k - 1)).players ∧ n ∉ (σ k).players ∧ n ∉ s'.players ∧
        last = k)) := by
    rcases hcase with ⟨rfl, rfl, hp⟩ | ⟨rfl, h5, h6, h7, h8⟩
    · exact ⟨J, rfl, Or.inl ⟨by rw [← hend]; exact hp, rfl, rfl⟩⟩
    · exact ⟨k, rfl, Or.inr ⟨h5, h6, h7, h8 k (le_refl _) h6, by
        rw [← hend]; exact h8 (J + 1) h6 (le_refl _), rfl⟩⟩
  obtain ⟨last, hl, hcase⟩ := hlast
  refine ⟨lg'.seqs, k, last, h4, (logInv_asSequence hdt h2).2, hcase, ?_, ?_, h2.commands, ?_, ?_⟩
  · have := h2.states
    rw [hl] at this; exact this
  · intro i hi
    exact h2.statesVs i (by omega)
  · exact h2.info.trans h2.commands.symm
  · show lg'.extra.ts.Sublist lg'.commands.ts
    rw [h2.commands]; exact h2.extra

/-- **C23.** When a fresh run returns after the steps `0, …, J`, the log of every player consists of
valid sequences. A player still in the simulation has its states logged exactly at `0, dt, …, J*dt`;
a player that left at the end of step `k - 1` has them logged exactly at `0, dt, …, k*dt`. The state
logged for step `i` is the state the model had at the beginning of step `i`. Commands and
computation times are logged exactly at the steps divisible by the period before leaving, extra
objects at some of those. -/
theorem C23_log {cfg : Cfg Wd} {fuel : Nat} {s s' : St Wd} {log log' : Dict N (PlayerLog Wd)}
    (hf : Fresh s) (hdt : 0 < cfg.dt) (hm : Dict.Wf cfg.missions)
    (hrun : run cfg fuel s log = some (.ok (s', log'))) :
    ∃ (σ : Nat → St Wd) (J : Nat), Ready (σ 0) ∧
      (∃ w logger, σ 0 = { s with w := w, logger := logger }) ∧ Exec cfg σ (J + 1) ∧
      σ (J + 1) = s' ∧
      ∀ n ∈ Dict.keys s.models, ∃ pl k last, Dict.get? log' n = some pl ∧ pl.Valid ∧
        ((n ∈ s'.players ∧ k = J + 1 ∧ last = J) ∨
          (0 < k ∧ k ≤ J + 1 ∧ n ∈ (σ (k - 1)).players ∧ n ∉ (σ k).players ∧ n ∉ s'.players ∧
            last = k)) ∧
        pl.states.ts = (List.range (last + 1)).map (fun i : Nat => (i : K) * cfg.dt) ∧
        (∀ i, i ≤ last → ∃ m, Dict.get? (σ i).models n = some m ∧
          pl.states.vs[i]? = some (Wd.getState m)) ∧
        pl.commands.ts = ((List.range k).filter (fun i => decide (period cfg ∣ i))).map
          (fun i : Nat => (i : K) * cfg.dt) ∧
        pl.info.ts = pl.commands.ts ∧ pl.extra.ts.Sublist pl.commands.ts := by
  obtain ⟨σ, J, h1, -, h2⟩ := log_of_run hf hdt hm hrun
  exact ⟨σ, J, h1, h2⟩

example := C23_log Toy.fresh Toy.dt_pos Toy.wf Toy.run_eq

/-- In the example car 2 is logged at 0, 1/2 and 1, car 0 up to 3. -/
example : (Dict.get? Toy.result.2 2).map (fun l => l.states.ts) = some [0, 1 / 2, 1] ∧
    (Dict.get? Toy.result.2 0).map (fun l => l.states.ts) = some [0, 1 / 2, 1, 3 / 2, 2, 5 / 2, 3] ∧
    (Dict.get? Toy.result.2 0).map (fun l => l.commands.ts) = some [0, 1, 2, 3] ∧
    (Dict.get? Toy.result.2 0).map (fun l => l.extra.ts) = some [1] := by
  decide +kernel

end Sim
end Verif
