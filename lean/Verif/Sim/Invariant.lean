import Verif.Sim.StepLemmas
import Mathlib.Algebra.Order.Floor.Defs
import Mathlib.Algebra.Order.Floor.Semiring
import Mathlib.Tactic.Ring
import Mathlib.Tactic.Push
import Mathlib.Tactic.FieldSimp

/-!
# The invariant of a fresh run

`σ i` is the state of the simulator before step `i`.
-/

set_option linter.unusedSectionVars false

namespace Verif
namespace Sim

variable {N K : Type} [DecidableEq N] [Field K] [LinearOrder K] [IsStrictOrderedRing K]
  [FloorSemiring K] {Wd : World N K}

/-- The first `j` steps of an execution: the loop body was run in `σ 0`, …, `σ (j-1)`, each time
without an exception, and the loop condition held before each of them. -/
def Exec (cfg : Cfg Wd) (σ : Nat → St Wd) (j : Nat) : Prop :=
  ∀ i, i < j → (σ i).terminated = false ∧ step cfg (σ i) = .ok (σ (i + 1))

/-- Number of steps between two requests for commands. -/
def period (cfg : Cfg Wd) : Nat := max 1 ⌈cfg.dtCommands / cfg.dt⌉₊

/-- The times of the first `j` steps. -/
def grid (dt : K) (j : Nat) : List K := (List.range j).map (fun i : Nat => (i : K) * dt)

/-- The times of the steps before step `j` at which commands are requested. -/
def cgrid (dt : K) (m j : Nat) : List K :=
  ((List.range j).filter (fun i => decide (m ∣ i))).map (fun i : Nat => (i : K) * dt)

omit [FloorSemiring K] [LinearOrder K] [IsStrictOrderedRing K] [DecidableEq N] in
theorem grid_succ (dt : K) (j : Nat) : grid dt (j + 1) = grid dt j ++ [(j : K) * dt] := by
  simp [grid, List.range_succ]

theorem cgrid_succ_of_dvd (dt : K) {m j : Nat} (h : m ∣ j) :
    cgrid dt m (j + 1) = cgrid dt m j ++ [(j : K) * dt] := by
  simp [cgrid, List.range_succ, List.filter_append, h]

theorem cgrid_succ_of_not_dvd (dt : K) {m j : Nat} (h : ¬ m ∣ j) :
    cgrid dt m (j + 1) = cgrid dt m j := by
  simp [cgrid, List.range_succ, List.filter_append, h]

theorem lt_of_mem_grid {dt : K} (hdt : 0 < dt) {j : Nat} {u : K} (h : u ∈ grid dt j) :
    u < (j : K) * dt := by
  simp only [grid, List.mem_map, List.mem_range] at h
  obtain ⟨i, hi, rfl⟩ := h
  exact mul_lt_mul_of_pos_right (by exact_mod_cast hi) hdt

theorem cgrid_sublist_grid (dt : K) (m j : Nat) : (cgrid dt m j).Sublist (grid dt j) :=
  List.Sublist.map _ List.filter_sublist

theorem grid_pairwise {dt : K} (hdt : 0 < dt) (j : Nat) : (grid dt j).Pairwise (· < ·) := by
  unfold grid
  rw [List.pairwise_map]
  refine List.Pairwise.imp ?_ List.pairwise_lt_range
  intro a b hab
  exact mul_lt_mul_of_pos_right (by exact_mod_cast hab) hdt

theorem length_grid (dt : K) (j : Nat) : (grid dt j).length = j := by simp [grid]

/-- What the logger of a player contains: `k` steps, plus the final state if the player left. -/
structure LogInv (cfg : Cfg Wd) (σ : Nat → St Wd) (n : N) (k x : Nat) (lg : PlayerLogger Wd) :
    Prop where
  states : lg.states.ts = grid cfg.dt (k + x)
  statesLen : lg.states.vs.length = k + x
  statesVs : ∀ i, i < k + x → ∃ m, Dict.get? (σ i).models n = some m ∧
    lg.states.vs[i]? = some (Wd.getState m)
  commands : lg.commands.ts = cgrid cfg.dt (period cfg) k
  commandsLen : lg.commands.vs.length = lg.commands.ts.length
  info : lg.info.ts = cgrid cfg.dt (period cfg) k
  infoLen : lg.info.vs.length = lg.info.ts.length
  extra : lg.extra.ts.Sublist (cgrid cfg.dt (period cfg) k)
  extraLen : lg.extra.vs.length = lg.extra.ts.length

/-- The invariant before step `j`. -/
structure Inv (cfg : Cfg Wd) (σ : Nat → St Wd) (j : Nat) : Prop where
  time : (σ j).time = (j : K) * cfg.dt
  nodup : (σ j).players.Nodup
  keys : Dict.keys (σ j).models = Dict.keys (σ 0).models
  sub : ∀ n ∈ (σ j).players, n ∈ Dict.keys (σ 0).models
  cmdTs : (σ j).lastCmdTs =
    if j = 0 then none else some (((period cfg * ((j - 1) / period cfg) : Nat) : K) * cfg.dt)
  active : ∀ n ∈ (σ j).players, ∃ lg, Dict.get? (σ j).logger n = some lg ∧
    LogInv cfg σ n j 0 lg ∧
    (0 < j → ∃ c, lg.commands.vs.getLast? = some c ∧ Dict.get? (σ j).lastCmds n = some c)
  gone : ∀ n ∈ Dict.keys (σ 0).models, n ∉ (σ j).players → ∃ lg k, 0 < k ∧ k ≤ j ∧
    Dict.get? (σ j).logger n = some lg ∧ LogInv cfg σ n k 1 lg ∧
    n ∈ (σ (k - 1)).players ∧ ∀ i, k ≤ i → i ≤ j → n ∉ (σ i).players

theorem period_pos (cfg : Cfg Wd) : 0 < period cfg := lt_of_lt_of_le Nat.zero_lt_one (le_max_left _ _)

/-- Whether commands are requested is decided by divisibility. -/
theorem need_iff {cfg : Cfg Wd} {σ : Nat → St Wd} {j : Nat} (h : Inv cfg σ j)
    (hdt : 0 < cfg.dt) : need cfg (σ j) = true ↔ period cfg ∣ j := by
  unfold need
  rw [h.cmdTs]
  rcases Nat.eq_zero_or_pos j with rfl | hj
  · simp
  · rw [if_neg (by omega)]
    simp only [decide_eq_true_iff]
    rw [h.time]
    have hp := period_pos cfg
    set m := period cfg with hm
    set q := (j - 1) / m with hq
    have hmod := Nat.div_add_mod (j - 1) m
    have hlt := Nat.mod_lt (j - 1) hp
    rw [← hq] at hmod
    have hle : m * q ≤ j := by omega
    have hsub : (j : K) * cfg.dt - ((m * q : Nat) : K) * cfg.dt = ((j - m * q : Nat) : K) * cfg.dt := by
      rw [Nat.cast_sub hle]; ring
    rw [hsub, ← div_le_iff₀ hdt, ← Nat.ceil_le]
    constructor
    · intro hc
      have h1 : m ≤ j - m * q := by
        have h0 : 1 ≤ j - m * q := by omega
        have := max_le h0 hc
        rw [hm]; exact this
      have : j = m * (q + 1) := by rw [Nat.mul_succ]; omega
      exact ⟨q + 1, this⟩
    · rintro ⟨r, hr⟩
      have h1 : m ≤ j - m * q := by
        have : q < r := by
          by_contra hcon
          push Not at hcon
          have := Nat.mul_le_mul_left m hcon
          omega
        have := Nat.mul_le_mul_left m this
        rw [Nat.mul_succ] at this
        omega
      exact le_trans (le_max_right 1 _) h1

/-- The time of the last request before step `j + 1`. -/
theorem cmdTs_succ (m j : Nat) :
    m * (j / m) = if m ∣ j then j else if j = 0 then 0 else m * ((j - 1) / m) := by
  split
  · rename_i h; exact Nat.mul_div_cancel' h
  · rename_i h
    have hj : j ≠ 0 := by rintro rfl; exact h (dvd_zero _)
    rw [if_neg hj]
    congr 1
    obtain ⟨i, rfl⟩ : ∃ i, j = i + 1 := ⟨j - 1, by omega⟩
    rw [Nat.add_sub_cancel, Nat.succ_div, if_neg h, Nat.add_zero]

theorem canStep_of_inv {cfg : Cfg Wd} {σ : Nat → St Wd} {j : Nat} (h : Inv cfg σ j)
    (hdt : 0 < cfg.dt) (hm : Dict.Wf cfg.missions) : CanStep cfg (σ j) := by
  refine ⟨h.nodup, hm, ?_⟩
  intro n hn
  obtain ⟨lg, h1, h2, h3⟩ := h.active n hn
  refine ⟨by rw [h.keys]; exact h.sub n hn, ⟨lg, h1, ?_, ?_⟩, ?_⟩
  · intro u hu
    rw [h2.states] at hu
    rw [h.time]; exact lt_of_mem_grid hdt hu
  · intro _
    have hc : ∀ u ∈ cgrid cfg.dt (period cfg) j, u < (σ j).time := by
      intro u hu
      rw [h.time]; exact lt_of_mem_grid hdt ((cgrid_sublist_grid _ _ _).subset hu)
    refine ⟨?_, ?_, ?_⟩
    · rw [h2.commands]; exact hc
    · rw [h2.info]; exact hc
    · exact fun u hu => hc u (h2.extra.subset hu)
  · intro hneed
    have hj : 0 < j := by
      rcases Nat.eq_zero_or_pos j with rfl | hj
      · have := (need_iff h hdt).mpr (dvd_zero _)
        rw [this] at hneed; cases hneed
      · exact hj
    obtain ⟨c, _, hc⟩ := h3 hj
    exact (Dict.mem_keys_iff _ _).mpr ⟨c, hc⟩

/-- A step that ended normally has the effect described by `StepEffect`. -/
theorem stepEffect_of_inv {cfg : Cfg Wd} {σ : Nat → St Wd} {j : Nat} (h : Inv cfg σ j)
    (hdt : 0 < cfg.dt) (hm : Dict.Wf cfg.missions) (hs : step cfg (σ j) = .ok (σ (j + 1))) :
    StepEffect cfg (σ j) (σ (j + 1)) :=
  (safe_step cfg (σ j) (canStep_of_inv h hdt hm) hdt).ok hs

/-- The players that stay. -/
theorem players_succ {cfg : Cfg Wd} {s s' : St Wd} (h : StepEffect cfg s s') :
    ∀ n ∈ s'.players, n ∈ s.players := by
  obtain ⟨o, s1, s2, s3, s4, es, rem, rs, rfl, _, he, rfl, hr, hc, _⟩ := h.eff
  intro n hn
  rw [hc.players] at hn
  simp only at hn
  rw [hr.players] at hn
  have := (List.mem_filter.mp hn).1
  simp only at this
  rw [he.frame.players] at this
  exact this

/-- Appending the state of step `j` to a logger. -/
theorem logInv_step {cfg : Cfg Wd} {σ : Nat → St Wd} {j : Nat} {n : N} {lg lg' : PlayerLogger Wd}
    (h : LogInv cfg σ n j 0 lg) (m : Wd.M) (needed : Bool)
    (hn : needed = true ↔ period cfg ∣ j) (ht : (σ j).time = (j : K) * cfg.dt)
    (hm : Dict.get? (σ j).models n = some m)
    (hst : lg'.states = Builder.push lg.states (σ j).time (Wd.getState m))
    (h1 : needed = true → (∃ c i, lg'.commands = Builder.push lg.commands (σ j).time c ∧
        lg'.info = Builder.push lg.info (σ j).time i) ∧
      (lg'.extra = lg.extra ∨ ∃ e, lg'.extra = Builder.push lg.extra (σ j).time e))
    (h2 : needed = false → lg'.commands = lg.commands ∧ lg'.info = lg.info ∧
      lg'.extra = lg.extra) : LogInv cfg σ n (j + 1) 0 lg' := by
  have hstates : lg'.states.ts = grid cfg.dt (j + 1 + 0) := by
    rw [hst]; simp only [Builder.push]
    rw [h.states, ht, Nat.add_zero, Nat.add_zero, grid_succ]
  have hlen : lg'.states.vs.length = j + 1 + 0 := by
    rw [hst]; simp only [Builder.push, List.length_append, h.statesLen, List.length_singleton]
  have hvs : ∀ i, i < j + 1 + 0 → ∃ m, Dict.get? (σ i).models n = some m ∧
      lg'.states.vs[i]? = some (Wd.getState m) := by
    intro i hi
    rw [hst]
    simp only [Builder.push]
    rcases Nat.lt_or_ge i j with hij | hij
    · obtain ⟨m', a, b⟩ := h.statesVs i (by omega)
      refine ⟨m', a, ?_⟩
      rw [List.getElem?_append_left (by rw [h.statesLen]; omega)]
      exact b
    · have : i = j := by omega
      subst this
      refine ⟨m, hm, ?_⟩
      have hl := h.statesLen
      rw [Nat.add_zero] at hl
      rw [List.getElem?_append_right (by omega)]
      simp [hl]
  cases needed with
  | true =>
    have hdvd := hn.mp rfl
    obtain ⟨⟨c, i, hc, hi⟩, he⟩ := h1 rfl
    have hcs := cgrid_succ_of_dvd cfg.dt hdvd
    refine ⟨hstates, hlen, hvs, ?_, ?_, ?_, ?_, ?_, ?_⟩
    · rw [hc, hcs, ← h.commands, ← ht]; rfl
    · rw [hc]; simp [Builder.push, h.commandsLen]
    · rw [hi, hcs, ← h.info, ← ht]; rfl
    · rw [hi]; simp [Builder.push, h.infoLen]
    · rw [hcs]
      rcases he with he | ⟨e, he⟩
      · rw [he]; exact h.extra.trans (List.sublist_append_left _ _)
      · rw [he, ← ht]; simp only [Builder.push]
        exact List.Sublist.append h.extra (List.Sublist.refl _)
    · rcases he with he | ⟨e, he⟩
      · rw [he]; exact h.extraLen
      · rw [he]; simp [Builder.push, h.extraLen]
  | false =>
    have hdvd : ¬ period cfg ∣ j := fun hd => by have := hn.mpr hd; cases this
    obtain ⟨hc, hi, he⟩ := h2 rfl
    have hcs := cgrid_succ_of_not_dvd cfg.dt hdvd
    refine ⟨hstates, hlen, hvs, ?_, ?_, ?_, ?_, ?_, ?_⟩
    · rw [hc, hcs]; exact h.commands
    · rw [hc]; exact h.commandsLen
    · rw [hi, hcs]; exact h.info
    · rw [hi]; exact h.infoLen
    · rw [he, hcs]; exact h.extra
    · rw [he]; exact h.extraLen

theorem inv_succ {cfg : Cfg Wd} {σ : Nat → St Wd} {j : Nat} (h : Inv cfg σ j)
    (hdt : 0 < cfg.dt) (hm : Dict.Wf cfg.missions) (hs : step cfg (σ j) = .ok (σ (j + 1))) :
    Inv cfg σ (j + 1) := by
  have hse := stepEffect_of_inv h hdt hm hs
  have hplayers := players_succ hse
  have hneed := need_iff h hdt
  obtain ⟨o, s1, s2, s3, s4, es, rem, rs, rfl, _, he, rfl, hr, hc, _⟩ := hse.eff
  have htime : (σ (j + 1)).time = ((j + 1 : Nat) : K) * cfg.dt := by
    rw [hc.time]; simp only
    rw [hr.time]; simp only
    rw [h.time]; push_cast; ring
  have hpl4 : (σ (j + 1)).players = (σ j).players.filter (fun n => decide (n ∉ rem)) := by
    rw [hc.players]; simp only
    rw [hr.players]; simp only
    rw [he.frame.players]
  have hkeys : Dict.keys (σ (j + 1)).models = Dict.keys (σ 0).models := by
    rw [hc.keys]; simp only
    rw [hr.models]; simp only
    rw [he.keys]; exact h.keys
  have hlog : ∀ n ∈ (σ j).players, ∃ lg, Dict.get? s2.logger n = some lg ∧
      LogInv cfg σ n (j + 1) 0 lg ∧
      ∃ c, lg.commands.vs.getLast? = some c ∧ Dict.get? s2.lastCmds n = some c := by
    intro n hn
    have : n ∈ es.map Prod.fst := by rw [he.names]; exact hn
    obtain ⟨e, hmem, rfl⟩ := List.mem_map.mp this
    obtain ⟨m', lg, lg', q1, q2, q3, q4, q5, q6, q7, q8, q9⟩ := he.steps e hmem
    obtain ⟨lg0, r1, r2, r3⟩ := h.active e.1 hn
    have : lg0 = lg := by
      have q4' : Dict.get? (σ j).logger e.1 = some lg := q4
      rw [r1] at q4'; injection q4'
    subst this
    refine ⟨lg', q5, logInv_step r2 e.2.2.1 (need cfg (σ j)) hneed h.time q1 q6 ?_ ?_, ?_⟩
    · intro hnd
      obtain ⟨⟨w, w1, w2, i, _, _, a, b⟩, c⟩ := q8 hnd
      exact ⟨⟨_, i, a, b⟩, c⟩
    · intro hnd
      obtain ⟨_, a, b, c⟩ := q9 hnd
      exact ⟨a, b, c⟩
    · refine ⟨e.2.2.2, ?_, q7⟩
      cases hnd : need cfg (σ j) with
      | true =>
        obtain ⟨⟨w, w1, w2, i, _, _, a, b⟩, c⟩ := q8 hnd
        rw [a]; simp [Builder.push]
      | false =>
        obtain ⟨a, b, c, d⟩ := q9 hnd
        have hj : 0 < j := by
          rcases Nat.eq_zero_or_pos j with rfl | hj
          · have := hneed.mpr (dvd_zero _)
            rw [this] at hnd; cases hnd
          · exact hj
        obtain ⟨c', h1, h2⟩ := r3 hj
        have a' : Dict.get? (σ j).lastCmds e.1 = some e.2.2.2 := a
        rw [h2] at a'
        injection a' with a'
        rw [b, h1, a']
  have hlogger : (σ (j + 1)).logger = s4.logger := hc.logger
  refine ⟨htime, ?_, hkeys, ?_, ?_, ?_, ?_⟩
  · rw [hpl4]; exact h.nodup.filter _
  · intro n hn; exact h.sub n (hplayers n hn)
  · rw [hc.lastCmdTs]; simp only
    rw [hr.lastCmdTs]; simp only
    rw [if_neg (Nat.succ_ne_zero j), Nat.add_sub_cancel, cmdTs_succ]
    by_cases hd : period cfg ∣ j
    · rw [if_pos (hneed.mpr hd), if_pos hd, h.time]
    · rw [if_neg (fun hn => hd (hneed.mp hn)), if_neg hd, h.cmdTs]
      have hj : j ≠ 0 := by rintro rfl; exact hd (dvd_zero _)
      rw [if_neg hj, if_neg hj]
  · intro n hn
    have hnp := hplayers n hn
    obtain ⟨lg, a, b, c⟩ := hlog n hnp
    have hnr : n ∉ rem := by
      rw [hpl4] at hn
      simpa using (List.mem_filter.mp hn).2
    refine ⟨lg, ?_, b, ?_⟩
    · rw [hlogger, hr.others n hnr]; exact a
    · intro _
      obtain ⟨c, h1, h2⟩ := c
      refine ⟨c, h1, ?_⟩
      rw [hc.lastCmds]; simp only
      rw [hr.lastCmds]; exact h2
  · intro n hk hn
    by_cases hnp : n ∈ (σ j).players
    · -- removed in this step
      have hnr : n ∈ rem := by
        by_contra hcon
        apply hn
        rw [hpl4]
        exact List.mem_filter.mpr ⟨hnp, by simpa using hcon⟩
      obtain ⟨lg, a, b, c⟩ := hlog n hnp
      obtain ⟨m, lg1, g, w, w', r1, r2, r3, r4, r5⟩ := hr.removed n hnr
      have : lg1 = lg := by
        have r2' : Dict.get? s2.logger n = some lg1 := r2
        rw [a] at r2'; injection r2' with r2'; exact r2'.symm
      subst this
      refine ⟨_, j + 1, by omega, le_refl _, by rw [hlogger]; exact r3, ?_, by simpa using hnp, ?_⟩
      · have hmod : Dict.get? (σ (j + 1)).models n = some m := by
          rw [hc.models n (by simp only; rw [← hc.players]; exact hn)]
          simp only
          rw [hr.models]; exact r1
        refine ⟨?_, ?_, ?_, b.commands, b.commandsLen, b.info, b.infoLen, b.extra, b.extraLen⟩
        · simp only [Builder.push]
          rw [b.states, Nat.add_zero, grid_succ cfg.dt (j + 1)]
          simp only [h.time]
          have : (j : K) * cfg.dt + cfg.dt = ((j + 1 : Nat) : K) * cfg.dt := by push_cast; ring
          rw [this]
        · simp only [Builder.push, List.length_append, b.statesLen, List.length_singleton]
        · intro i hi
          simp only [Builder.push]
          have hl := b.statesLen
          rcases Nat.lt_or_ge i (j + 1) with hij | hij
          · obtain ⟨m1, h1, h2⟩ := b.statesVs i (by omega)
            refine ⟨m1, h1, ?_⟩
            rw [List.getElem?_append_left (by omega)]; exact h2
          · have : i = j + 1 := by omega
            subst this
            refine ⟨m, hmod, ?_⟩
            rw [List.getElem?_append_right (by omega), hl]; simp
      · intro i h1 h2
        have : i = j + 1 := by omega
        subst this; exact hn
    · obtain ⟨lg, k, hk0, hkj, h1, h2, h3, h4⟩ := h.gone n hk hnp
      have hnr : n ∉ rem := by
        intro hcon
        have := (hr.sub n hcon).1
        simp only at this
        rw [he.frame.players] at this
        exact hnp this
      refine ⟨lg, k, hk0, by omega, ?_, h2, h3, ?_⟩
      · rw [hlogger, hr.others n hnr]; simp only
        rw [(he.others n hnp).2.1]; exact h1
      · intro i hi1 hi2
        rcases Nat.lt_or_ge i (j + 1) with hij | hij
        · exact h4 i hi1 (by omega)
        · have : i = j + 1 := by omega
          subst this; exact hn

/-- The start of a run: state after the initialisation loop. -/
theorem inv_of_exec {cfg : Cfg Wd} {σ : Nat → St Wd} (h0 : Inv cfg σ 0) (hdt : 0 < cfg.dt)
    (hm : Dict.Wf cfg.missions) : ∀ j, Exec cfg σ j → Inv cfg σ j := by
  intro j
  induction j with
  | zero => intro _; exact h0
  | succ j ih =>
    intro hex
    exact inv_succ (ih (fun i hi => hex i (by omega))) hdt hm (hex j (by omega)).2

/-- Initialisation gives every player a new logger and touches nothing else but the agents. -/
theorem safe_initLoop (l : List N) : ∀ s : St Wd, (∀ n ∈ l, n ∈ Dict.keys s.models) →
    Safe (fun s' => ∃ w logger, s' = { s with w := w, logger := logger } ∧
      (∀ n ∈ l, Dict.get? logger n = some {}) ∧
      ∀ n, n ∉ l → Dict.get? logger n = Dict.get? s.logger n) (initLoop s l) := by
  induction l with
  | nil => intro s _; exact ⟨s.w, s.logger, rfl, by simp, fun _ _ => rfl⟩
  | cons n ns ih =>
    intro s hk
    obtain ⟨m, hm⟩ := (Dict.mem_keys_iff _ _).mp (hk n (by simp))
    unfold initLoop
    refine (safe_lookup hm).bind ?_
    rintro m rfl
    refine (safe_liftU _).bind ?_
    intro w' _
    refine (ih { s with w := w', logger := Dict.set s.logger n {} }
      (fun x hx => hk x (by simp [hx]))).mono ?_
    rintro s' ⟨w, lg, rfl, h1, h2⟩
    refine ⟨w, lg, rfl, ?_, ?_⟩
    · intro x hx
      by_cases hx' : x ∈ ns
      · exact h1 x hx'
      · have : x = n := by simpa [hx'] using hx
        subst this
        rw [h2 x hx']; exact Dict.get?_set_self _ _ _
    · intro x hx
      simp only [List.mem_cons, not_or] at hx
      rw [h2 x hx.2]; exact Dict.get?_set_ne _ (Ne.symm hx.1) _

/-- A fresh context whose players have new loggers. -/
structure Ready (s : St Wd) : Prop where
  fresh : Fresh s
  logger : ∀ n ∈ s.players, Dict.get? s.logger n = some {}

theorem safe_initLoop_fresh (s : St Wd) (h : Fresh s) :
    Safe (fun s' => Ready s' ∧ ∃ w logger, s' = { s with w := w, logger := logger })
      (initLoop s s.players) := by
  refine (safe_initLoop s.players s (fun n hn => (h.keys n).mp hn)).mono ?_
  rintro s' ⟨w, lg, rfl, h1, h2⟩
  exact ⟨⟨⟨h.time, h.terminated, h.reports, h.firstColl, h.lastCmdTs, h.wfModels, h.players, h.keys,
    h.trace⟩, h1⟩, w, lg, rfl⟩

theorem inv_zero (cfg : Cfg Wd) (σ : Nat → St Wd) (h : Ready (σ 0)) : Inv cfg σ 0 := by
  refine ⟨by rw [h.fresh.time]; simp, h.fresh.players, rfl, fun n hn => (h.fresh.keys n).mp hn,
    by rw [h.fresh.lastCmdTs]; simp, ?_, ?_⟩
  · intro n hn
    refine ⟨{}, h.logger n hn, ⟨rfl, rfl, ?_, rfl, rfl, rfl, rfl, ?_, rfl⟩, by simp⟩
    · intro i hi; omega
    · exact List.Sublist.refl _
  · intro n hk hn
    exact absurd ((h.fresh.keys n).mpr hk) hn

end Sim
end Verif
