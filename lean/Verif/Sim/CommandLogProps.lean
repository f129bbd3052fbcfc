import Verif.Sim.LogProps
import Verif.Sim.EventProps

/-!
# C164: the commands in the log are those by which the models were driven
-/

namespace Verif
namespace Sim

set_option linter.unusedSectionVars false

variable {N K : Type} [DecidableEq N] [Field K] [LinearOrder K] [IsStrictOrderedRing K] [FloorSemiring K]
  {Wd : World N K}

theorem isLatest_push {α : Type} {l : List (K × α)} {t u : K} {v w : α} (h : IsLatest l t v) (hu : t < u) :
    IsLatest (l ++ [(u, w)]) t v := by
  obtain ⟨t', h1, h2, h3⟩ := h
  refine ⟨t', by simp [h1], h2, fun p hp ht => ?_⟩
  rcases List.mem_append.mp hp with hp | hp
  · exact h3 p hp ht
  · rw [List.mem_singleton.mp hp] at ht
    exact absurd ht (not_le.mpr hu)

/-- What the commands of a logger look like before step `j`. -/
structure CmdKept (cfg : Cfg Wd) (σ : Nat → St Wd) (j : Nat) (n : N) (b : Builder K Wd.C) : Prop where
  len : b.ts.length = b.vs.length
  past : ∀ p ∈ b.ts.zip b.vs, p.1 < (j : K) * cfg.dt
  inForce : ∀ i < j, n ∈ (σ i).players → ∀ c, Dict.get? (σ (i + 1)).lastCmds n = some c →
    IsLatest (b.ts.zip b.vs) ((i : K) * cfg.dt) c

theorem cmdKept_step {cfg : Cfg Wd} {σ : Nat → St Wd} {j : Nat} (h0 : Ready (σ 0)) (hdt : 0 < cfg.dt)
    (hm : Dict.Wf cfg.missions) (hex : Exec cfg σ (j + 1))
    (n : N) (ih : ∀ lg, Dict.get? (σ j).logger n = some lg → CmdKept cfg σ j n lg.commands) (lg : PlayerLogger Wd)
    (hlg : Dict.get? (σ (j + 1)).logger n = some lg) : CmdKept cfg σ (j + 1) n lg.commands := by
  have hinv := inv_of_exec (inv_zero cfg σ h0) hdt hm j (fun i hi => hex i (by omega))
  have hse := stepEffect_of_inv hinv hdt hm (hex j (by omega)).2
  obtain ⟨o, s1, s2, s3, s4, es, rem, rs, rfl, hsn, he, rfl, hr, hc, _⟩ := hse.eff
  have hlt : (j : K) * cfg.dt < ((j + 1 : Nat) : K) * cfg.dt :=
    mul_lt_mul_of_pos_right (by exact_mod_cast Nat.lt_succ_self j) hdt
  have hmono : ∀ i < j, (i : K) * cfg.dt < (j : K) * cfg.dt := fun i hi =>
    mul_lt_mul_of_pos_right (by exact_mod_cast hi) hdt
  -- the commands after the loop
  have hcmd : ∃ lg2, Dict.get? s2.logger n = some lg2 ∧ lg.commands = lg2.commands := by
    have h4 : Dict.get? s4.logger n = some lg := by
      have : (σ (j + 1)).logger = s4.logger := hc.logger
      rw [← this]; exact hlg
    by_cases hp : n ∈ rem
    · obtain ⟨m, lg2, g, w, w', _, a, b, _⟩ := hr.removed n hp
      rw [b] at h4
      injection h4 with h4
      exact ⟨lg2, a, by rw [← h4]⟩
    · rw [hr.others n hp] at h4
      exact ⟨lg, h4, rfl⟩
  obtain ⟨lg2, h2, e⟩ := hcmd
  rw [e]
  by_cases hn : n ∈ (σ j).players
  · have : n ∈ es.map Prod.fst := by rw [he.names]; exact hn
    obtain ⟨x, hmem, rfl⟩ := List.mem_map.mp this
    obtain ⟨m', lg0, lg', q1, q2, q3, q4, q5, q6, q7, q8, q9⟩ := he.steps x hmem
    have : lg' = lg2 := by rw [q5] at h2; injection h2
    subst this
    have hk := ih lg0 q4
    have hnext : Dict.get? (σ (j + 1)).lastCmds x.1 = some x.2.2.2 := by
      have : (σ (j + 1)).lastCmds = s2.lastCmds := by rw [hc.lastCmds]; exact hr.lastCmds
      rw [this]; exact q7
    cases hnd : need cfg (σ j) with
    | true =>
      obtain ⟨⟨w, w1, w2, i, _, _, a, b⟩, _⟩ := q8 hnd
      have a' : lg'.commands = ⟨lg0.commands.ts ++ [(j : K) * cfg.dt], lg0.commands.vs ++ [x.2.2.2]⟩ := by
        rw [a, ← hinv.time]; rfl
      have hz : lg'.commands.ts.zip lg'.commands.vs =
          lg0.commands.ts.zip lg0.commands.vs ++ [((j : K) * cfg.dt, x.2.2.2)] := by
        rw [a']
        exact List.zip_append hk.len
      refine ⟨by rw [a']; simp [hk.len], ?_, ?_⟩
      · intro p hp
        rw [hz] at hp
        rcases List.mem_append.mp hp with hp | hp
        · exact (hk.past p hp).trans hlt
        · rw [List.mem_singleton.mp hp]; exact hlt
      · intro i hi hni c hci
        rw [hz]
        rcases Nat.lt_succ_iff_lt_or_eq.mp hi with hi | rfl
        · exact isLatest_push (hk.inForce i hi hni c hci) (hmono i hi)
        · rw [hnext] at hci
          injection hci with hci
          subst hci
          refine ⟨(i : K) * cfg.dt, by simp, le_rfl, fun p hp hle => hle⟩
    | false =>
      obtain ⟨a, b, _, _⟩ := q9 hnd
      rw [b]
      refine ⟨hk.len, fun p hp => (hk.past p hp).trans hlt, ?_⟩
      intro i hi hni c hci
      rcases Nat.lt_succ_iff_lt_or_eq.mp hi with hi | rfl
      · exact hk.inForce i hi hni c hci
      · rw [hnext] at hci
        injection hci with hci
        subst hci
        have hj : 0 < i := by
          rcases Nat.eq_zero_or_pos i with rfl | hj
          · have := (need_iff hinv hdt).mpr (dvd_zero _)
            rw [this] at hnd; cases hnd
          · exact hj
        obtain ⟨k, rfl⟩ : ∃ k, i = k + 1 := ⟨i - 1, by omega⟩
        have hp : x.1 ∈ (σ k).players := players_succ (stepEffect_of_inv
          (inv_of_exec (inv_zero cfg σ h0) hdt hm k (fun q hq => hex q (by omega))) hdt hm (hex k (by omega)).2) _ hn
        obtain ⟨t', h1, h3, h4⟩ := hk.inForce k (by omega) hp _ a
        refine ⟨t', h1, (hk.past _ h1).le, fun p hp' _ => ?_⟩
        refine h4 p hp' ?_
        -- all commands were logged before this step, on the grid
        obtain ⟨lg1, r1, r2, _⟩ := hinv.active x.1 hn
        have : lg1 = lg0 := by
          have q4' : Dict.get? (σ (k + 1)).logger x.1 = some lg0 := q4
          rw [r1] at q4'; injection q4'
        subst this
        have hts : p.1 ∈ lg1.commands.ts := (List.of_mem_zip hp').1
        rw [r2.commands] at hts
        obtain ⟨i, hi, e⟩ := List.mem_map.mp hts
        have := (List.mem_filter.mp hi).1
        rw [← e]
        exact mul_le_mul_of_nonneg_right (by exact_mod_cast Nat.lt_succ_iff.mp (List.mem_range.mp this)) hdt.le
  · have hl : Dict.get? (σ j).logger n = some lg2 := by
      rw [(he.others n hn).2.1] at h2
      exact h2
    have hk := ih lg2 hl
    refine ⟨hk.len, fun p hp => (hk.past p hp).trans hlt, ?_⟩
    intro i hi hni c hci
    rcases Nat.lt_succ_iff_lt_or_eq.mp hi with hi | rfl
    · exact hk.inForce i hi hni c hci
    · exact absurd hni hn

theorem cmdKept_exec {cfg : Cfg Wd} {σ : Nat → St Wd} (h0 : Ready (σ 0)) (hdt : 0 < cfg.dt)
    (hm : Dict.Wf cfg.missions) (n : N) (hn : n ∈ Dict.keys (σ 0).models) : ∀ j, Exec cfg σ j → ∀ lg,
    Dict.get? (σ j).logger n = some lg → CmdKept cfg σ j n lg.commands
  | 0, _, lg, h => by
    rw [h0.logger n ((h0.fresh.keys n).mpr hn)] at h
    injection h with h
    subst h
    exact ⟨rfl, by simp, by simp⟩
  | j + 1, hex, lg, h =>
    cmdKept_step h0 hdt hm hex n (cmdKept_exec h0 hdt hm n hn j (fun i hi => hex i (by omega))) lg h

theorem sample_unique {α : Type} (q : Seq K α) (h : q.Valid) {t : K} {v w : α} (hv : (t, v) ∈ q.samples)
    (hw : (t, w) ∈ q.samples) : v = w := by
  obtain ⟨i, h1, h2⟩ := (Seq.mem_samples_iff q t v).mp hv
  obtain ⟨j, h3, h4⟩ := (Seq.mem_samples_iff q t w).mp hw
  obtain ⟨hi, e1⟩ := List.getElem?_eq_some_iff.mp h1
  obtain ⟨hj, e2⟩ := List.getElem?_eq_some_iff.mp h3
  have hp := List.pairwise_iff_getElem.mp h.2
  have : i = j := by
    rcases Nat.lt_trichotomy i j with hij | hij | hij
    · have := hp i j hi hj hij
      rw [e1, e2] at this
      exact absurd this (lt_irrefl _)
    · exact hij
    · have := hp j i hj hi hij
      rw [e1, e2] at this
      exact absurd this (lt_irrefl _)
  subst this
  rw [h2] at h4
  exact Option.some.inj h4

/-- **C164.** In the log of every run: in each step in which a player took part, its model was driven by the
command that the log has for the time of the step, from the state that the log has for it; every command in the log was returned by
the player when it was asked at that time, and the log has a command for every time at which the player was asked. -/
theorem C164_commands {cfg : Cfg Wd} {fuel : Nat} {s s' : St Wd} {log log' : Dict N (PlayerLog Wd)}
    (hf : Fresh s) (hdt : 0 < cfg.dt) (hm : Dict.Wf cfg.missions)
    (hrun : run cfg fuel s log = some (.ok (s', log'))) :
    ∃ (σ : Nat → St Wd) (J : Nat), Ready (σ 0) ∧
      (∃ w logger, σ 0 = { s with w := w, logger := logger }) ∧ Exec cfg σ (J + 1) ∧ σ (J + 1) = s' ∧
      ∀ n ∈ Dict.keys s.models, ∃ pl, Dict.get? log' n = some pl ∧ pl.Valid ∧
        (∀ (i : Nat) x, pl.states.vs[i]? = some x → pl.states.ts[i]? = some ((i : K) * cfg.dt) ∧
          ∃ m, Dict.get? (σ i).models n = some m ∧ x = Wd.getState m) ∧
        (∀ (i : Nat) y, pl.states.vs[i + 1]? = some y → i ≤ J ∧ n ∈ (σ i).players) ∧
        (∀ i ≤ J, n ∈ (σ i).players → ∃ m c, Event.drive ((i : K) * cfg.dt) n m c ∈ eventsOf σ i ∧
          Dict.get? (σ i).models n = some m ∧ pl.states.vs[i]? = some (Wd.getState m) ∧
          IsLatest pl.commands.samples ((i : K) * cfg.dt) c ∧
          Dict.get? (σ (i + 1)).lastCmds n = some c) ∧
        (∀ t c, (t, c) ∈ pl.commands.samples →
          ∃ i ≤ J, t = (i : K) * cfg.dt ∧ period cfg ∣ i ∧ Returned cfg σ i n c) ∧
        ∀ t, t ∈ pl.commands.ts ↔ ∃ i ≤ J, t = (i : K) * cfg.dt ∧ period cfg ∣ i ∧ n ∈ (σ i).players := by
  obtain ⟨-, -, -, -, -, -, -, hw⟩ := run_ok hf hrun
  obtain ⟨σ, J, hready, hfirst, hex, hend, hlog⟩ := C23_log hf hdt hm hrun
  refine ⟨σ, J, hready, hfirst, hex, hend, fun n hn => ?_⟩
  have hinv := inv_of_exec (inv_zero cfg σ hready) hdt hm (J + 1) hex
  have hwl := (safe_writeLog s'.logger (Dict.keys s'.models) log (by
    intro n hn
    rw [← hend] at hn ⊢
    obtain ⟨lg, k, x, h1, h2, _⟩ := logger_of_inv hinv n hn
    exact ⟨lg, h1, (logInv_asSequence hdt h2).1⟩)).ok hw
  have hn0 : n ∈ Dict.keys (σ 0).models := by
    obtain ⟨w, lg, h0⟩ := hfirst
    rw [h0]; exact hn
  have hn' : n ∈ Dict.keys s'.models := by rw [← hend, hinv.keys]; exact hn0
  obtain ⟨lg, h3, h4⟩ := hwl.1 n hn'
  rw [← hend] at h3
  obtain ⟨pl, k, last, hpl, hval, hcase, hts, hst, hct, -⟩ := hlog n hn
  rw [h4] at hpl
  injection hpl with hpl
  subst hpl
  have hlen : lg.seqs.states.vs.length = last + 1 := by
    have h1 := hval.1.1
    rw [hts] at h1
    simpa using h1.symm
  have hkept := cmdKept_exec hready hdt hm n hn0 (J + 1) hex lg h3
  have hpast : ∀ k i, k ≤ J + 2 → i < k → n ∈ (σ (k - 1)).players → n ∈ (σ i).players := by
    intro k i hk hi hp
    by_contra hni
    exact players_mono hready hdt hm hex n i hni (k - 1) (by omega) (by omega) hp
  refine ⟨_, h4, hval, ?_, ?_, ?_, ?_, ?_⟩
  · intro i x hx
    obtain ⟨hi, -⟩ := List.getElem?_eq_some_iff.mp hx
    have hi' : i ≤ last := by omega
    obtain ⟨m, a, b⟩ := hst i hi'
    rw [b] at hx
    injection hx with hx
    refine ⟨?_, m, a, hx.symm⟩
    rw [hts, List.getElem?_map, List.getElem?_range (by omega)]
    rfl
  · intro i y hy
    obtain ⟨hi, -⟩ := List.getElem?_eq_some_iff.mp hy
    rcases hcase with ⟨h1, h2, h5⟩ | ⟨h1, h2, h5, -, -, h6⟩
    · refine ⟨by omega, hpast (J + 2) i le_rfl (by omega) ?_⟩
      show n ∈ (σ (J + 1)).players
      rw [hend]; exact h1
    · exact ⟨by omega, hpast k i (by omega) (by omega) h5⟩
  · intro i hi hni
    obtain ⟨m, c, a, b, d, -⟩ := driven_aux hready hdt hm i (fun q hq => hex q (by omega)) n hni
    have hil : i ≤ last := by
      rcases hcase with ⟨-, -, h5⟩ | ⟨h1, h2, -, h5, -, h6⟩
      · omega
      · by_contra hlt
        exact players_mono hready hdt hm hex n k h5 i (by omega) (by omega) hni
    obtain ⟨m', a', b'⟩ := hst i hil
    rw [b] at a'
    injection a' with a'
    subst a'
    exact ⟨m, c, a, b, b', hkept.inForce i (by omega) hni c d, d⟩
  · intro t c hc
    have ht : t ∈ lg.seqs.commands.ts := by
      obtain ⟨i, hi, -⟩ := (Seq.mem_samples_iff _ t c).mp hc
      exact List.mem_of_getElem? hi
    rw [hct] at ht
    obtain ⟨i, hi, rfl⟩ := List.mem_map.mp ht
    obtain ⟨hik, hdvd⟩ := List.mem_filter.mp hi
    rw [List.mem_range] at hik
    have hdvd : period cfg ∣ i := of_decide_eq_true hdvd
    have hij : i ≤ J ∧ n ∈ (σ i).players := by
      rcases hcase with ⟨h1, h2, h5⟩ | ⟨h1, h2, h5, -, -, h6⟩
      · refine ⟨by omega, hpast (J + 2) i le_rfl (by omega) ?_⟩
        show n ∈ (σ (J + 1)).players
        rw [hend]; exact h1
      · exact ⟨by omega, hpast k i (by omega) (by omega) h5⟩
    obtain ⟨m, c', a, b, d, i0, ⟨e1, e2, e3⟩, e4⟩ := driven_aux hready hdt hm i (fun q hq => hex q (by omega)) n hij.2
    have hi0 : i0 = i := by
      by_contra hne
      exact e3 i (by omega) le_rfl hdvd
    subst hi0
    obtain ⟨t', f1, f2, f3⟩ : IsLatest lg.seqs.commands.samples ((i0 : K) * cfg.dt) c' := hkept.inForce i0 (by omega) hij.2 c' d
    have : t' = (i0 : K) * cfg.dt := le_antisymm f2 (f3 _ hc le_rfl)
    subst this
    rw [sample_unique _ hval.2.1 hc f1]
    exact ⟨i0, hij.1, rfl, hdvd, e4⟩
  · intro t
    have hin : ∀ i, i < k ↔ i ≤ J ∧ n ∈ (σ i).players := by
      intro i
      rcases hcase with ⟨h1, h2, h5⟩ | ⟨h1, h2, h5, h6, -, -⟩
      · refine ⟨fun hi => ⟨by omega, hpast (J + 2) i le_rfl (by omega) ?_⟩, fun hi => by omega⟩
        show n ∈ (σ (J + 1)).players
        rw [hend]; exact h1
      · refine ⟨fun hi => ⟨by omega, hpast k i (by omega) (by omega) h5⟩, fun hi => ?_⟩
        by_contra hlt
        exact players_mono hready hdt hm hex n k h6 i (by omega) (by omega) hi.2
    rw [hct, List.mem_map]
    constructor
    · rintro ⟨i, hi, rfl⟩
      obtain ⟨hik, hdvd⟩ := List.mem_filter.mp hi
      obtain ⟨a, b⟩ := (hin i).mp (List.mem_range.mp hik)
      exact ⟨i, a, rfl, of_decide_eq_true hdvd, b⟩
    · rintro ⟨i, a, rfl, b, c⟩
      exact ⟨i, List.mem_filter.mpr ⟨List.mem_range.mpr ((hin i).mpr ⟨a, c⟩), decide_eq_true b⟩, rfl⟩

example := C164_commands Toy.fresh Toy.dt_pos Toy.wf Toy.run_eq

/-- In the example car 0 returns a different command at its last request. -/
example : (Dict.get? Toy.result.2 0).map (fun l => l.commands.samples) = some [(0, 1), (1, 1), (2, 1), (3, 1 / 2)] := by
  decide +kernel

end Sim
end Verif
