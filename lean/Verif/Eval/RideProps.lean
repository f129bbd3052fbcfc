import Verif.Eval.ArrivalProps
import Verif.Eval.ComfortProps
import Verif.Whole.ArriveProps
import Verif.Sim.TotalProps

/-!
# C165: the comfort of a simulation

`get_acc_rms` of `eval/comfort.py` on the commands that a run of `sim/simulator.py` logs.
-/

set_option linter.unusedSectionVars false

namespace Verif
namespace Eval
namespace Arrival

open Sim

theorem ratio_le (n : Nat) (hn : 2 ≤ n) : (n : ℝ) / (2 * (n / 2 : ℕ)) ≤ 3 / 2 := by
  have h1 : 2 * n ≤ 6 * (n / 2) := by omega
  have h2 : 0 < n / 2 := by omega
  have h2' : (0 : ℝ) < ((n / 2 : ℕ) : ℝ) := by exact_mod_cast h2
  rw [div_le_iff₀ (by linarith)]
  have h1' : (2 : ℝ) * n ≤ 6 * ((n / 2 : ℕ) : ℝ) := by exact_mod_cast h1
  linarith

theorem sq_sum_le (A : ℝ) : ∀ x : List ℝ, (∀ a ∈ x, |a| ≤ A) → (x.map (fun a => a ^ 2)).sum ≤ x.length * A ^ 2
  | [], _ => by simp
  | a :: x, h => by
    have h1 := sq_sum_le A x fun b hb => h b (List.mem_cons_of_mem _ hb)
    have h2 := h a (List.mem_cons_self ..)
    have h3 : a ^ 2 ≤ A ^ 2 := by
      rw [← sq_abs a]
      exact pow_le_pow_left₀ (abs_nonneg a) h2 2
    simp only [List.map_cons, List.sum_cons, List.length_cons]
    push_cast
    linarith

theorem weighted_le (x : List ℝ) (r A : ℝ) (hr : weightedRms x = .ok r) (h : ∀ a ∈ x, |a| ≤ A) : r ≤ 3 / 2 * A := by
  have hn : 2 ≤ x.length := by
    by_contra hc
    rw [(C83_defined x).2 (by omega)] at hr
    cases hr
  have hA : 0 ≤ A := by
    obtain ⟨a, ha⟩ := List.exists_mem_of_length_pos (show 0 < x.length by omega)
    exact (abs_nonneg a).trans (h a ha)
  have hb := C83_bound x hn r hr
  have hl : (0 : ℝ) < x.length := by exact_mod_cast (show 0 < x.length by omega)
  have hs : Real.sqrt ((x.map (fun a => a ^ 2)).sum / x.length) ≤ A := by
    rw [Real.sqrt_le_left hA, div_le_iff₀ hl]
    linarith [sq_sum_le A x h]
  refine hb.trans (mul_le_mul (ratio_le _ hn) hs (Real.sqrt_nonneg _) (by norm_num))

variable {N : Type} [DecidableEq N] {Wd : World N ℝ}

/-- **C165.** `get_acc_rms` on the logged commands of a player is defined exactly if the player took part long enough to be asked
twice; it is at most one and a half times the largest acceleration that the player returned in the range of time; and if the player
always returned the acceleration `a` it is `0.162 |a|`, times `n / (n - 1)` for an odd number `n` of requests. -/
theorem C165_rms {cfg : Cfg Wd} {fuel : Nat} {s s' : St Wd} {log log' : Dict N (PlayerLog Wd)}
    (hf : Fresh s) (hdt : 0 < cfg.dt) (hm : Dict.Wf cfg.missions)
    (hrun : run cfg fuel s log = some (.ok (s', log'))) (acc : Wd.C → ℝ) (n : N) (hn : n ∈ Dict.keys s.models) :
    ∃ (σ : Nat → St Wd) (J : Nat) (pl : PlayerLog Wd), Ready (σ 0) ∧ Exec cfg σ (J + 1) ∧ σ (J + 1) = s' ∧
      Dict.get? log' n = some pl ∧
      ((∃ r, getAccRms acc none none pl.commands = .ok r) ↔ period cfg ≤ J ∧ n ∈ (σ (period cfg)).players) ∧
      (∀ r A lo hi, getAccRms acc lo hi pl.commands = .ok r →
        (∀ (i : Nat) c, i ≤ J → Returned cfg σ i n c → (∀ a, lo = some a → a ≤ (i : ℝ) * cfg.dt) →
          (∀ b, hi = some b → (i : ℝ) * cfg.dt ≤ b) → |acc c| ≤ A) → r ≤ 3 / 2 * A) ∧
      ∀ a, period cfg ≤ J → n ∈ (σ (period cfg)).players → (∀ i ≤ J, ∀ c, Returned cfg σ i n c → acc c = a) →
        getAccRms acc none none pl.commands = .ok ((pl.commands.vs.length : ℝ) / (2 * (pl.commands.vs.length / 2 : ℕ)) *
          (|a| * (7725 / 47610))) := by
  classical
  obtain ⟨σ, J, hready, ⟨w, lg, hs⟩, hex, hend, hlog⟩ := C164_commands hf hdt hm hrun
  obtain ⟨pl, hpl, hval, -, -, -, hret, hts⟩ := hlog n hn
  have hp := C24_period cfg hdt
  have hn0 : n ∈ (σ 0).players := by
    rw [hready.fresh.keys n, hs]; exact hn
  have h0 : (0 : ℝ) ∈ pl.commands.ts := (hts 0).mpr ⟨0, Nat.zero_le _, by simp, Nat.dvd_zero _, hn0⟩
  have hne : pl.commands.ts ≠ [] := List.ne_nil_of_mem h0
  have hlen : pl.commands.ts.length = pl.commands.vs.length := hval.2.1.1
  have hfull : getAccRms acc none none pl.commands = weightedRms (pl.commands.vs.map acc) := by
    rw [C83_range acc none none _ hval.2.1 hne]
    congr 1
    rw [List.filter_eq_self.mpr (by intro q _; simp [SampleRange])]
    rw [show (fun q : Wd.C × ℝ => acc q.1) = acc ∘ Prod.fst from rfl, ← List.map_map, List.map_fst_zip (by omega)]
  have hpair := List.pairwise_iff_getElem.mp hval.2.1.2
  have hlong : 2 ≤ pl.commands.ts.length ↔ period cfg ≤ J ∧ n ∈ (σ (period cfg)).players := by
    constructor
    · intro h
      have hlt := hpair 0 1 (by omega) (by omega) (by omega)
      obtain ⟨i, -, e0, -, -⟩ := (hts _).mp (List.getElem_mem (show 0 < pl.commands.ts.length by omega))
      obtain ⟨j, hj, e1, hd, hj'⟩ := (hts _).mp (List.getElem_mem (show 1 < pl.commands.ts.length by omega))
      rw [e0, e1] at hlt
      have hij : (i : ℝ) < j := lt_of_mul_lt_mul_right hlt hdt.le
      have hij' : i < j := by exact_mod_cast hij
      have hpj : period cfg ≤ j := Nat.le_of_dvd (by omega) hd
      refine ⟨by omega, ?_⟩
      by_contra hc
      exact players_mono hready hdt hm hex n _ hc j hpj (by omega) hj'
    · rintro ⟨h1, h2⟩
      have hp1 : ((period cfg : ℕ) : ℝ) * cfg.dt ∈ pl.commands.ts := (hts _).mpr ⟨_, h1, rfl, dvd_refl _, h2⟩
      by_contra hc
      obtain ⟨a, ha⟩ := List.length_eq_one_iff.mp (show pl.commands.ts.length = 1 by
        have := List.length_pos_of_mem h0; omega)
      rw [ha, List.mem_singleton] at h0 hp1
      have : (0 : ℝ) < ((period cfg : ℕ) : ℝ) * cfg.dt := mul_pos (by exact_mod_cast hp.1) hdt
      linarith
  have hsample : ∀ c t, (c, t) ∈ pl.commands.vs.zip pl.commands.ts → (t, c) ∈ pl.commands.samples := by
    intro c t h
    obtain ⟨i, hi⟩ := List.mem_iff_getElem?.mp h
    obtain ⟨a, b⟩ := List.getElem?_zip_eq_some.mp hi
    exact List.mem_of_getElem? (List.getElem?_zip_eq_some.mpr ⟨b, a⟩)
  refine ⟨σ, J, pl, hready, hex, hend, hpl, ?_, ?_, ?_⟩
  · rw [hfull, ← hlong]
    constructor
    · rintro ⟨r, hr⟩
      by_contra hc
      rw [(C83_defined _).2 (by rw [List.length_map]; omega)] at hr
      cases hr
    · intro h
      obtain ⟨r, hr, -⟩ := (C83_defined (pl.commands.vs.map acc)).1 (by rw [List.length_map]; omega)
      exact ⟨r, hr⟩
  · intro r A lo hi hr hA
    rw [C83_range acc lo hi _ hval.2.1 hne] at hr
    refine weighted_le _ r A hr ?_
    intro a ha
    obtain ⟨⟨c, t⟩, hq, rfl⟩ := List.mem_map.mp ha
    obtain ⟨hq1, hq2⟩ := List.mem_filter.mp hq
    obtain ⟨i, hij, rfl, -, hR⟩ := hret t c (hsample c t hq1)
    have hS : SampleRange lo hi ((i : ℝ) * cfg.dt) := of_decide_eq_true hq2
    exact hA i c hij hR (fun a h => hS.1 a h) (fun b h => hS.2 b h)
  · intro a h1 h2 hA
    have hrep : pl.commands.vs.map acc = List.replicate pl.commands.vs.length a := by
      rw [List.eq_replicate_iff]
      refine ⟨List.length_map _, ?_⟩
      intro b hb
      obtain ⟨c, hc, rfl⟩ := List.mem_map.mp hb
      obtain ⟨i, hi⟩ := List.mem_iff_getElem?.mp hc
      obtain ⟨hi', -⟩ := List.getElem?_eq_some_iff.mp hi
      have hz : (c, pl.commands.ts[i]) ∈ pl.commands.vs.zip pl.commands.ts :=
        List.mem_of_getElem? (List.getElem?_zip_eq_some.mpr ⟨hi, List.getElem?_eq_getElem (by omega)⟩)
      obtain ⟨j, hj, -, -, hR⟩ := hret _ c (hsample _ _ hz)
      exact hA j hj c hR
    have := hlong.mpr ⟨h1, h2⟩
    rw [hfull, hrep, C83_constant _ (by omega)]

/-! ## A concrete case: a car that accelerates at 2 m/s² for three seconds -/

namespace Steady

abbrev wd : World Nat ℝ := { Whole.Metre.wd (fun _ => false) with getCommands := fun w _ _ => .ok (w, (2 : ℝ), ()) }

noncomputable def cfg : Cfg wd := ⟨1, 1, 3, 1, [(0, ())]⟩

noncomputable def start : St wd := ⟨[(0, (0 : ℝ))], [0], (0 : ℝ), 0, false, [], none, ⟨[], 0⟩, none, [], [], []⟩

theorem fresh : Fresh start := ⟨rfl, rfl, rfl, rfl, rfl, by simp [Dict.Wf, Dict.keys, start],
  by simp [start], fun n => Iff.rfl, rfl⟩

theorem returns : ∃ s' log, run cfg 4 start [] = some (.ok (s', log)) :=
  C21_returns cfg start [] 4 fresh (by simp [cfg]) (by simp [Dict.Wf, Dict.keys, cfg]) (by norm_num)
    (by simp only [cfg]; norm_num) (by
      intro u h
      cases h with
      | onInit w n hn h => cases h
      | sense w n o hn h => cases h
      | getCommands w n o hn h => cases h
      | getExtra w n hn h => cases h
      | update w n m c dt hn h => cases h
      | fulfilled w n g x t hn h => cases h
      | resolveEnv w n m o t hn h hu => cases h
      | resolve w n₁ m₁ n₂ m₂ t h₁ h₂ h hu => cases h)

theorem returned {σ : Nat → St wd} {i n : Nat} {c : ℝ} (h : Returned cfg σ i n c) : c = 2 := by
  obtain ⟨-, o, w, w', inf, -, h⟩ := h
  injection h with h
  exact (Prod.mk.inj (Prod.mk.inj h).2).1.symm

example : ∃ s' log pl, run cfg 4 start [] = some (.ok (s', log)) ∧ Dict.get? log 0 = some pl ∧
    ∀ r lo hi, getAccRms (fun c : ℝ => c) lo hi pl.commands = .ok r → r ≤ 3 := by
  obtain ⟨s', log, h⟩ := returns
  obtain ⟨σ, J, pl, -, -, -, h1, -, h2, -⟩ := C165_rms fresh (by simp [cfg]) (by simp [Dict.Wf, Dict.keys, cfg]) h
    (fun c : ℝ => c) 0 (by simp [Dict.keys, start])
  refine ⟨s', log, pl, h, h1, fun r lo hi hr => ?_⟩
  have := h2 r 2 lo hi hr fun i c _ hR _ _ => by rw [returned hR]; norm_num
  linarith

end Steady

end Arrival
end Eval
end Verif
