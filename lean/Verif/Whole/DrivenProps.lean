import Verif.Whole.FlagProps
import Verif.Sim.LogProps
import Verif.Sim.EventProps
import Verif.Phys.AfterProps

/-!
# C99: a player named in no report moves by its own commands only
-/

namespace Verif
namespace Whole

open Sim Coll

set_option linter.unusedSectionVars false

variable {N K : Type} [DecidableEq N] [Field K] [LinearOrder K] {F : Iface N K} {sc : Bool}
  {R : Parts N K F.M F.S}

/-- Specification: `cs`, one command after the other, takes the model of `n` from `m` to `m'`. -/
inductive Reach (R : Parts N K F.M F.S) (dt : K) (n : N) (m : F.M) : List R.C → F.M → Prop
  | start : Reach R dt n m [] m
  | drive {cs c m' m'' v v'} : Reach R dt n m cs m' → R.update v n m' c dt = .ok (v', m'') →
      Reach R dt n m (cs ++ [c]) m''

/-- Specification: the commands with which the model of `n` has been updated. -/
def commandsOf {Wd : World N K} (n : N) (tr : List (Event Wd)) : List Wd.C :=
  tr.filterMap fun e => match e with
    | .drive _ n' _ c => if n' = n then some c else none
    | _ => none

theorem commandsOf_append {Wd : World N K} (n : N) (a b : List (Event Wd)) :
    commandsOf n (a ++ b) = commandsOf n a ++ commandsOf n b := List.filterMap_append

theorem Reach.isDyn {dt : K} (hL : Lawful F R dt) {n : N} {m m' : F.M} {cs : List R.C}
    (h : Reach R dt n m cs m') : R.isDyn m' = R.isDyn m := by
  induction h with
  | start => rfl
  | drive _ hu ih => rw [hL.dynUpdate _ _ _ _ _ _ hu, ih]

/-- `n`, a model `m0` in the beginning, has only been driven, unless it is named in a report. -/
def OnlyDriven (R : Parts N K F.M F.S) (dt : K) (start : Dict N F.M) (s : St (world F sc R)) : Prop :=
  s.players.Nodup ∧ ∀ n m0, Dict.get? start n = some m0 → R.isDyn m0 = false → ¬ Named s.reports n →
    ∃ m, Dict.get? s.models n = some m ∧ Reach R dt n m0 (commandsOf n s.trace) m

theorem onlyDriven_closed (cfg : Cfg (world F sc R)) (hL : Lawful F R cfg.dt) (start : Dict N F.M) :
    Closed cfg (OnlyDriven (sc := sc) R cfg.dt start) where
  nodup s h := h.1
  observed s ps h _ := h
  logged s n m lg states h _ _ _ _ := h
  asked s n s' h _ ha := by
    obtain ⟨e1, e2, -, -, e3⟩ := askPlayer_frame ha
    obtain ⟨o, e4⟩ := askPlayer_trace ha
    unfold OnlyDriven
    rw [e1, e2, e3, e4]
    refine ⟨h.1, fun k m0 h0 hd hk => ?_⟩
    rw [commandsOf_append]
    simpa [commandsOf] using h.2 k m0 h0 hd hk
  driven s n m c w' m' h _ hm _ hu := by
    have hu' : ∃ v v', R.update v n m c cfg.dt = .ok (v', m') := by
      change (match R.update s.w.2 n m c cfg.dt with
        | .error e => .error e
        | .ok (v, m') => .ok ((s.w.1, v), m')) = Except.ok (w', m') at hu
      cases h : R.update s.w.2 n m c cfg.dt with
      | error e => rw [h] at hu; cases hu
      | ok q =>
        obtain ⟨v, m2⟩ := q
        rw [h] at hu
        injection hu with hu
        injection hu with _ e2
        subst e2
        exact ⟨_, _, h⟩
    obtain ⟨v, v', hu'⟩ := hu'
    refine ⟨h.1, fun k m0 h0 hd hk => ?_⟩
    obtain ⟨mk, g1, g2⟩ := h.2 k m0 h0 hd hk
    dsimp only
    rw [commandsOf_append]
    by_cases hkn : n = k
    · subst hkn
      have hm' : m = mk := by rw [hm] at g1; injection g1
      subst hm'
      refine ⟨m', Dict.get?_set_self _ _ _, ?_⟩
      have : commandsOf n [(Event.drive s.time n m c : Event (world F sc R))] = [c] := by simp [commandsOf]
      rw [this]
      exact g2.drive hu'
    · refine ⟨mk, by rw [Dict.get?_set_ne _ hkn]; exact g1, ?_⟩
      have : commandsOf k [(Event.drive s.time n m c : Event (world F sc R))] = [] := by
        simp [commandsOf, hkn]
      rw [this, List.append_nil]
      exact g2
  stamped s h := h
  timed s h := h
  removed s p g s' h hr := by
    obtain ⟨e1, e2, e3⟩ := removePlayer_frame hr
    unfold OnlyDriven
    rw [e1, e2]
    refine ⟨?_, fun k m0 h0 hd hk => ?_⟩
    · rcases e3 with e | e <;> rw [e]
      · exact h.1
      · exact h.1.erase p
    · rcases removePlayer_trace hr with e | ⟨x, e⟩ <;> rw [e]
      · exact h.2 k m0 h0 hd hk
      · rw [commandsOf_append]
        simpa [commandsOf] using h.2 k m0 h0 hd hk
  ended s b h := h
  traced s p h := by
    refine ⟨h.1, fun k m0 h0 hd hk => ?_⟩
    dsimp only
    rw [commandsOf_append]
    simpa [commandsOf] using h.2 k m0 h0 hd hk
  env s p o s' h _ _ he := by
    refine ⟨by rw [envObstacle_players he]; exact h.1, fun k m0 h0 hd hk => ?_⟩
    obtain ⟨m, rep, hm, hr, e1, -, -, e2⟩ := envObstacle_frame he
    rw [e2] at hk
    rw [e1, envObstacle_trace he]
    have hk' : ¬ Named s.reports k := fun ⟨r, h1, h2⟩ => hk ⟨r, by simp [h1], h2⟩
    obtain ⟨mk, g1, g2⟩ := h.2 k m0 h0 hd hk'
    by_cases hkp : p = k
    · subst hkp
      have hm' : m = mk := by rw [hm] at g1; injection g1
      subst hm'
      refine ⟨_, Dict.get?_set_self _ _ _, ?_⟩
      have hdyn : R.isDyn m = false := by rw [g2.isDyn hL, hd]
      obtain ⟨hc, hdyn'⟩ := resolveEnv_cases hL s.time p m o.1 o.2
      change reportOf [p, F.envPlayer] [p] s.time (Coll.resolveEnv F s.time p m o.1 o.2).2 = .ok rep at hr
      have hdyn2 : (world F sc R).isDyn ((world F sc R).resolveEnv s.w p m o s.time).1.2 = false := by
        change R.isDyn (Coll.resolveEnv F s.time p m o.1 o.2).1 = false
        rw [hdyn', hdyn]
      rw [hdyn2] at hk
      simp only [Bool.false_eq_true, if_false] at hk
      rcases reportOf_cases hr with ⟨h1, -⟩ | ⟨d', -, h1⟩ | ⟨-, h1⟩
      · rcases hc with ⟨h2, -⟩ | ⟨-, ⟨e, h2⟩ | ⟨d, h2, -⟩⟩
        · have : ((world F sc R).resolveEnv s.w p m o s.time).1.2 = m := h2
          rw [this]
          exact g2
        · rw [h1] at h2; cases h2
        · rw [h1] at h2; cases h2
      · exact absurd ⟨_, by rw [h1]; simp; right; rfl, by simp⟩ hk
      · exact absurd ⟨_, by rw [h1]; simp; right; rfl, by simp⟩ hk
    · exact ⟨mk, by rw [Dict.get?_set_ne _ hkp]; exact g1, g2⟩
  pair s a b s' h _ _ hab hp := by
    refine ⟨by rw [checkPair_players hp]; exact h.1, fun k m0 h0 hd hk => ?_⟩
    rw [checkPair_trace hp, commandsOf_append]
    have htr : commandsOf k [(Event.pair s.time a b : Event (world F sc R))] = [] := by simp [commandsOf]
    rw [htr, List.append_nil]
    obtain ⟨ma, mb, ha, hb, ⟨-, e1, -, -, e2⟩ | ⟨rep, -, hr, e1, -, -, e2⟩⟩ := checkPair_frame hp
    · rw [e1]; rw [e2] at hk; exact h.2 k m0 h0 hd hk
    · rw [e2] at hk
      rw [e1]
      have hk' : ¬ Named s.reports k := fun ⟨r, h1, h2⟩ => hk ⟨r, by simp [h1], h2⟩
      obtain ⟨mk, g1, g2⟩ := h.2 k m0 h0 hd hk'
      change reportOf [a, b] [a, b] s.time (Coll.resolve F sc s.time a ma b mb).2 = .ok rep at hr
      obtain ⟨hc, -⟩ := resolve_cases (sc := sc) hL s.time a b hab ma mb
      have hsame : (k = a ∨ k = b) → (Coll.resolve F sc s.time a ma b mb).1 = (ma, mb) := by
        intro hkab
        rcases reportOf_cases hr with ⟨h1, -⟩ | ⟨d', -, h1⟩ | ⟨-, h1⟩
        · rcases hc with ⟨h2, -⟩ | ⟨-, -, h2 | ⟨d, h2, -⟩⟩
          · exact h2
          · rw [h1] at h2; cases h2
          · rw [h1] at h2; cases h2
        · exact absurd ⟨_, by rw [h1]; simp; right; rfl, by simpa using hkab⟩ hk
        · exact absurd ⟨_, by rw [h1]; simp; right; rfl, by simpa using hkab⟩ hk
      refine ⟨mk, ?_, g2⟩
      change Dict.get? (Dict.set (Dict.set s.models a (Coll.resolve F sc s.time a ma b mb).1.1) b
        (Coll.resolve F sc s.time a ma b mb).1.2) k = some mk
      rw [Dict.get?_set]
      split
      · rename_i e
        subst e
        rw [hsame (Or.inr rfl)]
        rw [← g1, hb]
      · rw [Dict.get?_set]
        split
        · rename_i e
          subst e
          rw [hsame (Or.inl rfl)]
          rw [← g1, ha]
        · exact g1

theorem trace_closed {Wd : World N K} (cfg : Cfg Wd) (l : List (Event Wd)) :
    Closed cfg (fun s : St Wd => s.players.Nodup ∧ l <+: s.trace) where
  nodup s h := h.1
  observed s ps h _ := h
  logged s n m lg states h _ _ _ _ := h
  asked s n s' h _ ha := by
    obtain ⟨o, e⟩ := askPlayer_trace ha
    rw [(askPlayer_frame ha).1, e]
    exact ⟨h.1, h.2.trans (List.prefix_append _ _)⟩
  driven s n m c w' m' h _ _ _ _ := ⟨h.1, h.2.trans (List.prefix_append _ _)⟩
  stamped s h := h
  timed s h := h
  removed s p g s' h hr := by
    obtain ⟨e1, e2, e3⟩ := removePlayer_frame hr
    refine ⟨?_, ?_⟩
    · rcases e3 with e | e <;> rw [e]
      · exact h.1
      · exact h.1.erase p
    · rcases removePlayer_trace hr with e | ⟨x, e⟩ <;> rw [e]
      · exact h.2
      · exact h.2.trans (List.prefix_append _ _)
  ended s b h := h
  traced s p h := ⟨h.1, h.2.trans (List.prefix_append _ _)⟩
  env s p o s' h _ _ he := by
    rw [envObstacle_players he, envObstacle_trace he]
    exact h
  pair s a b s' h _ _ _ hp := by
    rw [checkPair_players hp, checkPair_trace hp]
    exact ⟨h.1, h.2.trans (List.prefix_append _ _)⟩

theorem reports_closed {Wd : World N K} (cfg : Cfg Wd) (l : List (Report Wd)) :
    Closed cfg (fun s : St Wd => s.players.Nodup ∧ l <+: s.reports) :=
  closed_models cfg (fun _ rs => l <+: rs) (fun _ _ _ _ _ _ _ _ _ _ h => h)
    (fun _ _ _ _ _ _ _ _ _ _ _ h => h.trans (List.prefix_append _ _))
    (fun _ _ _ _ _ _ _ _ _ _ _ _ _ h => h.trans (List.prefix_append _ _))

theorem players_nodup {Wd : World N K} {cfg : Cfg Wd} {σ : Nat → St Wd} {j : Nat} (h0 : Ready (σ 0))
    (hx : Exec cfg σ j) : (σ j).players.Nodup :=
  ((trace_closed cfg []).exec ⟨h0.fresh.players, List.nil_prefix⟩ hx j le_rfl).1

theorem exec_from {Wd : World N K} {cfg : Cfg Wd} {σ : Nat → St Wd} {j i : Nat} (hx : Exec cfg σ j)
    (hi : i ≤ j) : Exec cfg (fun k => σ (i + k)) (j - i) := fun k hk => by
  have := hx (i + k) (by omega)
  exact this

theorem trace_mono {Wd : World N K} {cfg : Cfg Wd} {σ : Nat → St Wd} {i j : Nat} (h0 : Ready (σ 0))
    (hx : Exec cfg σ j) (hi : i ≤ j) : (σ i).trace <+: (σ j).trace := by
  have h := ((trace_closed cfg (σ i).trace).exec (σ := fun k => σ (i + k))
    ⟨players_nodup h0 (fun k hk => hx k (by omega)), List.prefix_refl _⟩ (exec_from hx hi) (j - i) le_rfl).2
  simpa [Nat.add_sub_cancel' hi] using h

theorem reports_mono {Wd : World N K} {cfg : Cfg Wd} {σ : Nat → St Wd} {i j : Nat} (h0 : Ready (σ 0))
    (hx : Exec cfg σ j) (hi : i ≤ j) : (σ i).reports <+: (σ j).reports := by
  have h := ((reports_closed cfg (σ i).reports).exec (σ := fun k => σ (i + k))
    ⟨players_nodup h0 (fun k hk => hx k (by omega)), List.prefix_refl _⟩ (exec_from hx hi) (j - i) le_rfl).2
  simpa [Nat.add_sub_cancel' hi] using h

theorem length_commandsOf {Wd : World N K} (n : N) (l : List (Event Wd)) :
    (commandsOf n l).length = l.countP (Event.isDrive n) := by
  induction l with
  | nil => rfl
  | cons e l ih =>
    have : commandsOf n (e :: l) = commandsOf n [e] ++ commandsOf n l := commandsOf_append n [e] l
    rw [this, List.length_append, ih, List.countP_cons, Nat.add_comm]
    congr 1
    cases e <;> simp only [commandsOf, Event.isDrive, List.filterMap_cons, List.filterMap_nil] <;>
      first | rfl | skip
    split_ifs <;> simp_all

/-- The number of updates of an active player. -/
theorem length_commands {Wd : World N K} [IsStrictOrderedRing K] [FloorSemiring K] {cfg : Cfg Wd} {σ : Nat → St Wd}
    (h0 : Ready (σ 0)) (hdt : 0 < cfg.dt) (hm : Dict.Wf cfg.missions) (n : N) :
    ∀ j, Exec cfg σ j → (∀ i < j, n ∈ (σ i).players) → (commandsOf n (σ j).trace).length = j
  | 0, _, _ => by rw [h0.fresh.trace]; rfl
  | j + 1, hx, hn => by
    have ih := length_commands h0 hdt hm n j (fun i hi => hx i (by omega)) (fun i hi => hn i (by omega))
    obtain ⟨l, hl⟩ := trace_mono h0 hx (Nat.le_succ j)
    have hev : eventsOf σ j = l := by
      unfold eventsOf
      rw [← hl]
      simp
    have hc := (C24_driven h0 hdt hm hx n).1
    rw [if_pos (hn j (by omega)), hev] at hc
    rw [← hl, commandsOf_append, List.length_append, ih, length_commandsOf, hc]

/-- **C99.** In every execution, the model of a player that is not a moving obstacle and is named in no
report is its initial model after its own updates, with the commands it was updated with; as long as it is
in the simulation, there is one update per step. -/
theorem C99_driven [IsStrictOrderedRing K] [FloorSemiring K] {cfg : Cfg (world F sc R)} (hL : Lawful F R cfg.dt)
    (hdt : 0 < cfg.dt) (hm : Dict.Wf cfg.missions) {σ : Nat → St (world F sc R)}
    {j : Nat} (h0 : Ready (σ 0)) (hx : Exec cfg σ j) (n : N) (m0 : F.M)
    (hn : Dict.get? (σ 0).models n = some m0) (hdyn : R.isDyn m0 = false)
    (hnot : ¬ Named (σ j).reports n) :
    (∃ m, Dict.get? (σ j).models n = some m ∧ Reach R cfg.dt n m0 (commandsOf n (σ j).trace) m) ∧
    ((∀ i < j, n ∈ (σ i).players) → (commandsOf n (σ j).trace).length = j) := by
  refine ⟨((onlyDriven_closed cfg hL (σ 0).models).exec ⟨h0.fresh.players, ?_⟩ hx j le_rfl).2 n m0 hn
    hdyn hnot, length_commands h0 hdt hm n j hx⟩
  intro k mk hk _ _
  rw [h0.fresh.trace]
  exact ⟨mk, hk, Reach.start⟩

/-- **C99.** What every update of a model keeps holds in every logged state of a player that is not a
moving obstacle and is named in no report. -/
theorem C99_log [IsStrictOrderedRing K] [FloorSemiring K] {cfg : Cfg (world F sc R)} (hL : Lawful F R cfg.dt)
    (hdt : 0 < cfg.dt) (hm : Dict.Wf cfg.missions) {fuel : Nat} {s s' : St (world F sc R)}
    {log log' : Dict N (PlayerLog (world F sc R))} (hf : Fresh s)
    (hrun : run cfg fuel s log = some (.ok (s', log'))) (n : N) (m0 : F.M)
    (hn : Dict.get? s.models n = some m0) (hdyn : R.isDyn m0 = false) (hnot : ¬ Named s'.reports n)
    (Q : F.M → Prop) (h0 : Q m0)
    (hQ : ∀ v m c v' m', R.update v n m c cfg.dt = .ok (v', m') → Q m → Q m') :
    ∃ pl, Dict.get? log' n = some pl ∧ pl.states.vs ≠ [] ∧
      ∀ x ∈ pl.states.vs, ∃ m, Q m ∧ x = R.getState m := by
  obtain ⟨σ, J, hready, ⟨w, lg, hs⟩, hex, hend, hlog⟩ := C23_log hf hdt hm hrun
  have hkey : n ∈ Dict.keys s.models := by
    rw [Dict.mem_keys_iff, hn]; exact ⟨m0, rfl⟩
  obtain ⟨pl, k, last, hpl, hval, hcase, hts, hst, -⟩ := hlog n hkey
  have hlast : last ≤ J + 1 := by
    rcases hcase with ⟨-, -, h⟩ | ⟨-, h1, -, -, -, h⟩ <;> omega
  have hlen : pl.states.vs.length = last + 1 := by
    have h1 := hval.1.1
    rw [hts] at h1
    simpa using h1.symm
  refine ⟨pl, hpl, ?_, ?_⟩
  · intro h
    rw [h] at hlen
    simp at hlen
  · intro x hx
    obtain ⟨i, hi, rfl⟩ := List.mem_iff_getElem.mp hx
    have hi' : i ≤ last := by omega
    obtain ⟨m, hm1, hm2⟩ := hst i hi'
    rw [List.getElem?_eq_getElem hi] at hm2
    injection hm2 with hm2
    refine ⟨m, ?_, hm2⟩
    have hexi : Exec cfg σ i := fun k hk => hex k (by omega)
    have hnot' : ¬ Named (σ i).reports n := fun ⟨r, h1, h2⟩ =>
      hnot ⟨r, by rw [← hend]; exact (reports_mono hready hex (by omega)).subset h1, h2⟩
    obtain ⟨⟨m2, g1, g2⟩, -⟩ := C99_driven hL hdt hm hready hexi n m0 (by rw [hs]; exact hn) hdyn hnot'
    have : m = m2 := by rw [hm1] at g1; injection g1
    subst this
    clear hm1 hm2 g1
    generalize commandsOf n (σ i).trace = cs at g2
    induction g2 with
    | start => exact h0
    | drive _ hu ih => exact hQ _ _ _ _ _ hu ih

/-- **C99.** Kinematic vehicles (sim/models/vehicle.py) whose updates solve their equations: every logged
state of a vehicle named in no report has speed and steering angle within the limits of the vehicle. -/
theorem C99_limits {F : Iface N ℝ} {R : Parts N ℝ F.M F.S} {cfg : Cfg (world F sc R)}
    (hL : Lawful F R cfg.dt) (hdt : 0 < cfg.dt) (hm : Dict.Wf cfg.missions) {fuel : Nat}
    {s s' : St (world F sc R)} {log log' : Dict N (PlayerLog (world F sc R))} (hf : Fresh s)
    (hrun : run cfg fuel s log = some (.ok (s', log'))) (n : N) (m0 : F.M)
    (hn : Dict.get? s.models n = some m0) (hdyn : R.isDyn m0 = false) (hnot : ¬ Named s'.reports n)
    (wb lr : ℝ) (p : Phys.VehicleParams ℝ) (hp : p.Valid) (isCar : Bool)
    (look : R.X → VehicleState ℝ)
    (hsolve : ∀ v m c v' m', R.update v n m c cfg.dt = .ok (v', m') →
      Phys.UpdateStep (fun c _ => Phys.vehicleUpdate wb lr p c isCar) cfg.dt
        (look (R.getState m)) (look (R.getState m')))
    (h0 : (p.vxMin ≤ (look (R.getState m0)).vx ∧ (look (R.getState m0)).vx ≤ p.vxMax) ∧
      (-p.deltaMax ≤ (look (R.getState m0)).delta ∧ (look (R.getState m0)).delta ≤ p.deltaMax)) :
    ∃ pl, Dict.get? log' n = some pl ∧ pl.states.vs ≠ [] ∧
      ∀ x ∈ pl.states.vs, (p.vxMin ≤ (look x).vx ∧ (look x).vx ≤ p.vxMax) ∧
        (-p.deltaMax ≤ (look x).delta ∧ (look x).delta ≤ p.deltaMax) := by
  obtain ⟨pl, h1, h2, h3⟩ := C99_log hL hdt hm hf hrun n m0 hn hdyn hnot
    (fun m => (p.vxMin ≤ (look (R.getState m)).vx ∧ (look (R.getState m)).vx ≤ p.vxMax) ∧
      (-p.deltaMax ≤ (look (R.getState m)).delta ∧ (look (R.getState m)).delta ≤ p.deltaMax)) h0
    (fun v m c v' m' hu hq => Phys.C95_vehicle wb lr p hp isCar cfg.dt _ _
      (Relation.ReflTransGen.single (hsolve v m c v' m' hu)) hq)
  refine ⟨pl, h1, h2, fun x hx => ?_⟩
  obtain ⟨m, hq, rfl⟩ := h3 x hx
  exact hq

/-! ## Concrete cases -/

/-- Until time 1 car 2 of `Toy` has met nobody; its model comes from two updates of its own. -/
example : (∃ m, Dict.get? (Toy.σ 2).models 2 = some m ∧
    Reach Toy.parts Toy.cfg.dt 2 ((25 : ℚ), (((2 : ℚ), (0 : ℚ)), (0 : ℚ)), false)
      (commandsOf 2 (Toy.σ 2).trace) m) ∧ (commandsOf 2 (Toy.σ 2).trace).length = 2 := by
  have hn : ¬ Named (Toy.σ 2).reports 2 := by
    have h : ∀ ps ∈ (Toy.σ 2).reports.map (fun r => r.players), (2 : Nat) ∉ ps := by decide +kernel
    rintro ⟨r, h1, h2⟩
    exact h _ (List.mem_map_of_mem h1) h2
  have h := C99_driven (Toy.lawful _) Toy.dt_pos Toy.wf (σ := Toy.σ) (j := 2) Toy.ready
    (fun i hi => Toy.exec i (by omega)) 2 ((25 : ℚ), (((2 : ℚ), (0 : ℚ)), (0 : ℚ)), false)
    (by decide +kernel) rfl hn
  exact ⟨h.1, h.2 (by decide +kernel)⟩

section Coasting

/-- A bicycle (state, flag) at 5 m/s along the x axis; there is nothing else. -/
noncomputable abbrev bikeF : Iface Nat ℝ where
  M := VehicleState ℝ × Bool
  S := Unit
  L := Unit
  Q := Unit
  Lane := Unit
  footprint _ := ()
  pose _ := ()
  translation _ := (0, 0)
  velocity m := ((m.1.vx, 0), 0)
  setVelocity m v _ := ({ m.1 with vx := v.1 }, m.2)
  geom _ := ⟨some 2, some 3, 1 / 2⟩
  hasCollided m := m.2
  mark m := (m.1, true)
  mesh _ := []
  intersects _ _ := false
  impactGeometry _ _ := .error .collision
  lanesAt _ := []
  lanePose _ _ := (true, true)
  toPolygon s := .ok s
  everywhere := ()
  envPlayer := 99

open Classical in
noncomputable abbrev bikeParts : Parts Nat ℝ bikeF.M bikeF.S where
  A := Unit
  V := Unit
  X := VehicleState ℝ
  C := Unit
  I := Unit
  E := Unit
  G := Unit
  getState m := m.1
  isDyn _ := false
  onInit a _ := .ok a
  sense v _ o := .ok (v, o)
  ask a _ := .ok (a, (), ())
  extra a := .ok (a, none)
  update v _ m _ _ := if m.1 = ⟨0, 0, 0, 5, 0⟩ then .ok (v, (⟨15, 0, 0, 5, 0⟩, m.2)) else .error .value
  fulfilled v _ _ _ _ := .ok (v, false)
  envQuery _ _ := []

noncomputable abbrev bikeCfg : Cfg (world bikeF true bikeParts) :=
  { dt := 3, dtCommands := 3, maxSimTime := 2, afterCollision := 4, missions := [] }

noncomputable def bikeStart : St (world bikeF true bikeParts) where
  models := [(1, ((⟨0, 0, 0, 5, 0⟩ : VehicleState ℝ), false))]
  players := [1]
  w := (fun _ => (), ())
  time := 0
  terminated := false
  reports := []
  firstColl := none
  lastObs := ⟨[], 0⟩
  lastCmdTs := none
  lastCmds := []
  logger := []
  trace := []

theorem bike_run : ∃ s' log', run bikeCfg 5 bikeStart [] = some (.ok (s', log')) ∧ s'.reports = [] := by
  have h23 : (2 : ℝ) < 3 := by norm_num
  simp [run, initLoop, bikeStart, loop, step, preUpdate, need, observe, lookup, Dict.get?, liftU, update,
    updateLoop, updatePlayer, addLog, Builder.add, maybeAsk, askPlayer, addExtra, Dict.set, postUpdate,
    removeLoop, terminationCondition, collTimer, writeLog, Dict.keys, PlayerLogger.asSequence,
    Builder.asSequence, Seq.mk?, Seq.increasing, bind, Except.bind, pure, Except.pure, h23]

/-- The hypotheses of `C99_log` and `C99_limits` are met. -/
example : ∃ log' : Dict Nat (PlayerLog (world bikeF true bikeParts)), ∃ pl, Dict.get? log' 1 = some pl ∧
    pl.states.vs ≠ [] ∧ ∀ x ∈ pl.states.vs, -1 ≤ x.vx ∧ x.vx ≤ 10 := by
  obtain ⟨s', log', hrun, hrep⟩ := bike_run
  obtain ⟨hp, -, hstep⟩ := Phys.coasting
  have hfresh : Fresh bikeStart := ⟨rfl, rfl, rfl, rfl, rfl, by simp [Dict.Wf, bikeStart, Dict.keys],
    by simp [bikeStart], by simp [bikeStart, Dict.keys], rfl⟩
  have hup : ∀ v n m c v' m', bikeParts.update v n m c 3 = .ok (v', m') →
      m.1 = ⟨0, 0, 0, 5, 0⟩ ∧ m' = (⟨15, 0, 0, 5, 0⟩, m.2) := by
    intro v n m c v' m' h
    change (if m.1 = ⟨0, 0, 0, 5, 0⟩ then Except.ok (v, (⟨15, 0, 0, 5, 0⟩, m.2)) else Except.error Err.value) =
      Except.ok (v', m') at h
    split at h
    · rename_i hm
      injection h with h
      injection h with _ h
      exact ⟨hm, h.symm⟩
    · cases h
  have hL : Lawful bikeF bikeParts bikeCfg.dt := by
    refine ⟨fun _ => rfl, fun _ _ _ => rfl, fun v n m c v' m' h => ?_, fun _ => rfl, fun _ _ _ => rfl,
      fun _ _ _ _ _ _ _ => rfl⟩
    rw [(hup v n m c v' m' h).2]
  obtain ⟨pl, h1, h2, h3⟩ := C99_limits hL (by norm_num) (by simp [Dict.Wf, Dict.keys]) hfresh hrun 1
    ((⟨0, 0, 0, 5, 0⟩ : VehicleState ℝ), false) rfl rfl (by rw [hrep]; simp [Named]) 2 1 _ hp false
    (fun x => x) (fun v m c v' m' h => by
      obtain ⟨e1, e2⟩ := hup v 1 m c v' m' h
      rw [e2]
      change Phys.UpdateStep _ _ m.1 _
      rw [e1]
      exact hstep) (by norm_num)
  exact ⟨log', pl, h1, h2, fun x hx => (h3 x hx).1⟩

end Coasting

end Whole
end Verif
