import Verif.Whole.DrivenProps
import Verif.Agents.AgentProps

/-!
# C100: an agent in a simulation behaves as it would alone with its observations
-/

namespace Verif
namespace Whole

open Sim Coll

set_option linter.unusedSectionVars false

variable {N K : Type} [DecidableEq N] [Field K] [LinearOrder K] {F : Iface N K} {sc : Bool}
  {R : Parts N K F.M F.S}

/-- Specification: the agent alone. Starting in `a`, it is given one observation after the other and is
then in the second state; for each observation it has returned commands, the time it took and perhaps an extra
object. -/
inductive Alone (R : Parts N K F.M F.S) (a : R.A) : List (Obs N K R.X F.S) → R.A →
    List (R.C × R.I × Option R.E) → Prop
  | start : Alone R a [] a []
  | ask {os b out o b' c i b'' e} : Alone R a os b out → R.ask b o = .ok (b', c, i) →
      R.extra b' = .ok (b'', e) → Alone R a (os ++ [o]) b'' (out ++ [(c, i, e)])

/-- Specification: what the agent of `n` was given. -/
def observationsOf {Wd : World N K} (n : N) (tr : List (Event Wd)) : List (Obs N K Wd.X Wd.P) :=
  tr.filterMap fun e => match e with
    | .ask _ n' o => if n' = n then some o else none
    | _ => none

theorem observationsOf_append {Wd : World N K} (n : N) (a b : List (Event Wd)) :
    observationsOf n (a ++ b) = observationsOf n a ++ observationsOf n b := List.filterMap_append

/-- A lone agent is deterministic. -/
theorem Alone.det {a : R.A} {os : List (Obs N K R.X F.S)} {b : R.A} {out : List (R.C × R.I × Option R.E)}
    (h : Alone R a os b out) : ∀ {b' out'}, Alone R a os b' out' → b' = b ∧ out' = out := by
  induction h with
  | start =>
    intro b' out' h'
    generalize ho : ([] : List (Obs N K R.X F.S)) = os' at h'
    cases h' with
    | start => exact ⟨rfl, rfl⟩
    | ask _ _ _ => simp at ho
  | @ask os b out o b1 c i b2 e _ hask hex ih =>
    intro b' out' h'
    generalize ho : os ++ [o] = os' at h'
    cases h' with
    | start => simp at ho
    | @ask os' b' out' o' b1' c' i' b2' e' h' hask' hex' =>
      obtain ⟨rfl, ho'⟩ := List.append_inj' ho rfl
      have ho' := (List.cons.inj ho').1
      subst ho'
      obtain ⟨rfl, rfl⟩ := ih h'
      rw [hask] at hask'
      injection hask' with hask'
      injection hask' with e1 hask'
      injection hask' with e2 e3
      subst e1 e2 e3
      rw [hex] at hex'
      injection hex' with hex'
      injection hex' with e1 e2
      subst e1 e2
      exact ⟨rfl, rfl⟩

/-- Specification: the log has the replies, in order. -/
def Holds {Wd : World N K} (lg : PlayerLogger Wd) (out : List (Wd.C × Wd.I × Option Wd.E)) : Prop :=
  lg.commands.vs = out.map (fun x => x.1) ∧ lg.info.vs = out.map (fun x => x.2.1) ∧
    lg.extra.vs = out.filterMap (fun x => x.2.2)

def History (R : Parts N K F.M F.S) (a0 : N → R.A) (ns : List N) (s : St (world F sc R)) : Prop :=
  s.players.Nodup ∧ ∀ n ∈ ns, ∃ out lg, Alone R (a0 n) (observationsOf n s.trace) (s.w.1 n) out ∧
    Dict.get? s.logger n = some lg ∧ Holds lg out

theorem addLog_vs {α : Type} {b b' : Builder K α} {t : K} {v : α} (h : addLog b t v = .ok b') :
    b'.vs = b.vs ++ [v] := by
  unfold addLog Builder.add at h
  cases hl : b.ts.getLast? with
  | none => rw [hl] at h; injection h with h; subst h; rfl
  | some t' =>
    rw [hl] at h
    dsimp only at h
    split at h
    · rename_i h'
      split at h'
      · injection h' with _ h'; cases h'
      · injection h' with h' _
        injection h with h
        subst h
        subst h'
        rfl
    · cases h

theorem addExtra_vs {Wd : World N K} {b b' : Builder K Wd.E} {t : K} {e : Option Wd.E}
    (h : addExtra b t e = .ok b') : b'.vs = b.vs ++ e.toList := by
  cases e with
  | none => injection h with h; subst h; simp
  | some e => exact addLog_vs h

theorem history_closed (cfg : Cfg (world F sc R)) (a0 : N → R.A) (ns : List N) :
    Closed cfg (History (sc := sc) R a0 ns) where
  nodup s h := h.1
  observed s ps h _ := h
  logged s n m lg states h _ _ hl _ := by
    refine ⟨h.1, fun k hk => ?_⟩
    obtain ⟨out, lk, h1, h2, h3⟩ := h.2 k hk
    by_cases hkn : n = k
    · subst hkn
      have : lg = lk := by rw [hl] at h2; injection h2
      subst this
      exact ⟨out, _, h1, Dict.get?_set_self _ _ _, h3⟩
    · exact ⟨out, lk, h1, by rw [Dict.get?_set_ne _ hkn]; exact h2, h3⟩
  asked s n s' h _ ha := by
    have hp := (askPlayer_frame ha).1
    unfold askPlayer at ha
    obtain ⟨⟨w1, o⟩, hs, ha⟩ := bind_ok.mp ha
    obtain ⟨⟨w2, c, i⟩, hc, ha⟩ := bind_ok.mp ha
    obtain ⟨lg, hl, ha⟩ := bind_ok.mp ha
    obtain ⟨cs, hcs, ha⟩ := bind_ok.mp ha
    obtain ⟨is, his, ha⟩ := bind_ok.mp ha
    obtain ⟨⟨w3, ex⟩, hex, ha⟩ := bind_ok.mp ha
    obtain ⟨es, hes, ha⟩ := bind_ok.mp ha
    injection ha with ha
    have hw1 : w1.1 = s.w.1 := by
      have hs := liftU_ok.mp hs
      change (match R.sense s.w.2 n s.lastObs with
        | .error e => .error e
        | .ok (v, o') => .ok ((s.w.1, v), o')) = Except.ok (w1, o) at hs
      split at hs
      · cases hs
      · injection hs with hs
        injection hs with hs _
        rw [← hs]
    obtain ⟨a, hask, hw2⟩ : ∃ a, R.ask (w1.1 n) o = .ok (a, c, i) ∧ w2.1 = Function.update w1.1 n a := by
      have hs := liftU_ok.mp hc
      change (match R.ask (w1.1 n) o with
        | .error e => .error e
        | .ok (a, c, i) => .ok ((Function.update w1.1 n a, w1.2), c, i)) = Except.ok (w2, c, i) at hs
      split at hs
      · cases hs
      · rename_i a c' i' hask
        injection hs with hs
        injection hs with hs1 hs2
        injection hs2 with hs2 hs3
        subst hs2 hs3
        exact ⟨a, hask, by rw [← hs1]⟩
    obtain ⟨b, hextra, hw3⟩ : ∃ b, R.extra (w2.1 n) = .ok (b, ex) ∧ w3.1 = Function.update w2.1 n b := by
      have hs := liftU_ok.mp hex
      change (match R.extra (w2.1 n) with
        | .error e => .error e
        | .ok (a, x) => .ok ((Function.update w2.1 n a, w2.2), x)) = Except.ok (w3, ex) at hs
      split at hs
      · cases hs
      · rename_i b x hextra
        injection hs with hs
        injection hs with hs1 hs2
        subst hs2
        exact ⟨b, hextra, by rw [← hs1]⟩
    have hl := lookup_ok.mp hl
    subst ha
    refine ⟨h.1, fun k hk => ?_⟩
    obtain ⟨out, lk, h1, h2, h3⟩ := h.2 k hk
    dsimp only
    rw [observationsOf_append]
    by_cases hkn : n = k
    · subst hkn
      have e : lg = lk := by rw [hl] at h2; injection h2
      subst e
      refine ⟨out ++ [(c, i, ex)], _, ?_, Dict.get?_set_self _ _ _, ?_, ?_, ?_⟩
      · have e1 : observationsOf n [(Event.sense s.time n s.lastObs : Event (world F sc R)),
            Event.ask s.time n o] = [o] := by simp [observationsOf]
        rw [e1, hw3, Function.update_self]
        rw [hw1] at hask
        rw [hw2, Function.update_self] at hextra
        exact h1.ask hask hextra
      · change cs.vs = _
        rw [addLog_vs hcs, h3.1]; simp
      · change is.vs = _
        rw [addLog_vs his, h3.2.1]; simp
      · change es.vs = _
        rw [addExtra_vs hes, h3.2.2]
        cases ex <;> simp
    · refine ⟨out, lk, ?_, by rw [Dict.get?_set_ne _ hkn]; exact h2, h3⟩
      have e1 : observationsOf k [(Event.sense s.time n s.lastObs : Event (world F sc R)),
          Event.ask s.time n o] = [] := by simp [observationsOf, hkn]
      rw [e1, List.append_nil, hw3, Function.update_of_ne (Ne.symm hkn), hw2,
        Function.update_of_ne (Ne.symm hkn), hw1]
      exact h1
  driven s n m c w' m' h _ hm _ hu := by
    have hw : w'.1 = s.w.1 := by
      change (match R.update s.w.2 n m c cfg.dt with
        | .error e => .error e
        | .ok (v, m') => .ok ((s.w.1, v), m')) = Except.ok (w', m') at hu
      split at hu
      · cases hu
      · injection hu with hu
        injection hu with hu _
        rw [← hu]
    refine ⟨h.1, fun k hk => ?_⟩
    obtain ⟨out, lk, h1, h2, h3⟩ := h.2 k hk
    refine ⟨out, lk, ?_, h2, h3⟩
    dsimp only
    rw [observationsOf_append, hw]
    simpa [observationsOf] using h1
  stamped s h := h
  timed s h := h
  removed s p g s' h hr := by
    have hp := (removePlayer_frame hr).2.2
    refine ⟨by rcases hp with e | e <;> rw [e]; exacts [h.1, h.1.erase p], fun k hk => ?_⟩
    obtain ⟨out, lk, h1, h2, h3⟩ := h.2 k hk
    unfold removePlayer at hr
    split at hr
    · obtain ⟨m, -, hr⟩ := bind_ok.mp hr
      obtain ⟨⟨w', b⟩, hf, hr⟩ := bind_ok.mp hr
      have hw : w'.1 = s.w.1 := by
        have hf := liftU_ok.mp hf
        change (match R.fulfilled s.w.2 p g _ s.time with
          | .error e => .error e
          | .ok (v, b) => .ok ((s.w.1, v), b)) = Except.ok (w', b) at hf
        split at hf
        · cases hf
        · injection hf with hf
          injection hf with hf _
          rw [← hf]
      dsimp only at hr
      have hal : Alone R (a0 k) (observationsOf k (s.trace ++
          [(Event.goal s.time p ((world F sc R).getState m) : Event (world F sc R))])) (w'.1 k) out := by
        rw [observationsOf_append, hw]
        simpa [observationsOf] using h1
      split at hr
      · obtain ⟨lg, hl, hr⟩ := bind_ok.mp hr
        obtain ⟨states, -, hr⟩ := bind_ok.mp hr
        injection hr with hr
        subst hr
        have hl := lookup_ok.mp hl
        by_cases hkp : p = k
        · subst hkp
          have e : lg = lk := by
            have hl : Dict.get? s.logger p = some lg := hl
            rw [hl] at h2; injection h2
          subst e
          exact ⟨out, _, hal, Dict.get?_set_self _ _ _, h3⟩
        · exact ⟨out, lk, hal, by rw [Dict.get?_set_ne _ hkp]; exact h2, h3⟩
      · injection hr with hr
        subst hr
        exact ⟨out, lk, hal, h2, h3⟩
    · injection hr with hr
      subst hr
      exact ⟨out, lk, h1, h2, h3⟩
  ended s b h := h
  traced s p h := by
    refine ⟨h.1, fun k hk => ?_⟩
    obtain ⟨out, lk, h1, h2, h3⟩ := h.2 k hk
    refine ⟨out, lk, ?_, h2, h3⟩
    dsimp only
    rw [observationsOf_append]
    simpa [observationsOf] using h1
  env s p o s' h _ _ he := by
    refine ⟨by rw [envObstacle_players he]; exact h.1, fun k hk => ?_⟩
    obtain ⟨out, lk, h1, h2, h3⟩ := h.2 k hk
    obtain ⟨m, rep, -, -, -, ew, el, -⟩ := envObstacle_frame he
    have ew : s'.w = s.w := ew
    rw [envObstacle_trace he, ew, el]
    exact ⟨out, lk, h1, h2, h3⟩
  pair s a b s' h _ _ _ hp := by
    refine ⟨by rw [checkPair_players hp]; exact h.1, fun k hk => ?_⟩
    obtain ⟨out, lk, h1, h2, h3⟩ := h.2 k hk
    have hal : Alone R (a0 k) (observationsOf k (s.trace ++
        [(Event.pair s.time a b : Event (world F sc R))])) (s.w.1 k) out := by
      rw [observationsOf_append]
      simpa [observationsOf] using h1
    rw [checkPair_trace hp]
    obtain ⟨ma, mb, -, -, ⟨-, -, ew, el, -⟩ | ⟨rep, -, -, -, ew, el, -⟩⟩ := checkPair_frame hp
    · rw [ew, el]; exact ⟨out, lk, hal, h2, h3⟩
    · have ew : s'.w = s.w := ew
      rw [ew, el]; exact ⟨out, lk, hal, h2, h3⟩

/-- **C100.** In every execution the agent of every player is in the state, and has returned what is
logged, as if it had been alone with the observations it was given. -/
theorem C100_alone {cfg : Cfg (world F sc R)} {σ : Nat → St (world F sc R)} {j : Nat} (h0 : Ready (σ 0))
    (hx : Exec cfg σ j) (n : N) (hn : n ∈ (σ 0).players) :
    ∃ out lg, Alone R ((σ 0).w.1 n) (observationsOf n (σ j).trace) ((σ j).w.1 n) out ∧
      Dict.get? (σ j).logger n = some lg ∧ Holds lg out := by
  refine ((history_closed cfg (σ 0).w.1 (σ 0).players).exec ⟨h0.fresh.players, fun k hk => ?_⟩ hx j
    le_rfl).2 n hn
  refine ⟨[], {}, ?_, h0.logger k hk, rfl, rfl, rfl⟩
  rw [h0.fresh.trace]
  exact Alone.start

/-- **C100.** An agent that starts in the same state and is given the same observations in two executions
has the same replies logged, whatever the other players and the rest of the world do. -/
theorem C100_isolated {cfg cfg' : Cfg (world F sc R)} {σ σ' : Nat → St (world F sc R)} {j j' : Nat}
    (h0 : Ready (σ 0)) (hx : Exec cfg σ j) (h0' : Ready (σ' 0)) (hx' : Exec cfg' σ' j') (n : N)
    (hn : n ∈ (σ 0).players) (hn' : n ∈ (σ' 0).players) (ha : (σ 0).w.1 n = (σ' 0).w.1 n)
    (ho : observationsOf n (σ j).trace = observationsOf n (σ' j').trace) :
    (σ j).w.1 n = (σ' j').w.1 n ∧ ∃ lg lg', Dict.get? (σ j).logger n = some lg ∧
      Dict.get? (σ' j').logger n = some lg' ∧ lg.commands.vs = lg'.commands.vs ∧
      lg.info.vs = lg'.info.vs ∧ lg.extra.vs = lg'.extra.vs := by
  obtain ⟨out, lg, a1, a2, a3⟩ := C100_alone h0 hx n hn
  obtain ⟨out', lg', b1, b2, b3⟩ := C100_alone h0' hx' n hn'
  rw [← ha, ← ho] at b1
  obtain ⟨e1, e2⟩ := a1.det b1
  subst e2
  exact ⟨e1.symm, lg, lg', a2, b2, a3.1.trans b3.1.symm, a3.2.1.trans b3.2.1.symm,
    a3.2.2.trans b3.2.2.symm⟩

theorem initLoop_agents {s' : St (world F sc R)} : ∀ (ns : List N) (s : St (world F sc R)), ns.Nodup →
    initLoop s ns = .ok s' → (∀ n ∈ ns, R.onInit (s.w.1 n) n = .ok (s'.w.1 n)) ∧
      ∀ n, n ∉ ns → s'.w.1 n = s.w.1 n
  | [], s, _, h => by
    injection h with h
    subst h
    simp
  | n :: ns, s, hnd, h => by
    unfold initLoop at h
    obtain ⟨_, -, h⟩ := bind_ok.mp h
    obtain ⟨w', hi, h⟩ := bind_ok.mp h
    have hi := liftU_ok.mp hi
    obtain ⟨a, ha, hw⟩ : ∃ a, R.onInit (s.w.1 n) n = .ok a ∧ w'.1 = Function.update s.w.1 n a := by
      change (match R.onInit (s.w.1 n) n with
        | .error e => .error e
        | .ok a => .ok (Function.update s.w.1 n a, s.w.2)) = Except.ok w' at hi
      split at hi
      · cases hi
      · rename_i a ha
        injection hi with hi
        exact ⟨a, ha, by rw [← hi]⟩
    obtain ⟨h1, h2⟩ := initLoop_agents ns _ (List.nodup_cons.mp hnd).2 h
    dsimp only at h1 h2
    refine ⟨fun k hk => ?_, fun k hk => ?_⟩
    · by_cases hkn : k = n
      · subst hkn
        rw [h2 k (List.nodup_cons.mp hnd).1, hw, Function.update_self]
        exact ha
      · have hk' : k ∈ ns := by simpa [hkn] using hk
        have := h1 k hk'
        rw [hw, Function.update_of_ne hkn] at this
        exact this
    · simp only [List.mem_cons, not_or] at hk
      rw [h2 k hk.2, hw, Function.update_of_ne hk.1]

/-- **C100.** The log returned by a fresh run: the commands, computation times and extra objects logged for
a player are the replies of its agent, alone, after the beginning of the episode, to the observations it was
given. -/
theorem C100_log [IsStrictOrderedRing K] [FloorSemiring K] {cfg : Cfg (world F sc R)}
    (hdt : 0 < cfg.dt) (hm : Dict.Wf cfg.missions) {fuel : Nat} {s s' : St (world F sc R)}
    {log log' : Dict N (PlayerLog (world F sc R))} (hf : Fresh s)
    (hrun : run cfg fuel s log = some (.ok (s', log'))) (n : N) (hn : n ∈ Dict.keys s.models) :
    ∃ a0 out pl, R.onInit (s.w.1 n) n = .ok a0 ∧
      Alone R a0 (observationsOf n s'.trace) (s'.w.1 n) out ∧
      Dict.get? log' n = some pl ∧ pl.commands.vs = out.map (fun x => x.1) ∧
      pl.info.vs = out.map (fun x => x.2.1) ∧ pl.extra.vs = out.filterMap (fun x => x.2.2) := by
  unfold run at hrun
  cases hi : initLoop s s.players with
  | error e => rw [hi] at hrun; injection hrun with hrun; cases hrun
  | ok s1 =>
    rw [hi] at hrun
    simp only at hrun
    obtain ⟨hready, w, lgs, hs1⟩ := (safe_initLoop_fresh s hf).ok hi
    obtain ⟨hagents, -⟩ := initLoop_agents s.players s hf.players hi
    have hnp : n ∈ s.players := (hf.keys n).mpr hn
    cases hl : loop cfg fuel s1 with
    | none => rw [hl] at hrun; cases hrun
    | some r =>
      rw [hl] at hrun
      cases r with
      | error e => injection hrun with hrun; cases hrun
      | ok s2 =>
        simp only at hrun
        cases hw : writeLog s2.logger (Dict.keys s2.models) log with
        | error e => rw [hw] at hrun; injection hrun with hrun; cases hrun
        | ok l =>
          rw [hw] at hrun; injection hrun with hrun; injection hrun with hrun
          injection hrun with e1 e2
          subst e1 e2
          obtain ⟨σ, j, h0, -, hex, hend, -⟩ := loop_ok fuel s1 s2 hl
          rw [← h0] at hready
          have hinv := inv_of_exec (inv_zero cfg σ hready) hdt hm j hex
          have hwl := (safe_writeLog s2.logger (Dict.keys s2.models) log (by
            intro k hk
            rw [← hend] at hk ⊢
            obtain ⟨lg, i, x, g1, g2, _⟩ := logger_of_inv hinv k hk
            exact ⟨lg, g1, (logInv_asSequence hdt g2).1⟩)).ok hw
          have hk : n ∈ Dict.keys s2.models := by
            rw [← hend, hinv.keys, h0, hs1]; exact hn
          obtain ⟨out, lg, a1, a2, a3⟩ := C100_alone hready hex n (by rw [h0, hs1]; exact hnp)
          rw [hend] at a1 a2
          obtain ⟨lg', b1, b2⟩ := hwl.1 n hk
          rw [a2] at b1
          injection b1 with b1
          subst b1
          refine ⟨s1.w.1 n, out, lg.seqs, hagents n hnp, ?_, b2, a3.1, a3.2.1, a3.2.2⟩
          rw [h0] at a1
          exact a1

/-- What all replies of an agent have in common, all replies of the lone agent have. -/
theorem Alone.all {a b : R.A} {os : List (Obs N K R.X F.S)} {out : List (R.C × R.I × Option R.E)}
    (h : Alone R a os b out) (I : R.A → Prop) (G : R.C → Prop) (ha : I a)
    (hask : ∀ a o a' c i, I a → R.ask a o = .ok (a', c, i) → I a' ∧ G c)
    (hex : ∀ a a' e, I a → R.extra a = .ok (a', e) → I a') : I b ∧ ∀ x ∈ out, G x.1 := by
  induction h with
  | start => exact ⟨ha, by simp⟩
  | ask _ h1 h2 ih =>
    obtain ⟨i1, i2⟩ := ih
    obtain ⟨j1, j2⟩ := hask _ _ _ _ _ i1 h1
    refine ⟨hex _ _ _ j1 h2, fun x hx => ?_⟩
    rw [List.mem_append] at hx
    rcases hx with hx | hx
    · exact i2 x hx
    · simp only [List.mem_singleton] at hx
      subst hx
      exact j2

/-- **C100.** A lane follower (sim/agents/lane_follower.py) in a simulation: every command in the log is
within the limits of its vehicle, whatever the other players do. -/
theorem C100_laneFollower {F : Iface N ℝ} {R : Parts N ℝ F.M F.S} {cfg : Cfg (world F sc R)}
    (hdt : 0 < cfg.dt) (hm : Dict.Wf cfg.missions) {fuel : Nat} {s s' : St (world F sc R)}
    {log log' : Dict N (PlayerLog (world F sc R))} (hf : Fresh s)
    (hrun : run cfg fuel s log = some (.ok (s', log'))) (n : N) (hn : n ∈ Dict.keys s.models)
    {L : Type} {lane : List Maps.CtrPoint} {p : Phys.VehicleParams ℝ} {wb lr : ℝ}
    {b : SpeedBehaviorParam ℝ} {lights : List L} {cl : ℝ × ℝ → ℝ}
    {mi : (ℝ → Except Err ℝ) → ℝ → ℝ → Except Err ℝ} {c : Agents.Conf L}
    (hc : Agents.Conf.mk? lane p wb lr b lights cl mi = .ok c)
    (Is : R.A → Agents.LF N → Prop) (cmd : R.C → Agents.Cmd L)
    (hstart : ∀ a, R.onInit (s.w.1 n) n = .ok a → ∃ lf, Is a lf)
    (hask : ∀ a lf o a' u i, Is a lf → R.ask a o = .ok (a', u, i) → ∃ lf' ps,
      Is a' lf' ∧ lf.getCommands c ps o.time = (lf', .ok (cmd u)))
    (hextra : ∀ a lf a' e, Is a lf → R.extra a = .ok (a', e) → Is a' lf) :
    ∃ pl, Dict.get? log' n = some pl ∧ ∀ u ∈ pl.commands.vs,
      p.accMin ≤ (cmd u).acc ∧ (cmd u).acc ≤ p.accMax ∧ |(cmd u).ddelta| ≤ p.ddeltaMax := by
  obtain ⟨a0, out, pl, h1, h2, h3, h4, -⟩ := C100_log hdt hm hf hrun n hn
  refine ⟨pl, h3, fun u hu => ?_⟩
  have hall := (h2.all (fun a => ∃ lf, Is a lf)
    (fun u => p.accMin ≤ (cmd u).acc ∧ (cmd u).acc ≤ p.accMax ∧ |(cmd u).ddelta| ≤ p.ddeltaMax)
    (hstart a0 h1) (fun a o a' u i ⟨lf, hlf⟩ h => by
      obtain ⟨lf', ps, g1, g2⟩ := hask a lf o a' u i hlf h
      refine ⟨⟨lf', g1⟩, Agents.C66_limits hc lf [.ask ps o.time] (cmd u) ?_⟩
      simp [Agents.LF.run, Agents.LF.step, g2])
    (fun a a' e ⟨lf, hlf⟩ h => ⟨lf, hextra a lf a' e hlf h⟩)).2
  rw [h4, List.mem_map] at hu
  obtain ⟨x, hx, rfl⟩ := hu
  exact hall x hx

/-! ## Concrete cases -/

/-- In the run of `Toy` the agent of car 0 was asked three times. -/
example : ∃ out lg, Alone Toy.parts ((Toy.σ 0).w.1 0) (observationsOf 0 (Toy.σ 6).trace) ((Toy.σ 6).w.1 0) out ∧
    Dict.get? (Toy.σ 6).logger 0 = some lg ∧ Holds lg out ∧ lg.commands.vs = [1, 0, 0] := by
  obtain ⟨out, lg, h1, h2, h3⟩ := C100_alone Toy.ready Toy.exec 0 (by decide +kernel)
  refine ⟨out, lg, h1, h2, h3, ?_⟩
  have h : (Dict.get? (Toy.σ 6).logger 0).map (fun lg => lg.commands.vs) = some [1, 0, 0] := by
    decide +kernel
  rw [h2] at h
  injection h

/-- Two runs for `C100_isolated`: the second one would stop earlier after a collision; car 0 observes
the same in the first step. -/
def Toy.other : Nat → St Toy.wd
  | 0 => Toy.σ 0
  | j + 1 => Sim.Toy.orElse (Toy.other j) (step { Toy.cfg with afterCollision := 1 } (Toy.other j))

example : (Toy.σ 1).w.1 0 = (Toy.other 1).w.1 0 := by
  refine (C100_isolated (cfg := Toy.cfg) (cfg' := { Toy.cfg with afterCollision := 1 }) (σ := Toy.σ)
    (σ' := Toy.other) (j := 1) (j' := 1) Toy.ready (fun i hi => Toy.exec i (by omega)) Toy.ready ?_ 0
    (by decide +kernel) (by decide +kernel) rfl ?_).1
  · intro i hi
    obtain rfl : i = 0 := by omega
    exact ⟨by decide +kernel, Sim.Toy.eq_ok (Toy.other 0) (by decide +kernel)⟩
  · rfl

section LaneFollower
open Agents.Straight

/-- A world with one car driven by the lane follower `Agents.Straight.dotConf`; the sensor always shows
`Agents.Straight.alone`. -/
noncomputable abbrev lfParts : Parts Nat ℝ bikeF.M bikeF.S where
  A := Agents.LF Nat
  V := Unit
  X := VehicleState ℝ
  C := Agents.Cmd Nat
  I := Unit
  E := Unit
  G := Unit
  getState m := m.1
  isDyn _ := false
  onInit a n := .ok (a.onInit (dotConf [0, 1, 2, 3, 4]) n)
  sense v _ o := .ok (v, o)
  ask a o := match a.getCommands (dotConf [0, 1, 2, 3, 4]) alone o.time with
    | (a', .ok u) => .ok (a', u, ())
    | (_, .error e) => .error e
  extra a := .ok (a, none)
  update v _ m _ _ := .ok (v, m)
  fulfilled v _ _ _ _ := .ok (v, false)
  envQuery _ _ := []

noncomputable abbrev lfCfg : Cfg (world bikeF true lfParts) :=
  { dt := 3, dtCommands := 3, maxSimTime := 2, afterCollision := 4, missions := [] }

noncomputable def lfStart : St (world bikeF true lfParts) where
  models := [(0, ((⟨0, 0, 0, 10, 0⟩ : VehicleState ℝ), false))]
  players := [0]
  w := (fun _ => Agents.LF.init, ())
  time := 0
  terminated := false
  reports := []
  firstColl := none
  lastObs := ⟨[], 0⟩
  lastCmdTs := none
  lastCmds := []
  logger := []
  trace := []

theorem lf_run : ∃ s' log', run lfCfg 5 lfStart [] = some (.ok (s', log')) := by
  have h23 : (2 : ℝ) < 3 := by norm_num
  obtain ⟨u, hu, -⟩ := dot_answer [0, 1, 2, 3, 4] 0 rfl rfl
  have hu' : ∃ a', Agents.LF.getCommands (dotConf [0, 1, 2, 3, 4])
      (Agents.LF.onInit (dotConf [0, 1, 2, 3, 4]) Agents.LF.init 0) alone 0 = (a', .ok u) :=
    ⟨_, Prod.ext rfl hu⟩
  obtain ⟨a', ha'⟩ := hu'
  simp [run, initLoop, lfStart, loop, step, preUpdate, need, observe, lookup, Dict.get?, liftU, update,
    updateLoop, updatePlayer, addLog, Builder.add, maybeAsk, askPlayer, addExtra, Dict.set, postUpdate,
    removeLoop, terminationCondition, collTimer, writeLog, Dict.keys, PlayerLogger.asSequence,
    Builder.asSequence, Seq.mk?, Seq.increasing, bind, Except.bind, pure, Except.pure, h23, ha']

/-- The hypotheses of `C100_laneFollower` (and `C100_log`) are met. -/
example : ∃ log' : Dict Nat (PlayerLog (world bikeF true lfParts)), ∃ pl, Dict.get? log' 0 = some pl ∧
    ∀ u ∈ pl.commands.vs, -8 ≤ u.acc := by
  obtain ⟨s', log', hrun⟩ := lf_run
  have hfresh : Fresh lfStart := ⟨rfl, rfl, rfl, rfl, rfl, by simp [Dict.Wf, lfStart, Dict.keys],
    by simp [lfStart], by simp [lfStart, Dict.keys], rfl⟩
  obtain ⟨pl, h1, h2⟩ := C100_laneFollower (by norm_num) (by simp [Dict.Wf, Dict.keys]) hfresh hrun 0
    (by simp [lfStart, Dict.keys]) (c := dotConf [0, 1, 2, 3, 4]) (lane := dot) (p := params) (wb := 3) (lr := 1)
    (b := ⟨11, 7, 2, 3 / 2⟩) (lights := [0, 1, 2, 3, 4]) (cl := fun _ => 0) (mi := fun _ lo _ => .ok lo) (by
      norm_num [Agents.Conf.mk?, Agents.speedParam, Agents.steerParam, PIDParam.mk?, params, dotConf, conf])
    (fun a lf => a = lf) (fun u => u) (fun a _ => ⟨a, rfl⟩) (by
      rintro a lf o a' u i rfl h
      refine ⟨a', alone, rfl, ?_⟩
      change (match a.getCommands (dotConf [0, 1, 2, 3, 4]) alone o.time with
        | (a', .ok u) => Except.ok (a', u, ())
        | (_, .error e) => Except.error e) = Except.ok (a', u, i) at h
      split at h
      · rename_i a2 u2 h'
        injection h with h
        injection h with e1 h
        injection h with e2 e3
        subst e1 e2
        exact h'
      · cases h) (by
      rintro a lf a' e rfl h
      injection h with h
      injection h with h _
      exact h.symm)
  exact ⟨log', pl, h1, fun u hu => (h2 u hu).1⟩

end LaneFollower

end Whole
end Verif
