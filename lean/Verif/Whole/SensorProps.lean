import Verif.Whole.ReplayProps

/-!
# What agents see in a run (C109)

Every player has an observation filter of its own. The agents are shown what their filters, alone, make of the
snapshots at the times of the requests.
-/

set_option linter.unusedSectionVars false

namespace Verif
namespace Whole

open Sim Coll Perception

variable {N K : Type} [DecidableEq N] [Field K] [LinearOrder K] {F : Iface N K} {sc : Bool} {Sc : Type}

/-- The world `R` with the sensors `f n` of the players in place of its own, `sim_context.sensors[player_name]`
(simulator.py:39-40, 136-138); `scen` is the scenario of the context. -/
abbrev withSensors (R : Parts N K F.M F.S) (f : N → Filter N K R.X F.S Sc) (scen : Sc) :
    Parts N K F.M F.S where
  A := R.A
  V := ((n : N) → (f n).S) × R.V
  X := R.X
  C := R.C
  I := R.I
  E := R.E
  G := R.G
  getState := R.getState
  isDyn := R.isDyn
  onInit := R.onInit
  sense v n o := match (f n).sense (v.1 n) scen o n with
    | .error e => .error e
    | .ok (s, r) => .ok ((Function.update v.1 n s, v.2), r)
  ask := R.ask
  extra := R.extra
  update v n m c dt := match R.update v.2 n m c dt with
    | .error e => .error e
    | .ok (u, m') => .ok ((v.1, u), m')
  fulfilled v n g x t := match R.fulfilled v.2 n g x t with
    | .error e => .error e
    | .ok (u, b) => .ok ((v.1, u), b)
  envQuery v s := R.envQuery v.2 s

/-- What the sensor of player `n` was given. -/
def sensedOf {Wd : World N K} (n : N) (tr : List (Event Wd)) : List (Obs N K Wd.X Wd.P) :=
  tr.filterMap fun e => match e with
    | .sense _ n' o => if n' = n then some o else none
    | _ => none

theorem sensedOf_append {Wd : World N K} (n : N) (a b : List (Event Wd)) :
    sensedOf n (a ++ b) = sensedOf n a ++ sensedOf n b := by
  simp [sensedOf]

theorem senseAll_append {X P : Type} (f : Filter N K X P Sc) : ∀ (l l' : List (Sc × Obs N K X P × N)) (s s1 s2 : f.S)
    (r1 r2 : List (Obs N K X P)), senseAll f s l = .ok (s1, r1) → senseAll f s1 l' = .ok (s2, r2) →
    senseAll f s (l ++ l') = .ok (s2, r1 ++ r2)
  | [], l', s, s1, s2, r1, r2, h1, h2 => by
    injection h1 with h1
    injection h1 with e1 e2
    subst e1 e2
    exact h2
  | (a, o, p) :: l, l', s, s1, s2, r1, r2, h1, h2 => by
    unfold senseAll at h1
    split at h1
    · cases h1
    · rename_i s3 r3 h3
      split at h1
      · cases h1
      · rename_i s4 r4 h4
        injection h1 with h1
        injection h1 with e1 e2
        subst e1 e2
        rw [List.cons_append, senseAll, h3]
        simp only [senseAll_append f l l' s3 s4 s2 r4 r2 h4 h2, List.cons_append]

theorem drive_world {R : Parts N K F.M F.S} {w w' : (world F sc R).W} {n : N} {m m' : F.M} {c : R.C} {dt : K}
    (h : (world F sc R).update w n m c dt = .ok (w', m')) : R.update w.2 n m c dt = .ok (w'.2, m') ∧ w'.1 = w.1 := by
  change (match R.update w.2 n m c dt with
    | .error e => .error e
    | .ok (v, m') => .ok ((w.1, v), m')) = Except.ok (w', m') at h
  cases hr : R.update w.2 n m c dt with
  | error e => rw [hr] at h; cases h
  | ok r =>
    obtain ⟨v, r⟩ := r
    rw [hr] at h
    injection h with h
    injection h with e1 e2
    subst e1 e2
    exact ⟨rfl, rfl⟩

theorem fulfilled_world {R : Parts N K F.M F.S} {w w' : (world F sc R).W} {n : N} {g : R.G} {x : R.X} {t : K} {b : Bool}
    (h : (world F sc R).fulfilled w n g x t = .ok (w', b)) :
    R.fulfilled w.2 n g x t = .ok (w'.2, b) ∧ w'.1 = w.1 := by
  change (match R.fulfilled w.2 n g x t with
    | .error e => .error e
    | .ok (v, b) => .ok ((w.1, v), b)) = Except.ok (w', b) at h
  cases hr : R.fulfilled w.2 n g x t with
  | error e => rw [hr] at h; cases h
  | ok r =>
    obtain ⟨v, r⟩ := r
    rw [hr] at h
    injection h with h
    injection h with e1 e2
    subst e1 e2
    exact ⟨rfl, rfl⟩

variable {R : Parts N K F.M F.S} {f : N → Filter N K R.X F.S Sc} {scen : Sc}

/-- The sensors have been called with what the trace says, and nothing else has touched them. -/
def Seen (v0 : (n : N) → (f n).S) (s : St (world F sc (withSensors R f scen))) : Prop :=
  ∀ n, senseAll (f n) (v0 n) ((sensedOf n s.trace).map fun o => (scen, o, n)) =
    .ok (s.w.2.1 n, observationsOf n s.trace)

theorem Seen.silent {v0 : (n : N) → (f n).S} {s t : St (world F sc (withSensors R f scen))} (h : Seen v0 s)
    {es : List (Event (world F sc (withSensors R f scen)))} (ht : t.trace = s.trace ++ es)
    (he : ∀ n, sensedOf n es = [] ∧ observationsOf n es = []) (hw : t.w.2.1 = s.w.2.1) : Seen v0 t := by
  intro n
  rw [ht, sensedOf_append, observationsOf_append, (he n).1, (he n).2, List.append_nil, List.append_nil, hw]
  exact h n

theorem seen_closed (cfg : Cfg (world F sc (withSensors R f scen))) (v0 : (n : N) → (f n).S) :
    Closed cfg (fun s => s.players.Nodup ∧ Seen v0 s) where
  nodup s h := h.1
  observed s ps h _ := h
  logged s n m lg states h _ _ _ _ := h
  asked s n s' h _ ha := by
    refine ⟨by rw [(askPlayer_frame ha).1]; exact h.1, ?_⟩
    unfold askPlayer at ha
    obtain ⟨⟨w1, o⟩, hs, ha⟩ := bind_ok.mp ha
    obtain ⟨⟨w2, c, i⟩, hc, ha⟩ := bind_ok.mp ha
    obtain ⟨lg, -, ha⟩ := bind_ok.mp ha
    obtain ⟨cs, -, ha⟩ := bind_ok.mp ha
    obtain ⟨is, -, ha⟩ := bind_ok.mp ha
    obtain ⟨⟨w3, ex⟩, hex, ha⟩ := bind_ok.mp ha
    obtain ⟨es, -, ha⟩ := bind_ok.mp ha
    injection ha with ha
    obtain ⟨v, hv, hw1⟩ : ∃ v, (f n).sense (s.w.2.1 n) scen s.lastObs n = .ok (v, o) ∧
        w1.2.1 = Function.update s.w.2.1 n v := by
      obtain ⟨-, hs, -⟩ := sense_other (liftU_ok.mp hs)
      dsimp only at hs
      cases hf : (f n).sense (s.w.2.1 n) scen s.lastObs n with
      | error e => rw [hf] at hs; cases hs
      | ok r =>
        obtain ⟨v, r⟩ := r
        rw [hf] at hs
        injection hs with hs
        injection hs with e1 e2
        subst e2
        exact ⟨v, rfl, by rw [← e1]⟩
    obtain ⟨_, _, rfl⟩ := ask_world.mp (liftU_ok.mp hc)
    obtain ⟨_, _, rfl⟩ := extra_world.mp (liftU_ok.mp hex)
    intro k
    have hk := h.2 k
    subst ha
    dsimp only
    rw [sensedOf_append, observationsOf_append, List.map_append, hw1]
    by_cases hkn : n = k
    · subst hkn
      have e1 : sensedOf n [(Event.sense s.time n s.lastObs : Event (world F sc (withSensors R f scen))),
          Event.ask s.time n o] = [s.lastObs] := by simp [sensedOf]
      have e2 : observationsOf n [(Event.sense s.time n s.lastObs : Event (world F sc (withSensors R f scen))),
          Event.ask s.time n o] = [o] := by simp [observationsOf]
      rw [e1, e2, Function.update_self]
      refine senseAll_append (f n) _ _ _ _ _ _ _ hk ?_
      simp only [List.map_cons, List.map_nil, senseAll, hv]
    · have e1 : sensedOf k [(Event.sense s.time n s.lastObs : Event (world F sc (withSensors R f scen))),
          Event.ask s.time n o] = [] := by simp [sensedOf, hkn]
      have e2 : observationsOf k [(Event.sense s.time n s.lastObs : Event (world F sc (withSensors R f scen))),
          Event.ask s.time n o] = [] := by simp [observationsOf, hkn]
      rw [e1, e2, Function.update_of_ne (Ne.symm hkn)]
      simpa using hk
  driven s n m c w' m' h _ hm _ hu := by
    refine ⟨h.1, h.2.silent rfl (fun k => by simp [sensedOf, observationsOf]) ?_⟩
    have hu := (drive_world hu).1
    dsimp only at hu
    cases hr : R.update s.w.2.2 n m c cfg.dt with
    | error e => rw [hr] at hu; cases hu
    | ok r =>
      obtain ⟨v, r⟩ := r
      rw [hr] at hu
      injection hu with hu
      injection hu with e1 e2
      rw [← e1]
  stamped s h := h
  timed s h := h
  removed s p g s' h hr := by
    refine ⟨by rcases (removePlayer_frame hr).2.2 with e | e <;> rw [e]; exacts [h.1, h.1.erase p], ?_⟩
    unfold removePlayer at hr
    split at hr
    · obtain ⟨m, -, hr⟩ := bind_ok.mp hr
      obtain ⟨⟨w', b⟩, hf, hr⟩ := bind_ok.mp hr
      have hw : w'.2.1 = s.w.2.1 := by
        have hf := (fulfilled_world (liftU_ok.mp hf)).1
        dsimp only at hf
        cases hr : R.fulfilled s.w.2.2 p g (R.getState m) s.time with
        | error e => rw [hr] at hf; cases hf
        | ok r =>
          obtain ⟨v, r⟩ := r
          rw [hr] at hf
          injection hf with hf
          injection hf with e1 e2
          rw [← e1]
      dsimp only at hr
      split at hr
      · obtain ⟨lg, -, hr⟩ := bind_ok.mp hr
        obtain ⟨states, -, hr⟩ := bind_ok.mp hr
        injection hr with hr
        subst hr
        exact h.2.silent rfl (fun k => by simp [sensedOf, observationsOf]) hw
      · injection hr with hr
        subst hr
        exact h.2.silent rfl (fun k => by simp [sensedOf, observationsOf]) hw
    · injection hr with hr
      subst hr
      exact h.2
  ended s b h := h
  traced s p h := ⟨h.1, h.2.silent rfl (fun k => by simp [sensedOf, observationsOf]) rfl⟩
  env s p o s' h _ _ he := by
    refine ⟨by rw [envObstacle_players he]; exact h.1, ?_⟩
    obtain ⟨m, rep, -, -, -, ew, el, -⟩ := envObstacle_frame he
    have ew : s'.w = s.w := ew
    exact h.2.silent (es := []) (by rw [envObstacle_trace he, List.append_nil])
      (fun k => by simp [sensedOf, observationsOf]) (by rw [ew])
  pair s a b s' h _ _ _ hp := by
    refine ⟨by rw [checkPair_players hp]; exact h.1, ?_⟩
    have ew : s'.w = s.w := by
      obtain ⟨ma, mb, -, -, ⟨-, -, ew, el, -⟩ | ⟨rep, -, -, -, ew, el, -⟩⟩ := checkPair_frame hp
      exacts [ew, ew]
    exact h.2.silent (checkPair_trace hp) (fun k => by simp [sensedOf, observationsOf]) (by rw [ew])

/-- **C109.** In every execution the observations an agent is given are what the sensor of its player, alone,
makes of the snapshots it was called with, one after the other. -/
theorem C109_seen {cfg : Cfg (world F sc (withSensors R f scen))}
    {σ : Nat → St (world F sc (withSensors R f scen))} {j : Nat} (h0 : Ready (σ 0)) (hx : Exec cfg σ j) (n : N) :
    senseAll (f n) ((σ 0).w.2.1 n) ((sensedOf n (σ j).trace).map fun o => (scen, o, n)) =
      .ok ((σ j).w.2.1 n, observationsOf n (σ j).trace) := by
  refine ((seen_closed cfg (σ 0).w.2.1).exec ⟨h0.fresh.players, fun k => ?_⟩ hx j le_rfl).2 n
  rw [h0.fresh.trace]
  rfl

section
variable [IsStrictOrderedRing K] [FloorSemiring K]

/-- `o` shows the players of `s` with their states and footprints at time `t`. -/
def Shows {Wd : World N K} (s : St Wd) (t : K) (o : Obs N K Wd.X Wd.P) : Prop :=
  o.time = t ∧ Dict.keys o.players = s.players ∧
    ∀ m ∈ s.players, ∃ x, Dict.get? s.models m = some x ∧
      Dict.get? o.players m = some (Wd.getState x, Wd.footprint x)

theorem trace_succ {Wd : World N K} {cfg : Cfg Wd} {s s' : St Wd} (hn : s.players.Nodup) (h : step cfg s = .ok s') :
    s.trace <+: s'.trace := by
  have hc : Closed cfg (fun t => t.players.Nodup ∧ s.trace <+: t.trace) := {
    nodup := fun t h => h.1
    observed := fun t ps h _ => h
    logged := fun t n m lg states h _ _ _ _ => h
    asked := fun t n t' h _ ha => by
      refine ⟨by rw [(askPlayer_frame ha).1]; exact h.1, ?_⟩
      unfold askPlayer at ha
      obtain ⟨⟨w1, o⟩, hs, ha⟩ := bind_ok.mp ha
      obtain ⟨⟨w2, c, i⟩, hc, ha⟩ := bind_ok.mp ha
      obtain ⟨lg, -, ha⟩ := bind_ok.mp ha
      obtain ⟨cs, -, ha⟩ := bind_ok.mp ha
      obtain ⟨is, -, ha⟩ := bind_ok.mp ha
      obtain ⟨⟨w3, ex⟩, hex, ha⟩ := bind_ok.mp ha
      obtain ⟨es, -, ha⟩ := bind_ok.mp ha
      injection ha with ha
      subst ha
      exact h.2.trans (List.prefix_append _ _)
    driven := fun t n m c w' m' h _ hm _ hu => ⟨h.1, h.2.trans (List.prefix_append _ _)⟩
    stamped := fun t h => h
    timed := fun t h => h
    removed := fun t p g t' h hr => by
      refine ⟨by rcases (removePlayer_frame hr).2.2 with e | e <;> rw [e]; exacts [h.1, h.1.erase p], ?_⟩
      unfold removePlayer at hr
      split at hr
      · obtain ⟨m, -, hr⟩ := bind_ok.mp hr
        obtain ⟨⟨w', b⟩, hf, hr⟩ := bind_ok.mp hr
        dsimp only at hr
        split at hr
        · obtain ⟨lg, -, hr⟩ := bind_ok.mp hr
          obtain ⟨states, -, hr⟩ := bind_ok.mp hr
          injection hr with hr
          subst hr
          exact h.2.trans (List.prefix_append _ _)
        · injection hr with hr
          subst hr
          exact h.2.trans (List.prefix_append _ _)
      · injection hr with hr
        subst hr
        exact h.2
    ended := fun t b h => h
    traced := fun t p h => ⟨h.1, h.2.trans (List.prefix_append _ _)⟩
    env := fun t p o t' h _ _ he => by
      refine ⟨by rw [envObstacle_players he]; exact h.1, ?_⟩
      rw [envObstacle_trace he]
      exact h.2
    pair := fun t a b t' h _ _ _ hp => by
      refine ⟨by rw [checkPair_players hp]; exact h.1, ?_⟩
      rw [checkPair_trace hp]
      exact h.2.trans (List.prefix_append _ _) }
  exact (hc.step ⟨hn, List.prefix_rfl⟩ h).2

theorem trace_eq {Wd : World N K} {cfg : Cfg Wd} {σ : Nat → St Wd} {j : Nat} (h0 : Ready (σ 0)) (hdt : 0 < cfg.dt)
    (hm : Dict.Wf cfg.missions) (hx : Exec cfg σ (j + 1)) : (σ (j + 1)).trace = (σ j).trace ++ eventsOf σ j := by
  have hinv := inv_of_exec (inv_zero cfg σ h0) hdt hm j (fun i hi => hx i (by omega))
  have hp := trace_succ hinv.nodup (hx j (by omega)).2
  exact List.prefix_iff_eq_append.mp hp |>.symm

theorem sensedOf_step {Wd : World N K} {cfg : Cfg Wd} {σ : Nat → St Wd} {j : Nat} (h0 : Ready (σ 0)) (hdt : 0 < cfg.dt)
    (hm : Dict.Wf cfg.missions) (hx : Exec cfg σ (j + 1)) (n : N) :
    (¬ (n ∈ (σ j).players ∧ period cfg ∣ j) → sensedOf n (eventsOf σ j) = []) ∧
    (n ∈ (σ j).players → period cfg ∣ j → ∃ o, sensedOf n (eventsOf σ j) = [o] ∧ Shows (σ j) ((j : K) * cfg.dt) o) := by
  have hinv := inv_of_exec (inv_zero cfg σ h0) hdt hm j (fun i hi => hx i (by omega))
  obtain ⟨o, es, gl, cl, h⟩ := step_events h0 hdt hm hx
  have hnd : (es.map Prod.fst).Nodup := by rw [h.names]; exact hinv.nodup
  have hgl : sensedOf n gl = [] := by
    rw [sensedOf, List.filterMap_eq_nil_iff]
    intro e he
    obtain ⟨p, x, -, rfl⟩ := h.goals e he
    rfl
  have hcl : sensedOf n cl = [] := by
    rw [sensedOf, List.filterMap_eq_nil_iff, h.colls]
    intro e he
    split at he
    · cases he
    · rcases List.mem_append.mp he with he | he
      · obtain ⟨p, -, rfl⟩ := List.mem_map.mp he
        rfl
      · obtain ⟨p, -, rfl⟩ := List.mem_map.mp he
        rfl
  have hall : ∀ es : List (N × Obs N K Wd.X Wd.P × Wd.M × Wd.C), (es.map Prod.fst).Nodup →
      sensedOf n (es.flatMap (fun e =>
        playerEvents { (σ j) with lastObs := o } (need cfg (σ j)) e.1 e.2.1 e.2.2.1 e.2.2.2)) =
      if n ∈ es.map Prod.fst ∧ need cfg (σ j) = true then [o] else [] := by
    intro es hnd
    induction es with
    | nil => simp [sensedOf]
    | cons e es ih =>
      rw [List.map_cons, List.nodup_cons] at hnd
      rw [List.flatMap_cons, sensedOf_append, ih hnd.2, List.map_cons]
      by_cases hn : need cfg (σ j) = true
      · by_cases he : e.1 = n
        · subst he
          simp [sensedOf, playerEvents, hn, hnd.1]
        · have he' : n ≠ e.1 := fun q => he q.symm
          have hi : n ∈ e.1 :: es.map Prod.fst ↔ n ∈ es.map Prod.fst := by
            rw [List.mem_cons]
            exact or_iff_right he'
          have hs : sensedOf n (playerEvents { (σ j) with lastObs := o } (need cfg (σ j)) e.1 e.2.1 e.2.2.1 e.2.2.2) =
              [] := by simp [sensedOf, playerEvents, hn, he]
          rw [hs, List.nil_append]
          exact if_congr (and_congr_left fun _ => hi.symm) rfl rfl
      · rw [if_neg (fun q => hn q.2), if_neg (fun q => hn q.2)]
        simp [sensedOf, playerEvents, hn]
  have hev : sensedOf n (eventsOf σ j) = if n ∈ (σ j).players ∧ period cfg ∣ j then [o] else [] := by
    rw [h.eq, sensedOf_append, sensedOf_append, hgl, hcl, hall es hnd, h.names, List.append_nil, List.append_nil]
    simp only [need_iff hinv hdt]
  refine ⟨fun hn => by rw [hev, if_neg hn], fun hn hp => ⟨o, by rw [hev, if_pos ⟨hn, hp⟩], ?_⟩⟩
  obtain ⟨a, b, c⟩ := h.snap ((need_iff hinv hdt).mpr hp)
  exact ⟨by rw [a, hinv.time], b, c⟩

/-- **C109.** In every execution the `k`-th call of the sensor of a player shows the world at the `k`-th time for
commands, in the state it then had; there is one such call for every time for commands at which the player is in
the simulation. -/
theorem C109_snapshots {Wd : World N K} {cfg : Cfg Wd} {σ : Nat → St Wd} {j : Nat} (h0 : Ready (σ 0))
    (hdt : 0 < cfg.dt) (hm : Dict.Wf cfg.missions) (hx : Exec cfg σ j) (n : N) :
    (∀ k, k < (sensedOf n (σ j).trace).length ↔ k * period cfg < j ∧ n ∈ (σ (k * period cfg)).players) ∧
    ∀ k o, (sensedOf n (σ j).trace)[k]? = some o →
      Shows (σ (k * period cfg)) (((k * period cfg : Nat) : K) * cfg.dt) o := by
  have hp := period_pos cfg
  suffices H : (n ∈ (σ j).players → (sensedOf n (σ j).trace).length * period cfg < j + period cfg ∧
      j ≤ (sensedOf n (σ j).trace).length * period cfg) ∧
      ((∀ k, k < (sensedOf n (σ j).trace).length ↔ k * period cfg < j ∧ n ∈ (σ (k * period cfg)).players) ∧
      ∀ k o, (sensedOf n (σ j).trace)[k]? = some o →
        Shows (σ (k * period cfg)) (((k * period cfg : Nat) : K) * cfg.dt) o) from H.2
  induction j with
  | zero =>
    have e : sensedOf n (σ 0).trace = [] := by rw [h0.fresh.trace]; rfl
    rw [e]
    refine ⟨fun _ => ⟨by simpa using hp, by simp⟩, fun k => by simp, fun k o h => by simp at h⟩
  | succ j ih =>
    have hx' : Exec cfg σ j := fun i hi => hx i (by omega)
    obtain ⟨ih1, ih2, ih3⟩ := ih hx'
    rw [trace_eq h0 hdt hm hx, sensedOf_append]
    obtain ⟨hno, hyes⟩ := sensedOf_step h0 hdt hm hx n
    have hmono : n ∈ (σ (j + 1)).players → n ∈ (σ j).players := by
      intro h
      by_contra hc
      exact players_mono h0 hdt hm hx n j hc (j + 1) (by omega) le_rfl h
    by_cases hc : n ∈ (σ j).players ∧ period cfg ∣ j
    · obtain ⟨o, ho, hs⟩ := hyes hc.1 hc.2
      obtain ⟨a, b⟩ := ih1 hc.1
      obtain ⟨q, hq⟩ := hc.2
      rw [ho]
      set L := sensedOf n (σ j).trace
      have hL : L.length = q := by
        rw [hq] at a b
        have a' : L.length * period cfg < (q + 1) * period cfg := by nlinarith
        have b' : q * period cfg ≤ L.length * period cfg := by nlinarith
        have := Nat.lt_of_mul_lt_mul_right a'
        have := Nat.le_of_mul_le_mul_right b' hp
        omega
      have hqj : q * period cfg = j := by rw [hq, mul_comm]
      refine ⟨fun _ => ?_, fun k => ?_, fun k o' hk => ?_⟩
      · rw [List.length_append, hL, List.length_singleton, add_mul, hqj]
        omega
      · rw [List.length_append, List.length_singleton, hL]
        constructor
        · intro h
          rcases Nat.lt_succ_iff_lt_or_eq.mp h with h | h
          · have := (ih2 k).mp (by omega)
            exact ⟨by omega, this.2⟩
          · subst h
            rw [hqj]
            exact ⟨by omega, hc.1⟩
        · rintro ⟨h1, h2⟩
          have : k * period cfg ≤ q * period cfg := by omega
          have := Nat.le_of_mul_le_mul_right this hp
          omega
      · rcases Nat.lt_or_ge k L.length with h | h
        · rw [List.getElem?_append_left h] at hk
          exact ih3 k o' hk
        · rw [List.getElem?_append_right h] at hk
          have hk0 : k = q := by
            have := (List.getElem?_eq_some_iff.mp hk).1
            simp at this
            omega
          subst hk0
          rw [hL] at hk
          simp at hk
          subst hk
          rw [hqj]
          exact hs
    · rw [hno hc, List.append_nil]
      refine ⟨fun h => ?_, fun k => ?_, ih3⟩
      · obtain ⟨a, b⟩ := ih1 (hmono h)
        have : j ≠ (sensedOf n (σ j).trace).length * period cfg := fun e => hc ⟨hmono h, ⟨_, by rw [mul_comm]; exact e⟩⟩
        omega
      · rw [ih2 k]
        refine and_congr_left fun h => ⟨fun h => by omega, fun h' => ?_⟩
        rcases Nat.lt_succ_iff_lt_or_eq.mp h' with h' | h'
        · exact h'
        · rw [h'] at h
          exact absurd ⟨h, ⟨k, by rw [mul_comm]; exact h'.symm⟩⟩ hc

/-- What the filter inside a delaying filter made of the calls. -/
theorem senseAll_delayed {X P : Type} (g : Filter N K X P Sc) (L : K) : ∀ (l : List (Sc × Obs N K X P × N))
    (u t : (delayed g L).S) (rs : List (Obs N K X P)),
    senseAll (delayed g L) u l = .ok (t, rs) → ∃ os, senseAll g u.1 l = .ok (t.1, os)
  | [], u, t, rs, h => by
    injection h with h
    injection h with e1 e2
    subst e1
    exact ⟨[], rfl⟩
  | (a, o, p) :: l, u, t, rs, h => by
    unfold senseAll at h
    split at h
    · cases h
    · rename_i s1 r1 h1
      split at h
      · cases h
      · rename_i s2 r2 h2
        injection h with h
        injection h with e1 e2
        subst e1
        simp only [delayed] at h1
        cases hg : g.sense u.1 a o p with
        | error e => rw [hg] at h1; cases h1
        | ok q =>
          obtain ⟨s3, r3⟩ := q
          rw [hg] at h1
          dsimp only at h1
          cases hd : delayStep L u.2 r3 with
          | error e => rw [hd] at h1; cases h1
          | ok q =>
            rw [hd] at h1
            injection h1 with h1
            injection h1 with e1 e2
            subst e1
            obtain ⟨os, ho⟩ := senseAll_delayed g L l _ s2 r2 h2
            refine ⟨r3 :: os, ?_⟩
            rw [senseAll, hg]
            simp only [ho]

/-- The calls that succeeded, one by one. -/
theorem senseAll_getElem {X P : Type} (g : Filter N K X P Sc) : ∀ (l : List (Sc × Obs N K X P × N)) (s t : g.S)
    (rs : List (Obs N K X P)), senseAll g s l = .ok (t, rs) → rs.length = l.length ∧
    ∀ (k : Nat) (c : Sc × Obs N K X P × N), l[k]? = some c →
      ∃ s1 s2 r, rs[k]? = some r ∧ g.sense s1 c.1 c.2.1 c.2.2 = .ok (s2, r)
  | [], s, t, rs, h => by
    injection h with h
    injection h with e1 e2
    subst e2
    exact ⟨rfl, fun k c h => by simp at h⟩
  | (a, o, p) :: l, s, t, rs, h => by
    unfold senseAll at h
    split at h
    · cases h
    · rename_i s1 r1 h1
      split at h
      · cases h
      · rename_i s2 r2 h2
        injection h with h
        injection h with e1 e2
        subst e1 e2
        obtain ⟨e, ih⟩ := senseAll_getElem g l s1 s2 r2 h2
        refine ⟨by simp [e], fun k c hk => ?_⟩
        cases k with
        | zero =>
          simp only [List.getElem?_cons_zero, Option.some.injEq] at hk
          subst hk
          exact ⟨s, s1, r1, rfl, h1⟩
        | succ k =>
          rw [List.getElem?_cons_succ] at hk ⊢
          exact ih k c hk

theorem senseAll_id {X P : Type} : ∀ (l : List (Sc × Obs N K X P × N)) (s : (idFilter N K X P Sc).S),
    senseAll (idFilter N K X P Sc) s l = .ok (s, l.map fun c => c.2.1)
  | [], s => rfl
  | (a, o, p) :: l, s => by
    have h : (idFilter N K X P Sc).sense s a o p = .ok (s, o) := rfl
    simp only [senseAll, h, senseAll_id l s, List.map_cons]

/-- **C109.** Let the sensor of a player delay by `d` command periods what a filter `g` lets through that keeps
the times. Then in every execution the agent sees at its `k`-th request, for `k ≥ d`, exactly what `g` made of the
snapshot at the `(k - d)`-th request, stamped with the present time. -/
theorem C109_delay {g : N → Filter N K R.X F.S Sc} {L : N → K}
    {cfg : Cfg (world F sc (withSensors R (fun n => delayed (g n) (L n)) scen))}
    {σ : Nat → St (world F sc (withSensors R (fun n => delayed (g n) (L n)) scen))} {j : Nat} (h0 : Ready (σ 0))
    (hdt : 0 < cfg.dt) (hm : Dict.Wf cfg.missions) (hx : Exec cfg σ j) (n : N) (d : Nat)
    (hL : L n = (d : K) * ((period cfg : K) * cfg.dt)) (hinit : (σ 0).w.2.1 n = (delayed (g n) (L n)).init)
    (hg : ∀ s o s' r, (g n).sense s scen o n = .ok (s', r) → r.time = o.time) :
    ∃ s os, senseAll (g n) (g n).init ((sensedOf n (σ j).trace).map fun o => (scen, o, n)) = .ok (s, os) ∧
      os.length = (sensedOf n (σ j).trace).length ∧ (observationsOf n (σ j).trace).length = os.length ∧
      (∀ k o, d ≤ k → k < os.length → os[k - d]? = some o →
        (observationsOf n (σ j).trace)[k]? = some (restamp o (((k * period cfg : Nat) : K) * cfg.dt))) ∧
      ∀ k o, k < d → k < os.length → os[0]? = some o →
        (observationsOf n (σ j).trace)[k]? = some (restamp o (L n)) := by
  have hall := C109_seen h0 hx n
  rw [hinit] at hall
  obtain ⟨os, ho⟩ := senseAll_delayed (g n) (L n) _ _ _ _ hall
  obtain ⟨hlen, hget⟩ := senseAll_getElem (g n) _ _ _ _ ho
  obtain ⟨-, hsh⟩ := C109_snapshots h0 hdt hm hx n
  have hpp : (0 : K) < (period cfg : K) * cfg.dt := mul_pos (by exact_mod_cast period_pos cfg) hdt
  have htimes : ∀ (k : Nat) (o : Obs N K R.X F.S), os[k]? = some o → o.time = (k : K) * ((period cfg : K) * cfg.dt) := by
    intro k o hk
    have hk' : k < (sensedOf n (σ j).trace).length := by
      have := (List.getElem?_eq_some_iff.mp hk).1
      rw [hlen, List.length_map] at this
      exact this
    have hs := List.getElem?_eq_getElem hk'
    obtain ⟨s1, s2, r, hr, hsn⟩ := hget k _ (by rw [List.getElem?_map, hs]; rfl)
    rw [hk] at hr
    injection hr with hr
    subst hr
    rw [hg _ _ _ _ hsn, (hsh k _ hs).1]
    push_cast
    ring
  obtain ⟨t, rs, h1, h2, h3, h4⟩ := C30_regular (g n) _ hpp d _ _ os ho htimes
  rw [← hL, hall] at h1
  injection h1 with h1
  injection h1 with e1 e2
  subst e2
  refine ⟨_, os, ho, by rw [hlen, List.length_map], h2, fun k o a b c => ?_, fun k o a b c => ?_⟩
  · rw [h3 k o a b c]
    push_cast
    rw [mul_assoc]
  · rw [h4 k o a b c, hL]

/-- **C109.** With the delay alone: at its `k`-th request, `k ≥ d`, the agent sees the players, states and
footprints of the step of the `(k - d)`-th request, with the present time. -/
theorem C109_delayed_world {L : N → K}
    {cfg : Cfg (world F sc (withSensors R (fun n => delayed (idFilter N K R.X F.S Sc) (L n)) scen))}
    {σ : Nat → St (world F sc (withSensors R (fun n => delayed (idFilter N K R.X F.S Sc) (L n)) scen))} {j : Nat}
    (h0 : Ready (σ 0)) (hdt : 0 < cfg.dt) (hm : Dict.Wf cfg.missions) (hx : Exec cfg σ j) (n : N) (d : Nat)
    (hL : L n = (d : K) * ((period cfg : K) * cfg.dt)) (hinit : (σ 0).w.2.1 n = ((), [])) (k : Nat) (hdk : d ≤ k)
    (hk : k * period cfg < j) (hn : n ∈ (σ (k * period cfg)).players) :
    ∃ o, (observationsOf n (σ j).trace)[k]? = some o ∧
      Shows (σ ((k - d) * period cfg)) (((k * period cfg : Nat) : K) * cfg.dt) o := by
  obtain ⟨s, os, ho, -, hlen, hlate, -⟩ := C109_delay (g := fun _ => idFilter N K R.X F.S Sc) h0 hdt hm hx n d hL hinit (by
    intro s o s' r h
    injection h with h
    injection h with _ h
    rw [h])
  obtain ⟨hcount, hsh⟩ := C109_snapshots h0 hdt hm hx n
  rw [senseAll_id] at ho
  injection ho with ho
  injection ho with _ ho
  rw [List.map_map] at ho
  have ho : os = sensedOf n (σ j).trace := by rw [← ho]; exact List.map_id _
  subst ho
  have hkl := (hcount k).mpr ⟨hk, hn⟩
  have hs := List.getElem?_eq_getElem (show k - d < (sensedOf n (σ j).trace).length by omega)
  obtain ⟨-, a, b⟩ := hsh (k - d) _ hs
  exact ⟨_, hlate k _ hdk hkl hs, rfl, a, b⟩

/-- **C109.** With a ghost filter: in every execution, at its `k`-th request an agent is shown every player of that
step but the ghost, and the ghost exactly if it is itself the ghost or the ghost is not further away than the
threshold in the state of that step. -/
theorem C109_ghost {pos : R.X → ℝ × ℝ} {gh : N → N} {thr : N → ℝ}
    {cfg : Cfg (world F sc (withSensors R (fun n => ghosted (idFilter N K R.X F.S Sc) pos (gh n) (thr n)) scen))}
    {σ : Nat → St (world F sc (withSensors R (fun n => ghosted (idFilter N K R.X F.S Sc) pos (gh n) (thr n)) scen))}
    {j : Nat} (h0 : Ready (σ 0)) (hdt : 0 < cfg.dt) (hm : Dict.Wf cfg.missions) (hx : Exec cfg σ j) (n : N) (k : Nat)
    (hk : k * period cfg < j) (hn : n ∈ (σ (k * period cfg)).players) :
    ∃ o me, (observationsOf n (σ j).trace)[k]? = some o ∧ o.time = ((k * period cfg : Nat) : K) * cfg.dt ∧
      Dict.get? (σ (k * period cfg)).models n = some me ∧
      ∀ q x, q ∈ (σ (k * period cfg)).players → Dict.get? (σ (k * period cfg)).models q = some x →
        (q ∈ Dict.keys o.players ↔
          ¬ (q = gh n ∧ n ≠ gh n ∧ thr n < dist (pt (pos (R.getState me))) (pt (pos (R.getState x))))) ∧
        (q ∈ Dict.keys o.players → Dict.get? o.players q = some (R.getState x, F.footprint x)) := by
  have hall := C109_seen h0 hx n
  obtain ⟨hcount, hsh⟩ := C109_snapshots h0 hdt hm hx n
  obtain ⟨hlen, hget⟩ := senseAll_getElem _ _ _ _ _ hall
  have hs := List.getElem?_eq_getElem ((hcount k).mpr ⟨hk, hn⟩)
  set oo := (sensedOf n (σ j).trace)[k]'((hcount k).mpr ⟨hk, hn⟩) with hoo
  obtain ⟨a, b, c⟩ := hsh k _ hs
  obtain ⟨s1, s2, r, hr, hsn⟩ := hget k (scen, oo, n) (by rw [List.getElem?_map, hs]; rfl)
  obtain ⟨me, hme, hme'⟩ := c n hn
  have hinv := inv_of_exec (inv_zero cfg σ h0) hdt hm (k * period cfg) (fun i hi => hx i (by omega))
  have hwf : Dict.Wf oo.players := by
    unfold Dict.Wf
    rw [b]
    exact hinv.nodup
  obtain ⟨r', h1, h2, -, h4⟩ := C31_ghost pos (gh n) n (thr n) oo hwf _ hme'
  have hrr : r' = r := by
    simp only [ghosted, idFilter] at hsn
    rw [h1] at hsn
    injection hsn with hsn
    injection hsn with _ hsn
  subst hrr
  refine ⟨r', me, hr, by rw [h2, a], hme, fun q x hq hx' => ?_⟩
  obtain ⟨x', hx1, hx2⟩ := c q hq
  rw [hx'] at hx1
  injection hx1 with hx1
  subst hx1
  have hiff := h4 q
  constructor
  · rw [Dict.mem_keys_iff]
    constructor
    · rintro ⟨y, hy⟩
      obtain ⟨e1, e2⟩ := (hiff y).mp hy
      rw [hx2] at e1
      injection e1 with e1
      subst e1
      exact e2
    · intro hnot
      exact ⟨_, (hiff _).mpr ⟨hx2, hnot⟩⟩
  · rw [Dict.mem_keys_iff]
    rintro ⟨y, hy⟩
    obtain ⟨e1, -⟩ := (hiff y).mp hy
    rw [hx2] at e1
    rw [hy, e1]

end

namespace Sensors

/-- A start of the world of `Toy` with other sensors. -/
def start {f : Nat → Filter Nat ℚ (ℚ × ℚ) toyF.S Unit} (v : (n : Nat) → (f n).S) :
    St (world toyF true (withSensors Toy.parts f ())) where
  models := Toy.start.models
  players := [0, 1, 2]
  w := (fun _ => (0 : Nat), (v, ()))
  time := 0
  terminated := false
  reports := []
  firstColl := none
  lastObs := ⟨[], 0⟩
  lastCmdTs := none
  lastCmds := []
  logger := []
  trace := []

def cfg (f : Nat → Filter Nat ℚ (ℚ × ℚ) toyF.S Unit) : Cfg (world toyF true (withSensors Toy.parts f ())) where
  dt := 1 / 2
  dtCommands := 1
  maxSimTime := 6
  afterCollision := 4
  missions := []

theorem fresh {f : Nat → Filter Nat ℚ (ℚ × ℚ) toyF.S Unit} (v : (n : Nat) → (f n).S) : Fresh (start v) where
  time := rfl
  terminated := rfl
  reports := rfl
  firstColl := rfl
  lastCmdTs := rfl
  wfModels := Toy.fresh.wfModels
  players := Toy.fresh.players
  keys := by intro n; rfl
  trace := rfl

/-- The states of the execution. -/
def σ {f : Nat → Filter Nat ℚ (ℚ × ℚ) toyF.S Unit} (v : (n : Nat) → (f n).S) :
    Nat → St (world toyF true (withSensors Toy.parts f ()))
  | 0 => Sim.Toy.orElse (start v) (initLoop (start v) [0, 1, 2])
  | j + 1 => Sim.Toy.orElse (σ v j) (step (cfg f) (σ v j))

/-- Car 1 sees with a latency of one second, the others without. -/
abbrev late (n : Nat) : Filter Nat ℚ (ℚ × ℚ) toyF.S Unit :=
  delayed (idFilter Nat ℚ (ℚ × ℚ) toyF.S Unit) (if n = 1 then 1 else 0)

abbrev late0 (n : Nat) : (late n).S := (late n).init

theorem late_ready : Ready (σ late0 0) := by
  have h : initLoop (start late0) (start late0).players = .ok (σ late0 0) :=
    Sim.Toy.eq_ok (start late0) (by decide +kernel)
  exact ((safe_initLoop_fresh (start late0) (fresh late0)).ok h).1

theorem late_exec : Exec (cfg late) (σ late0) 6 := by
  intro i hi
  have h : ∀ i < 6, (σ late0 i).terminated = false ∧ Sim.Toy.isOk (step (cfg late) (σ late0 i)) = true := by
    decide +kernel
  exact ⟨(h i hi).1, Sim.Toy.eq_ok (σ late0 i) (h i hi).2⟩

theorem late_init : (σ late0 0).w.2.1 1 = ((), []) :=
  Prod.ext rfl (List.length_eq_zero_iff.mp (by decide +kernel))

/-- What the cars 0 and 1 are shown of car 0. -/
example :
    (observationsOf 0 (σ late0 6).trace).map (fun o => (o.time, (Dict.get? o.players 0).map fun x => x.1.1)) =
      [(0, some 0), (1, some (17 / 4)), (2, some 4)] ∧
    (observationsOf 1 (σ late0 6).trace).map (fun o => (o.time, (Dict.get? o.players 0).map fun x => x.1.1)) =
      [(1, some 0), (1, some 0), (2, some (17 / 4))] := by
  decide +kernel

example := C109_seen late_ready late_exec 1

example := C109_snapshots late_ready (by decide +kernel) (by unfold Dict.Wf; decide) late_exec 1

example := C109_delay (R := Toy.parts) (g := fun _ => idFilter Nat ℚ (ℚ × ℚ) toyF.S Unit)
  (L := fun n => if n = 1 then 1 else 0) (cfg := cfg late) (σ := σ late0)
  late_ready (by decide +kernel) (by unfold Dict.Wf; decide) late_exec 1 1 (by decide +kernel) late_init (by
    intro s o s' r h
    injection h with h
    injection h with _ h
    rw [h])

example := C109_delayed_world (R := Toy.parts) (L := fun n => if n = 1 then 1 else 0) (cfg := cfg late) (σ := σ late0)
  late_ready (by decide +kernel) (by unfold Dict.Wf; decide) late_exec 1 1 (by decide +kernel) late_init 2
  (by decide) (by decide +kernel) (by decide +kernel)

/-- Car 1 is a ghost for cars further than 3 away; on rational positions. -/
abbrev far : Filter Nat ℚ (ℚ × ℚ) toyF.S Unit where
  S := Unit
  init := ()
  sense s _ o pov :=
    if pov = 1 ∨ 1 ∉ Dict.keys o.players then .ok (s, o)
    else match Dict.get? o.players pov, Dict.get? o.players 1 with
      | some a, some b =>
        if 3 < |a.1.1 - b.1.1| then .ok (s, { o with players := Dict.erase o.players 1 }) else .ok (s, o)
      | _, _ => .error .key

theorem far_eq : ghosted (idFilter Nat ℚ (ℚ × ℚ) toyF.S Unit) (fun x => ((x.1 : ℝ), (0 : ℝ))) 1 3 = far := by
  unfold ghosted far idFilter
  congr 1
  funext s _ o pov
  dsimp only
  unfold ghostStep getKey
  by_cases h : pov = 1 ∨ 1 ∉ Dict.keys o.players
  · rw [if_pos h, if_pos h]
  · rw [if_neg h, if_neg h]
    cases ha : Dict.get? o.players pov with
    | none => rfl
    | some a =>
      cases hb : Dict.get? o.players 1 with
      | none => rfl
      | some b =>
        dsimp only
        have e : Real.sqrt (((a.1.1 : ℝ) - (b.1.1 : ℝ)) ^ 2 + ((0 : ℝ) - 0) ^ 2) = ((|a.1.1 - b.1.1| : ℚ) : ℝ) := by
          rw [sub_zero, zero_pow two_ne_zero, add_zero, Real.sqrt_sq_eq_abs]
          push_cast
          rfl
        rw [e]
        have hiff : (3 : ℝ) < ((|a.1.1 - b.1.1| : ℚ) : ℝ) ↔ 3 < |a.1.1 - b.1.1| := by
          exact_mod_cast Iff.rfl
        by_cases hc : 3 < |a.1.1 - b.1.1|
        · rw [if_pos hc, if_pos (hiff.mpr hc)]
        · rw [if_neg hc, if_neg (fun q => hc (hiff.mp q))]

theorem far_runs : ∃ (v : (n : Nat) → ((fun _ : Nat => far) n).S), Ready (σ v 0) ∧
    Exec (cfg fun _ => far) (σ v) 6 ∧ 2 * period (cfg fun _ => far) < 6 ∧
    0 ∈ (σ v (2 * period (cfg fun _ => far))).players := by
  refine ⟨fun _ => (), ?_, ?_, by decide +kernel, by decide +kernel⟩
  · have h : initLoop (start (f := fun _ => far) fun _ => ()) (start (f := fun _ => far) fun _ => ()).players =
        .ok (σ (f := fun _ => far) (fun _ => ()) 0) :=
      Sim.Toy.eq_ok (start (f := fun _ => far) fun _ => ()) (by decide +kernel)
    exact ((safe_initLoop_fresh _ (fresh _)).ok h).1
  · intro i hi
    have h : ∀ i < 6, (σ (f := fun _ => far) (fun _ => ()) i).terminated = false ∧
        Sim.Toy.isOk (step (cfg fun _ => far) (σ (f := fun _ => far) (fun _ => ()) i)) = true := by
      decide +kernel
    exact ⟨(h i hi).1, Sim.Toy.eq_ok _ (h i hi).2⟩

/-- The world as two cars 4 apart see it. -/
def apart : Obs Nat ℚ (ℚ × ℚ) toyF.S := ⟨[(0, ((0, 0), 0)), (1, ((4, 0), 0))], 0⟩

/-- **C109, negative.** If two players share one delaying filter object, with any latency, here zero, the second one
is given what the first one may see: the ghost, who may see everything, is not even shown itself. -/
theorem C109_false_shared :
    (match senseAll (delayed far 0) (delayed far 0).init [((), apart, 0), ((), apart, 1)] with
      | .ok (_, rs) => rs.map fun o => Dict.keys o.players
      | .error _ => []) = [[0], [0]] ∧
    (match senseAll (delayed far 0) (delayed far 0).init [((), apart, 1)] with
      | .ok (_, rs) => rs.map fun o => Dict.keys o.players
      | .error _ => []) = [[0, 1]] := by
  decide +kernel

/-- Car 0 is shown the ghost once they are close. -/
example :
    (observationsOf 0 (σ (f := fun _ => far) (fun _ => ()) 6).trace).map (fun o => (o.time, Dict.keys o.players)) =
      [(0, [0, 2]), (1, [0, 1, 2]), (2, [0, 1, 2])] := by
  decide +kernel

theorem ghost_runs (f : Nat → Filter Nat ℚ (ℚ × ℚ) toyF.S Unit) (hf : f = fun _ => far) :
    ∃ (v : (n : Nat) → (f n).S), Ready (σ v 0) ∧ Exec (cfg f) (σ v) 6 ∧ 2 * period (cfg f) < 6 ∧
      0 ∈ (σ v (2 * period (cfg f))).players := by
  subst hf
  exact far_runs

example : ∃ (v : (n : Nat) → (ghosted (idFilter Nat ℚ (ℚ × ℚ) toyF.S Unit) (fun x => ((x.1 : ℝ), (0 : ℝ))) 1 3).S),
    ∃ o, (observationsOf 0 (σ (f := fun _ => ghosted (idFilter Nat ℚ (ℚ × ℚ) toyF.S Unit)
      (fun x => ((x.1 : ℝ), (0 : ℝ))) 1 3) v 6).trace)[2]? = some o := by
  obtain ⟨v, h0, hx, h1, h2⟩ := ghost_runs (fun _ => ghosted (idFilter Nat ℚ (ℚ × ℚ) toyF.S Unit)
    (fun x => ((x.1 : ℝ), (0 : ℝ))) 1 3) (funext fun _ => far_eq)
  obtain ⟨o, -, ho, -⟩ := C109_ghost (R := Toy.parts) (gh := fun _ => 1) (thr := fun _ => 3) h0
    (show (0 : ℚ) < 1 / 2 by norm_num) (show Dict.Wf [] from Dict.wf_nil) hx 0 2 h1 h2
  exact ⟨v, o, ho⟩

end Sensors

end Whole
end Verif
