import Verif.Sim.RunProps
import Mathlib.Tactic.Tauto

/-!
# C24, C25 (observations), C26, C27: what the simulator calls, step by step

`eventsOf σ j` are the calls made during step `j`, in order.
-/

set_option linter.unusedSectionVars false

namespace Verif
namespace Sim

variable {N K : Type} [DecidableEq N] [Field K] [LinearOrder K] [IsStrictOrderedRing K]
  [FloorSemiring K] {Wd : World N K}

/-- The calls made during step `j`. -/
def eventsOf (σ : Nat → St Wd) (j : Nat) : List (Event Wd) :=
  (σ (j + 1)).trace.drop (σ j).trace.length

/-- A request for commands to player `n`. -/
def Event.isAsk (n : N) : Event Wd → Bool
  | .ask _ n' _ => decide (n' = n)
  | _ => false

/-- An update of the model of player `n`. -/
def Event.isDrive (n : N) : Event Wd → Bool
  | .drive _ n' _ _ => decide (n' = n)
  | _ => false

/-- An examination of the pair of players `a`, `b` in this order. -/
def Event.isPair (a b : N) : Event Wd → Bool
  | .pair _ a' b' => decide (a' = a ∧ b' = b)
  | _ => false

/-- The call concerns player `n`. -/
def Event.about (n : N) : Event Wd → Prop
  | .sense _ n' _ => n' = n
  | .ask _ n' _ => n' = n
  | .drive _ n' _ _ => n' = n
  | .goal _ n' _ => n' = n
  | .env _ n' => n' = n
  | .pair _ a b => a = n ∨ b = n

/-- The structure of one step: per player calls, goal checks, collision checks. -/
structure StepEvents (cfg : Cfg Wd) (σ : Nat → St Wd) (j : Nat) (o : Obs N K Wd.X Wd.P)
    (es : List (N × Obs N K Wd.X Wd.P × Wd.M × Wd.C)) (gl cl : List (Event Wd)) : Prop where
  eq : eventsOf σ j = es.flatMap (fun e =>
      playerEvents { (σ j) with lastObs := o } (need cfg (σ j)) e.1 e.2.1 e.2.2.1 e.2.2.2) ++
    gl ++ cl
  names : es.map Prod.fst = (σ j).players
  snap : need cfg (σ j) = true → IsSnapshot (σ j).models (σ j).players (σ j).time o
  model : ∀ e ∈ es, Dict.get? (σ j).models e.1 = some e.2.2.1
  upd : ∀ e ∈ es, ∃ w w' m', Wd.update w e.1 e.2.2.1 e.2.2.2 cfg.dt = .ok (w', m') ∧
    ∀ t x, Event.goal t e.1 x ∈ gl → x = Wd.getState m'
  cmd : ∀ e ∈ es, (need cfg (σ j) = true → ∃ w w1 w2 i, Wd.sense w e.1 o = .ok (w1, e.2.1) ∧
      Wd.getCommands w1 e.1 e.2.1 = .ok (w2, e.2.2.2, i)) ∧
    (need cfg (σ j) = false → Dict.get? (σ j).lastCmds e.1 = some e.2.2.2)
  next : ∀ e ∈ es, Dict.get? (σ (j + 1)).lastCmds e.1 = some e.2.2.2
  goals : ∀ e ∈ gl, ∃ p x, p ∈ (σ j).players ∧
    e = .goal (((j + 1 : Nat) : K) * cfg.dt) p x
  colls : cl = if (σ (j + 1)).terminated = true then [] else
    (σ (j + 1)).players.map (fun p => .env (((j + 1 : Nat) : K) * cfg.dt) p) ++
      (combinations2 (σ (j + 1)).players).map
        (fun p => .pair (((j + 1 : Nat) : K) * cfg.dt) p.1 p.2)
  removed : ∀ p ∈ (σ j).players, p ∉ (σ (j + 1)).players → ∃ m g w w',
    Dict.get? (σ (j + 1)).models p = some m ∧ (p, g) ∈ cfg.missions ∧
    Wd.fulfilled w p g (Wd.getState m) (((j + 1 : Nat) : K) * cfg.dt) = .ok (w', true) ∧
    Event.goal (((j + 1 : Nat) : K) * cfg.dt) p (Wd.getState m) ∈ gl
  kept : ∀ p g, (p, g) ∈ cfg.missions → p ∈ (σ (j + 1)).players → ∃ x w w',
    Wd.fulfilled w p g x (((j + 1 : Nat) : K) * cfg.dt) = .ok (w', false) ∧
    Event.goal (((j + 1 : Nat) : K) * cfg.dt) p x ∈ gl

theorem step_events {cfg : Cfg Wd} {σ : Nat → St Wd} {j : Nat} (h0 : Ready (σ 0))
    (hdt : 0 < cfg.dt) (hm : Dict.Wf cfg.missions) (hex : Exec cfg σ (j + 1)) :
    ∃ o es gl cl, StepEvents cfg σ j o es gl cl := by
  have hex' : Exec cfg σ j := fun i hi => hex i (by omega)
  have hinv := inv_of_exec (inv_zero cfg σ h0) hdt hm j hex'
  have hinv1 := inv_of_exec (inv_zero cfg σ h0) hdt hm (j + 1) hex
  have hse := stepEffect_of_inv hinv hdt hm (hex j (by omega)).2
  obtain ⟨o, s1, s2, s3, s4, es, rem, rs, rfl, hsn, he, rfl, hr, hc, _⟩ := hse.eff
  obtain ⟨gl, g1, g2, g3⟩ := hr.trace
  have htm : (σ j).time + cfg.dt = ((j + 1 : Nat) : K) * cfg.dt := by
    rw [hinv.time]; push_cast; ring
  have ht4 : s4.time = ((j + 1 : Nat) : K) * cfg.dt := by rw [hr.time]; exact htm
  have hpl : (σ (j + 1)).players = s4.players := hc.players
  have hp3 : s2.players = (σ j).players := he.frame.players
  have hrem : ∀ p ∈ (σ j).players, (p ∉ (σ (j + 1)).players ↔ p ∈ rem) := by
    intro p hp
    rw [hpl, hr.players]
    simp only [hp3, List.mem_filter, hp, true_and, decide_eq_true_iff, not_not]
  refine ⟨o, es, gl, _, ?_, he.names, hsn, ?_, ?_, ?_, ?_, ?_, rfl, ?_, ?_⟩
  · have htr : (σ (j + 1)).trace = (σ j).trace ++ (es.flatMap (fun e =>
      playerEvents { (σ j) with lastObs := o } (need cfg (σ j)) e.1 e.2.1 e.2.2.1 e.2.2.2) ++
        gl ++ (if (σ (j + 1)).terminated = true then [] else
    (σ (j + 1)).players.map (fun p => .env (((j + 1 : Nat) : K) * cfg.dt) p) ++
      (combinations2 (σ (j + 1)).players).map
        (fun p => .pair (((j + 1 : Nat) : K) * cfg.dt) p.1 p.2))) := by
      rw [hc.trace, g1, he.trace, hpl, hc.terminated, ht4]
      simp only [List.append_assoc]
    unfold eventsOf
    rw [htr, List.drop_left]
  · intro e hmem
    obtain ⟨m', lg, lg', q1, _⟩ := he.steps e hmem
    exact q1
  · intro e hmem
    obtain ⟨m', lg, lg', q1, q2, ⟨w, w', q3⟩, _⟩ := he.steps e hmem
    refine ⟨w, w', m', q3, ?_⟩
    intro t x hgoal
    obtain ⟨p, m1, _, h2, h3⟩ := g2 _ hgoal
    injection h3 with _ h4 h5
    subst h4
    have h2' : Dict.get? s2.models e.1 = some m1 := h2
    rw [q2] at h2'
    injection h2' with h2'
    rw [h5, h2']
  · intro e hmem
    obtain ⟨m', lg, lg', q1, q2, q3, q4, q5, q6, q7, q8, q9⟩ := he.steps e hmem
    refine ⟨?_, ?_⟩
    · intro hn
      obtain ⟨⟨w, w1, w2, i, a, b, _⟩, _⟩ := q8 hn
      exact ⟨w, w1, w2, i, a, b⟩
    · intro hn; exact (q9 hn).1
  · intro e hmem
    obtain ⟨m', lg, lg', q1, q2, q3, q4, q5, q6, q7, q8, q9⟩ := he.steps e hmem
    rw [hc.lastCmds]; simp only
    rw [hr.lastCmds]; exact q7
  · intro e hmem
    obtain ⟨p, m1, h1, h2, h3⟩ := g2 e hmem
    refine ⟨p, Wd.getState m1, ?_, ?_⟩
    · simp only [hp3] at h1; exact h1
    · rw [h3, ← htm]
  · intro p hp hnp
    have hpr := (hrem p hp).mp hnp
    obtain ⟨m, lg, g, w, w', r1, r2, r3, r4, r5⟩ := hr.removed p hpr
    simp only [htm] at r5
    refine ⟨m, g, w, w', ?_, r4, r5, ?_⟩
    · rw [hc.models p (by simp only; rw [← hpl]; exact hnp)]
      simp only; rw [hr.models]; exact r1
    · obtain ⟨m1, a, b⟩ := g3 p (hr.sub p hpr).2 (hr.sub p hpr).1
      rw [r1] at a; injection a with a; subst a
      simp only [htm] at b; exact b
  · intro p g hpg hp
    have hp' : p ∈ (σ j).players := players_succ hse p hp
    have hnr : p ∉ rem := fun h => (hrem p hp').mpr h hp
    have hp3' : p ∈ s2.players := by rw [hp3]; exact hp'
    obtain ⟨m, w, w', a, b⟩ := hr.kept p g hpg hp3' hnr
    obtain ⟨m1, a1, b1⟩ := g3 p (List.mem_map_of_mem hpg) hp3'
    rw [a] at a1; injection a1 with a1; subst a1
    simp only [htm] at b b1
    exact ⟨_, w, w', b, b1⟩

/-! ## Membership and counting -/

theorem mem_events_iff {cfg : Cfg Wd} {σ : Nat → St Wd} {j : Nat} {o : Obs N K Wd.X Wd.P}
    {es : List (N × Obs N K Wd.X Wd.P × Wd.M × Wd.C)} {gl cl : List (Event Wd)}
    (h : StepEvents cfg σ j o es gl cl) (e : Event Wd) : e ∈ eventsOf σ j ↔
      (∃ x ∈ es, e = .drive (σ j).time x.1 x.2.2.1 x.2.2.2 ∨ (need cfg (σ j) = true ∧
        (e = .sense (σ j).time x.1 o ∨ e = .ask (σ j).time x.1 x.2.1))) ∨ e ∈ gl ∨ e ∈ cl := by
  rw [h.eq, List.mem_append, List.mem_append, List.mem_flatMap, or_assoc]
  refine or_congr_left (exists_congr fun x => and_congr_right fun _ => ?_)
  unfold playerEvents
  cases need cfg (σ j)
  · simp
  · simp; tauto

theorem countP_goals (p : Event Wd → Bool) (gl : List (Event Wd)) (t : K)
    (h : ∀ e ∈ gl, ∃ n x, e = .goal t n x) (hp : ∀ n x, p (.goal t n x) = false) :
    gl.countP p = 0 := by
  rw [List.countP_eq_zero]
  intro e he
  obtain ⟨n, x, rfl⟩ := h e he
  rw [hp]; simp

theorem countP_flatMap_names (es : List (N × Obs N K Wd.X Wd.P × Wd.M × Wd.C)) (n : N)
    (f : N × Obs N K Wd.X Wd.P × Wd.M × Wd.C → List (Event Wd)) (p : Event Wd → Bool) (b : Nat)
    (hnd : (es.map Prod.fst).Nodup)
    (hf : ∀ e ∈ es, (f e).countP p = if e.1 = n then b else 0) :
    (es.flatMap f).countP p = if n ∈ es.map Prod.fst then b else 0 := by
  induction es with
  | nil => simp
  | cons e es ih =>
    simp only [List.map_cons, List.nodup_cons] at hnd
    rw [List.flatMap_cons, List.countP_append, hf e (by simp),
      ih hnd.2 (fun x hx => hf x (by simp [hx]))]
    by_cases he : e.1 = n
    · subst he
      rw [if_pos rfl, if_neg hnd.1, if_pos (by simp)]; simp
    · rw [if_neg he]
      by_cases h2 : n ∈ es.map Prod.fst
      · rw [if_pos h2, if_pos (by simp only [List.map_cons]; exact List.mem_cons_of_mem _ h2)]; simp
      · rw [if_neg h2, if_neg (by
          simp only [List.map_cons, List.mem_cons, not_or]; exact ⟨Ne.symm he, h2⟩)]

theorem countP_colls (t : K) (ps : List N) (b : Bool) (p : Event Wd → Bool)
    (h1 : ∀ n, p (.env t n) = false) (h2 : ∀ a b, p (.pair t a b) = false) :
    (if b = true then [] else ps.map (fun n => .env t n) ++
      (combinations2 ps).map (fun q => .pair t q.1 q.2)).countP p = 0 := by
  rw [List.countP_eq_zero]
  intro e he
  cases b with
  | true => simp at he
  | false =>
    simp only [Bool.false_eq_true, if_false, List.mem_append, List.mem_map] at he
    rcases he with ⟨n, _, rfl⟩ | ⟨q, _, rfl⟩
    · rw [h1]; simp
    · rw [h2]; simp

/-! ## C24: when commands are requested and applied -/

/-- **C24.** In step `j` of a fresh run every active player is asked for commands exactly once if
`j` is a multiple of the period, and otherwise nobody is asked; requests carry the time `j*dt`. -/
theorem C24_requests {cfg : Cfg Wd} {σ : Nat → St Wd} {j : Nat} (h0 : Ready (σ 0))
    (hdt : 0 < cfg.dt) (hm : Dict.Wf cfg.missions) (hex : Exec cfg σ (j + 1)) (n : N) :
    (eventsOf σ j).countP (Event.isAsk n) =
        (if n ∈ (σ j).players ∧ period cfg ∣ j then 1 else 0) ∧
      ∀ t o, .ask t n o ∈ eventsOf σ j → t = (j : K) * cfg.dt := by
  have hex' : Exec cfg σ j := fun i hi => hex i (by omega)
  have hinv := inv_of_exec (inv_zero cfg σ h0) hdt hm j hex'
  have hneed := need_iff hinv hdt
  obtain ⟨o, es, gl, cl, h⟩ := step_events h0 hdt hm hex
  constructor
  · rw [h.eq, List.countP_append, List.countP_append, h.colls,
      countP_colls _ _ _ _ (fun _ => rfl) (fun _ _ => rfl),
      countP_goals _ gl (((j + 1 : Nat) : K) * cfg.dt)
        (fun e he => by obtain ⟨p, x, _, h2⟩ := h.goals e he; exact ⟨p, x, h2⟩) (fun _ _ => rfl),
      countP_flatMap_names es n _ _ (if need cfg (σ j) = true then 1 else 0)
        (by rw [h.names]; exact hinv.nodup) ?_, h.names]
    · by_cases h1 : n ∈ (σ j).players <;> by_cases h2 : period cfg ∣ j <;>
        simp [h1, h2, hneed]
    · intro e _
      unfold playerEvents
      cases need cfg (σ j) <;> by_cases he : e.1 = n <;> simp [Event.isAsk, he]
  · intro t o' hmem
    rw [mem_events_iff h] at hmem
    rcases hmem with ⟨x, _, hx | ⟨_, hx | hx⟩⟩ | hx | hx
    · cases hx
    · cases hx
    · injection hx with h1 _ _; rw [h1]; exact hinv.time
    · obtain ⟨p, x, _, h2⟩ := h.goals _ hx; cases h2
    · rw [h.colls] at hx
      split at hx
      · simp at hx
      · simp only [List.mem_append, List.mem_map] at hx
        rcases hx with ⟨_, _, hx⟩ | ⟨_, _, hx⟩ <;> cases hx

example : (eventsOf Toy.σ 2).countP (Event.isAsk 1) = 1 ∧
    (eventsOf Toy.σ 3).countP (Event.isAsk 1) = 0 ∧ (eventsOf Toy.σ 2).countP (Event.isAsk 2) = 0 := by
  have h1 := (C24_requests Toy.ready Toy.dt_pos Toy.wf (Toy.exec_le (j := 2 + 1) (by decide)) 1).1
  have h2 := (C24_requests Toy.ready Toy.dt_pos Toy.wf (Toy.exec_le (j := 3 + 1) (by decide)) 1).1
  have h3 := (C24_requests Toy.ready Toy.dt_pos Toy.wf (Toy.exec_le (j := 2 + 1) (by decide)) 2).1
  rw [Toy.period_eq] at h1 h2 h3
  rw [h1, h2, h3]
  decide +kernel

/-- **C24.** The period is the number of steps `max 1 ⌈dt_commands / dt⌉`: the least positive number
of steps that takes at least `dt_commands`. -/
theorem C24_period (cfg : Cfg Wd) (hdt : 0 < cfg.dt) :
    0 < period cfg ∧ cfg.dtCommands ≤ (period cfg : K) * cfg.dt ∧
      ∀ k : Nat, 0 < k → cfg.dtCommands ≤ (k : K) * cfg.dt → period cfg ≤ k := by
  refine ⟨period_pos cfg, ?_, ?_⟩
  · rw [← div_le_iff₀ hdt, ← Nat.ceil_le]; exact le_max_right _ _
  · intro k hk h
    rw [← div_le_iff₀ hdt, ← Nat.ceil_le] at h
    exact max_le hk h

example := C24_period Toy.cfg Toy.dt_pos

/-- Player `n` was asked in step `i`, received an observation `o` and returned `c`. -/
def Returned (cfg : Cfg Wd) (σ : Nat → St Wd) (i : Nat) (n : N) (c : Wd.C) : Prop :=
  n ∈ (σ i).players ∧ ∃ o w w' inf, Event.ask ((i : K) * cfg.dt) n o ∈ eventsOf σ i ∧
    Wd.getCommands w n o = .ok (w', c, inf)

/-- `i` is the last step up to `j` in which commands are requested. -/
def LastRequest (cfg : Cfg Wd) (i j : Nat) : Prop :=
  i ≤ j ∧ period cfg ∣ i ∧ ∀ i', i < i' → i' ≤ j → ¬ period cfg ∣ i'

theorem driven_aux {cfg : Cfg Wd} {σ : Nat → St Wd} (h0 : Ready (σ 0))
    (hdt : 0 < cfg.dt) (hm : Dict.Wf cfg.missions) : ∀ j, Exec cfg σ (j + 1) → ∀ n ∈ (σ j).players,
    ∃ m c, Event.drive ((j : K) * cfg.dt) n m c ∈ eventsOf σ j ∧
      Dict.get? (σ j).models n = some m ∧ Dict.get? (σ (j + 1)).lastCmds n = some c ∧
      ∃ i, LastRequest cfg i j ∧ Returned cfg σ i n c := by
  intro j
  induction j with
  | zero =>
    intro hex n hn
    have hinv := inv_zero cfg σ h0
    have hneed := (need_iff hinv hdt).mpr (dvd_zero _)
    obtain ⟨o, es, gl, cl, h⟩ := step_events h0 hdt hm hex
    have : n ∈ es.map Prod.fst := by rw [h.names]; exact hn
    obtain ⟨e, hmem, rfl⟩ := List.mem_map.mp this
    obtain ⟨w, w1, w2, i, a, b⟩ := (h.cmd e hmem).1 hneed
    refine ⟨e.2.2.1, e.2.2.2, ?_, h.model e hmem, h.next e hmem, 0, ⟨le_refl _, dvd_zero _, ?_⟩,
      hn, e.2.1, w1, w2, i, ?_, b⟩
    · rw [mem_events_iff h]; left
      exact ⟨e, hmem, Or.inl (by rw [hinv.time])⟩
    · intro i' h1 h2; omega
    · rw [mem_events_iff h]; left
      exact ⟨e, hmem, Or.inr ⟨hneed, Or.inr (by rw [hinv.time])⟩⟩
  | succ j ih =>
    intro hex n hn
    have hex' : Exec cfg σ (j + 1) := fun i hi => hex i (by omega)
    have hinv := inv_of_exec (inv_zero cfg σ h0) hdt hm (j + 1) hex'
    have hneed := need_iff hinv hdt
    obtain ⟨o, es, gl, cl, h⟩ := step_events h0 hdt hm hex
    have : n ∈ es.map Prod.fst := by rw [h.names]; exact hn
    obtain ⟨e, hmem, rfl⟩ := List.mem_map.mp this
    refine ⟨e.2.2.1, e.2.2.2, ?_, h.model e hmem, h.next e hmem, ?_⟩
    · rw [mem_events_iff h]; left
      exact ⟨e, hmem, Or.inl (by rw [hinv.time])⟩
    · cases hnd : need cfg (σ (j + 1)) with
      | true =>
        obtain ⟨w, w1, w2, i, a, b⟩ := (h.cmd e hmem).1 hnd
        refine ⟨j + 1, ⟨le_refl _, hneed.mp hnd, fun i' h1 h2 => by omega⟩, hn, e.2.1, w1, w2, i,
          ?_, b⟩
        rw [mem_events_iff h]; left
        exact ⟨e, hmem, Or.inr ⟨hnd, Or.inr (by rw [hinv.time])⟩⟩
      | false =>
        have hc := (h.cmd e hmem).2 hnd
        have hndvd : ¬ period cfg ∣ j + 1 := fun hd => by rw [hneed.mpr hd] at hnd; cases hnd
        have hex'' : Exec cfg σ j := fun i hi => hex i (by omega)
        have hinv' := inv_of_exec (inv_zero cfg σ h0) hdt hm j hex''
        have hp : e.1 ∈ (σ j).players :=
          players_succ (stepEffect_of_inv hinv' hdt hm (hex j (by omega)).2) _ hn
        obtain ⟨m, c, _, _, h3, i, ⟨h4, h5, h6⟩, h7⟩ := ih hex' e.1 hp
        rw [hc] at h3; injection h3 with h3; subst h3
        refine ⟨i, ⟨by omega, h5, ?_⟩, h7⟩
        intro i' h8 h9
        rcases Nat.lt_or_ge i' (j + 1) with hlt | hge
        · exact h6 i' h8 (by omega)
        · have : i' = j + 1 := by omega
          subst this; exact hndvd

/-- **C24.** In every step each active player's model is updated exactly once and nobody else's is,
with the command that the player returned at the last request. -/
theorem C24_driven {cfg : Cfg Wd} {σ : Nat → St Wd} {j : Nat} (h0 : Ready (σ 0))
    (hdt : 0 < cfg.dt) (hm : Dict.Wf cfg.missions) (hex : Exec cfg σ (j + 1)) (n : N) :
    (eventsOf σ j).countP (Event.isDrive n) = (if n ∈ (σ j).players then 1 else 0) ∧
      (n ∈ (σ j).players → ∃ m c, Event.drive ((j : K) * cfg.dt) n m c ∈ eventsOf σ j ∧
        Dict.get? (σ j).models n = some m ∧
        ∃ i, LastRequest cfg i j ∧ Returned cfg σ i n c) := by
  have hex' : Exec cfg σ j := fun i hi => hex i (by omega)
  have hinv := inv_of_exec (inv_zero cfg σ h0) hdt hm j hex'
  obtain ⟨o, es, gl, cl, h⟩ := step_events h0 hdt hm hex
  constructor
  · rw [h.eq, List.countP_append, List.countP_append, h.colls,
      countP_colls _ _ _ _ (fun _ => rfl) (fun _ _ => rfl),
      countP_goals _ gl (((j + 1 : Nat) : K) * cfg.dt)
        (fun e he => by obtain ⟨p, x, _, h2⟩ := h.goals e he; exact ⟨p, x, h2⟩) (fun _ _ => rfl),
      countP_flatMap_names es n _ _ 1 (by rw [h.names]; exact hinv.nodup) ?_, h.names]
    · rfl
    · intro e _
      unfold playerEvents
      cases need cfg (σ j) <;> by_cases he : e.1 = n <;> simp [Event.isDrive, he]
  · intro hn
    obtain ⟨m, c, h1, h2, _, h4⟩ := driven_aux h0 hdt hm j hex n hn
    exact ⟨m, c, h1, h2, h4⟩

example := C24_driven Toy.ready Toy.dt_pos Toy.wf (Toy.exec_le (j := 3 + 1) (by decide)) 1

/-! ## C25: what is observed -/

/-- **C25.** In each step in which commands are requested there is one observation, consisting of
exactly the active players with the states they had when the step began, and this one observation
is what the sensor of every player is given. -/
theorem C25_snapshot {cfg : Cfg Wd} {σ : Nat → St Wd} {j : Nat} (h0 : Ready (σ 0))
    (hdt : 0 < cfg.dt) (hm : Dict.Wf cfg.missions) (hex : Exec cfg σ (j + 1))
    (hj : period cfg ∣ j) :
    ∃ o : Obs N K Wd.X Wd.P, o.time = (j : K) * cfg.dt ∧ Dict.keys o.players = (σ j).players ∧
      (∀ n ∈ (σ j).players, ∃ m, Dict.get? (σ j).models n = some m ∧
        Dict.get? o.players n = some (Wd.getState m, Wd.footprint m)) ∧
      (∀ t n o', Event.sense t n o' ∈ eventsOf σ j → o' = o) ∧
      (∀ n ∈ (σ j).players, Event.sense ((j : K) * cfg.dt) n o ∈ eventsOf σ j) ∧
      ∀ t n o', Event.ask t n o' ∈ eventsOf σ j → ∃ w w', Wd.sense w n o = .ok (w', o') := by
  have hex' : Exec cfg σ j := fun i hi => hex i (by omega)
  have hinv := inv_of_exec (inv_zero cfg σ h0) hdt hm j hex'
  have hneed := (need_iff hinv hdt).mpr hj
  obtain ⟨o, es, gl, cl, h⟩ := step_events h0 hdt hm hex
  obtain ⟨s1, s2, s3⟩ := h.snap hneed
  have hcl : ∀ e ∈ cl, (∃ t n, e = .env t n) ∨ ∃ t a b, e = Event.pair t a b := by
    intro e he
    rw [h.colls] at he
    split at he
    · simp at he
    · simp only [List.mem_append, List.mem_map] at he
      rcases he with ⟨n, _, rfl⟩ | ⟨q, _, rfl⟩
      · exact Or.inl ⟨_, n, rfl⟩
      · exact Or.inr ⟨_, _, _, rfl⟩
  refine ⟨o, by rw [s1, hinv.time], s2, s3, ?_, ?_, ?_⟩
  · intro t n o' hmem
    rw [mem_events_iff h] at hmem
    rcases hmem with ⟨x, _, hx | ⟨_, hx | hx⟩⟩ | hx | hx
    · cases hx
    · injection hx
    · cases hx
    · obtain ⟨p, x, _, h2⟩ := h.goals _ hx; cases h2
    · rcases hcl _ hx with ⟨_, _, h2⟩ | ⟨_, _, _, h2⟩ <;> cases h2
  · intro n hn
    rw [← h.names] at hn
    obtain ⟨e, hmem, rfl⟩ := List.mem_map.mp hn
    rw [mem_events_iff h]; left
    exact ⟨e, hmem, Or.inr ⟨hneed, Or.inl (by rw [hinv.time])⟩⟩
  · intro t n o' hmem
    rw [mem_events_iff h] at hmem
    rcases hmem with ⟨x, hxm, hx | ⟨_, hx | hx⟩⟩ | hx | hx
    · cases hx
    · cases hx
    · injection hx with _ h2 h3
      subst h2 h3
      obtain ⟨w, w1, w2, i, a, b⟩ := (h.cmd x hxm).1 hneed
      exact ⟨w, w1, a⟩
    · obtain ⟨p, x, _, h2⟩ := h.goals _ hx; cases h2
    · rcases hcl _ hx with ⟨_, _, h2⟩ | ⟨_, _, _, h2⟩ <;> cases h2

example := C25_snapshot Toy.ready Toy.dt_pos Toy.wf (Toy.exec_le (j := 2 + 1) (by decide))
  (by rw [Toy.period_eq])

/-! ## C26: finished players -/

/-- **C26.** If a goal's answer depends only on the state and the time, an active player is removed
at the end of a step exactly if it has a mission fulfilled by the state its model has after the
update of that step, at the time of the end of the step. -/
theorem C26_removed_iff {cfg : Cfg Wd} {σ : Nat → St Wd} {j : Nat} (h0 : Ready (σ 0))
    (hdt : 0 < cfg.dt) (hm : Dict.Wf cfg.missions) (hex : Exec cfg σ (j + 1))
    (ful : N → Wd.G → Wd.X → K → Bool)
    (hful : ∀ w n g x t w' b, Wd.fulfilled w n g x t = .ok (w', b) → b = ful n g x t)
    (n : N) (hn : n ∈ (σ j).players) :
    ∃ m c w w' m', Event.drive ((j : K) * cfg.dt) n m c ∈ eventsOf σ j ∧
      Wd.update w n m c cfg.dt = .ok (w', m') ∧
      (n ∉ (σ (j + 1)).players ↔ ∃ g, (n, g) ∈ cfg.missions ∧
        ful n g (Wd.getState m') (((j + 1 : Nat) : K) * cfg.dt) = true) := by
  have hex' : Exec cfg σ j := fun i hi => hex i (by omega)
  have hinv := inv_of_exec (inv_zero cfg σ h0) hdt hm j hex'
  obtain ⟨o, es, gl, cl, h⟩ := step_events h0 hdt hm hex
  have hn' := hn
  rw [← h.names] at hn'
  obtain ⟨e, hmem, rfl⟩ := List.mem_map.mp hn'
  obtain ⟨w, w', m', hu, hg⟩ := h.upd e hmem
  refine ⟨e.2.2.1, e.2.2.2, w, w', m', ?_, hu, ?_⟩
  · rw [mem_events_iff h]; left
    exact ⟨e, hmem, Or.inl (by rw [hinv.time])⟩
  · constructor
    · intro hnp
      obtain ⟨m, g, w1, w2, a, b, c, d⟩ := h.removed e.1 hn hnp
      have := hg _ _ d
      refine ⟨g, b, ?_⟩
      rw [← this]; exact (hful _ _ _ _ _ _ _ c).symm
    · rintro ⟨g, hgm, hf⟩ hp
      obtain ⟨x, w1, w2, a, b⟩ := h.kept e.1 g hgm hp
      have hx := hg _ _ b
      have := hful _ _ _ _ _ _ _ a
      rw [hx, hf] at this; cases this

example := C26_removed_iff Toy.ready Toy.dt_pos Toy.wf (Toy.exec_le (j := 1 + 1) (by decide))
  (fun _ g x _ => decide (g ≤ x)) (by rintro w n g x t w' b h; injection h with h; injection h with _ h; exact h.symm)
  2 (by rw [Toy.story.1]; decide)

/-- **C26.** The last logged state of a removed player is the state with which its mission was found
fulfilled, logged at the time of the end of that step. -/
theorem C26_last_state {cfg : Cfg Wd} {σ : Nat → St Wd} {j : Nat} (h0 : Ready (σ 0))
    (hdt : 0 < cfg.dt) (hm : Dict.Wf cfg.missions) (hex : Exec cfg σ (j + 1)) (n : N)
    (hn : n ∈ (σ j).players) (hn' : n ∉ (σ (j + 1)).players) :
    ∃ lg m g w w', Dict.get? (σ (j + 1)).logger n = some lg ∧
      Dict.get? (σ (j + 1)).models n = some m ∧ (n, g) ∈ cfg.missions ∧
      Wd.fulfilled w n g (Wd.getState m) (((j + 1 : Nat) : K) * cfg.dt) = .ok (w', true) ∧
      lg.states.ts.getLast? = some (((j + 1 : Nat) : K) * cfg.dt) ∧
      lg.states.vs.getLast? = some (Wd.getState m) := by
  have hinv := inv_of_exec (inv_zero cfg σ h0) hdt hm (j + 1) hex
  obtain ⟨o, es, gl, cl, h⟩ := step_events h0 hdt hm hex
  obtain ⟨m, g, w, w', a, b, c, d⟩ := h.removed n hn hn'
  obtain ⟨lg, k, h1, h2, h3, h4, h5, h6⟩ := hinv.gone n
    ((inv_of_exec (inv_zero cfg σ h0) hdt hm j (fun i hi => hex i (by omega))).sub n hn) hn'
  have hk : k = j + 1 := by
    by_contra hne
    exact h6 j (by omega) (by omega) hn
  subst hk
  refine ⟨lg, m, g, w, w', h3, a, b, c, ?_, ?_⟩
  · rw [h4.states, grid_succ]; simp
  · obtain ⟨m1, h7, h8⟩ := h4.statesVs (j + 1) (by omega)
    rw [a] at h7; injection h7 with h7; subst h7
    have hl := h4.statesLen
    rw [List.getLast?_eq_getElem?, hl]
    exact h8

example := C26_last_state Toy.ready Toy.dt_pos Toy.wf (Toy.exec_le (j := 1 + 1) (by decide)) 2
  (by rw [Toy.story.1]; decide) (by rw [Toy.story.2.1]; decide)

theorem players_mono {cfg : Cfg Wd} {σ : Nat → St Wd} {J : Nat} (h0 : Ready (σ 0))
    (hdt : 0 < cfg.dt) (hm : Dict.Wf cfg.missions) (hex : Exec cfg σ J) (n : N) (k : Nat)
    (hk : n ∉ (σ k).players) : ∀ i, k ≤ i → i ≤ J → n ∉ (σ i).players := by
  intro i hki
  induction i, hki using Nat.le_induction with
  | base => intro _; exact hk
  | succ i hki ih =>
    intro hiJ hn
    have hinv := inv_of_exec (inv_zero cfg σ h0) hdt hm i (fun q hq => hex q (by omega))
    exact ih (by omega) (players_succ (stepEffect_of_inv hinv hdt hm (hex i (by omega)).2) n hn)

/-- **C26.** Once a player has left it is never again sensed for, asked, updated, goal checked or
collision checked, and it is not in any later observation. -/
theorem C26_gone {cfg : Cfg Wd} {σ : Nat → St Wd} {J k i : Nat} (h0 : Ready (σ 0))
    (hdt : 0 < cfg.dt) (hm : Dict.Wf cfg.missions) (hex : Exec cfg σ (J + 1)) (n : N)
    (hk : n ∉ (σ k).players) (hki : k ≤ i) (hi : i ≤ J) :
    (∀ e ∈ eventsOf σ i, ¬ e.about n) ∧
      ∀ t p o, Event.sense t p o ∈ eventsOf σ i → n ∉ Dict.keys o.players := by
  have hex' : Exec cfg σ (i + 1) := fun q hq => hex q (by omega)
  have hinv := inv_of_exec (inv_zero cfg σ h0) hdt hm i (fun q hq => hex q (by omega))
  have hni := players_mono h0 hdt hm hex n k hk i hki (by omega)
  have hni1 := players_mono h0 hdt hm hex n k hk (i + 1) (by omega) (by omega)
  obtain ⟨o, es, gl, cl, h⟩ := step_events h0 hdt hm hex'
  have hx : ∀ x ∈ es, x.1 ≠ n := by
    rintro x hx rfl
    exact hni (by rw [← h.names]; exact List.mem_map_of_mem hx)
  have hclm : ∀ e ∈ cl, (∃ t p, p ∈ (σ (i + 1)).players ∧ e = .env t p) ∨
      ∃ t a b, a ∈ (σ (i + 1)).players ∧ b ∈ (σ (i + 1)).players ∧ e = Event.pair t a b := by
    intro e he
    rw [h.colls] at he
    split at he
    · simp at he
    · simp only [List.mem_append, List.mem_map] at he
      rcases he with ⟨p, hp, rfl⟩ | ⟨q, hq, rfl⟩
      · exact Or.inl ⟨_, p, hp, rfl⟩
      · obtain ⟨h1, h2⟩ := mem_combinations2 _ _ hq
        exact Or.inr ⟨_, _, _, h1, h2, rfl⟩
  constructor
  · intro e he hab
    rw [mem_events_iff h] at he
    rcases he with ⟨x, hxm, rfl | ⟨_, rfl | rfl⟩⟩ | he | he
    · exact hx x hxm hab
    · exact hx x hxm hab
    · exact hx x hxm hab
    · obtain ⟨p, x, hp, rfl⟩ := h.goals _ he
      exact hni (by rw [← (show p = n from hab)]; exact hp)
    · rcases hclm e he with ⟨t, p, hp, rfl⟩ | ⟨t, a, b, ha, hb, rfl⟩
      · exact hni1 (by rw [← (show p = n from hab)]; exact hp)
      · rcases hab with rfl | rfl
        · exact hni1 ha
        · exact hni1 hb
  · intro t p o' hmem
    rw [mem_events_iff h] at hmem
    rcases hmem with ⟨x, _, hx | ⟨hnd, hx | hx⟩⟩ | hx | hx
    · cases hx
    · injection hx with _ _ h3
      subst h3
      rw [(h.snap hnd).2.1]; exact hni
    · cases hx
    · obtain ⟨p, x, _, h2⟩ := h.goals _ hx; cases h2
    · rcases hclm _ hx with ⟨_, _, _, h2⟩ | ⟨_, _, _, _, _, h2⟩ <;> cases h2

example := C26_gone (J := 6) (k := 2) (i := 4) Toy.ready Toy.dt_pos Toy.wf Toy.exec 2
  (by rw [Toy.story.2.1]; decide) (by decide) (by decide)

/-! ## C27: bookkeeping of collisions -/

/-- **C27.** The recorded reports are in non-decreasing time, the first collision time is the least
recorded time and infinite exactly if nothing is recorded. -/
theorem C27_reports {cfg : Cfg Wd} {σ : Nat → St Wd} {j : Nat} (h0 : Ready (σ 0))
    (hdt : 0 < cfg.dt) (hm : Dict.Wf cfg.missions) (hex : Exec cfg σ j) :
    ((σ j).reports.map (·.atTime)).Pairwise (· ≤ ·) ∧
      ((σ j).firstColl = none ↔ (σ j).reports = []) ∧
      ∀ t, (σ j).firstColl = some t → (∃ r ∈ (σ j).reports, r.atTime = t) ∧
        ∀ r ∈ (σ j).reports, t ≤ r.atTime := by
  have h := repInv_of_exec h0 hdt hm j hex
  exact ⟨h.ordered, h.none_iff, h.isMin⟩

example := C27_reports Toy.ready Toy.dt_pos Toy.wf (Toy.exec_le (j := 6) (by decide))

/-- **C27.** A step only appends reports; those are stamped with the time of the end of the step and
are about players that are active then. The step that ends the run adds none. -/
theorem C27_stamped {cfg : Cfg Wd} {σ : Nat → St Wd} {j : Nat} (h0 : Ready (σ 0))
    (hdt : 0 < cfg.dt) (hm : Dict.Wf cfg.missions) (hex : Exec cfg σ (j + 1)) :
    ∃ rs, (σ (j + 1)).reports = (σ j).reports ++ rs ∧
      (∀ r ∈ rs, r.atTime = ((j + 1 : Nat) : K) * cfg.dt ∧
        About (σ (j + 1)).players r) ∧
      ((σ (j + 1)).terminated = true → rs = []) := by
  have hex' : Exec cfg σ j := fun i hi => hex i (by omega)
  have hinv := inv_of_exec (inv_zero cfg σ h0) hdt hm j hex'
  have hinv1 := inv_of_exec (inv_zero cfg σ h0) hdt hm (j + 1) hex
  have hse := stepEffect_of_inv hinv hdt hm (hex j (by omega)).2
  obtain ⟨o, s1, s2, s3, s4, es, rem, rs, rfl, hsn, he, rfl, hr, hc, hterm⟩ := hse.eff
  refine ⟨rs, ?_, ?_, ?_⟩
  · rw [hc.reports]; simp only
    rw [hr.reports]; simp only
    rw [he.frame.reports]
  · intro r hrm
    obtain ⟨a, b⟩ := hc.stamped r hrm
    rw [← hinv1.time, hc.time, hc.players]
    exact ⟨a, b⟩
  · intro ht
    rw [hc.terminated] at ht
    exact (hterm ht).1

example := C27_stamped Toy.ready Toy.dt_pos Toy.wf (Toy.exec_le (j := 3 + 1) (by decide))

theorem countP_combinations2 (l : List N) (hnd : l.Nodup) (a b : N) (hab : a ≠ b) :
    (combinations2 l).countP (fun q => decide (q.1 = a ∧ q.2 = b)) +
      (combinations2 l).countP (fun q => decide (q.1 = b ∧ q.2 = a)) =
      if a ∈ l ∧ b ∈ l then 1 else 0 := by
  induction l with
  | nil => simp [combinations2]
  | cons x l ih =>
    rw [List.nodup_cons] at hnd
    have ih := ih hnd.2
    have hmap : ∀ u v, (l.map (fun y => (x, y))).countP (fun q => decide (q.1 = u ∧ q.2 = v)) =
        if x = u ∧ v ∈ l then 1 else 0 := by
      intro u v
      rw [List.countP_map]
      by_cases hx : x = u
      · subst hx
        have : (fun q : N × N => decide (q.1 = x ∧ q.2 = v)) ∘ (fun y => (x, y)) =
            (fun y => y == v) := by
          funext y; simp [Function.comp, beq_eq_decide]
        rw [this]
        simp only [true_and]
        show l.count v = _
        exact hnd.2.count
      · simp only [hx, false_and, if_false]
        rw [List.countP_eq_zero]
        intro y _
        simp [hx]
    simp only [combinations2, List.countP_append, hmap]
    by_cases ha : x = a
    · subst ha
      have h1 : ¬ (x = b ∧ x ∈ l) := fun h => hnd.1 h.2
      have h2 : ¬ (x ∈ l ∧ b ∈ l) := fun h => hnd.1 h.1
      rw [if_neg h2] at ih
      rw [if_neg h1]
      by_cases hb : b ∈ l
      · rw [if_pos ⟨rfl, hb⟩, if_pos ⟨by simp, by simp [hb]⟩]; omega
      · rw [if_neg (fun h => hb h.2), if_neg (by
          rintro ⟨_, h⟩
          rcases List.mem_cons.mp h with h | h
          · exact hab h.symm
          · exact hb h)]; omega
    · by_cases hb : x = b
      · subst hb
        have h2 : ¬ (a ∈ l ∧ x ∈ l) := fun h => hnd.1 h.2
        rw [if_neg h2] at ih
        rw [if_neg (fun h => ha h.1)]
        by_cases hal : a ∈ l
        · rw [if_pos ⟨rfl, hal⟩, if_pos ⟨by simp [hal], by simp⟩]; omega
        · rw [if_neg (fun h => hal h.2), if_neg (by
            rintro ⟨h, _⟩
            rcases List.mem_cons.mp h with h | h
            · exact ha h.symm
            · exact hal h)]; omega
      · rw [if_neg (fun h => ha h.1), if_neg (fun h => hb h.1)]
        have hequiv : (a ∈ x :: l ∧ b ∈ x :: l) ↔ (a ∈ l ∧ b ∈ l) := by
          simp [Ne.symm (a := x) ha, Ne.symm (a := x) hb]
        simp only [hequiv]
        omega

theorem combinations2_ne (l : List N) (hnd : l.Nodup) : ∀ q ∈ combinations2 l, q.1 ≠ q.2 := by
  induction l with
  | nil => simp [combinations2]
  | cons x l ih =>
    rw [List.nodup_cons] at hnd
    intro q hq
    simp only [combinations2, List.mem_append, List.mem_map] at hq
    rcases hq with ⟨y, hy, rfl⟩ | hq
    · intro h; simp only at h; subst h; exact hnd.1 hy
    · exact ih hnd.2 q hq

/-- **C27.** At the end of every step that does not end the run each unordered pair of different
active players is examined exactly once, and no player is examined with itself or with a player that
has left. -/
theorem C27_pairs {cfg : Cfg Wd} {σ : Nat → St Wd} {j : Nat} (h0 : Ready (σ 0))
    (hdt : 0 < cfg.dt) (hm : Dict.Wf cfg.missions) (hex : Exec cfg σ (j + 1))
    (hterm : (σ (j + 1)).terminated = false) (a b : N) (hab : a ≠ b) :
    (eventsOf σ j).countP (Event.isPair a b) + (eventsOf σ j).countP (Event.isPair b a) =
      (if a ∈ (σ (j + 1)).players ∧ b ∈ (σ (j + 1)).players then 1 else 0) ∧
    (eventsOf σ j).countP (Event.isPair a a) = 0 := by
  have hex' : Exec cfg σ j := fun i hi => hex i (by omega)
  have hinv1 := inv_of_exec (inv_zero cfg σ h0) hdt hm (j + 1) hex
  obtain ⟨o, es, gl, cl, h⟩ := step_events h0 hdt hm hex
  have hcount : ∀ u v, (eventsOf σ j).countP (Event.isPair u v) =
      (combinations2 (σ (j + 1)).players).countP (fun q => decide (q.1 = u ∧ q.2 = v)) := by
    intro u v
    rw [h.eq, List.countP_append, List.countP_append, h.colls,
      countP_goals _ gl (((j + 1 : Nat) : K) * cfg.dt)
        (fun e he => by obtain ⟨p, x, _, h2⟩ := h.goals e he; exact ⟨p, x, h2⟩) (fun _ _ => rfl),
      if_neg (by rw [hterm]; simp), List.countP_append, List.countP_map, List.countP_map]
    have h1 : (es.flatMap (fun e => playerEvents { (σ j) with lastObs := o } (need cfg (σ j)) e.1
        e.2.1 e.2.2.1 e.2.2.2)).countP (Event.isPair u v) = 0 := by
      rw [List.countP_eq_zero]
      intro e he
      obtain ⟨x, _, hx⟩ := List.mem_flatMap.mp he
      unfold playerEvents at hx
      cases hnd : need cfg (σ j) <;> rw [hnd] at hx <;> simp at hx
      · subst hx; simp [Event.isPair]
      · rcases hx with rfl | rfl | rfl <;> simp [Event.isPair]
    have h2 : (σ (j + 1)).players.countP (Event.isPair (Wd := Wd) u v ∘
        fun p => .env (((j + 1 : Nat) : K) * cfg.dt) p) = 0 := by
      rw [List.countP_eq_zero]
      intro e _
      simp [Function.comp, Event.isPair]
    rw [h1, h2, Nat.zero_add, Nat.zero_add]
    rfl
  refine ⟨?_, ?_⟩
  · rw [hcount, hcount]
    exact countP_combinations2 _ hinv1.nodup a b hab
  · rw [hcount, List.countP_eq_zero]
    intro q hq hq'
    simp only [decide_eq_true_iff] at hq'
    exact combinations2_ne _ hinv1.nodup q hq (by rw [hq'.1, hq'.2])

example := C27_pairs Toy.ready Toy.dt_pos Toy.wf (Toy.exec_le (j := 3 + 1) (by decide))
  (by decide +kernel) 0 1 (by decide)

/-- The resolution of a collision yields a report with content `d`, where `none` stands for the empty
report made after a `CollisionException`. -/
def Yields (r : Except Err (Option Wd.D)) (d : Option Wd.D) : Prop :=
  (∃ x, r = .ok (some x) ∧ d = some x) ∨ (r = .error .collision ∧ d = none)

/-- **C27.** Examining an obstacle appends exactly one report if the resolution yields one and the
player is not a dynamic obstacle, and appends nothing otherwise. A resolved collision names the player
and the environment, an unresolved one only the player. -/
theorem C27_env_report (s s' : St Wd) (p : N) (o : Wd.O) (m : Wd.M)
    (hm : Dict.get? s.models p = some m) (h : envObstacle s p o = .ok s') :
    (∀ x, (Wd.resolveEnv s.w p m o s.time).2 = .ok (some x) →
      Wd.isDyn (Wd.resolveEnv s.w p m o s.time).1.2 = false →
      s'.reports = s.reports ++ [⟨[p, Wd.env], s.time, some x⟩]) ∧
    ((Wd.resolveEnv s.w p m o s.time).2 = .error .collision →
      Wd.isDyn (Wd.resolveEnv s.w p m o s.time).1.2 = false →
      s'.reports = s.reports ++ [⟨[p], s.time, none⟩]) ∧
    ((Wd.resolveEnv s.w p m o s.time).2 = .ok none ∨
      Wd.isDyn (Wd.resolveEnv s.w p m o s.time).1.2 = true → s'.reports = s.reports) ∧
    s'.models = Dict.set s.models p (Wd.resolveEnv s.w p m o s.time).1.2 := by
  unfold envObstacle at h
  simp only [lookup, hm, bind, Except.bind, pure, Except.pure] at h
  cases hd : Wd.isDyn (Wd.resolveEnv s.w p m o s.time).1.2 <;>
    cases hr : (Wd.resolveEnv s.w p m o s.time).2 with
    | error e =>
      rw [hr] at h
      cases e <;> simp only [reportOf, hd, reduceCtorEq, Bool.not_false, Bool.not_true, if_true,
        Bool.false_eq_true, if_false, Except.ok.injEq] at h <;>
      subst h <;> simp [recordReport]
    | ok a =>
      rw [hr] at h
      cases a <;> simp only [reportOf, hd, reduceCtorEq, Bool.not_false, Bool.not_true, if_true,
        Bool.false_eq_true, if_false, Except.ok.injEq] at h <;>
      subst h <;> simp [recordReport]

/-- Car 0 runs into the obstacle at 30. -/
example : ∃ s', envObstacle ({ Toy.start with models := [(0, (31 : ℚ))] } : St Toy.wd) 0 (30 : ℚ) =
    .ok s' ∧ s'.reports = [⟨[0, 99], 0, some (1 : ℚ)⟩] := by
  refine ⟨_, rfl, rfl⟩

/-- **C27.** Examining a pair appends exactly one report, on both players at the current time, if the
footprints intersect and the resolution yields a report; and appends nothing otherwise. It fails only
if the resolution raises something else than a `CollisionException`. -/
theorem C27_pair_report (s : St Wd) (a b : N) (ma mb : Wd.M)
    (ha : Dict.get? s.models a = some ma) (hb : Dict.get? s.models b = some mb) :
    (∀ s', checkPair s a b = .ok s' →
      (∀ d, Wd.touch (Wd.footprint ma) (Wd.footprint mb) = true →
        Yields (Wd.resolve s.w a ma b mb s.time).2 d →
        s'.reports = s.reports ++ [⟨[a, b], s.time, d⟩]) ∧
      ((Wd.touch (Wd.footprint ma) (Wd.footprint mb) = false ∨
        (Wd.resolve s.w a ma b mb s.time).2 = .ok none) → s'.reports = s.reports)) ∧
    (∀ e, checkPair s a b = .error e → Wd.touch (Wd.footprint ma) (Wd.footprint mb) = true ∧
      ∃ u, u ≠ .collision ∧ (Wd.resolve s.w a ma b mb s.time).2 = .error u ∧ e = .user u) := by
  unfold checkPair
  simp only [lookup, ha, hb, bind, Except.bind, pure, Except.pure]
  cases htouch : Wd.touch (Wd.footprint ma) (Wd.footprint mb) with
  | false =>
    simp only [Bool.false_eq_true, if_false]
    refine ⟨?_, fun e h => by cases h⟩
    intro s' h
    injection h with h
    subst h
    exact ⟨fun d h => (by cases h), fun _ => rfl⟩
  | true =>
    cases hr : (Wd.resolve s.w a ma b mb s.time).2 with
    | ok o =>
      cases o with
      | none =>
        simp only [if_true, reportOf]
        refine ⟨?_, fun e h => by cases h⟩
        intro s' h
        injection h with h
        subst h
        refine ⟨?_, fun _ => rfl⟩
        rintro d - (⟨x, hx, _⟩ | ⟨hx, _⟩) <;> cases hx
      | some d0 =>
        simp only [if_true, reportOf]
        refine ⟨?_, fun e h => by cases h⟩
        intro s' h
        injection h with h
        subst h
        refine ⟨?_, fun h => by rcases h with h | h <;> cases h⟩
        rintro d - (⟨x, hx, rfl⟩ | ⟨hx, _⟩)
        · injection hx with hx; injection hx with hx; subst hx; rfl
        · cases hx
    | error u =>
      by_cases hu : u = .collision
      · subst hu
        simp only [if_true, reportOf]
        refine ⟨?_, fun e h => by cases h⟩
        intro s' h
        injection h with h
        subst h
        refine ⟨?_, fun h => by rcases h with h | h <;> cases h⟩
        rintro d - (⟨x, hx, _⟩ | ⟨_, rfl⟩)
        · cases hx
        · rfl
      · have he : (reportOf (Wd := Wd) [a, b] [a, b] s.time (.error u)) = .error (.user u) := by
          cases u <;> first | rfl | exact absurd rfl hu
        constructor
        · intro s' h
          simp only [if_true, he] at h
          cases h
        · intro e h
          simp only [if_true, he] at h
          injection h with h
          exact ⟨rfl, u, hu, rfl, h.symm⟩

example := (C27_pair_report (Toy.σ 4) 0 1 2 3 (by decide +kernel) (by decide +kernel)).1

end Sim
end Verif
