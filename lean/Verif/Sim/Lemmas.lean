import Verif.Sim.Model
import Verif.Seq.BuilderProps
import Mathlib.Tactic.Linarith

/-!
# Reasoning about the simulator: safe outcomes and the effect of each loop
-/

set_option linter.unusedSectionVars false

namespace Verif
namespace Sim

/-- The outcome is either `ok` with a result satisfying `Q`, or an exception of the called code.
In particular neither logging nor a dictionary lookup raised. -/
def Safe {α : Type} (Q : α → Prop) : Except SimErr α → Prop
  | .ok a => Q a
  | .error (.user _) => True
  | .error _ => False

theorem Safe.bind {α β : Type} {P : α → Prop} {Q : β → Prop} {x : Except SimErr α}
    {f : α → Except SimErr β} (h : Safe P x) (hf : ∀ a, P a → Safe Q (f a)) : Safe Q (x >>= f) := by
  cases x with
  | ok a => exact hf a h
  | error e => cases e <;> exact h

theorem Safe.mono {α : Type} {P Q : α → Prop} {x : Except SimErr α} (h : Safe P x)
    (hPQ : ∀ a, P a → Q a) : Safe Q x := by
  cases x with
  | ok a => exact hPQ a h
  | error e => cases e <;> exact h

theorem Safe.ok {α : Type} {P : α → Prop} {x : Except SimErr α} (h : Safe P x) {a : α}
    (e : x = .ok a) : P a := by rw [e] at h; exact h

theorem Safe.error {α : Type} {P : α → Prop} {x : Except SimErr α} (h : Safe P x) {e : SimErr}
    (he : x = .error e) : ∃ u, e = .user u := by
  rw [he] at h
  cases e with
  | user u => exact ⟨u, rfl⟩
  | logging _ => exact absurd h id
  | key => exact absurd h id

theorem safe_liftU {α : Type} (x : Except Err α) : Safe (fun a => x = .ok a) (liftU x) := by
  cases x with
  | ok a => rfl
  | error e => trivial

theorem safe_lookup {N α : Type} [DecidableEq N] {d : Dict N α} {n : N} {a : α}
    (h : Dict.get? d n = some a) : Safe (fun b => b = a) (lookup d n) := by
  unfold lookup; rw [h]; exact rfl

/-- Append one sample to a builder. -/
def Builder.push {K α : Type} (b : Builder K α) (t : K) (v : α) : Builder K α :=
  ⟨b.ts ++ [t], b.vs ++ [v]⟩

theorem safe_addLog {K α : Type} [LinearOrder K] (b : Builder K α) (t : K) (v : α)
    (h : ∀ u ∈ b.ts, u < t) : Safe (fun b' => b' = Builder.push b t v) (addLog b t v) := by
  unfold addLog Builder.add
  cases hl : b.ts.getLast? with
  | none => exact rfl
  | some t' =>
    have := h t' (List.mem_of_getLast? hl)
    simp only [not_le.mpr this, if_false]
    exact rfl

variable {N K : Type} [DecidableEq N] [Field K] [LinearOrder K] {Wd : World N K}

/-! ## `pre_update` -/

theorem safe_observe (models : Dict N Wd.M) (l : List N) (h : ∀ n ∈ l, n ∈ Dict.keys models) :
    Safe (fun ps => List.Forall₂ (fun (p : N × (Wd.X × Wd.P)) n => p.1 = n ∧
      ∃ m, Dict.get? models n = some m ∧ p.2 = (Wd.getState m, Wd.footprint m)) ps l)
      (observe models l) := by
  induction l with
  | nil => exact List.Forall₂.nil
  | cons n ns ih =>
    obtain ⟨m, hm⟩ := (Dict.mem_keys_iff _ _).mp (h n (by simp))
    unfold observe
    refine (safe_lookup hm).bind ?_
    rintro _ rfl
    refine (ih (fun x hx => h x (by simp [hx]))).bind ?_
    intro rest hrest
    exact List.Forall₂.cons ⟨rfl, _, hm, rfl⟩ hrest

/-- The observation of exactly the players `l` with their present states. -/
def IsSnapshot (models : Dict N Wd.M) (l : List N) (t : K) (o : Obs N K Wd.X Wd.P) : Prop :=
  o.time = t ∧ Dict.keys o.players = l ∧
    ∀ n ∈ l, ∃ m, Dict.get? models n = some m ∧
      Dict.get? o.players n = some (Wd.getState m, Wd.footprint m)

theorem snapshot_of_forall₂ (models : Dict N Wd.M) (l : List N) (hl : l.Nodup)
    (ps : Dict N (Wd.X × Wd.P)) (t : K)
    (h : List.Forall₂ (fun (p : N × (Wd.X × Wd.P)) n => p.1 = n ∧
      ∃ m, Dict.get? models n = some m ∧ p.2 = (Wd.getState m, Wd.footprint m)) ps l) :
    IsSnapshot models l t ⟨ps, t⟩ := by
  have hk : Dict.keys ps = l := by
    clear hl
    induction h with
    | nil => rfl
    | cons h _ ih => simp only [Dict.keys, List.map_cons] at ih ⊢; rw [h.1, ih]
  refine ⟨rfl, hk, ?_⟩
  intro n hn
  have hwf : Dict.Wf ps := by unfold Dict.Wf; rw [hk]; exact hl
  clear hl hk
  have : ∃ p ∈ ps, p.1 = n ∧ ∃ m, Dict.get? models n = some m ∧
      p.2 = (Wd.getState m, Wd.footprint m) := by
    clear hwf
    induction h with
    | nil => simp at hn
    | cons h _ ih =>
      rcases List.mem_cons.mp hn with rfl | hn
      · exact ⟨_, by simp, h⟩
      · obtain ⟨p, hp, h'⟩ := ih hn
        exact ⟨p, List.mem_cons_of_mem _ hp, h'⟩
  obtain ⟨p, hp, rfl, m, hm, h2⟩ := this
  refine ⟨m, hm, Dict.get?_of_mem hwf ?_⟩
  rw [← h2]
  exact hp

theorem safe_preUpdate (cfg : Cfg Wd) (s : St Wd) (hk : ∀ n ∈ s.players, n ∈ Dict.keys s.models)
    (hp : s.players.Nodup) :
    Safe (fun s' => ∃ o, s' = { s with lastObs := o } ∧
      (need cfg s = true → IsSnapshot s.models s.players s.time o)) (preUpdate cfg s) := by
  unfold preUpdate
  split
  · refine (safe_observe s.models s.players hk).bind ?_
    intro ps hps
    exact ⟨_, rfl, fun _ => snapshot_of_forall₂ _ _ hp _ _ hps⟩
  · rename_i h
    exact ⟨s.lastObs, rfl, fun h' => absurd h' h⟩

/-! ## `update` -/

/-- The extra builder after a call. -/
def extraAfter (b : Builder K Wd.E) (t : K) : Option Wd.E → Builder K Wd.E
  | none => b
  | some e => Builder.push b t e

/-- What `askPlayer` does. -/
structure AskEffect (s s' : St Wd) (n : N) (lg : PlayerLogger Wd) (c : Wd.C) (i : Wd.I)
    (o : Obs N K Wd.X Wd.P) (extra : Builder K Wd.E) : Prop where
  calls : ∃ w1 w2 w3 ex, Wd.sense s.w n s.lastObs = .ok (w1, o) ∧
    Wd.getCommands w1 n o = .ok (w2, c, i) ∧ Wd.getExtra w2 n = .ok (w3, ex) ∧
    extra = extraAfter lg.extra s.time ex ∧
    s' = { s with
      w := w3
      lastCmds := Dict.set s.lastCmds n c
      logger := Dict.set s.logger n
        { lg with commands := Builder.push lg.commands s.time c,
                  info := Builder.push lg.info s.time i, extra := extra }
      trace := s.trace ++ [.sense s.time n s.lastObs, .ask s.time n o] }

theorem safe_askPlayer (s : St Wd) (n : N) (lg : PlayerLogger Wd)
    (hlg : Dict.get? s.logger n = some lg)
    (hc : ∀ u ∈ lg.commands.ts, u < s.time) (hi : ∀ u ∈ lg.info.ts, u < s.time)
    (he : ∀ u ∈ lg.extra.ts, u < s.time) :
    Safe (fun s' => ∃ c i o extra, AskEffect s s' n lg c i o extra) (askPlayer s n) := by
  unfold askPlayer
  refine (safe_liftU _).bind ?_
  rintro ⟨w1, o⟩ h1
  refine (safe_liftU _).bind ?_
  rintro ⟨w2, c, i⟩ h2
  refine (safe_lookup hlg).bind ?_
  rintro lg rfl
  refine (safe_addLog _ _ _ hc).bind ?_
  rintro _ rfl
  refine (safe_addLog _ _ _ hi).bind ?_
  rintro _ rfl
  refine (safe_liftU _).bind ?_
  rintro ⟨w3, ex⟩ h3
  have hex : Safe (fun b => b = extraAfter lg.extra s.time ex)
      (addExtra lg.extra s.time ex) := by
    cases ex with
    | none => exact rfl
    | some e => exact safe_addLog _ _ _ he
  refine hex.bind ?_
  rintro _ rfl
  exact ⟨c, i, o, _, ⟨w1, w2, w3, ex, h1, h2, h3, rfl, rfl⟩⟩

/-- Everything of the state that the update of a player leaves alone. -/
structure SameFrame (s s' : St Wd) : Prop where
  players : s'.players = s.players
  time : s'.time = s.time
  terminated : s'.terminated = s.terminated
  reports : s'.reports = s.reports
  firstColl : s'.firstColl = s.firstColl
  lastObs : s'.lastObs = s.lastObs
  lastCmdTs : s'.lastCmdTs = s.lastCmdTs

/-- The events of one player in one step. -/
def playerEvents (s : St Wd) (needed : Bool) (n : N) (o : Obs N K Wd.X Wd.P) (m : Wd.M)
    (c : Wd.C) : List (Event Wd) :=
  (if needed then [.sense s.time n s.lastObs, .ask s.time n o] else []) ++ [.drive s.time n m c]

/-- What one step does to one player: the state is logged, commands are requested and logged if
`needed`, and the model is driven with the command `c`. -/
def PlayerStep (cfg : Cfg Wd) (needed : Bool) (s s' : St Wd) (n : N) (o : Obs N K Wd.X Wd.P)
    (m : Wd.M) (c : Wd.C) : Prop :=
  ∃ m' lg lg', Dict.get? s.models n = some m ∧ Dict.get? s'.models n = some m' ∧
    (∃ w w', Wd.update w n m c cfg.dt = .ok (w', m')) ∧
    Dict.get? s.logger n = some lg ∧ Dict.get? s'.logger n = some lg' ∧
    lg'.states = Builder.push lg.states s.time (Wd.getState m) ∧
    Dict.get? s'.lastCmds n = some c ∧
    (needed = true → (∃ w w1 w2 i, Wd.sense w n s.lastObs = .ok (w1, o) ∧
        Wd.getCommands w1 n o = .ok (w2, c, i) ∧
        lg'.commands = Builder.push lg.commands s.time c ∧
        lg'.info = Builder.push lg.info s.time i) ∧
      (lg'.extra = lg.extra ∨ ∃ e, lg'.extra = Builder.push lg.extra s.time e)) ∧
    (needed = false → Dict.get? s.lastCmds n = some c ∧ lg'.commands = lg.commands ∧
      lg'.info = lg.info ∧ lg'.extra = lg.extra)

/-- Precondition for updating player `n` without a logging or lookup error. -/
structure CanUpdate (needed : Bool) (s : St Wd) (n : N) : Prop where
  model : n ∈ Dict.keys s.models
  logger : ∃ lg, Dict.get? s.logger n = some lg ∧ (∀ u ∈ lg.states.ts, u < s.time) ∧
    (needed = true → (∀ u ∈ lg.commands.ts, u < s.time) ∧ (∀ u ∈ lg.info.ts, u < s.time) ∧
      ∀ u ∈ lg.extra.ts, u < s.time)
  cmd : needed = false → n ∈ Dict.keys s.lastCmds

theorem need_congr (cfg : Cfg Wd) {s s' : St Wd} (h1 : s'.time = s.time)
    (h2 : s'.lastCmdTs = s.lastCmdTs) : need cfg s' = need cfg s := by
  unfold need; rw [h1, h2]

theorem safe_updatePlayer (cfg : Cfg Wd) (s : St Wd) (n : N) (h : CanUpdate (need cfg s) s n) :
    Safe (fun s' => ∃ o m c, SameFrame s s' ∧ PlayerStep cfg (need cfg s) s s' n o m c ∧
      s'.trace = s.trace ++ playerEvents s (need cfg s) n o m c ∧
      Dict.keys s'.models = Dict.keys s.models ∧
      ∀ n', n' ≠ n → Dict.get? s'.models n' = Dict.get? s.models n' ∧
        Dict.get? s'.logger n' = Dict.get? s.logger n' ∧
        Dict.get? s'.lastCmds n' = Dict.get? s.lastCmds n') (updatePlayer cfg s n) := by
  obtain ⟨m, hm⟩ := (Dict.mem_keys_iff _ _).mp h.model
  obtain ⟨lg, hlg, hst, hcmds⟩ := h.logger
  unfold updatePlayer
  refine (safe_lookup hm).bind ?_
  rintro m rfl
  refine (safe_lookup hlg).bind ?_
  rintro lg rfl
  refine (safe_addLog _ _ _ hst).bind ?_
  rintro _ rfl
  simp only [maybeAsk]
  have hneed : ∀ L, need cfg (({ s with logger := L } : St Wd)) = need cfg s :=
    fun L => need_congr cfg rfl rfl
  simp only [hneed]
  cases hn : need cfg s with
  | true =>
    rw [hn] at hcmds
    obtain ⟨hc, hi, he⟩ := hcmds rfl
    rw [if_pos rfl]
    refine (safe_askPlayer ({ s with logger := (Dict.set s.logger n
          ({ lg with states := Builder.push lg.states s.time (Wd.getState m) } :
            PlayerLogger Wd)) } : St Wd) n
      ({ lg with states := Builder.push lg.states s.time (Wd.getState m) } : PlayerLogger Wd)
      (Dict.get?_set_self _ _ _) hc hi he).bind ?_
    rintro s2 ⟨c, i, o, extra, ⟨w1, w2, w3, ex, e1, e2, e3, rfl, rfl⟩⟩
    refine (safe_lookup (a := c) (Dict.get?_set_self _ _ _)).bind ?_
    rintro c rfl
    refine (safe_lookup (a := m) hm).bind ?_
    rintro m rfl
    refine (safe_liftU _).bind ?_
    rintro ⟨w', m'⟩ hu
    refine ⟨o, m, c, ⟨rfl, rfl, rfl, rfl, rfl, rfl, rfl⟩, ?_, ?_, ?_, ?_⟩
    · refine ⟨m', lg, _, hm, Dict.get?_set_self _ _ _, ⟨_, _, hu⟩, hlg,
        Dict.get?_set_self _ _ _, rfl, Dict.get?_set_self _ _ _, ?_, by simp⟩
      intro _
      refine ⟨⟨_, _, _, i, e1, e2, rfl, rfl⟩, ?_⟩
      cases ex with
      | none => exact Or.inl rfl
      | some e => exact Or.inr ⟨e, rfl⟩
    · simp [playerEvents]
    · rw [Dict.keys_set, if_pos h.model]
    · intro n' hn'
      refine ⟨Dict.get?_set_ne _ (Ne.symm hn') _, ?_, Dict.get?_set_ne _ (Ne.symm hn') _⟩
      rw [Dict.get?_set_ne _ (Ne.symm hn'), Dict.get?_set_ne _ (Ne.symm hn')]
  | false =>
    have hc0 := h.cmd hn
    obtain ⟨c, hc⟩ := (Dict.mem_keys_iff _ _).mp hc0
    rw [if_neg (by simp)]
    simp only [bind, Except.bind]
    have hb : lookup s.lastCmds n = .ok c := by unfold lookup; rw [hc]
    have hb2 : lookup s.models n = .ok m := by unfold lookup; rw [hm]
    simp only [hb, hb2]
    have hl := safe_liftU (Wd.update s.w n m c cfg.dt)
    cases hu : liftU (Wd.update s.w n m c cfg.dt) with
    | error e =>
      obtain ⟨u, rfl⟩ := hl.error hu
      trivial
    | ok r =>
      obtain ⟨w', m'⟩ := r
      have hu' := hl.ok hu
      refine ⟨s.lastObs, m, c, ⟨rfl, rfl, rfl, rfl, rfl, rfl, rfl⟩, ?_, ?_, ?_, ?_⟩
      · refine ⟨m', lg, _, hm, Dict.get?_set_self _ _ _, ⟨_, _, hu'⟩, hlg,
          Dict.get?_set_self _ _ _, rfl, hc, by simp, ?_⟩
        intro _
        exact ⟨hc, rfl, rfl, rfl⟩
      · simp [playerEvents]
      · rw [Dict.keys_set, if_pos h.model]
      · intro n' hn'
        exact ⟨Dict.get?_set_ne _ (Ne.symm hn') _, Dict.get?_set_ne _ (Ne.symm hn') _, rfl⟩

/-- Effect of the loop over the players. `es` lists, in order, what each player was given. -/
structure LoopEffect (cfg : Cfg Wd) (needed : Bool) (s s' : St Wd) (l : List N)
    (es : List (N × Obs N K Wd.X Wd.P × Wd.M × Wd.C)) : Prop where
  frame : SameFrame s s'
  names : es.map Prod.fst = l
  steps : ∀ e ∈ es, PlayerStep cfg needed s s' e.1 e.2.1 e.2.2.1 e.2.2.2
  trace : s'.trace = s.trace ++
    es.flatMap (fun e => playerEvents s needed e.1 e.2.1 e.2.2.1 e.2.2.2)
  keys : Dict.keys s'.models = Dict.keys s.models
  others : ∀ n, n ∉ l → Dict.get? s'.models n = Dict.get? s.models n ∧
    Dict.get? s'.logger n = Dict.get? s.logger n ∧
    Dict.get? s'.lastCmds n = Dict.get? s.lastCmds n

theorem safe_updateLoop (cfg : Cfg Wd) (needed : Bool) (l : List N) :
    ∀ s : St Wd, need cfg s = needed → l.Nodup → (∀ n ∈ l, CanUpdate needed s n) →
      Safe (fun s' => ∃ es, LoopEffect cfg needed s s' l es) (updateLoop cfg s l) := by
  induction l with
  | nil =>
    intro s _ _ _
    exact ⟨[], ⟨⟨rfl, rfl, rfl, rfl, rfl, rfl, rfl⟩, rfl, by simp, by simp, rfl, by simp⟩⟩
  | cons n ns ih =>
    intro s hs hl hcan
    rw [List.nodup_cons] at hl
    unfold updateLoop
    refine (safe_updatePlayer cfg s n (by rw [hs]; exact hcan n (by simp))).bind ?_
    rintro s1 ⟨o, m, c, hf, hstep, htr, hkeys, hoth⟩
    rw [hs] at hstep htr
    have hne : ∀ n' ∈ ns, n' ≠ n := fun n' hn' e => hl.1 (e ▸ hn')
    have hneed : need cfg s1 = needed := by rw [need_congr cfg hf.time hf.lastCmdTs, hs]
    refine (ih s1 hneed hl.2 ?_).mono ?_
    · intro n' hn'
      obtain ⟨h1, ⟨lg, h2, h3, h4⟩, h5⟩ := hcan n' (by simp [hn'])
      obtain ⟨o1, o2, o3⟩ := hoth n' (hne n' hn')
      refine ⟨by rw [hkeys]; exact h1, ⟨lg, by rw [o2]; exact h2, ?_, ?_⟩, ?_⟩
      · rw [hf.time]; exact h3
      · rw [hf.time]; exact h4
      · intro hn
        rw [Dict.mem_keys_iff, o3, ← Dict.mem_keys_iff]; exact h5 hn
    · rintro s2 ⟨es, he⟩
      obtain ⟨p1, p2, p3⟩ := he.others n hl.1
      refine ⟨(n, o, m, c) :: es, ⟨?_, by simp [he.names], ?_, ?_, by rw [he.keys, hkeys], ?_⟩⟩
      · exact ⟨he.frame.players.trans hf.players, he.frame.time.trans hf.time,
          he.frame.terminated.trans hf.terminated, he.frame.reports.trans hf.reports,
          he.frame.firstColl.trans hf.firstColl, he.frame.lastObs.trans hf.lastObs,
          he.frame.lastCmdTs.trans hf.lastCmdTs⟩
      · intro e hemem
        rcases List.mem_cons.mp hemem with rfl | hemem
        · obtain ⟨m', lg, lg', q1, q2, q3, q4, q5, q6, q7, q8, q9⟩ := hstep
          exact ⟨m', lg, lg', q1, by rw [p1]; exact q2, q3, q4, by rw [p2]; exact q5, q6,
            by rw [p3]; exact q7, q8, q9⟩
        · have hmem : e.1 ∈ ns := by rw [← he.names]; exact List.mem_map_of_mem hemem
          obtain ⟨m', lg, lg', q1, q2, q3, q4, q5, q6, q7, q8, q9⟩ := he.steps e hemem
          obtain ⟨o1, o2, o3⟩ := hoth e.1 (hne _ hmem)
          refine ⟨m', lg, lg', by rw [← o1]; exact q1, q2, q3, by rw [← o2]; exact q4, q5, ?_,
            q7, ?_, ?_⟩
          · rw [← hf.time]; exact q6
          · rw [← hf.time, ← hf.lastObs]; exact q8
          · rw [← o3]; exact q9
      · rw [he.trace, htr]
        simp only [playerEvents, hf.time, hf.lastObs, List.flatMap_cons, List.append_assoc]
      · intro n' hn'
        simp only [List.mem_cons, not_or] at hn'
        obtain ⟨o1, o2, o3⟩ := hoth n' hn'.1
        obtain ⟨p1, p2, p3⟩ := he.others n' hn'.2
        exact ⟨p1.trans o1, p2.trans o2, p3.trans o3⟩

theorem safe_update (cfg : Cfg Wd) (s : St Wd) (hl : s.players.Nodup)
    (hcan : ∀ n ∈ s.players, CanUpdate (need cfg s) s n) :
    Safe (fun s' => ∃ s1 es, LoopEffect cfg (need cfg s) s s1 s.players es ∧
      s' = { s1 with lastCmdTs := if need cfg s then some s.time else s.lastCmdTs })
      (update cfg s) := by
  unfold update
  refine (safe_updateLoop cfg (need cfg s) s.players s rfl hl hcan).bind ?_
  rintro s1 ⟨es, he⟩
  have : need cfg s1 = need cfg s := need_congr cfg he.frame.time he.frame.lastCmdTs
  refine ⟨s1, es, he, ?_⟩
  rw [this]
  cases need cfg s with
  | true => rfl
  | false => simp [← he.frame.lastCmdTs]

end Sim
end Verif
