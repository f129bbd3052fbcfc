import Verif.Sim.FreshProps
import Verif.Sim.Toy

/-!
# C156: a simulation does not depend on the time at which its clock starts
-/

set_option linter.unusedSectionVars false

namespace Verif
namespace Sim

variable {N K : Type} [DecidableEq N] [Field K] [LinearOrder K] [IsStrictOrderedRing K] {Wd : World N K}

namespace Shift

/-- The values of a dictionary replaced. -/
def mapVal {α β : Type} (f : α → β) (d : Dict N α) : Dict N β := List.map (fun p : N × α => (p.1, f p.2)) d

theorem get?_mapVal {α β : Type} (f : α → β) (d : Dict N α) (n : N) :
    Dict.get? (mapVal f d) n = (Dict.get? d n).map f := by
  induction d with
  | nil => rfl
  | cons p d ih =>
    obtain ⟨m, a⟩ := p
    show Dict.get? ((m, f a) :: mapVal f d) n = _
    simp only [Dict.get?]
    split
    · rfl
    · exact ih

theorem set_mapVal {α β : Type} (f : α → β) (d : Dict N α) (n : N) (a : α) :
    Dict.set (mapVal f d) n (f a) = mapVal f (Dict.set d n a) := by
  induction d with
  | nil => rfl
  | cons p d ih =>
    obtain ⟨m, b⟩ := p
    show Dict.set ((m, f b) :: mapVal f d) n (f a) = _
    simp only [Dict.set]
    split
    · rfl
    · rw [ih]; rfl

theorem lookup_mapVal {α β : Type} (f : α → β) (d : Dict N α) (n : N) :
    RelQ (fun a b => b = f a) (lookup d n) (lookup (mapVal f d) n) := by
  unfold lookup
  rw [get?_mapVal]
  cases Dict.get? d n <;> rfl

/-- A builder whose samples are later by `τ` and whose values are replaced. -/
def builder {α : Type} (τ : K) (f : α → α) (b : Builder K α) : Builder K α := ⟨b.ts.map (· + τ), b.vs.map f⟩

theorem addLog_shift {α : Type} (τ : K) (f : α → α) (b : Builder K α) (t : K) (v : α) :
    RelQ (fun a b => b = builder τ f a) (addLog b t v) (addLog (builder τ f b) (t + τ) (f v)) := by
  unfold addLog Builder.add builder
  simp only [List.getLast?_map]
  cases b.ts.getLast? with
  | none => simp [RelQ]
  | some u =>
    by_cases h : t ≤ u <;> simp [h, RelQ]

/-- An observation that is later by `τ`. -/
def obs (τ : K) {X P : Type} (o : Obs N K X P) : Obs N K X P := ⟨o.players, o.time + τ⟩

/-- A report that is later by `τ`. -/
def report (τ : K) (r : Report Wd) : Report Wd := { r with atTime := r.atTime + τ }

/-- The builders of a player, later by `τ`; `e` tells how the extra objects change. -/
def logger (τ : K) (e : Wd.E → Wd.E) (l : PlayerLogger Wd) : PlayerLogger Wd where
  states := builder τ id l.states
  commands := builder τ id l.commands
  extra := builder τ e l.extra
  info := builder τ id l.info

/-- The state later by `τ`, with the agents `w`. -/
def state (τ : K) (e : Wd.E → Wd.E) (w : Wd.W) (tr : List (Event Wd)) (s : St Wd) : St Wd where
  models := s.models
  players := s.players
  w := w
  time := s.time + τ
  terminated := s.terminated
  reports := s.reports.map (report τ)
  firstColl := s.firstColl.map (· + τ)
  lastObs := obs τ s.lastObs
  lastCmdTs := s.lastCmdTs.map (· + τ)
  lastCmds := s.lastCmds
  logger := mapVal (logger τ e) s.logger
  trace := tr

/-- Same exception, or related results. -/
def RelV {α β : Type} (R : α → β → Prop) : Except Err α → Except Err β → Prop
  | .ok a, .ok b => R a b
  | .error e, .error e' => e = e'
  | _, _ => False

theorem relQ_lift {α β : Type} {R : α → β → Prop} {x : Except Err α} {y : Except Err β} (h : RelV R x y) :
    RelQ R (liftU x) (liftU y) := by
  cases x <;> cases y
  · show SimErr.user _ = SimErr.user _
    rw [show _ = _ from h]
  · exact (h : False).elim
  · exact (h : False).elim
  · exact h

/-- Agents, goals and obstacles that do not care what time it is: `R w w'` says that the agents `w'` are the agents
`w` with all times they remember later by `τ`. They then answer the same, with the times in extra objects (`e`)
later. -/
structure Timeless (Wd : World N K) (τ : K) (e : Wd.E → Wd.E) (R : Wd.W → Wd.W → Prop) : Prop where
  onInit : ∀ w w' n, R w w' → RelV R (Wd.onInit w n) (Wd.onInit w' n)
  sense : ∀ w w' n o, R w w' →
    RelV (fun a b => R a.1 b.1 ∧ b.2 = obs τ a.2) (Wd.sense w n o) (Wd.sense w' n (obs τ o))
  getCommands : ∀ w w' n o, R w w' →
    RelV (fun a b => R a.1 b.1 ∧ b.2 = a.2) (Wd.getCommands w n o) (Wd.getCommands w' n (obs τ o))
  getExtra : ∀ w w' n, R w w' →
    RelV (fun a b => R a.1 b.1 ∧ b.2 = a.2.map e) (Wd.getExtra w n) (Wd.getExtra w' n)
  update : ∀ w w' n m c dt, R w w' →
    RelV (fun a b => R a.1 b.1 ∧ b.2 = a.2) (Wd.update w n m c dt) (Wd.update w' n m c dt)
  fulfilled : ∀ w w' n g x t, R w w' →
    RelV (fun a b => R a.1 b.1 ∧ b.2 = a.2) (Wd.fulfilled w n g x t) (Wd.fulfilled w' n g x (t + τ))
  envQuery : ∀ w w' p, R w w' → Wd.envQuery w' p = Wd.envQuery w p
  resolveEnv : ∀ w w' n m o t, R w w' → R (Wd.resolveEnv w n m o t).1.1 (Wd.resolveEnv w' n m o (t + τ)).1.1 ∧
    (Wd.resolveEnv w' n m o (t + τ)).1.2 = (Wd.resolveEnv w n m o t).1.2 ∧
    (Wd.resolveEnv w' n m o (t + τ)).2 = (Wd.resolveEnv w n m o t).2
  resolve : ∀ w w' n m n' m' t, R w w' →
    R (Wd.resolve w n m n' m' t).1.1 (Wd.resolve w' n m n' m' (t + τ)).1.1 ∧
    (Wd.resolve w' n m n' m' (t + τ)).1.2 = (Wd.resolve w n m n' m' t).1.2 ∧
    (Wd.resolve w' n m n' m' (t + τ)).2 = (Wd.resolve w n m n' m' t).2

section
variable {τ : K} {e : Wd.E → Wd.E} {R : Wd.W → Wd.W → Prop}

/-- The second state is the first one, later by `τ`. -/
def Later (τ : K) (e : Wd.E → Wd.E) (R : Wd.W → Wd.W → Prop) (s s' : St Wd) : Prop :=
  ∃ w tr, R s.w w ∧ s' = state τ e w tr s

theorem need_shift (cfg : Cfg Wd) (τ mx : K) (e : Wd.E → Wd.E) (w : Wd.W) (tr : List (Event Wd)) (s : St Wd) :
    need { cfg with maxSimTime := mx } (state τ e w tr s) = need cfg s := by
  unfold need state
  cases s.lastCmdTs with
  | none => rfl
  | some t => simp

theorem later_preUpdate (cfg : Cfg Wd) (mx : K) {s s' : St Wd} (h : Later τ e R s s') :
    RelQ (Later τ e R) (preUpdate cfg s) (preUpdate { cfg with maxSimTime := mx } s') := by
  obtain ⟨w, tr, hw, rfl⟩ := h
  unfold preUpdate
  rw [need_shift]
  split
  · refine (RelQ.refl (observe (Wd := Wd) s.models s.players)).bind ?_
    rintro ps _ rfl
    exact ⟨w, tr, hw, rfl⟩
  · exact ⟨w, tr, hw, rfl⟩

theorem later_askPlayer (T : Timeless Wd τ e R) (n : N) {s s' : St Wd} (h : Later τ e R s s') :
    RelQ (Later τ e R) (askPlayer s n) (askPlayer s' n) := by
  obtain ⟨w, tr, hw, rfl⟩ := h
  unfold askPlayer
  refine (relQ_lift (T.sense s.w w n s.lastObs hw)).bind ?_
  rintro ⟨w1, o⟩ ⟨w1', o'⟩ ⟨h1, h2⟩
  simp only at h1 h2
  subst h2
  refine (relQ_lift (T.getCommands w1 w1' n o h1)).bind ?_
  rintro ⟨w2, ci⟩ ⟨w2', ci'⟩ ⟨h1, h2⟩
  simp only at h1 h2
  subst h2
  refine (lookup_mapVal (logger τ e) s.logger n).bind ?_
  rintro lg _ rfl
  refine (addLog_shift τ id lg.commands s.time ci'.1).bind ?_
  rintro cm _ rfl
  refine (addLog_shift τ id lg.info s.time ci'.2).bind ?_
  rintro inf _ rfl
  refine (relQ_lift (T.getExtra w2 w2' n h1)).bind ?_
  rintro ⟨w3, ex⟩ ⟨w3', ex'⟩ ⟨h1, h2⟩
  simp only at h1 h2
  subst h2
  have hx : RelQ (fun a b => b = builder τ e a) (addExtra lg.extra s.time ex)
      (addExtra (builder τ e lg.extra) (s.time + τ) (ex.map e)) := by
    cases ex with
    | none => rfl
    | some x => exact addLog_shift τ e lg.extra s.time x
  refine hx.bind ?_
  rintro extra _ rfl
  refine ⟨w3', tr ++ [.sense (s.time + τ) n (obs τ s.lastObs), .ask (s.time + τ) n (obs τ o)], h1, ?_⟩
  simp only [state]
  congr 1
  exact set_mapVal (logger τ e) s.logger n { lg with commands := cm, info := inf, extra := extra }

theorem later_maybeAsk (T : Timeless Wd τ e R) (cfg : Cfg Wd) (mx : K) (n : N) {s s' : St Wd}
    (h : Later τ e R s s') :
    RelQ (Later τ e R) (maybeAsk cfg s n) (maybeAsk { cfg with maxSimTime := mx } s' n) := by
  obtain ⟨w, tr, hw, rfl⟩ := h
  unfold maybeAsk
  rw [need_shift]
  split
  · exact later_askPlayer T n ⟨w, tr, hw, rfl⟩
  · exact ⟨w, tr, hw, rfl⟩

theorem later_updatePlayer (T : Timeless Wd τ e R) (cfg : Cfg Wd) (mx : K) (n : N) {s s' : St Wd}
    (h : Later τ e R s s') :
    RelQ (Later τ e R) (updatePlayer cfg s n) (updatePlayer { cfg with maxSimTime := mx } s' n) := by
  obtain ⟨w, tr, hw, rfl⟩ := h
  unfold updatePlayer
  refine (RelQ.refl (lookup s.models n)).bind ?_
  rintro m _ rfl
  refine (lookup_mapVal (logger τ e) s.logger n).bind ?_
  rintro lg _ rfl
  refine (addLog_shift τ id lg.states s.time (Wd.getState m)).bind ?_
  rintro st _ rfl
  refine (later_maybeAsk T cfg mx n (s := { s with logger := Dict.set s.logger n { lg with states := st } })
    ⟨w, tr, hw, ?_⟩).bind ?_
  · simp only [state]
    congr 1
    exact set_mapVal (logger τ e) s.logger n { lg with states := st }
  · rintro s2 _ ⟨w2, tr2, h2, rfl⟩
    refine (RelQ.refl (lookup s2.lastCmds n)).bind ?_
    rintro c _ rfl
    refine (RelQ.refl (lookup s2.models n)).bind ?_
    rintro m2 _ rfl
    refine (relQ_lift (T.update s2.w w2 n m2 c cfg.dt h2)).bind ?_
    rintro ⟨w3, m'⟩ ⟨w3', m''⟩ ⟨h1, h3⟩
    simp only at h1 h3
    subst h3
    exact ⟨w3', _, h1, rfl⟩

theorem later_updateLoop (T : Timeless Wd τ e R) (cfg : Cfg Wd) (mx : K) (l : List N) : ∀ s s' : St Wd,
    Later τ e R s s' → RelQ (Later τ e R) (updateLoop cfg s l) (updateLoop { cfg with maxSimTime := mx } s' l) := by
  induction l with
  | nil => exact fun _ _ h => h
  | cons n l ih =>
    intro s s' h
    unfold updateLoop
    exact (later_updatePlayer T cfg mx n h).bind fun t t' ht => ih t t' ht

theorem later_update (T : Timeless Wd τ e R) (cfg : Cfg Wd) (mx : K) {s s' : St Wd} (h : Later τ e R s s') :
    RelQ (Later τ e R) (update cfg s) (update { cfg with maxSimTime := mx } s') := by
  have hp : s'.players = s.players := by obtain ⟨w, tr, hw, rfl⟩ := h; rfl
  have ht : s'.time = s.time + τ := by obtain ⟨w, tr, hw, rfl⟩ := h; rfl
  unfold update
  rw [hp, ht]
  refine (later_updateLoop T cfg mx s.players s s' h).bind ?_
  rintro t _ ⟨w, tr, hw, rfl⟩
  rw [need_shift]
  split
  · exact ⟨w, tr, hw, rfl⟩
  · exact ⟨w, tr, hw, rfl⟩

theorem later_removePlayer (T : Timeless Wd τ e R) (p : N) (g : Wd.G) {s s' : St Wd} (h : Later τ e R s s') :
    RelQ (Later τ e R) (removePlayer s p g) (removePlayer s' p g) := by
  obtain ⟨w, tr, hw, rfl⟩ := h
  unfold removePlayer
  by_cases hp : p ∈ s.players
  · rw [if_pos hp, if_pos (show p ∈ (state τ e w tr s).players from hp)]
    refine (RelQ.refl (lookup s.models p)).bind ?_
    rintro m _ rfl
    refine (relQ_lift (T.fulfilled s.w w p g (Wd.getState m) s.time hw)).bind ?_
    rintro ⟨w1, b⟩ ⟨w1', b'⟩ ⟨h1, h2⟩
    simp only at h1 h2
    subst h2
    cases b' with
    | false => exact ⟨w1', _, h1, rfl⟩
    | true =>
      refine (lookup_mapVal (logger τ e) s.logger p).bind ?_
      rintro lg _ rfl
      refine (addLog_shift τ id lg.states s.time (Wd.getState m)).bind ?_
      rintro st _ rfl
      refine ⟨w1', tr ++ [.goal (s.time + τ) p (Wd.getState m)], h1, ?_⟩
      simp only [state]
      congr 1
      exact set_mapVal (logger τ e) s.logger p { lg with states := st }
  · rw [if_neg hp, if_neg (show p ∉ (state τ e w tr s).players from hp)]
    exact ⟨w, tr, hw, rfl⟩

theorem later_removeLoop (T : Timeless Wd τ e R) (l : Dict N Wd.G) : ∀ s s' : St Wd,
    Later τ e R s s' → RelQ (Later τ e R) (removeLoop s l) (removeLoop s' l) := by
  induction l with
  | nil => exact fun _ _ h => h
  | cons pg l ih =>
    obtain ⟨p, g⟩ := pg
    intro s s' h
    unfold removeLoop
    exact (later_removePlayer T p g h).bind fun t t' ht => ih t t' ht

theorem termination_shift (cfg : Cfg Wd) (w : Wd.W) (tr : List (Event Wd)) (s : St Wd) :
    terminationCondition { cfg with maxSimTime := cfg.maxSimTime + τ } (state τ e w tr s) =
      terminationCondition cfg s := by
  have hc : collTimer { cfg with maxSimTime := cfg.maxSimTime + τ } (state τ e w tr s) = collTimer cfg s := by
    unfold collTimer state
    cases s.firstColl with
    | none => rfl
    | some t =>
      simp only [Option.map_some]
      rw [decide_eq_decide]
      constructor <;> intro h <;> linarith
  unfold terminationCondition
  rw [hc]
  simp only [state, add_lt_add_iff_right]
  rfl

theorem record_shift (τ : K) (e : Wd.E → Wd.E) (w : Wd.W) (tr : List (Event Wd)) (s : St Wd) (r : Report Wd) :
    recordReport (state τ e w tr s) (report τ r) = state τ e w tr (recordReport s r) := by
  unfold recordReport state report
  simp only [List.map_append, List.map_cons, List.map_nil]
  congr 1
  cases s.firstColl with
  | none => rfl
  | some t =>
    simp only [Option.map_some, add_lt_add_iff_right]
    split <;> rfl

theorem reportOf_shift (τ : K) (ps fs : List N) (t : K) (x : Except Err (Option Wd.D)) :
    RelQ (fun a b => b = Option.map (report τ) a) (reportOf ps fs t x : Except SimErr (Option (Report Wd)))
      (reportOf ps fs (t + τ) x) := by
  rcases x with er | (_ | d)
  · cases er <;> rfl
  · rfl
  · rfl

theorem later_envObstacle (T : Timeless Wd τ e R) (p : N) (o : Wd.O) {s s' : St Wd} (h : Later τ e R s s') :
    RelQ (Later τ e R) (envObstacle s p o) (envObstacle s' p o) := by
  obtain ⟨w, tr, hw, rfl⟩ := h
  unfold envObstacle
  refine (RelQ.refl (lookup s.models p)).bind ?_
  rintro m _ rfl
  obtain ⟨w1, w2, m1, x, e0, e1, h1⟩ : ∃ w1 w2 m1 x, Wd.resolveEnv s.w p m o s.time = ((w1, m1), x) ∧
      Wd.resolveEnv w p m o (s.time + τ) = ((w2, m1), x) ∧ R w1 w2 := by
    obtain ⟨h1, h2, h3⟩ := T.resolveEnv s.w w p m o s.time hw
    exact ⟨_, _, _, _, rfl, by rw [← h2, ← h3], h1⟩
  simp only [state, e0, e1]
  refine (reportOf_shift τ _ _ _ _).bind ?_
  rintro rep _ rfl
  cases rep with
  | none => exact ⟨w2, tr, h1, rfl⟩
  | some rp =>
    show Later τ e R (if _ then _ else _) (if _ then _ else _)
    split
    · exact ⟨w2, tr, h1, record_shift τ e w2 tr { s with w := w1, models := Dict.set s.models p m1 } rp⟩
    · exact ⟨w2, tr, h1, rfl⟩

theorem later_envObstacles (T : Timeless Wd τ e R) (p : N) (os : List Wd.O) : ∀ s s' : St Wd,
    Later τ e R s s' → RelQ (Later τ e R) (envObstacles p s os) (envObstacles p s' os) := by
  induction os with
  | nil => exact fun _ _ h => h
  | cons o os ih =>
    intro s s' h
    unfold envObstacles
    exact (later_envObstacle T p o h).bind fun t t' ht => ih t t' ht

theorem later_envLoop (T : Timeless Wd τ e R) (l : List N) : ∀ s s' : St Wd,
    Later τ e R s s' → RelQ (Later τ e R) (envLoop s l) (envLoop s' l) := by
  induction l with
  | nil => exact fun _ _ h => h
  | cons p l ih =>
    rintro s _ ⟨w, tr, hw, rfl⟩
    unfold envLoop
    refine (RelQ.refl (lookup s.models p)).bind ?_
    rintro m _ rfl
    have hq : Wd.envQuery (state τ e w tr s).w (Wd.footprint m) = Wd.envQuery s.w (Wd.footprint m) :=
      T.envQuery s.w w _ hw
    rw [hq]
    refine RelQ.bind (later_envObstacles T p _ { s with trace := s.trace ++ [.env s.time p] } _ ⟨w, _, hw, rfl⟩)
      fun t t' ht => ih t t' ht

theorem later_checkPair (T : Timeless Wd τ e R) (p q : N) {s s' : St Wd} (h : Later τ e R s s') :
    RelQ (Later τ e R) (checkPair s p q) (checkPair s' p q) := by
  obtain ⟨w, tr, hw, rfl⟩ := h
  unfold checkPair
  refine (RelQ.refl (lookup s.models p)).bind ?_
  rintro m _ rfl
  refine (RelQ.refl (lookup s.models q)).bind ?_
  rintro m' _ rfl
  cases Wd.touch (Wd.footprint m) (Wd.footprint m') with
  | false => exact ⟨w, _, hw, rfl⟩
  | true =>
    obtain ⟨w1, w2, m1, x, e0, e1, h1⟩ : ∃ w1 w2 m1 x, Wd.resolve s.w p m q m' s.time = ((w1, m1), x) ∧
        Wd.resolve w p m q m' (s.time + τ) = ((w2, m1), x) ∧ R w1 w2 := by
      obtain ⟨h1, h2, h3⟩ := T.resolve s.w w p m q m' s.time hw
      exact ⟨_, _, _, _, rfl, by rw [← h2, ← h3], h1⟩
    simp only [state, if_true, e0, e1]
    refine (reportOf_shift τ _ _ _ _).bind ?_
    rintro rep _ rfl
    cases rep with
    | none => exact ⟨w2, _, h1, rfl⟩
    | some rp =>
      refine ⟨w2, tr ++ [(.pair (s.time + τ) p q : Event Wd)], h1, ?_⟩
      exact record_shift τ e w2 (tr ++ [(.pair (s.time + τ) p q : Event Wd)])
        { s with w := w1, models := Dict.set (Dict.set s.models p m1.1) q m1.2,
                 trace := s.trace ++ [.pair s.time p q] } rp

theorem later_pairLoop (T : Timeless Wd τ e R) (l : List (N × N)) : ∀ s s' : St Wd,
    Later τ e R s s' → RelQ (Later τ e R) (pairLoop s l) (pairLoop s' l) := by
  induction l with
  | nil => exact fun _ _ h => h
  | cons pq l ih =>
    obtain ⟨p, q⟩ := pq
    intro s s' h
    unfold pairLoop
    exact (later_checkPair T p q h).bind fun t t' ht => ih t t' ht

theorem later_step (T : Timeless Wd τ e R) (cfg : Cfg Wd) {s s' : St Wd} (h : Later τ e R s s') :
    RelQ (Later τ e R) (step cfg s) (step { cfg with maxSimTime := cfg.maxSimTime + τ } s') := by
  unfold step
  refine (later_preUpdate cfg _ h).bind fun t t' ht => ?_
  refine (later_update T cfg _ ht).bind ?_
  rintro u _ ⟨w, tr, hw, rfl⟩
  unfold postUpdate
  have h1 : Later τ e R { u with time := u.time + cfg.dt }
      { state τ e w tr u with time := (state τ e w tr u).time + cfg.dt } := by
    refine ⟨w, tr, hw, ?_⟩
    simp only [state]
    congr 1
    ring
  refine RelQ.bind (later_removeLoop T cfg.missions _ _ h1) ?_
  rintro v _ ⟨w, tr, hw, rfl⟩
  rw [termination_shift]
  have h2 : Later τ e R { v with terminated := terminationCondition cfg v }
      { state τ e w tr v with terminated := terminationCondition cfg v } := ⟨w, tr, hw, rfl⟩
  cases hb : terminationCondition cfg v with
  | true => rw [hb] at h2; exact h2
  | false =>
    rw [hb] at h2
    simp only [Bool.false_eq_true, if_false]
    refine RelQ.bind (later_envLoop T v.players _ _ h2) ?_
    rintro x _ ⟨w, tr, hw, rfl⟩
    exact later_pairLoop T (combinations2 x.players) _ _ ⟨w, tr, hw, rfl⟩

theorem later_loop (T : Timeless Wd τ e R) (cfg : Cfg Wd) (fuel : Nat) : ∀ s s' : St Wd, Later τ e R s s' →
    RelO (Later τ e R) (loop cfg fuel s) (loop { cfg with maxSimTime := cfg.maxSimTime + τ } fuel s') := by
  induction fuel with
  | zero =>
    rintro s _ ⟨w, tr, hw, rfl⟩
    unfold loop
    show RelO _ _ (if s.terminated = true then _ else _)
    split
    · exact ⟨w, tr, hw, rfl⟩
    · trivial
  | succ k ih =>
    intro s s' h
    have ht : s'.terminated = s.terminated := by obtain ⟨w, tr, hw, rfl⟩ := h; rfl
    have hs := later_step T cfg h
    unfold loop
    rw [ht]
    split
    · exact h
    · cases e1 : step cfg s <;> cases e2 : step { cfg with maxSimTime := cfg.maxSimTime + τ } s' <;> rw [e1, e2] at hs
      · exact hs
      · exact (hs : False).elim
      · exact (hs : False).elim
      · exact ih _ _ hs

theorem later_initLoop (T : Timeless Wd τ e R) (l : List N) : ∀ s s' : St Wd, Later τ e R s s' →
    RelQ (Later τ e R) (initLoop s l) (initLoop s' l) := by
  induction l with
  | nil => exact fun _ _ h => h
  | cons n l ih =>
    rintro s _ ⟨w, tr, hw, rfl⟩
    unfold initLoop
    refine (RelQ.refl (lookup s.models n)).bind ?_
    rintro m _ rfl
    refine (relQ_lift (T.onInit s.w w n hw)).bind ?_
    intro w1 w1' h1
    refine ih _ _ ⟨w1', tr, h1, ?_⟩
    simp only [state]
    congr 1
    exact set_mapVal (logger τ e) s.logger n {}

/-- The sequences of a player in the log, later by `τ`. -/
def playerLog (τ : K) (e : Wd.E → Wd.E) (l : PlayerLog Wd) : PlayerLog Wd where
  states := ⟨l.states.ts.map (· + τ), l.states.vs⟩
  commands := ⟨l.commands.ts.map (· + τ), l.commands.vs⟩
  extra := ⟨l.extra.ts.map (· + τ), l.extra.vs.map e⟩
  info := ⟨l.info.ts.map (· + τ), l.info.vs⟩

theorem increasing_shift (τ : K) (l : List K) : Seq.increasing (l.map (· + τ)) = Seq.increasing l := by
  rw [Bool.eq_iff_iff, Seq.increasing_iff, Seq.increasing_iff, List.pairwise_map]
  simp

theorem asSequence_shift {α : Type} (τ : K) (f : α → α) (b : Builder K α) :
    RelV (fun a b : Seq K α => b = ⟨a.ts.map (· + τ), a.vs.map f⟩) b.asSequence (builder τ f b).asSequence := by
  unfold Builder.asSequence builder Seq.mk?
  simp only [List.length_map, increasing_shift]
  split
  · rfl
  · split
    · rfl
    · rfl

theorem logger_asSequence (τ : K) (e : Wd.E → Wd.E) (l : PlayerLogger Wd) :
    RelV (fun a b => b = playerLog τ e a) l.asSequence (logger τ e l).asSequence := by
  have h1 := asSequence_shift τ id l.states
  have h2 := asSequence_shift τ id l.commands
  have h3 := asSequence_shift τ e l.extra
  have h4 := asSequence_shift τ id l.info
  unfold PlayerLogger.asSequence logger
  simp only
  revert h1 h2 h3 h4
  generalize l.states.asSequence = a1
  generalize (builder τ id l.states).asSequence = b1
  generalize l.commands.asSequence = a2
  generalize (builder τ id l.commands).asSequence = b2
  generalize l.extra.asSequence = a3
  generalize (builder τ e l.extra).asSequence = b3
  generalize l.info.asSequence = a4
  generalize (builder τ id l.info).asSequence = b4
  intro h1 h2 h3 h4
  rcases a1 with x1 | x1 <;> rcases b1 with y1 | y1 <;> first | exact (h1 : False).elim | skip
  · exact h1
  rcases a2 with x2 | x2 <;> rcases b2 with y2 | y2 <;> first | exact (h2 : False).elim | skip
  · exact h2
  rcases a3 with x3 | x3 <;> rcases b3 with y3 | y3 <;> first | exact (h3 : False).elim | skip
  · exact h3
  rcases a4 with x4 | x4 <;> rcases b4 with y4 | y4 <;> first | exact (h4 : False).elim | skip
  · exact h4
  have h1 : y1 = _ := h1
  have h2 : y2 = _ := h2
  have h3 : y3 = _ := h3
  have h4 : y4 = _ := h4
  subst h1 h2 h3 h4
  simp [RelV, playerLog]

theorem writeLog_shift (τ : K) (e : Wd.E → Wd.E) (lg : Dict N (PlayerLogger Wd)) (l : List N) :
    ∀ log : Dict N (PlayerLog Wd), RelQ (fun a b => b = mapVal (playerLog τ e) a) (writeLog lg l log)
      (writeLog (mapVal (logger τ e) lg) l (mapVal (playerLog τ e) log)) := by
  induction l with
  | nil => exact fun _ => rfl
  | cons n l ih =>
    intro log
    unfold writeLog
    refine (lookup_mapVal (logger τ e) lg n).bind ?_
    rintro x _ rfl
    have h := logger_asSequence τ e x
    revert h
    generalize x.asSequence = a
    generalize (logger τ e x).asSequence = b
    intro h
    rcases a with a | a <;> rcases b with b | b <;> first | exact (h : False).elim | skip
    · exact congrArg SimErr.logging (h : a = b)
    · have h : b = _ := h
      subst h
      have := ih (Dict.set log n a)
      rw [← set_mapVal] at this
      exact this

/-- **C156.** Simulate once, and once more with the clock starting `τ` later (or earlier), the time limit later by
`τ`, and agents and goals that do not look at absolute times: both are still running, both fail with the same
exception, or both end with the same models, and players, and with all reports and all samples of the log later by
`τ`. -/
theorem C156_run (T : Timeless Wd τ e R) (cfg : Cfg Wd) (fuel : Nat) (s : St Wd) (w : Wd.W)
    (tr : List (Event Wd)) (hw : R s.w w) (log : Dict N (PlayerLog Wd)) :
    RelO (fun r r' => (∃ w tr, R r.1.w w ∧ r'.1 = state τ e w tr r.1) ∧ r'.2 = mapVal (playerLog τ e) r.2)
      (run cfg fuel s log)
      (run { cfg with maxSimTime := cfg.maxSimTime + τ } fuel (state τ e w tr s) (mapVal (playerLog τ e) log)) := by
  have hi := later_initLoop T s.players s _ ⟨w, tr, hw, rfl⟩
  unfold run
  show RelO _ _ (match initLoop (state τ e w tr s) s.players with | .error e => _ | .ok s1 => _)
  revert hi
  generalize initLoop s s.players = a
  generalize initLoop (state τ e w tr s) s.players = b
  intro hi
  rcases a with a | a <;> rcases b with b | b <;> first | exact (hi : False).elim | skip
  · exact hi
  have hl := later_loop T cfg fuel a b hi
  simp only
  revert hl
  generalize loop cfg fuel a = a2
  generalize loop { cfg with maxSimTime := cfg.maxSimTime + τ } fuel b = b2
  intro hl
  rcases a2 with _ | a2 | a2 <;> rcases b2 with _ | b2 | b2 <;> first | exact (hl : False).elim | skip
  · trivial
  · exact hl
  obtain ⟨w2, tr2, h2, rfl⟩ := hl
  have hg := writeLog_shift τ e a2.logger (Dict.keys a2.models) log
  simp only
  show RelO _ _ (match writeLog (mapVal (logger τ e) a2.logger) (Dict.keys a2.models) (mapVal (playerLog τ e) log)
    with | .error e => _ | .ok l => _)
  revert hg
  generalize writeLog a2.logger (Dict.keys a2.models) log = a3
  generalize writeLog (mapVal (logger τ e) a2.logger) (Dict.keys a2.models) (mapVal (playerLog τ e) log) = b3
  intro hg
  rcases a3 with a3 | a3 <;> rcases b3 with b3 | b3 <;> first | exact (hg : False).elim | skip
  · exact hg
  · exact ⟨⟨w2, tr2, h2, rfl⟩, hg⟩

end

/-! ## A world in which the time matters -/

namespace Watch

/-- The cars of `Toy`, with agents that remember when they were first asked, slow down two seconds after that and
write the time into the extra log. -/
abbrev wd : World Nat ℚ where
  W := Nat → Option ℚ
  M := ℚ
  X := ℚ
  P := ℚ
  C := ℚ
  I := Nat
  E := ℚ
  O := ℚ
  D := ℚ
  G := ℚ
  getState m := m
  footprint m := m
  isDyn _ := false
  onInit w _ := .ok w
  sense w _ o := .ok (w, o)
  getCommands w n o := match w n with
    | none => .ok (Function.update w n (some o.time), 1, n)
    | some t => .ok (w, if n = 1 then -1 else if o.time - t < 2 then 1 else 1 / 2, n)
  getExtra w n := .ok (w, w n)
  update w _ m c dt := .ok (w, m + c * dt)
  fulfilled w _ g x _ := .ok (w, decide (g ≤ x))
  envQuery _ p := if 30 ≤ p then [30] else []
  env := 99
  resolveEnv w _ m _ _ := ((w, m), .ok (some 1))
  touch a b := decide (a - b ≤ 1 ∧ b - a ≤ 1)
  resolve w _ m₁ _ m₂ _ := ((w, m₁, m₂), .ok (some (m₁ + m₂)))

/-- All that is remembered is later by `τ`. -/
def Rel (τ : ℚ) (w w' : Nat → Option ℚ) : Prop := w' = fun n => (w n).map (· + τ)

theorem timeless (τ : ℚ) : Timeless wd τ (· + τ) (Rel τ) where
  onInit _ _ _ h := h
  sense _ _ _ _ h := ⟨h, rfl⟩
  getCommands := by
    rintro w _ n o rfl
    simp only [wd]
    cases e : w n with
    | none =>
      refine ⟨?_, rfl⟩
      funext k
      by_cases hk : k = n
      · subst hk; simp [obs]
      · simp [Function.update_of_ne hk]
    | some t =>
      refine ⟨rfl, ?_⟩
      simp only [obs, add_sub_add_right_eq_sub]
  getExtra := by rintro w _ n rfl; exact ⟨rfl, rfl⟩
  update _ _ _ _ _ _ h := ⟨h, rfl⟩
  fulfilled _ _ _ _ _ _ h := ⟨h, rfl⟩
  envQuery _ _ _ _ := rfl
  resolveEnv _ _ _ _ _ _ h := ⟨h, rfl, rfl⟩
  resolve _ _ _ _ _ _ _ h := ⟨h, rfl, rfl⟩

/-- The configuration and the start of `Toy`. -/
def cfg : Cfg wd := ⟨1 / 2, 1, 6, 1, [(2, (21 : ℚ)), (0, (100 : ℚ))]⟩

def start : St wd where
  models := [(0, (0 : ℚ)), (1, (5 : ℚ)), (2, (20 : ℚ))]
  players := [0, 1, 2]
  w := fun _ => none
  time := 0
  terminated := false
  reports := []
  firstColl := none
  lastObs := ⟨[], 0⟩
  lastCmdTs := none
  lastCmds := []
  logger := []
  trace := []

example := C156_run (timeless 10) cfg 20 start (fun _ => none) [] rfl []

/-- The first run has a collision from time 3.5 on and ends at time 5, the second one ten seconds later. -/
example : ((run cfg 20 start []).map fun x => x.toOption.map fun r => (r.1.time, r.1.reports.map (·.atTime))) =
      some (some (5, [7 / 2, 4, 9 / 2])) ∧
    ((run { cfg with maxSimTime := 16 } 20 (state 10 (· + 10) (fun _ => none) [] start) []).map fun x =>
      x.toOption.map fun r => (r.1.time, r.1.reports.map (·.atTime))) = some (some (15, [27 / 2, 14, 29 / 2])) := by
  decide +kernel

end Watch

end Shift
end Sim
end Verif
