import Verif.Sim.Toy

/-!
# C146: a longer simulation begins like a shorter one
-/

set_option linter.unusedSectionVars false

namespace Verif
namespace Sim

variable {N K : Type} [DecidableEq N] [Field K] [LinearOrder K] [IsStrictOrderedRing K] {Wd : World N K}

/-! ## Specification -/

/-- Specification: the same parameters, except that the run may take more time. -/
structure Longer (cfg cfg' : Cfg Wd) : Prop where
  dt : cfg'.dt = cfg.dt
  dtCommands : cfg'.dtCommands = cfg.dtCommands
  missions : cfg'.missions = cfg.missions
  maxSimTime : cfg.maxSimTime ≤ cfg'.maxSimTime
  afterCollision : cfg.afterCollision ≤ cfg'.afterCollision

/-- Specification: samples have been added at the end, none of them before `t`. -/
def Extends {α : Type} (t : K) (ts ts' : List K) (vs vs' : List α) : Prop :=
  ∃ a b, ts' = ts ++ a ∧ vs' = vs ++ b ∧ a.length = b.length ∧ ∀ x ∈ a, t ≤ x

/-- Specification: an extended log. -/
def PlayerLog.Extends (t : K) (l l' : PlayerLog Wd) : Prop :=
  Sim.Extends t l.states.ts l'.states.ts l.states.vs l'.states.vs ∧
    Sim.Extends t l.commands.ts l'.commands.ts l.commands.vs l'.commands.vs ∧
    Sim.Extends t l.extra.ts l'.extra.ts l.extra.vs l'.extra.vs ∧
    Sim.Extends t l.info.ts l'.info.ts l.info.vs l'.info.vs

/-- Extended builders. -/
def PlayerLogger.Extends (t : K) (l l' : PlayerLogger Wd) : Prop :=
  Sim.Extends t l.states.ts l'.states.ts l.states.vs l'.states.vs ∧
    Sim.Extends t l.commands.ts l'.commands.ts l.commands.vs l'.commands.vs ∧
    Sim.Extends t l.extra.ts l'.extra.ts l.extra.vs l'.extra.vs ∧
    Sim.Extends t l.info.ts l'.info.ts l.info.vs l'.info.vs

/-- Specification: what a later context keeps of an earlier one. -/
structure Grows (t : K) (s s' : St Wd) : Prop where
  time : s.time ≤ s'.time
  reports : ∃ r, s'.reports = s.reports ++ r ∧ ∀ x ∈ r, t ≤ x.atTime
  trace : s.trace <+: s'.trace
  players : s'.players.Sublist s.players
  keys : Dict.keys s'.models = Dict.keys s.models
  logger : ∀ n lg, Dict.get? s.logger n = some lg → ∃ lg', Dict.get? s'.logger n = some lg' ∧ lg.Extends t lg'

/-! ## Lemmas -/

theorem Extends.refl {α : Type} (t : K) (ts : List K) (vs : List α) : Extends t ts ts vs vs :=
  ⟨[], [], by simp, by simp, rfl, by simp⟩

theorem Extends.trans {α : Type} {t : K} {ts ts' ts'' : List K} {vs vs' vs'' : List α} (h : Extends t ts ts' vs vs')
    (h' : Extends t ts' ts'' vs' vs'') : Extends t ts ts'' vs vs'' := by
  obtain ⟨a, b, h1, h2, h3, h4⟩ := h
  obtain ⟨a', b', h1', h2', h3', h4'⟩ := h'
  refine ⟨a ++ a', b ++ b', by rw [h1', h1, List.append_assoc], by rw [h2', h2, List.append_assoc], by simp [h3, h3'], ?_⟩
  intro x hx
  rcases List.mem_append.mp hx with hx | hx
  · exact h4 x hx
  · exact h4' x hx

theorem PlayerLogger.Extends.refl (t : K) (l : PlayerLogger Wd) : l.Extends t l :=
  ⟨.refl _ _ _, .refl _ _ _, .refl _ _ _, .refl _ _ _⟩

theorem PlayerLogger.Extends.trans {t : K} {l l' l'' : PlayerLogger Wd} (h : l.Extends t l') (h' : l'.Extends t l'') :
    l.Extends t l'' :=
  ⟨h.1.trans h'.1, h.2.1.trans h'.2.1, h.2.2.1.trans h'.2.2.1, h.2.2.2.trans h'.2.2.2⟩

theorem Grows.refl (t : K) (s : St Wd) : Grows t s s :=
  ⟨le_rfl, ⟨[], by simp, by simp⟩, List.prefix_rfl, .refl _, rfl, fun _ lg h => ⟨lg, h, .refl _ _⟩⟩

theorem Grows.trans {t : K} {s s' s'' : St Wd} (h : Grows t s s') (h' : Grows t s' s'') : Grows t s s'' := by
  refine ⟨h.time.trans h'.time, ?_, h.trace.trans h'.trace, h'.players.trans h.players, h'.keys.trans h.keys, ?_⟩
  · obtain ⟨r, e, hr⟩ := h.reports
    obtain ⟨r', e', hr'⟩ := h'.reports
    refine ⟨r ++ r', by rw [e', e, List.append_assoc], ?_⟩
    intro x hx
    rcases List.mem_append.mp hx with hx | hx
    · exact hr x hx
    · exact hr' x hx
  · intro n lg hlg
    obtain ⟨lg', h1, h2⟩ := h.logger n lg hlg
    obtain ⟨lg'', h3, h4⟩ := h'.logger n lg' h1
    exact ⟨lg'', h3, h2.trans h4⟩

theorem addLog_extends {α : Type} {b b' : Builder K α} {t t0 : K} {v : α} (h : addLog b t v = .ok b') (ht : t0 ≤ t) :
    Extends t0 b.ts b'.ts b.vs b'.vs := by
  have hx : ∀ c : Builder K α, c = ⟨b.ts ++ [t], b.vs ++ [v]⟩ → Extends t0 b.ts c.ts b.vs c.vs := by
    rintro c rfl
    exact ⟨[t], [v], rfl, rfl, rfl, by simpa using ht⟩
  unfold addLog Builder.add at h
  split at h
  · rename_i h'
    split at h'
    · split at h'
      · injection h' with h1 h2; cases h2
      · injection h' with h1 h2; injection h with h; subst h; exact hx _ h1.symm
    · injection h' with h1 h2; injection h with h; subst h; exact hx _ h1.symm
  · cases h

theorem addExtra_extends {b b' : Builder K Wd.E} {t t0 : K} {v : Option Wd.E} (h : addExtra b t v = .ok b') (ht : t0 ≤ t) :
    Extends t0 b.ts b'.ts b.vs b'.vs := by
  cases v with
  | none => injection h with h; subst h; exact .refl _ _ _
  | some e => exact addLog_extends h ht

theorem lookup_some {α : Type} {d : Dict N α} {n : N} {a : α} (h : lookup d n = .ok a) : Dict.get? d n = some a := by
  unfold lookup at h
  split at h
  · injection h with h; subst h; assumption
  · cases h

theorem keys_set_lookup {α : Type} {d : Dict N α} {n : N} {a : α} (h : lookup d n = .ok a) (b : α) :
    Dict.keys (Dict.set d n b) = Dict.keys d := by
  rw [Dict.keys_set, if_pos ((Dict.mem_keys_iff d n).mpr ⟨a, lookup_some h⟩)]

theorem logger_set {d : Dict N (PlayerLogger Wd)} {n : N} {lg lg' : PlayerLogger Wd} {t : K} (h : lookup d n = .ok lg)
    (hl : lg.Extends t lg') : ∀ k l, Dict.get? d k = some l → ∃ l', Dict.get? (Dict.set d n lg') k = some l' ∧ l.Extends t l' := by
  intro k l hk
  rw [Dict.get?_set]
  by_cases hn : n = k
  · subst hn
    rw [lookup_some h] at hk
    injection hk with hk
    subst hk
    exact ⟨lg', by simp, hl⟩
  · exact ⟨l, by rw [if_neg hn]; exact hk, .refl _ _⟩

variable {t : K}

theorem grows_pre {cfg : Cfg Wd} {s s' : St Wd} (h : preUpdate cfg s = .ok s') : Grows t s s' := by
  unfold preUpdate at h
  split at h
  · simp only [bind, Except.bind] at h
    split at h
    · cases h
    · injection h with h; subst h
      exact ⟨le_rfl, ⟨[], by simp, by simp⟩, List.prefix_rfl, .refl _, rfl, fun _ lg h => ⟨lg, h, .refl _ _⟩⟩
  · injection h with h; subst h; exact .refl _ _

theorem liftU_some {α : Type} {x : Except Err α} {a : α} (h : liftU x = .ok a) : x = .ok a := by
  cases x with
  | ok b => injection h with h; subst h; rfl
  | error e => cases h

theorem grows_ask {s s' : St Wd} {n : N} (h : askPlayer s n = .ok s') (ht : t ≤ s.time) :
    Grows t s s' ∧ s'.time = s.time ∧ s'.models = s.models := by
  unfold askPlayer at h
  simp only [bind, Except.bind] at h
  split at h
  · cases h
  rename_i r1 h1
  split at h
  · cases h
  rename_i r2 h2
  split at h
  · cases h
  rename_i lg h3
  split at h
  · cases h
  rename_i commands h4
  split at h
  · cases h
  rename_i info h5
  split at h
  · cases h
  rename_i r3 h6
  split at h
  · cases h
  rename_i extra h7
  injection h with h
  subst h
  refine ⟨⟨le_rfl, ⟨[], by simp, by simp⟩, List.prefix_append _ _, .refl _, rfl, ?_⟩, rfl, rfl⟩
  exact logger_set h3 ⟨.refl _ _ _, addLog_extends h4 ht, addExtra_extends h7 ht, addLog_extends h5 ht⟩

theorem grows_updatePlayer {cfg : Cfg Wd} {s s' : St Wd} {n : N} (h : updatePlayer cfg s n = .ok s') (ht : t ≤ s.time) :
    Grows t s s' ∧ s'.time = s.time := by
  unfold updatePlayer at h
  simp only [bind, Except.bind] at h
  split at h
  · cases h
  rename_i m h1
  split at h
  · cases h
  rename_i lg h2
  split at h
  · cases h
  rename_i states h3
  split at h
  · cases h
  rename_i s2 h4
  split at h
  · cases h
  rename_i c h5
  split at h
  · cases h
  rename_i m2 h6
  split at h
  · cases h
  rename_i r h7
  injection h with h
  have g1 : Grows t s { s with logger := Dict.set s.logger n { lg with states := states } } :=
    ⟨le_rfl, ⟨[], by simp, by simp⟩, List.prefix_rfl, .refl _, rfl,
      logger_set h2 ⟨addLog_extends h3 ht, .refl _ _ _, .refl _ _ _, .refl _ _ _⟩⟩
  have g2 : Grows t { s with logger := Dict.set s.logger n { lg with states := states } } s2 ∧ s2.time = s.time := by
    unfold maybeAsk at h4
    split at h4
    · obtain ⟨g, e, -⟩ := grows_ask h4 ht
      exact ⟨g, e⟩
    · injection h4 with h4; subst h4; exact ⟨.refl _ _, rfl⟩
  have g3 : Grows t s2 s' ∧ s'.time = s2.time := by
    subst h
    refine ⟨⟨le_rfl, ⟨[], by simp, by simp⟩, List.prefix_append _ _, .refl _, keys_set_lookup h6 _, ?_⟩, rfl⟩
    exact fun _ lg h => ⟨lg, h, .refl _ _⟩
  exact ⟨(g1.trans g2.1).trans g3.1, g3.2.trans g2.2⟩

theorem grows_updateLoop {cfg : Cfg Wd} (l : List N) : ∀ {s s' : St Wd}, updateLoop cfg s l = .ok s' → t ≤ s.time →
    Grows t s s' ∧ s'.time = s.time := by
  induction l with
  | nil => intro s s' h _; injection h with h; subst h; exact ⟨.refl _ _, rfl⟩
  | cons n ns ih =>
    intro s s' h ht
    unfold updateLoop at h
    simp only [bind, Except.bind] at h
    split at h
    · cases h
    rename_i s1 h1
    obtain ⟨g1, e1⟩ := grows_updatePlayer h1 ht
    obtain ⟨g2, e2⟩ := ih h (e1 ▸ ht)
    exact ⟨g1.trans g2, e2.trans e1⟩

theorem grows_update {cfg : Cfg Wd} {s s' : St Wd} (h : update cfg s = .ok s') (ht : t ≤ s.time) :
    Grows t s s' ∧ s'.time = s.time := by
  unfold update at h
  simp only [bind, Except.bind] at h
  split at h
  · cases h
  rename_i s1 h1
  obtain ⟨g1, e1⟩ := grows_updateLoop _ h1 ht
  injection h with h
  subst h
  split
  · exact ⟨⟨g1.time, g1.reports, g1.trace, g1.players, g1.keys, g1.logger⟩, e1⟩
  · exact ⟨g1, e1⟩

theorem grows_removePlayer {s s' : St Wd} {p : N} {g : Wd.G} (h : removePlayer s p g = .ok s') (ht : t ≤ s.time) :
    Grows t s s' ∧ s'.time = s.time := by
  unfold removePlayer at h
  split at h
  · simp only [bind, Except.bind] at h
    split at h
    · cases h
    rename_i m h1
    split at h
    · cases h
    rename_i r h2
    have g1 : Grows t s { s with w := r.1, trace := s.trace ++ [.goal s.time p (Wd.getState m)] } :=
      ⟨le_rfl, ⟨[], by simp, by simp⟩, List.prefix_append _ _, .refl _, rfl, fun _ lg h => ⟨lg, h, .refl _ _⟩⟩
    split at h
    · split at h
      · cases h
      rename_i lg h3
      split at h
      · cases h
      rename_i states h4
      injection h with h
      subst h
      refine ⟨g1.trans ⟨le_rfl, ⟨[], by simp, by simp⟩, List.prefix_rfl, List.erase_sublist, rfl, ?_⟩, rfl⟩
      exact logger_set h3 ⟨addLog_extends h4 ht, .refl _ _ _, .refl _ _ _, .refl _ _ _⟩
    · injection h with h; subst h; exact ⟨g1, rfl⟩
  · injection h with h; subst h; exact ⟨.refl _ _, rfl⟩

theorem grows_removeLoop (gs : Dict N Wd.G) : ∀ {s s' : St Wd}, removeLoop s gs = .ok s' → t ≤ s.time →
    Grows t s s' ∧ s'.time = s.time := by
  induction gs with
  | nil => intro s s' h _; injection h with h; subst h; exact ⟨.refl _ _, rfl⟩
  | cons pg rest ih =>
    intro s s' h ht
    unfold removeLoop at h
    simp only [bind, Except.bind] at h
    split at h
    · cases h
    rename_i s1 h1
    obtain ⟨g1, e1⟩ := grows_removePlayer h1 ht
    obtain ⟨g2, e2⟩ := ih h (e1 ▸ ht)
    exact ⟨g1.trans g2, e2.trans e1⟩

theorem grows_record (s : St Wd) (r : Report Wd) (hr : t ≤ r.atTime) : Grows t s (recordReport s r) :=
  ⟨le_rfl, ⟨[r], rfl, by simpa using hr⟩, List.prefix_rfl, .refl _, rfl, fun _ lg h => ⟨lg, h, .refl _ _⟩⟩

theorem reportOf_atTime {ps qs : List N} {x : K} {o : Except Err (Option Wd.D)} {r : Report Wd}
    (h : reportOf (Wd := Wd) ps qs x o = .ok (some r)) : r.atTime = x := by
  unfold reportOf at h
  split at h
  · cases h
  · injection h with h; injection h with h; subst h; rfl
  · injection h with h; injection h with h; subst h; rfl
  · cases h

theorem grows_envObstacle {s s' : St Wd} {p : N} {o : Wd.O} (h : envObstacle s p o = .ok s') (ht : t ≤ s.time) :
    Grows t s s' ∧ s'.time = s.time := by
  unfold envObstacle at h
  simp only [bind, Except.bind] at h
  split at h
  · cases h
  rename_i m h1
  split at h
  · cases h
  rename_i rep h2
  injection h with h
  have g1 : Grows t s { s with
      w := (Wd.resolveEnv s.w p m o s.time).1.1
      models := Dict.set s.models p (Wd.resolveEnv s.w p m o s.time).1.2 } :=
    ⟨le_rfl, ⟨[], by simp, by simp⟩, List.prefix_rfl, .refl _, keys_set_lookup h1 _, fun _ lg h => ⟨lg, h, .refl _ _⟩⟩
  subst h
  cases rep with
  | none => exact ⟨g1, rfl⟩
  | some rep =>
    simp only
    split
    · exact ⟨g1.trans (grows_record _ rep (by rw [reportOf_atTime h2]; exact ht)), rfl⟩
    · exact ⟨g1, rfl⟩

theorem grows_envObstacles (p : N) (os : List Wd.O) : ∀ {s s' : St Wd}, envObstacles p s os = .ok s' → t ≤ s.time →
    Grows t s s' ∧ s'.time = s.time := by
  induction os with
  | nil => intro s s' h _; injection h with h; subst h; exact ⟨.refl _ _, rfl⟩
  | cons o os ih =>
    intro s s' h ht
    unfold envObstacles at h
    simp only [bind, Except.bind] at h
    split at h
    · cases h
    rename_i s1 h1
    obtain ⟨g1, e1⟩ := grows_envObstacle h1 ht
    obtain ⟨g2, e2⟩ := ih h (e1 ▸ ht)
    exact ⟨g1.trans g2, e2.trans e1⟩

theorem grows_envLoop (ps : List N) : ∀ {s s' : St Wd}, envLoop s ps = .ok s' → t ≤ s.time →
    Grows t s s' ∧ s'.time = s.time := by
  induction ps with
  | nil => intro s s' h _; injection h with h; subst h; exact ⟨.refl _ _, rfl⟩
  | cons p ps ih =>
    intro s s' h ht
    unfold envLoop at h
    simp only [bind, Except.bind] at h
    split at h
    · cases h
    rename_i m h0
    split at h
    · cases h
    rename_i s1 h1
    have g0 : Grows t s { s with trace := s.trace ++ [.env s.time p] } :=
      ⟨le_rfl, ⟨[], by simp, by simp⟩, List.prefix_append _ _, .refl _, rfl, fun _ lg h => ⟨lg, h, .refl _ _⟩⟩
    obtain ⟨g1, e1⟩ := grows_envObstacles p _ h1 ht
    obtain ⟨g2, e2⟩ := ih h (by rw [e1]; exact ht)
    exact ⟨(g0.trans g1).trans g2, e2.trans e1⟩

theorem grows_checkPair {s s' : St Wd} {a b : N} (h : checkPair s a b = .ok s') (ht : t ≤ s.time) :
    Grows t s s' ∧ s'.time = s.time := by
  unfold checkPair at h
  simp only [bind, Except.bind] at h
  split at h
  · cases h
  rename_i m1 h1
  split at h
  · cases h
  rename_i m2 h2
  split at h
  · split at h
    · cases h
    rename_i rep h3
    injection h with h
    have hk : Dict.keys (Dict.set (Dict.set s.models a (Wd.resolve s.w a m1 b m2 s.time).1.2.1) b
        (Wd.resolve s.w a m1 b m2 s.time).1.2.2) = Dict.keys s.models := by
      rw [Dict.keys_set, if_pos, keys_set_lookup h1]
      rw [keys_set_lookup h1]
      exact (Dict.mem_keys_iff _ _).mpr ⟨m2, lookup_some h2⟩
    have g1 : Grows t s { s with
        trace := s.trace ++ [.pair s.time a b]
        w := (Wd.resolve s.w a m1 b m2 s.time).1.1
        models := Dict.set (Dict.set s.models a (Wd.resolve s.w a m1 b m2 s.time).1.2.1) b
          (Wd.resolve s.w a m1 b m2 s.time).1.2.2 } :=
      ⟨le_rfl, ⟨[], by simp, by simp⟩, List.prefix_append _ _, .refl _, hk, fun _ lg h => ⟨lg, h, .refl _ _⟩⟩
    subst h
    cases rep with
    | none => exact ⟨g1, rfl⟩
    | some rep => exact ⟨g1.trans (grows_record _ rep (by rw [reportOf_atTime h3]; exact ht)), rfl⟩
  · injection h with h
    subst h
    exact ⟨⟨le_rfl, ⟨[], by simp, by simp⟩, List.prefix_append _ _, .refl _, rfl, fun _ lg h => ⟨lg, h, .refl _ _⟩⟩, rfl⟩

theorem grows_pairLoop (l : List (N × N)) : ∀ {s s' : St Wd}, pairLoop s l = .ok s' → t ≤ s.time →
    Grows t s s' ∧ s'.time = s.time := by
  induction l with
  | nil => intro s s' h _; injection h with h; subst h; exact ⟨.refl _ _, rfl⟩
  | cons ab l ih =>
    intro s s' h ht
    obtain ⟨a, b⟩ := ab
    unfold pairLoop at h
    simp only [bind, Except.bind] at h
    split at h
    · cases h
    rename_i s1 h1
    obtain ⟨g1, e1⟩ := grows_checkPair h1 ht
    obtain ⟨g2, e2⟩ := ih h (e1 ▸ ht)
    exact ⟨g1.trans g2, e2.trans e1⟩

/-- The part of `post_update` after the test for termination. -/
theorem grows_collisions {s s3 s' : St Wd} (h : envLoop s s.players = .ok s3) (h' : pairLoop s3 (combinations2 s3.players) = .ok s')
    (ht : t ≤ s.time) : Grows t s s' ∧ s'.time = s.time := by
  obtain ⟨g1, e1⟩ := grows_envLoop _ h ht
  obtain ⟨g2, e2⟩ := grows_pairLoop _ h' (e1 ▸ ht)
  exact ⟨g1.trans g2, e2.trans e1⟩

theorem grows_post {cfg : Cfg Wd} {s s' : St Wd} (hdt : 0 ≤ cfg.dt) (h : postUpdate cfg s = .ok s') (ht : t ≤ s.time) :
    Grows t s s' := by
  unfold postUpdate at h
  simp only [bind, Except.bind] at h
  split at h
  · cases h
  rename_i s2 h1
  have ht' : t ≤ s.time + cfg.dt := by linarith
  obtain ⟨g1, e1⟩ := grows_removeLoop _ h1 ht'
  have g0 : Grows t s { s with time := s.time + cfg.dt } :=
    ⟨by simp [hdt], ⟨[], by simp, by simp⟩, List.prefix_rfl, .refl _, rfl, fun _ lg h => ⟨lg, h, .refl _ _⟩⟩
  have g2 : Grows t s2 { s2 with terminated := terminationCondition cfg s2 } :=
    ⟨le_rfl, ⟨[], by simp, by simp⟩, List.prefix_rfl, .refl _, rfl, fun _ lg h => ⟨lg, h, .refl _ _⟩⟩
  split at h
  · injection h with h; subst h; exact (g0.trans g1).trans g2
  · split at h
    · cases h
    rename_i s4 h2
    exact ((g0.trans g1).trans g2).trans (grows_collisions (s := { s2 with terminated := terminationCondition cfg s2 })
      h2 h (by rw [show ({ s2 with terminated := terminationCondition cfg s2 } : St Wd).time = s2.time from rfl, e1]; exact ht')).1

theorem grows_step {cfg : Cfg Wd} {s s' : St Wd} (hdt : 0 ≤ cfg.dt) (h : step cfg s = .ok s') (ht : t ≤ s.time) :
    Grows t s s' := by
  unfold step at h
  simp only [bind, Except.bind] at h
  split at h
  · cases h
  rename_i s1 h1
  split at h
  · cases h
  rename_i s2 h2
  have g1 : Grows t s s1 := grows_pre h1
  obtain ⟨g2, e2⟩ := grows_update h2 (ht.trans g1.time)
  exact (g1.trans g2).trans (grows_post hdt h (e2 ▸ ht.trans g1.time))

theorem grows_loop {cfg : Cfg Wd} (hdt : 0 ≤ cfg.dt) (fuel : Nat) : ∀ {s s' : St Wd}, loop cfg fuel s = some (.ok s') →
    t ≤ s.time → Grows t s s' := by
  induction fuel with
  | zero =>
    intro s s' h _
    unfold loop at h
    split at h
    · injection h with h; injection h with h; subst h; exact .refl _ _
    · cases h
  | succ fuel ih =>
    intro s s' h ht
    unfold loop at h
    split at h
    · injection h with h; injection h with h; subst h; exact .refl _ _
    · split at h
      · injection h with h; cases h
      · rename_i s1 h1
        have g := grows_step hdt h1 ht
        exact g.trans (ih h (ht.trans g.time))

theorem termination_longer {cfg cfg' : Cfg Wd} (hl : Longer cfg cfg') (s : St Wd) (h : terminationCondition cfg' s = true) :
    terminationCondition cfg s = true := by
  unfold terminationCondition at h ⊢
  rw [hl.missions] at h
  by_cases h1 : cfg.maxSimTime < s.time
  · simp [h1]
  · have h1' : ¬ cfg'.maxSimTime < s.time := fun h => h1 (lt_of_le_of_lt hl.maxSimTime h)
    by_cases h2 : collTimer cfg s = true
    · simp [h2]
    · have h2' : ¬ collTimer cfg' s = true := by
        intro h
        apply h2
        unfold collTimer at h ⊢
        cases hf : s.firstColl with
        | none => rw [hf] at h; exact h
        | some x =>
          rw [hf] at h
          simp only [decide_eq_true_eq] at h ⊢
          have := hl.afterCollision
          linarith
      simp only [Bool.not_eq_true] at h2 h2'
      rw [h2'] at h
      rw [h2]
      simpa [h1, h1'] using h

theorem need_longer {cfg cfg' : Cfg Wd} (hl : Longer cfg cfg') (s : St Wd) : need cfg' s = need cfg s := by
  unfold need
  rw [hl.dtCommands]

theorem update_longer {cfg cfg' : Cfg Wd} (hl : Longer cfg cfg') (s : St Wd) : update cfg' s = update cfg s := by
  have h1 : ∀ (s : St Wd) n, updatePlayer cfg' s n = updatePlayer cfg s n := by
    intro s n
    unfold updatePlayer maybeAsk
    simp only [need_longer hl, hl.dt]
  have h2 : ∀ (l : List N) (s : St Wd), updateLoop cfg' s l = updateLoop cfg s l := by
    intro l
    induction l with
    | nil => intro s; rfl
    | cons n ns ih => intro s; unfold updateLoop; rw [h1]; simp only [ih]
  unfold update
  simp only [h2, need_longer hl]

theorem post_longer {cfg cfg' : Cfg Wd} (hl : Longer cfg cfg') (s : St Wd) :
    (∀ sa, postUpdate cfg s = .ok sa → sa.terminated = true → ∀ sb, postUpdate cfg' s = .ok sb → Grows sa.time sa sb) ∧
      ((∀ sa, postUpdate cfg s = .ok sa → sa.terminated = false) → postUpdate cfg' s = postUpdate cfg s) := by
  unfold postUpdate
  rw [hl.dt, hl.missions]
  simp only [bind, Except.bind]
  cases h1 : removeLoop { s with time := s.time + cfg.dt } cfg.missions with
  | error e => exact ⟨fun sa h => (by cases h), fun _ => rfl⟩
  | ok s2 =>
    simp only
    by_cases hc : terminationCondition cfg s2 = true
    · refine ⟨?_, ?_⟩
      · intro sa ha _ sb hb
        rw [if_pos hc] at ha
        injection ha with ha
        subst ha
        by_cases hc' : terminationCondition cfg' s2 = true
        · rw [if_pos hc'] at hb
          injection hb with hb
          subst hb
          rw [hc, hc']
          exact .refl _ _
        · rw [if_neg hc'] at hb
          split at hb
          · cases hb
          rename_i s4 h4
          have g1 : Grows s2.time { s2 with terminated := terminationCondition cfg s2 }
              { s2 with terminated := terminationCondition cfg' s2 } :=
            ⟨le_rfl, ⟨[], by simp, by simp⟩, List.prefix_rfl, .refl _, rfl, fun _ lg h => ⟨lg, h, .refl _ _⟩⟩
          exact g1.trans (grows_collisions (s := { s2 with terminated := terminationCondition cfg' s2 }) h4 hb le_rfl).1
      · intro h
        have := h { s2 with terminated := terminationCondition cfg s2 } (by rw [if_pos hc]; rfl)
        simp only at this
        rw [hc] at this
        cases this
    · have hc' : ¬ terminationCondition cfg' s2 = true := fun h => hc (termination_longer hl s2 h)
      simp only [Bool.not_eq_true] at hc hc'
      have e : ({ s2 with terminated := terminationCondition cfg' s2 } : St Wd) =
          { s2 with terminated := terminationCondition cfg s2 } := by rw [hc, hc']
      refine ⟨?_, ?_⟩
      · intro sa ha hterm sb hb
        rw [hc', ← hc] at hb
        rw [ha] at hb
        injection hb with hb
        subst hb
        exact .refl _ _
      · intro _
        rw [hc', hc]

theorem step_longer {cfg cfg' : Cfg Wd} (hl : Longer cfg cfg') (s : St Wd) :
    (∀ sa, step cfg s = .ok sa → sa.terminated = true → ∀ sb, step cfg' s = .ok sb → Grows sa.time sa sb) ∧
      ((∀ sa, step cfg s = .ok sa → sa.terminated = false) → step cfg' s = step cfg s) := by
  have hp : preUpdate cfg' s = preUpdate cfg s := by unfold preUpdate; rw [need_longer hl]
  unfold step
  rw [hp]
  simp only [bind, Except.bind]
  cases preUpdate cfg s with
  | error e => exact ⟨fun sa h => (by cases h), fun _ => rfl⟩
  | ok s1 =>
    simp only
    rw [update_longer hl]
    cases update cfg s1 with
    | error e => exact ⟨fun sa h => (by cases h), fun _ => rfl⟩
    | ok s2 => exact post_longer hl s2

theorem loop_longer {cfg cfg' : Cfg Wd} (hl : Longer cfg cfg') (hdt : 0 ≤ cfg.dt) (fuel : Nat) : ∀ (fuel' : Nat) {s s1 s2 : St Wd},
    loop cfg fuel s = some (.ok s1) → loop cfg' fuel' s = some (.ok s2) → Grows s1.time s1 s2 := by
  induction fuel with
  | zero =>
    intro fuel' s s1 s2 h1 h2
    unfold loop at h1
    split at h1
    · injection h1 with h1; injection h1 with h1; subst h1
      exact grows_loop (by rw [hl.dt]; exact hdt) fuel' h2 le_rfl
    · cases h1
  | succ fuel ih =>
    intro fuel' s s1 s2 h1 h2
    unfold loop at h1
    split at h1
    · injection h1 with h1; injection h1 with h1; subst h1
      exact grows_loop (by rw [hl.dt]; exact hdt) fuel' h2 le_rfl
    · rename_i hterm
      cases hs : step cfg s with
      | error e => rw [hs] at h1; injection h1 with h1; cases h1
      | ok sa =>
        rw [hs] at h1
        simp only at h1
        cases fuel' with
        | zero => unfold loop at h2; rw [if_neg hterm] at h2; cases h2
        | succ fuel' =>
          unfold loop at h2
          rw [if_neg hterm] at h2
          cases hs' : step cfg' s with
          | error e => rw [hs'] at h2; injection h2 with h2; cases h2
          | ok sb =>
            rw [hs'] at h2
            simp only at h2
            by_cases ha : sa.terminated = true
            · have : s1 = sa := by
                cases fuel <;> (unfold loop at h1; rw [if_pos ha] at h1; injection h1 with h1; injection h1 with h1; exact h1.symm)
              subst this
              have g := (step_longer hl s).1 _ hs ha _ hs'
              exact g.trans (grows_loop (by rw [hl.dt]; exact hdt) fuel' h2 g.time)
            · have e := (step_longer hl s).2 (by
                intro x hx
                rw [hs] at hx
                injection hx with hx
                subst hx
                simpa using ha)
              rw [hs, hs'] at e
              injection e with e
              subst e
              exact ih fuel' h1 h2

theorem loop_longer_error {cfg cfg' : Cfg Wd} (hl : Longer cfg cfg') {e : SimErr} (fuel : Nat) : ∀ (fuel' : Nat) {s : St Wd},
    fuel ≤ fuel' → loop cfg fuel s = some (.error e) → loop cfg' fuel' s = some (.error e) := by
  induction fuel with
  | zero =>
    intro fuel' s _ h
    unfold loop at h
    split at h
    · injection h with h; cases h
    · cases h
  | succ fuel ih =>
    intro fuel' s hf h
    obtain ⟨fuel', rfl⟩ : ∃ k, fuel' = k + 1 := ⟨fuel' - 1, by omega⟩
    unfold loop at h ⊢
    split at h
    · injection h with h; cases h
    · rename_i hterm
      rw [if_neg hterm]
      cases hs : step cfg s with
      | error e' =>
        rw [(step_longer hl s).2 (by intro x hx; rw [hs] at hx; cases hx), hs]
        rw [hs] at h
        exact h
      | ok sa =>
        rw [hs] at h
        simp only at h
        have ha : sa.terminated = false := by
          by_contra hc
          simp only [Bool.not_eq_false] at hc
          cases fuel <;> (unfold loop at h; rw [if_pos hc] at h; injection h with h; cases h)
        rw [(step_longer hl s).2 (by intro x hx; rw [hs] at hx; injection hx with hx; subst hx; exact ha), hs]
        exact ih fuel' (by omega) h

theorem seq_of_builder {α : Type} {b : Builder K α} {s : Seq K α} (h : b.asSequence = .ok s) : s.ts = b.ts ∧ s.vs = b.vs := by
  unfold Builder.asSequence Seq.mk? at h
  split at h
  · cases h
  · split at h
    · injection h with h; subst h; exact ⟨rfl, rfl⟩
    · cases h

theorem log_of_logger {lg : PlayerLogger Wd} {l : PlayerLog Wd} (h : lg.asSequence = .ok l) :
    (l.states.ts = lg.states.ts ∧ l.states.vs = lg.states.vs) ∧
      (l.commands.ts = lg.commands.ts ∧ l.commands.vs = lg.commands.vs) ∧
      (l.extra.ts = lg.extra.ts ∧ l.extra.vs = lg.extra.vs) ∧ (l.info.ts = lg.info.ts ∧ l.info.vs = lg.info.vs) := by
  unfold PlayerLogger.asSequence at h
  split at h
  · rename_i h1 h2 h3 h4
    injection h with h
    subst h
    exact ⟨seq_of_builder h1, seq_of_builder h2, seq_of_builder h3, seq_of_builder h4⟩
  all_goals cases h

theorem writeLog_get (logger : Dict N (PlayerLogger Wd)) (ns : List N) : ∀ {log log' : Dict N (PlayerLog Wd)},
    writeLog logger ns log = .ok log' → ∀ n, (n ∉ ns ∧ Dict.get? log' n = Dict.get? log n) ∨
      (n ∈ ns ∧ ∃ lg l, Dict.get? logger n = some lg ∧ lg.asSequence = .ok l ∧ Dict.get? log' n = some l) := by
  induction ns with
  | nil => intro log log' h n; injection h with h; subst h; exact Or.inl ⟨by simp, rfl⟩
  | cons a ns ih =>
    intro log log' h n
    unfold writeLog at h
    simp only [bind, Except.bind] at h
    cases hl : lookup logger a with
    | error e => rw [hl] at h; cases h
    | ok lg =>
      rw [hl] at h
      simp only at h
      cases hs : lg.asSequence with
      | error e => rw [hs] at h; cases h
      | ok l =>
        rw [hs] at h
        rcases ih h n with ⟨hn, hg⟩ | ⟨hn, hg⟩
        · rw [Dict.get?_set] at hg
          by_cases ha : a = n
          · subst ha
            rw [if_pos rfl] at hg
            exact Or.inr ⟨by simp, lg, l, lookup_some hl, hs, hg⟩
          · rw [if_neg ha] at hg
            exact Or.inl ⟨by simp [hn, Ne.symm ha], hg⟩
        · exact Or.inr ⟨by simp [hn], hg⟩

/-! ## C146 -/

/-- **C146.** Simulate the same context twice, the second time allowing more time (in total or after the first collision). If
both runs return, the second one is a continuation of the first: every log of the first is the beginning of the log of the
second, and what was added is not before the end of the first run; the same holds for the collision reports; who has left
in the first has left in the second; the external calls of the first are the first calls of the second. -/
theorem C146_prefix {cfg cfg' : Cfg Wd} (hl : Longer cfg cfg') (hdt : 0 ≤ cfg.dt) (fuel fuel' : Nat) (s : St Wd)
    (log : Dict N (PlayerLog Wd)) {s1 s2 : St Wd} {l1 l2 : Dict N (PlayerLog Wd)}
    (h1 : run cfg fuel s log = some (.ok (s1, l1))) (h2 : run cfg' fuel' s log = some (.ok (s2, l2))) :
    s1.time ≤ s2.time ∧ s1.trace <+: s2.trace ∧ s2.players.Sublist s1.players ∧
      (∃ r, s2.reports = s1.reports ++ r ∧ ∀ x ∈ r, s1.time ≤ x.atTime) ∧
      (∀ n, n ∈ Dict.keys l1 ↔ n ∈ Dict.keys l2) ∧
      ∀ n a b, Dict.get? l1 n = some a → Dict.get? l2 n = some b → a.Extends s1.time b := by
  unfold run at h1 h2
  cases hi : initLoop s s.players with
  | error e => rw [hi] at h1; injection h1 with h1; cases h1
  | ok s0 =>
    rw [hi] at h1 h2
    simp only at h1 h2
    cases ha : loop cfg fuel s0 with
    | none => rw [ha] at h1; cases h1
    | some ra =>
      cases ra with
      | error e => rw [ha] at h1; injection h1 with h1; cases h1
      | ok sa =>
        cases hb : loop cfg' fuel' s0 with
        | none => rw [hb] at h2; cases h2
        | some rb =>
          cases rb with
          | error e => rw [hb] at h2; injection h2 with h2; cases h2
          | ok sb =>
            rw [ha] at h1
            rw [hb] at h2
            simp only at h1 h2
            cases wa : writeLog sa.logger (Dict.keys sa.models) log with
            | error e => rw [wa] at h1; injection h1 with h1; cases h1
            | ok la =>
              cases wb : writeLog sb.logger (Dict.keys sb.models) log with
              | error e => rw [wb] at h2; injection h2 with h2; cases h2
              | ok lb =>
                rw [wa] at h1
                rw [wb] at h2
                injection h1 with h1; injection h1 with h1; injection h1 with e1 e2; subst e1; subst e2
                injection h2 with h2; injection h2 with h2; injection h2 with e1 e2; subst e1; subst e2
                have g := loop_longer hl hdt fuel fuel' ha hb
                rw [g.keys] at wb
                refine ⟨g.time, g.trace, g.players, g.reports, ?_, ?_⟩
                · intro n
                  rw [Dict.mem_keys_iff, Dict.mem_keys_iff]
                  rcases writeLog_get _ _ wa n with ⟨hn, hg⟩ | ⟨hn, lg, l, -, -, hg⟩ <;>
                    rcases writeLog_get _ _ wb n with ⟨hn', hg'⟩ | ⟨hn', lg', l', -, -, hg'⟩
                  · rw [hg, hg']
                  · exact absurd hn' hn
                  · exact absurd hn hn'
                  · rw [hg, hg']; simp
                · intro n a b hna hnb
                  rcases writeLog_get _ _ wa n with ⟨hn, hg⟩ | ⟨hn, lg, l, x1, x2, hg⟩ <;>
                    rcases writeLog_get _ _ wb n with ⟨hn', hg'⟩ | ⟨hn', lg', l', x1', x2', hg'⟩
                  · rw [hna] at hg
                    rw [hnb, ← hg] at hg'
                    injection hg' with hg'
                    subst hg'
                    exact ⟨.refl _ _ _, .refl _ _ _, .refl _ _ _, .refl _ _ _⟩
                  · exact absurd hn' hn
                  · exact absurd hn hn'
                  · rw [hna] at hg; injection hg with hg; subst hg
                    rw [hnb] at hg'; injection hg' with hg'; subst hg'
                    obtain ⟨lg2, y1, y2⟩ := g.logger n lg x1
                    rw [x1'] at y1; injection y1 with y1; subst y1
                    obtain ⟨⟨p1, p2⟩, ⟨p3, p4⟩, ⟨p5, p6⟩, ⟨p7, p8⟩⟩ := log_of_logger x2
                    obtain ⟨⟨q1, q2⟩, ⟨q3, q4⟩, ⟨q5, q6⟩, ⟨q7, q8⟩⟩ := log_of_logger x2'
                    unfold PlayerLog.Extends
                    rw [p1, p2, p3, p4, p5, p6, p7, p8, q1, q2, q3, q4, q5, q6, q7, q8]
                    exact y2

/-- **C146.** If the shorter run ends with an exception while stepping, the longer one ends with the same exception. -/
theorem C146_error {cfg cfg' : Cfg Wd} (hl : Longer cfg cfg') (fuel : Nat) (s : St Wd) (e : SimErr)
    (h : loop cfg fuel s = some (.error e)) : loop cfg' fuel s = some (.error e) :=
  loop_longer_error hl fuel fuel le_rfl h

/-! ## Example -/

namespace Toy

/-- Ten seconds in place of six, three after a collision in place of one. -/
def cfgLong : Cfg wd := { cfg with maxSimTime := 10, afterCollision := 3 }

theorem longer : Longer cfg cfgLong := ⟨rfl, rfl, rfl, by decide +kernel, by decide +kernel⟩

/-- The outcome of the longer run. -/
def resultLong : St wd × Dict Nat (PlayerLog wd) :=
  match run cfgLong 50 start [] with
  | some (.ok r) => r
  | _ => (start, [])

theorem runLong_eq : run cfgLong 50 start [] = some (.ok resultLong) := by
  have h : (match run cfgLong 50 start [] with | some (.ok _) => true | _ => false) = true := by decide +kernel
  unfold resultLong
  cases hr : run cfgLong 50 start [] with
  | none => rw [hr] at h; cases h
  | some x =>
    cases x with
    | ok r => rfl
    | error e => rw [hr] at h; cases h

-- the longer run is longer
example : result.1.time = 7 / 2 ∧ resultLong.1.time = 11 / 2 ∧ result.1.trace.length < resultLong.1.trace.length := by
  decide +kernel

example : result.1.trace <+: resultLong.1.trace :=
  (C146_prefix longer dt_pos.le 50 50 start [] run_eq runLong_eq).2.1

end Toy

end Sim
end Verif
