import Verif.Sim.HomProps
import Mathlib.Algebra.Order.Field.Basic
import Mathlib.Tactic.Ring

/-!
# Two worlds that agree up to a translation of what they handle and the unit of time

As `Sim/HomProps`, with all instants and durations multiplied by a positive number. Used for C159.
-/

set_option linter.unusedSectionVars false

namespace Verif
namespace Sim
namespace Scaled

variable {N K : Type} [DecidableEq N] [Field K] [LinearOrder K] [IsStrictOrderedRing K]

/-- Specification: observations in another unit of time with converted states and footprints. -/
def obs {X P X' P' : Type} (a : K) (f : X → X') (g : P → P') (o : Obs N K X P) : Obs N K X' P' :=
  ⟨mapD (Prod.map f g) o.players, a * o.time⟩

/-- Specification: `B` is `A` in another unit of time and with everything that is handled converted: every function that the
simulator calls gives the converted answer for converted arguments. -/
structure Conv (A B : World N K) where
  time : K
  pos : 0 < time
  fw : A.W → B.W
  fm : A.M → B.M
  fx : A.X → B.X
  fp : A.P → B.P
  fc : A.C → B.C
  fi : A.I → B.I
  fe : A.E → B.E
  fo : A.O → B.O
  fd : A.D → B.D
  fg : A.G → B.G
  /-- the obstacles that exist -/
  real : A.O → Prop
  getState : ∀ m, B.getState (fm m) = fx (A.getState m)
  footprint : ∀ m, B.footprint (fm m) = fp (A.footprint m)
  isDyn : ∀ m, B.isDyn (fm m) = A.isDyn m
  onInit : ∀ w n, B.onInit (fw w) n = (A.onInit w n).map fw
  sense : ∀ w n o, B.sense (fw w) n (obs time fx fp o) = (A.sense w n o).map (Prod.map fw (obs time fx fp))
  getCommands : ∀ w n o, B.getCommands (fw w) n (obs time fx fp o) =
    (A.getCommands w n o).map (Prod.map fw (Prod.map fc fi))
  getExtra : ∀ w n, B.getExtra (fw w) n = (A.getExtra w n).map (Prod.map fw (Option.map fe))
  update : ∀ w n m c dt, B.update (fw w) n (fm m) (fc c) (time * dt) = (A.update w n m c dt).map (Prod.map fw fm)
  fulfilled : ∀ w n g x t, B.fulfilled (fw w) n (fg g) (fx x) (time * t) = (A.fulfilled w n g x t).map (Prod.map fw id)
  envQuery : ∀ w s, B.envQuery (fw w) (fp s) = (A.envQuery w s).map fo
  envReal : ∀ w s, ∀ o ∈ A.envQuery w s, real o
  env : B.env = A.env
  resolveEnv : ∀ w n m o t, real o → B.resolveEnv (fw w) n (fm m) (fo o) (time * t) =
    (Prod.map fw fm (A.resolveEnv w n m o t).1, (A.resolveEnv w n m o t).2.map (Option.map fd))
  touch : ∀ s s', B.touch (fp s) (fp s') = A.touch s s'
  resolve : ∀ w a m b m' t, B.resolve (fw w) a (fm m) b (fm m') (time * t) =
    (Prod.map fw (Prod.map fm fm) (A.resolve w a m b m' t).1, (A.resolve w a m b m' t).2.map (Option.map fd))

variable {A B : World N K}

/-- Specification: a builder in another unit of time with converted values. -/
def bld {α β : Type} (a : K) (f : α → β) (b : Builder K α) : Builder K β := ⟨b.ts.map (a * ·), b.vs.map f⟩

/-- Specification: a sequence in another unit of time with converted values. -/
def sq {α β : Type} (a : K) (f : α → β) (b : Seq K α) : Seq K β := ⟨b.ts.map (a * ·), b.vs.map f⟩

/-- Specification: builders with converted values. -/
def Conv.logger (h : Conv A B) (l : PlayerLogger A) : PlayerLogger B :=
  ⟨bld h.time h.fx l.states, bld h.time h.fc l.commands, bld h.time h.fe l.extra, bld h.time h.fi l.info⟩

/-- Specification: a log with converted times and values. -/
def Conv.log (h : Conv A B) (l : PlayerLog A) : PlayerLog B :=
  ⟨sq h.time h.fx l.states, sq h.time h.fc l.commands, sq h.time h.fe l.extra, sq h.time h.fi l.info⟩

/-- Specification: a report with converted content. -/
def Conv.report (h : Conv A B) (r : Report A) : Report B := ⟨r.players, h.time * r.atTime, r.data.map h.fd⟩

/-- Specification: a call with converted arguments. -/
def Conv.event (h : Conv A B) : Event A → Event B
  | .sense t n o => .sense (h.time * t) n (obs h.time h.fx h.fp o)
  | .ask t n o => .ask (h.time * t) n (obs h.time h.fx h.fp o)
  | .drive t n m c => .drive (h.time * t) n (h.fm m) (h.fc c)
  | .goal t n x => .goal (h.time * t) n (h.fx x)
  | .env t n => .env (h.time * t) n
  | .pair t a b => .pair (h.time * t) a b

/-- Specification: all parameters in the new unit of time, with converted missions. -/
def Conv.cfg (h : Conv A B) (cfg : Cfg A) : Cfg B :=
  ⟨h.time * cfg.dt, h.time * cfg.dtCommands, h.time * cfg.maxSimTime, h.time * cfg.afterCollision, mapD h.fg cfg.missions⟩

/-- Specification: a context with converted content. -/
def Conv.st (h : Conv A B) (s : St A) : St B where
  models := mapD h.fm s.models
  players := s.players
  w := h.fw s.w
  time := h.time * s.time
  terminated := s.terminated
  reports := s.reports.map h.report
  firstColl := s.firstColl.map (h.time * ·)
  lastObs := obs h.time h.fx h.fp s.lastObs
  lastCmdTs := s.lastCmdTs.map (h.time * ·)
  lastCmds := mapD h.fc s.lastCmds
  logger := mapD h.logger s.logger
  trace := s.trace.map h.event

/-! ## Lemmas -/

theorem addLog_bld {α β : Type} (h : Conv A B) (f : α → β) (b : Builder K α) (t : K) (v : α) :
    addLog (bld h.time f b) (h.time * t) (f v) = (addLog b t v).map (bld h.time f) := by
  obtain ⟨ts, vs⟩ := b
  simp only [addLog, Builder.add, bld, List.getLast?_map]
  cases hl : ts.getLast? with
  | none => simp [Except.map, bld]
  | some t' =>
    have hp : h.time * t ≤ h.time * t' ↔ t ≤ t' := mul_le_mul_iff_right₀ h.pos
    by_cases ht : t ≤ t'
    · simp [hp, ht, Except.map]
    · simp [hp, ht, Except.map, bld]

theorem increasing_scale (h : Conv A B) : ∀ ts : List K, Seq.increasing (ts.map (h.time * ·)) = Seq.increasing ts
  | [] => rfl
  | [_] => rfl
  | a :: b :: rest => by
    have hp : h.time * a < h.time * b ↔ a < b := mul_lt_mul_iff_right₀ h.pos
    have ih := increasing_scale h (b :: rest)
    simp only [List.map_cons] at ih
    simp only [List.map_cons, Seq.increasing, hp, ih]

theorem asSequence_bld {α β : Type} (h : Conv A B) (f : α → β) (b : Builder K α) :
    (bld h.time f b).asSequence = b.asSequence.map (sq h.time f) := by
  obtain ⟨ts, vs⟩ := b
  show Seq.mk? (ts.map (h.time * ·)) (vs.map f) = (Seq.mk? ts vs).map (sq h.time f)
  unfold Seq.mk?
  rw [List.length_map, List.length_map, increasing_scale]
  split
  · rfl
  · cases Seq.increasing ts <;> rfl

theorem conv_need (h : Conv A B) (cfg : Cfg A) (s : St A) : need (h.cfg cfg) (h.st s) = need cfg s := by
  unfold need
  simp only [Conv.st, Conv.cfg]
  cases s.lastCmdTs with
  | none => rfl
  | some t =>
    have hp : h.time * cfg.dtCommands ≤ h.time * s.time - h.time * t ↔ cfg.dtCommands ≤ s.time - t := by
      rw [← mul_sub]; exact mul_le_mul_iff_right₀ h.pos
    simp only [Option.map, hp]

theorem conv_observe (h : Conv A B) (models : Dict N A.M) (l : List N) :
    observe (Wd := B) (mapD h.fm models) l = (observe (Wd := A) models l).map (mapD (Prod.map h.fx h.fp)) := by
  induction l with
  | nil => rfl
  | cons n ns ih =>
    simp only [observe]
    rw [lookup_mapD, ih]
    cases lookup models n with
    | error e => rfl
    | ok m =>
      cases observe models ns with
      | error e => rfl
      | ok r =>
        simp only [Except.map, bind, Except.bind, pure, Except.pure]
        rw [h.getState, h.footprint]
        rfl

theorem conv_preUpdate (h : Conv A B) (cfg : Cfg A) (s : St A) :
    preUpdate (h.cfg cfg) (h.st s) = (preUpdate cfg s).map h.st := by
  unfold preUpdate
  rw [conv_need]
  split
  · have h1 : observe (Wd := B) (h.st s).models (h.st s).players =
        (observe (Wd := A) s.models s.players).map (mapD (Prod.map h.fx h.fp)) := conv_observe h _ _
    rw [h1]
    cases observe (Wd := A) s.models s.players <;> rfl
  · rfl

theorem conv_addExtra (h : Conv A B) (b : Builder K A.E) (t : K) (e : Option A.E) :
    addExtra (Wd := B) (bld h.time h.fe b) (h.time * t) (e.map h.fe) = (addExtra (Wd := A) b t e).map (bld h.time h.fe) := by
  cases e with
  | none => rfl
  | some e => exact addLog_bld h h.fe b t e

theorem conv_ask (h : Conv A B) (s : St A) (n : N) :
    askPlayer (h.st s) n = (askPlayer s n).map h.st := by
  have h1 : B.sense (h.st s).w n (h.st s).lastObs = _ := h.sense s.w n s.lastObs
  have h4 : lookup (h.st s).logger n = (lookup s.logger n).map h.logger := lookup_mapD _ _ _
  unfold askPlayer
  rw [h1]
  cases A.sense s.w n s.lastObs with
  | error e => rfl
  | ok r =>
    obtain ⟨w1, o⟩ := r
    simp only [Except.map, liftU, bind, Except.bind, Prod.map]
    rw [h.getCommands]
    cases A.getCommands w1 n o with
    | error e => rfl
    | ok r =>
      obtain ⟨w2, c, i⟩ := r
      simp only [liftU, Except.map, Prod.map]
      rw [h4]
      cases lookup s.logger n with
      | error e => rfl
      | ok lg =>
        simp only [Except.map]
        have hc : addLog (h.logger lg).commands (h.st s).time (h.fc c) = _ := addLog_bld h h.fc lg.commands s.time c
        rw [hc]
        cases addLog lg.commands s.time c with
        | error e => rfl
        | ok commands =>
          simp only [Except.map]
          have hi : addLog (h.logger lg).info (h.st s).time (h.fi i) = _ := addLog_bld h h.fi lg.info s.time i
          rw [hi]
          cases addLog lg.info s.time i with
          | error e => rfl
          | ok info =>
            simp only [Except.map]
            rw [h.getExtra]
            cases A.getExtra w2 n with
            | error e => rfl
            | ok r =>
              obtain ⟨w3, ex⟩ := r
              simp only [Except.map, Prod.map]
              have he : addExtra (Wd := B) (h.logger lg).extra (h.st s).time (ex.map h.fe) = _ :=
                conv_addExtra h lg.extra s.time ex
              rw [he]
              cases addExtra lg.extra s.time ex with
              | error e => rfl
              | ok extra =>
                simp only [pure, Except.pure, Except.map, Conv.st]
                congr 2
                · exact set_mapD h.fc s.lastCmds n c
                · exact set_mapD h.logger s.logger n
                    { lg with commands := commands, info := info, extra := extra }
                · simp [Conv.event]

theorem conv_updatePlayer (h : Conv A B) (cfg : Cfg A) (s : St A) (n : N) :
    updatePlayer (h.cfg cfg) (h.st s) n = (updatePlayer cfg s n).map h.st := by
  unfold updatePlayer
  have h1 : lookup (h.st s).models n = (lookup s.models n).map h.fm := lookup_mapD _ _ _
  have h2 : lookup (h.st s).logger n = (lookup s.logger n).map h.logger := lookup_mapD _ _ _
  rw [h1, h2]
  cases lookup s.models n with
  | error e => rfl
  | ok m =>
    cases lookup s.logger n with
    | error e => rfl
    | ok lg =>
      simp only [Except.map, bind, Except.bind]
      have hc : addLog (h.logger lg).states (h.st s).time (B.getState (h.fm m)) =
          (addLog lg.states s.time (A.getState m)).map (bld h.time h.fx) := by
        rw [h.getState]; exact addLog_bld h h.fx lg.states s.time _
      rw [hc]
      cases addLog lg.states s.time (A.getState m) with
      | error e => rfl
      | ok states =>
        simp only [Except.map]
        have hs : ({ h.st s with
            logger := Dict.set (h.st s).logger n ({ h.logger lg with states := bld h.time h.fx states }) } : St B) =
            h.st { s with logger := Dict.set s.logger n { lg with states := states } } := by
          simp only [Conv.st]
          congr 1
          exact set_mapD h.logger s.logger n { lg with states := states }
        rw [hs]
        have hm : ∀ t : St A, maybeAsk (h.cfg cfg) (h.st t) n = (maybeAsk cfg t n).map h.st := by
          intro t
          unfold maybeAsk
          rw [conv_need]
          split
          · exact conv_ask h t n
          · rfl
        rw [hm]
        cases maybeAsk cfg _ n with
        | error e => rfl
        | ok s2 =>
          simp only [Except.map]
          have h3 : lookup (h.st s2).lastCmds n = (lookup s2.lastCmds n).map h.fc := lookup_mapD _ _ _
          have h4 : lookup (h.st s2).models n = (lookup s2.models n).map h.fm := lookup_mapD _ _ _
          rw [h3, h4]
          cases lookup s2.lastCmds n with
          | error e => rfl
          | ok c =>
            cases lookup s2.models n with
            | error e => rfl
            | ok m2 =>
              simp only [Except.map]
              have h5 : B.update (h.st s2).w n (h.fm m2) (h.fc c) (h.cfg cfg).dt = _ := h.update s2.w n m2 c cfg.dt
              rw [h5]
              cases A.update s2.w n m2 c cfg.dt with
              | error e => rfl
              | ok r =>
                obtain ⟨w', m'⟩ := r
                simp only [liftU, pure, Except.pure, Except.map, Prod.map, Conv.st]
                congr 2
                · exact set_mapD h.fm s2.models n m'
                · simp [Conv.event]

theorem conv_updateLoop (h : Conv A B) (cfg : Cfg A) (l : List N) : ∀ s : St A,
    updateLoop (h.cfg cfg) (h.st s) l = (updateLoop cfg s l).map h.st := by
  induction l with
  | nil => intro s; rfl
  | cons n ns ih =>
    intro s
    simp only [updateLoop]
    rw [conv_updatePlayer]
    cases updatePlayer cfg s n with
    | error e => rfl
    | ok s' => exact ih s'

theorem conv_update (h : Conv A B) (cfg : Cfg A) (s : St A) :
    update (h.cfg cfg) (h.st s) = (update cfg s).map h.st := by
  unfold update
  have h1 : updateLoop (h.cfg cfg) (h.st s) (h.st s).players = _ := conv_updateLoop h cfg s.players s
  rw [h1]
  cases updateLoop cfg s s.players with
  | error e => rfl
  | ok s' =>
    simp only [Except.map, bind, Except.bind, pure, Except.pure]
    rw [conv_need]
    split <;> rfl

theorem conv_removePlayer (h : Conv A B) (s : St A) (p : N) (g : A.G) :
    removePlayer (h.st s) p (h.fg g) = (removePlayer s p g).map h.st := by
  unfold removePlayer
  by_cases hp : p ∈ s.players
  · rw [if_pos hp, if_pos (show p ∈ (h.st s).players from hp)]
    have h1 : lookup (h.st s).models p = (lookup s.models p).map h.fm := lookup_mapD _ _ _
    rw [h1]
    cases lookup s.models p with
    | error e => rfl
    | ok m =>
      simp only [Except.map, bind, Except.bind]
      rw [h.getState]
      have h2 : B.fulfilled (h.st s).w p (h.fg g) (h.fx (A.getState m)) (h.st s).time = _ :=
        h.fulfilled s.w p g (A.getState m) s.time
      rw [h2]
      cases A.fulfilled s.w p g (A.getState m) s.time with
      | error e => rfl
      | ok r =>
        obtain ⟨w', b⟩ := r
        simp only [liftU, Except.map, Prod.map, id]
        cases b with
        | false => simp [pure, Except.pure, Conv.st, Conv.event]
        | true =>
          simp only [if_true]
          have h3 : lookup (h.st s).logger p = (lookup s.logger p).map h.logger := lookup_mapD _ _ _
          rw [h3]
          cases lookup s.logger p with
          | error e => rfl
          | ok lg =>
            simp only [Except.map]
            have hc : addLog (h.logger lg).states (h.st s).time (h.fx (A.getState m)) = _ :=
              addLog_bld h h.fx lg.states s.time _
            rw [hc]
            cases addLog lg.states s.time (A.getState m) with
            | error e => rfl
            | ok states =>
              simp only [pure, Except.pure, Except.map, Conv.st]
              congr 2
              · exact set_mapD h.logger s.logger p { lg with states := states }
              · simp [Conv.event]
  · rw [if_neg hp, if_neg (show p ∉ (h.st s).players from hp)]
    rfl

theorem conv_removeLoop (h : Conv A B) (gs : Dict N A.G) : ∀ s : St A,
    removeLoop (h.st s) (mapD h.fg gs) = (removeLoop s gs).map h.st := by
  induction gs with
  | nil => intro s; rfl
  | cons pg rest ih =>
    intro s
    obtain ⟨p, g⟩ := pg
    show (do let s' ← removePlayer (h.st s) p (h.fg g); removeLoop s' (mapD h.fg rest)) = _
    rw [conv_removePlayer]
    rw [show removeLoop s ((p, g) :: rest) = (do let s' ← removePlayer s p g; removeLoop s' rest) from rfl]
    cases removePlayer s p g with
    | error e => rfl
    | ok s' => exact ih s'

theorem conv_termination (h : Conv A B) (cfg : Cfg A) (s : St A) :
    terminationCondition (h.cfg cfg) (h.st s) = terminationCondition cfg s := by
  have h1 : collTimer (h.cfg cfg) (h.st s) = collTimer cfg s := by
    unfold collTimer
    simp only [Conv.st, Conv.cfg]
    cases s.firstColl with
    | none => rfl
    | some t =>
      have hp : h.time * t + h.time * cfg.afterCollision < h.time * s.time ↔ t + cfg.afterCollision < s.time := by
        rw [← mul_add]; exact mul_lt_mul_iff_right₀ h.pos
      simp only [Option.map, hp]
  have h2 : decide ((h.cfg cfg).maxSimTime < (h.st s).time) = decide (cfg.maxSimTime < s.time) := by
    have hp : (h.cfg cfg).maxSimTime < (h.st s).time ↔ cfg.maxSimTime < s.time := mul_lt_mul_iff_right₀ h.pos
    simp only [hp]
  have h3 : (h.cfg cfg).missions.isEmpty = cfg.missions.isEmpty := by simp [Conv.cfg, mapD]
  have h4 : Dict.keys (h.cfg cfg).missions = Dict.keys cfg.missions := keys_mapD _ _
  unfold terminationCondition
  rw [h1, h2, h3, h4]
  rfl

theorem conv_record (h : Conv A B) (s : St A) (r : Report A) :
    recordReport (h.st s) (h.report r) = h.st (recordReport s r) := by
  simp only [recordReport, Conv.st, List.map_append, List.map_cons, List.map_nil]
  congr 1
  cases s.firstColl with
  | none => rfl
  | some t =>
    have hp : h.time * r.atTime < h.time * t ↔ r.atTime < t := mul_lt_mul_iff_right₀ h.pos
    simp only [Option.map, Conv.report, hp]
    split <;> rfl

theorem conv_reportOf (h : Conv A B) (ps qs : List N) (t : K) (o : Except Err (Option A.D)) :
    reportOf (Wd := B) ps qs (h.time * t) (o.map (Option.map h.fd)) = (reportOf (Wd := A) ps qs t o).map (Option.map h.report) := by
  cases o with
  | ok o => cases o <;> rfl
  | error e => cases e <;> rfl

theorem conv_envObstacle (h : Conv A B) (s : St A) (p : N) (o : A.O) (ho : h.real o) :
    envObstacle (h.st s) p (h.fo o) = (envObstacle s p o).map h.st := by
  unfold envObstacle
  have h1 : lookup (h.st s).models p = (lookup s.models p).map h.fm := lookup_mapD _ _ _
  rw [h1]
  cases lookup s.models p with
  | error e => rfl
  | ok m =>
    simp only [Except.map, bind, Except.bind]
    have h2 : B.resolveEnv (h.st s).w p (h.fm m) (h.fo o) (h.st s).time = _ := h.resolveEnv s.w p m o s.time ho
    rw [h2, h.env]
    generalize A.resolveEnv s.w p m o s.time = r
    obtain ⟨⟨w', m'⟩, out⟩ := r
    simp only [Prod.map]
    have h3 : reportOf (Wd := B) [p, A.env] [p] (h.st s).time (out.map (Option.map h.fd)) = _ :=
      conv_reportOf h [p, A.env] [p] s.time out
    rw [h3]
    have hs : ({ h.st s with w := h.fw w', models := Dict.set (h.st s).models p (h.fm m') } : St B) =
        h.st { s with w := w', models := Dict.set s.models p m' } := by
      simp only [Conv.st]
      congr 1
      exact set_mapD h.fm s.models p m'
    rw [hs]
    cases reportOf (Wd := A) [p, A.env] [p] s.time out with
    | error e => rfl
    | ok rep =>
      cases rep with
      | none => rfl
      | some rep =>
        simp only [Except.map, Option.map, pure, Except.pure]
        rw [h.isDyn]
        split
        · rw [conv_record]
        · rfl

theorem conv_envObstacles (h : Conv A B) (p : N) (os : List A.O) (ho : ∀ o ∈ os, h.real o) : ∀ s : St A,
    envObstacles p (h.st s) (os.map h.fo) = (envObstacles p s os).map h.st := by
  induction os with
  | nil => intro s; rfl
  | cons o os ih =>
    intro s
    show (do let s' ← envObstacle (h.st s) p (h.fo o); envObstacles p s' (os.map h.fo)) = _
    rw [conv_envObstacle h s p o (ho o (by simp))]
    rw [show envObstacles p s (o :: os) = (do let s' ← envObstacle s p o; envObstacles p s' os) from rfl]
    cases envObstacle s p o with
    | error e => rfl
    | ok s' => exact ih (fun o' h' => ho o' (List.mem_cons_of_mem _ h')) s'

theorem conv_envLoop (h : Conv A B) (ps : List N) : ∀ s : St A,
    envLoop (h.st s) ps = (envLoop s ps).map h.st := by
  induction ps with
  | nil => intro s; rfl
  | cons p ps ih =>
    intro s
    simp only [envLoop]
    have h1 : lookup (h.st s).models p = (lookup s.models p).map h.fm := lookup_mapD _ _ _
    rw [h1]
    cases lookup s.models p with
    | error e => rfl
    | ok m =>
      simp only [Except.map, bind, Except.bind]
      have hs : ({ h.st s with trace := (h.st s).trace ++ [.env (h.st s).time p] } : St B) =
          h.st { s with trace := s.trace ++ [.env s.time p] } := by
        simp [Conv.st, Conv.event]
      rw [hs, h.footprint]
      have hq : B.envQuery (h.st s).w (h.fp (A.footprint m)) = _ := h.envQuery s.w (A.footprint m)
      rw [hq, conv_envObstacles h p _ (h.envReal s.w (A.footprint m))]
      cases envObstacles p { s with trace := s.trace ++ [.env s.time p] } (A.envQuery s.w (A.footprint m)) with
      | error e => rfl
      | ok s' => exact ih s'

theorem conv_checkPair (h : Conv A B) (s : St A) (a b : N) :
    checkPair (h.st s) a b = (checkPair s a b).map h.st := by
  unfold checkPair
  have h1 : lookup (h.st s).models a = (lookup s.models a).map h.fm := lookup_mapD _ _ _
  have h2 : lookup (h.st s).models b = (lookup s.models b).map h.fm := lookup_mapD _ _ _
  rw [h1, h2]
  cases lookup s.models a with
  | error e => rfl
  | ok m1 =>
    cases lookup s.models b with
    | error e => rfl
    | ok m2 =>
      simp only [Except.map, bind, Except.bind]
      rw [h.footprint, h.footprint, h.touch]
      have hr : B.resolve (h.st s).w a (h.fm m1) b (h.fm m2) (h.st s).time = _ := h.resolve s.w a m1 b m2 s.time
      rw [hr]
      generalize A.resolve s.w a m1 b m2 s.time = r
      obtain ⟨⟨w', ma, mb⟩, out⟩ := r
      simp only [Prod.map]
      split
      · have h3 : reportOf (Wd := B) [a, b] [a, b] (h.st s).time (out.map (Option.map h.fd)) = _ :=
          conv_reportOf h [a, b] [a, b] s.time out
        rw [h3]
        have hs : ({ h.st s with
            trace := (h.st s).trace ++ [.pair (h.st s).time a b]
            w := h.fw w'
            models := Dict.set (Dict.set (h.st s).models a (h.fm ma)) b (h.fm mb) } : St B) =
            h.st { s with
              trace := s.trace ++ [.pair s.time a b]
              w := w'
              models := Dict.set (Dict.set s.models a ma) b mb } := by
          simp only [Conv.st]
          congr 1
          · rw [set_mapD, set_mapD]
          · simp [Conv.event]
        rw [hs]
        cases reportOf (Wd := A) [a, b] [a, b] s.time out with
        | error e => rfl
        | ok rep =>
          cases rep with
          | none => rfl
          | some rep =>
            simp only [Except.map, Option.map, pure, Except.pure]
            rw [conv_record]
      · simp [pure, Except.pure, Conv.st, Conv.event]

theorem conv_pairLoop (h : Conv A B) (l : List (N × N)) : ∀ s : St A,
    pairLoop (h.st s) l = (pairLoop s l).map h.st := by
  induction l with
  | nil => intro s; rfl
  | cons p l ih =>
    intro s
    obtain ⟨a, b⟩ := p
    simp only [pairLoop]
    rw [conv_checkPair]
    cases checkPair s a b with
    | error e => rfl
    | ok s' => exact ih s'

theorem conv_postUpdate (h : Conv A B) (cfg : Cfg A) (s : St A) :
    postUpdate (h.cfg cfg) (h.st s) = (postUpdate cfg s).map h.st := by
  unfold postUpdate
  have h1 : removeLoop ({ h.st s with time := (h.st s).time + (h.cfg cfg).dt } : St B)
      (h.cfg cfg).missions = (removeLoop { s with time := s.time + cfg.dt } cfg.missions).map h.st :=
    by
    rw [show (h.st s).time + (h.cfg cfg).dt = h.time * (s.time + cfg.dt) from (mul_add _ _ _).symm]
    exact conv_removeLoop h cfg.missions { s with time := s.time + cfg.dt }
  simp only
  rw [h1]
  cases removeLoop { s with time := s.time + cfg.dt } cfg.missions with
  | error e => rfl
  | ok s2 =>
    simp only [Except.map, bind, Except.bind]
    rw [conv_termination]
    split
    · rfl
    · have h2 : envLoop ({ h.st s2 with terminated := terminationCondition cfg s2 } : St B) (h.st s2).players =
          (envLoop { s2 with terminated := terminationCondition cfg s2 } s2.players).map h.st :=
        conv_envLoop h s2.players { s2 with terminated := terminationCondition cfg s2 }
      rw [h2]
      cases envLoop { s2 with terminated := terminationCondition cfg s2 } s2.players with
      | error e => rfl
      | ok s4 => exact conv_pairLoop h _ s4

theorem conv_step (h : Conv A B) (cfg : Cfg A) (s : St A) :
    step (h.cfg cfg) (h.st s) = (step cfg s).map h.st := by
  unfold step
  rw [conv_preUpdate]
  cases preUpdate cfg s with
  | error e => rfl
  | ok s1 =>
    simp only [Except.map, bind, Except.bind]
    rw [conv_update]
    cases update cfg s1 with
    | error e => rfl
    | ok s2 => exact conv_postUpdate h cfg s2

theorem conv_loop (h : Conv A B) (cfg : Cfg A) (fuel : Nat) : ∀ s : St A,
    loop (h.cfg cfg) fuel (h.st s) = (loop cfg fuel s).map (Except.map h.st) := by
  induction fuel with
  | zero =>
    intro s
    unfold loop
    have : (h.st s).terminated = s.terminated := rfl
    rw [this]
    split <;> rfl
  | succ fuel ih =>
    intro s
    unfold loop
    have : (h.st s).terminated = s.terminated := rfl
    rw [this]
    split
    · rfl
    · rw [conv_step]
      cases step cfg s with
      | error e => rfl
      | ok s' => exact ih s'

theorem conv_initLoop (h : Conv A B) (l : List N) : ∀ s : St A,
    initLoop (h.st s) l = (initLoop s l).map h.st := by
  induction l with
  | nil => intro s; rfl
  | cons n ns ih =>
    intro s
    simp only [initLoop]
    have h1 : lookup (h.st s).models n = (lookup s.models n).map h.fm := lookup_mapD _ _ _
    have h2 : B.onInit (h.st s).w n = (A.onInit s.w n).map h.fw := h.onInit s.w n
    rw [h1, h2]
    cases lookup s.models n with
    | error e => rfl
    | ok m =>
      simp only [Except.map, bind, Except.bind]
      cases A.onInit s.w n with
      | error e => rfl
      | ok w' =>
        simp only [liftU]
        have hs : ({ h.st s with w := h.fw w', logger := Dict.set (h.st s).logger n {} } : St B) =
            h.st { s with w := w', logger := Dict.set s.logger n {} } := by
          simp only [Conv.st]
          congr 1
          exact set_mapD h.logger s.logger n {}
        rw [hs]
        exact ih _

theorem conv_writeLog (h : Conv A B) (logger : Dict N (PlayerLogger A)) (l : List N) : ∀ log : Dict N (PlayerLog A),
    writeLog (mapD h.logger logger) l (mapD h.log log) =
      (writeLog logger l log).map (mapD h.log) := by
  induction l with
  | nil => intro log; rfl
  | cons n ns ih =>
    intro log
    simp only [writeLog]
    rw [lookup_mapD]
    cases lookup logger n with
    | error e => rfl
    | ok lg =>
      simp only [Except.map, bind, Except.bind]
      have h1 : (h.logger lg).asSequence = lg.asSequence.map h.log := by
        obtain ⟨b1, b2, b3, b4⟩ := lg
        simp only [PlayerLogger.asSequence, Conv.logger, asSequence_bld h]
        cases b1.asSequence <;> cases b2.asSequence <;> cases b3.asSequence <;> cases b4.asSequence <;> rfl
      rw [h1]
      cases lg.asSequence with
      | error e => rfl
      | ok pl =>
        simp only [Except.map]
        rw [set_mapD]
        exact ih _

/-- A run in the converted world is the converted run. -/
theorem conv_run (h : Conv A B) (cfg : Cfg A) (fuel : Nat) (s : St A) (log : Dict N (PlayerLog A)) :
    run (h.cfg cfg) fuel (h.st s) (mapD h.log log) =
      (run cfg fuel s log).map (Except.map (Prod.map h.st (mapD h.log))) := by
  unfold run
  have h1 : initLoop (h.st s) (h.st s).players = (initLoop s s.players).map h.st := conv_initLoop h _ s
  rw [h1]
  cases initLoop s s.players with
  | error e => rfl
  | ok s1 =>
    simp only [Except.map]
    rw [conv_loop]
    cases loop cfg fuel s1 with
    | none => rfl
    | some r =>
      cases r with
      | error e => rfl
      | ok s2 =>
        simp only [Option.map, Except.map]
        have h2 : writeLog (h.st s2).logger (Dict.keys (h.st s2).models) (mapD h.log log) =
            (writeLog s2.logger (Dict.keys s2.models) log).map (mapD h.log) := by
          have hk : Dict.keys (h.st s2).models = Dict.keys s2.models := keys_mapD h.fm s2.models
          rw [hk]
          exact conv_writeLog h s2.logger _ log
        rw [h2]
        cases writeLog s2.logger (Dict.keys s2.models) log with
        | error e => rfl
        | ok l => rfl

end Scaled
end Sim
end Verif
