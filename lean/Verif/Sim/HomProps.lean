import Verif.Sim.Toy

/-!
# Two worlds that agree up to a translation of what they handle

If every function that the simulator calls gives the translated answer for translated arguments, the simulation of
the translated world is the translated simulation. Used for C151.
-/

set_option linter.unusedSectionVars false

namespace Verif
namespace Sim

variable {N K : Type}

/-- Specification: a dictionary with converted values. -/
def mapD {α β : Type} (f : α → β) (d : Dict N α) : Dict N β := d.map (fun p => (p.1, f p.2))

/-- Specification: observations with converted states and footprints. -/
def Obs.conv {X P X' P' : Type} (f : X → X') (g : P → P') (o : Obs N K X P) : Obs N K X' P' :=
  ⟨mapD (Prod.map f g) o.players, o.time⟩

/-- Specification: `B` is `A` with everything that is handled converted: every function that the simulator calls gives the
converted answer for converted arguments. -/
structure Hom (A B : World N K) where
  fw : A.W → B.W
  fm : A.M → B.M
  fx : A.X → B.X
  fp : A.P → B.P
  fc : A.C → B.C
  fi : A.I → B.I
  fe : A.E → B.E
  fo : A.O → B.O
  fd : A.D → B.D
  fg : A.G → B.G
  /-- the obstacles that exist -/
  real : A.O → Prop
  getState : ∀ m, B.getState (fm m) = fx (A.getState m)
  footprint : ∀ m, B.footprint (fm m) = fp (A.footprint m)
  isDyn : ∀ m, B.isDyn (fm m) = A.isDyn m
  onInit : ∀ w n, B.onInit (fw w) n = (A.onInit w n).map fw
  sense : ∀ w n o, B.sense (fw w) n (o.conv fx fp) = (A.sense w n o).map (Prod.map fw (Obs.conv fx fp))
  getCommands : ∀ w n o, B.getCommands (fw w) n (o.conv fx fp) = (A.getCommands w n o).map (Prod.map fw (Prod.map fc fi))
  getExtra : ∀ w n, B.getExtra (fw w) n = (A.getExtra w n).map (Prod.map fw (Option.map fe))
  update : ∀ w n m c dt, B.update (fw w) n (fm m) (fc c) dt = (A.update w n m c dt).map (Prod.map fw fm)
  fulfilled : ∀ w n g x t, B.fulfilled (fw w) n (fg g) (fx x) t = (A.fulfilled w n g x t).map (Prod.map fw id)
  envQuery : ∀ w s, B.envQuery (fw w) (fp s) = (A.envQuery w s).map fo
  envReal : ∀ w s, ∀ o ∈ A.envQuery w s, real o
  env : B.env = A.env
  resolveEnv : ∀ w n m o t, real o → B.resolveEnv (fw w) n (fm m) (fo o) t =
    (Prod.map fw fm (A.resolveEnv w n m o t).1, (A.resolveEnv w n m o t).2.map (Option.map fd))
  touch : ∀ s s', B.touch (fp s) (fp s') = A.touch s s'
  resolve : ∀ w a m b m' t, B.resolve (fw w) a (fm m) b (fm m') t =
    (Prod.map fw (Prod.map fm fm) (A.resolve w a m b m' t).1, (A.resolve w a m b m' t).2.map (Option.map fd))

variable {A B : World N K}

/-- Specification: a sequence with converted values. -/
def mapB {α β : Type} (f : α → β) (b : Builder K α) : Builder K β := ⟨b.ts, b.vs.map f⟩

/-- Specification: a sequence with converted values at the same times. -/
def mapS {α β : Type} (f : α → β) (b : Seq K α) : Seq K β := ⟨b.ts, b.vs.map f⟩

/-- Specification: builders with converted values. -/
def PlayerLogger.conv (h : Hom A B) (l : PlayerLogger A) : PlayerLogger B :=
  ⟨mapB h.fx l.states, mapB h.fc l.commands, mapB h.fe l.extra, mapB h.fi l.info⟩

/-- Specification: a log with converted values at the same times. -/
def PlayerLog.conv (h : Hom A B) (l : PlayerLog A) : PlayerLog B :=
  ⟨mapS h.fx l.states, mapS h.fc l.commands, mapS h.fe l.extra, mapS h.fi l.info⟩

/-- Specification: a report with converted content. -/
def Report.conv (h : Hom A B) (r : Report A) : Report B := ⟨r.players, r.atTime, r.data.map h.fd⟩

/-- Specification: a call with converted arguments. -/
def Event.conv (h : Hom A B) : Event A → Event B
  | .sense t n o => .sense t n (o.conv h.fx h.fp)
  | .ask t n o => .ask t n (o.conv h.fx h.fp)
  | .drive t n m c => .drive t n (h.fm m) (h.fc c)
  | .goal t n x => .goal t n (h.fx x)
  | .env t n => .env t n
  | .pair t a b => .pair t a b

/-- Specification: parameters with converted missions. -/
def Cfg.conv (h : Hom A B) (cfg : Cfg A) : Cfg B :=
  ⟨cfg.dt, cfg.dtCommands, cfg.maxSimTime, cfg.afterCollision, mapD h.fg cfg.missions⟩

/-- Specification: a context with converted content. -/
def St.conv (h : Hom A B) (s : St A) : St B where
  models := mapD h.fm s.models
  players := s.players
  w := h.fw s.w
  time := s.time
  terminated := s.terminated
  reports := s.reports.map (Report.conv h)
  firstColl := s.firstColl
  lastObs := s.lastObs.conv h.fx h.fp
  lastCmdTs := s.lastCmdTs
  lastCmds := mapD h.fc s.lastCmds
  logger := mapD (PlayerLogger.conv h) s.logger
  trace := s.trace.map (Event.conv h)

/-! ## Lemmas -/

variable [DecidableEq N] [LinearOrder K]

theorem get?_mapD {α β : Type} (f : α → β) (d : Dict N α) (n : N) :
    Dict.get? (mapD f d) n = (Dict.get? d n).map f := by
  induction d with
  | nil => rfl
  | cons p r ih =>
    obtain ⟨k, v⟩ := p
    unfold mapD at ih ⊢
    simp only [List.map_cons, Dict.get?]
    split
    · rfl
    · exact ih

theorem set_mapD {α β : Type} (f : α → β) (d : Dict N α) (n : N) (a : α) :
    Dict.set (mapD f d) n (f a) = mapD f (Dict.set d n a) := by
  induction d with
  | nil => rfl
  | cons p r ih =>
    obtain ⟨k, v⟩ := p
    unfold mapD at ih ⊢
    simp only [List.map_cons, Dict.set]
    split
    · rfl
    · simp only [List.map_cons, ih]

theorem lookup_mapD {α β : Type} (f : α → β) (d : Dict N α) (n : N) : lookup (mapD f d) n = (lookup d n).map f := by
  unfold lookup
  rw [get?_mapD]
  cases Dict.get? d n <;> rfl

theorem keys_mapD {α β : Type} (f : α → β) (d : Dict N α) : Dict.keys (mapD f d) = Dict.keys d := by
  simp [Dict.keys, mapD, Function.comp_def]

theorem liftU_map {α β : Type} (f : α → β) (x : Except Err α) : liftU (x.map f) = (liftU x).map f := by
  cases x <;> rfl

theorem addLog_mapB {α β : Type} (f : α → β) (b : Builder K α) (t : K) (v : α) :
    addLog (mapB f b) t (f v) = (addLog b t v).map (mapB f) := by
  obtain ⟨ts, vs⟩ := b
  simp only [addLog, Builder.add, mapB]
  cases hl : ts.getLast? with
  | none => simp [Except.map, mapB]
  | some t' =>
    by_cases ht : t ≤ t'
    · simp [ht, Except.map]
    · simp [ht, Except.map, mapB]

theorem asSequence_mapB {α β : Type} (f : α → β) (b : Builder K α) :
    (mapB f b).asSequence = b.asSequence.map (mapS f) := by
  obtain ⟨ts, vs⟩ := b
  show Seq.mk? ts (vs.map f) = (Seq.mk? ts vs).map (mapS f)
  unfold Seq.mk?
  rw [List.length_map]
  split
  · rfl
  · cases Seq.increasing ts <;> rfl

theorem conv_need [Sub K] (h : Hom A B) (cfg : Cfg A) (s : St A) : need (cfg.conv h) (s.conv h) = need cfg s := rfl

theorem conv_observe (h : Hom A B) (models : Dict N A.M) (l : List N) :
    observe (Wd := B) (mapD h.fm models) l = (observe (Wd := A) models l).map (mapD (Prod.map h.fx h.fp)) := by
  induction l with
  | nil => rfl
  | cons n ns ih =>
    simp only [observe]
    rw [lookup_mapD, ih]
    cases lookup models n with
    | error e => rfl
    | ok m =>
      cases observe models ns with
      | error e => rfl
      | ok r =>
        simp only [Except.map, bind, Except.bind, pure, Except.pure]
        rw [h.getState, h.footprint]
        rfl

theorem conv_preUpdate [Sub K] (h : Hom A B) (cfg : Cfg A) (s : St A) :
    preUpdate (cfg.conv h) (s.conv h) = (preUpdate cfg s).map (St.conv h) := by
  unfold preUpdate
  rw [conv_need]
  split
  · have h1 : observe (Wd := B) (s.conv h).models (s.conv h).players =
        (observe (Wd := A) s.models s.players).map (mapD (Prod.map h.fx h.fp)) := conv_observe h _ _
    rw [h1]
    cases observe (Wd := A) s.models s.players <;> rfl
  · rfl

theorem conv_addExtra (h : Hom A B) (b : Builder K A.E) (t : K) (e : Option A.E) :
    addExtra (Wd := B) (mapB h.fe b) t (e.map h.fe) = (addExtra (Wd := A) b t e).map (mapB h.fe) := by
  cases e with
  | none => rfl
  | some e => exact addLog_mapB h.fe b t e

theorem conv_ask (h : Hom A B) (s : St A) (n : N) :
    askPlayer (s.conv h) n = (askPlayer s n).map (St.conv h) := by
  have h1 : B.sense (s.conv h).w n (s.conv h).lastObs = _ := h.sense s.w n s.lastObs
  have h4 : lookup (s.conv h).logger n = (lookup s.logger n).map (PlayerLogger.conv h) := lookup_mapD _ _ _
  unfold askPlayer
  rw [h1]
  cases A.sense s.w n s.lastObs with
  | error e => rfl
  | ok r =>
    obtain ⟨w1, o⟩ := r
    simp only [Except.map, liftU, bind, Except.bind, Prod.map]
    rw [h.getCommands]
    cases A.getCommands w1 n o with
    | error e => rfl
    | ok r =>
      obtain ⟨w2, c, i⟩ := r
      simp only [liftU, Except.map, Prod.map]
      rw [h4]
      cases lookup s.logger n with
      | error e => rfl
      | ok lg =>
        simp only [Except.map]
        have hc : addLog (PlayerLogger.conv h lg).commands (s.conv h).time (h.fc c) = _ := addLog_mapB h.fc lg.commands s.time c
        rw [hc]
        cases addLog lg.commands s.time c with
        | error e => rfl
        | ok commands =>
          simp only [Except.map]
          have hi : addLog (PlayerLogger.conv h lg).info (s.conv h).time (h.fi i) = _ := addLog_mapB h.fi lg.info s.time i
          rw [hi]
          cases addLog lg.info s.time i with
          | error e => rfl
          | ok info =>
            simp only [Except.map]
            rw [h.getExtra]
            cases A.getExtra w2 n with
            | error e => rfl
            | ok r =>
              obtain ⟨w3, ex⟩ := r
              simp only [Except.map, Prod.map]
              have he : addExtra (Wd := B) (PlayerLogger.conv h lg).extra (s.conv h).time (ex.map h.fe) = _ :=
                conv_addExtra h lg.extra s.time ex
              rw [he]
              cases addExtra lg.extra s.time ex with
              | error e => rfl
              | ok extra =>
                simp only [pure, Except.pure, Except.map, St.conv]
                congr 2
                · exact set_mapD h.fc s.lastCmds n c
                · exact set_mapD (PlayerLogger.conv h) s.logger n
                    { lg with commands := commands, info := info, extra := extra }
                · simp [Event.conv]

theorem conv_updatePlayer [Sub K] (h : Hom A B) (cfg : Cfg A) (s : St A) (n : N) :
    updatePlayer (cfg.conv h) (s.conv h) n = (updatePlayer cfg s n).map (St.conv h) := by
  unfold updatePlayer
  have h1 : lookup (s.conv h).models n = (lookup s.models n).map h.fm := lookup_mapD _ _ _
  have h2 : lookup (s.conv h).logger n = (lookup s.logger n).map (PlayerLogger.conv h) := lookup_mapD _ _ _
  rw [h1, h2]
  cases lookup s.models n with
  | error e => rfl
  | ok m =>
    cases lookup s.logger n with
    | error e => rfl
    | ok lg =>
      simp only [Except.map, bind, Except.bind]
      have hc : addLog (PlayerLogger.conv h lg).states (s.conv h).time (B.getState (h.fm m)) =
          (addLog lg.states s.time (A.getState m)).map (mapB h.fx) := by
        rw [h.getState]; exact addLog_mapB h.fx lg.states s.time _
      rw [hc]
      cases addLog lg.states s.time (A.getState m) with
      | error e => rfl
      | ok states =>
        simp only [Except.map]
        have hs : ({ s.conv h with
            logger := Dict.set (s.conv h).logger n ({ PlayerLogger.conv h lg with states := mapB h.fx states }) } : St B) =
            St.conv h { s with logger := Dict.set s.logger n { lg with states := states } } := by
          simp only [St.conv]
          congr 1
          exact set_mapD (PlayerLogger.conv h) s.logger n { lg with states := states }
        rw [hs]
        have hm : ∀ t : St A, maybeAsk (cfg.conv h) (t.conv h) n = (maybeAsk cfg t n).map (St.conv h) := by
          intro t
          unfold maybeAsk
          rw [conv_need]
          split
          · exact conv_ask h t n
          · rfl
        rw [hm]
        cases maybeAsk cfg _ n with
        | error e => rfl
        | ok s2 =>
          simp only [Except.map]
          have h3 : lookup (s2.conv h).lastCmds n = (lookup s2.lastCmds n).map h.fc := lookup_mapD _ _ _
          have h4 : lookup (s2.conv h).models n = (lookup s2.models n).map h.fm := lookup_mapD _ _ _
          rw [h3, h4]
          cases lookup s2.lastCmds n with
          | error e => rfl
          | ok c =>
            cases lookup s2.models n with
            | error e => rfl
            | ok m2 =>
              simp only [Except.map]
              have h5 : B.update (s2.conv h).w n (h.fm m2) (h.fc c) (cfg.conv h).dt = _ := h.update s2.w n m2 c cfg.dt
              rw [h5]
              cases A.update s2.w n m2 c cfg.dt with
              | error e => rfl
              | ok r =>
                obtain ⟨w', m'⟩ := r
                simp only [liftU, pure, Except.pure, Except.map, Prod.map, St.conv]
                congr 2
                · exact set_mapD h.fm s2.models n m'
                · simp [Event.conv]

theorem conv_updateLoop [Sub K] (h : Hom A B) (cfg : Cfg A) (l : List N) : ∀ s : St A,
    updateLoop (cfg.conv h) (s.conv h) l = (updateLoop cfg s l).map (St.conv h) := by
  induction l with
  | nil => intro s; rfl
  | cons n ns ih =>
    intro s
    simp only [updateLoop]
    rw [conv_updatePlayer]
    cases updatePlayer cfg s n with
    | error e => rfl
    | ok s' => exact ih s'

theorem conv_update [Sub K] (h : Hom A B) (cfg : Cfg A) (s : St A) :
    update (cfg.conv h) (s.conv h) = (update cfg s).map (St.conv h) := by
  unfold update
  have h1 : updateLoop (cfg.conv h) (s.conv h) (s.conv h).players = _ := conv_updateLoop h cfg s.players s
  rw [h1]
  cases updateLoop cfg s s.players with
  | error e => rfl
  | ok s' =>
    simp only [Except.map, bind, Except.bind, pure, Except.pure]
    rw [conv_need]
    split <;> rfl

theorem conv_removePlayer (h : Hom A B) (s : St A) (p : N) (g : A.G) :
    removePlayer (s.conv h) p (h.fg g) = (removePlayer s p g).map (St.conv h) := by
  unfold removePlayer
  by_cases hp : p ∈ s.players
  · rw [if_pos hp, if_pos (show p ∈ (s.conv h).players from hp)]
    have h1 : lookup (s.conv h).models p = (lookup s.models p).map h.fm := lookup_mapD _ _ _
    rw [h1]
    cases lookup s.models p with
    | error e => rfl
    | ok m =>
      simp only [Except.map, bind, Except.bind]
      rw [h.getState]
      have h2 : B.fulfilled (s.conv h).w p (h.fg g) (h.fx (A.getState m)) (s.conv h).time = _ :=
        h.fulfilled s.w p g (A.getState m) s.time
      rw [h2]
      cases A.fulfilled s.w p g (A.getState m) s.time with
      | error e => rfl
      | ok r =>
        obtain ⟨w', b⟩ := r
        simp only [liftU, Except.map, Prod.map, id]
        cases b with
        | false => simp [pure, Except.pure, St.conv, Event.conv]
        | true =>
          simp only [if_true]
          have h3 : lookup (s.conv h).logger p = (lookup s.logger p).map (PlayerLogger.conv h) := lookup_mapD _ _ _
          rw [h3]
          cases lookup s.logger p with
          | error e => rfl
          | ok lg =>
            simp only [Except.map]
            have hc : addLog (PlayerLogger.conv h lg).states (s.conv h).time (h.fx (A.getState m)) = _ :=
              addLog_mapB h.fx lg.states s.time _
            rw [hc]
            cases addLog lg.states s.time (A.getState m) with
            | error e => rfl
            | ok states =>
              simp only [pure, Except.pure, Except.map, St.conv]
              congr 2
              · exact set_mapD (PlayerLogger.conv h) s.logger p { lg with states := states }
              · simp [Event.conv]
  · rw [if_neg hp, if_neg (show p ∉ (s.conv h).players from hp)]
    rfl

theorem conv_removeLoop (h : Hom A B) (gs : Dict N A.G) : ∀ s : St A,
    removeLoop (s.conv h) (mapD h.fg gs) = (removeLoop s gs).map (St.conv h) := by
  induction gs with
  | nil => intro s; rfl
  | cons pg rest ih =>
    intro s
    obtain ⟨p, g⟩ := pg
    show (do let s' ← removePlayer (s.conv h) p (h.fg g); removeLoop s' (mapD h.fg rest)) = _
    rw [conv_removePlayer]
    rw [show removeLoop s ((p, g) :: rest) = (do let s' ← removePlayer s p g; removeLoop s' rest) from rfl]
    cases removePlayer s p g with
    | error e => rfl
    | ok s' => exact ih s'

theorem conv_termination [Add K] (h : Hom A B) (cfg : Cfg A) (s : St A) :
    terminationCondition (cfg.conv h) (s.conv h) = terminationCondition cfg s := by
  have h1 : collTimer (cfg.conv h) (s.conv h) = collTimer cfg s := rfl
  have h3 : (cfg.conv h).missions.isEmpty = cfg.missions.isEmpty := by simp [Cfg.conv, mapD]
  have h4 : Dict.keys (cfg.conv h).missions = Dict.keys cfg.missions := keys_mapD _ _
  unfold terminationCondition
  rw [h1, h3, h4]
  rfl

theorem conv_record (h : Hom A B) (s : St A) (r : Report A) :
    recordReport (s.conv h) (r.conv h) = (recordReport s r).conv h := by
  simp only [recordReport, St.conv, List.map_append, List.map_cons, List.map_nil]
  congr 1

theorem conv_reportOf (h : Hom A B) (ps qs : List N) (t : K) (o : Except Err (Option A.D)) :
    reportOf (Wd := B) ps qs t (o.map (Option.map h.fd)) = (reportOf (Wd := A) ps qs t o).map (Option.map (Report.conv h)) := by
  cases o with
  | ok o => cases o <;> rfl
  | error e => cases e <;> rfl

theorem conv_envObstacle (h : Hom A B) (s : St A) (p : N) (o : A.O) (ho : h.real o) :
    envObstacle (s.conv h) p (h.fo o) = (envObstacle s p o).map (St.conv h) := by
  unfold envObstacle
  have h1 : lookup (s.conv h).models p = (lookup s.models p).map h.fm := lookup_mapD _ _ _
  rw [h1]
  cases lookup s.models p with
  | error e => rfl
  | ok m =>
    simp only [Except.map, bind, Except.bind]
    have h2 : B.resolveEnv (s.conv h).w p (h.fm m) (h.fo o) (s.conv h).time = _ := h.resolveEnv s.w p m o s.time ho
    rw [h2, h.env]
    generalize A.resolveEnv s.w p m o s.time = r
    obtain ⟨⟨w', m'⟩, out⟩ := r
    simp only [Prod.map]
    have h3 : reportOf (Wd := B) [p, A.env] [p] (s.conv h).time (out.map (Option.map h.fd)) = _ :=
      conv_reportOf h [p, A.env] [p] s.time out
    rw [h3]
    have hs : ({ s.conv h with w := h.fw w', models := Dict.set (s.conv h).models p (h.fm m') } : St B) =
        St.conv h { s with w := w', models := Dict.set s.models p m' } := by
      simp only [St.conv]
      congr 1
      exact set_mapD h.fm s.models p m'
    rw [hs]
    cases reportOf (Wd := A) [p, A.env] [p] s.time out with
    | error e => rfl
    | ok rep =>
      cases rep with
      | none => rfl
      | some rep =>
        simp only [Except.map, Option.map, pure, Except.pure]
        rw [h.isDyn]
        split
        · rw [conv_record]
        · rfl

theorem conv_envObstacles (h : Hom A B) (p : N) (os : List A.O) (ho : ∀ o ∈ os, h.real o) : ∀ s : St A,
    envObstacles p (s.conv h) (os.map h.fo) = (envObstacles p s os).map (St.conv h) := by
  induction os with
  | nil => intro s; rfl
  | cons o os ih =>
    intro s
    show (do let s' ← envObstacle (s.conv h) p (h.fo o); envObstacles p s' (os.map h.fo)) = _
    rw [conv_envObstacle h s p o (ho o (by simp))]
    rw [show envObstacles p s (o :: os) = (do let s' ← envObstacle s p o; envObstacles p s' os) from rfl]
    cases envObstacle s p o with
    | error e => rfl
    | ok s' => exact ih (fun o' h' => ho o' (List.mem_cons_of_mem _ h')) s'

theorem conv_envLoop (h : Hom A B) (ps : List N) : ∀ s : St A,
    envLoop (s.conv h) ps = (envLoop s ps).map (St.conv h) := by
  induction ps with
  | nil => intro s; rfl
  | cons p ps ih =>
    intro s
    simp only [envLoop]
    have h1 : lookup (s.conv h).models p = (lookup s.models p).map h.fm := lookup_mapD _ _ _
    rw [h1]
    cases lookup s.models p with
    | error e => rfl
    | ok m =>
      simp only [Except.map, bind, Except.bind]
      have hs : ({ s.conv h with trace := (s.conv h).trace ++ [.env (s.conv h).time p] } : St B) =
          St.conv h { s with trace := s.trace ++ [.env s.time p] } := by
        simp [St.conv, Event.conv]
      rw [hs, h.footprint]
      have hq : B.envQuery (s.conv h).w (h.fp (A.footprint m)) = _ := h.envQuery s.w (A.footprint m)
      rw [hq, conv_envObstacles h p _ (h.envReal s.w (A.footprint m))]
      cases envObstacles p { s with trace := s.trace ++ [.env s.time p] } (A.envQuery s.w (A.footprint m)) with
      | error e => rfl
      | ok s' => exact ih s'

theorem conv_checkPair (h : Hom A B) (s : St A) (a b : N) :
    checkPair (s.conv h) a b = (checkPair s a b).map (St.conv h) := by
  unfold checkPair
  have h1 : lookup (s.conv h).models a = (lookup s.models a).map h.fm := lookup_mapD _ _ _
  have h2 : lookup (s.conv h).models b = (lookup s.models b).map h.fm := lookup_mapD _ _ _
  rw [h1, h2]
  cases lookup s.models a with
  | error e => rfl
  | ok m1 =>
    cases lookup s.models b with
    | error e => rfl
    | ok m2 =>
      simp only [Except.map, bind, Except.bind]
      rw [h.footprint, h.footprint, h.touch]
      have hr : B.resolve (s.conv h).w a (h.fm m1) b (h.fm m2) (s.conv h).time = _ := h.resolve s.w a m1 b m2 s.time
      rw [hr]
      generalize A.resolve s.w a m1 b m2 s.time = r
      obtain ⟨⟨w', ma, mb⟩, out⟩ := r
      simp only [Prod.map]
      split
      · have h3 : reportOf (Wd := B) [a, b] [a, b] (s.conv h).time (out.map (Option.map h.fd)) = _ :=
          conv_reportOf h [a, b] [a, b] s.time out
        rw [h3]
        have hs : ({ s.conv h with
            trace := (s.conv h).trace ++ [.pair (s.conv h).time a b]
            w := h.fw w'
            models := Dict.set (Dict.set (s.conv h).models a (h.fm ma)) b (h.fm mb) } : St B) =
            St.conv h { s with
              trace := s.trace ++ [.pair s.time a b]
              w := w'
              models := Dict.set (Dict.set s.models a ma) b mb } := by
          simp only [St.conv]
          congr 1
          · rw [set_mapD, set_mapD]
          · simp [Event.conv]
        rw [hs]
        cases reportOf (Wd := A) [a, b] [a, b] s.time out with
        | error e => rfl
        | ok rep =>
          cases rep with
          | none => rfl
          | some rep =>
            simp only [Except.map, Option.map, pure, Except.pure]
            rw [conv_record]
      · simp [pure, Except.pure, St.conv, Event.conv]

theorem conv_pairLoop (h : Hom A B) (l : List (N × N)) : ∀ s : St A,
    pairLoop (s.conv h) l = (pairLoop s l).map (St.conv h) := by
  induction l with
  | nil => intro s; rfl
  | cons p l ih =>
    intro s
    obtain ⟨a, b⟩ := p
    simp only [pairLoop]
    rw [conv_checkPair]
    cases checkPair s a b with
    | error e => rfl
    | ok s' => exact ih s'

theorem conv_postUpdate [Add K] (h : Hom A B) (cfg : Cfg A) (s : St A) :
    postUpdate (cfg.conv h) (s.conv h) = (postUpdate cfg s).map (St.conv h) := by
  unfold postUpdate
  have h1 : removeLoop ({ s.conv h with time := (s.conv h).time + (cfg.conv h).dt } : St B)
      (cfg.conv h).missions = (removeLoop { s with time := s.time + cfg.dt } cfg.missions).map (St.conv h) :=
    conv_removeLoop h cfg.missions { s with time := s.time + cfg.dt }
  simp only
  rw [h1]
  cases removeLoop { s with time := s.time + cfg.dt } cfg.missions with
  | error e => rfl
  | ok s2 =>
    simp only [Except.map, bind, Except.bind]
    rw [conv_termination]
    split
    · rfl
    · have h2 : envLoop ({ s2.conv h with terminated := terminationCondition cfg s2 } : St B) (s2.conv h).players =
          (envLoop { s2 with terminated := terminationCondition cfg s2 } s2.players).map (St.conv h) :=
        conv_envLoop h s2.players { s2 with terminated := terminationCondition cfg s2 }
      rw [h2]
      cases envLoop { s2 with terminated := terminationCondition cfg s2 } s2.players with
      | error e => rfl
      | ok s4 => exact conv_pairLoop h _ s4

theorem conv_step [Add K] [Sub K] (h : Hom A B) (cfg : Cfg A) (s : St A) :
    step (cfg.conv h) (s.conv h) = (step cfg s).map (St.conv h) := by
  unfold step
  rw [conv_preUpdate]
  cases preUpdate cfg s with
  | error e => rfl
  | ok s1 =>
    simp only [Except.map, bind, Except.bind]
    rw [conv_update]
    cases update cfg s1 with
    | error e => rfl
    | ok s2 => exact conv_postUpdate h cfg s2

theorem conv_loop [Add K] [Sub K] (h : Hom A B) (cfg : Cfg A) (fuel : Nat) : ∀ s : St A,
    loop (cfg.conv h) fuel (s.conv h) = (loop cfg fuel s).map (Except.map (St.conv h)) := by
  induction fuel with
  | zero =>
    intro s
    unfold loop
    have : (s.conv h).terminated = s.terminated := rfl
    rw [this]
    split <;> rfl
  | succ fuel ih =>
    intro s
    unfold loop
    have : (s.conv h).terminated = s.terminated := rfl
    rw [this]
    split
    · rfl
    · rw [conv_step]
      cases step cfg s with
      | error e => rfl
      | ok s' => exact ih s'

theorem conv_initLoop (h : Hom A B) (l : List N) : ∀ s : St A,
    initLoop (s.conv h) l = (initLoop s l).map (St.conv h) := by
  induction l with
  | nil => intro s; rfl
  | cons n ns ih =>
    intro s
    simp only [initLoop]
    have h1 : lookup (s.conv h).models n = (lookup s.models n).map h.fm := lookup_mapD _ _ _
    have h2 : B.onInit (s.conv h).w n = (A.onInit s.w n).map h.fw := h.onInit s.w n
    rw [h1, h2]
    cases lookup s.models n with
    | error e => rfl
    | ok m =>
      simp only [Except.map, bind, Except.bind]
      cases A.onInit s.w n with
      | error e => rfl
      | ok w' =>
        simp only [liftU]
        have hs : ({ s.conv h with w := h.fw w', logger := Dict.set (s.conv h).logger n {} } : St B) =
            St.conv h { s with w := w', logger := Dict.set s.logger n {} } := by
          simp only [St.conv]
          congr 1
          exact set_mapD (PlayerLogger.conv h) s.logger n {}
        rw [hs]
        exact ih _

theorem conv_writeLog (h : Hom A B) (logger : Dict N (PlayerLogger A)) (l : List N) : ∀ log : Dict N (PlayerLog A),
    writeLog (mapD (PlayerLogger.conv h) logger) l (mapD (PlayerLog.conv h) log) =
      (writeLog logger l log).map (mapD (PlayerLog.conv h)) := by
  induction l with
  | nil => intro log; rfl
  | cons n ns ih =>
    intro log
    simp only [writeLog]
    rw [lookup_mapD]
    cases lookup logger n with
    | error e => rfl
    | ok lg =>
      simp only [Except.map, bind, Except.bind]
      have h1 : (PlayerLogger.conv h lg).asSequence = lg.asSequence.map (PlayerLog.conv h) := by
        obtain ⟨b1, b2, b3, b4⟩ := lg
        simp only [PlayerLogger.asSequence, PlayerLogger.conv, asSequence_mapB]
        cases b1.asSequence <;> cases b2.asSequence <;> cases b3.asSequence <;> cases b4.asSequence <;> rfl
      rw [h1]
      cases lg.asSequence with
      | error e => rfl
      | ok pl =>
        simp only [Except.map]
        rw [set_mapD]
        exact ih _

/-- A run in the converted world is the converted run. -/
theorem conv_run [Add K] [Sub K] (h : Hom A B) (cfg : Cfg A) (fuel : Nat) (s : St A) (log : Dict N (PlayerLog A)) :
    run (cfg.conv h) fuel (s.conv h) (mapD (PlayerLog.conv h) log) =
      (run cfg fuel s log).map (Except.map (Prod.map (St.conv h) (mapD (PlayerLog.conv h)))) := by
  unfold run
  have h1 : initLoop (s.conv h) (s.conv h).players = (initLoop s s.players).map (St.conv h) := conv_initLoop h _ s
  rw [h1]
  cases initLoop s s.players with
  | error e => rfl
  | ok s1 =>
    simp only [Except.map]
    rw [conv_loop]
    cases loop cfg fuel s1 with
    | none => rfl
    | some r =>
      cases r with
      | error e => rfl
      | ok s2 =>
        simp only [Option.map, Except.map]
        have h2 : writeLog (s2.conv h).logger (Dict.keys (s2.conv h).models) (mapD (PlayerLog.conv h) log) =
            (writeLog s2.logger (Dict.keys s2.models) log).map (mapD (PlayerLog.conv h)) := by
          have hk : Dict.keys (s2.conv h).models = Dict.keys s2.models := keys_mapD h.fm s2.models
          rw [hk]
          exact conv_writeLog h s2.logger _ log
        rw [h2]
        cases writeLog s2.logger (Dict.keys s2.models) log with
        | error e => rfl
        | ok l => rfl

end Sim
end Verif
