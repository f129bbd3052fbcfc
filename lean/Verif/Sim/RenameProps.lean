import Verif.Sim.Toy

/-!
# C145: the names of the players carry no meaning
-/

set_option linter.unusedSectionVars false

namespace Verif
namespace Sim

variable {N N' K : Type}

/-! ## Specification: renaming -/

/-- Specification: a dictionary with renamed keys (in the same order) and converted values. -/
def renD {α β : Type} (σ : N ≃ N') (f : α → β) (d : Dict N α) : Dict N' β := d.map (fun p => (σ p.1, f p.2))

/-- Specification: observations with renamed players. -/
def Obs.rename {X P : Type} (σ : N ≃ N') (o : Obs N K X P) : Obs N' K X P := ⟨renD σ id o.players, o.time⟩

/-- Specification: the same agents, sensors, models, goals and obstacles under other names. What they are told about the
players uses the new names. -/
abbrev World.rename (σ : N ≃ N') (Wd : World N K) : World N' K where
  W := Wd.W
  M := Wd.M
  X := Wd.X
  P := Wd.P
  C := Wd.C
  I := Wd.I
  E := Wd.E
  O := Wd.O
  D := Wd.D
  G := Wd.G
  getState := Wd.getState
  footprint := Wd.footprint
  isDyn := Wd.isDyn
  onInit w n := Wd.onInit w (σ.symm n)
  sense w n o := (Wd.sense w (σ.symm n) (o.rename σ.symm)).map (fun r => (r.1, r.2.rename σ))
  getCommands w n o := Wd.getCommands w (σ.symm n) (o.rename σ.symm)
  getExtra w n := Wd.getExtra w (σ.symm n)
  update w n m c dt := Wd.update w (σ.symm n) m c dt
  fulfilled w n g x t := Wd.fulfilled w (σ.symm n) g x t
  envQuery := Wd.envQuery
  env := σ Wd.env
  resolveEnv w n m o t := Wd.resolveEnv w (σ.symm n) m o t
  touch := Wd.touch
  resolve w a m b m' t := Wd.resolve w (σ.symm a) m (σ.symm b) m' t

variable {Wd : World N K}

/-- Specification: the same builders. -/
def PlayerLogger.rename (σ : N ≃ N') (l : PlayerLogger Wd) : PlayerLogger (Wd.rename σ) :=
  ⟨l.states, l.commands, l.extra, l.info⟩

/-- Specification: the same logs. -/
def PlayerLog.rename (σ : N ≃ N') (l : PlayerLog Wd) : PlayerLog (Wd.rename σ) := ⟨l.states, l.commands, l.extra, l.info⟩

/-- Specification: a report with renamed players. -/
def Report.rename (σ : N ≃ N') (r : Report Wd) : Report (Wd.rename σ) := ⟨r.players.map σ, r.atTime, r.data⟩

/-- Specification: an event with renamed players. -/
def Event.rename (σ : N ≃ N') : Event Wd → Event (Wd.rename σ)
  | .sense t n o => .sense t (σ n) (o.rename σ)
  | .ask t n o => .ask t (σ n) (o.rename σ)
  | .drive t n m c => .drive t (σ n) m c
  | .goal t n x => .goal t (σ n) x
  | .env t n => .env t (σ n)
  | .pair t a b => .pair t (σ a) (σ b)

/-- Specification: parameters with renamed missions. -/
def Cfg.rename (σ : N ≃ N') (cfg : Cfg Wd) : Cfg (Wd.rename σ) :=
  ⟨cfg.dt, cfg.dtCommands, cfg.maxSimTime, cfg.afterCollision, renD σ id cfg.missions⟩

/-- Specification: a context with renamed players. -/
def St.rename (σ : N ≃ N') (s : St Wd) : St (Wd.rename σ) where
  models := renD σ id s.models
  players := s.players.map σ
  w := s.w
  time := s.time
  terminated := s.terminated
  reports := s.reports.map (Report.rename σ)
  firstColl := s.firstColl
  lastObs := s.lastObs.rename σ
  lastCmdTs := s.lastCmdTs
  lastCmds := renD σ id s.lastCmds
  logger := renD σ (PlayerLogger.rename σ) s.logger
  trace := s.trace.map (Event.rename σ)

/-! ## Lemmas -/

variable [DecidableEq N] [DecidableEq N'] [LinearOrder K]

theorem get?_renD {α β : Type} (σ : N ≃ N') (f : α → β) (d : Dict N α) (n : N) :
    Dict.get? (renD σ f d) (σ n) = (Dict.get? d n).map f := by
  induction d with
  | nil => rfl
  | cons p r ih =>
    obtain ⟨k, v⟩ := p
    unfold renD at ih ⊢
    simp only [List.map_cons, Dict.get?, σ.injective.eq_iff]
    split
    · rfl
    · exact ih

theorem set_renD {α β : Type} (σ : N ≃ N') (f : α → β) (d : Dict N α) (n : N) (a : α) :
    Dict.set (renD σ f d) (σ n) (f a) = renD σ f (Dict.set d n a) := by
  induction d with
  | nil => rfl
  | cons p r ih =>
    obtain ⟨k, v⟩ := p
    unfold renD at ih ⊢
    simp only [List.map_cons, Dict.set, σ.injective.eq_iff]
    split
    · rfl
    · simp only [List.map_cons, ih]

theorem lookup_renD {α β : Type} (σ : N ≃ N') (f : α → β) (d : Dict N α) (n : N) :
    lookup (renD σ f d) (σ n) = (lookup d n).map f := by
  unfold lookup
  rw [get?_renD]
  cases Dict.get? d n <;> rfl

theorem keys_renD {α β : Type} (σ : N ≃ N') (f : α → β) (d : Dict N α) :
    Dict.keys (renD σ f d) = (Dict.keys d).map σ := by
  simp [Dict.keys, renD, Function.comp_def]

theorem rename_symm {X P : Type} (σ : N ≃ N') (o : Obs N K X P) : (o.rename σ).rename σ.symm = o := by
  cases o
  simp [Obs.rename, renD, Function.comp_def]

theorem ren_need [Sub K] (σ : N ≃ N') (cfg : Cfg Wd) (s : St Wd) : need (cfg.rename σ) (s.rename σ) = need cfg s := rfl

theorem ren_observe (σ : N ≃ N') (models : Dict N Wd.M) (l : List N) :
    observe (Wd := Wd.rename σ) (renD σ id models) (l.map σ) = (observe (Wd := Wd) models l).map (renD σ id) := by
  induction l with
  | nil => rfl
  | cons n ns ih =>
    simp only [List.map_cons, observe]
    rw [lookup_renD, ih]
    cases lookup models n <;> [rfl; skip]
    cases observe models ns <;> rfl

theorem ren_preUpdate [Sub K] (σ : N ≃ N') (cfg : Cfg Wd) (s : St Wd) :
    preUpdate (cfg.rename σ) (s.rename σ) = (preUpdate cfg s).map (St.rename σ) := by
  unfold preUpdate
  rw [ren_need]
  split
  · have h : observe (Wd := Wd.rename σ) (s.rename σ).models (s.rename σ).players =
        (observe (Wd := Wd) s.models s.players).map (renD σ id) := ren_observe σ _ _
    rw [h]
    cases observe (Wd := Wd) s.models s.players <;> rfl
  · rfl

/-- Changing the parts of a player. -/
theorem ren_ask (σ : N ≃ N') (s : St Wd) (n : N) :
    askPlayer (s.rename σ) (σ n) = (askPlayer s n).map (St.rename σ) := by
  have h1 : (Wd.rename σ).sense (s.rename σ).w (σ n) (s.rename σ).lastObs =
      (Wd.sense s.w n s.lastObs).map (fun r => (r.1, r.2.rename σ)) := by
    show (Wd.sense s.w (σ.symm (σ n)) ((s.lastObs.rename σ).rename σ.symm)).map _ = _
    rw [σ.symm_apply_apply, rename_symm]
  have h3 : ∀ w o, (Wd.rename σ).getCommands w (σ n) (o.rename σ) = Wd.getCommands w n o := by
    intro w o
    show Wd.getCommands w (σ.symm (σ n)) ((o.rename σ).rename σ.symm) = _
    rw [σ.symm_apply_apply, rename_symm]
  have h4 : lookup (s.rename σ).logger (σ n) = (lookup s.logger n).map (PlayerLogger.rename σ) := lookup_renD σ _ _ _
  have h5 : ∀ w, (Wd.rename σ).getExtra w (σ n) = Wd.getExtra w n := by
    intro w
    show Wd.getExtra w (σ.symm (σ n)) = _
    rw [σ.symm_apply_apply]
  unfold askPlayer
  rw [h1]
  cases Wd.sense s.w n s.lastObs with
  | error e => rfl
  | ok r =>
    obtain ⟨w1, o⟩ := r
    simp only [Except.map, liftU, bind, Except.bind]
    rw [h3]
    cases Wd.getCommands w1 n o with
    | error e => rfl
    | ok r =>
      obtain ⟨w2, c, i⟩ := r
      simp only [liftU]
      rw [h4]
      cases lookup s.logger n with
      | error e => rfl
      | ok lg =>
        simp only [Except.map]
        have hc : addLog (PlayerLogger.rename σ lg).commands (s.rename σ).time c = addLog lg.commands s.time c := rfl
        rw [hc]
        cases addLog lg.commands s.time c with
        | error e => rfl
        | ok commands =>
          simp only
          have hi : addLog (PlayerLogger.rename σ lg).info (s.rename σ).time i = addLog lg.info s.time i := rfl
          rw [hi]
          cases addLog lg.info s.time i with
          | error e => rfl
          | ok info =>
            simp only
            rw [h5]
            cases Wd.getExtra w2 n with
            | error e => rfl
            | ok r =>
              obtain ⟨w3, ex⟩ := r
              simp only
              have he : addExtra (Wd := Wd.rename σ) (PlayerLogger.rename σ lg).extra (s.rename σ).time ex =
                  addExtra lg.extra s.time ex := by cases ex <;> rfl
              rw [he]
              cases addExtra lg.extra s.time ex with
              | error e => rfl
              | ok extra =>
                simp only [pure, Except.pure, St.rename]
                congr 2
                · exact set_renD σ id s.lastCmds n c
                · exact set_renD σ (PlayerLogger.rename σ) s.logger n
                    { lg with commands := commands, info := info, extra := extra }
                · simp [Event.rename]

theorem ren_updatePlayer [Sub K] (σ : N ≃ N') (cfg : Cfg Wd) (s : St Wd) (n : N) :
    updatePlayer (cfg.rename σ) (s.rename σ) (σ n) = (updatePlayer cfg s n).map (St.rename σ) := by
  unfold updatePlayer
  have h1 : lookup (s.rename σ).models (σ n) = (lookup s.models n).map id := lookup_renD σ id _ _
  have h2 : lookup (s.rename σ).logger (σ n) = (lookup s.logger n).map (PlayerLogger.rename σ) := lookup_renD σ _ _ _
  rw [h1, h2]
  cases lookup s.models n with
  | error e => rfl
  | ok m =>
    cases lookup s.logger n with
    | error e => rfl
    | ok lg =>
      simp only [Except.map, bind, Except.bind, id]
      have hc : addLog (PlayerLogger.rename σ lg).states (s.rename σ).time ((Wd.rename σ).getState m) =
          addLog lg.states s.time (Wd.getState m) := rfl
      rw [hc]
      cases addLog lg.states s.time (Wd.getState m) with
      | error e => rfl
      | ok states =>
        simp only
        have hs : ({ s.rename σ with
            logger := Dict.set (s.rename σ).logger (σ n) ({ PlayerLogger.rename σ lg with states := states }) } :
              St (Wd.rename σ)) =
            St.rename σ { s with logger := Dict.set s.logger n { lg with states := states } } := by
          simp only [St.rename]
          congr 1
          exact set_renD σ (PlayerLogger.rename σ) s.logger n { lg with states := states }
        rw [hs]
        have hm : ∀ t : St Wd, maybeAsk (cfg.rename σ) (t.rename σ) (σ n) = (maybeAsk cfg t n).map (St.rename σ) := by
          intro t
          unfold maybeAsk
          rw [ren_need]
          split
          · exact ren_ask σ t n
          · rfl
        rw [hm]
        cases maybeAsk cfg _ n with
        | error e => rfl
        | ok s2 =>
          simp only [Except.map]
          have h3 : lookup (s2.rename σ).lastCmds (σ n) = (lookup s2.lastCmds n).map id := lookup_renD σ id _ _
          have h4 : lookup (s2.rename σ).models (σ n) = (lookup s2.models n).map id := lookup_renD σ id _ _
          rw [h3, h4]
          cases lookup s2.lastCmds n with
          | error e => rfl
          | ok c =>
            cases lookup s2.models n with
            | error e => rfl
            | ok m2 =>
              simp only [Except.map, id]
              have h5 : (Wd.rename σ).update (s2.rename σ).w (σ n) m2 c (cfg.rename σ).dt =
                  Wd.update s2.w n m2 c cfg.dt := by
                show Wd.update s2.w (σ.symm (σ n)) m2 c cfg.dt = _
                rw [σ.symm_apply_apply]
              rw [h5]
              cases Wd.update s2.w n m2 c cfg.dt with
              | error e => rfl
              | ok r =>
                obtain ⟨w', m'⟩ := r
                simp only [liftU, pure, Except.pure, St.rename]
                congr 2
                · exact set_renD σ id s2.models n m'
                · simp [Event.rename]

theorem ren_updateLoop [Sub K] (σ : N ≃ N') (cfg : Cfg Wd) (l : List N) : ∀ s : St Wd,
    updateLoop (cfg.rename σ) (s.rename σ) (l.map σ) = (updateLoop cfg s l).map (St.rename σ) := by
  induction l with
  | nil => intro s; rfl
  | cons n ns ih =>
    intro s
    simp only [List.map_cons, updateLoop]
    rw [ren_updatePlayer]
    cases updatePlayer cfg s n with
    | error e => rfl
    | ok s' => exact ih s'

theorem ren_update [Sub K] (σ : N ≃ N') (cfg : Cfg Wd) (s : St Wd) :
    update (cfg.rename σ) (s.rename σ) = (update cfg s).map (St.rename σ) := by
  unfold update
  have h : updateLoop (cfg.rename σ) (s.rename σ) (s.rename σ).players =
      (updateLoop cfg s s.players).map (St.rename σ) := ren_updateLoop σ cfg _ s
  rw [h]
  cases updateLoop cfg s s.players with
  | error e => rfl
  | ok s' =>
    simp only [Except.map, bind, Except.bind, pure, Except.pure]
    rw [ren_need]
    split <;> rfl

theorem ren_removePlayer (σ : N ≃ N') (s : St Wd) (p : N) (g : Wd.G) :
    removePlayer (s.rename σ) (σ p) g = (removePlayer s p g).map (St.rename σ) := by
  unfold removePlayer
  have hm : σ p ∈ (s.rename σ).players ↔ p ∈ s.players := List.mem_map_of_injective σ.injective
  by_cases hp : p ∈ s.players
  · rw [if_pos hp, if_pos (hm.mpr hp)]
    have h1 : lookup (s.rename σ).models (σ p) = (lookup s.models p).map id := lookup_renD σ id _ _
    rw [h1]
    cases lookup s.models p with
    | error e => rfl
    | ok m =>
      simp only [Except.map, bind, Except.bind, id]
      have h2 : (Wd.rename σ).fulfilled (s.rename σ).w (σ p) g ((Wd.rename σ).getState m) (s.rename σ).time =
          Wd.fulfilled s.w p g (Wd.getState m) s.time := by
        show Wd.fulfilled s.w (σ.symm (σ p)) g (Wd.getState m) s.time = _
        rw [σ.symm_apply_apply]
      rw [h2]
      cases Wd.fulfilled s.w p g (Wd.getState m) s.time with
      | error e => rfl
      | ok r =>
        obtain ⟨w', b⟩ := r
        simp only [liftU]
        cases b with
        | false =>
          simp [pure, Except.pure, St.rename, Event.rename]
        | true =>
          simp only [if_true]
          have h3 : lookup (s.rename σ).logger (σ p) = (lookup s.logger p).map (PlayerLogger.rename σ) :=
            lookup_renD σ _ _ _
          rw [h3]
          cases lookup s.logger p with
          | error e => rfl
          | ok lg =>
            simp only [Except.map]
            have hc : addLog (PlayerLogger.rename σ lg).states (s.rename σ).time ((Wd.rename σ).getState m) =
                addLog lg.states s.time (Wd.getState m) := rfl
            rw [hc]
            cases addLog lg.states s.time (Wd.getState m) with
            | error e => rfl
            | ok states =>
              simp only [pure, Except.pure, St.rename]
              congr 2
              · exact (List.map_erase σ.injective s.players).symm
              · exact set_renD σ (PlayerLogger.rename σ) s.logger p { lg with states := states }
              · simp [Event.rename]
  · rw [if_neg hp, if_neg (fun h => hp (hm.mp h))]
    rfl

theorem ren_removeLoop (σ : N ≃ N') (gs : Dict N Wd.G) : ∀ s : St Wd,
    removeLoop (s.rename σ) (renD σ id gs) = (removeLoop s gs).map (St.rename σ) := by
  induction gs with
  | nil => intro s; rfl
  | cons pg rest ih =>
    intro s
    obtain ⟨p, g⟩ := pg
    show (do let s' ← removePlayer (s.rename σ) (σ p) g; removeLoop s' (renD σ id rest)) = _
    rw [ren_removePlayer]
    rw [show removeLoop s ((p, g) :: rest) = (do let s' ← removePlayer s p g; removeLoop s' rest) from rfl]
    cases removePlayer s p g with
    | error e => rfl
    | ok s' => exact ih s'

theorem ren_termination [Add K] (σ : N ≃ N') (cfg : Cfg Wd) (s : St Wd) :
    terminationCondition (cfg.rename σ) (s.rename σ) = terminationCondition cfg s := by
  have h1 : collTimer (cfg.rename σ) (s.rename σ) = collTimer cfg s := rfl
  have h2 : (s.rename σ).players.isEmpty = s.players.isEmpty := by simp [St.rename]
  have h3 : (cfg.rename σ).missions.isEmpty = cfg.missions.isEmpty := by simp [Cfg.rename, renD]
  have h4 : (Dict.keys (cfg.rename σ).missions).all (fun p => decide (p ∉ (s.rename σ).players)) =
      (Dict.keys cfg.missions).all (fun p => decide (p ∉ s.players)) := by
    show (Dict.keys (renD σ id cfg.missions)).all _ = _
    rw [keys_renD, List.all_map]
    congr 1
    funext p
    have hm : σ p ∈ (s.rename σ).players ↔ p ∈ s.players := List.mem_map_of_injective σ.injective
    simp only [Function.comp, hm]
  unfold terminationCondition
  rw [h1, h2, h3, h4]
  rfl

theorem ren_record (σ : N ≃ N') (s : St Wd) (r : Report Wd) :
    recordReport (s.rename σ) (r.rename σ) = (recordReport s r).rename σ := by
  simp only [recordReport, St.rename, List.map_append, List.map_cons, List.map_nil]
  congr 1

theorem ren_reportOf (σ : N ≃ N') (ps qs : List N) (t : K) (o : Except Err (Option Wd.D)) :
    reportOf (Wd := Wd.rename σ) (ps.map σ) (qs.map σ) t o = (reportOf (Wd := Wd) ps qs t o).map (Option.map (Report.rename σ)) := by
  cases o with
  | ok o => cases o <;> rfl
  | error e => cases e <;> rfl

theorem ren_envObstacle (σ : N ≃ N') (s : St Wd) (p : N) (o : Wd.O) :
    envObstacle (s.rename σ) (σ p) o = (envObstacle s p o).map (St.rename σ) := by
  unfold envObstacle
  have h1 : lookup (s.rename σ).models (σ p) = (lookup s.models p).map id := lookup_renD σ id _ _
  rw [h1]
  cases lookup s.models p with
  | error e => rfl
  | ok m =>
    simp only [Except.map, bind, Except.bind, id]
    have h2 : (Wd.rename σ).resolveEnv (s.rename σ).w (σ p) m o (s.rename σ).time = Wd.resolveEnv s.w p m o s.time := by
      show Wd.resolveEnv s.w (σ.symm (σ p)) m o s.time = _
      rw [σ.symm_apply_apply]
    rw [h2]
    have h3 := ren_reportOf (Wd := Wd) σ [p, Wd.env] [p] s.time (Wd.resolveEnv s.w p m o s.time).2
    have h3' : reportOf (Wd := Wd.rename σ) [σ p, (Wd.rename σ).env] [σ p] (s.rename σ).time
        (Wd.resolveEnv s.w p m o s.time).2 = _ := h3
    rw [h3']
    have hs : ({ s.rename σ with
        w := (Wd.resolveEnv s.w p m o s.time).1.1
        models := Dict.set (s.rename σ).models (σ p) (Wd.resolveEnv s.w p m o s.time).1.2 } : St (Wd.rename σ)) =
        St.rename σ { s with
          w := (Wd.resolveEnv s.w p m o s.time).1.1
          models := Dict.set s.models p (Wd.resolveEnv s.w p m o s.time).1.2 } := by
      simp only [St.rename]
      congr 1
      exact set_renD σ id s.models p _
    rw [hs]
    cases reportOf (Wd := Wd) [p, Wd.env] [p] s.time (Wd.resolveEnv s.w p m o s.time).2 with
    | error e => rfl
    | ok rep =>
      cases rep with
      | none => rfl
      | some rep =>
        simp only [Except.map, Option.map, pure, Except.pure]
        have hd : (Wd.rename σ).isDyn (Wd.resolveEnv s.w p m o s.time).1.2 =
            Wd.isDyn (Wd.resolveEnv s.w p m o s.time).1.2 := rfl
        rw [hd]
        split
        · rw [ren_record]
        · rfl

theorem ren_envObstacles (σ : N ≃ N') (p : N) (os : List Wd.O) : ∀ s : St Wd,
    envObstacles (σ p) (s.rename σ) os = (envObstacles p s os).map (St.rename σ) := by
  induction os with
  | nil => intro s; rfl
  | cons o os ih =>
    intro s
    show (do let s' ← envObstacle (s.rename σ) (σ p) o; envObstacles (σ p) s' os) = _
    rw [ren_envObstacle]
    rw [show envObstacles p s (o :: os) = (do let s' ← envObstacle s p o; envObstacles p s' os) from rfl]
    cases envObstacle s p o with
    | error e => rfl
    | ok s' => exact ih s'

theorem ren_envLoop (σ : N ≃ N') (ps : List N) : ∀ s : St Wd,
    envLoop (s.rename σ) (ps.map σ) = (envLoop s ps).map (St.rename σ) := by
  induction ps with
  | nil => intro s; rfl
  | cons p ps ih =>
    intro s
    simp only [List.map_cons, envLoop]
    have h1 : lookup (s.rename σ).models (σ p) = (lookup s.models p).map id := lookup_renD σ id _ _
    rw [h1]
    cases lookup s.models p with
    | error e => rfl
    | ok m =>
      simp only [Except.map, bind, Except.bind, id]
      have hs : ({ s.rename σ with trace := (s.rename σ).trace ++ [.env (s.rename σ).time (σ p)] } : St (Wd.rename σ)) =
          St.rename σ { s with trace := s.trace ++ [.env s.time p] } := by
        simp [St.rename, Event.rename]
      have he := ren_envObstacles σ p (Wd.envQuery s.w (Wd.footprint m)) { s with trace := s.trace ++ [.env s.time p] }
      rw [hs]
      have he' : envObstacles (σ p) (St.rename σ { s with trace := s.trace ++ [.env s.time p] })
          ((Wd.rename σ).envQuery (s.rename σ).w ((Wd.rename σ).footprint m)) = _ := he
      rw [he']
      cases envObstacles p { s with trace := s.trace ++ [.env s.time p] } (Wd.envQuery s.w (Wd.footprint m)) with
      | error e => rfl
      | ok s' => exact ih s'

theorem ren_combinations (σ : N ≃ N') (l : List N) :
    combinations2 (l.map σ) = (combinations2 l).map (fun p => (σ p.1, σ p.2)) := by
  induction l with
  | nil => rfl
  | cons a l ih => simp [combinations2, ih, Function.comp_def]

theorem ren_checkPair (σ : N ≃ N') (s : St Wd) (a b : N) :
    checkPair (s.rename σ) (σ a) (σ b) = (checkPair s a b).map (St.rename σ) := by
  unfold checkPair
  have h1 : lookup (s.rename σ).models (σ a) = (lookup s.models a).map id := lookup_renD σ id _ _
  have h2 : lookup (s.rename σ).models (σ b) = (lookup s.models b).map id := lookup_renD σ id _ _
  rw [h1, h2]
  cases lookup s.models a with
  | error e => rfl
  | ok m1 =>
    cases lookup s.models b with
    | error e => rfl
    | ok m2 =>
      simp only [Except.map, bind, Except.bind, id]
      have ht : (Wd.rename σ).touch ((Wd.rename σ).footprint m1) ((Wd.rename σ).footprint m2) =
          Wd.touch (Wd.footprint m1) (Wd.footprint m2) := rfl
      rw [ht]
      have hr : (Wd.rename σ).resolve (s.rename σ).w (σ a) m1 (σ b) m2 (s.rename σ).time =
          Wd.resolve s.w a m1 b m2 s.time := by
        show Wd.resolve s.w (σ.symm (σ a)) m1 (σ.symm (σ b)) m2 s.time = _
        rw [σ.symm_apply_apply, σ.symm_apply_apply]
      rw [hr]
      split
      · have h3 := ren_reportOf (Wd := Wd) σ [a, b] [a, b] s.time (Wd.resolve s.w a m1 b m2 s.time).2
        have h3' : reportOf (Wd := Wd.rename σ) [σ a, σ b] [σ a, σ b] (s.rename σ).time
            (Wd.resolve s.w a m1 b m2 s.time).2 = _ := h3
        rw [h3']
        have hs : ({ s.rename σ with
            trace := (s.rename σ).trace ++ [.pair (s.rename σ).time (σ a) (σ b)]
            w := (Wd.resolve s.w a m1 b m2 s.time).1.1
            models := Dict.set (Dict.set (s.rename σ).models (σ a) (Wd.resolve s.w a m1 b m2 s.time).1.2.1) (σ b)
              (Wd.resolve s.w a m1 b m2 s.time).1.2.2 } : St (Wd.rename σ)) =
            St.rename σ { s with
              trace := s.trace ++ [.pair s.time a b]
              w := (Wd.resolve s.w a m1 b m2 s.time).1.1
              models := Dict.set (Dict.set s.models a (Wd.resolve s.w a m1 b m2 s.time).1.2.1) b
                (Wd.resolve s.w a m1 b m2 s.time).1.2.2 } := by
          simp only [St.rename]
          congr 1
          · have e1 : Dict.set (renD σ id s.models) (σ a) (Wd.resolve s.w a m1 b m2 s.time).1.2.1 = _ :=
              set_renD σ id s.models a _
            rw [e1]
            exact set_renD σ id _ b _
          · simp [Event.rename]
        rw [hs]
        cases reportOf (Wd := Wd) [a, b] [a, b] s.time (Wd.resolve s.w a m1 b m2 s.time).2 with
        | error e => rfl
        | ok rep =>
          cases rep with
          | none => rfl
          | some rep =>
            simp only [Except.map, Option.map, pure, Except.pure]
            rw [ren_record]
      · simp [pure, Except.pure, St.rename, Event.rename]

theorem ren_pairLoop (σ : N ≃ N') (l : List (N × N)) : ∀ s : St Wd,
    pairLoop (s.rename σ) (l.map (fun p => (σ p.1, σ p.2))) = (pairLoop s l).map (St.rename σ) := by
  induction l with
  | nil => intro s; rfl
  | cons p l ih =>
    intro s
    obtain ⟨a, b⟩ := p
    simp only [List.map_cons, pairLoop]
    rw [ren_checkPair]
    cases checkPair s a b with
    | error e => rfl
    | ok s' => exact ih s'

theorem ren_postUpdate [Add K] (σ : N ≃ N') (cfg : Cfg Wd) (s : St Wd) :
    postUpdate (cfg.rename σ) (s.rename σ) = (postUpdate cfg s).map (St.rename σ) := by
  unfold postUpdate
  have h1 : removeLoop ({ s.rename σ with time := (s.rename σ).time + (cfg.rename σ).dt } : St (Wd.rename σ))
      (cfg.rename σ).missions = (removeLoop { s with time := s.time + cfg.dt } cfg.missions).map (St.rename σ) :=
    ren_removeLoop σ cfg.missions { s with time := s.time + cfg.dt }
  simp only
  rw [h1]
  cases removeLoop { s with time := s.time + cfg.dt } cfg.missions with
  | error e => rfl
  | ok s2 =>
    simp only [Except.map, bind, Except.bind]
    rw [ren_termination]
    split
    · rfl
    · have h2 : envLoop ({ s2.rename σ with terminated := terminationCondition cfg s2 } : St (Wd.rename σ))
          (s2.rename σ).players =
          (envLoop { s2 with terminated := terminationCondition cfg s2 } s2.players).map (St.rename σ) :=
        ren_envLoop σ s2.players { s2 with terminated := terminationCondition cfg s2 }
      rw [h2]
      cases envLoop { s2 with terminated := terminationCondition cfg s2 } s2.players with
      | error e => rfl
      | ok s4 =>
        simp only [Except.map]
        have h3 : combinations2 (s4.rename σ).players = (combinations2 s4.players).map (fun p => (σ p.1, σ p.2)) :=
          ren_combinations σ s4.players
        rw [h3]
        exact ren_pairLoop σ _ s4

theorem ren_step [Add K] [Sub K] (σ : N ≃ N') (cfg : Cfg Wd) (s : St Wd) :
    step (cfg.rename σ) (s.rename σ) = (step cfg s).map (St.rename σ) := by
  unfold step
  rw [ren_preUpdate]
  cases preUpdate cfg s with
  | error e => rfl
  | ok s1 =>
    simp only [Except.map, bind, Except.bind]
    rw [ren_update]
    cases update cfg s1 with
    | error e => rfl
    | ok s2 => exact ren_postUpdate σ cfg s2

theorem ren_loop [Add K] [Sub K] (σ : N ≃ N') (cfg : Cfg Wd) (fuel : Nat) : ∀ s : St Wd,
    loop (cfg.rename σ) fuel (s.rename σ) = (loop cfg fuel s).map (Except.map (St.rename σ)) := by
  induction fuel with
  | zero =>
    intro s
    unfold loop
    have : (s.rename σ).terminated = s.terminated := rfl
    rw [this]
    split <;> rfl
  | succ fuel ih =>
    intro s
    unfold loop
    have : (s.rename σ).terminated = s.terminated := rfl
    rw [this]
    split
    · rfl
    · rw [ren_step]
      cases step cfg s with
      | error e => rfl
      | ok s' => exact ih s'

theorem ren_initLoop (σ : N ≃ N') (l : List N) : ∀ s : St Wd,
    initLoop (s.rename σ) (l.map σ) = (initLoop s l).map (St.rename σ) := by
  induction l with
  | nil => intro s; rfl
  | cons n ns ih =>
    intro s
    simp only [List.map_cons, initLoop]
    have h1 : lookup (s.rename σ).models (σ n) = (lookup s.models n).map id := lookup_renD σ id _ _
    have h2 : (Wd.rename σ).onInit (s.rename σ).w (σ n) = Wd.onInit s.w n := by
      show Wd.onInit s.w (σ.symm (σ n)) = _
      rw [σ.symm_apply_apply]
    rw [h1, h2]
    cases lookup s.models n with
    | error e => rfl
    | ok m =>
      simp only [Except.map, bind, Except.bind]
      cases Wd.onInit s.w n with
      | error e => rfl
      | ok w' =>
        simp only [liftU]
        have hs : ({ s.rename σ with w := w', logger := Dict.set (s.rename σ).logger (σ n) {} } : St (Wd.rename σ)) =
            St.rename σ { s with w := w', logger := Dict.set s.logger n {} } := by
          simp only [St.rename]
          congr 1
          exact set_renD σ (PlayerLogger.rename σ) s.logger n {}
        rw [hs]
        exact ih _

theorem ren_writeLog (σ : N ≃ N') (logger : Dict N (PlayerLogger Wd)) (l : List N) : ∀ log : Dict N (PlayerLog Wd),
    writeLog (renD σ (PlayerLogger.rename σ) logger) (l.map σ) (renD σ (PlayerLog.rename σ) log) =
      (writeLog logger l log).map (renD σ (PlayerLog.rename σ)) := by
  induction l with
  | nil => intro log; rfl
  | cons n ns ih =>
    intro log
    simp only [List.map_cons, writeLog]
    rw [lookup_renD]
    cases lookup logger n with
    | error e => rfl
    | ok lg =>
      simp only [Except.map, bind, Except.bind]
      have h : (PlayerLogger.rename σ lg).asSequence = lg.asSequence.map (PlayerLog.rename σ) := by
        obtain ⟨b1, b2, b3, b4⟩ := lg
        simp only [PlayerLogger.asSequence, PlayerLogger.rename]
        cases b1.asSequence <;> cases b2.asSequence <;> cases b3.asSequence <;> cases b4.asSequence <;> rfl
      rw [h]
      cases lg.asSequence with
      | error e => rfl
      | ok pl =>
        simp only [Except.map]
        rw [set_renD]
        exact ih _

/-! ## C145 -/

/-- **C145.** Renaming the players (with their missions, sensors and agents) renames them in the result and changes nothing
else: the run ends or not after the same number of steps, raises the same exception, or returns the same final context, log,
reports and calls under the new names. -/
theorem C145_rename [Add K] [Sub K] (σ : N ≃ N') (cfg : Cfg Wd) (fuel : Nat) (s : St Wd) (log : Dict N (PlayerLog Wd)) :
    run (cfg.rename σ) fuel (s.rename σ) (renD σ (PlayerLog.rename σ) log) =
      (run cfg fuel s log).map (Except.map (fun r => (r.1.rename σ, renD σ (PlayerLog.rename σ) r.2))) := by
  unfold run
  have h1 : initLoop (s.rename σ) (s.rename σ).players = (initLoop s s.players).map (St.rename σ) := ren_initLoop σ _ s
  rw [h1]
  cases initLoop s s.players with
  | error e => rfl
  | ok s1 =>
    simp only [Except.map]
    rw [ren_loop]
    cases loop cfg fuel s1 with
    | none => rfl
    | some r =>
      cases r with
      | error e => rfl
      | ok s2 =>
        simp only [Option.map, Except.map]
        have h2 : writeLog (s2.rename σ).logger (Dict.keys (s2.rename σ).models) (renD σ (PlayerLog.rename σ) log) =
            (writeLog s2.logger (Dict.keys s2.models) log).map (renD σ (PlayerLog.rename σ)) := by
          have hk : Dict.keys (s2.rename σ).models = (Dict.keys s2.models).map σ := keys_renD σ id s2.models
          rw [hk]
          exact ren_writeLog σ s2.logger _ log
        rw [h2]
        cases writeLog s2.logger (Dict.keys s2.models) log with
        | error e => rfl
        | ok l => rfl

/-- **C145.** In particular the log of a player is the same under its new name, and reports name the same players. -/
theorem C145_log [Add K] [Sub K] (σ : N ≃ N') (cfg : Cfg Wd) (fuel : Nat) (s s1 : St Wd) (l1 : Dict N (PlayerLog Wd))
    (h : run cfg fuel s [] = some (.ok (s1, l1))) :
    ∃ s2 l2, run (cfg.rename σ) fuel (s.rename σ) [] = some (.ok (s2, l2)) ∧ s2.time = s1.time ∧
      s2.players = s1.players.map σ ∧ s2.reports.map (fun r => (r.players, r.atTime, r.data)) =
        s1.reports.map (fun r => (r.players.map σ, r.atTime, r.data)) ∧
      ∀ n, (Dict.get? l2 (σ n)).map (fun l => (l.states, l.commands, l.extra, l.info)) =
        (Dict.get? l1 n).map (fun l => (l.states, l.commands, l.extra, l.info)) := by
  have h' := C145_rename σ cfg fuel s []
  rw [h] at h'
  refine ⟨_, _, h', rfl, rfl, by simp [St.rename, Report.rename, Function.comp_def], ?_⟩
  intro n
  rw [get?_renD]
  cases Dict.get? l1 n <;> rfl

/-! ## Example -/

namespace Toy

-- the names of the cars 0 and 1 exchanged: car 1 is now the one that starts at 0 and drives forwards
example : (start.rename (Equiv.swap 0 1)).players = [1, 0, 2] ∧
    (start.rename (Equiv.swap 0 1)).models = [(1, (0 : ℚ)), (0, (5 : ℚ)), (2, (20 : ℚ))] := by decide +kernel

example : ∃ s2 l2, run (cfg.rename (Equiv.swap 0 1)) 50 (start.rename (Equiv.swap 0 1)) [] = some (.ok (s2, l2)) ∧
    s2.players = [1, 0] := by
  obtain ⟨s2, l2, h, -, hp, -⟩ := C145_log (Equiv.swap 0 1) cfg 50 start result.1 result.2 run_eq
  exact ⟨s2, l2, h, hp.trans (by decide +kernel)⟩

end Toy

end Sim
end Verif
