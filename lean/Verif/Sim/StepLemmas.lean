import Verif.Sim.Lemmas

/-!
# Effect of removing players, collision checks and a whole step
-/

set_option linter.unusedSectionVars false

namespace Verif
namespace Sim

variable {N K : Type} [DecidableEq N] [Field K] [LinearOrder K] {Wd : World N K}

/-! ## Removing finished players -/

/-- Effect of the loop over the missions `gs`, removing exactly the players `rem`. -/
structure RemoveEffect (s s' : St Wd) (gs : Dict N Wd.G) (rem : List N) : Prop where
  time : s'.time = s.time
  terminated : s'.terminated = s.terminated
  reports : s'.reports = s.reports
  firstColl : s'.firstColl = s.firstColl
  lastObs : s'.lastObs = s.lastObs
  lastCmdTs : s'.lastCmdTs = s.lastCmdTs
  lastCmds : s'.lastCmds = s.lastCmds
  models : s'.models = s.models
  players : s'.players = s.players.filter (fun n => decide (n ∉ rem))
  sub : ∀ p ∈ rem, p ∈ s.players ∧ p ∈ Dict.keys gs
  removed : ∀ p ∈ rem, ∃ m lg g w w', Dict.get? s.models p = some m ∧
    Dict.get? s.logger p = some lg ∧
    Dict.get? s'.logger p =
      some { lg with states := Builder.push lg.states s.time (Wd.getState m) } ∧
    (p, g) ∈ gs ∧ Wd.fulfilled w p g (Wd.getState m) s.time = .ok (w', true)
  kept : ∀ p g, (p, g) ∈ gs → p ∈ s.players → p ∉ rem → ∃ m w w', Dict.get? s.models p = some m ∧
    Wd.fulfilled w p g (Wd.getState m) s.time = .ok (w', false)
  others : ∀ p, p ∉ rem → Dict.get? s'.logger p = Dict.get? s.logger p
  trace : ∃ evs, s'.trace = s.trace ++ evs ∧
    (∀ e ∈ evs, ∃ p m, p ∈ s.players ∧ Dict.get? s.models p = some m ∧
      e = .goal s.time p (Wd.getState m)) ∧
    ∀ p ∈ Dict.keys gs, p ∈ s.players → ∃ m, Dict.get? s.models p = some m ∧
      Event.goal s.time p (Wd.getState m) ∈ evs

/-- Precondition for logging the last state of a player. -/
def CanLog (s : St Wd) (n : N) : Prop :=
  n ∈ Dict.keys s.models ∧
    ∃ lg, Dict.get? s.logger n = some lg ∧ ∀ u ∈ lg.states.ts, u < s.time

theorem removeEffect_nil (s : St Wd) : RemoveEffect s s [] [] :=
  ⟨rfl, rfl, rfl, rfl, rfl, rfl, rfl, rfl, by simp, by simp, by simp, by simp, by simp,
    [], by simp, by simp, by simp [Dict.keys]⟩

theorem safe_removePlayer (s : St Wd) (p : N) (g : Wd.G) (m : Wd.M) (lg : PlayerLogger Wd)
    (hp : p ∈ s.players) (hm : Dict.get? s.models p = some m)
    (hlg : Dict.get? s.logger p = some lg) (hts : ∀ u ∈ lg.states.ts, u < s.time) :
    Safe (fun s' => ∃ w' b, Wd.fulfilled s.w p g (Wd.getState m) s.time = .ok (w', b) ∧
      s' = if b = true then
        { s with
          w := w'
          trace := s.trace ++ [.goal s.time p (Wd.getState m)]
          logger := Dict.set s.logger p
            { lg with states := Builder.push lg.states s.time (Wd.getState m) }
          players := s.players.erase p }
        else { s with w := w', trace := s.trace ++ [.goal s.time p (Wd.getState m)] })
      (removePlayer s p g) := by
  unfold removePlayer
  rw [if_pos hp]
  refine (safe_lookup hm).bind ?_
  rintro m rfl
  refine (safe_liftU _).bind ?_
  rintro ⟨w', b⟩ hf
  cases b with
  | false => exact ⟨w', false, hf, rfl⟩
  | true =>
    simp only [if_true]
    refine (safe_lookup hlg).bind ?_
    rintro lg rfl
    refine (safe_addLog _ _ _ hts).bind ?_
    rintro _ rfl
    exact ⟨w', true, hf, rfl⟩

theorem safe_removeLoop (gs : Dict N Wd.G) : ∀ s : St Wd, s.players.Nodup → Dict.Wf gs →
    (∀ n ∈ s.players, CanLog s n) →
    Safe (fun s' => ∃ rem, RemoveEffect s s' gs rem) (removeLoop s gs) := by
  induction gs with
  | nil => intro s _ _ _; exact ⟨[], removeEffect_nil s⟩
  | cons pg rest ih =>
    obtain ⟨p, g⟩ := pg
    intro s hnd hgs hcan
    have hgs' : p ∉ Dict.keys rest ∧ Dict.Wf rest := by
      simpa [Dict.Wf, Dict.keys, List.nodup_cons] using hgs
    unfold removeLoop
    by_cases hp : p ∈ s.players
    · obtain ⟨hmk, lg, hlg, hts⟩ := hcan p hp
      obtain ⟨m, hm⟩ := (Dict.mem_keys_iff _ _).mp hmk
      refine (safe_removePlayer s p g m lg hp hm hlg hts).bind ?_
      rintro s1 ⟨w', b, hf, rfl⟩
      cases b with
      | false =>
        refine (ih { s with w := w', trace := s.trace ++ [.goal s.time p (Wd.getState m)] }
          hnd hgs'.2 hcan).mono ?_
        rintro s' ⟨rem, e⟩
        have hprem : p ∉ rem := fun h => hgs'.1 (e.sub p h).2
        refine ⟨rem, ⟨e.time, e.terminated, e.reports, e.firstColl, e.lastObs, e.lastCmdTs,
          e.lastCmds, e.models, e.players, ?_, ?_, ?_, e.others, ?_⟩⟩
        · intro q hq
          obtain ⟨h1, h2⟩ := e.sub q hq
          exact ⟨h1, by simp only [Dict.keys, List.map_cons, List.mem_cons]; exact Or.inr h2⟩
        · intro q hq
          obtain ⟨m1, lg1, g1, w1, w2, h1, h2, h3, h4, h5⟩ := e.removed q hq
          exact ⟨m1, lg1, g1, w1, w2, h1, h2, h3, List.mem_cons_of_mem _ h4, h5⟩
        · intro q g' hqg hq hqr
          rcases List.mem_cons.mp hqg with h | h
          · injection h with h1 h2; subst h1 h2
            exact ⟨m, _, _, hm, hf⟩
          · exact e.kept q g' h hq hqr
        · obtain ⟨evs, h1, h2, h3⟩ := e.trace
          refine ⟨.goal s.time p (Wd.getState m) :: evs, by rw [h1]; simp, ?_, ?_⟩
          · intro ev hev
            rcases List.mem_cons.mp hev with rfl | hev
            · exact ⟨p, m, hp, hm, rfl⟩
            · exact h2 ev hev
          · intro q hq hqp
            simp only [Dict.keys, List.map_cons, List.mem_cons] at hq
            rcases hq with rfl | hq
            · exact ⟨m, hm, by simp⟩
            · obtain ⟨m1, a, b⟩ := h3 q hq hqp
              exact ⟨m1, a, List.mem_cons_of_mem _ b⟩
      | true =>
        rw [if_pos rfl]
        have hne : ∀ n, n ∈ s.players.erase p → n ≠ p ∧ n ∈ s.players := by
          intro n hn
          exact (List.Nodup.mem_erase_iff hnd).mp hn
        refine (ih _ (hnd.erase p) hgs'.2 ?_).mono ?_
        · intro n hn
          obtain ⟨h1, h2⟩ := hne n hn
          obtain ⟨c1, lg1, c2, c3⟩ := hcan n h2
          exact ⟨c1, lg1, by rw [← c2]; exact Dict.get?_set_ne _ (Ne.symm h1) _, c3⟩
        · rintro s' ⟨rem, e⟩
          have hprem : p ∉ rem := fun h => hgs'.1 (e.sub p h).2
          refine ⟨p :: rem, ⟨e.time, e.terminated, e.reports, e.firstColl, e.lastObs, e.lastCmdTs,
            e.lastCmds, e.models, ?_, ?_, ?_, ?_, ?_, ?_⟩⟩
          · rw [e.players]
            simp only
            rw [hnd.erase_eq_filter, List.filter_filter]
            apply List.filter_congr
            intro x _
            simp only [List.mem_cons, not_or, Bool.decide_and, ne_eq]
            by_cases hx : x = p <;> simp [hx]
          · intro q hq
            rcases List.mem_cons.mp hq with rfl | hq
            · exact ⟨hp, by simp [Dict.keys]⟩
            · obtain ⟨h1, h2⟩ := e.sub q hq
              exact ⟨(hne q h1).2, by simp only [Dict.keys, List.map_cons, List.mem_cons]; exact Or.inr h2⟩
          · intro q hq
            rcases List.mem_cons.mp hq with rfl | hq
            · refine ⟨m, lg, g, _, _, hm, hlg, ?_, by simp, hf⟩
              rw [e.others q hprem]; exact Dict.get?_set_self _ _ _
            · obtain ⟨m1, lg1, g1, w1, w2, h1, h2, h3, h4, h5⟩ := e.removed q hq
              have hqp : q ≠ p := fun h => hprem (h ▸ hq)
              refine ⟨m1, lg1, g1, w1, w2, h1, ?_, h3, List.mem_cons_of_mem _ h4, h5⟩
              rw [← h2]; exact (Dict.get?_set_ne _ (Ne.symm hqp) _).symm
          · intro q g' hqg hq hqr
            simp only [List.mem_cons, not_or] at hqr
            rcases List.mem_cons.mp hqg with h | h
            · injection h with h1 h2; exact absurd h1 hqr.1
            · exact e.kept q g' h ((List.Nodup.mem_erase_iff hnd).mpr ⟨hqr.1, hq⟩) hqr.2
          · intro q hq
            simp only [List.mem_cons, not_or] at hq
            rw [e.others q hq.2]; exact Dict.get?_set_ne _ (Ne.symm hq.1) _
          · obtain ⟨evs, h1, h2, h3⟩ := e.trace
            refine ⟨.goal s.time p (Wd.getState m) :: evs, by rw [h1]; simp, ?_, ?_⟩
            · intro ev hev
              rcases List.mem_cons.mp hev with rfl | hev
              · exact ⟨p, m, hp, hm, rfl⟩
              · obtain ⟨q, m1, h3, h4, h5⟩ := h2 ev hev
                exact ⟨q, m1, (hne q h3).2, h4, h5⟩
            · intro q hq hqp
              simp only [Dict.keys, List.map_cons, List.mem_cons] at hq
              rcases hq with rfl | hq
              · exact ⟨m, hm, by simp⟩
              · have hqne : q ≠ p := fun h => hgs'.1 (h ▸ hq)
                obtain ⟨m1, a, b⟩ := h3 q hq ((List.Nodup.mem_erase_iff hnd).mpr ⟨hqne, hqp⟩)
                exact ⟨m1, a, List.mem_cons_of_mem _ b⟩
    · unfold removePlayer
      rw [if_neg hp]
      refine (ih s hnd hgs'.2 hcan).mono ?_
      rintro s' ⟨rem, e⟩
      refine ⟨rem, ⟨e.time, e.terminated, e.reports, e.firstColl, e.lastObs, e.lastCmdTs,
        e.lastCmds, e.models, e.players, ?_, ?_, ?_, e.others, ?_⟩⟩
      · intro q hq
        obtain ⟨h1, h2⟩ := e.sub q hq
        exact ⟨h1, by simp only [Dict.keys, List.map_cons, List.mem_cons]; exact Or.inr h2⟩
      · intro q hq
        obtain ⟨m1, lg1, g1, w1, w2, h1, h2, h3, h4, h5⟩ := e.removed q hq
        exact ⟨m1, lg1, g1, w1, w2, h1, h2, h3, List.mem_cons_of_mem _ h4, h5⟩
      · intro q g' hqg hq hqr
        rcases List.mem_cons.mp hqg with h | h
        · injection h with h1 h2; subst h1; exact absurd hq hp
        · exact e.kept q g' h hq hqr
      · obtain ⟨evs, h1, h2, h3⟩ := e.trace
        refine ⟨evs, h1, h2, ?_⟩
        intro q hq hqp
        simp only [Dict.keys, List.map_cons, List.mem_cons] at hq
        rcases hq with rfl | hq
        · exact absurd hqp hp
        · exact h3 q hq hqp

/-! ## Collision checks -/

/-- The earlier of a possibly infinite time and a time. -/
def minOpt (a : Option K) (t : K) : K :=
  match a with
  | none => t
  | some u => min u t

/-- A report is about the environment and one of the players `ps` (only the player, if the collision
could not be resolved), or about two of them. -/
def About (ps : List N) (r : Report Wd) : Prop :=
  (∃ p ∈ ps, (r.players = [p] ∧ r.data = none) ∨
    (r.players = [p, Wd.env] ∧ r.data.isSome = true)) ∨
  (∃ a b, a ∈ ps ∧ b ∈ ps ∧ r.players = [a, b])

/-- Effect of collision checks: new reports `rs` all stamped with the current time and about active
players only; the events `evs`. -/
structure CollEffect (s s' : St Wd) (rs : List (Report Wd)) (evs : List (Event Wd)) : Prop where
  players : s'.players = s.players
  time : s'.time = s.time
  terminated : s'.terminated = s.terminated
  lastObs : s'.lastObs = s.lastObs
  lastCmdTs : s'.lastCmdTs = s.lastCmdTs
  lastCmds : s'.lastCmds = s.lastCmds
  logger : s'.logger = s.logger
  keys : Dict.keys s'.models = Dict.keys s.models
  models : ∀ n, n ∉ s.players → Dict.get? s'.models n = Dict.get? s.models n
  reports : s'.reports = s.reports ++ rs
  stamped : ∀ r ∈ rs, r.atTime = s.time ∧ About s.players r
  first : s'.firstColl = if rs.isEmpty then s.firstColl else some (minOpt s.firstColl s.time)
  trace : s'.trace = s.trace ++ evs

theorem CollEffect.refl (s : St Wd) : CollEffect s s [] [] :=
  ⟨rfl, rfl, rfl, rfl, rfl, rfl, rfl, rfl, fun _ _ => rfl, by simp, by simp, rfl, by simp⟩

theorem CollEffect.trans {s1 s2 s3 : St Wd} {r1 r2 : List (Report Wd)} {e1 e2 : List (Event Wd)}
    (h1 : CollEffect s1 s2 r1 e1) (h2 : CollEffect s2 s3 r2 e2) :
    CollEffect s1 s3 (r1 ++ r2) (e1 ++ e2) := by
  refine ⟨h2.players.trans h1.players, h2.time.trans h1.time, h2.terminated.trans h1.terminated,
    h2.lastObs.trans h1.lastObs, h2.lastCmdTs.trans h1.lastCmdTs, h2.lastCmds.trans h1.lastCmds,
    h2.logger.trans h1.logger, h2.keys.trans h1.keys, ?_, ?_, ?_, ?_, ?_⟩
  · intro n hn
    rw [h2.models n (by rw [h1.players]; exact hn), h1.models n hn]
  · rw [h2.reports, h1.reports, List.append_assoc]
  · intro r hr
    rcases List.mem_append.mp hr with hr | hr
    · exact h1.stamped r hr
    · have := h2.stamped r hr
      rw [h1.time, h1.players] at this; exact this
  · rw [h2.first, h1.first, h1.time]
    cases r1 <;> cases r2 <;> simp [minOpt]
    cases s1.firstColl <;> simp
  · rw [h2.trace, h1.trace, List.append_assoc]

theorem safe_reportOf (ps qs : List N) (t : K) (o : Except Err (Option Wd.D)) :
    Safe (fun r => ∀ rep, r = some rep → rep.atTime = t ∧
        ((rep.players = ps ∧ rep.data.isSome = true) ∨ (rep.players = qs ∧ rep.data = none)))
      (reportOf (Wd := Wd) ps qs t o) := by
  unfold reportOf
  split
  · intro rep h; cases h
  · intro rep h; cases h; exact ⟨rfl, Or.inl ⟨rfl, rfl⟩⟩
  · intro rep h; cases h; exact ⟨rfl, Or.inr ⟨rfl, rfl⟩⟩
  · trivial

/-- Recording a report changes nothing else. -/
theorem collEffect_record (s : St Wd) (r : Report Wd) (ht : r.atTime = s.time)
    (hp : About s.players r) :
    CollEffect s (recordReport s r) [r] [] := by
  refine ⟨rfl, rfl, rfl, rfl, rfl, rfl, rfl, rfl, fun _ _ => rfl, rfl, ?_, ?_, by simp [recordReport]⟩
  · intro r' hr'
    simp at hr'; subst hr'; exact ⟨ht, hp⟩
  · simp only [recordReport, List.isEmpty_cons, Bool.false_eq_true, if_false, ht]
    cases s.firstColl with
    | none => rfl
    | some u =>
      simp only [minOpt]
      split
      · rename_i h; rw [min_eq_right h.le]
      · rename_i h; rw [min_eq_left (not_lt.mp h)]

/-- Replacing the model of an active player. -/
theorem collEffect_set (s : St Wd) (p : N) (m : Wd.M) (w : Wd.W) (hp : p ∈ s.players)
    (hk : p ∈ Dict.keys s.models) :
    CollEffect s { s with w := w, models := Dict.set s.models p m } [] [] := by
  refine ⟨rfl, rfl, rfl, rfl, rfl, rfl, rfl, ?_, ?_, by simp, by simp, rfl, by simp⟩
  · simp only; rw [Dict.keys_set, if_pos hk]
  · intro n hn
    exact Dict.get?_set_ne _ (fun h : p = n => hn (h ▸ hp)) _

theorem collEffect_trace (s : St Wd) (e : Event Wd) :
    CollEffect s { s with trace := s.trace ++ [e] } [] [e] :=
  ⟨rfl, rfl, rfl, rfl, rfl, rfl, rfl, rfl, fun _ _ => rfl, by simp, by simp, rfl, rfl⟩

theorem safe_envObstacle (s : St Wd) (p : N) (o : Wd.O) (hp : p ∈ s.players)
    (hk : p ∈ Dict.keys s.models) :
    Safe (fun s' => ∃ rs, CollEffect s s' rs []) (envObstacle s p o) := by
  obtain ⟨m, hm⟩ := (Dict.mem_keys_iff _ _).mp hk
  unfold envObstacle
  refine (safe_lookup hm).bind ?_
  rintro m rfl
  have h1 := collEffect_set s p (Wd.resolveEnv s.w p m o s.time).1.2
    (Wd.resolveEnv s.w p m o s.time).1.1 hp hk
  refine (safe_reportOf _ _ _ _).bind ?_
  intro rep hrep
  cases rep with
  | none => exact ⟨_, h1⟩
  | some r =>
    obtain ⟨hr1, hr2⟩ := hrep r rfl
    simp only
    split
    · refine ⟨[r], ?_⟩
      have := h1.trans (collEffect_record _ r (by rw [hr1])
        (Or.inl ⟨p, hp, hr2.symm.imp id id⟩))
      simpa using this
    · exact ⟨_, h1⟩

theorem safe_envObstacles (p : N) (os : List Wd.O) : ∀ s : St Wd, p ∈ s.players →
    p ∈ Dict.keys s.models →
    Safe (fun s' => ∃ rs, CollEffect s s' rs []) (envObstacles p s os) := by
  induction os with
  | nil => intro s _ _; exact ⟨[], CollEffect.refl s⟩
  | cons o os ih =>
    intro s hp hk
    unfold envObstacles
    refine (safe_envObstacle s p o hp hk).bind ?_
    rintro s1 ⟨rs, h1⟩
    refine (ih s1 (by rw [h1.players]; exact hp) (by rw [h1.keys]; exact hk)).mono ?_
    rintro s2 ⟨rs2, h2⟩
    exact ⟨rs ++ rs2, by simpa using h1.trans h2⟩

theorem safe_envLoop (ps : List N) : ∀ s : St Wd, (∀ p ∈ ps, p ∈ s.players) →
    (∀ p ∈ ps, p ∈ Dict.keys s.models) →
    Safe (fun s' => ∃ rs, CollEffect s s' rs (ps.map (fun p => .env s.time p))) (envLoop s ps) := by
  induction ps with
  | nil => intro s _ _; exact ⟨[], CollEffect.refl s⟩
  | cons p ps ih =>
    intro s hp hk
    obtain ⟨m, hm⟩ := (Dict.mem_keys_iff _ _).mp (hk p (by simp))
    unfold envLoop
    refine (safe_lookup hm).bind ?_
    rintro m rfl
    have h0 := collEffect_trace s (.env s.time p)
    refine (safe_envObstacles p (Wd.envQuery s.w (Wd.footprint m))
      { s with trace := s.trace ++ [.env s.time p] } (hp p (by simp)) (hk p (by simp))).bind ?_
    rintro s1 ⟨rs, h1⟩
    have h01 := h0.trans h1
    refine (ih s1 (fun q hq => by rw [h01.players]; exact hp q (by simp [hq]))
      (fun q hq => by rw [h01.keys]; exact hk q (by simp [hq]))).mono ?_
    rintro s2 ⟨rs2, h2⟩
    refine ⟨rs ++ rs2, ?_⟩
    have := h01.trans h2
    rw [h01.time] at this
    simpa using this

theorem safe_checkPair (s : St Wd) (a b : N) (ha : a ∈ s.players) (hb : b ∈ s.players)
    (hka : a ∈ Dict.keys s.models) (hkb : b ∈ Dict.keys s.models) :
    Safe (fun s' => ∃ rs, CollEffect s s' rs [.pair s.time a b]) (checkPair s a b) := by
  obtain ⟨m1, hm1⟩ := (Dict.mem_keys_iff _ _).mp hka
  obtain ⟨m2, hm2⟩ := (Dict.mem_keys_iff _ _).mp hkb
  unfold checkPair
  refine (safe_lookup hm1).bind ?_
  rintro m1 rfl
  refine (safe_lookup hm2).bind ?_
  rintro m2 rfl
  have h0 := collEffect_trace s (.pair s.time a b)
  simp only
  split
  · have h1 := collEffect_set ({ s with trace := s.trace ++ [.pair s.time a b] } : St Wd) a (Wd.resolve s.w a m1 b m2 s.time).1.2.1
      (Wd.resolve s.w a m1 b m2 s.time).1.1 ha hka
    have h01 := h0.trans h1
    have h2 := collEffect_set _ b (Wd.resolve s.w a m1 b m2 s.time).1.2.2
      (Wd.resolve s.w a m1 b m2 s.time).1.1 (by rw [h01.players]; exact hb)
      (by rw [h01.keys]; exact hkb)
    have h012 := h01.trans h2
    refine (safe_reportOf _ _ _ _).bind ?_
    intro rep hrep
    cases rep with
    | none => exact ⟨_, h012⟩
    | some r =>
      obtain ⟨hr1, hr2⟩ := hrep r rfl
      refine ⟨[r], ?_⟩
      have := h012.trans (collEffect_record _ r (by rw [hr1])
        (Or.inr ⟨a, b, ha, hb, hr2.elim And.left And.left⟩))
      simpa using this
  · exact ⟨[], h0⟩

theorem safe_pairLoop (l : List (N × N)) : ∀ s : St Wd,
    (∀ p ∈ l, p.1 ∈ s.players ∧ p.2 ∈ s.players) →
    (∀ p ∈ l, p.1 ∈ Dict.keys s.models ∧ p.2 ∈ Dict.keys s.models) →
    Safe (fun s' => ∃ rs, CollEffect s s' rs (l.map (fun p => .pair s.time p.1 p.2)))
      (pairLoop s l) := by
  induction l with
  | nil => intro s _ _; exact ⟨[], CollEffect.refl s⟩
  | cons p l ih =>
    obtain ⟨a, b⟩ := p
    intro s hp hk
    unfold pairLoop
    refine (safe_checkPair s a b (hp (a, b) (by simp)).1 (hp (a, b) (by simp)).2 (hk (a, b) (by simp)).1
      (hk (a, b) (by simp)).2).bind ?_
    rintro s1 ⟨rs, h1⟩
    refine (ih s1 (fun q hq => by rw [h1.players]; exact hp q (by simp [hq]))
      (fun q hq => by rw [h1.keys]; exact hk q (by simp [hq]))).mono ?_
    rintro s2 ⟨rs2, h2⟩
    refine ⟨rs ++ rs2, ?_⟩
    have := h1.trans h2
    rw [h1.time] at this
    simpa using this

theorem mem_combinations2 (l : List N) (p : N × N) (h : p ∈ combinations2 l) :
    p.1 ∈ l ∧ p.2 ∈ l := by
  induction l with
  | nil => simp [combinations2] at h
  | cons a l ih =>
    simp only [combinations2, List.mem_append, List.mem_map] at h
    rcases h with ⟨b, hb, rfl⟩ | h
    · exact ⟨by simp, by simp [hb]⟩
    · exact ⟨List.mem_cons_of_mem _ (ih h).1, List.mem_cons_of_mem _ (ih h).2⟩

/-! ## A whole step -/

/-- Everything that one execution of the loop body does. -/
structure StepEffect (cfg : Cfg Wd) (s s' : St Wd) : Prop where
  intro ::
  /-- the intermediate states: after `pre_update`, the loop of `update`, the removal and the
  collision checks -/
  eff : ∃ (o : Obs N K Wd.X Wd.P) (s1 s2 s3 s4 : St Wd)
    (es : List (N × Obs N K Wd.X Wd.P × Wd.M × Wd.C)) (rem : List N) (rs : List (Report Wd)),
    s1 = { s with lastObs := o } ∧
    (need cfg s = true → IsSnapshot s.models s.players s.time o) ∧
    LoopEffect cfg (need cfg s) s1 s2 s.players es ∧
    s3 = { s2 with
      lastCmdTs := if need cfg s then some s.time else s.lastCmdTs
      time := s.time + cfg.dt } ∧
    RemoveEffect s3 s4 cfg.missions rem ∧
    CollEffect { s4 with terminated := terminationCondition cfg s4 } s' rs
      (if terminationCondition cfg s4 then [] else
        s4.players.map (fun p => .env s4.time p) ++
          (combinations2 s4.players).map (fun p => .pair s4.time p.1 p.2)) ∧
    (terminationCondition cfg s4 = true → rs = [] ∧
      s' = { s4 with terminated := terminationCondition cfg s4 })

/-- Precondition of a step. -/
structure CanStep (cfg : Cfg Wd) (s : St Wd) : Prop where
  nodup : s.players.Nodup
  missions : Dict.Wf cfg.missions
  can : ∀ n ∈ s.players, CanUpdate (need cfg s) s n

theorem safe_step [IsStrictOrderedRing K] (cfg : Cfg Wd) (s : St Wd) (h : CanStep cfg s)
    (hdt : 0 < cfg.dt) : Safe (fun s' => StepEffect cfg s s') (step cfg s) := by
  unfold step
  refine (safe_preUpdate cfg s (fun n hn => (h.can n hn).model) h.nodup).bind ?_
  rintro s1 ⟨o, rfl, hsnap⟩
  have hn : need cfg ({ s with lastObs := o } : St Wd) = need cfg s := need_congr cfg rfl rfl
  refine (safe_update cfg { s with lastObs := o } h.nodup ?_).bind ?_
  · intro n hnp
    rw [hn]
    obtain ⟨a, b, c⟩ := h.can n hnp
    exact ⟨a, b, c⟩
  · rintro s2' ⟨s2, es, he, rfl⟩
    rw [hn] at he
    unfold postUpdate
    simp only [hn]
    have hpl : s2.players = s.players := he.frame.players
    have htm : s2.time = s.time := he.frame.time
    have hcl : ∀ n ∈ s.players, n ∈ Dict.keys s2.models ∧
        ∃ lg, Dict.get? s2.logger n = some lg ∧ ∀ u ∈ lg.states.ts, u < s.time + cfg.dt := by
      intro n hnp
      refine ⟨by rw [he.keys]; exact (h.can n hnp).model, ?_⟩
      have : n ∈ es.map Prod.fst := by rw [he.names]; exact hnp
      obtain ⟨e, hmem, rfl⟩ := List.mem_map.mp this
      obtain ⟨m', lg, lg', q1, q2, q3, q4, q5, q6, q7, q8, q9⟩ := he.steps e hmem
      refine ⟨lg', q5, ?_⟩
      rw [q6]
      intro u hu
      obtain ⟨lg0, r1, r2, _⟩ := (h.can e.1 hnp).logger
      have : lg0 = lg := by
        have q4' : Dict.get? s.logger e.1 = some lg := q4
        rw [r1] at q4'; injection q4'
      subst this
      simp only [Builder.push, List.mem_append, List.mem_singleton] at hu
      rcases hu with hu | rfl
      · linarith [r2 u hu]
      · show s.time < s.time + cfg.dt
        linarith
    refine (safe_removeLoop cfg.missions _ (by simp only [hpl]; exact h.nodup) h.missions ?_).bind ?_
    · intro n hnp
      simp only [hpl] at hnp
      obtain ⟨a, lg, b, c⟩ := hcl n hnp
      exact ⟨a, lg, b, by simp only [htm]; exact c⟩
    · rintro s4 ⟨rem, hr⟩
      have hs3 : RemoveEffect ({ s2 with
          lastCmdTs := if need cfg s then some s.time else s.lastCmdTs
          time := s.time + cfg.dt } : St Wd) s4 cfg.missions rem := by
        rw [htm] at hr; exact hr
      cases hterm : terminationCondition cfg s4 with
      | true =>
        simp only [if_true]
        refine ⟨o, _, s2, _, s4, es, rem, [], rfl, hsnap, he, rfl, hs3, ?_, ?_⟩
        · rw [hterm]; exact CollEffect.refl _
        · intro _; rw [hterm]; exact ⟨rfl, rfl⟩
      | false =>
        simp only [Bool.false_eq_true, if_false]
        have hkeys4 : ∀ p ∈ s4.players, p ∈ Dict.keys s4.models := by
          intro p hp
          rw [hr.players] at hp
          rw [hr.models]
          have := (List.mem_filter.mp hp).1
          simp only [hpl] at this
          exact (hcl p this).1
        refine (safe_envLoop s4.players { s4 with terminated := false } (fun p hp => hp) hkeys4).bind ?_
        rintro s5 ⟨rs1, h5⟩
        refine (safe_pairLoop (combinations2 s5.players) s5 (mem_combinations2 _) ?_).mono ?_
        · intro p hp
          obtain ⟨a, b⟩ := mem_combinations2 _ p hp
          rw [h5.players] at a b
          rw [h5.keys]
          exact ⟨hkeys4 _ a, hkeys4 _ b⟩
        · rintro s6 ⟨rs2, h6⟩
          refine ⟨o, _, s2, _, s4, es, rem, rs1 ++ rs2, rfl, hsnap, he, rfl, hs3, ?_, ?_⟩
          · rw [hterm]
            have := h5.trans h6
            simp only [h5.players, h5.time] at this
            simpa using this
          · intro h'; rw [hterm] at h'; cases h'

end Sim
end Verif
