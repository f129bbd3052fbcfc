import Verif.Sim.StepLemmas

/-!
# Invariants of the simulator: what is kept by every part of a step is kept by the step
-/

set_option linter.unusedSectionVars false

namespace Verif
namespace Sim

theorem bind_ok {ε α β : Type} {x : Except ε α} {f : α → Except ε β} {b : β} :
    x >>= f = .ok b ↔ ∃ a, x = .ok a ∧ f a = .ok b := by
  cases x with
  | ok a => simp [bind, Except.bind]
  | error e => simp [bind, Except.bind]

theorem liftU_ok {α : Type} {x : Except Err α} {a : α} : liftU x = .ok a ↔ x = .ok a := by
  cases x <;> simp [liftU]

theorem lookup_ok {N α : Type} [DecidableEq N] {d : Dict N α} {n : N} {a : α} :
    lookup d n = .ok a ↔ Dict.get? d n = some a := by
  unfold lookup
  cases Dict.get? d n <;> simp

variable {N K : Type} [DecidableEq N] [Field K] [LinearOrder K] {Wd : World N K}

/-- `P` is kept by everything that follows the increase of the time in a step. -/
structure PostClosed (P : St Wd → Prop) : Prop where
  nodup : ∀ s, P s → s.players.Nodup
  removed : ∀ s p g s', P s → removePlayer s p g = .ok s' → P s'
  ended : ∀ s b, P s → P { s with terminated := b }
  traced : ∀ s p, P s → P { s with trace := s.trace ++ [.env s.time p] }
  env : ∀ s p o s', P s → p ∈ s.players → (∃ w x, o ∈ Wd.envQuery w x) →
    envObstacle s p o = .ok s' → P s'
  pair : ∀ s a b s', P s → a ∈ s.players → b ∈ s.players → a ≠ b → checkPair s a b = .ok s' → P s'

/-- `P` is kept by every part of a step. -/
structure Closed (cfg : Cfg Wd) (P : St Wd → Prop) : Prop extends PostClosed P where
  observed : ∀ s ps, P s → observe s.models s.players = .ok ps → P { s with lastObs := ⟨ps, s.time⟩ }
  logged : ∀ s n m lg states, P s → n ∈ s.players → Dict.get? s.models n = some m →
    Dict.get? s.logger n = some lg → addLog lg.states s.time (Wd.getState m) = .ok states →
    P { s with logger := Dict.set s.logger n { lg with states := states } }
  asked : ∀ s n s', P s → n ∈ s.players → askPlayer s n = .ok s' → P s'
  driven : ∀ s n m c w' m', P s → n ∈ s.players → Dict.get? s.models n = some m →
    Dict.get? s.lastCmds n = some c → Wd.update s.w n m c cfg.dt = .ok (w', m') →
    P { s with w := w', models := Dict.set s.models n m', trace := s.trace ++ [.drive s.time n m c] }
  stamped : ∀ s, P s → P { s with lastCmdTs := some s.time }
  timed : ∀ s, P s → P { s with time := s.time + cfg.dt }

theorem askPlayer_frame {s s' : St Wd} {n : N} (h : askPlayer s n = .ok s') :
    s'.players = s.players ∧ s'.models = s.models ∧ s'.time = s.time ∧ s'.lastCmdTs = s.lastCmdTs ∧
      s'.reports = s.reports := by
  unfold askPlayer at h
  obtain ⟨⟨w1, o⟩, -, h⟩ := bind_ok.mp h
  obtain ⟨⟨w2, c, i⟩, -, h⟩ := bind_ok.mp h
  obtain ⟨lg, -, h⟩ := bind_ok.mp h
  obtain ⟨cs, -, h⟩ := bind_ok.mp h
  obtain ⟨is, -, h⟩ := bind_ok.mp h
  obtain ⟨⟨w3, ex⟩, -, h⟩ := bind_ok.mp h
  obtain ⟨es, -, h⟩ := bind_ok.mp h
  injection h with h
  subst h
  exact ⟨rfl, rfl, rfl, rfl, rfl⟩

theorem maybeAsk_frame {cfg : Cfg Wd} {s s' : St Wd} {n : N} (h : maybeAsk cfg s n = .ok s') :
    s'.players = s.players ∧ s'.models = s.models ∧ s'.time = s.time ∧ s'.lastCmdTs = s.lastCmdTs ∧
      s'.reports = s.reports := by
  unfold maybeAsk at h
  split at h
  · exact askPlayer_frame h
  · injection h with h
    subst h
    exact ⟨rfl, rfl, rfl, rfl, rfl⟩

theorem updatePlayer_players {cfg : Cfg Wd} {s s' : St Wd} {n : N} (h : updatePlayer cfg s n = .ok s') :
    s'.players = s.players := by
  unfold updatePlayer at h
  obtain ⟨m, -, h⟩ := bind_ok.mp h
  obtain ⟨lg, -, h⟩ := bind_ok.mp h
  obtain ⟨states, -, h⟩ := bind_ok.mp h
  obtain ⟨s2, h2, h⟩ := bind_ok.mp h
  obtain ⟨c, -, h⟩ := bind_ok.mp h
  obtain ⟨m2, -, h⟩ := bind_ok.mp h
  obtain ⟨⟨w', m'⟩, -, h⟩ := bind_ok.mp h
  injection h with h
  subst h
  exact (maybeAsk_frame h2).1

theorem recordReport_players (s : St Wd) (r : Report Wd) : (recordReport s r).players = s.players := rfl

theorem envObstacle_players {s s' : St Wd} {p : N} {o : Wd.O} (h : envObstacle s p o = .ok s') :
    s'.players = s.players := by
  unfold envObstacle at h
  obtain ⟨m, -, h⟩ := bind_ok.mp h
  obtain ⟨rep, -, h⟩ := bind_ok.mp h
  injection h with h
  subst h
  cases rep with
  | none => rfl
  | some rep => dsimp only; split <;> rfl

theorem checkPair_players {s s' : St Wd} {a b : N} (h : checkPair s a b = .ok s') :
    s'.players = s.players := by
  unfold checkPair at h
  obtain ⟨m1, -, h⟩ := bind_ok.mp h
  obtain ⟨m2, -, h⟩ := bind_ok.mp h
  dsimp only at h
  split at h
  · obtain ⟨rep, -, h⟩ := bind_ok.mp h
    injection h with h
    subst h
    cases rep <;> rfl
  · injection h with h
    subst h
    rfl

variable {cfg : Cfg Wd} {P : St Wd → Prop}

theorem Closed.updatePlayer (hP : Closed cfg P) {s s' : St Wd} {n : N} (hs : P s) (hn : n ∈ s.players)
    (h : Sim.updatePlayer cfg s n = .ok s') : P s' := by
  unfold Sim.updatePlayer at h
  obtain ⟨m, hm, h⟩ := bind_ok.mp h
  obtain ⟨lg, hlg, h⟩ := bind_ok.mp h
  obtain ⟨states, hst, h⟩ := bind_ok.mp h
  obtain ⟨s2, h2, h⟩ := bind_ok.mp h
  obtain ⟨c, hc, h⟩ := bind_ok.mp h
  obtain ⟨m2, hm2, h⟩ := bind_ok.mp h
  obtain ⟨⟨w', m'⟩, hu, h⟩ := bind_ok.mp h
  have p1 := hP.logged s n m lg states hs hn (lookup_ok.mp hm) (lookup_ok.mp hlg) hst
  have p2 : P s2 := by
    unfold maybeAsk at h2
    split at h2
    · exact hP.asked _ n s2 p1 hn h2
    · injection h2 with h2
      rw [← h2]; exact p1
  have f2 := maybeAsk_frame h2
  injection h with h
  subst h
  have := hP.driven s2 n m2 c w' m' p2 (by rw [f2.1]; exact hn) (lookup_ok.mp hm2) (lookup_ok.mp hc)
    (liftU_ok.mp hu)
  have ht : s2.time = s.time := f2.2.2.1
  rw [← ht]
  exact this

theorem Closed.updateLoop (hP : Closed cfg P) : ∀ (ns : List N) (s s' : St Wd), P s →
    (∀ n ∈ ns, n ∈ s.players) → Sim.updateLoop cfg s ns = .ok s' → P s' ∧ s'.players = s.players
  | [], s, s', hs, _, h => by
    injection h with h
    subst h
    exact ⟨hs, rfl⟩
  | n :: ns, s, s', hs, hn, h => by
    unfold Sim.updateLoop at h
    obtain ⟨s1, h1, h⟩ := bind_ok.mp h
    have e1 := updatePlayer_players h1
    obtain ⟨p, e⟩ := Closed.updateLoop hP ns s1 s' (hP.updatePlayer hs (hn n (by simp)) h1)
      (fun k hk => by rw [e1]; exact hn k (by simp [hk])) h
    exact ⟨p, e.trans e1⟩

theorem PostClosed.removeLoop (hP : PostClosed P) : ∀ (gs : Dict N Wd.G) (s s' : St Wd), P s →
    Sim.removeLoop s gs = .ok s' → P s'
  | [], s, s', hs, h => by
    injection h with h
    subst h
    exact hs
  | (p, g) :: gs, s, s', hs, h => by
    unfold Sim.removeLoop at h
    obtain ⟨s1, h1, h⟩ := bind_ok.mp h
    exact PostClosed.removeLoop hP gs s1 s' (hP.removed s p g s1 hs h1) h

theorem PostClosed.envObstacles (hP : PostClosed P) (p : N) : ∀ (os : List Wd.O) (s s' : St Wd), P s →
    p ∈ s.players → (∀ o ∈ os, ∃ w x, o ∈ Wd.envQuery w x) → Sim.envObstacles p s os = .ok s' →
    P s' ∧ s'.players = s.players
  | [], s, s', hs, _, _, h => by
    injection h with h
    subst h
    exact ⟨hs, rfl⟩
  | o :: os, s, s', hs, hp, ho, h => by
    unfold Sim.envObstacles at h
    obtain ⟨s1, h1, h⟩ := bind_ok.mp h
    have e1 := envObstacle_players h1
    obtain ⟨q, e⟩ := PostClosed.envObstacles hP p os s1 s' (hP.env s p o s1 hs hp (ho o (by simp)) h1)
      (by rw [e1]; exact hp) (fun o' ho' => ho o' (by simp [ho'])) h
    exact ⟨q, e.trans e1⟩

theorem PostClosed.envLoop (hP : PostClosed P) : ∀ (ps : List N) (s s' : St Wd), P s →
    (∀ p ∈ ps, p ∈ s.players) → Sim.envLoop s ps = .ok s' → P s' ∧ s'.players = s.players
  | [], s, s', hs, _, h => by
    injection h with h
    subst h
    exact ⟨hs, rfl⟩
  | p :: ps, s, s', hs, hp, h => by
    unfold Sim.envLoop at h
    obtain ⟨m, -, h⟩ := bind_ok.mp h
    obtain ⟨s1, h1, h⟩ := bind_ok.mp h
    obtain ⟨q1, e1⟩ := hP.envObstacles p _ _ s1 (hP.traced s _ hs) (hp p (by simp))
      (fun o ho => ⟨_, _, ho⟩) h1
    have e1' : s1.players = s.players := e1
    obtain ⟨q, e⟩ := PostClosed.envLoop hP ps s1 s' q1 (fun k hk => by rw [e1']; exact hp k (by simp [hk])) h
    exact ⟨q, e.trans e1'⟩

theorem ne_of_combination : ∀ (l : List N), l.Nodup → ∀ p ∈ combinations2 l, p.1 ≠ p.2
  | [], _, p, h => by simp [combinations2] at h
  | a :: l, hl, p, h => by
    simp only [combinations2, List.mem_append, List.mem_map] at h
    rw [List.nodup_cons] at hl
    rcases h with ⟨b, hb, rfl⟩ | h
    · intro e
      have e : a = b := e
      exact hl.1 (e ▸ hb)
    · exact ne_of_combination l hl.2 p h

theorem PostClosed.pairLoop (hP : PostClosed P) : ∀ (l : List (N × N)) (s s' : St Wd), P s →
    (∀ p ∈ l, p.1 ∈ s.players ∧ p.2 ∈ s.players ∧ p.1 ≠ p.2) → Sim.pairLoop s l = .ok s' → P s'
  | [], s, s', hs, _, h => by
    injection h with h
    subst h
    exact hs
  | (a, b) :: l, s, s', hs, hp, h => by
    unfold Sim.pairLoop at h
    obtain ⟨s1, h1, h⟩ := bind_ok.mp h
    have e1 := checkPair_players h1
    obtain ⟨i1, i2, i3⟩ := hp (a, b) (by simp)
    exact PostClosed.pairLoop hP l s1 s' (hP.pair s a b s1 hs i1 i2 i3 h1)
      (fun p hp' => by rw [e1]; exact hp p (by simp [hp'])) h

/-- What is kept by everything that follows the increase of the time is kept by `post_update`. -/
theorem PostClosed.postUpdate (hP : PostClosed P) {s s' : St Wd}
    (hs : P { s with time := s.time + cfg.dt }) (h : Sim.postUpdate cfg s = .ok s') : P s' := by
  unfold Sim.postUpdate at h
  obtain ⟨s3, h3, h⟩ := bind_ok.mp h
  have p3 := hP.ended s3 (terminationCondition cfg s3) (hP.removeLoop cfg.missions _ s3 hs h3)
  dsimp only at h
  split at h
  · injection h with h
    rw [← h]; exact p3
  · obtain ⟨s4, h4, h⟩ := bind_ok.mp h
    obtain ⟨p4, -⟩ := hP.envLoop _ _ s4 p3 (fun _ h => h) h4
    refine hP.pairLoop _ s4 s' p4 (fun p hp => ?_) h
    exact ⟨(mem_combinations2 _ p hp).1, (mem_combinations2 _ p hp).2,
      ne_of_combination _ (hP.nodup s4 p4) p hp⟩

/-- What is kept by every part of a step is kept by the step. -/
theorem Closed.step (hP : Closed cfg P) {s s' : St Wd} (hs : P s) (h : Sim.step cfg s = .ok s') : P s' := by
  unfold Sim.step at h
  obtain ⟨s1, h1, h⟩ := bind_ok.mp h
  obtain ⟨s2, h2, h⟩ := bind_ok.mp h
  have p1 : P s1 := by
    unfold preUpdate at h1
    split at h1
    · obtain ⟨ps, hps, h1⟩ := bind_ok.mp h1
      injection h1 with h1
      rw [← h1]
      exact hP.observed s ps hs hps
    · injection h1 with h1
      rw [← h1]; exact hs
  have p2 : P s2 := by
    unfold update at h2
    obtain ⟨t, ht, h2⟩ := bind_ok.mp h2
    obtain ⟨pt, -⟩ := hP.updateLoop s1.players s1 t p1 (fun _ h => h) ht
    injection h2 with h2
    rw [← h2]
    split
    · have ht' : t.time = s1.time := by
        have : ∀ (ns : List N) (a b : St Wd), Sim.updateLoop cfg a ns = .ok b → b.time = a.time := by
          intro ns
          induction ns with
          | nil => intro a b h; injection h with h; rw [h]
          | cons n ns ih =>
            intro a b h
            unfold Sim.updateLoop at h
            obtain ⟨c, hc, h⟩ := bind_ok.mp h
            rw [ih c b h]
            unfold Sim.updatePlayer at hc
            obtain ⟨m, -, hc⟩ := bind_ok.mp hc
            obtain ⟨lg, -, hc⟩ := bind_ok.mp hc
            obtain ⟨states, -, hc⟩ := bind_ok.mp hc
            obtain ⟨s2, hs2, hc⟩ := bind_ok.mp hc
            obtain ⟨c', -, hc⟩ := bind_ok.mp hc
            obtain ⟨m2, -, hc⟩ := bind_ok.mp hc
            obtain ⟨⟨w', m'⟩, -, hc⟩ := bind_ok.mp hc
            injection hc with hc
            rw [← hc]
            exact (maybeAsk_frame hs2).2.2.1
        exact this _ _ _ ht
      rw [← ht']
      exact hP.stamped t pt
    · exact pt
  exact hP.toPostClosed.postUpdate (hP.timed s2 p2) h

/-- What is kept by every part of a step holds in every execution. -/
theorem Closed.exec (hP : Closed cfg P) {σ : Nat → St Wd} {j : Nat} (h0 : P (σ 0))
    (h : ∀ i, i < j → (σ i).terminated = false ∧ Sim.step cfg (σ i) = .ok (σ (i + 1))) :
    ∀ i, i ≤ j → P (σ i) := by
  intro i
  induction i with
  | zero => intro _; exact h0
  | succ i ih => intro hi; exact hP.step (ih (by omega)) (h i (by omega)).2

/-! ## Invariants of models and reports -/

theorem removePlayer_frame {s s' : St Wd} {p : N} {g : Wd.G} (h : removePlayer s p g = .ok s') :
    s'.models = s.models ∧ s'.reports = s.reports ∧ (s'.players = s.players ∨ s'.players = s.players.erase p) := by
  unfold removePlayer at h
  split at h
  · obtain ⟨m, -, h⟩ := bind_ok.mp h
    obtain ⟨⟨w', b⟩, -, h⟩ := bind_ok.mp h
    dsimp only at h
    split at h
    · obtain ⟨lg, -, h⟩ := bind_ok.mp h
      obtain ⟨states, -, h⟩ := bind_ok.mp h
      injection h with h
      subst h
      exact ⟨rfl, rfl, Or.inr rfl⟩
    · injection h with h
      subst h
      exact ⟨rfl, rfl, Or.inl rfl⟩
  · injection h with h
    subst h
    exact ⟨rfl, rfl, Or.inl rfl⟩

theorem envObstacle_frame {s s' : St Wd} {p : N} {o : Wd.O} (h : envObstacle s p o = .ok s') :
    ∃ m rep, Dict.get? s.models p = some m ∧
      reportOf [p, Wd.env] [p] s.time (Wd.resolveEnv s.w p m o s.time).2 = .ok rep ∧
      s'.models = Dict.set s.models p (Wd.resolveEnv s.w p m o s.time).1.2 ∧
      s'.w = (Wd.resolveEnv s.w p m o s.time).1.1 ∧ s'.logger = s.logger ∧
      s'.reports = s.reports ++
        (if Wd.isDyn (Wd.resolveEnv s.w p m o s.time).1.2 then [] else rep.toList) := by
  unfold envObstacle at h
  obtain ⟨m, hm, h⟩ := bind_ok.mp h
  obtain ⟨rep, hr, h⟩ := bind_ok.mp h
  refine ⟨m, rep, lookup_ok.mp hm, hr, ?_⟩
  injection h with h
  subst h
  cases rep with
  | none => simp
  | some rep =>
    dsimp only
    cases hd : Wd.isDyn (Wd.resolveEnv s.w p m o s.time).1.2 <;> simp [recordReport]

theorem checkPair_frame {s s' : St Wd} {a b : N} (h : checkPair s a b = .ok s') :
    ∃ m1 m2, Dict.get? s.models a = some m1 ∧ Dict.get? s.models b = some m2 ∧
      ((Wd.touch (Wd.footprint m1) (Wd.footprint m2) = false ∧ s'.models = s.models ∧ s'.w = s.w ∧
          s'.logger = s.logger ∧ s'.reports = s.reports) ∨
        ∃ rep, Wd.touch (Wd.footprint m1) (Wd.footprint m2) = true ∧
          reportOf [a, b] [a, b] s.time (Wd.resolve s.w a m1 b m2 s.time).2 = .ok rep ∧
          s'.models = Dict.set (Dict.set s.models a (Wd.resolve s.w a m1 b m2 s.time).1.2.1) b
            (Wd.resolve s.w a m1 b m2 s.time).1.2.2 ∧
          s'.w = (Wd.resolve s.w a m1 b m2 s.time).1.1 ∧ s'.logger = s.logger ∧
          s'.reports = s.reports ++ rep.toList) := by
  unfold checkPair at h
  obtain ⟨m1, h1, h⟩ := bind_ok.mp h
  obtain ⟨m2, h2, h⟩ := bind_ok.mp h
  refine ⟨m1, m2, lookup_ok.mp h1, lookup_ok.mp h2, ?_⟩
  dsimp only at h
  split at h
  · rename_i ht
    obtain ⟨rep, hr, h⟩ := bind_ok.mp h
    refine Or.inr ⟨rep, ht, hr, ?_⟩
    injection h with h
    subst h
    cases rep <;> simp [recordReport]
  · rename_i ht
    refine Or.inl ⟨by simpa using ht, ?_⟩
    injection h with h
    subst h
    exact ⟨rfl, rfl, rfl, rfl⟩

/-- A predicate of models and reports that is kept by driving and by resolving collisions is kept by
steps. -/
theorem closed_models (cfg : Cfg Wd) (Q : Dict N Wd.M → List (Report Wd) → Prop)
    (drive : ∀ w n m c w' m' d rs, Dict.get? d n = some m → Wd.update w n m c cfg.dt = .ok (w', m') →
      Q d rs → Q (Dict.set d n m') rs)
    (env : ∀ w p m o t d rs rep, Dict.get? d p = some m → (∃ w' x, o ∈ Wd.envQuery w' x) →
      reportOf [p, Wd.env] [p] t (Wd.resolveEnv w p m o t).2 = .ok rep → Q d rs →
      Q (Dict.set d p (Wd.resolveEnv w p m o t).1.2)
        (rs ++ (if Wd.isDyn (Wd.resolveEnv w p m o t).1.2 then [] else rep.toList)))
    (pair : ∀ w a b ma mb t d rs rep, a ≠ b → Dict.get? d a = some ma → Dict.get? d b = some mb →
      reportOf [a, b] [a, b] t (Wd.resolve w a ma b mb t).2 = .ok rep → Q d rs →
      Q (Dict.set (Dict.set d a (Wd.resolve w a ma b mb t).1.2.1) b (Wd.resolve w a ma b mb t).1.2.2)
        (rs ++ rep.toList)) :
    Closed cfg (fun s : St Wd => s.players.Nodup ∧ Q s.models s.reports) where
  nodup s h := h.1
  observed s ps h _ := h
  logged s n m lg states h _ _ _ _ := h
  asked s n s' h _ ha := by
    obtain ⟨e1, e2, -, -, e3⟩ := askPlayer_frame ha
    rw [e1, e2, e3]
    exact h
  driven s n m c w' m' h _ hm _ hu := ⟨h.1, drive _ _ _ _ _ _ _ _ hm hu h.2⟩
  stamped s h := h
  timed s h := h
  removed s p g s' h hr := by
    obtain ⟨e1, e2, e3⟩ := removePlayer_frame hr
    rw [e1, e2]
    refine ⟨?_, h.2⟩
    rcases e3 with e | e <;> rw [e]
    · exact h.1
    · exact h.1.erase p
  ended s b h := h
  traced s e h := h
  env s p o s' h _ ho he := by
    refine ⟨by rw [envObstacle_players he]; exact h.1, ?_⟩
    obtain ⟨m, rep, hm, hr, e1, -, -, e2⟩ := envObstacle_frame he
    rw [e1, e2]
    exact env _ _ _ _ _ _ _ _ hm ho hr h.2
  pair s a b s' h _ _ hab hp := by
    refine ⟨by rw [checkPair_players hp]; exact h.1, ?_⟩
    obtain ⟨m1, m2, h1, h2, ⟨-, e1, -, -, e2⟩ | ⟨rep, -, hr, e1, -, -, e2⟩⟩ := checkPair_frame hp
    · rw [e1, e2]; exact h.2
    · rw [e1, e2]
      exact pair _ _ _ _ _ _ _ _ _ hab h1 h2 hr h.2

theorem removePlayer_time {s s' : St Wd} {p : N} {g : Wd.G} (h : removePlayer s p g = .ok s') :
    s'.time = s.time := by
  unfold removePlayer at h
  split at h
  · obtain ⟨m, -, h⟩ := bind_ok.mp h
    obtain ⟨⟨w', b⟩, -, h⟩ := bind_ok.mp h
    dsimp only at h
    split at h
    · obtain ⟨lg, -, h⟩ := bind_ok.mp h
      obtain ⟨states, -, h⟩ := bind_ok.mp h
      injection h with h
      subst h
      rfl
    · injection h with h
      subst h
      rfl
  · injection h with h
    subst h
    rfl

theorem envObstacle_time {s s' : St Wd} {p : N} {o : Wd.O} (h : envObstacle s p o = .ok s') :
    s'.time = s.time := by
  unfold envObstacle at h
  obtain ⟨m, hm, h⟩ := bind_ok.mp h
  obtain ⟨rep, hr, h⟩ := bind_ok.mp h
  injection h with h
  subst h
  cases rep with
  | none => rfl
  | some rep =>
    dsimp only
    split <;> rfl

theorem checkPair_time {s s' : St Wd} {a b : N} (h : checkPair s a b = .ok s') : s'.time = s.time := by
  unfold checkPair at h
  obtain ⟨m1, h1, h⟩ := bind_ok.mp h
  obtain ⟨m2, h2, h⟩ := bind_ok.mp h
  dsimp only at h
  split at h
  · obtain ⟨rep, hr, h⟩ := bind_ok.mp h
    injection h with h
    subst h
    cases rep <;> rfl
  · injection h with h
    subst h
    rfl

/-- A predicate of models and reports that is kept by resolving collisions at time `t` is kept by what
follows the increase of the time to `t`. -/
theorem postClosed_models (t : K) (Q : Dict N Wd.M → List (Report Wd) → Prop)
    (env : ∀ w p m o d rs rep, Dict.get? d p = some m → (∃ w' x, o ∈ Wd.envQuery w' x) →
      reportOf [p, Wd.env] [p] t (Wd.resolveEnv w p m o t).2 = .ok rep → Q d rs →
      Q (Dict.set d p (Wd.resolveEnv w p m o t).1.2)
        (rs ++ (if Wd.isDyn (Wd.resolveEnv w p m o t).1.2 then [] else rep.toList)))
    (pair : ∀ w a b ma mb d rs rep, a ≠ b → Dict.get? d a = some ma → Dict.get? d b = some mb →
      reportOf [a, b] [a, b] t (Wd.resolve w a ma b mb t).2 = .ok rep → Q d rs →
      Q (Dict.set (Dict.set d a (Wd.resolve w a ma b mb t).1.2.1) b (Wd.resolve w a ma b mb t).1.2.2)
        (rs ++ rep.toList)) :
    PostClosed (fun s : St Wd => s.players.Nodup ∧ s.time = t ∧ Q s.models s.reports) where
  nodup s h := h.1
  removed s p g s' h hr := by
    obtain ⟨e1, e2, e3⟩ := removePlayer_frame hr
    rw [e1, e2, removePlayer_time hr]
    refine ⟨?_, h.2⟩
    rcases e3 with e | e <;> rw [e]
    · exact h.1
    · exact h.1.erase p
  ended s b h := h
  traced s e h := h
  env s p o s' h _ ho he := by
    refine ⟨by rw [envObstacle_players he]; exact h.1, by rw [envObstacle_time he]; exact h.2.1, ?_⟩
    obtain ⟨m, rep, hm, hr, e1, -, -, e2⟩ := envObstacle_frame he
    rw [e1, e2]
    rw [h.2.1] at hr ⊢
    exact env _ _ _ _ _ _ _ hm ho hr h.2.2
  pair s a b s' h _ _ hab hp := by
    refine ⟨by rw [checkPair_players hp]; exact h.1, by rw [checkPair_time hp]; exact h.2.1, ?_⟩
    obtain ⟨m1, m2, h1, h2, ⟨-, e1, -, -, e2⟩ | ⟨rep, -, hr, e1, -, -, e2⟩⟩ := checkPair_frame hp
    · rw [e1, e2]; exact h.2.2
    · rw [e1, e2]
      rw [h.2.1] at hr ⊢
      exact pair _ _ _ _ _ _ _ _ hab h1 h2 hr h.2.2

/-! ## What is appended to the trace -/

theorem askPlayer_trace {s s' : St Wd} {n : N} (h : askPlayer s n = .ok s') :
    ∃ o, s'.trace = s.trace ++ [.sense s.time n s.lastObs, .ask s.time n o] := by
  unfold askPlayer at h
  obtain ⟨⟨w1, o⟩, -, h⟩ := bind_ok.mp h
  obtain ⟨⟨w2, c, i⟩, -, h⟩ := bind_ok.mp h
  obtain ⟨lg, -, h⟩ := bind_ok.mp h
  obtain ⟨cs, -, h⟩ := bind_ok.mp h
  obtain ⟨is, -, h⟩ := bind_ok.mp h
  obtain ⟨⟨w3, ex⟩, -, h⟩ := bind_ok.mp h
  obtain ⟨es, -, h⟩ := bind_ok.mp h
  injection h with h
  subst h
  exact ⟨o, rfl⟩

theorem removePlayer_trace {s s' : St Wd} {p : N} {g : Wd.G} (h : removePlayer s p g = .ok s') :
    s'.trace = s.trace ∨ ∃ x, s'.trace = s.trace ++ [.goal s.time p x] := by
  unfold removePlayer at h
  split at h
  · obtain ⟨m, -, h⟩ := bind_ok.mp h
    obtain ⟨⟨w', b⟩, -, h⟩ := bind_ok.mp h
    dsimp only at h
    split at h
    · obtain ⟨lg, -, h⟩ := bind_ok.mp h
      obtain ⟨states, -, h⟩ := bind_ok.mp h
      injection h with h
      subst h
      exact Or.inr ⟨_, rfl⟩
    · injection h with h
      subst h
      exact Or.inr ⟨_, rfl⟩
  · injection h with h
    subst h
    exact Or.inl rfl

theorem envObstacle_trace {s s' : St Wd} {p : N} {o : Wd.O} (h : envObstacle s p o = .ok s') :
    s'.trace = s.trace := by
  unfold envObstacle at h
  obtain ⟨m, hm, h⟩ := bind_ok.mp h
  obtain ⟨rep, hr, h⟩ := bind_ok.mp h
  injection h with h
  subst h
  cases rep with
  | none => rfl
  | some rep =>
    dsimp only
    split <;> rfl

theorem checkPair_trace {s s' : St Wd} {a b : N} (h : checkPair s a b = .ok s') :
    s'.trace = s.trace ++ [.pair s.time a b] := by
  unfold checkPair at h
  obtain ⟨m1, h1, h⟩ := bind_ok.mp h
  obtain ⟨m2, h2, h⟩ := bind_ok.mp h
  dsimp only at h
  split at h
  · obtain ⟨rep, hr, h⟩ := bind_ok.mp h
    injection h with h
    subst h
    cases rep <;> rfl
  · injection h with h
    subst h
    rfl

end Sim
end Verif
