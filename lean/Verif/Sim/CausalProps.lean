import Verif.Sim.ShiftProps
import Verif.Sim.PrefixProps

/-!
# C166: what agents would do later has no effect before

Two simulations whose agents answer the same until a time `T` are the same until then.
-/

set_option linter.unusedSectionVars false

namespace Verif
namespace Sim

variable {N K : Type} [DecidableEq N] [Field K] [LinearOrder K] [IsStrictOrderedRing K] {Wd : World N K}

namespace Causal

open Shift (RelV relQ_lift)

/-- Specification: `R w w'` says that the agents `w` and `w'` cannot be told apart before `T`. Sensors that are given an observation
from before `T` hand out the same observation to both, one of those described by `early`; asked with these, the agents return the
same commands. Nothing is said about later observations. Models, goals and collisions do not depend on which agents there are. -/
structure Until (Wd : World N K) (T : K) (early : Obs N K Wd.X Wd.P → Prop) (R : Wd.W → Wd.W → Prop) : Prop where
  onInit : ∀ w w' n, R w w' → RelV R (Wd.onInit w n) (Wd.onInit w' n)
  sense : ∀ w w' n o, R w w' → o.time < T →
    RelV (fun a b => (R a.1 b.1 ∧ early a.2) ∧ b.2 = a.2) (Wd.sense w n o) (Wd.sense w' n o)
  getCommands : ∀ w w' n o, R w w' → early o →
    RelV (fun a b => R a.1 b.1 ∧ b.2 = a.2) (Wd.getCommands w n o) (Wd.getCommands w' n o)
  getExtra : ∀ w w' n, R w w' → RelV (fun a b => R a.1 b.1 ∧ b.2 = a.2) (Wd.getExtra w n) (Wd.getExtra w' n)
  update : ∀ w w' n m c dt, R w w' →
    RelV (fun a b => R a.1 b.1 ∧ b.2 = a.2) (Wd.update w n m c dt) (Wd.update w' n m c dt)
  fulfilled : ∀ w w' n g x t, R w w' →
    RelV (fun a b => R a.1 b.1 ∧ b.2 = a.2) (Wd.fulfilled w n g x t) (Wd.fulfilled w' n g x t)
  envQuery : ∀ w w' p, R w w' → Wd.envQuery w' p = Wd.envQuery w p
  resolveEnv : ∀ w w' n m o t, R w w' → R (Wd.resolveEnv w n m o t).1.1 (Wd.resolveEnv w' n m o t).1.1 ∧
    (Wd.resolveEnv w' n m o t).1.2 = (Wd.resolveEnv w n m o t).1.2 ∧
    (Wd.resolveEnv w' n m o t).2 = (Wd.resolveEnv w n m o t).2
  resolve : ∀ w w' n m n' m' t, R w w' →
    R (Wd.resolve w n m n' m' t).1.1 (Wd.resolve w' n m n' m' t).1.1 ∧
    (Wd.resolve w' n m n' m' t).1.2 = (Wd.resolve w n m n' m' t).1.2 ∧
    (Wd.resolve w' n m n' m' t).2 = (Wd.resolve w n m n' m' t).2

/-- Specification: the two states differ in nothing but the agents. -/
def Same (R : Wd.W → Wd.W → Prop) (s s' : St Wd) : Prop := ∃ w, R s.w w ∧ s' = { s with w := w }

/-- While the players are asked: the observation is from before `T`. -/
def Mid (R : Wd.W → Wd.W → Prop) (T : K) (cfg : Cfg Wd) (s s' : St Wd) : Prop :=
  Same R s s' ∧ (need cfg s = true → s.lastObs.time < T)

section
variable {T : K} {early : Obs N K Wd.X Wd.P → Prop} {R : Wd.W → Wd.W → Prop}

theorem same_preUpdate (cfg : Cfg Wd) {s s' : St Wd} (h : Same R s s') (ht : s.time < T) :
    RelQ (Mid R T cfg) (preUpdate cfg s) (preUpdate cfg s') := by
  obtain ⟨w, hw, rfl⟩ := h
  unfold preUpdate
  show RelQ _ _ (if need cfg s = true then _ else _)
  split
  · refine (RelQ.refl (observe (Wd := Wd) s.models s.players)).bind ?_
    rintro ps _ rfl
    exact ⟨⟨w, hw, rfl⟩, fun _ => ht⟩
  · rename_i hn
    exact ⟨⟨w, hw, rfl⟩, fun h => absurd h hn⟩

theorem mid_askPlayer (U : Until Wd T early R) (cfg : Cfg Wd) (n : N) {s s' : St Wd} (h : Same R s s') (ho : s.lastObs.time < T) :
    RelQ (Mid R T cfg) (askPlayer s n) (askPlayer s' n) := by
  obtain ⟨w, hw, rfl⟩ := h
  unfold askPlayer
  refine (relQ_lift (U.sense s.w w n s.lastObs hw ho)).bind ?_
  rintro ⟨w1, o⟩ ⟨w1', o'⟩ ⟨⟨h1, he⟩, h2⟩
  simp only at h1 h2 he
  subst h2
  refine (relQ_lift (U.getCommands w1 w1' n _ h1 he)).bind ?_
  rintro ⟨w2, ci⟩ ⟨w2', ci'⟩ ⟨h1, h2⟩
  simp only at h1 h2
  subst h2
  refine (RelQ.refl (lookup s.logger n)).bind ?_
  rintro lg _ rfl
  refine (RelQ.refl (addLog lg.commands s.time ci'.1)).bind ?_
  rintro cm _ rfl
  refine (RelQ.refl (addLog lg.info s.time ci'.2)).bind ?_
  rintro inf _ rfl
  refine (relQ_lift (U.getExtra w2 w2' n h1)).bind ?_
  rintro ⟨w3, ex⟩ ⟨w3', ex'⟩ ⟨h1, h2⟩
  simp only at h1 h2
  subst h2
  refine (RelQ.refl (addExtra lg.extra s.time _)).bind ?_
  rintro extra _ rfl
  exact ⟨⟨w3', h1, rfl⟩, fun _ => ho⟩

theorem mid_maybeAsk (U : Until Wd T early R) (cfg : Cfg Wd) (n : N) {s s' : St Wd} (h : Mid R T cfg s s') :
    RelQ (Mid R T cfg) (maybeAsk cfg s n) (maybeAsk cfg s' n) := by
  obtain ⟨⟨w, hw, rfl⟩, ho⟩ := h
  unfold maybeAsk
  show RelQ _ _ (if need cfg s = true then _ else _)
  split
  · rename_i hn
    exact mid_askPlayer U cfg n ⟨w, hw, rfl⟩ (ho hn)
  · exact ⟨⟨w, hw, rfl⟩, ho⟩

theorem mid_updatePlayer (U : Until Wd T early R) (cfg : Cfg Wd) (n : N) {s s' : St Wd} (h : Mid R T cfg s s') :
    RelQ (Mid R T cfg) (updatePlayer cfg s n) (updatePlayer cfg s' n) := by
  obtain ⟨⟨w, hw, rfl⟩, ho⟩ := h
  unfold updatePlayer
  refine (RelQ.refl (lookup s.models n)).bind ?_
  rintro m _ rfl
  refine (RelQ.refl (lookup s.logger n)).bind ?_
  rintro lg _ rfl
  refine (RelQ.refl (addLog lg.states s.time (Wd.getState m))).bind ?_
  rintro st _ rfl
  refine (mid_maybeAsk U cfg n (s := { s with logger := Dict.set s.logger n { lg with states := st } })
    ⟨⟨w, hw, rfl⟩, ho⟩).bind ?_
  rintro s2 _ ⟨⟨w2, h2, rfl⟩, ho2⟩
  refine (RelQ.refl (lookup s2.lastCmds n)).bind ?_
  rintro c _ rfl
  refine (RelQ.refl (lookup s2.models n)).bind ?_
  rintro m2 _ rfl
  refine (relQ_lift (U.update s2.w w2 n m2 c cfg.dt h2)).bind ?_
  rintro ⟨w3, m'⟩ ⟨w3', m''⟩ ⟨h1, h3⟩
  simp only at h1 h3
  subst h3
  exact ⟨⟨w3', h1, rfl⟩, ho2⟩

theorem mid_updateLoop (U : Until Wd T early R) (cfg : Cfg Wd) (l : List N) : ∀ s s' : St Wd,
    Mid R T cfg s s' → RelQ (Mid R T cfg) (updateLoop cfg s l) (updateLoop cfg s' l) := by
  induction l with
  | nil => exact fun _ _ h => h
  | cons n l ih =>
    intro s s' h
    unfold updateLoop
    exact (mid_updatePlayer U cfg n h).bind fun t t' ht => ih t t' ht

theorem same_update (U : Until Wd T early R) (cfg : Cfg Wd) {s s' : St Wd} (h : Mid R T cfg s s') :
    RelQ (Same R) (update cfg s) (update cfg s') := by
  have hp : s'.players = s.players := by obtain ⟨⟨w, hw, rfl⟩, -⟩ := h; rfl
  have ht : s'.time = s.time := by obtain ⟨⟨w, hw, rfl⟩, -⟩ := h; rfl
  unfold update
  rw [hp, ht]
  refine (mid_updateLoop U cfg s.players s s' h).bind ?_
  rintro t _ ⟨⟨w, hw, rfl⟩, -⟩
  show Same R (if need cfg t = true then _ else _) (if need cfg t = true then _ else _)
  split
  · exact ⟨w, hw, rfl⟩
  · exact ⟨w, hw, rfl⟩

theorem same_removePlayer (U : Until Wd T early R) (p : N) (g : Wd.G) {s s' : St Wd} (h : Same R s s') :
    RelQ (Same R) (removePlayer s p g) (removePlayer s' p g) := by
  obtain ⟨w, hw, rfl⟩ := h
  unfold removePlayer
  by_cases hp : p ∈ s.players
  · rw [if_pos hp, if_pos (show p ∈ ({ s with w := w } : St Wd).players from hp)]
    refine (RelQ.refl (lookup s.models p)).bind ?_
    rintro m _ rfl
    refine (relQ_lift (U.fulfilled s.w w p g (Wd.getState m) s.time hw)).bind ?_
    rintro ⟨w1, b⟩ ⟨w1', b'⟩ ⟨h1, h2⟩
    simp only at h1 h2
    subst h2
    cases b' with
    | false => exact ⟨w1', h1, rfl⟩
    | true =>
      refine (RelQ.refl (lookup s.logger p)).bind ?_
      rintro lg _ rfl
      refine (RelQ.refl (addLog lg.states s.time (Wd.getState m))).bind ?_
      rintro st _ rfl
      exact ⟨w1', h1, rfl⟩
  · rw [if_neg hp, if_neg (show p ∉ ({ s with w := w } : St Wd).players from hp)]
    exact ⟨w, hw, rfl⟩

theorem same_removeLoop (U : Until Wd T early R) (l : Dict N Wd.G) : ∀ s s' : St Wd,
    Same R s s' → RelQ (Same R) (removeLoop s l) (removeLoop s' l) := by
  induction l with
  | nil => exact fun _ _ h => h
  | cons pg l ih =>
    obtain ⟨p, g⟩ := pg
    intro s s' h
    unfold removeLoop
    exact (same_removePlayer U p g h).bind fun t t' ht => ih t t' ht

theorem same_envObstacle (U : Until Wd T early R) (p : N) (o : Wd.O) {s s' : St Wd} (h : Same R s s') :
    RelQ (Same R) (envObstacle s p o) (envObstacle s' p o) := by
  obtain ⟨w, hw, rfl⟩ := h
  unfold envObstacle
  refine (RelQ.refl (lookup s.models p)).bind ?_
  rintro m _ rfl
  obtain ⟨w1, w2, m1, x, e0, e1, h1⟩ : ∃ w1 w2 m1 x, Wd.resolveEnv s.w p m o s.time = ((w1, m1), x) ∧
      Wd.resolveEnv w p m o s.time = ((w2, m1), x) ∧ R w1 w2 := by
    obtain ⟨h1, h2, h3⟩ := U.resolveEnv s.w w p m o s.time hw
    exact ⟨_, _, _, _, rfl, by rw [← h2, ← h3], h1⟩
  simp only [e0, e1]
  refine (RelQ.refl (reportOf _ _ _ _)).bind ?_
  rintro rep _ rfl
  cases rep with
  | none => exact ⟨w2, h1, rfl⟩
  | some rp =>
    show Same R (if _ then _ else _) (if _ then _ else _)
    split
    · exact ⟨w2, h1, rfl⟩
    · exact ⟨w2, h1, rfl⟩

theorem same_envObstacles (U : Until Wd T early R) (p : N) (os : List Wd.O) : ∀ s s' : St Wd,
    Same R s s' → RelQ (Same R) (envObstacles p s os) (envObstacles p s' os) := by
  induction os with
  | nil => exact fun _ _ h => h
  | cons o os ih =>
    intro s s' h
    unfold envObstacles
    exact (same_envObstacle U p o h).bind fun t t' ht => ih t t' ht

theorem same_envLoop (U : Until Wd T early R) (l : List N) : ∀ s s' : St Wd,
    Same R s s' → RelQ (Same R) (envLoop s l) (envLoop s' l) := by
  induction l with
  | nil => exact fun _ _ h => h
  | cons p l ih =>
    rintro s _ ⟨w, hw, rfl⟩
    unfold envLoop
    refine (RelQ.refl (lookup s.models p)).bind ?_
    rintro m _ rfl
    have hq : Wd.envQuery ({ s with w := w } : St Wd).w (Wd.footprint m) = Wd.envQuery s.w (Wd.footprint m) :=
      U.envQuery s.w w _ hw
    rw [hq]
    refine RelQ.bind (same_envObstacles U p _ { s with trace := s.trace ++ [.env s.time p] } _ ⟨w, hw, rfl⟩)
      fun t t' ht => ih t t' ht

theorem same_checkPair (U : Until Wd T early R) (p q : N) {s s' : St Wd} (h : Same R s s') :
    RelQ (Same R) (checkPair s p q) (checkPair s' p q) := by
  obtain ⟨w, hw, rfl⟩ := h
  unfold checkPair
  refine (RelQ.refl (lookup s.models p)).bind ?_
  rintro m _ rfl
  refine (RelQ.refl (lookup s.models q)).bind ?_
  rintro m' _ rfl
  cases Wd.touch (Wd.footprint m) (Wd.footprint m') with
  | false => exact ⟨w, hw, rfl⟩
  | true =>
    obtain ⟨w1, w2, m1, x, e0, e1, h1⟩ : ∃ w1 w2 m1 x, Wd.resolve s.w p m q m' s.time = ((w1, m1), x) ∧
        Wd.resolve w p m q m' s.time = ((w2, m1), x) ∧ R w1 w2 := by
      obtain ⟨h1, h2, h3⟩ := U.resolve s.w w p m q m' s.time hw
      exact ⟨_, _, _, _, rfl, by rw [← h2, ← h3], h1⟩
    simp only [if_true, e0, e1]
    refine (RelQ.refl (reportOf _ _ _ _)).bind ?_
    rintro rep _ rfl
    cases rep with
    | none => exact ⟨w2, h1, rfl⟩
    | some rp => exact ⟨w2, h1, rfl⟩

theorem same_pairLoop (U : Until Wd T early R) (l : List (N × N)) : ∀ s s' : St Wd,
    Same R s s' → RelQ (Same R) (pairLoop s l) (pairLoop s' l) := by
  induction l with
  | nil => exact fun _ _ h => h
  | cons pq l ih =>
    obtain ⟨p, q⟩ := pq
    intro s s' h
    unfold pairLoop
    exact (same_checkPair U p q h).bind fun t t' ht => ih t t' ht

theorem same_step (U : Until Wd T early R) (cfg : Cfg Wd) {s s' : St Wd} (h : Same R s s') (ht : s.time < T) :
    RelQ (Same R) (step cfg s) (step cfg s') := by
  unfold step
  refine (same_preUpdate cfg h ht).bind fun t t' ht => ?_
  refine (same_update U cfg ht).bind ?_
  rintro u _ ⟨w, hw, rfl⟩
  unfold postUpdate
  have h1 : Same R { u with time := u.time + cfg.dt } { u with w := w, time := u.time + cfg.dt } := ⟨w, hw, rfl⟩
  refine RelQ.bind (same_removeLoop U cfg.missions _ _ h1) ?_
  rintro v _ ⟨w, hw, rfl⟩
  have hb' : terminationCondition cfg { v with w := w } = terminationCondition cfg v := rfl
  rw [hb']
  have h2 : Same R { v with terminated := terminationCondition cfg v }
      { v with w := w, terminated := terminationCondition cfg v } := ⟨w, hw, rfl⟩
  cases hb : terminationCondition cfg v with
  | true => rw [hb] at h2; exact h2
  | false =>
    rw [hb] at h2
    simp only [Bool.false_eq_true, if_false]
    refine RelQ.bind (same_envLoop U v.players _ _ h2) ?_
    rintro x _ ⟨w, hw, rfl⟩
    exact same_pairLoop U (combinations2 x.players) _ _ ⟨w, hw, rfl⟩

theorem same_initLoop (U : Until Wd T early R) (l : List N) : ∀ s s' : St Wd, Same R s s' →
    RelQ (Same R) (initLoop s l) (initLoop s' l) := by
  induction l with
  | nil => exact fun _ _ h => h
  | cons n l ih =>
    rintro s _ ⟨w, hw, rfl⟩
    unfold initLoop
    refine (RelQ.refl (lookup s.models n)).bind ?_
    rintro m _ rfl
    refine (relQ_lift (U.onInit s.w w n hw)).bind ?_
    intro w1 w1' h1
    exact ih _ _ ⟨w1', h1, rfl⟩

theorem same_loop (U : Until Wd T early R) (cfg : Cfg Wd) (hdt : 0 ≤ cfg.dt) (t : K) (fuel : Nat) :
    ∀ (fuel' : Nat) {s s' a b : St Wd},
    Same R s s' → t ≤ s.time → loop cfg fuel s = some (.ok a) → loop cfg fuel' s' = some (.ok b) →
    ∃ p q, Same R p q ∧ Grows T p a ∧ Grows T q b ∧ Grows t s p ∧ ((T ≤ p.time) ∨ (p = a ∧ q = b)) := by
  induction fuel with
  | zero =>
    intro fuel' s s' a b h ht0 h1 h2
    obtain ⟨w, hw, rfl⟩ := h
    by_cases ht : T ≤ s.time
    · exact ⟨s, _, ⟨w, hw, rfl⟩, grows_loop hdt _ h1 ht, grows_loop hdt _ h2 ht, .refl _ _, Or.inl ht⟩
    unfold loop at h1
    split at h1
    · rename_i hterm
      have h2' : b = { s with w := w } := by
        cases fuel' with
        | zero => unfold loop at h2; rw [if_pos hterm] at h2; injection h2 with h2; injection h2 with h2; exact h2.symm
        | succ k => unfold loop at h2; rw [if_pos hterm] at h2; injection h2 with h2; injection h2 with h2; exact h2.symm
      injection h1 with h1
      injection h1 with h1
      subst h1 h2'
      exact ⟨_, _, ⟨w, hw, rfl⟩, .refl _ _, .refl _ _, .refl _ _, Or.inr ⟨rfl, rfl⟩⟩
    · cases h1
  | succ fuel ih =>
    intro fuel' s s' a b h ht0 h1 h2
    obtain ⟨w, hw, rfl⟩ := h
    by_cases ht : T ≤ s.time
    · exact ⟨s, _, ⟨w, hw, rfl⟩, grows_loop hdt _ h1 ht, grows_loop hdt _ h2 ht, .refl _ _, Or.inl ht⟩
    unfold loop at h1
    split at h1
    · rename_i hterm
      have h2' : b = { s with w := w } := by
        cases fuel' with
        | zero => unfold loop at h2; rw [if_pos hterm] at h2; injection h2 with h2; injection h2 with h2; exact h2.symm
        | succ k => unfold loop at h2; rw [if_pos hterm] at h2; injection h2 with h2; injection h2 with h2; exact h2.symm
      injection h1 with h1
      injection h1 with h1
      subst h1 h2'
      exact ⟨_, _, ⟨w, hw, rfl⟩, .refl _ _, .refl _ _, .refl _ _, Or.inr ⟨rfl, rfl⟩⟩
    · rename_i hterm
      cases fuel' with
      | zero =>
        unfold loop at h2
        rw [if_neg hterm] at h2
        cases h2
      | succ k =>
        unfold loop at h2
        rw [if_neg hterm] at h2
        have hs := same_step U cfg (s := s) (s' := { s with w := w }) ⟨w, hw, rfl⟩ (not_le.mp ht)
        cases e1 : step cfg s with
        | error e => rw [e1] at h1; injection h1 with h1; cases h1
        | ok s1 =>
          cases e2 : step cfg { s with w := w } with
          | error e => rw [e2] at h2; injection h2 with h2; cases h2
          | ok s2 =>
            rw [e1] at h1 hs
            rw [e2] at h2 hs
            have g := grows_step hdt e1 ht0
            obtain ⟨p, q, g1, g2, g3, g4, g5⟩ := ih k hs (ht0.trans g.time) h1 h2
            exact ⟨p, q, g1, g2, g3, g.trans g4, g5⟩

/-- **C166.** Step by step: as long as the time is before `T`, both simulations go through the same states (but for what the
agents remember), and raise the same exceptions. The states at the first time that is not before `T` still agree. -/
theorem C166_states (U : Until Wd T early R) (cfg : Cfg Wd) (σ σ' : Nat → St Wd) (J : Nat) (h0 : Same R (σ 0) (σ' 0))
    (hex : Exec cfg σ J) (hex' : Exec cfg σ' J) :
    ∀ k ≤ J, (∀ i < k, (σ i).time < T) → Same R (σ k) (σ' k) ∧
      ((σ k).time < T → RelQ (Same R) (step cfg (σ k)) (step cfg (σ' k))) := by
  intro k hk ht
  have : Same R (σ k) (σ' k) := by
    induction k with
    | zero => exact h0
    | succ k ih =>
      have hs := same_step U cfg (ih (by omega) fun i hi => ht i (by omega)) (ht k (by omega))
      rw [(hex k (by omega)).2, (hex' k (by omega)).2] at hs
      exact hs
  exact ⟨this, same_step U cfg this⟩

/-- Specification: the samples from before `T`. -/
def before {α : Type} (T : K) (s : Seq K α) : List (K × α) := s.samples.filter fun p => decide (p.1 < T)

/-- Specification: two logs of a player that agree before `T`. -/
def Agree (T : K) (a b : PlayerLog Wd) : Prop :=
  before T a.states = before T b.states ∧ before T a.commands = before T b.commands ∧
    before T a.extra = before T b.extra ∧ before T a.info = before T b.info

theorem before_extends {α : Type} {s : Seq K α} {ts : List K} {vs : List α} (h : Extends T ts s.ts vs s.vs)
    (hl : s.ts.length = s.vs.length) : before T s = (ts.zip vs).filter fun p => decide (p.1 < T) := by
  obtain ⟨a, b, h1, h2, hab, ha⟩ := h
  have hlen : ts.length = vs.length := by
    rw [h1, h2, List.length_append, List.length_append] at hl
    omega
  unfold before Seq.samples
  rw [h1, h2, List.zip_append hlen, List.filter_append]
  have : ((a.zip b).filter fun p => decide (p.1 < T)) = [] := by
    rw [List.filter_eq_nil_iff]
    rintro ⟨x, y⟩ hx
    have := ha x (List.of_mem_zip hx).1
    simpa using this
  rw [this, List.append_nil]

theorem length_of_builder {α : Type} {b : Builder K α} {s : Seq K α} (h : b.asSequence = .ok s) :
    s.ts.length = s.vs.length := by
  unfold Builder.asSequence Seq.mk? at h
  split at h
  · cases h
  · rename_i hn
    split at h
    · injection h with h; subst h; exact not_not.mp hn
    · cases h

theorem agree_of_extends {g lg lg' : PlayerLogger Wd} {a b : PlayerLog Wd} (h : g.Extends T lg) (h' : g.Extends T lg')
    (ha : lg.asSequence = .ok a) (hb : lg'.asSequence = .ok b) : Agree T a b := by
  have key : ∀ {lg : PlayerLogger Wd} {a : PlayerLog Wd}, lg.asSequence = .ok a → g.Extends T lg →
      before T a.states = (g.states.ts.zip g.states.vs).filter (fun p => decide (p.1 < T)) ∧
        before T a.commands = (g.commands.ts.zip g.commands.vs).filter (fun p => decide (p.1 < T)) ∧
        before T a.extra = (g.extra.ts.zip g.extra.vs).filter (fun p => decide (p.1 < T)) ∧
        before T a.info = (g.info.ts.zip g.info.vs).filter (fun p => decide (p.1 < T)) := by
    intro lg a hs hg
    obtain ⟨⟨p1, p2⟩, ⟨p3, p4⟩, ⟨p5, p6⟩, ⟨p7, p8⟩⟩ := log_of_logger hs
    obtain ⟨g1, g2, g3, g4⟩ := hg
    unfold PlayerLogger.asSequence at hs
    split at hs
    · rename_i h1 h2 h3 h4
      injection hs with hs
      subst hs
      exact ⟨before_extends (by rw [p1, p2]; exact g1) (length_of_builder h1),
        before_extends (by rw [p3, p4]; exact g2) (length_of_builder h2),
        before_extends (by rw [p5, p6]; exact g3) (length_of_builder h3),
        before_extends (by rw [p7, p8]; exact g4) (length_of_builder h4)⟩
    all_goals cases hs
  obtain ⟨x1, x2, x3, x4⟩ := key ha h
  obtain ⟨y1, y2, y3, y4⟩ := key hb h'
  exact ⟨x1.trans y1.symm, x2.trans y2.symm, x3.trans y3.symm, x4.trans y4.symm⟩

theorem init_effect : ∀ (l : List N) {s s1 : St Wd}, initLoop s l = .ok s1 →
    s1.models = s.models ∧ ∀ n, Dict.get? s1.logger n = if n ∈ l then some {} else Dict.get? s.logger n
  | [], s, s1, h => by
    injection h with h
    subst h
    exact ⟨rfl, fun n => by simp⟩
  | k :: ns, s, s1, h => by
    unfold initLoop at h
    cases e1 : lookup s.models k with
    | error e => rw [e1] at h; cases h
    | ok m =>
    cases e2 : liftU (Wd.onInit s.w k) with
    | error e => rw [e1] at h; simp only [bind, Except.bind] at h; rw [e2] at h; cases h
    | ok w' =>
    rw [e1] at h
    simp only [bind, Except.bind] at h
    rw [e2] at h
    obtain ⟨h1, h2⟩ := init_effect ns h
    refine ⟨h1, fun n => ?_⟩
    rw [h2 n]
    by_cases hn : n ∈ ns
    · simp [hn]
    · rw [if_neg hn]
      by_cases hk : n = k
      · subst hk
        simp [Dict.get?_set_self]
      · simp only [List.mem_cons, hk, hn, or_self, if_false]
        exact Dict.get?_set_ne _ (Ne.symm hk) _

/-- **C166.** The whole simulation: of two returning runs that differ in nothing but what the agents do from `T` on, everything
recorded before `T` is the same: the states, commands, extra data and planning data of every player, and the collision
reports. If the first run is over before `T`, so is the second, and they have the same result. -/
theorem C166_log (U : Until Wd T early R) (cfg : Cfg Wd) (hdt : 0 ≤ cfg.dt) (fuel fuel' : Nat) (s : St Wd) (hs : Fresh s)
    (w : Wd.W) (hw : R s.w w) (log : Dict N (PlayerLog Wd)) {s1 s2 : St Wd} {l1 l2 : Dict N (PlayerLog Wd)}
    (h1 : run cfg fuel s log = some (.ok (s1, l1))) (h2 : run cfg fuel' { s with w := w } log = some (.ok (s2, l2))) :
    (∀ n, n ∈ Dict.keys l1 ↔ n ∈ Dict.keys l2) ∧
      (∀ n a b, Dict.get? l1 n = some a → Dict.get? l2 n = some b → n ∈ Dict.keys s.models → Agree T a b) ∧
      (s1.reports.filter (fun r => decide (r.atTime < T)) = s2.reports.filter fun r => decide (r.atTime < T)) ∧
      (s1.time < T → Same R s1 s2 ∧ l1 = l2) := by
  have hi := same_initLoop U s.players s { s with w := w } ⟨w, hw, rfl⟩
  unfold run at h1 h2
  cases i1 : initLoop s s.players with
  | error e => rw [i1] at h1; injection h1 with h1; cases h1
  | ok s0 =>
    cases i2 : initLoop { s with w := w } s.players with
    | error e => rw [i2] at h2; injection h2 with h2; cases h2
    | ok s0' =>
      rw [i1] at h1 hi
      rw [i2] at h2 hi
      simp only at h1 h2
      cases ha : loop cfg fuel s0 with
      | none => rw [ha] at h1; cases h1
      | some ra =>
        cases ra with
        | error e => rw [ha] at h1; injection h1 with h1; cases h1
        | ok sa =>
          cases hb : loop cfg fuel' s0' with
          | none => rw [hb] at h2; cases h2
          | some rb =>
            cases rb with
            | error e => rw [hb] at h2; injection h2 with h2; cases h2
            | ok sb =>
              rw [ha] at h1
              rw [hb] at h2
              simp only at h1 h2
              cases wa : writeLog sa.logger (Dict.keys sa.models) log with
              | error e => rw [wa] at h1; injection h1 with h1; cases h1
              | ok la =>
                cases wb : writeLog sb.logger (Dict.keys sb.models) log with
                | error e => rw [wb] at h2; injection h2 with h2; cases h2
                | ok lb =>
                  rw [wa] at h1
                  rw [wb] at h2
                  injection h1 with h1; injection h1 with h1; injection h1 with e1 e2; subst e1; subst e2
                  injection h2 with h2; injection h2 with h2; injection h2 with e1 e2; subst e1; subst e2
                  obtain ⟨p, q, g1, g2, g3, g4, g5⟩ := same_loop U cfg hdt s0.time fuel fuel' hi le_rfl ha hb
                  obtain ⟨wq, hwq, rfl⟩ := g1
                  obtain ⟨e0, hlg0⟩ := init_effect _ i1
                  have km : Dict.keys s0.models = Dict.keys s.models := by rw [e0]
                  have ka : Dict.keys sa.models = Dict.keys s.models := (g2.keys.trans g4.keys).trans km
                  have kb : Dict.keys sb.models = Dict.keys s.models := (g3.keys.trans g4.keys).trans km
                  have wa' := wa
                  have wb' := wb
                  rw [ka] at wa
                  rw [kb] at wb
                  refine ⟨?_, ?_, ?_, ?_⟩
                  · intro n
                    rw [Dict.mem_keys_iff, Dict.mem_keys_iff]
                    rcases writeLog_get _ _ wa n with ⟨hn, hg⟩ | ⟨hn, lg, l, -, -, hg⟩ <;>
                      rcases writeLog_get _ _ wb n with ⟨hn', hg'⟩ | ⟨hn', lg', l', -, -, hg'⟩
                    · rw [hg, hg']
                    · exact absurd hn' hn
                    · exact absurd hn hn'
                    · rw [hg, hg']; simp
                  · intro n a b hna hnb hn
                    rcases writeLog_get _ _ wa n with ⟨hn', -⟩ | ⟨-, lg, l, x1, x2, hg⟩
                    · exact absurd hn hn'
                    rcases writeLog_get _ _ wb n with ⟨hn', -⟩ | ⟨-, lg', l', x1', x2', hg'⟩
                    · exact absurd hn hn'
                    rw [hna] at hg; injection hg with hg; subst hg
                    rw [hnb] at hg'; injection hg' with hg'; subst hg'
                    have h0 : Dict.get? s0.logger n = some {} := (hlg0 n).trans (if_pos ((hs.keys n).mpr hn))
                    obtain ⟨lgp, z1, -⟩ := g4.logger n _ h0
                    obtain ⟨_, y1, y2⟩ := g2.logger n lgp z1
                    obtain ⟨_, y1', y2'⟩ := g3.logger n lgp z1
                    rw [x1] at y1; injection y1 with y1; subst y1
                    rw [x1'] at y1'; injection y1' with y1'; subst y1'
                    exact agree_of_extends y2 y2' x2 x2'
                  · obtain ⟨r, hr, hr'⟩ := g2.reports
                    obtain ⟨r2, hr2, hr2'⟩ := g3.reports
                    have key : ∀ l : List (Report Wd), (∀ x ∈ l, T ≤ x.atTime) →
                        l.filter (fun r => decide (r.atTime < T)) = [] := by
                      intro l hl
                      rw [List.filter_eq_nil_iff]
                      intro x hx
                      simpa using hl x hx
                    rw [hr, hr2, List.filter_append, List.filter_append, key r hr', key r2 hr2', List.append_nil]
                  · intro ht
                    rcases g5 with g5 | ⟨rfl, rfl⟩
                    · exact absurd (g5.trans g2.time) (not_le.mpr ht)
                    · refine ⟨⟨wq, hwq, rfl⟩, ?_⟩
                      have : (Except.ok la : Except SimErr _) = .ok lb := by rw [← wa', ← wb']
                      injection this

theorem raises_loop (U : Until Wd T early R) (cfg : Cfg Wd) {e : SimErr} (k : Nat) : ∀ (σ : Nat → St Wd) (s' : St Wd) (fuel : Nat),
    Exec cfg σ k → (∀ i ≤ k, (σ i).time < T) → (σ k).terminated = false → step cfg (σ k) = .error e → Same R (σ 0) s' →
    k < fuel → loop cfg fuel s' = some (.error e) := by
  induction k with
  | zero =>
    intro σ s' fuel _ ht hn he h0 hf
    obtain ⟨fuel, rfl⟩ : ∃ f, fuel = f + 1 := ⟨fuel - 1, by omega⟩
    have hs := same_step U cfg h0 (ht 0 le_rfl)
    obtain ⟨w, hw, rfl⟩ := h0
    unfold loop
    rw [if_neg (by simpa using hn)]
    rw [he] at hs
    cases e2 : step cfg { σ 0 with w := w } with
    | error e' => rw [e2] at hs; rw [show e = e' from hs]
    | ok b => rw [e2] at hs; exact hs.elim
  | succ k ih =>
    intro σ s' fuel hex ht hn he h0 hf
    obtain ⟨fuel, rfl⟩ : ∃ f, fuel = f + 1 := ⟨fuel - 1, by omega⟩
    have hs := same_step U cfg h0 (ht 0 (by omega))
    obtain ⟨h1, h2⟩ := hex 0 (by omega)
    obtain ⟨w, hw, rfl⟩ := h0
    unfold loop
    rw [if_neg (by simpa using h1)]
    rw [h2] at hs
    cases e2 : step cfg { σ 0 with w := w } with
    | error e' => rw [e2] at hs; exact hs.elim
    | ok b =>
      rw [e2] at hs
      exact ih (fun i => σ (i + 1)) b fuel (fun i hi => hex (i + 1) (by omega)) (fun i hi => ht (i + 1) (by omega)) hn he hs
        (by omega)

/-- **C166.** If the first simulation is ended by an exception in a step taken before `T`, the second one is ended by the same
exception. -/
theorem C166_raises (U : Until Wd T early R) (cfg : Cfg Wd) (s : St Wd) (w : Wd.W) (hw : R s.w w)
    (log : Dict N (PlayerLog Wd)) (σ : Nat → St Wd) (k : Nat) (h0 : initLoop s s.players = .ok (σ 0)) (hex : Exec cfg σ k)
    (ht : ∀ i ≤ k, (σ i).time < T) (hn : (σ k).terminated = false) (e : SimErr) (he : step cfg (σ k) = .error e) (fuel : Nat)
    (hf : k < fuel) : run cfg fuel { s with w := w } log = some (.error e) := by
  have hi := same_initLoop U s.players s { s with w := w } ⟨w, hw, rfl⟩
  rw [h0] at hi
  unfold run
  cases i2 : initLoop { s with w := w } s.players with
  | error e' => rw [i2] at hi; exact hi.elim
  | ok s0 =>
    rw [i2] at hi
    simp only [raises_loop U cfg k σ s0 fuel hex ht hn he hi hf]

end

/-! ## Cars that change their speed at time 2 -/

namespace Plan

/-- The cars of `Toy`; cars other than 1 drive with speed 1 until time 2, then with the speed they have in mind. -/
abbrev wd : World Nat ℚ where
  W := ℚ
  M := ℚ
  X := ℚ
  P := ℚ
  C := ℚ
  I := Nat
  E := ℚ
  O := ℚ
  D := ℚ
  G := ℚ
  getState m := m
  footprint m := m
  isDyn _ := false
  onInit w _ := .ok w
  sense w _ o := .ok (w, o)
  getCommands w n o := .ok (w, if n = 1 then -1 else if o.time < 2 then 1 else w, n)
  getExtra w n := .ok (w, some n)
  update w _ m c dt := .ok (w, m + c * dt)
  fulfilled w _ g x _ := .ok (w, decide (g ≤ x))
  envQuery _ p := if 30 ≤ p then [30] else []
  env := 99
  resolveEnv w _ m _ _ := ((w, m), .ok (some 1))
  touch a b := decide (a - b ≤ 1 ∧ b - a ≤ 1)
  resolve w _ m₁ _ m₂ _ := ((w, m₁, m₂), .ok (some (m₁ + m₂)))

/-- Before time 2 it makes no difference which speed they have in mind. -/
theorem until_two : Until wd 2 (fun o => o.time < 2) (fun _ _ => True) where
  onInit _ _ _ h := h
  sense _ _ _ _ h ho := ⟨⟨h, ho⟩, rfl⟩
  getCommands := by
    intro w w' n o h ho
    refine ⟨h, ?_⟩
    simp only [if_pos ho]
  getExtra _ _ _ h := ⟨h, rfl⟩
  update _ _ _ _ _ _ h := ⟨h, rfl⟩
  fulfilled _ _ _ _ _ _ h := ⟨h, rfl⟩
  envQuery _ _ _ _ := rfl
  resolveEnv _ _ _ _ _ _ h := ⟨h, rfl, rfl⟩
  resolve _ _ _ _ _ _ _ h := ⟨h, rfl, rfl⟩

def cfg : Cfg wd := ⟨1 / 2, 1, 6, 1, [(2, (21 : ℚ)), (0, (100 : ℚ))]⟩

def start : St wd where
  models := [(0, (0 : ℚ)), (1, (9 : ℚ)), (2, (20 : ℚ))]
  players := [0, 1, 2]
  w := 2
  time := 0
  terminated := false
  reports := []
  firstColl := none
  lastObs := ⟨[], 0⟩
  lastCmdTs := none
  lastCmds := []
  logger := []
  trace := []

theorem fresh : Fresh start where
  time := rfl
  terminated := rfl
  reports := rfl
  firstColl := rfl
  lastCmdTs := rfl
  wfModels := by unfold Dict.Wf; decide
  players := by decide
  keys n := by simp [start, Dict.keys]
  trace := rfl

def outcome : Option (Except SimErr (St wd × Dict Nat (PlayerLog wd))) → St wd × Dict Nat (PlayerLog wd)
  | some (.ok r) => r
  | _ => (start, [])

def resultOf (w : ℚ) : St wd × Dict Nat (PlayerLog wd) := outcome (run cfg 20 { start with w := w } [])

theorem run_eq (x : Option (Except SimErr (St wd × Dict Nat (PlayerLog wd))))
    (h : (x.map fun x => x.toOption.isSome) = some true) : x = some (.ok (outcome x)) := by
  rcases x with _ | (e | r)
  · cases h
  · cases h
  · rfl

theorem run_two : run cfg 20 start [] = some (.ok (resultOf 2)) := run_eq (run cfg 20 start []) (by decide +kernel)

theorem run_half : run cfg 20 { start with w := 1 / 2 } [] = some (.ok (resultOf (1 / 2))) :=
  run_eq (run cfg 20 { start with w := 1 / 2 } []) (by decide +kernel)

example := C166_log until_two cfg (by decide +kernel) 20 20 start fresh (1 / 2) trivial [] run_two run_half

/-- With speed 2 from time 2 on, car 0 meets car 1 at 3.5 and the run ends at 5; with speed 1/2 they meet at 5. -/
example : ((resultOf 2).1.time, (resultOf 2).1.reports.map (·.atTime)) = (5, [7 / 2, 4]) ∧
    ((resultOf (1 / 2)).1.time, (resultOf (1 / 2)).1.reports.map (·.atTime)) = (13 / 2, [5, 11 / 2, 6]) := by
  decide +kernel

def next (s : St wd) : Except SimErr (St wd) → St wd
  | .ok s' => s'
  | .error _ => s

/-- The states, one by one. Four steps are taken before time 2. -/
def σ (w : ℚ) : Nat → St wd
  | 0 => next start (initLoop { start with w := w } start.players)
  | i + 1 => next (σ w i) (step cfg (σ w i))

theorem step_eq (x : Except SimErr (St wd)) (s : St wd) (h : x.toOption.isSome = true) : x = .ok (next s x) := by
  rcases x with e | r
  · cases h
  · rfl

theorem exec (w : ℚ) (h : ∀ i < 8, (σ w i).terminated = false ∧ (step cfg (σ w i)).toOption.isSome = true) :
    Exec cfg (σ w) 8 :=
  fun i hi => ⟨(h i hi).1, step_eq _ (σ w i) (h i hi).2⟩

example := C166_states until_two cfg (σ 2) (σ (1 / 2)) 8 ⟨1 / 2, trivial, rfl⟩ (exec 2 (by decide +kernel))
  (exec (1 / 2) (by decide +kernel)) 4 (by norm_num) (by decide +kernel)

/-- From the sixth state on they differ. -/
example : (σ 2 4).models = (σ (1 / 2) 4).models ∧ (σ 2 5).models ≠ (σ (1 / 2) 5).models := by decide +kernel

/-- Cars that have no answer at time 1. -/
abbrev mute : World Nat ℚ :=
  { wd with getCommands := fun w n o => if o.time = 1 then .error .value else wd.getCommands w n o }

theorem mute_until : Until mute 2 (fun o => o.time < 2) (fun _ _ => True) where
  onInit _ _ _ h := h
  sense _ _ _ _ h ho := ⟨⟨h, ho⟩, rfl⟩
  getCommands := by
    intro w w' n o h ho
    by_cases h1 : o.time = 1
    · simp only [mute, if_pos h1]; rfl
    · simp only [mute, if_neg h1]
      exact until_two.getCommands w w' n o h ho
  getExtra _ _ _ h := ⟨h, rfl⟩
  update _ _ _ _ _ _ h := ⟨h, rfl⟩
  fulfilled _ _ _ _ _ _ h := ⟨h, rfl⟩
  envQuery _ _ _ _ := rfl
  resolveEnv _ _ _ _ _ _ h := ⟨h, rfl, rfl⟩
  resolve _ _ _ _ _ _ _ h := ⟨h, rfl, rfl⟩

def muteCfg : Cfg mute := ⟨1 / 2, 1, 6, 1, []⟩

def muteStart : St mute where
  models := [(0, (0 : ℚ))]
  players := [0]
  w := 2
  time := 0
  terminated := false
  reports := []
  firstColl := none
  lastObs := ⟨[], 0⟩
  lastCmdTs := none
  lastCmds := []
  logger := []
  trace := []

def muteNext (s : St mute) : Except SimErr (St mute) → St mute
  | .ok s' => s'
  | .error _ => s

def muteσ : Nat → St mute
  | 0 => muteNext muteStart (initLoop muteStart muteStart.players)
  | i + 1 => muteNext (muteσ i) (step muteCfg (muteσ i))

theorem mute_eq (x : Except SimErr (St mute)) (s : St mute) (h : x.toOption.isSome = true) : x = .ok (muteNext s x) := by
  rcases x with e | r
  · cases h
  · rfl

theorem mute_error (x : Except SimErr (St mute)) (h : (match x with | .error e => some e | .ok _ => none) = some (.user .value)) :
    x = .error (.user .value) := by
  rcases x with e | r
  · injection h with h; rw [h]
  · cases h

/-- The third step raises, whatever the later speed. -/
example := C166_raises mute_until muteCfg muteStart 7 trivial [] muteσ 2 (mute_eq _ _ (by decide +kernel))
  (fun i hi => ⟨(by decide +kernel : ∀ i < 2, (muteσ i).terminated = false) i hi,
    mute_eq _ _ ((by decide +kernel : ∀ i < 2, (step muteCfg (muteσ i)).toOption.isSome = true) i hi)⟩)
  (by decide +kernel) (by decide +kernel) (.user .value) (mute_error _ (by decide +kernel)) 20 (by norm_num)

end Plan
end Causal
end Sim
end Verif
