import Verif.Sim.RunProps
import Verif.Sim.Closed
import Verif.Sim.Toy

/-!
# C21, C23: a run returns unless code that it calls raises

`Raises Wd A u` says that some call of an agent, sensor, model, goal or collision resolution for players in `A`
raises `u`; the simulator itself raises nothing, and it catches `CollisionException`.
-/

set_option linter.unusedSectionVars false

namespace Verif
namespace Sim

variable {N K : Type} [DecidableEq N] [Field K] [LinearOrder K] [IsStrictOrderedRing K] [FloorSemiring K]

/-- Specification: some call of code outside of the simulator, for players in `A`, raises `u`. -/
inductive Raises (Wd : World N K) (A : N → Prop) (u : Err) : Prop
  | onInit (w n) (hn : A n) (h : Wd.onInit w n = .error u)
  | sense (w n o) (hn : A n) (h : Wd.sense w n o = .error u)
  | getCommands (w n o) (hn : A n) (h : Wd.getCommands w n o = .error u)
  | getExtra (w n) (hn : A n) (h : Wd.getExtra w n = .error u)
  | update (w n m c dt) (hn : A n) (h : Wd.update w n m c dt = .error u)
  | fulfilled (w n g x t) (hn : A n) (h : Wd.fulfilled w n g x t = .error u)
  | resolveEnv (w n m o t) (hn : A n) (h : (Wd.resolveEnv w n m o t).2 = .error u) (hu : u ≠ .collision)
  | resolve (w n₁ m₁ n₂ m₂ t) (h₁ : A n₁) (h₂ : A n₂) (h : (Wd.resolve w n₁ m₁ n₂ m₂ t).2 = .error u)
      (hu : u ≠ .collision)

/-- Exceptions of called code are exceptions that it raises. -/
def Blames (Wd : World N K) (A : N → Prop) {α : Type} (x : Except SimErr α) : Prop :=
  ∀ u, x = .error (.user u) → Raises Wd A u

variable {Wd : World N K} {A : N → Prop} {α β : Type}

theorem Blames.ok (a : α) : Blames Wd A (.ok a) := fun _ h => by cases h

theorem Blames.pure (a : α) : Blames Wd A (Pure.pure a) := fun _ h => by cases h

theorem Blames.bind' {x : Except SimErr α} {f : α → Except SimErr β} (h : Blames Wd A x)
    (hf : ∀ a, x = .ok a → Blames Wd A (f a)) : Blames Wd A (x >>= f) := by
  cases x with
  | ok a => exact hf a rfl
  | error e =>
    intro u hu
    apply h
    injection hu with hu
    rw [hu]

theorem Blames.bind {x : Except SimErr α} {f : α → Except SimErr β} (h : Blames Wd A x)
    (hf : ∀ a, Blames Wd A (f a)) : Blames Wd A (x >>= f) := h.bind' fun a _ => hf a

theorem Blames.lookup {γ : Type} (d : Dict N γ) (n : N) : Blames Wd A (lookup d n) := by
  intro u hu
  unfold Sim.lookup at hu
  split at hu <;> cases hu

theorem Blames.addLog {γ : Type} (b : Builder K γ) (t : K) (v : γ) : Blames Wd A (addLog b t v) := by
  intro u hu
  unfold Sim.addLog at hu
  split at hu
  · cases hu
  · injection hu with hu; cases hu

theorem Blames.liftU {x : Except Err α} (h : ∀ u, x = .error u → Raises Wd A u) : Blames Wd A (liftU x) := by
  intro u hu
  cases x with
  | ok a => cases hu
  | error e =>
    injection hu with hu
    injection hu with hu
    subst hu
    exact h e rfl

theorem Blames.reportOf (l l' : List N) (t : K) {x : Except Err (Option Wd.D)}
    (h : ∀ u, x = .error u → u ≠ .collision → Raises Wd A u) : Blames Wd A (reportOf (Wd := Wd) l l' t x) := by
  intro u hu
  cases x with
  | ok a => cases a <;> cases hu
  | error e =>
    by_cases he : e = .collision
    · subst he; cases hu
    · have : Sim.reportOf (Wd := Wd) l l' t (Except.error e) = .error (.user e) := by
        cases e <;> first | rfl | exact absurd rfl he
      rw [this] at hu
      injection hu with hu
      injection hu with hu
      subst hu
      exact h e rfl he

theorem Blames.observe (models : Dict N Wd.M) : ∀ l, Blames Wd A (observe (Wd := Wd) models l)
  | [] => .ok _
  | _ :: ns => (Blames.lookup _ _).bind fun _ => (Blames.observe models ns).bind fun _ => .pure _

theorem Blames.preUpdate (cfg : Cfg Wd) (s : St Wd) : Blames Wd A (preUpdate cfg s) := by
  unfold Sim.preUpdate
  split
  · exact (Blames.observe _ _).bind fun _ => .pure _
  · exact .ok _

theorem Blames.addExtra (b : Builder K Wd.E) (t : K) (e : Option Wd.E) : Blames Wd A (addExtra (Wd := Wd) b t e) := by
  cases e with
  | none => exact .ok _
  | some e => exact .addLog _ _ _

theorem Blames.askPlayer (s : St Wd) (n : N) (hn : A n) : Blames Wd A (askPlayer s n) := by
  unfold Sim.askPlayer
  refine (Blames.liftU fun u h => .sense _ _ _ hn h).bind fun a => ?_
  refine (Blames.liftU fun u h => .getCommands _ _ _ hn h).bind fun b => ?_
  refine (Blames.lookup _ _).bind fun c => (Blames.addLog _ _ _).bind fun d => (Blames.addLog _ _ _).bind fun e => ?_
  refine (Blames.liftU fun u h => .getExtra _ _ hn h).bind fun f => ?_
  exact (Blames.addExtra _ _ _).bind fun _ => .pure _

theorem Blames.updatePlayer (cfg : Cfg Wd) (s : St Wd) (n : N) (hn : A n) : Blames Wd A (updatePlayer cfg s n) := by
  unfold Sim.updatePlayer
  refine (Blames.lookup _ _).bind fun a => (Blames.lookup _ _).bind fun b => (Blames.addLog _ _ _).bind fun c => ?_
  refine Blames.bind ?_ fun d => (Blames.lookup _ _).bind fun e => (Blames.lookup _ _).bind fun f => ?_
  · unfold maybeAsk
    split
    · exact .askPlayer _ _ hn
    · exact .ok _
  · exact (Blames.liftU fun u h => .update _ _ _ _ _ hn h).bind fun _ => .pure _

theorem Blames.updateLoop (cfg : Cfg Wd) : ∀ (l : List N) (s : St Wd), (∀ n ∈ l, A n) →
    Blames Wd A (updateLoop cfg s l)
  | [], _, _ => .ok _
  | n :: ns, _, h => (Blames.updatePlayer _ _ _ (h n List.mem_cons_self)).bind fun s' =>
      Blames.updateLoop cfg ns s' fun k hk => h k (List.mem_cons_of_mem _ hk)

theorem Blames.removePlayer (s : St Wd) (p : N) (g : Wd.G) (h : ∀ n ∈ s.players, A n) :
    Blames Wd A (removePlayer s p g) := by
  unfold Sim.removePlayer
  split
  · rename_i hp
    refine (Blames.lookup _ _).bind fun a => (Blames.liftU fun u e => .fulfilled _ _ _ _ _ (h p hp) e).bind fun b => ?_
    dsimp only
    split
    · exact (Blames.lookup _ _).bind fun c => (Blames.addLog _ _ _).bind fun d => .pure _
    · exact .pure _
  · exact .ok _

theorem removePlayer_players {s s' : St Wd} {p : N} {g : Wd.G} (h : removePlayer s p g = .ok s') :
    ∀ n ∈ s'.players, n ∈ s.players := by
  unfold removePlayer at h
  split at h
  · obtain ⟨m, -, h⟩ := bind_ok.mp h
    obtain ⟨⟨w', b⟩, -, h⟩ := bind_ok.mp h
    dsimp only at h
    split at h
    · obtain ⟨lg, -, h⟩ := bind_ok.mp h
      obtain ⟨st, -, h⟩ := bind_ok.mp h
      injection h with h
      subst h
      exact fun n hn => List.mem_of_mem_erase hn
    · injection h with h
      subst h
      exact fun n hn => hn
  · injection h with h
    subst h
    exact fun n hn => hn

theorem removeLoop_players : ∀ (l : Dict N Wd.G) {s s' : St Wd}, removeLoop s l = .ok s' →
    ∀ n ∈ s'.players, n ∈ s.players
  | [], s, s', h => by injection h with h; subst h; exact fun n hn => hn
  | (p, g) :: rest, s, s', h => by
    unfold removeLoop at h
    obtain ⟨s1, h1, h⟩ := bind_ok.mp h
    exact fun n hn => removePlayer_players h1 n (removeLoop_players rest h n hn)

theorem Blames.removeLoop : ∀ (l : Dict N Wd.G) (s : St Wd), (∀ n ∈ s.players, A n) → Blames Wd A (removeLoop s l)
  | [], _, _ => .ok _
  | (_, _) :: rest, _, h => (Blames.removePlayer _ _ _ h).bind' fun s' e => Blames.removeLoop rest s' fun n hn =>
      h n (removePlayer_players e n hn)

theorem Blames.envObstacle (s : St Wd) (p : N) (o : Wd.O) (hp : A p) : Blames Wd A (envObstacle s p o) := by
  unfold Sim.envObstacle
  refine (Blames.lookup _ _).bind fun a => ?_
  exact (Blames.reportOf _ _ _ fun u h hu => .resolveEnv _ _ _ _ _ hp h hu).bind fun _ => .pure _

theorem Blames.envObstacles (p : N) (hp : A p) : ∀ (l : List Wd.O) (s : St Wd), Blames Wd A (envObstacles p s l)
  | [], _ => .ok _
  | _ :: os, _ => (Blames.envObstacle _ _ _ hp).bind fun s' => Blames.envObstacles p hp os s'

theorem Blames.envLoop : ∀ (l : List N) (s : St Wd), (∀ n ∈ l, A n) → Blames Wd A (envLoop s l)
  | [], _, _ => .ok _
  | p :: ps, _, h => (Blames.lookup _ _).bind fun _ => (Blames.envObstacles _ (h p List.mem_cons_self) _ _).bind
      fun s' => Blames.envLoop ps s' fun k hk => h k (List.mem_cons_of_mem _ hk)

theorem envObstacles_players (p : N) : ∀ (l : List Wd.O) {s s' : St Wd}, envObstacles p s l = .ok s' →
    s'.players = s.players
  | [], s, s', h => by injection h with h; rw [h]
  | o :: os, s, s', h => by
    unfold envObstacles at h
    obtain ⟨s1, h1, h⟩ := bind_ok.mp h
    exact (envObstacles_players p os h).trans (envObstacle_players h1)

theorem envLoop_players : ∀ (l : List N) {s s' : St Wd}, envLoop s l = .ok s' → s'.players = s.players
  | [], s, s', h => by injection h with h; rw [h]
  | p :: ps, s, s', h => by
    unfold envLoop at h
    obtain ⟨m, -, h⟩ := bind_ok.mp h
    obtain ⟨s1, h1, h⟩ := bind_ok.mp h
    have e := envObstacles_players p _ h1
    exact (envLoop_players ps h).trans e

theorem Blames.checkPair (s : St Wd) (a b : N) (ha : A a) (hb : A b) : Blames Wd A (checkPair s a b) := by
  unfold Sim.checkPair
  refine (Blames.lookup _ _).bind fun x => (Blames.lookup _ _).bind fun y => ?_
  dsimp only
  split
  · exact (Blames.reportOf _ _ _ fun u h hu => .resolve _ _ _ _ _ _ ha hb h hu).bind fun _ => .pure _
  · exact .pure _

theorem Blames.pairLoop : ∀ (l : List (N × N)) (s : St Wd), (∀ p ∈ l, A p.1 ∧ A p.2) → Blames Wd A (pairLoop s l)
  | [], _, _ => .ok _
  | (a, b) :: rest, _, h => (Blames.checkPair _ _ _ (h (a, b) List.mem_cons_self).1 (h (a, b) List.mem_cons_self).2).bind
      fun s' => Blames.pairLoop rest s' fun p hp => h p (List.mem_cons_of_mem _ hp)

theorem pairLoop_players : ∀ (l : List (N × N)) {s s' : St Wd}, pairLoop s l = .ok s' → s'.players = s.players
  | [], s, s', h => by injection h with h; rw [h]
  | (a, b) :: rest, s, s', h => by
    unfold pairLoop at h
    obtain ⟨s1, h1, h⟩ := bind_ok.mp h
    exact (pairLoop_players rest h).trans (checkPair_players h1)

theorem preUpdate_players {cfg : Cfg Wd} {s s' : St Wd} (h : preUpdate cfg s = .ok s') : s'.players = s.players := by
  unfold preUpdate at h
  split at h
  · obtain ⟨ps, -, h⟩ := bind_ok.mp h
    injection h with h
    rw [← h]
  · injection h with h
    rw [h]

theorem updateLoop_players {cfg : Cfg Wd} : ∀ (l : List N) {s s' : St Wd}, updateLoop cfg s l = .ok s' →
    s'.players = s.players
  | [], s, s', h => by injection h with h; rw [h]
  | n :: ns, s, s', h => by
    unfold updateLoop at h
    obtain ⟨s1, h1, h⟩ := bind_ok.mp h
    exact (updateLoop_players ns h).trans (updatePlayer_players h1)

theorem update_players {cfg : Cfg Wd} {s s' : St Wd} (h : update cfg s = .ok s') : s'.players = s.players := by
  unfold update at h
  obtain ⟨s1, h1, h⟩ := bind_ok.mp h
  injection h with h
  rw [← updateLoop_players _ h1, ← h]
  split <;> rfl

theorem step_players {cfg : Cfg Wd} {s s' : St Wd} (h : step cfg s = .ok s') : ∀ n ∈ s'.players, n ∈ s.players := by
  unfold step at h
  obtain ⟨s1, h1, h⟩ := bind_ok.mp h
  obtain ⟨s2, h2, h⟩ := bind_ok.mp h
  unfold postUpdate at h
  obtain ⟨s3, h3, h⟩ := bind_ok.mp h
  have key : ∀ n ∈ s3.players, n ∈ s.players := by
    intro n hn
    have := removeLoop_players _ h3 n hn
    simp only [update_players h2, preUpdate_players h1] at this
    exact this
  dsimp only at h
  split at h
  · injection h with h
    subst h
    exact key
  · obtain ⟨s4, h4, h⟩ := bind_ok.mp h
    rw [pairLoop_players _ h, envLoop_players _ h4]
    exact key

theorem Blames.step (cfg : Cfg Wd) (s : St Wd) (hA : ∀ n ∈ s.players, A n) : Blames Wd A (step cfg s) := by
  unfold Sim.step
  refine (Blames.preUpdate _ _).bind' fun s1 e1 => Blames.bind' ?_ fun s2 e2 => ?_
  · refine (Blames.updateLoop _ _ _ ?_).bind fun _ => .pure _
    rw [preUpdate_players e1]
    exact hA
  · unfold postUpdate
    have h2 : ∀ n ∈ s2.players, A n := by
      rw [update_players e2, preUpdate_players e1]
      exact hA
    refine Blames.bind' (Blames.removeLoop _ { s2 with time := s2.time + cfg.dt } h2) fun s3 e3 => ?_
    have h3 : ∀ n ∈ s3.players, A n := fun n hn => h2 n (removeLoop_players _ e3 n hn)
    dsimp only
    split
    · exact .pure _
    · refine (Blames.envLoop _ _ h3).bind' fun s4 e4 => Blames.pairLoop _ _ fun p hp => ?_
      have e := envLoop_players _ e4
      have e : s4.players = s3.players := e
      rw [e] at hp
      exact ⟨h3 _ (mem_combinations2 _ p hp).1, h3 _ (mem_combinations2 _ p hp).2⟩

theorem Blames.initLoop : ∀ (l : List N) (s : St Wd), (∀ n ∈ l, A n) → Blames Wd A (initLoop s l)
  | [], _, _ => .ok _
  | n :: ns, _, h => (Blames.lookup _ _).bind fun _ =>
      (Blames.liftU fun _ e => .onInit _ _ (h n List.mem_cons_self) e).bind fun _ =>
        Blames.initLoop ns _ fun k hk => h k (List.mem_cons_of_mem _ hk)

theorem initLoop_players : ∀ (l : List N) {s s' : St Wd}, initLoop s l = .ok s' → s'.players = s.players
  | [], s, s', h => by injection h with h; rw [h]
  | n :: ns, s, s', h => by
    unfold initLoop at h
    obtain ⟨m, -, h⟩ := bind_ok.mp h
    obtain ⟨w', -, h⟩ := bind_ok.mp h
    have := initLoop_players ns h
    exact this

theorem Blames.loop (cfg : Cfg Wd) : ∀ (fuel : Nat) (s : St Wd) u, (∀ n ∈ s.players, A n) →
    loop cfg fuel s = some (.error (.user u)) → Raises Wd A u
  | 0, s, u, _, h => by
    unfold Sim.loop at h
    split at h <;> cases h
  | fuel + 1, s, u, hA, h => by
    unfold Sim.loop at h
    split at h
    · cases h
    · cases hs : Sim.step cfg s with
      | error e =>
        rw [hs] at h
        injection h with h
        injection h with h
        subst h
        exact Blames.step cfg s hA u hs
      | ok s' =>
        rw [hs] at h
        exact Blames.loop cfg fuel s' u (fun n hn => hA n (step_players hs n hn)) h

/-- **C23.** Every exception that ends a fresh run is one that an agent, sensor, model, goal or collision
resolution raised for players of the context, other than a `CollisionException` of the latter. -/
theorem C23_blame {cfg : Cfg Wd} {fuel : Nat} {s : St Wd} {log : Dict N (PlayerLog Wd)} {e : SimErr}
    (hf : Fresh s) (hdt : 0 < cfg.dt) (hm : Dict.Wf cfg.missions)
    (hrun : run cfg fuel s log = some (.error e)) : ∃ u, e = .user u ∧ Raises Wd (· ∈ s.players) u := by
  obtain ⟨u, rfl⟩ := C23_never_raises hf hdt hm hrun
  refine ⟨u, rfl, ?_⟩
  unfold run at hrun
  cases hi : initLoop s s.players with
  | error e' =>
    rw [hi] at hrun; injection hrun with hrun; injection hrun with hrun
    subst hrun
    exact Blames.initLoop _ _ (fun _ h => h) u hi
  | ok s1 =>
    rw [hi] at hrun
    simp only at hrun
    cases hl : loop cfg fuel s1 with
    | none => rw [hl] at hrun; cases hrun
    | some r =>
      rw [hl] at hrun
      cases r with
      | error e' =>
        injection hrun with hrun; injection hrun with hrun
        subst hrun
        exact Blames.loop cfg fuel s1 u (fun n hn => by rwa [initLoop_players _ hi] at hn) hl
      | ok s2 =>
        simp only at hrun
        have hw : ∀ (l : List N) (lg : Dict N (PlayerLogger Wd)) (log : Dict N (PlayerLog Wd)),
            Blames Wd (· ∈ s.players) (writeLog lg l log) := by
          intro l
          induction l with
          | nil => exact fun _ _ => .ok _
          | cons n ns ih =>
            intro lg log
            unfold writeLog
            refine (Blames.lookup _ _).bind fun a => ?_
            split
            · intro u h; injection h with h; cases h
            · exact ih _ _
        cases hw' : writeLog s2.logger (Dict.keys s2.models) log with
        | error e' =>
          rw [hw'] at hrun; injection hrun with hrun; injection hrun with hrun
          subst hrun
          exact hw _ _ _ u hw'
        | ok l => rw [hw'] at hrun; injection hrun with hrun; cases hrun

/-- **C21.** If nothing that the simulator calls raises, every run of a new simulator on a new context returns,
after at most `maxSimTime / dt + 1` steps. -/
theorem C21_returns (cfg : Cfg Wd) (s : St Wd) (log : Dict N (PlayerLog Wd)) (fuel : Nat) (hf : Fresh s)
    (hdt : 0 < cfg.dt) (hm : Dict.Wf cfg.missions) (hpos : 0 < fuel)
    (hfuel : cfg.maxSimTime < (fuel : K) * cfg.dt) (hquiet : ∀ u, ¬ Raises Wd (· ∈ s.players) u) :
    ∃ s' log', run cfg fuel s log = some (.ok (s', log')) := by
  obtain ⟨r, hr⟩ := Option.isSome_iff_exists.mp (C21_finishes cfg s log fuel hf hdt hm hpos hfuel)
  cases r with
  | ok r => exact ⟨r.1, r.2, hr⟩
  | error e =>
    obtain ⟨u, -, hu⟩ := C23_blame hf hdt hm hr
    exact absurd hu (hquiet u)

/-- The toy world never raises. -/
theorem toy_quiet (A : Nat → Prop) : ∀ u, ¬ Raises Toy.wd A u := by
  intro u h
  cases h with
  | onInit w n hn h => cases h
  | sense w n o hn h => cases h
  | getCommands w n o hn h => cases h
  | getExtra w n hn h => cases h
  | update w n m c dt hn h => cases h
  | fulfilled w n g x t hn h => cases h
  | resolveEnv w n m o t hn h hu => cases h
  | resolve w n₁ m₁ n₂ m₂ t h₁ h₂ h hu => cases h

/-- Agents that raise are to blame. -/
example : Raises { Toy.wd with getCommands := fun _ _ _ => .error .runtime } (· = 0) .runtime :=
  .getCommands (fun _ => 0) 0 ⟨[], 0⟩ rfl rfl

end Sim
end Verif
