import Verif.Sim.EventProps
import Verif.Sim.Closed

/-!
# C141: a player that drives into its goal is noticed and leaves; one that drives over it is not

The simulator examines the goals only at the ends of steps, with the states the models have then
(`simulator.py` 157–173, 256–265). Here the positions of the models along the way are compared with the region
a goal accepts: `reach n g q t` says that the goal `g` of player `n` accepts the position `q` at time
`t`, `prog` measures how far a position is along the way.
-/

set_option linter.unusedSectionVars false

namespace Verif
namespace Sim

variable {N K : Type} [DecidableEq N] [Field K] [LinearOrder K] [IsStrictOrderedRing K]
  [FloorSemiring K] {Wd : World N K} {Q : Type}

/-- Specification: collisions change velocities, not positions. -/
structure KeepsPos (Wd : World N K) (pos : Wd.M → Q) : Prop where
  env : ∀ w p m o t, p ≠ Wd.env → pos (Wd.resolveEnv w p m o t).1.2 = pos m
  first : ∀ w a m1 b m2 t, a ≠ b → pos (Wd.resolve w a m1 b m2 t).1.2.1 = pos m1
  second : ∀ w a m1 b m2 t, a ≠ b → pos (Wd.resolve w a m1 b m2 t).1.2.2 = pos m2

/-- Specification: at the end of step `i - 1` the model of player `n` is at `q`. -/
def At (σ : Nat → St Wd) (pos : Wd.M → Q) (i : Nat) (n : N) (q : Q) : Prop :=
  ∃ m, Dict.get? (σ i).models n = some m ∧ pos m = q

/-- Specification: what the goals accept is determined by the position and the time. -/
def GoalBy (Wd : World N K) (pos : Wd.M → Q) (reach : N → Wd.G → Q → K → Bool) : Prop :=
  ∀ w n g m t w' b, Wd.fulfilled w n g (Wd.getState m) t = .ok (w', b) → b = reach n g (pos m) t

theorem postClosed_pos {pos : Wd.M → Q} (hs : KeepsPos Wd pos) (n : N) (q : Q) :
    PostClosed (fun s : St Wd => s.players.Nodup ∧ Wd.env ∉ s.players ∧ ∃ m, Dict.get? s.models n = some m ∧ pos m = q) where
  nodup s h := h.1
  removed s p g s' h hr := by
    obtain ⟨e1, -, e2⟩ := removePlayer_frame hr
    refine ⟨?_, ?_, by rw [e1]; exact h.2.2⟩
    · rcases e2 with e2 | e2 <;> rw [e2]
      · exact h.1
      · exact h.1.erase _
    · rcases e2 with e2 | e2 <;> rw [e2]
      · exact h.2.1
      · exact fun hc => h.2.1 (List.mem_of_mem_erase hc)
  ended s b h := h
  traced s p h := h
  env s p o s' h hp _ hr := by
    refine ⟨by rw [envObstacle_players hr]; exact h.1, by rw [envObstacle_players hr]; exact h.2.1, ?_⟩
    obtain ⟨m, rep, hm, -, e, -⟩ := envObstacle_frame hr
    obtain ⟨-, he, m0, hm0, hq⟩ := h
    have hpe : p ≠ Wd.env := fun e => he (e ▸ hp)
    by_cases hp : p = n
    · subst hp
      rw [hm] at hm0
      injection hm0 with hm0
      subst hm0
      exact ⟨_, by rw [e, Dict.get?_set_self], by rw [hs.env _ _ _ _ _ hpe, hq]⟩
    · exact ⟨m0, by rw [e, Dict.get?_set_ne _ hp, hm0], hq⟩
  pair s a b s' h _ _ hab hr := by
    refine ⟨by rw [checkPair_players hr]; exact h.1, by rw [checkPair_players hr]; exact h.2.1, ?_⟩
    obtain ⟨m1, m2, h1, h2, ⟨-, e, -⟩ | ⟨rep, -, -, e, -⟩⟩ := checkPair_frame hr
    · rw [e]; exact h.2.2
    · obtain ⟨-, -, m0, hm0, hq⟩ := h
      by_cases hb : b = n
      · subst hb
        rw [h2] at hm0
        injection hm0 with hm0
        subst hm0
        exact ⟨_, by rw [e, Dict.get?_set_self], by rw [hs.second _ _ _ _ _ _ hab, hq]⟩
      · by_cases ha : a = n
        · subst ha
          rw [h1] at hm0
          injection hm0 with hm0
          subst hm0
          exact ⟨_, by rw [e, Dict.get?_set_ne _ hb, Dict.get?_set_self], by rw [hs.first _ _ _ _ _ _ hab, hq]⟩
        · exact ⟨m0, by rw [e, Dict.get?_set_ne _ hb, Dict.get?_set_ne _ ha, hm0], hq⟩

theorem pairLoop_same_players : ∀ (l : List (N × N)) (s s' : St Wd), Sim.pairLoop s l = .ok s' →
    s'.players = s.players
  | [], s, s', h => by injection h with h; rw [h]
  | (a, b) :: l, s, s', h => by
    unfold Sim.pairLoop at h
    obtain ⟨s1, h1, h⟩ := bind_ok.mp h
    rw [pairLoop_same_players l s1 s' h, checkPair_players h1]

theorem step_goal {cfg : Cfg Wd} {σ : Nat → St Wd} {j : Nat} (h0 : Ready (σ 0))
    (hdt : 0 < cfg.dt) (hm : Dict.Wf cfg.missions) (hex : Exec cfg σ (j + 1))
    {pos : Wd.M → Q} (hs : KeepsPos Wd pos) (henv : Wd.env ∉ (σ 0).players) {n : N}
    (hn : n ∈ (σ j).players) :
    ∃ m c w w' m' m'', Dict.get? (σ j).models n = some m ∧
      Wd.update w n m c cfg.dt = .ok (w', m') ∧ Dict.get? (σ (j + 1)).models n = some m'' ∧
      pos m'' = pos m' ∧
      (n ∉ (σ (j + 1)).players → ∃ g v v', (n, g) ∈ cfg.missions ∧
        Wd.fulfilled v n g (Wd.getState m') (((j + 1 : Nat) : K) * cfg.dt) = .ok (v', true)) ∧
      (n ∈ (σ (j + 1)).players → ∀ g, (n, g) ∈ cfg.missions → ∃ v v',
        Wd.fulfilled v n g (Wd.getState m') (((j + 1 : Nat) : K) * cfg.dt) = .ok (v', false)) := by
  have hex' : Exec cfg σ j := fun i hi => hex i (by omega)
  have hinv := inv_of_exec (inv_zero cfg σ h0) hdt hm j hex'
  have htime : (σ j).time + cfg.dt = ((j + 1 : Nat) : K) * cfg.dt := by
    rw [hinv.time]; push_cast; ring
  have h := canStep_of_inv hinv hdt hm
  have henvj : Wd.env ∉ (σ j).players := players_mono h0 hdt hm hex' _ 0 henv j (by omega) le_rfl
  have hst := (hex j (by omega)).2
  generalize hS : σ j = s at *
  generalize hS' : σ (j + 1) = s' at *
  unfold step at hst
  obtain ⟨s1, h1, hst⟩ := bind_ok.mp hst
  obtain ⟨s2, h2, hst⟩ := bind_ok.mp hst
  obtain ⟨o, rfl, -⟩ := (safe_preUpdate cfg s (fun n hn => (h.can n hn).model) h.nodup).ok h1
  have hnd : need cfg ({ s with lastObs := o } : St Wd) = need cfg s := need_congr cfg rfl rfl
  obtain ⟨t, es, he, rfl⟩ := (safe_update cfg { s with lastObs := o } h.nodup (by
    intro n hnp
    rw [hnd]
    obtain ⟨a, b, c⟩ := h.can n hnp
    exact ⟨a, b, c⟩)).ok h2
  rw [hnd] at he
  have hpl : t.players = s.players := he.frame.players
  have htm : t.time = s.time := he.frame.time
  have hcl : ∀ n ∈ s.players, n ∈ Dict.keys t.models ∧
      ∃ lg, Dict.get? t.logger n = some lg ∧ ∀ u ∈ lg.states.ts, u < s.time + cfg.dt := by
    intro n hnp
    refine ⟨by rw [he.keys]; exact (h.can n hnp).model, ?_⟩
    have : n ∈ es.map Prod.fst := by rw [he.names]; exact hnp
    obtain ⟨e, hmem, rfl⟩ := List.mem_map.mp this
    obtain ⟨m', lg, lg', q1, q2, q3, q4, q5, q6, q7, q8, q9⟩ := he.steps e hmem
    refine ⟨lg', q5, ?_⟩
    rw [q6]
    intro u hu
    obtain ⟨lg0, r1, r2, _⟩ := (h.can e.1 hnp).logger
    have : lg0 = lg := by
      have q4' : Dict.get? s.logger e.1 = some lg := q4
      rw [r1] at q4'; injection q4'
    subst this
    simp only [Builder.push, List.mem_append, List.mem_singleton] at hu
    rcases hu with hu | rfl
    · linarith [r2 u hu]
    · show s.time < s.time + cfg.dt
      linarith
  have hmem : n ∈ es.map Prod.fst := by rw [he.names]; exact hn
  obtain ⟨e, hes, rfl⟩ := List.mem_map.mp hmem
  obtain ⟨m', -, -, q1, q2, ⟨w, w', q3⟩, -⟩ := he.steps e hes
  obtain ⟨-, -, m'', hm'', hp''⟩ := (postClosed_pos hs e.1 (pos m')).postUpdate
    (s := { t with lastCmdTs := _ }) (cfg := cfg) ⟨by simp only [hpl]; exact h.nodup, by
      simp only [hpl]; exact henvj, m', q2, rfl⟩ hst
  refine ⟨e.2.2.1, e.2.2.2, w, w', m', m'', q1, q3, hm'', hp'', ?_⟩
  unfold postUpdate at hst
  obtain ⟨s4, h4, hst⟩ := bind_ok.mp hst
  obtain ⟨rem, hr⟩ := (safe_removeLoop cfg.missions _ (by simp only [hpl]; exact h.nodup) h.missions (by
    intro n hnp
    simp only [hpl] at hnp
    obtain ⟨a, lg, b, c⟩ := hcl n hnp
    exact ⟨a, lg, b, by simp only [htm]; exact c⟩)).ok h4
  have hpls : s'.players = s4.players := by
    dsimp only at hst
    split at hst
    · injection hst with hst
      rw [← hst]
    · obtain ⟨s5, h5, hst⟩ := bind_ok.mp hst
      have e5 := ((postClosed_pos hs e.1 (pos m')).envLoop _ _ s5 (by
        refine ⟨?_, ?_, m', by simp only [hr.models]; exact q2, rfl⟩
        · simp only [hr.players, hpl]
          exact h.nodup.filter _
        · simp only [hr.players, hpl]
          exact fun hc => henvj (List.mem_filter.mp hc).1) (fun _ h => h) h5).2
      rw [pairLoop_same_players _ _ _ hst, e5]
  have hmem4 : e.1 ∈ s'.players ↔ e.1 ∉ rem := by
    rw [hpls, hr.players, List.mem_filter]
    simp only [hpl]
    simp [hn]
  have ht' : t.time + cfg.dt = ((j + 1 : Nat) : K) * cfg.dt := by rw [htm, htime]
  constructor
  · intro hnp
    have : e.1 ∈ rem := by
      by_contra hc
      exact hnp (hmem4.mpr hc)
    obtain ⟨m, lg, g, v, v', a, -, -, b, c⟩ := hr.removed e.1 this
    have hmm : m = m' := by
      have a' : Dict.get? t.models e.1 = some m := a
      rw [q2] at a'; injection a' with a'; exact a'.symm
    subst hmm
    refine ⟨g, v, v', b, ?_⟩
    rw [← ht']; exact c
  · intro hp g hg
    obtain ⟨m, v, v', a, c⟩ := hr.kept e.1 g hg (by simp only [hpl]; exact hn) (hmem4.mp hp)
    have hmm : m = m' := by
      have a' : Dict.get? t.models e.1 = some m := a
      rw [q2] at a'; injection a' with a'; exact a'.symm
    subst hmm
    refine ⟨v, v', ?_⟩
    rw [← ht']; exact c

theorem at_unique {σ : Nat → St Wd} {pos : Wd.M → Q} {i : Nat} {n : N} {q q' : Q} (h : At σ pos i n q)
    (h' : At σ pos i n q') : q = q' := by
  obtain ⟨m, h1, h2⟩ := h
  obtain ⟨m', h3, h4⟩ := h'
  rw [h1] at h3
  injection h3 with h3
  rw [← h2, ← h4, h3]

/-- **C141.** An active player leaves at the end of a step exactly if its goal accepts the position its
model has then. -/
theorem C141_leaves_iff {cfg : Cfg Wd} {σ : Nat → St Wd} {j : Nat} (h0 : Ready (σ 0))
    (hdt : 0 < cfg.dt) (hm : Dict.Wf cfg.missions) (hex : Exec cfg σ (j + 1))
    {pos : Wd.M → Q} (hs : KeepsPos Wd pos) (henv : Wd.env ∉ (σ 0).players)
    {reach : N → Wd.G → Q → K → Bool} (hg : GoalBy Wd pos reach) {n : N} {g : Wd.G}
    (hng : (n, g) ∈ cfg.missions) (hn : n ∈ (σ j).players) {q : Q} (hq : At σ pos (j + 1) n q) :
    n ∉ (σ (j + 1)).players ↔ reach n g q (((j + 1 : Nat) : K) * cfg.dt) = true := by
  obtain ⟨m, c, w, w', m', m'', -, -, h3, h4, h5, h6⟩ := step_goal h0 hdt hm hex hs henv hn
  obtain rfl : q = pos m' := by rw [← h4]; exact at_unique hq ⟨m'', h3, rfl⟩
  constructor
  · intro hnp
    obtain ⟨g', v, v', hg', hf⟩ := h5 hnp
    have : g' = g := by
      have e1 := Dict.get?_of_mem hm hg'
      have e2 := Dict.get?_of_mem hm hng
      rw [e1] at e2; injection e2
    subst this
    exact (hg _ _ _ _ _ _ _ hf).symm
  · intro hr hp
    obtain ⟨v, v', hf⟩ := h6 hp g hng
    have := hg _ _ _ _ _ _ _ hf
    rw [hr] at this
    cases this

theorem toy_keeps : KeepsPos Toy.wd (fun m : ℚ => m) :=
  ⟨fun _ _ _ _ _ _ => rfl, fun _ _ _ _ _ _ _ => rfl, fun _ _ _ _ _ _ _ => rfl⟩

theorem toy_goal : GoalBy Toy.wd (fun m : ℚ => m) (fun _ g x _ => decide (g ≤ x)) := by
  rintro w n g x t w' b h
  injection h with h
  injection h with _ h
  exact h.symm

/-- Car 2 of the toy world drives from 20 to its goal at 21 in two steps and leaves. -/
example : 2 ∉ (Toy.σ 2).players :=
  (C141_leaves_iff Toy.ready Toy.dt_pos Toy.wf (Toy.exec_le (j := 1 + 1) (by decide)) toy_keeps (by decide +kernel)
    toy_goal (g := (21 : ℚ)) (List.mem_cons_self) (by rw [Toy.story.1]; decide)
    (q := 21) ⟨(21 : ℚ), by decide +kernel, rfl⟩).mpr (by decide +kernel)

/-- **C141.** After the first step, no active player is at a position its goal accepts. -/
theorem C141_outside {cfg : Cfg Wd} {σ : Nat → St Wd} {i : Nat} (h0 : Ready (σ 0))
    (hdt : 0 < cfg.dt) (hm : Dict.Wf cfg.missions) (hex : Exec cfg σ i) (hi : 0 < i)
    {pos : Wd.M → Q} (hs : KeepsPos Wd pos) (henv : Wd.env ∉ (σ 0).players)
    {reach : N → Wd.G → Q → K → Bool} (hg : GoalBy Wd pos reach) {n : N} {g : Wd.G}
    (hng : (n, g) ∈ cfg.missions) (hn : n ∈ (σ i).players) {q : Q} (hq : At σ pos i n q) :
    reach n g q ((i : K) * cfg.dt) = false := by
  obtain ⟨j, rfl⟩ : ∃ j, i = j + 1 := ⟨i - 1, by omega⟩
  have hnj : n ∈ (σ j).players := by
    by_contra hc
    exact players_mono h0 hdt hm hex n j hc (j + 1) (by omega) le_rfl hn
  have := (C141_leaves_iff h0 hdt hm hex hs henv hg hng hnj hq).not
  simp only [not_not] at this
  simpa using this.mp hn

example : decide ((100 : ℚ) ≤ 5 / 2) = false :=
  C141_outside Toy.ready Toy.dt_pos Toy.wf (Toy.exec_le (j := 5) (by decide)) (by decide) toy_keeps
    (by decide +kernel) toy_goal (n := 0) (g := (100 : ℚ)) (by show _ ∈ [_, _]; simp) (by decide +kernel)
    (q := 5 / 2) ⟨(5 / 2 : ℚ), by decide +kernel, rfl⟩

/-- Specification of a journey of player `n` with goal `g` in the first `J` steps: the goal accepts all
positions of the way whose progress is from `a` to less than `b`; the way begins before `a`, and no step
advances by more than the depth of the accepted region. -/
structure Journey (cfg : Cfg Wd) (σ : Nat → St Wd) (J : Nat) (pos : Wd.M → Q)
    (reach : N → Wd.G → Q → K → Bool) (n : N) (g : Wd.G) (Way : Q → Prop) (prog : Q → K) (a b : K) : Prop where
  region : ∀ q t, Way q → a ≤ prog q → prog q < b → reach n g q t = true
  way : ∀ i q, i ≤ J → At σ pos i n q → Way q
  start : ∀ q, At σ pos 0 n q → prog q < a
  steps : ∀ i q q', i < J → n ∈ (σ i).players → At σ pos i n q → At σ pos (i + 1) n q' →
    prog q' ≤ prog q + (b - a)

theorem exists_at {cfg : Cfg Wd} {σ : Nat → St Wd} {j i : Nat} (h0 : Ready (σ 0))
    (hdt : 0 < cfg.dt) (hm : Dict.Wf cfg.missions) (hex : Exec cfg σ j) (pos : Wd.M → Q) (hi : i ≤ j) {n : N}
    (hn : n ∈ (σ i).players) : ∃ q, At σ pos i n q := by
  have hinv := inv_of_exec (inv_zero cfg σ h0) hdt hm i (fun k hk => hex k (by omega))
  have := ((canStep_of_inv hinv hdt hm).can n hn).model
  obtain ⟨m, hm'⟩ := (Dict.mem_keys_iff _ _).mp this
  exact ⟨pos m, m, hm', rfl⟩

/-- **C141.** On a journey no step of which is longer than the accepted region is deep, a player that has
come to the region or beyond it has left. -/
theorem C141_passes {cfg : Cfg Wd} {σ : Nat → St Wd} {J : Nat} (h0 : Ready (σ 0))
    (hdt : 0 < cfg.dt) (hm : Dict.Wf cfg.missions) (hex : Exec cfg σ J)
    {pos : Wd.M → Q} (hs : KeepsPos Wd pos) (henv : Wd.env ∉ (σ 0).players)
    {reach : N → Wd.G → Q → K → Bool} (hg : GoalBy Wd pos reach) {n : N} {g : Wd.G}
    (hng : (n, g) ∈ cfg.missions) {Way : Q → Prop} {prog : Q → K} {a b : K}
    (hj : Journey cfg σ J pos reach n g Way prog a b) :
    ∀ i q, i ≤ J → At σ pos i n q → a ≤ prog q → n ∉ (σ i).players := by
  intro i
  induction i with
  | zero => intro q _ hq ha; exact absurd (hj.start q hq) (not_lt.mpr ha)
  | succ i ih =>
    intro q hi hq ha hn
    have hni : n ∈ (σ i).players := by
      by_contra hc
      exact players_mono h0 hdt hm hex n i hc (i + 1) (by omega) hi hn
    obtain ⟨q0, hq0⟩ := exists_at h0 hdt hm hex pos (by omega : i ≤ J) hni
    have h1 : prog q0 < a := by
      by_contra hc
      exact ih q0 (by omega) hq0 (not_lt.mp hc) hni
    have h2 := hj.steps i q0 q (by omega) hni hq0 hq
    have h3 := hj.region q (((i + 1 : Nat) : K) * cfg.dt) (hj.way _ q hi hq) ha (by linarith)
    have h4 := C141_outside h0 hdt hm (fun k hk => hex k (by omega)) (by omega : 0 < i + 1) hs henv hg hng hn hq
    rw [h3] at h4
    cases h4

/-- **C141.** If, moreover, every step advances by at least `δ`, the player has left after as many steps as
are needed for the way to the region at that rate. -/
theorem C141_arrives {cfg : Cfg Wd} {σ : Nat → St Wd} {J : Nat} (h0 : Ready (σ 0))
    (hdt : 0 < cfg.dt) (hm : Dict.Wf cfg.missions) (hex : Exec cfg σ J)
    {pos : Wd.M → Q} (hs : KeepsPos Wd pos) (henv : Wd.env ∉ (σ 0).players)
    {reach : N → Wd.G → Q → K → Bool} (hg : GoalBy Wd pos reach) {n : N} {g : Wd.G}
    (hng : (n, g) ∈ cfg.missions) {Way : Q → Prop} {prog : Q → K} {a b : K}
    (hj : Journey cfg σ J pos reach n g Way prog a b) {δ x0 : K}
    (hx : ∀ q, At σ pos 0 n q → x0 ≤ prog q)
    (hδ : ∀ i q q', i < J → n ∈ (σ i).players → At σ pos i n q → At σ pos (i + 1) n q' → prog q + δ ≤ prog q')
    (hJ : a ≤ x0 + (J : K) * δ) : n ∉ (σ J).players := by
  intro hn
  have hall : ∀ i, i ≤ J → n ∈ (σ i).players := by
    intro i hi
    by_contra hc
    exact players_mono h0 hdt hm hex n i hc J hi le_rfl hn
  have hprog : ∀ i q, i ≤ J → At σ pos i n q → x0 + (i : K) * δ ≤ prog q := by
    intro i
    induction i with
    | zero => intro q _ hq; simpa using hx q hq
    | succ i ih =>
      intro q hi hq
      obtain ⟨q0, hq0⟩ := exists_at h0 hdt hm hex pos (by omega : i ≤ J) (hall i (by omega))
      have h1 := ih q0 (by omega) hq0
      have h2 := hδ i q0 q (by omega) (hall i (by omega)) hq0 hq
      push_cast
      linarith
  obtain ⟨q, hq⟩ := exists_at h0 hdt hm hex pos le_rfl hn
  exact C141_passes h0 hdt hm hex hs henv hg hng hj J q le_rfl hq (hJ.trans (hprog J q le_rfl hq)) hn

/-- Positions in the toy world as a function of the step. -/
theorem toy_at {i : Nat} {q : ℚ} (hi : i ≤ 2) (h : At Toy.σ (fun m : ℚ => m) i 2 q) : q = 20 + (i : ℚ) / 2 := by
  obtain ⟨m, h1, h2⟩ := h
  have : ∀ i ≤ 2, Dict.get? (Toy.σ i).models 2 = some (20 + (i : ℚ) / 2) := by decide +kernel
  rw [this i hi] at h1
  injection h1 with h1
  rw [← h2, ← h1]

/-- Car 2 of the toy world is on a journey: its goal accepts 21 and more, it begins at 20 and advances by half
in each step. -/
theorem toy_journey : Journey Toy.cfg Toy.σ 2 (fun m : ℚ => m) (fun _ g x _ => decide (g ≤ x)) 2 (21 : ℚ)
    (fun _ => True) (fun q => q) 21 22 where
  region q t _ h _ := decide_eq_true h
  way _ _ _ _ := trivial
  start q h := by rw [toy_at (by decide) h]; norm_num
  steps i q q' hi _ h h' := by
    rw [toy_at (by omega) h, toy_at (by omega) h']
    push_cast
    linarith

example : 2 ∉ (Toy.σ 2).players :=
  C141_passes Toy.ready Toy.dt_pos Toy.wf (Toy.exec_le (j := 2) (by decide)) toy_keeps (by decide +kernel) toy_goal
    (g := (21 : ℚ)) List.mem_cons_self toy_journey 2 21 le_rfl ⟨(21 : ℚ), by decide +kernel, rfl⟩ le_rfl

/-- Specification: by step `J` the player arrives, being on a journey and fast enough. -/
def Arrives (cfg : Cfg Wd) (σ : Nat → St Wd) (J : Nat) (pos : Wd.M → Q) (reach : N → Wd.G → Q → K → Bool)
    (n : N) (g : Wd.G) : Prop :=
  ∃ (Way : Q → Prop) (prog : Q → K) (a b δ x0 : K), Journey cfg σ J pos reach n g Way prog a b ∧
    (∀ q, At σ pos 0 n q → x0 ≤ prog q) ∧
    (∀ i q q', i < J → n ∈ (σ i).players → At σ pos i n q → At σ pos (i + 1) n q' → prog q + δ ≤ prog q') ∧
    a ≤ x0 + (J : K) * δ

theorem toy_arrives : Arrives Toy.cfg Toy.σ 2 (fun m : ℚ => m) (fun _ g x _ => decide (g ≤ x)) 2 (21 : ℚ) :=
  ⟨fun _ => True, fun q => q, 21, 22, 1 / 2, 20, toy_journey, fun q h => by rw [toy_at (by decide) h]; norm_num,
    fun i q q' hi _ h h' => by
      rw [toy_at (by omega) h, toy_at (by omega) h']
      push_cast
      linarith, by norm_num⟩

/-- **C141.** If there are missions and all players that have one arrive by step `J`, the simulation runs for
at most `J` steps. -/
theorem C141_ends {cfg : Cfg Wd} {σ : Nat → St Wd} {J j : Nat} (h0 : Ready (σ 0))
    (hdt : 0 < cfg.dt) (hm : Dict.Wf cfg.missions) (hne : cfg.missions ≠ []) (hex : Exec cfg σ j)
    {pos : Wd.M → Q} (hs : KeepsPos Wd pos) (henv : Wd.env ∉ (σ 0).players)
    {reach : N → Wd.G → Q → K → Bool} (hg : GoalBy Wd pos reach) (hJ : 0 < J)
    (hall : ∀ n g, (n, g) ∈ cfg.missions → Arrives cfg σ J pos reach n g) : j ≤ J := by
  by_contra hc
  obtain ⟨k, rfl⟩ : ∃ k, J = k + 1 := ⟨J - 1, by omega⟩
  have hexJ : Exec cfg σ (k + 1) := fun i hi => hex i (by omega)
  have hterm := (C22_stop_iff h0 hdt hm hexJ).mpr (Or.inr (Or.inr (Or.inr ⟨hne, fun n g hng => by
    obtain ⟨Way, prog, a, b, δ, x0, h1, h2, h3, h4⟩ := hall n g hng
    exact C141_arrives h0 hdt hm hexJ hs henv hg hng h1 h2 h3 h4⟩)))
  rw [(hex (k + 1) (by omega)).1] at hterm
  cases hterm

end Sim
end Verif
