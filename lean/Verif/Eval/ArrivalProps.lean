import Verif.Sim.CommandLogProps
import Verif.Sim.ArriveProps
import Verif.Eval.EfficiencyProps

/-!
# C165: goal times and jerks of a simulation

`eval/efficiency.py` and `eval/comfort.py` read the logs that `sim/simulator.py` writes. Here what they compute from the
log of a run is stated in terms of the run.
-/

set_option linter.unusedSectionVars false

namespace Verif
namespace Eval
namespace Arrival

open Sim

variable {N K : Type} [DecidableEq N] [Field K] [LinearOrder K] [IsStrictOrderedRing K] [FloorSemiring K] {Wd : World N K}

/-- Specification: player `n` left at the end of step `k - 1`, that is at the time `k * dt`. -/
def LeftAt (σ : Nat → St Wd) (J k : Nat) (n : N) : Prop :=
  0 < k ∧ k ≤ J + 1 ∧ n ∈ (σ (k - 1)).players ∧ n ∉ (σ k).players

/-- Specification: player `n` took part in step `i`, or left at its beginning, and its model was in the state `x` then. -/
def Had (σ : Nat → St Wd) (J i : Nat) (n : N) (x : Wd.X) : Prop :=
  ((i ≤ J ∧ n ∈ (σ i).players) ∨ LeftAt σ J i n) ∧ ∃ m, Dict.get? (σ i).models n = some m ∧ x = Wd.getState m

/-- The states in the log of a player are those that it had. -/
theorem had_iff {cfg : Cfg Wd} {fuel : Nat} {s s' : St Wd} {log log' : Dict N (PlayerLog Wd)}
    (hf : Fresh s) (hdt : 0 < cfg.dt) (hm : Dict.Wf cfg.missions)
    (hrun : run cfg fuel s log = some (.ok (s', log'))) :
    ∃ (σ : Nat → St Wd) (J : Nat), Ready (σ 0) ∧
      (∃ w logger, σ 0 = { s with w := w, logger := logger }) ∧ Exec cfg σ (J + 1) ∧ σ (J + 1) = s' ∧
      ∀ n ∈ Dict.keys s.models, ∃ pl, Dict.get? log' n = some pl ∧ pl.Valid ∧
        (∀ t x, (t, x) ∈ pl.states.samples ↔ ∃ i : Nat, t = (i : K) * cfg.dt ∧ Had σ J i n x) ∧
        (n ∉ s'.players → ∃ k, LeftAt σ J k n ∧ ∃ m, Dict.get? (σ k).models n = some m) := by
  obtain ⟨σ, J, hready, hfirst, hex, hend, hlog⟩ := C23_log hf hdt hm hrun
  refine ⟨σ, J, hready, hfirst, hex, hend, fun n hn => ?_⟩
  obtain ⟨pl, k, last, hpl, hval, hcase, hts, hst, -⟩ := hlog n hn
  have hlen : pl.states.vs.length = last + 1 := by
    have h1 := hval.1.1
    rw [hts] at h1
    simpa using h1.symm
  have hmono : ∀ a b, a ≤ b → b ≤ J + 1 → n ∈ (σ b).players → n ∈ (σ a).players := by
    intro a b hab hb hp
    by_contra hna
    exact players_mono hready hdt hm hex n a hna b hab hb hp
  have hin : ∀ i, ((i ≤ J ∧ n ∈ (σ i).players) ∨ LeftAt σ J i n) ↔ i ≤ last := by
    intro i
    rcases hcase with ⟨h1, h2, h3⟩ | ⟨h1, h2, h3, h4, -, h6⟩
    · constructor
      · rintro (⟨h, -⟩ | ⟨h5, h6, h7, h8⟩)
        · omega
        · rw [← hend] at h1
          exact absurd (hmono i (J + 1) h6 le_rfl h1) h8
      · intro hi
        left
        rw [← hend] at h1
        exact ⟨by omega, hmono i (J + 1) (by omega) le_rfl h1⟩
    · constructor
      · rintro (⟨h, hp⟩ | ⟨h5, h6', h7, h8⟩)
        · by_contra hlt
          exact h4 (hmono k i (by omega) (by omega) hp)
        · by_contra hlt
          exact h4 (hmono k (i - 1) (by omega) (by omega) h7)
      · intro hi
        rcases Nat.lt_or_ge i k with hik | hik
        · left
          exact ⟨by omega, hmono i (k - 1) (by omega) (by omega) h3⟩
        · right
          have : i = k := by omega
          subst this
          exact ⟨h1, h2, h3, h4⟩
  refine ⟨pl, hpl, hval, fun t x => ?_, fun hout => ?_⟩
  · rw [Seq.mem_samples_iff]
    constructor
    · rintro ⟨i, h1, h2⟩
      obtain ⟨hi, -⟩ := List.getElem?_eq_some_iff.mp h2
      have hil : i ≤ last := by omega
      rw [hts, List.getElem?_map, List.getElem?_range (by omega)] at h1
      injection h1 with h1
      obtain ⟨m, a, b⟩ := hst i hil
      rw [b] at h2
      injection h2 with h2
      exact ⟨i, h1.symm, (hin i).mpr hil, m, a, h2.symm⟩
    · rintro ⟨i, rfl, h1, m, h2, rfl⟩
      have hil := (hin i).mp h1
      obtain ⟨m', a, b⟩ := hst i hil
      rw [h2] at a
      injection a with a
      subst a
      exact ⟨i, by rw [hts, List.getElem?_map, List.getElem?_range (by omega)]; rfl, b⟩
  · rcases hcase with ⟨h1, -, -⟩ | ⟨h1, h2, h3, h4, -, h6⟩
    · exact absurd h1 hout
    · obtain ⟨m, a, -⟩ := hst k (by omega)
      exact ⟨k, ⟨h1, h2, h3, h4⟩, m, a⟩

/-- **C165.** `time_goal_lane_reached` on the log of a run, for any test of states: it tells the time of the first step at whose
beginning the model of the player passed the test while the player took part or left, and `None` if there is no such step. -/
theorem C165_time {cfg : Cfg Wd} {fuel : Nat} {s s' : St Wd} {log log' : Dict N (PlayerLog Wd)}
    (hf : Fresh s) (hdt : 0 < cfg.dt) (hm : Dict.Wf cfg.missions)
    (hrun : run cfg fuel s log = some (.ok (s', log'))) :
    ∃ (σ : Nat → St Wd) (J : Nat), Ready (σ 0) ∧
      (∃ w logger, σ 0 = { s with w := w, logger := logger }) ∧ Exec cfg σ (J + 1) ∧ σ (J + 1) = s' ∧
      ∀ n ∈ Dict.keys s.models, ∃ pl, Dict.get? log' n = some pl ∧ ∀ P : Wd.X → Bool,
        (∀ t, timeGoalLaneReached (fun x => .ok (P x)) pl.states = .ok (some t) ↔
          ∃ i : Nat, t = (i : K) * cfg.dt ∧ (∃ x, Had σ J i n x ∧ P x = true) ∧
            ∀ i' x', Had σ J i' n x' → P x' = true → i ≤ i') ∧
        (timeGoalLaneReached (fun x => .ok (P x)) pl.states = .ok none ↔ ∀ i x, Had σ J i n x → P x = false) := by
  obtain ⟨σ, J, hready, hfirst, hex, hend, h⟩ := had_iff hf hdt hm hrun
  refine ⟨σ, J, hready, hfirst, hex, hend, fun n hn => ?_⟩
  obtain ⟨pl, hpl, hval, hs, -⟩ := h n hn
  have hcmp : ∀ a b : Nat, (a : K) * cfg.dt ≤ b * cfg.dt ↔ a ≤ b := fun a b => by
    rw [mul_le_mul_iff_left₀ hdt, Nat.cast_le]
  refine ⟨pl, hpl, fun P => ?_⟩
  obtain ⟨h1, h2⟩ := C61_first P pl.states hval.1
  refine ⟨fun t => (h1 t).trans ?_, h2.trans ?_⟩
  · constructor
    · rintro ⟨x, hx, hp, hfst⟩
      obtain ⟨i, rfl, hi⟩ := (hs _ _).mp hx
      exact ⟨i, rfl, ⟨x, hi, hp⟩, fun i' x' hi' hp' => (hcmp i i').mp (hfst _ x' ((hs _ _).mpr ⟨i', rfl, hi'⟩) hp')⟩
    · rintro ⟨i, rfl, ⟨x, hi, hp⟩, hfst⟩
      refine ⟨x, (hs _ _).mpr ⟨i, rfl, hi⟩, hp, fun t' x' hx' hp' => ?_⟩
      obtain ⟨i', rfl, hi'⟩ := (hs _ _).mp hx'
      exact (hcmp i i').mpr (hfst i' x' hi' hp')
  · constructor
    · intro ha i x hi
      obtain ⟨j, -, hj⟩ := (Seq.mem_samples_iff _ _ _).mp ((hs _ _).mpr ⟨i, rfl, hi⟩)
      exact ha x (List.mem_of_getElem? hj)
    · intro ha x hx
      obtain ⟨j, hj, e⟩ := List.getElem_of_mem hx
      have hv := hval.1.1
      have : (pl.states.ts[j]'(by rw [hv]; exact hj), x) ∈ pl.states.samples :=
        (Seq.mem_samples_iff _ _ _).mpr ⟨j, List.getElem?_eq_getElem _, by rw [List.getElem?_eq_getElem hj, e]⟩
      obtain ⟨i, -, hi⟩ := (hs _ _).mp this
      exact ha i x hi

example := C165_time Toy.fresh Toy.dt_pos Toy.wf Toy.run_eq

/-- **C165.** A test that every state passes with which a mission is fulfilled, as that of `desired_lane_reached`, finds for a
player that left a time at which it had not yet left or was leaving. -/
theorem C165_no_later {cfg : Cfg Wd} {fuel : Nat} {s s' : St Wd} {log log' : Dict N (PlayerLog Wd)}
    (hf : Fresh s) (hdt : 0 < cfg.dt) (hm : Dict.Wf cfg.missions)
    (hrun : run cfg fuel s log = some (.ok (s', log'))) (n : N) (hn : n ∈ Dict.keys s.models) (hout : n ∉ s'.players)
    (P : Wd.X → Bool)
    (hP : ∀ w g x t w', (n, g) ∈ cfg.missions → Wd.fulfilled w n g x t = .ok (w', true) → P x = true) :
    ∃ pl t T, Dict.get? log' n = some pl ∧ timeGoalLaneReached (fun x => .ok (P x)) pl.states = .ok (some t) ∧
      pl.states.ts.getLast? = some T ∧ t ≤ T := by
  obtain ⟨σ, J, hready, hfirst, hex, hend, h⟩ := had_iff hf hdt hm hrun
  obtain ⟨pl, hpl, hval, hs, hl⟩ := h n hn
  obtain ⟨k, hk, m, hmm⟩ := hl hout
  have hpk : P (Wd.getState m) = true := by
    obtain ⟨hk0, hkJ, hk1, hk2⟩ := hk
    obtain ⟨j, rfl⟩ : ∃ j, k = j + 1 := ⟨k - 1, by omega⟩
    obtain ⟨lg, m', g, w, w', -, h2, h3, h4, -⟩ :=
      C26_last_state (j := j) hready hdt hm (fun q hq => hex q (by omega)) n hk1 hk2
    rw [hmm] at h2
    injection h2 with h2
    subst h2
    exact hP _ _ _ _ _ h3 h4
  have hsam : ((k : K) * cfg.dt, Wd.getState m) ∈ pl.states.samples := (hs _ _).mpr ⟨k, rfl, Or.inr hk, m, hmm, rfl⟩
  obtain ⟨h1, h2⟩ := C61_first P pl.states hval.1
  have hmem : ∀ t x, (t, x) ∈ pl.states.samples → t ∈ pl.states.ts := by
    intro t x hx
    obtain ⟨i, hi, -⟩ := (Seq.mem_samples_iff _ _ _).mp hx
    exact List.mem_of_getElem? hi
  have hne : pl.states.ts ≠ [] := fun e => by
    have := hmem _ _ hsam
    rw [e] at this
    cases this
  obtain ⟨T, hT⟩ : ∃ T, pl.states.ts.getLast? = some T := ⟨_, List.getLast?_eq_some_getLast hne⟩
  have hle : ∀ t ∈ pl.states.ts, t ≤ T := by
    intro t ht
    obtain ⟨ys, e⟩ := List.getLast?_eq_some_iff.mp hT
    have hv := hval.1.2
    rw [e] at ht hv
    rcases List.mem_append.mp ht with ht | ht
    · exact ((List.pairwise_append.mp hv).2.2 t ht T (by simp)).le
    · exact (List.mem_singleton.mp ht).le
  cases hr : timeGoalLaneReached (fun x => .ok (P x)) pl.states with
  | error e =>
    obtain ⟨pre, v, post, -, -, h5⟩ := (C61_error _ pl.states hval.1 e).mp hr
    cases h5
  | ok r =>
    cases r with
    | none =>
      have := h2.mp hr (Wd.getState m) (by
        obtain ⟨i, -, hi⟩ := (Seq.mem_samples_iff _ _ _).mp hsam
        exact List.mem_of_getElem? hi)
      rw [hpk] at this
      cases this
    | some t =>
      obtain ⟨x, hx, -⟩ := (h1 t).mp hr
      exact ⟨pl, t, T, hpl, hr, hT, hle t (hmem t x hx)⟩

example := C165_no_later Toy.fresh Toy.dt_pos Toy.wf Toy.run_eq 2 (by decide +kernel) (by decide +kernel)
  (fun x : ℚ => decide ((41 / 2 : ℚ) ≤ x)) (fun w g x t w' hg h => by
    have hb : decide (g ≤ x) = true := by
      injection h with h
      injection h with _ h
    have : g = 21 := by
      rcases hg with _ | ⟨_, hg⟩
      · rfl
      · rcases hg with _ | ⟨_, hg⟩
        cases hg
    rw [this] at hb
    have := of_decide_eq_true hb
    exact decide_eq_true (by linarith))

/-- **C165.** Goals that depend on the place only, in worlds in which collisions do not move models: the time that
`time_goal_lane_reached` finds with the test of the goal is 0 if the player began at its goal, else the time at which the player
left the simulation; it finds none if the player neither began at its goal nor left. -/
theorem C165_arrival {Q : Type} {cfg : Cfg Wd} {fuel : Nat} {s s' : St Wd} {log log' : Dict N (PlayerLog Wd)}
    (hf : Fresh s) (hdt : 0 < cfg.dt) (hm : Dict.Wf cfg.missions)
    (hrun : run cfg fuel s log = some (.ok (s', log'))) {pos : Wd.M → Q} (hs : KeepsPos Wd pos) (henv : Wd.env ∉ s.players)
    {reach : N → Wd.G → Q → Bool} (hg : GoalBy Wd pos fun n g q _ => reach n g q) (n : N) (hn : n ∈ Dict.keys s.models)
    (g : Wd.G) (hng : (n, g) ∈ cfg.missions) (P : Wd.X → Bool) (hP : ∀ m, P (Wd.getState m) = reach n g (pos m)) :
    ∃ (σ : Nat → St Wd) (J : Nat) (pl : PlayerLog Wd) (m0 : Wd.M), Ready (σ 0) ∧ Exec cfg σ (J + 1) ∧ σ (J + 1) = s' ∧
      Dict.get? s.models n = some m0 ∧ Dict.get? log' n = some pl ∧
      (reach n g (pos m0) = true → timeGoalLaneReached (fun x => .ok (P x)) pl.states = .ok (some 0)) ∧
      (reach n g (pos m0) = false →
        (∀ t, timeGoalLaneReached (fun x => .ok (P x)) pl.states = .ok (some t) ↔
          ∃ k : Nat, t = (k : K) * cfg.dt ∧ LeftAt σ J k n) ∧
        (timeGoalLaneReached (fun x => .ok (P x)) pl.states = .ok none ↔ n ∈ s'.players)) := by
  obtain ⟨σ, J, hready, ⟨w, lg, hfirst⟩, hex, hend, h⟩ := C165_time hf hdt hm hrun
  obtain ⟨pl, hpl, ht⟩ := h n hn
  obtain ⟨h1, h2⟩ := ht P
  obtain ⟨m0, hm0⟩ := (Dict.mem_keys_iff _ _).mp hn
  have h0 : Dict.get? (σ 0).models n = some m0 := by rw [hfirst]; exact hm0
  have hp0 : n ∈ (σ 0).players := by rw [hready.fresh.keys n, hfirst]; exact hn
  have henv0 : Wd.env ∉ (σ 0).players := by rw [hfirst]; exact henv
  have hmod : ∀ i ≤ J + 1, ∃ m, Dict.get? (σ i).models n = some m := by
    intro i hi
    have hk := (inv_of_exec (inv_zero cfg σ hready) hdt hm i fun q hq => hex q (by omega)).keys
    refine (Dict.mem_keys_iff _ _).mp ?_
    rw [hk, hfirst]
    exact hn
  have hmono : ∀ a b, a ≤ b → b ≤ J + 1 → n ∈ (σ b).players → n ∈ (σ a).players := by
    intro a b hab hb hp
    by_contra hna
    exact players_mono hready hdt hm hex n a hna b hab hb hp
  -- while it takes part after the first step it is not at its goal; when it leaves it is
  have hout : ∀ i m, 0 < i → i ≤ J + 1 → n ∈ (σ i).players → Dict.get? (σ i).models n = some m → reach n g (pos m) = false :=
    fun i m hi hiJ hp hmm => C141_outside (reach := fun n g q _ => reach n g q) hready hdt hm
      (fun q hq => hex q (by omega)) hi hs henv0 hg hng hp ⟨m, hmm, rfl⟩
  have hleft : ∀ k m, LeftAt σ J k n → Dict.get? (σ k).models n = some m → reach n g (pos m) = true := by
    rintro k m ⟨hk0, hkJ, hk1, hk2⟩ hmm
    obtain ⟨j, rfl⟩ : ∃ j, k = j + 1 := ⟨k - 1, by omega⟩
    exact (C141_leaves_iff (reach := fun n g q _ => reach n g q) hready hdt hm (fun q hq => hex q (by omega)) hs henv0 hg hng
      hk1 ⟨m, hmm, rfl⟩).mp hk2
  have huniq : ∀ k k', LeftAt σ J k n → LeftAt σ J k' n → k = k' := by
    rintro k k' ⟨a1, a2, a3, a4⟩ ⟨b1, b2, b3, b4⟩
    rcases Nat.lt_trichotomy k k' with hlt | he | hlt
    · exact absurd (hmono k (k' - 1) (by omega) (by omega) b3) a4
    · exact he
    · exact absurd (hmono k' (k - 1) (by omega) (by omega) a3) b4
  refine ⟨σ, J, pl, m0, hready, hex, hend, hm0, hpl, fun hr => ?_, fun hr => ⟨fun t => (h1 t).trans ?_, h2.trans ?_⟩⟩
  · refine (h1 0).mpr ⟨0, by simp, ⟨Wd.getState m0, ⟨Or.inl ⟨Nat.zero_le _, hp0⟩, m0, h0, rfl⟩, by rw [hP, hr]⟩,
      fun _ _ _ _ => Nat.zero_le _⟩
  · have hcase : ∀ i x, Had σ J i n x → P x = true → LeftAt σ J i n := by
      rintro i x ⟨hi, m, hmm, rfl⟩ hp
      rw [hP] at hp
      rcases hi with ⟨hiJ, hpi⟩ | hi
      · rcases Nat.eq_zero_or_pos i with rfl | hpos
        · rw [h0] at hmm
          injection hmm with hmm
          rw [← hmm, hr] at hp
          cases hp
        · rw [hout i m hpos (by omega) hpi hmm] at hp
          cases hp
      · exact hi
    constructor
    · rintro ⟨i, rfl, ⟨x, hx, hp⟩, -⟩
      exact ⟨i, rfl, hcase i x hx hp⟩
    · rintro ⟨k, rfl, hk⟩
      obtain ⟨m, hmm⟩ := hmod k hk.2.1
      refine ⟨k, rfl, ⟨Wd.getState m, ⟨Or.inr hk, m, hmm, rfl⟩, by rw [hP, hleft k m hk hmm]⟩, fun i' x' hx' hp' => ?_⟩
      exact (huniq k i' hk (hcase i' x' hx' hp')).le
  · constructor
    · intro hall
      by_contra hnp
      -- the first step after which the player is gone
      have hex1 : ∃ k, k ≤ J + 1 ∧ n ∉ (σ k).players := ⟨J + 1, le_rfl, by rw [hend]; exact hnp⟩
      classical
      obtain ⟨hk1, hk2⟩ := Nat.find_spec hex1
      have hk0 : 0 < Nat.find hex1 := by
        rcases Nat.eq_zero_or_pos (Nat.find hex1) with e | e
        · rw [e] at hk2
          exact absurd hp0 hk2
        · exact e
      have hl : LeftAt σ J (Nat.find hex1) n := by
        refine ⟨hk0, hk1, ?_, hk2⟩
        by_contra hc
        exact Nat.find_min hex1 (m := Nat.find hex1 - 1) (by omega) ⟨by omega, hc⟩
      obtain ⟨m, hmm⟩ := hmod _ hk1
      have := hall _ _ ⟨Or.inr hl, m, hmm, rfl⟩
      rw [hP, hleft _ m hl hmm] at this
      cases this
    · rintro hp i x ⟨hi, m, hmm, rfl⟩
      rw [← hend] at hp
      rw [hP]
      rcases hi with ⟨hiJ, hpi⟩ | ⟨-, hi2, -, hi4⟩
      · rcases Nat.eq_zero_or_pos i with rfl | hpos
        · rw [h0] at hmm
          injection hmm with hmm
          rw [← hmm, hr]
        · exact hout i m hpos (by omega) hpi hmm
      · exact absurd (hmono i (J + 1) hi2 le_rfl hp) hi4

/-- Car 2 of the toy world leaves at 1, car 0 stays. -/
example := C165_arrival Toy.fresh Toy.dt_pos Toy.wf Toy.run_eq toy_keeps (by decide +kernel)
  (reach := fun _ g x => decide (g ≤ x)) toy_goal 2 (by decide +kernel) (21 : ℚ) List.mem_cons_self
  (fun x => decide ((21 : ℚ) ≤ x)) (fun _ => rfl)

example : (Dict.get? Toy.result.2 2).map (fun l => timeGoalLaneReached (fun x => .ok (decide ((21 : ℚ) ≤ x))) l.states) =
    some (.ok (some 1)) := by
  decide +kernel

/-! ## Jerks -/

/-- Consecutive multiples of `p`. -/
theorem filter_next (p k i a b : Nat) (hp : 0 < p) (ha : ((List.range k).filter fun i => decide (p ∣ i))[i]? = some a)
    (hb : ((List.range k).filter fun i => decide (p ∣ i))[i + 1]? = some b) : b = a + p := by
  have hpw : ((List.range k).filter fun i => decide (p ∣ i)).Pairwise (· < ·) := List.pairwise_lt_range.filter _
  obtain ⟨h1, e1⟩ := List.getElem?_eq_some_iff.mp ha
  obtain ⟨h2, e2⟩ := List.getElem?_eq_some_iff.mp hb
  have hmem : ∀ x, x ∈ (List.range k).filter (fun i => decide (p ∣ i)) ↔ x < k ∧ p ∣ x := by
    intro x
    simp [List.mem_filter]
  have ma := (hmem a).mp (List.mem_of_getElem? ha)
  have mb := (hmem b).mp (List.mem_of_getElem? hb)
  have hp' := List.pairwise_iff_getElem.mp hpw
  have hab : a < b := by
    have := hp' i (i + 1) h1 h2 (by omega)
    rwa [e1, e2] at this
  have hle : a + p ≤ b := by
    have := Nat.le_of_dvd (by omega) (Nat.dvd_sub mb.2 ma.2)
    omega
  by_contra hne
  have hm : a + p ∈ (List.range k).filter (fun i => decide (p ∣ i)) :=
    (hmem _).mpr ⟨by omega, Nat.dvd_add ma.2 (dvd_refl p)⟩
  obtain ⟨q, hq, e3⟩ := List.getElem_of_mem hm
  rcases Nat.lt_or_ge q (i + 1) with hqi | hqi
  · rcases Nat.lt_or_ge q i with hqi' | hqi'
    · have := hp' q i hq h1 hqi'
      rw [e3, e1] at this
      omega
    · have : q = i := by omega
      subst this
      rw [e3] at e1
      omega
  · rcases Nat.eq_or_lt_of_le hqi with e | hlt
    · subst e
      rw [e3] at e2
      omega
    · have := hp' (i + 1) q h2 hq hlt
      rw [e2, e3] at this
      omega

theorem filter_index (p k a b i : Nat) (hp : 0 < p) (ha : ((List.range k).filter fun i => decide (p ∣ i))[a]? = some i)
    (hb : ((List.range k).filter fun i => decide (p ∣ i))[b]? = some (i + p)) : b = a + 1 := by
  have hpw : ((List.range k).filter fun i => decide (p ∣ i)).Pairwise (· < ·) := List.pairwise_lt_range.filter _
  have hp' := List.pairwise_iff_getElem.mp hpw
  obtain ⟨h1, e1⟩ := List.getElem?_eq_some_iff.mp ha
  obtain ⟨h2, e2⟩ := List.getElem?_eq_some_iff.mp hb
  have hab : a < b := by
    rcases Nat.lt_trichotomy a b with h | h | h
    · exact h
    · subst h
      rw [e1] at e2
      omega
    · have := hp' b a h2 h1 h
      rw [e1, e2] at this
      omega
  have h3 : a + 1 < ((List.range k).filter fun i => decide (p ∣ i)).length := by omega
  have h4 := filter_next p k a i _ hp ha (List.getElem?_eq_getElem h3)
  rcases Nat.eq_or_lt_of_le (show a + 1 ≤ b from hab) with h | h
  · exact h.symm
  · have := hp' (a + 1) b h3 h2 h
    rw [h4, e2] at this
    omega

/-- **C165.** `get_max_jerk` on the logged commands of a player: it is the largest difference of the accelerations that the player
returned at two consecutive requests, divided by the time between them, which is that of the period of commands, or 0; so it is at
most twice the largest acceleration divided by `dt_commands`. -/
theorem C165_jerk {cfg : Cfg Wd} {fuel : Nat} {s s' : St Wd} {log log' : Dict N (PlayerLog Wd)}
    (hf : Fresh s) (hdt : 0 < cfg.dt) (hm : Dict.Wf cfg.missions)
    (hrun : run cfg fuel s log = some (.ok (s', log'))) (acc : Wd.C → K) (lo hi : Option K) (n : N)
    (hn : n ∈ Dict.keys s.models) :
    ∃ (σ : Nat → St Wd) (J : Nat) (pl : PlayerLog Wd) (j : K), Ready (σ 0) ∧ Exec cfg σ (J + 1) ∧ σ (J + 1) = s' ∧
      Dict.get? log' n = some pl ∧ getMaxJerk acc lo hi pl.commands = .ok j ∧
      (j = 0 ∨ ∃ i c0 c1, i + period cfg ≤ J ∧ Returned cfg σ i n c0 ∧ Returned cfg σ (i + period cfg) n c1 ∧
        (∀ a, lo = some a → a ≤ ((i + period cfg : Nat) : K) * cfg.dt) ∧
        (∀ b, hi = some b → ((i + period cfg : Nat) : K) * cfg.dt ≤ b) ∧
        j = |acc c1 - acc c0| / ((period cfg : K) * cfg.dt)) ∧
      (∀ (i : Nat) c0 c1, ((i : K) * cfg.dt, c0) ∈ pl.commands.samples →
        (((i + period cfg : Nat) : K) * cfg.dt, c1) ∈ pl.commands.samples →
        (∀ a, lo = some a → a ≤ ((i + period cfg : Nat) : K) * cfg.dt) →
        (∀ b, hi = some b → ((i + period cfg : Nat) : K) * cfg.dt ≤ b) →
        |acc c1 - acc c0| / ((period cfg : K) * cfg.dt) ≤ j) ∧
      ∀ A, (∀ i ≤ J, ∀ c, Returned cfg σ i n c → |acc c| ≤ A) → 0 < cfg.dtCommands → 0 ≤ A → j ≤ 2 * A / cfg.dtCommands := by
  obtain ⟨σ, J, hready, -, hex, hend, h⟩ := C164_commands hf hdt hm hrun
  obtain ⟨pl, hpl, hval, -, -, -, hret, -⟩ := h n hn
  obtain ⟨σ', J', -, -, -, -, hlog⟩ := C23_log hf hdt hm hrun
  obtain ⟨pl', k, last, hpl', -, -, -, -, hct, -⟩ := hlog n hn
  rw [hpl] at hpl'
  injection hpl' with hpl'
  subst hpl'
  have hp := C24_period cfg hdt
  have hinj : ∀ a b : Nat, (a : K) * cfg.dt = b * cfg.dt → a = b := fun a b h => by
    exact_mod_cast mul_right_cancel₀ hdt.ne' h
  -- every difference quotient
  have hj : ∀ q, IsJerk acc lo hi pl.commands q → ∃ i c0 c1, i + period cfg ≤ J ∧ Returned cfg σ i n c0 ∧
      Returned cfg σ (i + period cfg) n c1 ∧ (∀ a, lo = some a → a ≤ ((i + period cfg : Nat) : K) * cfg.dt) ∧
      (∀ b, hi = some b → ((i + period cfg : Nat) : K) * cfg.dt ≤ b) ∧
      q = (acc c1 - acc c0) / ((period cfg : K) * cfg.dt) := by
    rintro q ⟨i, t0, t1, c0, c1, h0, h1, hlo, hhi, rfl⟩
    obtain ⟨i0, hi0, e0, d0, r0⟩ := hret t0 c0 (List.mem_of_getElem? h0)
    obtain ⟨i1, hi1, e1, d1, r1⟩ := hret t1 c1 (List.mem_of_getElem? h1)
    have hz : ∀ (l : List K) (l' : List Wd.C) (i : Nat) t c, (l.zip l')[i]? = some (t, c) → l[i]? = some t := by
      intro l l' i t c hh
      rw [List.getElem?_zip_eq_some] at hh
      exact hh.1
    have g0 := hz _ _ _ _ _ h0
    have g1 := hz _ _ _ _ _ h1
    rw [hct, List.getElem?_map, Option.map_eq_some_iff] at g0 g1
    obtain ⟨a, ga, ea⟩ := g0
    obtain ⟨b, gb, eb⟩ := g1
    have := filter_next _ _ _ _ _ hp.1 ga gb
    have hia : a = i0 := hinj _ _ (ea.trans e0)
    have hib : b = i1 := hinj _ _ (eb.trans e1)
    subst hia hib this
    refine ⟨a, c0, c1, hi1, r0, r1, ?_, ?_, ?_⟩
    · rw [← e1]; exact hlo
    · rw [← e1]; exact hhi
    · rw [e0, e1]
      congr 1
      push_cast
      ring
  obtain ⟨j, h1, h2, h3⟩ := C63_max_jerk acc lo hi pl.commands hval.2.1
  have hpos : (0 : K) < (period cfg : K) * cfg.dt := mul_pos (by exact_mod_cast hp.1) hdt
  have hform : j = 0 ∨ ∃ i c0 c1, i + period cfg ≤ J ∧ Returned cfg σ i n c0 ∧ Returned cfg σ (i + period cfg) n c1 ∧
        (∀ a, lo = some a → a ≤ ((i + period cfg : Nat) : K) * cfg.dt) ∧
        (∀ b, hi = some b → ((i + period cfg : Nat) : K) * cfg.dt ≤ b) ∧
        j = |acc c1 - acc c0| / ((period cfg : K) * cfg.dt) := by
    rcases h3 with ⟨q, hq, rfl⟩ | ⟨rfl, -⟩
    · right
      obtain ⟨i, c0, c1, a1, a2, a3, a4, a5, rfl⟩ := hj q hq
      exact ⟨i, c0, c1, a1, a2, a3, a4, a5, by rw [abs_div, abs_of_pos hpos]⟩
    · left; rfl
  have hall : ∀ (i : Nat) c0 c1, ((i : K) * cfg.dt, c0) ∈ pl.commands.samples →
        (((i + period cfg : Nat) : K) * cfg.dt, c1) ∈ pl.commands.samples →
        (∀ a, lo = some a → a ≤ ((i + period cfg : Nat) : K) * cfg.dt) →
        (∀ b, hi = some b → ((i + period cfg : Nat) : K) * cfg.dt ≤ b) →
        |acc c1 - acc c0| / ((period cfg : K) * cfg.dt) ≤ j := by
    intro i c0 c1 m0 m1 hlo hhi
    obtain ⟨a, ha⟩ := List.mem_iff_getElem?.mp m0
    obtain ⟨b, hb⟩ := List.mem_iff_getElem?.mp m1
    have ga := (List.getElem?_zip_eq_some.mp ha).1
    have gb := (List.getElem?_zip_eq_some.mp hb).1
    rw [hct, List.getElem?_map, Option.map_eq_some_iff] at ga gb
    obtain ⟨a', ga, ea⟩ := ga
    obtain ⟨b', gb, eb⟩ := gb
    obtain rfl : a' = i := hinj _ _ ea
    obtain rfl : b' = a' + period cfg := hinj _ _ eb
    have := filter_index _ _ _ _ _ hp.1 ga gb
    subst this
    have := h2 _ ⟨a, _, _, c0, c1, ha, hb, hlo, hhi, rfl⟩
    have e : ((a' + period cfg : Nat) : K) * cfg.dt - (a' : K) * cfg.dt = (period cfg : K) * cfg.dt := by
      push_cast
      ring
    rwa [e, abs_div, abs_of_pos hpos] at this
  refine ⟨σ, J, pl, j, hready, hex, hend, hpl, h1, hform, hall, fun A hA hdc hA0 => ?_⟩
  rcases hform with rfl | ⟨i, c0, c1, a1, a2, a3, -, -, rfl⟩
  · positivity
  · have b0 := hA i (by omega) c0 a2
    have b1 := hA _ a1 c1 a3
    have hnum : |acc c1 - acc c0| ≤ 2 * A := by
      have := abs_sub (acc c1) (acc c0)
      linarith
    calc |acc c1 - acc c0| / ((period cfg : K) * cfg.dt) ≤ 2 * A / ((period cfg : K) * cfg.dt) := by
          exact div_le_div_of_nonneg_right hnum hpos.le
      _ ≤ 2 * A / cfg.dtCommands := div_le_div_of_nonneg_left (by linarith) hdc hp.2.1

example := C165_jerk Toy.fresh Toy.dt_pos Toy.wf Toy.run_eq (fun c : ℚ => c) none none 0 (by decide +kernel)

/-- Car 0 of the toy world returns 1, 1, 1 and 1/2, one second apart. -/
example : (Dict.get? Toy.result.2 0).map (fun l => getMaxJerk (fun c : ℚ => c) none none l.commands) = some (.ok (1 / 2)) := by
  decide +kernel

end Arrival
end Eval
end Verif
