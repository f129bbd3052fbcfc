import Verif.Dict
import Verif.Basic
import Verif.Num
import Mathlib.Tactic.Linarith
import Mathlib.Tactic.Positivity
import Mathlib.Tactic.NormNum
import Mathlib.Data.Rat.Defs
import Mathlib.Algebra.Order.Ring.Rat
import Mathlib.Data.List.Perm.Basic

/-!
# Speed behaviour (src/dg_commons/controllers/speed.py:46-156) and property C20

The relative pose of an agent (`relative_pose`, `SE2Transform.from_SE2`, `np.linalg.norm`) is a
parameter of the model: each agent is given with its relative position `p0`, `p1`, relative angle
`theta`, distance `dist` to the player and longitudinal speed `vx`. The circle constant is a
parameter `pi`. Every theorem holds for all values of these.
-/

set_option linter.unusedSectionVars false

namespace Verif

variable {K : Type*} [Field K] [LinearOrder K] {N : Type*} [DecidableEq N]

/-- `SpeedBehaviorParam`, speed.py:46-55. -/
structure SpeedBehaviorParam (K : Type*) where
  nominalSpeed : K
  yieldDistance : K
  minimumYieldVel : K
  safetyTimeBraking : K
  deriving Repr

/-- What the behaviour reads of an agent: relative pose and distance (speed.py:79-83, 99-101) and
`state.vx`. -/
structure AgentView (K : Type*) where
  p0 : K
  p1 : K
  theta : K
  dist : K
  vx : K
  deriving DecidableEq, Repr

/-- Body of the loop of `is_there_anyone_to_yield_to`, speed.py:99-107. -/
def yieldTest (pi : K) (prm : SpeedBehaviorParam K) (a : AgentView K) : Bool :=
  let comingFromTheRight : Bool := decide (pi / 4 ≤ a.theta) && decide (a.theta ≤ pi * 3 / 4) &&
    decide (prm.minimumYieldVel < a.vx)
  comingFromTheRight && decide (a.dist < prm.yieldDistance)

/-- The loop of speed.py:96-108 over the agents, skipping the player. -/
def anyOther (me : N) (test : AgentView K → Bool) : Dict N (AgentView K) → Bool
  | [] => false
  | (n, a) :: rest =>
    if n = me then anyOther me test rest
    else if test a then true
    else anyOther me test rest

/-- Body of the loop of `is_emergency_subroutine_needed`, speed.py:115-127. -/
def emergencyTest (pi : K) (prm : SpeedBehaviorParam K) (myvel : K) (a : AgentView K) : Bool :=
  let comingFromTheLeft : Bool := decide (-3 * pi / 4 ≤ a.theta) && decide (a.theta ≤ -pi / 4) &&
    decide (prm.minimumYieldVel < a.vx)
  let inFrontOfMe : Bool := decide (0 < a.p0) && decide (-6 / 5 ≤ a.p1) && decide (a.p1 ≤ 6 / 5)
  let comingFromTheFront : Bool := decide (3 * pi / 4 ≤ |a.theta|) &&
    decide (|a.theta| ≤ pi * 5 / 4) && inFrontOfMe
  (comingFromTheLeft && decide (a.dist < prm.yieldDistance)) ||
    (comingFromTheFront && decide (a.dist < prm.safetyTimeBraking * (myvel + a.vx)))

/-- The candidate of one other agent in `cruise_control`, speed.py:140-151. -/
def cruiseCandidate (pi : K) (prm : SpeedBehaviorParam K) (myvel : K) (a : AgentView K) : K :=
  let inFrontOfMe : Bool := decide (1 / 2 < a.p0) && decide (|a.p1| ≤ 6 / 5) &&
    decide (|a.theta| < pi / 6)
  let distToKeep := myvel * prm.safetyTimeBraking + max (myvel - a.vx) 0
  if inFrontOfMe ∧ a.dist < distToKeep then
    npClip (a.vx - max (myvel - a.vx) 0) 0 (kmh2ms 130)
  else prm.nominalSpeed

/-- The candidates appended by the loop of `cruise_control`, speed.py:137-151. -/
def cruiseCandidates (pi : K) (prm : SpeedBehaviorParam K) (me : N) (myvel : K) :
    Dict N (AgentView K) → List K
  | [] => []
  | (n, a) :: rest =>
    if n = me then cruiseCandidates pi prm me myvel rest
    else cruiseCandidate pi prm myvel a :: cruiseCandidates pi prm me myvel rest

/-- `min(candidate_speed_ref)` of a list starting with the nominal speed, speed.py:152. -/
def minList (x : K) (l : List K) : K := l.foldl min x

/-- `get_speed_ref`, speed.py:70-89: reference speed and emergency flag. `agents` contains the
player (otherwise `KeyError` at line 76). -/
def getSpeedRef (pi : K) (prm : SpeedBehaviorParam K) (me : N) (agents : Dict N (AgentView K)) :
    Except Err (K × Bool) :=
  match Dict.get? agents me with
  | none => .error .key
  | some my =>
    let yieldToAnyone := anyOther me (yieldTest pi prm) agents
    let emergency := anyOther me (emergencyTest pi prm my.vx) agents
    if yieldToAnyone || emergency then .ok (0, emergency)
    else .ok (minList prm.nominalSpeed (cruiseCandidates pi prm me my.vx agents), emergency)

/-! ## Specification -/

/-- Someone is coming from the right: crossing direction between 45 and 135 degrees, moving, near. -/
def ComesFromRight (pi : K) (prm : SpeedBehaviorParam K) (a : AgentView K) : Prop :=
  pi / 4 ≤ a.theta ∧ a.theta ≤ pi * 3 / 4 ∧ prm.minimumYieldVel < a.vx ∧ a.dist < prm.yieldDistance

/-- Someone is coming from the left. -/
def ComesFromLeft (pi : K) (prm : SpeedBehaviorParam K) (a : AgentView K) : Prop :=
  -3 * pi / 4 ≤ a.theta ∧ a.theta ≤ -pi / 4 ∧ prm.minimumYieldVel < a.vx ∧
    a.dist < prm.yieldDistance

/-- Someone is on a head-on course. -/
def HeadOn (pi : K) (prm : SpeedBehaviorParam K) (myvel : K) (a : AgentView K) : Prop :=
  3 * pi / 4 ≤ |a.theta| ∧ |a.theta| ≤ pi * 5 / 4 ∧ 0 < a.p0 ∧ |a.p1| ≤ 6 / 5 ∧
    a.dist < prm.safetyTimeBraking * (myvel + a.vx)

/-- There is another agent satisfying `P`. -/
def SomeOther (me : N) (agents : Dict N (AgentView K)) (P : AgentView K → Prop) : Prop :=
  ∃ n a, n ≠ me ∧ (n, a) ∈ agents ∧ P a

/-! ## Lemmas -/

theorem anyOther_iff (me : N) (test : AgentView K → Bool) (agents : Dict N (AgentView K)) :
    anyOther me test agents = true ↔ SomeOther me agents (fun a => test a = true) := by
  unfold SomeOther
  induction agents with
  | nil => simp [anyOther]
  | cons p rest ih =>
    obtain ⟨n, a⟩ := p
    simp only [anyOther]
    by_cases h : n = me
    · rw [if_pos h, ih]
      constructor
      · rintro ⟨n', a', h1, h2, h3⟩; exact ⟨n', a', h1, List.mem_cons_of_mem _ h2, h3⟩
      · rintro ⟨n', a', h1, h2, h3⟩
        rcases List.mem_cons.mp h2 with h2 | h2
        · injection h2 with e1 _; exact absurd (e1.trans h) h1
        · exact ⟨n', a', h1, h2, h3⟩
    · rw [if_neg h]
      by_cases ht : test a = true
      · simp only [ht, if_true, true_iff]
        exact ⟨n, a, h, by simp, ht⟩
      · rw [if_neg ht, ih]
        constructor
        · rintro ⟨n', a', h1, h2, h3⟩; exact ⟨n', a', h1, List.mem_cons_of_mem _ h2, h3⟩
        · rintro ⟨n', a', h1, h2, h3⟩
          rcases List.mem_cons.mp h2 with h2 | h2
          · injection h2 with _ e2; rw [e2] at h3; exact absurd h3 ht
          · exact ⟨n', a', h1, h2, h3⟩

theorem yieldTest_iff (pi : K) (prm : SpeedBehaviorParam K) (a : AgentView K) :
    yieldTest pi prm a = true ↔ ComesFromRight pi prm a := by
  simp only [yieldTest, ComesFromRight, Bool.and_eq_true, decide_eq_true_eq]; tauto

theorem minList_le (x : K) (l : List K) : minList x l ≤ x ∧ ∀ y ∈ l, minList x l ≤ y := by
  induction l generalizing x with
  | nil => simp [minList]
  | cons y l ih =>
    have := ih (min x y)
    simp only [minList, List.foldl_cons] at this ⊢
    refine ⟨this.1.trans (min_le_left _ _), ?_⟩
    intro z hz
    rcases List.mem_cons.mp hz with rfl | hz
    · exact this.1.trans (min_le_right _ _)
    · exact this.2 z hz

theorem minList_mem (x : K) (l : List K) : minList x l = x ∨ minList x l ∈ l := by
  induction l generalizing x with
  | nil => simp [minList]
  | cons y l ih =>
    have := ih (min x y)
    simp only [minList, List.foldl_cons, List.mem_cons] at this ⊢
    rcases this with h | h
    · rcases min_choice x y with h' | h'
      · left; rw [h, h']
      · right; left; rw [h, h']
    · exact Or.inr (Or.inr h)

theorem mem_cruiseCandidates (pi : K) (prm : SpeedBehaviorParam K) (me : N) (v : K)
    (agents : Dict N (AgentView K)) (x : K) :
    x ∈ cruiseCandidates pi prm me v agents ↔
      ∃ n a, n ≠ me ∧ (n, a) ∈ agents ∧ x = cruiseCandidate pi prm v a := by
  induction agents with
  | nil => simp [cruiseCandidates]
  | cons p rest ih =>
    obtain ⟨n, a⟩ := p
    simp only [cruiseCandidates]
    by_cases h : n = me
    · rw [if_pos h, ih]
      constructor
      · rintro ⟨n', a', h1, h2, h3⟩; exact ⟨n', a', h1, List.mem_cons_of_mem _ h2, h3⟩
      · rintro ⟨n', a', h1, h2, h3⟩
        rcases List.mem_cons.mp h2 with h2 | h2
        · injection h2 with e1 _; exact absurd (e1.trans h) h1
        · exact ⟨n', a', h1, h2, h3⟩
    · rw [if_neg h, List.mem_cons, ih]
      constructor
      · rintro (rfl | ⟨n', a', h1, h2, h3⟩)
        · exact ⟨n, a, h, by simp, rfl⟩
        · exact ⟨n', a', h1, List.mem_cons_of_mem _ h2, h3⟩
      · rintro ⟨n', a', h1, h2, h3⟩
        rcases List.mem_cons.mp h2 with h2 | h2
        · injection h2 with _ e2; left; rw [h3, e2]
        · exact Or.inr ⟨n', a', h1, h2, h3⟩

variable [IsStrictOrderedRing K]

theorem emergencyTest_iff (pi : K) (prm : SpeedBehaviorParam K) (v : K) (a : AgentView K) :
    emergencyTest pi prm v a = true ↔ ComesFromLeft pi prm a ∨ HeadOn pi prm v a := by
  simp only [emergencyTest, ComesFromLeft, HeadOn, Bool.and_eq_true, Bool.or_eq_true,
    decide_eq_true_eq]
  have e1 : (-6 / 5 : K) = -(6 / 5) := neg_div _ _
  rw [abs_le (a := a.p1), e1]
  tauto

theorem cruiseCandidate_bounds (pi : K) (prm : SpeedBehaviorParam K) (h : 0 ≤ prm.nominalSpeed)
    (v : K) (a : AgentView K) : 0 ≤ cruiseCandidate pi prm v a := by
  simp only [cruiseCandidate]
  split
  · exact le_npClip _ _ _ (by unfold kmh2ms; positivity)
  · exact h

/-! ## C20 -/

/-- **C20** With the player among the agents the call succeeds; the emergency flag says exactly
whether some other agent comes from the left or head-on; the reference is zero if there is an
emergency or someone to yield to. -/
theorem C20_decision (pi : K) (prm : SpeedBehaviorParam K) (me : N) (agents : Dict N (AgentView K))
    (my : AgentView K) (hme : Dict.get? agents me = some my) :
    ∃ v e, getSpeedRef pi prm me agents = .ok (v, e) ∧
      (e = true ↔ SomeOther me agents (fun a => ComesFromLeft pi prm a ∨ HeadOn pi prm my.vx a)) ∧
      (e = true → v = 0) ∧ (SomeOther me agents (ComesFromRight pi prm) → v = 0) := by
  have hy : anyOther me (yieldTest pi prm) agents = true ↔
      SomeOther me agents (ComesFromRight pi prm) := by
    rw [anyOther_iff]; simp only [yieldTest_iff]
  have he : anyOther me (emergencyTest pi prm my.vx) agents = true ↔
      SomeOther me agents (fun a => ComesFromLeft pi prm a ∨ HeadOn pi prm my.vx a) := by
    rw [anyOther_iff]; simp only [emergencyTest_iff]
  unfold getSpeedRef
  rw [hme]
  simp only
  split
  · rename_i h
    exact ⟨0, _, rfl, he, fun _ => rfl, fun _ => rfl⟩
  · rename_i h
    simp only [Bool.or_eq_true, not_or] at h
    exact ⟨_, _, rfl, he, fun h' => absurd h' h.2, fun h' => absurd (hy.mpr h') h.1⟩

/-- **C20** For a non-negative nominal speed the reference is within [0, nominal]. -/
theorem C20_range (pi : K) (prm : SpeedBehaviorParam K) (me : N) (agents : Dict N (AgentView K))
    (hn : 0 ≤ prm.nominalSpeed) (v : K) (e : Bool) (h : getSpeedRef pi prm me agents = .ok (v, e)) :
    0 ≤ v ∧ v ≤ prm.nominalSpeed := by
  unfold getSpeedRef at h
  split at h
  · cases h
  · rename_i my _
    simp only at h
    split at h
    · injection h with h; injection h with h1 h2; rw [← h1]; exact ⟨le_refl _, hn⟩
    · injection h with h; injection h with h1 h2
      rw [← h1]
      refine ⟨?_, (minList_le _ _).1⟩
      rcases minList_mem prm.nominalSpeed (cruiseCandidates pi prm me my.vx agents) with h' | h'
      · rw [h']; exact hn
      · obtain ⟨n, a, _, _, hx⟩ := (mem_cruiseCandidates _ _ _ _ _ _).mp h'
        rw [hx]; exact cruiseCandidate_bounds _ _ hn _ _

/-- **C20** With no other agent the reference is the nominal speed and there is no emergency. -/
theorem C20_alone (pi : K) (prm : SpeedBehaviorParam K) (me : N) (my : AgentView K) :
    getSpeedRef pi prm me [(me, my)] = .ok (prm.nominalSpeed, false) := by
  simp [getSpeedRef, Dict.get?, anyOther, cruiseCandidates, minList]

/-- **C20** The answer does not depend on the order in which the agents are listed. -/
theorem C20_order (pi : K) (prm : SpeedBehaviorParam K) (me : N) (a b : Dict N (AgentView K))
    (ha : Dict.Wf a) (hab : a.Perm b) :
    getSpeedRef pi prm me a = getSpeedRef pi prm me b := by
  have hb : Dict.Wf b := (hab.map Prod.fst).nodup_iff.mp ha
  have hget : Dict.get? a me = Dict.get? b me := by
    cases h : Dict.get? a me with
    | none =>
      rw [Dict.get?_eq_none_iff] at h
      exact ((Dict.get?_eq_none_iff b me).mpr (fun hm => h ((hab.map Prod.fst).mem_iff.mpr hm))).symm
    | some x =>
      exact (Dict.get?_of_mem hb (hab.mem_iff.mp (Dict.get?_eq_some_mem h))).symm
  have hany : ∀ test : AgentView K → Bool, anyOther me test a = anyOther me test b := by
    intro test
    rw [Bool.eq_iff_iff, anyOther_iff, anyOther_iff]
    unfold SomeOther
    simp only [hab.mem_iff]
  have hmin : ∀ v, minList prm.nominalSpeed (cruiseCandidates pi prm me v a) =
      minList prm.nominalSpeed (cruiseCandidates pi prm me v b) := by
    intro v
    have hle : ∀ a b : Dict N (AgentView K), a.Perm b →
        minList prm.nominalSpeed (cruiseCandidates pi prm me v a) ≤
        minList prm.nominalSpeed (cruiseCandidates pi prm me v b) := by
      intro a b hab
      rcases minList_mem prm.nominalSpeed (cruiseCandidates pi prm me v b) with h' | h'
      · rw [h']; exact (minList_le _ _).1
      · apply (minList_le _ _).2
        rw [mem_cruiseCandidates] at h' ⊢
        obtain ⟨n, x, h1, h2, h3⟩ := h'
        exact ⟨n, x, h1, hab.mem_iff.mpr h2, h3⟩
    exact le_antisymm (hle a b hab) (hle b a hab.symm)
  unfold getSpeedRef
  rw [hget]
  simp only [hany, hmin]

/-- C20: behind another vehicle with the same direction within the safety distance the
reference is at most that vehicle's speed (clipped at zero). -/
theorem C20_follow (pi : K) (prm : SpeedBehaviorParam K) (me : N) (agents : Dict N (AgentView K))
    (my a : AgentView K) (n : N) (hme : Dict.get? agents me = some my) (hn : n ≠ me)
    (ha : (n, a) ∈ agents) (h1 : 1 / 2 < a.p0) (h2 : |a.p1| ≤ 6 / 5) (h3 : |a.theta| < pi / 6)
    (h4 : a.dist < prm.safetyTimeBraking * my.vx) (v : K) (e : Bool)
    (h : getSpeedRef pi prm me agents = .ok (v, e)) : v ≤ max a.vx 0 := by
  unfold getSpeedRef at h
  rw [hme] at h
  simp only at h
  split at h
  · injection h with h; injection h with e1 _; rw [← e1]; exact le_max_right _ _
  · injection h with h; injection h with e1 _; rw [← e1]
    refine ((minList_le _ _).2 _ ((mem_cruiseCandidates _ _ _ _ _ _).mpr ⟨n, a, hn, ha, rfl⟩)).trans ?_
    simp only [cruiseCandidate]
    rw [if_pos]
    · refine (min_le_left _ _).trans (max_le_max_right _ ?_)
      linarith [le_max_right (my.vx - a.vx) 0]
    · refine ⟨by simp only [h1, h2, h3, decide_true, Bool.and_self], ?_⟩
      have := le_max_right (my.vx - a.vx) 0
      linarith [mul_comm prm.safetyTimeBraking my.vx]

/-- C20: when there is nothing to yield to, no emergency and nobody straight ahead, the reference
is the nominal speed. -/
theorem C20_free (pi : K) (prm : SpeedBehaviorParam K) (me : N) (agents : Dict N (AgentView K))
    (my : AgentView K) (hme : Dict.get? agents me = some my)
    (h1 : ¬ SomeOther me agents (ComesFromRight pi prm))
    (h2 : ¬ SomeOther me agents (fun a => ComesFromLeft pi prm a ∨ HeadOn pi prm my.vx a))
    (h3 : ¬ SomeOther me agents
      (fun a => 1 / 2 < a.p0 ∧ |a.p1| ≤ 6 / 5 ∧ |a.theta| < pi / 6)) :
    getSpeedRef pi prm me agents = .ok (prm.nominalSpeed, false) := by
  have hy : ¬ anyOther me (yieldTest pi prm) agents = true := by
    rw [anyOther_iff]; simp only [yieldTest_iff]; exact h1
  have he : ¬ anyOther me (emergencyTest pi prm my.vx) agents = true := by
    rw [anyOther_iff]; simp only [emergencyTest_iff]; exact h2
  unfold getSpeedRef
  rw [hme]
  simp only [hy, he, Bool.or_self, Bool.false_eq_true, if_false]
  congr 2
  rcases minList_mem prm.nominalSpeed (cruiseCandidates pi prm me my.vx agents) with h' | h'
  · exact h'
  · obtain ⟨n, a, hn, ha, hx⟩ := (mem_cruiseCandidates _ _ _ _ _ _).mp h'
    rw [hx]
    simp only [cruiseCandidate]
    rw [if_neg]
    rintro ⟨h, _⟩
    simp only [Bool.and_eq_true, decide_eq_true_eq] at h
    exact h3 ⟨n, a, hn, ha, h.1.1, h.1.2, h.2⟩

/-- `a` is straight ahead, drives in about the same direction and is nearer than the distance driven
within the safety time plus one second of closing speed. -/
def TooClose (pi : K) (prm : SpeedBehaviorParam K) (myvel : K) (a : AgentView K) : Prop :=
  1 / 2 < a.p0 ∧ |a.p1| ≤ 6 / 5 ∧ |a.theta| < pi / 6 ∧
    a.dist < myvel * prm.safetyTimeBraking + max (myvel - a.vx) 0

/-- The speed to keep behind `a`: its speed less the closing speed, between 0 and 130 km/h. -/
def followSpeed (myvel : K) (a : AgentView K) : K :=
  min (max (a.vx - max (myvel - a.vx) 0) 0) (kmh2ms 130)

/-- C20: when there is nothing to yield to and no emergency the reference is the least of the nominal
speed and the following speeds of the vehicles that are too close ahead. -/
theorem C20_reference (pi : K) (prm : SpeedBehaviorParam K) (me : N) (agents : Dict N (AgentView K))
    (my : AgentView K) (hme : Dict.get? agents me = some my)
    (h1 : ¬ SomeOther me agents (ComesFromRight pi prm))
    (h2 : ¬ SomeOther me agents (fun a => ComesFromLeft pi prm a ∨ HeadOn pi prm my.vx a)) :
    ∃ v, getSpeedRef pi prm me agents = .ok (v, false) ∧ v ≤ prm.nominalSpeed ∧
      (∀ n a, n ≠ me → (n, a) ∈ agents → TooClose pi prm my.vx a → v ≤ followSpeed my.vx a) ∧
      (v = prm.nominalSpeed ∨
        ∃ n a, n ≠ me ∧ (n, a) ∈ agents ∧ TooClose pi prm my.vx a ∧ v = followSpeed my.vx a) := by
  have hy : ¬ anyOther me (yieldTest pi prm) agents = true := by
    rw [anyOther_iff]; simp only [yieldTest_iff]; exact h1
  have he : ¬ anyOther me (emergencyTest pi prm my.vx) agents = true := by
    rw [anyOther_iff]; simp only [emergencyTest_iff]; exact h2
  have hc : ∀ a : AgentView K, (TooClose pi prm my.vx a ∧
      cruiseCandidate pi prm my.vx a = followSpeed my.vx a) ∨
      (¬ TooClose pi prm my.vx a ∧ cruiseCandidate pi prm my.vx a = prm.nominalSpeed) := by
    intro a
    simp only [cruiseCandidate, Bool.and_eq_true, decide_eq_true_eq, and_assoc]
    by_cases ha : TooClose pi prm my.vx a
    · left
      exact ⟨ha, if_pos ha⟩
    · right
      exact ⟨ha, if_neg ha⟩
  refine ⟨minList prm.nominalSpeed (cruiseCandidates pi prm me my.vx agents), ?_,
    (minList_le _ _).1, ?_, ?_⟩
  · unfold getSpeedRef
    rw [hme]
    simp only [hy, he, Bool.or_self, Bool.false_eq_true, if_false]
  · intro n a hn ha ht
    rcases hc a with h | h
    · rw [← h.2]
      exact (minList_le _ _).2 _ ((mem_cruiseCandidates _ _ _ _ _ _).mpr ⟨n, a, hn, ha, rfl⟩)
    · exact absurd ht h.1
  · rcases minList_mem prm.nominalSpeed (cruiseCandidates pi prm me my.vx agents) with h' | h'
    · exact Or.inl h'
    · obtain ⟨n, a, hn, ha, hx⟩ := (mem_cruiseCandidates _ _ _ _ _ _).mp h'
      rcases hc a with h | h
      · exact Or.inr ⟨n, a, hn, ha, h.1, hx.trans h.2⟩
      · exact Or.inl (hx.trans h.2)

section Example
/-- Default parameters with rounded speeds. -/
def exPrm : SpeedBehaviorParam ℚ := ⟨11, 7, 1, 3 / 2⟩

example : getSpeedRef (22 / 7) exPrm "me" [("me", ⟨0, 0, 0, 0, 10⟩), ("o", ⟨8, 0, 0, 8, 6⟩)] =
    .ok (2, false) := by decide +kernel
example : getSpeedRef (22 / 7) exPrm "me" [("me", ⟨0, 0, 0, 0, 10⟩), ("o", ⟨3, 3, 3 / 2, 4, 6⟩)] =
    .ok (0, false) := by decide +kernel
example : getSpeedRef (22 / 7) exPrm "me" [("me", ⟨0, 0, 0, 0, 10⟩), ("o", ⟨3, 3, -3 / 2, 4, 6⟩)] =
    .ok (0, true) := by decide +kernel
example : getSpeedRef (22 / 7) exPrm "me" [("me", ⟨0, 0, 0, 0, 10⟩), ("o", ⟨20, 1, 3, 20, 6⟩)] =
    .ok (0, true) := by decide +kernel
example : getSpeedRef (22 / 7) exPrm "me" [("me", ⟨0, 0, 0, 0, 10⟩), ("o", ⟨18, 0, 0, 18, 6⟩)] =
    .ok (2, false) := by decide +kernel
example : Dict.Wf [("me", (⟨0, 0, 0, 0, 10⟩ : AgentView ℚ)), ("o", ⟨8, 0, 0, 8, 6⟩)] := by
  simp [Dict.Wf, Dict.keys]
end Example

end Verif
