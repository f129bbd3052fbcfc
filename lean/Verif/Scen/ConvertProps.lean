import Verif.Scen.FactoryProps
import Mathlib.Analysis.Real.Pi.Bounds

/-!
# C86, C87: the lane and the model inferred for a CommonRoad obstacle
-/

namespace Verif
namespace Scen

open Maps

variable {L : Type}

/-! ## C86: the lane -/

theorem candidatesIn_mem (fin : List Nat) : ∀ (ms : List Merged) (cs : List (List CtrPoint)),
    candidatesIn fin ms = .ok cs → ∀ lane, lane ∈ cs ↔
      ∃ m ∈ ms, (∃ f ∈ fin, idIn f m.id = true) ∧ fromVertices m.left m.right m.center = .ok lane
  | [], cs, h => by
    injection h with h
    subst h
    simp
  | m :: ms, cs, h => by
    intro lane
    unfold candidatesIn at h
    by_cases ha : fin.any (fun i => idIn i m.id) = true
    · rw [if_pos ha] at h
      have ha' := List.any_eq_true.mp ha
      cases h1 : fromVertices m.left m.right m.center with
      | error e => rw [h1] at h; cases h
      | ok l0 =>
        simp only [h1] at h
        cases h2 : candidatesIn fin ms with
        | error e => rw [h2] at h; cases h
        | ok ls =>
          simp only [h2] at h
          injection h with h
          subst h
          rw [List.mem_cons, candidatesIn_mem fin ms ls h2 lane]
          constructor
          · rintro (rfl | ⟨m', hm, h3, h4⟩)
            · exact ⟨m, by simp, ha', h1⟩
            · exact ⟨m', by simp [hm], h3, h4⟩
          · rintro ⟨m', hm, h3, h4⟩
            rcases List.mem_cons.mp hm with rfl | hm
            · rw [h1] at h4; injection h4 with h4; exact Or.inl h4.symm
            · exact Or.inr ⟨m', hm, h3, h4⟩
    · rw [if_neg ha] at h
      rw [candidatesIn_mem fin ms cs h lane]
      constructor
      · rintro ⟨m', hm, h3, h4⟩; exact ⟨m', by simp [hm], h3, h4⟩
      · rintro ⟨m', hm, h3, h4⟩
        rcases List.mem_cons.mp hm with rfl | hm
        · exact absurd (List.any_eq_true.mpr h3) ha
        · exact ⟨m', hm, h3, h4⟩

theorem candidates_mem (net : Network) (fin : List Nat) : ∀ (ids : List Nat) (cs : List (List CtrPoint)),
    candidates net fin ids = .ok cs → ∀ lane, lane ∈ cs ↔
      ∃ i ∈ ids, ∃ m ∈ net.merged i, (∃ f ∈ fin, idIn f m.id = true) ∧
        fromVertices m.left m.right m.center = .ok lane
  | [], cs, h => by
    injection h with h
    subst h
    simp
  | i :: ids, cs, h => by
    intro lane
    unfold candidates at h
    cases h1 : candidatesIn fin (net.merged i) with
    | error e => rw [h1] at h; cases h
    | ok a =>
      simp only [h1] at h
      cases h2 : candidates net fin ids with
      | error e => rw [h2] at h; cases h
      | ok b =>
        simp only [h2] at h
        injection h with h
        subst h
        rw [List.mem_append, candidatesIn_mem fin _ a h1, candidates_mem net fin ids b h2]
        simp

theorem argminBy_spec {α : Type} (f : α → ℝ) : ∀ (xs : List α) (x : α),
    argminBy f x xs ∈ x :: xs ∧ ∀ y ∈ x :: xs, f (argminBy f x xs) ≤ f y
  | [], x => by simp [argminBy]
  | z :: xs, x => by
    unfold argminBy
    split
    · rename_i h
      obtain ⟨h1, h2⟩ := argminBy_spec f xs z
      refine ⟨List.mem_cons_of_mem _ h1, ?_⟩
      intro y hy
      rcases List.mem_cons.mp hy with rfl | hy
      · exact (h2 z (by simp)).trans h.le
      · exact h2 y hy
    · rename_i h
      obtain ⟨h1, h2⟩ := argminBy_spec f xs x
      refine ⟨?_, ?_⟩
      · rcases List.mem_cons.mp h1 with h1 | h1
        · rw [h1]; simp
        · exact List.mem_cons_of_mem _ (List.mem_cons_of_mem _ h1)
      · intro y hy
        rcases List.mem_cons.mp hy with rfl | hy
        · exact h2 y (by simp)
        · rcases List.mem_cons.mp hy with rfl | hy
          · exact (h2 x (by simp)).trans (not_lt.mp h)
          · exact h2 y (List.mem_cons_of_mem _ hy)

/-- Specification: the lanelets a merged lanelet consists of. The id of a merged lanelet is the concatenation of
the decimal ids of its parts (commonroad-io). -/
def ChainOf (parts : Merged → List Nat) (net : Network) : Prop :=
  ∀ i, ∀ m ∈ net.merged i, i ∈ parts m ∧
    Nat.toDigits 10 m.id = (parts m).flatMap (Nat.toDigits 10)

/-- Specification: `lane` is the lane of a merged lanelet that starts at the obstacle's initial position. -/
def FromStart (net : Network) (o : DynObs) (m : Merged) (lane : List CtrPoint) : Prop :=
  (∃ i ∈ net.findByPosition (o.init.x, o.init.y), m ∈ net.merged i) ∧
    fromVertices m.left m.right m.center = .ok lane

/-- Specification: a part of the merged lanelet is at the last position of the trajectory. -/
def Reaches (parts : Merged → List Nat) (net : Network) (o : DynObs) (m : Merged) : Prop :=
  ∃ e, o.states.getLast? = some e ∧ ∃ f ∈ net.findByPosition (e.x, e.y), f ∈ parts m

/-- The lane through the predicted states, three metres wide. -/
def IsTrajectoryLane (o : DynObs) (lane : List CtrPoint) : Prop :=
  lane.length = o.states.length ∧ ∀ (k : Nat) (s : TState) (c : CtrPoint), o.states[k]? = some s → lane[k]? = some c →
    c.q = ⟨s.x, s.y, s.theta⟩ ∧ c.r = 3 / 2

theorem trajectoryLane (o : DynObs) : IsTrajectoryLane o (laneFromTrajectory o.states) := by
  refine ⟨by simp [laneFromTrajectory], ?_⟩
  intro k s c hs hc
  simp only [laneFromTrajectory, List.getElem?_map, hs, Option.map_some, Option.some.injEq] at hc
  subst hc
  exact ⟨rfl, rfl⟩

theorem infix_flatMap (f : Nat) : ∀ (l : List Nat), f ∈ l →
    Nat.toDigits 10 f <:+: l.flatMap (Nat.toDigits 10)
  | x :: l, h => by
    rw [List.flatMap_cons]
    rcases List.mem_cons.mp h with rfl | h
    · exact (List.prefix_append _ _).isInfix
    · exact (infix_flatMap f l h).trans (List.suffix_append _ _).isInfix

/-- The full claim of C86. -/
def GoodLane (parts : Merged → List Nat) (net : Network) (heading : List CtrPoint → ℝ × ℝ → ℝ) (o : DynObs)
    (lane : List CtrPoint) : Prop :=
  (∃ m, FromStart net o m lane ∧ Reaches parts net o m ∧
    ∀ m' lane', FromStart net o m' lane' → Reaches parts net o m' →
      |((o.init.theta - heading lane (o.init.x, o.init.y) : ℝ) : Real.Angle).toReal| ≤
      |((o.init.theta - heading lane' (o.init.x, o.init.y) : ℝ) : Real.Angle).toReal|) ∨
  (IsTrajectoryLane o lane ∧ ¬ ∃ m lane', FromStart net o m lane' ∧ Reaches parts net o m)

/-- **C86**, the part that holds in general. The lane is the lane of a merged lanelet from the initial position
whose id contains the digits of a lanelet at the last position, and no such lane has a heading nearer as a
number; or the lane of the trajectory, and then no merged lanelet from the initial position reaches the last one.
Missing compared to `GoodLane`: digits instead of the lanelet itself (`C86_false_id`), numbers instead of
angles (`C86_false_angle`). -/
theorem C86_lane_partial (parts : Merged → List Nat) (net : Network) (hn : ChainOf parts net)
    (heading : List CtrPoint → ℝ × ℝ → ℝ) (o : DynObs) (lane : List CtrPoint)
    (h : inferLane net heading o = .ok lane) :
    (∃ m, FromStart net o m lane ∧
      (∃ e, o.states.getLast? = some e ∧ ∃ f ∈ net.findByPosition (e.x, e.y),
        Nat.toDigits 10 f <:+: Nat.toDigits 10 m.id) ∧
      ∀ m' lane', FromStart net o m' lane' → Reaches parts net o m' →
        |o.init.theta - heading lane (o.init.x, o.init.y)| ≤ |o.init.theta - heading lane' (o.init.x, o.init.y)|) ∨
    (IsTrajectoryLane o lane ∧ ¬ ∃ m lane', FromStart net o m lane' ∧ Reaches parts net o m) := by
  unfold inferLane at h
  cases hl : o.states.getLast? with
  | none => rw [hl] at h; cases h
  | some e =>
    simp only [hl] at h
    by_cases hnil : net.findByPosition (o.init.x, o.init.y) = [] ∨ net.findByPosition (e.x, e.y) = []
    · rw [if_pos hnil] at h
      injection h with h
      subst h
      refine Or.inr ⟨trajectoryLane o, ?_⟩
      rintro ⟨m, lane', ⟨⟨i, hi, -⟩, -⟩, e', he', f, hf, -⟩
      rw [hl] at he'
      injection he' with he'
      subst he'
      rcases hnil with h0 | h0
      · rw [h0] at hi; cases hi
      · rw [h0] at hf; cases hf
    · rw [if_neg hnil] at h
      cases hc : candidates net (net.findByPosition (e.x, e.y)) (net.findByPosition (o.init.x, o.init.y)) with
      | error e => rw [hc] at h; cases h
      | ok cs =>
        have hmem := candidates_mem net _ _ cs hc
        have hcand : ∀ m lane', FromStart net o m lane' → Reaches parts net o m → lane' ∈ cs := by
          rintro m lane' ⟨⟨i, hi, hm⟩, hv⟩ ⟨e', he', f, hf, hfp⟩
          rw [hl] at he'
          injection he' with he'
          subst he'
          refine (hmem lane').mpr ⟨i, hi, m, hm, ⟨f, hf, ?_⟩, hv⟩
          unfold idIn
          rw [(hn i m hm).2]
          exact decide_eq_true (infix_flatMap f _ hfp)
        cases cs with
        | nil =>
          simp only [hc] at h
          injection h with h
          subst h
          refine Or.inr ⟨trajectoryLane o, ?_⟩
          rintro ⟨m, lane', h1, h2⟩
          exact absurd (hcand m lane' h1 h2) (by simp)
        | cons c cs =>
          simp only [hc] at h
          injection h with h
          obtain ⟨h1, h2⟩ := argminBy_spec
            (fun lane => |o.init.theta - heading lane (o.init.x, o.init.y)|) cs c
          rw [h] at h1 h2
          obtain ⟨i, hi, m, hm, ⟨f, hf, hfi⟩, hv⟩ := (hmem lane).mp h1
          refine Or.inl ⟨m, ⟨⟨i, hi, hm⟩, hv⟩, ⟨e, rfl, f, hf, ?_⟩, ?_⟩
          · exact of_decide_eq_true hfi
          · intro m' lane' ha hb
            exact h2 lane' (hcand m' lane' ha hb)

/-- **C86.** If a lane can be built from every merged lanelet and the trajectory is not empty, there is an
answer. -/
theorem C86_total (net : Network) (heading : List CtrPoint → ℝ × ℝ → ℝ) (o : DynObs) (hs : o.states ≠ [])
    (hv : ∀ i, ∀ m ∈ net.merged i, ∃ lane, fromVertices m.left m.right m.center = .ok lane) :
    ∃ lane, inferLane net heading o = .ok lane := by
  have h1 : ∀ fin ms, (∀ m ∈ ms, ∃ lane, fromVertices m.left m.right m.center = .ok lane) →
      ∃ cs, candidatesIn fin ms = .ok cs := by
    intro fin ms
    induction ms with
    | nil => intro _; exact ⟨[], rfl⟩
    | cons m ms ih =>
      intro hm
      obtain ⟨l, hl⟩ := hm m (by simp)
      obtain ⟨cs, hcs⟩ := ih fun m' hm' => hm m' (by simp [hm'])
      unfold candidatesIn
      split
      · exact ⟨l :: cs, by simp only [hl, hcs]⟩
      · exact ⟨cs, hcs⟩
  have h2 : ∀ fin ids, ∃ cs, candidates net fin ids = .ok cs := by
    intro fin ids
    induction ids with
    | nil => exact ⟨[], rfl⟩
    | cons i ids ih =>
      obtain ⟨a, ha⟩ := h1 fin (net.merged i) (hv i)
      obtain ⟨b, hb⟩ := ih
      exact ⟨a ++ b, by simp only [candidates, ha, hb]⟩
  unfold inferLane
  cases hl : o.states.getLast? with
  | none => exact absurd (List.getLast?_eq_none_iff.mp hl) hs
  | some e =>
    simp only
    split
    · exact ⟨_, rfl⟩
    · obtain ⟨cs, hcs⟩ := h2 (net.findByPosition (e.x, e.y)) (net.findByPosition (o.init.x, o.init.y))
      rw [hcs]
      cases cs <;> exact ⟨_, rfl⟩

/-! ### The counterexamples -/

namespace Streets

/-- A straight street along `x` at height `y`. -/
noncomputable def street (id : Nat) (y : ℝ) : Merged :=
  ⟨id, [(0, y + 1), (10, y + 1)], [(0, y - 1), (10, y - 1)], [(0, y), (10, y)]⟩

noncomputable def lane (y : ℝ) : List CtrPoint :=
  [ctrPointOf (0, y + 1) (0, y - 1) (0, y), ctrPointOf (10, y + 1) (10, y - 1) (10, y)]

theorem street_lane (id : Nat) (y : ℝ) :
    fromVertices (street id y).left (street id y).right (street id y).center = .ok (lane y) := rfl

theorem lane_inj {y z : ℝ} (h : lane y = lane z) : y = z := by
  have : (ctrPointOf (0, y + 1) (0, y - 1) (0, y)).q.y = (ctrPointOf (0, z + 1) (0, z - 1) (0, z)).q.y := by
    rw [(List.cons.inj h).1]
  exact this

/-- An obstacle driving from (0, 0) to (10, 0). -/
noncomputable def driver (theta : ℝ) : DynObs :=
  ⟨.car, true, .rectangle 4 2, .point (0, 0), ⟨0, 0, theta⟩, 10, [⟨5, 0, theta⟩, ⟨10, 0, theta⟩]⟩

/-- Lanelet 12 at the start, lanelet 2 at the end, not connected. -/
noncomputable def apart : Network where
  findByPosition := fun p => if p.1 = 0 then [12] else [2]
  merged := fun i => [street i 0]

end Streets

open Streets in
/-- **C86 is false**: identifiers are compared as substrings. Lanelet 12 does not lead to lanelet 2, and yet its
lane is taken. -/
theorem C86_false_id : ∃ (parts : Merged → List Nat) (net : Network) (heading : List CtrPoint → ℝ × ℝ → ℝ)
    (o : DynObs) (lane : List CtrPoint), ChainOf parts net ∧ inferLane net heading o = .ok lane ∧
      ¬ GoodLane parts net heading o lane := by
  refine ⟨fun m => [m.id], apart, fun _ _ => 0, driver 0, lane 0, ?_, ?_, ?_⟩
  · intro i m hm
    simp only [apart, List.mem_singleton] at hm
    subst hm
    simp [street]
  · have h12 : idIn 2 12 = true := by decide
    have hi : (street 12 0).id = 12 := rfl
    simp only [inferLane, driver, apart, List.getLast?_cons_cons, List.getLast?_singleton, if_true]
    norm_num
    simp only [candidates, candidatesIn, List.any_cons, List.any_nil, hi, h12, Bool.or_false, if_true, street_lane,
      List.append_nil, argminBy]
  · have hno : ∀ m lane', FromStart apart (driver 0) m lane' → ¬ Reaches (fun m => [m.id]) apart (driver 0) m := by
      rintro m lane' ⟨⟨i, hi, hm⟩, -⟩ ⟨e, he, f, hf, hp⟩
      simp only [driver, List.getLast?_cons_cons, List.getLast?_singleton, Option.some.injEq] at he
      subst he
      simp only [apart, driver, if_true, List.mem_singleton] at hi hm
      norm_num [apart] at hf
      subst hi hm hf
      simp [street] at hp
    rintro (⟨m, h1, h2, -⟩ | ⟨h1, -⟩)
    · exact hno m _ h1 h2
    · have := (h1.2 0 ⟨5, 0, 0⟩ (ctrPointOf (0, 0 + 1) (0, 0 - 1) (0, 0)) rfl rfl).1
      have := congrArg Transform.x this
      norm_num [ctrPointOf] at this

namespace Streets

/-- Two lanelets cover start and end. -/
noncomputable def both : Network where
  findByPosition := fun _ => [1, 2]
  merged := fun i => if i = 1 then [street 1 1] else if i = 2 then [street 2 2] else []

/-- The heading of the first lane is -3, of the second one 0. -/
noncomputable def head : List CtrPoint → ℝ × ℝ → ℝ := fun l _ =>
  open Classical in if l = lane 1 then -3 else 0

end Streets

open Streets in
/-- **C86 is false**: headings are compared as numbers. A car with heading 3 is put on the lane with heading 0
although the other lane has heading -3, which is 0.28 away. -/
theorem C86_false_angle : ∃ (parts : Merged → List Nat) (net : Network) (heading : List CtrPoint → ℝ × ℝ → ℝ)
    (o : DynObs) (lane : List CtrPoint), ChainOf parts net ∧ inferLane net heading o = .ok lane ∧
      ¬ GoodLane parts net heading o lane := by
  have h21 : lane 2 ≠ lane 1 := fun h => by have := lane_inj h; norm_num at this
  have hd1 : ∀ p, head (lane 1) p = -3 := fun p => by simp [head]
  have hd2 : ∀ p, head (lane 2) p = 0 := fun p => by simp [head, h21]
  have hne : ¬ (([1, 2] : List Nat) = [] ∨ ([1, 2] : List Nat) = []) := by simp
  refine ⟨fun m => [m.id], both, head, driver 3, lane 2, ?_, ?_, ?_⟩
  · intro i m hm
    simp only [both] at hm
    split at hm
    · rename_i h; rw [List.mem_singleton] at hm; subst hm h; simp [street]
    · split at hm
      · rename_i h; rw [List.mem_singleton] at hm; subst hm h; simp [street]
      · cases hm
  · have h11 : idIn 1 1 = true := by decide
    have h22 : idIn 2 2 = true := by decide
    have hi1 : (street 1 1).id = 1 := rfl
    have hi2 : (street 2 2).id = 2 := rfl
    have hm1 : both.merged 1 = [street 1 1] := rfl
    have hm2 : both.merged 2 = [street 2 2] := rfl
    have hf : ∀ p, both.findByPosition p = [1, 2] := fun _ => rfl
    have hc : candidates both [1, 2] [1, 2] = .ok [lane 1, lane 2] := by
      simp only [candidates, candidatesIn, hm1, hm2, List.any_cons, List.any_nil, hi1, hi2, h11, h22, Bool.or_false,
        Bool.true_or, Bool.or_true, if_true, street_lane, List.cons_append, List.nil_append, List.append_nil]
    simp only [inferLane, driver, List.getLast?_cons_cons, List.getLast?_singleton, hf, hc, argminBy, hd1, hd2]
    rw [if_neg hne, if_pos (by norm_num)]
  · have hl1 : FromStart both (driver 3) (street 1 1) (lane 1) :=
      ⟨⟨1, by simp [both], by simp [both]⟩, rfl⟩
    have hr1 : Reaches (fun m => [m.id]) both (driver 3) (street 1 1) :=
      ⟨⟨10, 0, 3⟩, rfl, 1, by simp [both], by simp [street]⟩
    rintro (⟨m, -, -, h⟩ | ⟨-, h⟩)
    · have := h (street 1 1) (lane 1) hl1 hr1
      rw [hd1, hd2] at this
      simp only [driver] at this
      have e1 : ((3 - 0 : ℝ) : Real.Angle).toReal = 3 := by
        rw [show (3 - 0 : ℝ) = 3 by norm_num, Real.Angle.toReal_coe_eq_self_iff]
        constructor <;> linarith [Real.pi_gt_three]
      have e2 : ((3 - -3 : ℝ) : Real.Angle).toReal = 6 - 2 * Real.pi := by
        rw [← Real.Angle.toReal_coe_eq_self_iff.mpr
          (⟨by linarith [Real.pi_gt_three, Real.pi_lt_four], by linarith [Real.pi_gt_three]⟩ :
            (6 - 2 * Real.pi) ∈ Set.Ioc (-Real.pi) Real.pi)]
        congr 1
        rw [Real.Angle.coe_sub (6 : ℝ)]
        norm_num
      rw [e1, e2, abs_of_pos (by norm_num), abs_of_neg (by linarith [Real.pi_gt_three])] at this
      linarith [Real.pi_lt_four]
    · exact h ⟨_, _, hl1, hr1⟩

/-! ## C87: the model -/

/-- A rectangle of the given size around the origin. -/
def InRect (l w : ℝ) (p : ℝ × ℝ) : Prop := |p.1| ≤ l / 2 ∧ |p.2| ≤ w / 2

/-- A point within the extent of an outline in both directions (the outlines are rectangles). -/
def Within (pts : List (ℝ × ℝ)) (p : ℝ × ℝ) : Prop :=
  (∃ a ∈ pts, ∃ b ∈ pts, a.1 ≤ p.1 ∧ p.1 ≤ b.1) ∧ (∃ a ∈ pts, ∃ b ∈ pts, a.2 ≤ p.2 ∧ p.2 ≤ b.2)

/-- **C87.** The model of a vehicle starts at the pose and speed of the obstacle, with its center of gravity
halfway between the axles, and with valid limits; a car, truck or bus of positive size has positive mass and
inertia. -/
theorem C87_vehicle_partial (o : DynObs) (hk : IsVehicle o.kind) (m : Model) (h : inferModel o = .ok m) :
    ∃ (st : VehicleState ℝ) (g : Outline.Geometry ℝ) (mass iz : ℝ) (p : Phys.VehicleParams ℝ),
      m = .vehicle st g mass iz p ∧
      st.x = o.init.x ∧ st.y = o.init.y ∧ st.psi = o.init.theta ∧ st.vx = o.speed ∧ g.lf = g.lr ∧ p.Valid ∧
      ∀ l w, o.shape = .rectangle l w → 0 < l → 0 < w →
        0 < mass ∧ 0 < iz ∧ 0 < g.lf ∧ 0 < g.wHalf ∧ Outline.wheelbase g < l ∧ Outline.width g < w := by
  obtain ⟨l, w, s, rest, h1, h2, h3, rfl⟩ := (inferModel_vehicle o hk m).mp h
  refine ⟨_, _, _, _, _, rfl, rfl, rfl, rfl, rfl, rfl, ?_, ?_⟩
  · split
    · exact bicycleParams_valid
    · exact carParams_valid
  · intro l' w' hs hl hw
    rw [h1] at hs
    injection hs with e1 e2
    subst e1 e2
    have hm : 0 < (massInertia l w).1 := by
      unfold massInertia
      have := Real.rpow_pos_of_pos (mul_pos hl hw) (16 / 10)
      simp only
      linarith
    have hi : 0 < (massInertia l w).2 := by
      have : (massInertia l w).2 = (massInertia l w).1 * (l + w) / 6 := rfl
      rw [this]
      positivity
    refine ⟨?_, ?_, by positivity, by positivity, ?_, ?_⟩
    · split <;> first | exact hm | norm_num
    · split <;> first | exact hi | norm_num
    · simp only [Outline.wheelbase]; linarith
    · simp only [Outline.width]; linarith

/-- **C87.** A pedestrian's model starts at its pose and speed, without turning. -/
theorem C87_pedestrian (o : DynObs) (hk : o.kind = .pedestrian) :
    inferModel o = .ok (.pedestrian ⟨o.init.x, o.init.y, o.init.theta, o.speed, 0, 0⟩) := by
  unfold inferModel
  simp only [hk]

/-- Specification: the outline of the model covers the rectangle of the obstacle. -/
def Covers (o : DynObs) (m : Model) : Prop :=
  ∃ st g mass iz p pts l w, m = .vehicle st g mass iz p ∧ Outline.outline g = .ok pts ∧
    o.shape = .rectangle l w ∧ ∀ q, InRect l w q → Within pts q

/-- **C87.** The outline of the model covers the obstacle exactly if a car, truck or bus is at most four metres
long and wide, or a bicycle at most two metres. -/
theorem C87_covers (o : DynObs) (hk : IsVehicle o.kind) (m : Model) (h : inferModel o = .ok m) (l w : ℝ)
    (hs : o.shape = .rectangle l w) (hl : 0 < l) (hw : 0 < w) :
    Covers o m ↔ if o.kind = .bicycle then l ≤ 2 ∧ w ≤ 2 else l ≤ 4 ∧ w ≤ 4 := by
  obtain ⟨l', w', s, rest, h1, h2, h3, rfl⟩ := (inferModel_vehicle o hk m).mp h
  rw [hs] at h1
  injection h1 with e1 e2
  subst e1 e2
  have box : ∀ (a b c : ℝ), 0 < a → 0 < b → 0 < c →
      ((∀ q, InRect l w q → Within [(-a, -c), (-a, c), (b, c), (b, -c), (-a, -c)] q) ↔
        l / 2 ≤ a ∧ l / 2 ≤ b ∧ w / 2 ≤ c) := by
    intro a b c ha hb hc
    constructor
    · intro h
      obtain ⟨⟨p1, hp1, -, -, h1, -⟩, p2, hp2, -, -, h2, -⟩ := h (-(l / 2), -(w / 2))
        ⟨by rw [abs_neg, abs_of_pos (by linarith)], by rw [abs_neg, abs_of_pos (by linarith)]⟩
      obtain ⟨⟨-, -, p3, hp3, -, h3⟩, -⟩ := h (l / 2, w / 2)
        ⟨by rw [abs_of_pos (by linarith)], by rw [abs_of_pos (by linarith)]⟩
      simp only [List.mem_cons, List.not_mem_nil, or_false] at hp1 hp2 hp3
      refine ⟨?_, ?_, ?_⟩
      · rcases hp1 with rfl | rfl | rfl | rfl | rfl <;> simp only at h1 <;> linarith
      · rcases hp3 with rfl | rfl | rfl | rfl | rfl <;> simp only at h3 <;> linarith
      · rcases hp2 with rfl | rfl | rfl | rfl | rfl <;> simp only at h2 <;> linarith
    · rintro ⟨h1, h2, h3⟩ q ⟨hq1, hq2⟩
      rw [abs_le] at hq1 hq2
      exact ⟨⟨(-a, -c), by simp, (b, c), by simp, by simp only; linarith, by simp only; linarith⟩,
        ⟨(-a, -c), by simp, (b, c), by simp, by simp only; linarith, by simp only; linarith⟩⟩
  have out : ∀ (g : Outline.Geometry ℝ) (a b c : ℝ),
      Outline.outline g = .ok [(-a, -c), (-a, c), (b, c), (b, -c), (-a, -c)] →
      ∀ st mass iz p, Covers o (.vehicle st g mass iz p) ↔
        ∀ q, InRect l w q → Within [(-a, -c), (-a, c), (b, c), (b, -c), (-a, -c)] q := by
    intro g a b c hg st mass iz p
    constructor
    · rintro ⟨st', g', mass', iz', p', pts, l', w', hm, ho, hsh, hc⟩
      injection hm with e1 e2 e3 e4 e5
      subst e2
      rw [hg] at ho
      injection ho with ho
      rw [hs] at hsh
      injection hsh with e1 e2
      subst ho e1 e2
      exact hc
    · intro hc
      exact ⟨st, g, mass, iz, p, _, l, w, rfl, hg, hs, hc⟩
  by_cases hb : o.kind = .bicycle
  · simp only [hb, if_true]
    rw [out ⟨.bicycle, w / 2 * (95 / 100), l * (7 / 10) / 2, l * (7 / 10) / 2⟩ (l * (7 / 10) / 2 + 3 / 5)
      (l * (7 / 10) / 2 + 3 / 10) (w / 2 * (95 / 100) + 1 / 20), box _ _ _ (by positivity) (by positivity)
      (by positivity)]
    · constructor
      · rintro ⟨h1, h2, h3⟩; constructor <;> linarith
      · rintro ⟨h1, h2⟩; refine ⟨?_, ?_, ?_⟩ <;> linarith
    · simp only [Outline.outline, Outline.wheelShape, Outline.bumpers, Outline.fourWheels, bind, Except.bind, pure,
        Except.pure, Bool.false_eq_true, if_false, Except.ok.injEq, List.cons.injEq, Prod.mk.injEq, and_true]
      repeat' apply And.intro
      all_goals first | trivial | ring
  · simp only [hb, if_false]
    rw [out ⟨.car, w / 2 * (95 / 100), l * (7 / 10) / 2, l * (7 / 10) / 2⟩ (l * (7 / 10) / 2 + 3 / 5)
      (l * (7 / 10) / 2 + l * (7 / 10) / 2 / 2) (w / 2 * (95 / 100) + 1 / 10), box _ _ _ (by positivity) (by positivity)
      (by positivity)]
    · constructor
      · rintro ⟨h1, h2, h3⟩; constructor <;> linarith
      · rintro ⟨h1, h2⟩; refine ⟨?_, ?_, ?_⟩ <;> linarith
    · simp only [Outline.outline, Outline.wheelShape, Outline.bumpers, Outline.fourWheels, bind, Except.bind, pure,
        Except.pure, if_true, Except.ok.injEq, List.cons.injEq, Prod.mk.injEq, and_true]
      repeat' apply And.intro
      all_goals first | trivial | ring

/-- **C87 is false** for the usual size of a car: a car of 4.5 m is not covered by the outline of its model. -/
theorem C87_false_size : ∃ (o : DynObs) (m : Model), o.kind = .car ∧ o.shape = .rectangle (9 / 2) (9 / 5) ∧
    inferModel o = .ok m ∧ ¬ Covers o m := by
  let o : DynObs := ⟨.car, true, .rectangle (9 / 2) (9 / 5), .point (0, 0), ⟨0, 0, 0⟩, 10, [⟨1, 0, 0⟩]⟩
  have hm := (inferModel_vehicle o (Or.inl rfl) _).mpr ⟨9 / 2, 9 / 5, ⟨1, 0, 0⟩, [], rfl, by norm_num, rfl, rfl⟩
  refine ⟨o, _, rfl, rfl, hm, ?_⟩
  rw [C87_covers o (Or.inl rfl) _ hm (9 / 2) (9 / 5) rfl (by norm_num) (by norm_num)]
  norm_num [o]

/-- **C87 is false** for the steering angle: headings are subtracted as numbers, so that a car driving straight
on in the direction of the negative `x` axis, its heading changing from 3.14 to -3.14, starts with a steering
angle beyond the limit of its own parameters. -/
theorem C87_false_steering : ∃ (o : DynObs) (st : VehicleState ℝ) (g : Outline.Geometry ℝ) (mass iz : ℝ)
    (p : Phys.VehicleParams ℝ), o.kind = .car ∧ o.shape = .rectangle (9 / 2) (9 / 5) ∧
    inferModel o = .ok (.vehicle st g mass iz p) ∧ p.deltaMax < |st.delta| := by
  let o : DynObs := ⟨.car, true, .rectangle (9 / 2) (9 / 5), .point (0, 0), ⟨0, 0, 314 / 100⟩, 10,
    [⟨-1, 0, -314 / 100⟩]⟩
  have hm := (inferModel_vehicle o (Or.inl rfl) _).mpr
    ⟨9 / 2, 9 / 5, ⟨-1, 0, -314 / 100⟩, [], rfl, by norm_num, rfl, rfl⟩
  refine ⟨o, _, _, _, _, _, rfl, rfl, hm, ?_⟩
  have hk : o.kind ≠ .bicycle := by simp [o]
  simp only [hk, if_false, carParams]
  rw [lt_abs]
  right
  norm_num [o]

/-- **C87.** The limits: every vehicle can stand, drive both ways, brake, speed up and steer to both sides.
Cars reach 10 km/h backwards and 130 km/h forwards, bicycles 1 km/h and 50 km/h; brakes are stronger than
engines. -/
theorem C87_mobile (o : DynObs) (hk : IsVehicle o.kind) (m : Model) (h : inferModel o = .ok m) :
    ∃ (st : VehicleState ℝ) (g : Outline.Geometry ℝ) (mass iz : ℝ) (p : Phys.VehicleParams ℝ),
      m = .vehicle st g mass iz p ∧ p.vxMin < 0 ∧ 0 < p.vxMax ∧ p.accMin < 0 ∧ 0 < p.accMax ∧
      0 < p.deltaMax ∧ 0 < p.ddeltaMax ∧ p.accMax < -p.accMin ∧
      (o.kind = .bicycle → p.vxMin * 3600 = -1 * 1000 ∧ p.vxMax * 3600 = 50 * 1000) ∧
      (o.kind ≠ .bicycle → p.vxMin * 3600 = -10 * 1000 ∧ p.vxMax * 3600 = 130 * 1000) := by
  obtain ⟨l, w, s, rest, h1, h2, h3, rfl⟩ := (inferModel_vehicle o hk m).mp h
  refine ⟨_, _, _, _, _, rfl, ?_⟩
  by_cases hb : o.kind = .bicycle
  · simp only [hb, if_true, bicycleParams]
    norm_num
  · simp only [hb, if_false, carParams]
    norm_num

example : (∃ m, inferModel (Town.car 0) = .ok m) ∧ IsVehicle (Town.car 0).kind ∧ (Town.car 0).kind ≠ .bicycle :=
  ⟨⟨_, (inferModel_vehicle (Town.car 0) (Or.inl rfl) _).mpr
    ⟨4, 2, ⟨1, 0, 0⟩, [⟨2, 0, 0⟩], rfl, by norm_num, rfl, rfl⟩⟩, Or.inl rfl, by simp [Town.car]⟩

/-- **C87.** Trucks and buses get the type and the limits of a car. -/
theorem C87_truck (o : DynObs) (hk : o.kind = .truck ∨ o.kind = .bus) (m : Model) (h : inferModel o = .ok m) :
    ∃ st g mass iz, m = .vehicle st g mass iz carParams ∧ g.kind = .car := by
  have hv : IsVehicle o.kind := Or.inr (Or.inr hk)
  obtain ⟨l, w, s, rest, h1, h2, h3, rfl⟩ := (inferModel_vehicle o hv m).mp h
  have hb : o.kind ≠ .bicycle := by rcases hk with h | h <;> rw [h] <;> decide
  simp only [hb, if_false]
  exact ⟨_, _, _, _, rfl, rfl⟩

example : ∃ m, inferModel (Town.car 0) = .ok m ∧ Covers (Town.car 0) m := by
  have hm := (inferModel_vehicle (Town.car 0) (Or.inl rfl) _).mpr
    ⟨4, 2, ⟨1, 0, 0⟩, [⟨2, 0, 0⟩], rfl, by norm_num, rfl, rfl⟩
  refine ⟨_, hm, ?_⟩
  rw [C87_covers (Town.car 0) (Or.inl rfl) _ hm 4 2 rfl (by norm_num) (by norm_num),
    if_neg (by simp [Town.car])]
  norm_num

end Scen
end Verif
