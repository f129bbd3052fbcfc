import Verif.Maps.CenterProps
import Verif.Scen.Model

/-!
# Planning goals (src/dg_commons/sim/goals.py)

`contains a b r p` stands for `LineString([a, b]).buffer(r).contains(Point(p))` of shapely. Poses are those of
the state (`extract_pose_from_state`). Real arithmetic.
-/

namespace Verif
namespace Scen

open Maps

/-- End points of the segment across the lane in `_polygon_at_along_lane`, goals.py:65-77, left and right. -/
noncomputable def crossSection (lane : List CtrPoint) (atBeta : Option ℝ) : Except Err ((ℝ × ℝ) × (ℝ × ℝ)) :=
  let maxbeta := atBeta.getD lane.length
  match centerPoint lane maxbeta with
  | .error e => .error e
  | .ok q => match radius (lane.map (·.r)) maxbeta with
    | .error e => .error e
    | .ok r => .ok (applyT2 q (0, r), applyT2 q (0, -r))

/-- `RefLaneGoal.is_fulfilled`, goals.py:47-54, with the polygon of goals.py:59-62 (inflation radius 1). -/
noncomputable def refLaneFulfilled (contains : ℝ × ℝ → ℝ × ℝ → ℝ → ℝ × ℝ → Bool) (closest : ℝ × ℝ → ℝ)
    (lane : List CtrPoint) (goal : ℝ) (pose : Mat3 ℝ) : Except Err Bool :=
  match crossSection lane (some goal) with
  | .error e => .error e
  | .ok (a, b) =>
    if contains a b 1 (pose.a02, pose.a12) then
      match lanePoseOf closest lane pose with
      | .error e => .error e
      | .ok lp => .ok (decide (goal ≤ lp.along))
    else .ok false

/-- `PolygonGoal.from_DgLanelet` and `is_fulfilled`, goals.py:84-92. -/
noncomputable def laneEndFulfilled (contains : ℝ × ℝ → ℝ × ℝ → ℝ → ℝ × ℝ → Bool) (lane : List CtrPoint)
    (inflation : ℝ) (pose : Mat3 ℝ) : Except Err Bool :=
  match crossSection lane none with
  | .error e => .error e
  | .ok (a, b) => .ok (contains a b inflation (pose.a02, pose.a12))

/-- The Frobenius norm of a difference of matrices, `np.linalg.norm(pose - goal_pose)`. -/
noncomputable def frobenius (m n : Mat3 ℝ) : ℝ :=
  Real.sqrt ((m.a00 - n.a00) ^ 2 + (m.a01 - n.a01) ^ 2 + (m.a02 - n.a02) ^ 2 +
    (m.a10 - n.a10) ^ 2 + (m.a11 - n.a11) ^ 2 + (m.a12 - n.a12) ^ 2 +
    (m.a20 - n.a20) ^ 2 + (m.a21 - n.a21) ^ 2 + (m.a22 - n.a22) ^ 2)

/-- `PoseGoal.is_fulfilled`, goals.py:105-108. -/
noncomputable def poseFulfilled (goal : Transform) (tol : ℝ) (pose : Mat3 ℝ) : Bool :=
  decide (frobenius pose goal.asSE2 ≤ tol)

/-- `PoseGoal.get_plottable_geometry`, goals.py:110-111: the polygon is raised instead of returned, which is a
`TypeError`. -/
def poseGeometry (_goal : Transform) : Except Err Unit := .error .type

/-! ## C89 -/

/-- Specification: within `r` of the segment from `a` to `b`. -/
def Near (a b : ℝ × ℝ) (r : ℝ) (p : ℝ × ℝ) : Prop :=
  ∃ s : ℝ, 0 ≤ s ∧ s ≤ 1 ∧
    (p.1 - (a.1 + s * (b.1 - a.1))) ^ 2 + (p.2 - (a.2 + s * (b.2 - a.2))) ^ 2 ≤ r ^ 2

/-- The buffer of shapely is a polygon inscribed in the set of points within `r`; with sixteen chords per quarter
circle it contains all points within `99 r / 100`. -/
def BufferLaw (contains : ℝ × ℝ → ℝ × ℝ → ℝ → ℝ × ℝ → Bool) : Prop :=
  ∀ a b r p, 0 < r → (contains a b r p = true → Near a b r p) ∧
    (Near a b (99 / 100 * r) p → contains a b r p = true)

/-- **C89.** A pose goal is fulfilled exactly if the squared distance plus four times one minus the cosine of the
difference of the headings is at most the squared tolerance. -/
theorem C89_pose (goal s : Transform) (tol : ℝ) (ht : 0 ≤ tol) :
    poseFulfilled goal tol s.asSE2 = true ↔
      (s.x - goal.x) ^ 2 + (s.y - goal.y) ^ 2 + 4 * (1 - Real.cos (s.theta - goal.theta)) ≤ tol ^ 2 := by
  unfold poseFulfilled frobenius
  rw [decide_eq_true_iff, Real.sqrt_le_left ht]
  have h1 := Real.sin_sq_add_cos_sq s.theta
  have h2 := Real.sin_sq_add_cos_sq goal.theta
  have h3 := Real.cos_sub s.theta goal.theta
  simp only [Transform.asSE2, rigid]
  constructor <;> intro h <;> nlinarith

/-- **C89.** With tolerance zero: the same position and the same heading up to full turns. -/
theorem C89_pose_exact (goal s : Transform) : poseFulfilled goal 0 s.asSE2 = true ↔
    s.x = goal.x ∧ s.y = goal.y ∧ ∃ k : ℤ, s.theta = goal.theta + k * (2 * Real.pi) := by
  rw [C89_pose goal s 0 le_rfl]
  have hc := Real.cos_le_one (s.theta - goal.theta)
  constructor
  · intro h
    have hx := sq_nonneg (s.x - goal.x)
    have hy := sq_nonneg (s.y - goal.y)
    have e1 : (s.x - goal.x) ^ 2 = 0 := by linarith
    have e2 : (s.y - goal.y) ^ 2 = 0 := by linarith
    have e3 : Real.cos (s.theta - goal.theta) = 1 := by linarith
    obtain ⟨k, hk⟩ := (Real.cos_eq_one_iff _).mp e3
    exact ⟨sub_eq_zero.mp (by simpa using e1), sub_eq_zero.mp (by simpa using e2), k, by linarith⟩
  · rintro ⟨h1, h2, k, hk⟩
    have : Real.cos (s.theta - goal.theta) = 1 := (Real.cos_eq_one_iff _).mpr ⟨k, by linarith⟩
    rw [h1, h2, this]
    simp

/-- **C89.** The goal at the end of a lane is a tenth of a metre beyond the last control point, as wide as the
lane there. -/
theorem C89_end (lane : List CtrPoint) (c : CtrPoint) (hc : lane.getLast? = some c) :
    crossSection lane none = .ok (applyT2 c.q.asSE2 (1 / 10, c.r), applyT2 c.q.asSE2 (1 / 10, -c.r)) := by
  have hne : lane ≠ [] := by rintro rfl; cases hc
  have h1 := (center_after lane c hc lane.length (by linarith)).1
  rw [interp_ahead, sub_sub_cancel] at h1
  have h2 : radius (lane.map (·.r)) (lane.length : ℝ) = .ok c.r := by
    obtain ⟨f, hf, he⟩ := C55_radius (lane.map (·.r)) (by simpa using hne)
    rw [he]
    congr 1
    refine hf.after c.r ?_ _ (by rw [List.length_map]; linarith)
    rw [List.getLast?_map, hc]; rfl
  unfold crossSection
  simp only [Option.getD_none, h1, h2, Except.ok.injEq]
  simp only [applyT2, Transform.asSE2, rigid, Mat3.mul, Prod.mk.injEq]
  refine ⟨⟨?_, ?_⟩, ?_, ?_⟩ <;> ring

/-- **C89.** The goal at the end of a lane is fulfilled by all positions within 0.99 of the inflation radius of
that cross section, and only by positions within the radius. -/
theorem C89_end_fulfilled (contains : ℝ × ℝ → ℝ × ℝ → ℝ → ℝ × ℝ → Bool) (hb : BufferLaw contains)
    (lane : List CtrPoint) (c : CtrPoint) (hc : lane.getLast? = some c) (r : ℝ) (hr : 0 < r) (s : Transform) :
    ∃ v, laneEndFulfilled contains lane r s.asSE2 = .ok v ∧
      (v = true → Near (applyT2 c.q.asSE2 (1 / 10, c.r)) (applyT2 c.q.asSE2 (1 / 10, -c.r)) r (s.x, s.y)) ∧
      (Near (applyT2 c.q.asSE2 (1 / 10, c.r)) (applyT2 c.q.asSE2 (1 / 10, -c.r)) (99 / 100 * r) (s.x, s.y) →
        v = true) := by
  refine ⟨_, by unfold laneEndFulfilled; rw [C89_end lane c hc], ?_, ?_⟩
  · intro h
    exact (hb _ _ _ _ hr).1 h
  · intro h
    exact (hb _ _ _ _ hr).2 h

/-- Specification of C89 for a goal on a lane: a fulfilled goal means that the position is within a metre of the
cross section at the distance `goal` along the lane, and that the own distance along the lane is at least that;
who is within 0.99 metres of the cross section and that far along the lane fulfils the goal. -/
def LaneGoal (contains : ℝ × ℝ → ℝ × ℝ → ℝ → ℝ × ℝ → Bool) (closest : ℝ × ℝ → ℝ) (lane : List CtrPoint)
    (goal : ℝ) : Prop :=
  ∃ beta q r, betaFromAlong (laneLengths lane) lane.length goal = .ok beta ∧ centerPoint lane beta = .ok q ∧
    radius (lane.map (·.r)) beta = .ok r ∧
    ∀ pose, (refLaneFulfilled contains closest lane goal pose = .ok true →
      Near (applyT2 q (0, r)) (applyT2 q (0, -r)) 1 (pose.a02, pose.a12) ∧
      ∃ lp, lanePoseOf closest lane pose = .ok lp ∧ goal ≤ lp.along) ∧
    (Near (applyT2 q (0, r)) (applyT2 q (0, -r)) (99 / 100) (pose.a02, pose.a12) →
      (∃ lp, lanePoseOf closest lane pose = .ok lp ∧ goal ≤ lp.along) →
      refLaneFulfilled contains closest lane goal pose = .ok true)

/-- **C89**, the part that holds: if the goal in metres happens to be the progress in control points at the
same place, for example on lanes with control points one metre apart. Missing: other lanes, see
`C89_false_metres`. -/
theorem C89_lane_partial (contains : ℝ × ℝ → ℝ × ℝ → ℝ → ℝ × ℝ → Bool) (hb : BufferLaw contains)
    (closest : ℝ × ℝ → ℝ) (lane : List CtrPoint) (hne : lane ≠ []) (goal : ℝ)
    (hg : betaFromAlong (laneLengths lane) lane.length goal = .ok goal) : LaneGoal contains closest lane goal := by
  obtain ⟨f, -, hf⟩ := C55_center lane hne
  obtain ⟨g, -, hr⟩ := C55_radius (lane.map (·.r)) (by simpa using hne)
  refine ⟨goal, f goal, g goal, hg, hf goal, hr goal, ?_⟩
  intro pose
  constructor
  · intro h
    unfold refLaneFulfilled crossSection at h
    simp only [Option.getD_some, hf, hr] at h
    split at h
    · rename_i hc
      refine ⟨(hb _ _ _ _ one_pos).1 hc, ?_⟩
      cases hl : lanePoseOf closest lane pose with
      | error e => rw [hl] at h; cases h
      | ok lp =>
        simp only [hl] at h
        injection h with h
        exact ⟨lp, rfl, of_decide_eq_true h⟩
    · cases h
  · rintro hn ⟨lp, hl, hle⟩
    unfold refLaneFulfilled crossSection
    simp only [Option.getD_some, hf, hr]
    rw [if_pos ((hb _ _ _ _ one_pos).2 (by rwa [mul_one]))]
    simp only [hl, decide_eq_true hle]

/-- A straight lane of a hundred metres, two control points. -/
noncomputable def hundred : List CtrPoint := [⟨⟨0, 0, 0⟩, 2⟩, ⟨⟨100, 0, 0⟩, 2⟩]

theorem hundred_far (goal : ℝ) (h1 : 1 ≤ goal) : crossSection hundred (some goal) =
    .ok ((100 + (goal - 1) / 10, 2), (100 + (goal - 1) / 10, -2)) := by
  have hc := (center_after hundred ⟨⟨100, 0, 0⟩, 2⟩ rfl goal (by norm_num [hundred]; exact h1)).1
  have hn : (hundred.length : ℝ) - 1 = 1 := by norm_num [hundred]
  rw [interp_ahead, hn] at hc
  have hr : radius (hundred.map (·.r)) goal = .ok 2 := by
    obtain ⟨f, hf, he⟩ := C55_radius (hundred.map (·.r)) (by simp [hundred])
    rw [he]
    congr 1
    exact hf.after 2 rfl _ (by norm_num [hundred]; exact h1)
  unfold crossSection
  simp only [Option.getD_some, hc, hr]
  simp [applyT2, Transform.asSE2, rigid, Mat3.mul]
  ring_nf

/-- **C89 is false**: the goal, given in metres along the lane, is used as progress in control points. On a
straight lane of a hundred metres with a goal at fifty metres the goal is at 104.9 metres: nobody who is on the
lane fulfils it. -/
theorem C89_false_metres (contains : ℝ × ℝ → ℝ × ℝ → ℝ → ℝ × ℝ → Bool) (hb : BufferLaw contains)
    (closest : ℝ × ℝ → ℝ) (pose : Mat3 ℝ) (hx : pose.a02 ≤ 100) :
    refLaneFulfilled contains closest hundred 50 pose = .ok false := by
  unfold refLaneFulfilled
  rw [hundred_far 50 (by norm_num)]
  simp only
  rw [if_neg]
  intro hc
  obtain ⟨s, h0, h1, h⟩ := (hb _ _ _ _ one_pos).1 hc
  norm_num at h
  nlinarith [sq_nonneg (pose.a12 - (2 + s * (-4)))]

/-- **C89.** The geometry of a pose goal for plotting cannot be obtained. -/
theorem C89_false_plot (goal : Transform) : ¬ ∃ g, poseGeometry goal = .ok g := by
  rintro ⟨g, h⟩; cases h

/-- A straight lane of one metre. -/
noncomputable def metre : List CtrPoint := [⟨⟨0, 0, 0⟩, 2⟩, ⟨⟨1, 0, 0⟩, 2⟩]

open Classical in
/-- Exact buffers satisfy the law. -/
theorem near_law : BufferLaw (fun a b r p => decide (Near a b r p)) := by
  intro a b r p hr
  refine ⟨of_decide_eq_true, fun h => decide_eq_true ?_⟩
  obtain ⟨s, h0, h1, h⟩ := h
  exact ⟨s, h0, h1, h.trans (by nlinarith [mul_pos hr hr])⟩

open Classical in
/-- The hypotheses of `C89_lane_partial` are met on that lane with a goal in its middle, with exact buffers. -/
example : LaneGoal (fun a b r p => decide (Near a b r p)) (fun p => p.1) metre (1 / 2) := by
  refine C89_lane_partial _ near_law _ metre (by simp [metre]) _ ?_
  have hd : distSE2 (Transform.asSE2 ⟨0, 0, 0⟩) (Transform.asSE2 ⟨1, 0, 0⟩) = 1 := by
    rw [(C56_distance _ _ (asSE2_rigid ⟨0, 0, 0⟩) (asSE2_rigid ⟨1, 0, 0⟩)).2.2.2.2 rfl rfl]
    norm_num [normBetween, norm2, Transform.asSE2, rigid]
  have hl : laneLengths metre = [1] := by
    simp only [laneLengths, metre, List.tail_cons, List.zip_cons_cons, List.zip_nil_right, List.map_cons,
      List.map_nil, hd]
  rw [hl]
  norm_num [betaFromAlong, metre, segLoop, isClose, List.range_succ, pyGet]

example : poseFulfilled ⟨1, 2, 0⟩ 0 (Transform.asSE2 ⟨1, 2, 2 * Real.pi⟩) = true :=
  (C89_pose_exact _ _).mpr ⟨rfl, rfl, 1, by norm_num⟩

example : ¬ poseFulfilled ⟨1, 2, 0⟩ (1 / 10) (Transform.asSE2 ⟨1, 3, 0⟩) = true := by
  rw [C89_pose _ _ _ (by norm_num)]
  norm_num

end Scen
end Verif
