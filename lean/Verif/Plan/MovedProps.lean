import Verif.Plan.Moved
import Verif.Plan.MergeProps
import Verif.Maps.GeoProps
import Verif.Seq.InterpProps
import Verif.Sim.LogProps
import Verif.Eval.EfficiencyProps

/-!
# Property C114: moved trajectories
-/

set_option linter.unusedSectionVars false

namespace Verif
namespace Moved

open Maps Real

/-! ## Specification -/

/-- The state `y` is the state `x` after the rigid motion `T`: its position and its direction are turned by the
angle of `T`, its position is also translated, and nothing else changes. The heading is in `(-π, π]`. -/
structure IsMoved (T : Transform) (x y : VehicleState ℝ) : Prop where
  posX : y.x = cos T.theta * x.x - sin T.theta * x.y + T.x
  posY : y.y = sin T.theta * x.x + cos T.theta * x.y + T.y
  dirX : cos y.psi = cos (x.psi + T.theta)
  dirY : sin y.psi = sin (x.psi + T.theta)
  low : -π < y.psi
  high : y.psi ≤ π
  speed : y.vx = x.vx
  steer : y.delta = x.delta

/-- A state is determined by what it is the motion of. -/
theorem IsMoved.unique {T : Transform} {x y z : VehicleState ℝ} (h : IsMoved T x y) (h' : IsMoved T x z) :
    y = z := by
  have hpsi : y.psi = z.psi := by
    rw [← atan2_cos_sin y.psi h.low h.high, ← atan2_cos_sin z.psi h'.low h'.high, h.dirX, h.dirY, h'.dirX,
      h'.dirY]
  cases y; cases z
  simp only [VehicleState.mk.injEq]
  exact ⟨h.posX.trans h'.posX.symm, h.posY.trans h'.posY.symm, hpsi, h.speed.trans h'.speed.symm,
    h.steer.trans h'.steer.symm⟩

theorem isMoved_moveState (T : Transform) (x : VehicleState ℝ) : IsMoved T x (moveState T x) := by
  have hsc : (cos T.theta * cos x.psi - sin T.theta * sin x.psi) ^ 2 +
      (sin T.theta * cos x.psi + cos T.theta * sin x.psi) ^ 2 = 1 := by
    have h1 := sin_sq_add_cos_sq T.theta
    have h2 := sin_sq_add_cos_sq x.psi
    nlinarith
  obtain ⟨h1, h2, h3, h4⟩ := atan2_spec _ _ hsc
  have hpsi : (moveState T x).psi = atan2 (sin T.theta * cos x.psi + cos T.theta * sin x.psi)
      (cos T.theta * cos x.psi - sin T.theta * sin x.psi) := by
    simp [moveState, Transform.fromSE2, Transform.asSE2, Mat3.mul, rigid, poseOf, sub_eq_add_neg]
  refine ⟨?_, ?_, ?_, ?_, ?_, ?_, rfl, rfl⟩
  · simp [moveState, Transform.fromSE2, Transform.asSE2, Mat3.mul, rigid, poseOf]; ring
  · simp [moveState, Transform.fromSE2, Transform.asSE2, Mat3.mul, rigid, poseOf]
  · rw [hpsi, h1, cos_add]; ring
  · rw [hpsi, h2, sin_add]; ring
  · rw [hpsi]; exact h3
  · rw [hpsi]; exact h4

theorem moveState_iff (T : Transform) (x y : VehicleState ℝ) : moveState T x = y ↔ IsMoved T x y :=
  ⟨fun h => h ▸ isMoved_moveState T x, fun h => (isMoved_moveState T x).unique h⟩

/-- **C114.** A trajectory can be moved; the times stay and every state is moved. -/
theorem C114_moved (s : Traj ℝ) (h : s.Valid) (T : Transform) :
    ∃ s' : Traj ℝ, applySE2 ⟨.trajectory, s⟩ T = .ok ⟨.sequence, s'⟩ ∧ s'.Valid ∧ s'.ts = s.ts ∧
      List.Forall₂ (IsMoved T) s.vs s'.vs := by
  refine ⟨⟨s.ts, s.vs.map (moveState T)⟩, ?_, ⟨by simpa using h.1, h.2⟩, rfl, ?_⟩
  · unfold applySE2
    simp only [C06_transform_total s h]
  · rw [List.forall₂_map_right_iff]
    exact List.forall₂_same.mpr fun x _ => isMoved_moveState T x

theorem applySE2_eq (s : Traj ℝ) (h : s.Valid) (T : Transform) :
    applySE2 ⟨.trajectory, s⟩ T = .ok ⟨.sequence, ⟨s.ts, s.vs.map (moveState T)⟩⟩ := by
  unfold applySE2
  simp only [C06_transform_total s h]

theorem asSE2_moveState (T : Transform) (x : VehicleState ℝ) :
    (poseOf (moveState T x)).asSE2 = T.asSE2.mul (poseOf x).asSE2 :=
  (C56_convert _ ((asSE2_rigid T).mul (asSE2_rigid (poseOf x))) Transform.identity).1

/-- **C114.** Moving twice is moving once by the product. -/
theorem C114_compose (s s' : Traj ℝ) (h : s.Valid) (T₁ T₂ T : Transform)
    (hT : T.asSE2 = T₁.asSE2.mul T₂.asSE2) (h' : applySE2 ⟨.trajectory, s⟩ T₂ = .ok ⟨.sequence, s'⟩) :
    applySE2 ⟨.trajectory, s'⟩ T₁ = applySE2 ⟨.trajectory, s⟩ T := by
  rw [applySE2_eq s h] at h'
  injection h' with h'
  injection h' with _ h'
  subst h'
  rw [applySE2_eq s h, applySE2_eq (⟨s.ts, s.vs.map (moveState T₂)⟩ : Traj ℝ) ⟨by simpa using h.1, h.2⟩]
  simp only [List.map_map]
  congr 3
  apply List.map_congr_left
  intro x _
  simp only [Function.comp]
  unfold moveState
  have := asSE2_moveState T₂ x
  unfold moveState at this
  simp only [this, hT, Mat3.mul_assoc']

/-- **C114.** Moving back restores the trajectory, if its headings are in `(-π, π]`. -/
theorem C114_back (s s' : Traj ℝ) (h : s.Valid) (T₁ T₂ : Transform) (hT : T₁.asSE2.mul T₂.asSE2 = Mat3.one)
    (hpsi : ∀ x ∈ s.vs, -π < x.psi ∧ x.psi ≤ π)
    (h' : applySE2 ⟨.trajectory, s⟩ T₂ = .ok ⟨.sequence, s'⟩) :
    applySE2 ⟨.trajectory, s'⟩ T₁ = .ok ⟨.sequence, s⟩ := by
  have h0 : Transform.identity.asSE2 = T₁.asSE2.mul T₂.asSE2 := by
    rw [hT]; simp [Transform.asSE2, Transform.identity, rigid, Mat3.one]
  rw [C114_compose s s' h T₁ T₂ Transform.identity h0 h', applySE2_eq s h]
  congr 3
  cases s with
  | mk ts vs =>
    simp only [true_and]
    conv_rhs => rw [← List.map_id vs]
    apply List.map_congr_left
    intro x hx
    rw [moveState_iff]
    obtain ⟨h1, h2⟩ := hpsi x hx
    constructor <;> simp [Transform.identity, h1, h2]

/-- **C114.** The distance travelled stays. -/
theorem C114_distance (s s' : Traj ℝ) (h : s.Valid) (T : Transform)
    (h' : applySE2 ⟨.trajectory, s⟩ T = .ok ⟨.sequence, s'⟩) :
    Eval.distanceTraveled (fun x : VehicleState ℝ => (x.x, x.y)) s' =
      Eval.distanceTraveled (fun x : VehicleState ℝ => (x.x, x.y)) s := by
  rw [applySE2_eq s h] at h'
  injection h' with h'
  injection h' with _ h'
  subst h'
  rw [← Eval.C60_frame (fun x : VehicleState ℝ => (x.x, x.y)) s h (cos T.theta) (sin T.theta) T.x T.y
    (cos_sq_add_sin_sq _), Eval.C60_length _ (⟨s.ts, s.vs.map (moveState T)⟩ : Traj ℝ) ⟨by simpa using h.1, h.2⟩,
    Eval.C60_length _ s h]
  congr 2
  rw [List.map_map]
  apply List.map_congr_left
  intro x _
  have := isMoved_moveState T x
  simp only [Function.comp, Eval.moved, this.posX, this.posY]

/-- **C114.** Whether trajectories can be joined stays. -/
theorem C114_connectable (a b a' b' : Traj ℝ) (ha : a.Valid) (hb : b.Valid) (T T' : Transform) (tol : ℝ)
    (ha' : applySE2 ⟨.trajectory, a⟩ T = .ok ⟨.sequence, a'⟩)
    (hb' : applySE2 ⟨.trajectory, b⟩ T' = .ok ⟨.sequence, b'⟩) :
    isConnectable a' b' tol = isConnectable a b tol := by
  rw [applySE2_eq a ha] at ha'
  rw [applySE2_eq b hb] at hb'
  injection ha' with ha'
  injection ha' with _ ha'
  injection hb' with hb'
  injection hb' with _ hb'
  subst ha' hb'
  have e : ∀ (s : Traj ℝ) (T : Transform) (t : ℝ), s.Valid →
      (⟨s.ts, s.vs.map (moveState T)⟩ : Traj ℝ).at' t = (s.at' t).map (moveState T) := fun s T t hs =>
    C06_at_transform s _ hs (moveState T) (C06_transform_total s hs _) t
  have e1 : ∀ (s : Traj ℝ) (T : Transform), (⟨s.ts, s.vs.map (moveState T)⟩ : Traj ℝ).isEmpty = s.isEmpty := by
    intro s T
    simp [Seq.isEmpty]
  have e2 : (⟨a.ts, a.vs.map (moveState T)⟩ : Traj ℝ).getEnd = a.getEnd := rfl
  have e3 : (⟨b.ts, b.vs.map (moveState T')⟩ : Traj ℝ).getStart = b.getStart := rfl
  unfold isConnectable
  rw [e1, e1, e2, e3]
  by_cases he : a.isEmpty ∨ b.isEmpty
  · rw [if_pos he, if_pos he]
  · rw [if_neg he, if_neg he]
    cases a.getEnd with
    | error e => rfl
    | ok te =>
      dsimp only
      rw [e a T te ha]
      cases a.at' te with
      | error e => rfl
      | ok x =>
        cases b.getStart with
        | error e => rfl
        | ok t0 =>
          simp only [Except.map]
          rw [e b T' t0 hb]
          cases b.at' t0 with
          | error e => rfl
          | ok y => rfl

theorem samples_moved (s : Traj ℝ) (T : Transform) :
    (⟨s.ts, s.vs.map (moveState T)⟩ : Traj ℝ).samples = s.samples.map (fun p => (p.1, moveState T p.2)) := by
  unfold Seq.samples
  rw [List.zip_map_right]
  rfl

/-- Reading both sequences at the same time reads the same samples with the same weight. -/
theorem interp_moved (s : Traj ℝ) (h : s.Valid) (T : Transform) (t : ℝ) (y : VehicleState ℝ)
    (hy : (⟨s.ts, s.vs.map (moveState T)⟩ : Traj ℝ).atInterp t = .ok y) :
    ∃ (a : ℝ) (v w : VehicleState ℝ), v ∈ s.vs ∧ w ∈ s.vs ∧ 0 ≤ a ∧ a ≤ 1 ∧ s.atInterp t = .ok (v + a • (w - v)) ∧
      y = moveState T v + a • (moveState T w - moveState T v) := by
  have hv : (⟨s.ts, s.vs.map (moveState T)⟩ : Traj ℝ).Valid := ⟨by simpa using h.1, h.2⟩
  have hmem : ∀ p ∈ s.samples, p.2 ∈ s.vs := fun p hp => (List.of_mem_zip hp).2
  rw [atInterp_ok_iff _ hv, samples_moved] at hy
  rcases hy with ⟨t0, r, hs, ht⟩ | ⟨t1, p, hs, ht⟩ | ⟨p, r, t0, t1, v0, v1, hs, h0, h1, rfl⟩
  · rw [List.map_eq_cons_iff] at hs
    obtain ⟨⟨u, v⟩, l, hl, he, -⟩ := hs
    injection he with h1 h2
    subst h1 h2
    refine ⟨0, v, v, hmem (u, v) (by rw [hl]; simp), hmem (u, v) (by rw [hl]; simp), le_rfl, zero_le_one, ?_,
      by simp⟩
    rw [atInterp_ok_iff _ h]
    exact Or.inl ⟨u, l, by rw [hl]; simp, ht⟩
  · rw [List.map_eq_append_iff] at hs
    obtain ⟨l1, l2, hl, -, he⟩ := hs
    rw [List.map_eq_singleton_iff] at he
    obtain ⟨⟨u, v⟩, rfl, he⟩ := he
    injection he with h1 h2
    subst h1 h2
    refine ⟨0, v, v, hmem (u, v) (by rw [hl]; simp), hmem (u, v) (by rw [hl]; simp), le_rfl, zero_le_one, ?_,
      by simp⟩
    rw [atInterp_ok_iff _ h]
    exact Or.inr (Or.inl ⟨u, l1, by rw [hl]; simp, ht⟩)
  · rw [List.map_eq_append_iff] at hs
    obtain ⟨l1, l2, hl, -, he⟩ := hs
    rw [List.map_eq_cons_iff] at he
    obtain ⟨⟨u, v⟩, l3, rfl, he, he'⟩ := he
    rw [List.map_eq_cons_iff] at he'
    obtain ⟨⟨u', w⟩, l4, rfl, he', -⟩ := he'
    injection he with e1 e2
    injection he' with e3 e4
    subst e1 e2 e3 e4
    have h0 : u ≤ t := h0
    have h1 : t ≤ u' := h1
    have hlt : u < u' := by
      have hsort : (s.samples.map Prod.fst).Pairwise (· < ·) := by
        unfold Seq.samples
        rw [List.map_fst_zip (le_of_eq h.1)]
        exact h.2
      rw [hl] at hsort
      simp only [List.map_append, List.map_cons] at hsort
      exact (List.pairwise_cons.mp (List.pairwise_append.mp hsort).2.1).1 u' (by simp)
    refine ⟨(t - u) / (u' - u), v, w, hmem (u, v) (by rw [hl]; simp), hmem (u', w) (by rw [hl]; simp),
      div_nonneg (by linarith) (by linarith), ?_, ?_, rfl⟩
    · rw [div_le_one (by linarith)]; linarith
    · rw [atInterp_ok_iff _ h]
      exact Or.inr (Or.inr ⟨l1, l4, u, u', v, w, hl, h0, h1, rfl⟩)

/-- **C114.** The positions between the samples are moved too, and speed and steering stay. -/
theorem C114_position (s s' : Traj ℝ) (h : s.Valid) (T : Transform)
    (h' : applySE2 ⟨.trajectory, s⟩ T = .ok ⟨.sequence, s'⟩) (t : ℝ) (x y : VehicleState ℝ)
    (hx : s.atInterp t = .ok x) (hy : s'.atInterp t = .ok y) :
    y.x = cos T.theta * x.x - sin T.theta * x.y + T.x ∧
      y.y = sin T.theta * x.x + cos T.theta * x.y + T.y ∧ y.vx = x.vx ∧ y.delta = x.delta := by
  rw [applySE2_eq s h] at h'
  injection h' with h'
  injection h' with _ h'
  subst h'
  obtain ⟨a, v, w, -, -, -, -, hi, rfl⟩ := interp_moved s h T t y hy
  rw [hi] at hx
  injection hx with hx
  subst hx
  have hv := isMoved_moveState T v
  have hw := isMoved_moveState T w
  simp only [VehicleState.add_def, VehicleState.sub_def, VehicleState.smul_def, VehicleState.add,
    VehicleState.sub, VehicleState.mul, hv.posX, hv.posY, hw.posX, hw.posY, hv.speed, hw.speed, hv.steer,
    hw.steer]
  refine ⟨by ring, by ring, trivial, trivial⟩

/-- **C114.** If the turned headings stay within one turn, the states between the samples are moved too. In
general this is false, see `C114_false_heading`. -/
theorem C114_heading_partial (s s' : Traj ℝ) (h : s.Valid) (T : Transform)
    (h' : applySE2 ⟨.trajectory, s⟩ T = .ok ⟨.sequence, s'⟩) (k : ℤ)
    (hk : ∀ x ∈ s.vs, -π < x.psi + T.theta + k * (2 * π) ∧ x.psi + T.theta + k * (2 * π) ≤ π)
    (t : ℝ) (x y : VehicleState ℝ) (hx : s.atInterp t = .ok x) (hy : s'.atInterp t = .ok y) :
    IsMoved T x y := by
  obtain ⟨p1, p2, p3, p4⟩ := C114_position s s' h T h' t x y hx hy
  rw [applySE2_eq s h] at h'
  injection h' with h'
  injection h' with _ h'
  subst h'
  obtain ⟨a, v, w, hv, hw, ha0, ha1, hi, rfl⟩ := interp_moved s h T t y hy
  rw [hi] at hx
  injection hx with hx
  subst hx
  have hpsi : ∀ u ∈ s.vs, (moveState T u).psi = u.psi + T.theta + k * (2 * π) := by
    intro u hu
    obtain ⟨h1, h2⟩ := hk u hu
    have hm := isMoved_moveState T u
    rw [← atan2_cos_sin _ hm.low hm.high, ← atan2_cos_sin _ h1 h2, hm.dirX, hm.dirY,
      Real.cos_add_int_mul_two_pi, Real.sin_add_int_mul_two_pi]
  have key : (moveState T v + a • (moveState T w - moveState T v)).psi =
      (v + a • (w - v)).psi + T.theta + k * (2 * π) := by
    simp only [VehicleState.add_def, VehicleState.sub_def, VehicleState.smul_def, VehicleState.add,
      VehicleState.sub, VehicleState.mul, hpsi v hv, hpsi w hw]
    ring
  obtain ⟨l1, l2⟩ := hk v hv
  obtain ⟨l3, l4⟩ := hk w hw
  refine ⟨p1, p2, ?_, ?_, ?_, ?_, p3, p4⟩
  · rw [key, Real.cos_add_int_mul_two_pi]
  · rw [key, Real.sin_add_int_mul_two_pi]
  · rw [key]
    simp only [VehicleState.add_def, VehicleState.sub_def, VehicleState.smul_def, VehicleState.add,
      VehicleState.sub, VehicleState.mul]
    rcases eq_or_lt_of_le ha0 with rfl | ha0
    · linarith
    · nlinarith
  · rw [key]
    simp only [VehicleState.add_def, VehicleState.sub_def, VehicleState.smul_def, VehicleState.add,
      VehicleState.sub, VehicleState.mul]
    nlinarith

/-- A vehicle that turns left by a fifth of a radian. -/
noncomputable def exTurn : Traj ℝ := ⟨[0, 1], [⟨0, 0, 0, 1, 0⟩, ⟨1, 0, 1 / 5, 1, 0⟩]⟩

theorem exTurn_valid : exTurn.Valid := ⟨rfl, by simp [exTurn]⟩

/-- **C114** is false for headings between samples: a vehicle that turns left by a fifth of a radian, turned by
almost half a turn, seems to turn right by almost a full turn, and to drive backwards in between. -/
theorem C114_false_heading : ∃ (T : Transform) (s' : Traj ℝ) (x y : VehicleState ℝ),
    applySE2 ⟨.trajectory, exTurn⟩ T = .ok ⟨.sequence, s'⟩ ∧
      exTurn.atInterp (1 / 2) = .ok x ∧ s'.atInterp (1 / 2) = .ok y ∧
      cos (x.psi + T.theta) = -1 ∧ cos y.psi = 1 := by
  have hpi := Real.two_le_pi
  have hpsi : ∀ (T : Transform) (u : VehicleState ℝ) (k : ℤ), -π < u.psi + T.theta + k * (2 * π) →
      u.psi + T.theta + k * (2 * π) ≤ π → (moveState T u).psi = u.psi + T.theta + k * (2 * π) := by
    intro T u k h1 h2
    have hm := isMoved_moveState T u
    rw [← atan2_cos_sin _ hm.low hm.high, ← atan2_cos_sin _ h1 h2, hm.dirX, hm.dirY,
      Real.cos_add_int_mul_two_pi, Real.sin_add_int_mul_two_pi]
  let T : Transform := ⟨0, 0, π - 1 / 10⟩
  let v : VehicleState ℝ := ⟨0, 0, 0, 1, 0⟩
  let w : VehicleState ℝ := ⟨1, 0, 1 / 5, 1, 0⟩
  have e1 : (moveState T v).psi = π - 1 / 10 := by
    rw [hpsi T v 0 (by simp [T, v]; linarith) (by simp [T, v])]
    simp [T, v]
  have e2 : (moveState T w).psi = 1 / 10 - π := by
    rw [hpsi T w (-1) (by simp [T, w]; linarith) (by simp [T, w]; linarith)]
    simp [T, w]; ring
  refine ⟨T, _, v + ((1 / 2 - 0) / (1 - 0) : ℝ) • (w - v),
    moveState T v + ((1 / 2 - 0) / (1 - 0) : ℝ) • (moveState T w - moveState T v),
    applySE2_eq _ exTurn_valid _, ?_, ?_, ?_, ?_⟩
  · exact C04_chord exTurn exTurn_valid [] [] 0 1 v w rfl (1 / 2) (by norm_num) (by norm_num)
  · exact C04_chord (⟨exTurn.ts, exTurn.vs.map (moveState T)⟩ : Traj ℝ) ⟨rfl, exTurn_valid.2⟩ [] [] 0 1
      (moveState T v) (moveState T w) rfl (1 / 2) (by norm_num) (by norm_num)
  · have : (v + ((1 / 2 - 0) / (1 - 0) : ℝ) • (w - v)).psi + T.theta = π := by
      simp only [VehicleState.add_def, VehicleState.sub_def, VehicleState.smul_def, VehicleState.add,
        VehicleState.sub, VehicleState.mul, v, w, T]
      ring
    rw [this, Real.cos_pi]
  · have : (moveState T v + ((1 / 2 - 0) / (1 - 0) : ℝ) • (moveState T w - moveState T v)).psi = 0 := by
      simp only [VehicleState.add_def, VehicleState.sub_def, VehicleState.smul_def, VehicleState.add,
        VehicleState.sub, VehicleState.mul, e1, e2]
      ring
    rw [this, Real.cos_zero]

/-- The hypotheses of `C114_heading_partial` are met by a quarter turn of the same vehicle. -/
example : ∀ x ∈ exTurn.vs, -π < x.psi + π / 2 + (0 : ℤ) * (2 * π) ∧ x.psi + π / 2 + (0 : ℤ) * (2 * π) ≤ π := by
  have hpi := Real.two_le_pi
  intro x hx
  simp only [exTurn, List.mem_cons, List.not_mem_nil, or_false] at hx
  rcases hx with rfl | rfl
  · constructor <;> simp <;> linarith
  · constructor <;> simp <;> linarith

/-- Half a turn and half a turn back, as in `C114_back`. -/
example : (⟨1, 2, π⟩ : Transform).asSE2.mul (⟨1, 2, π⟩ : Transform).asSE2 = Mat3.one := by
  simp [Transform.asSE2, rigid, Mat3.mul, Mat3.one]

/-- **C114.** The path of a trajectory has the pose of every sample, in order; the path of the moved states is
the moved path. -/
theorem C114_path (s : Traj ℝ) (h : s.Valid) (T : Transform) : ∃ s' p p',
    applySE2 ⟨.trajectory, s⟩ T = .ok ⟨.sequence, s'⟩ ∧ asPath ⟨.trajectory, s⟩ = .ok p ∧
      asPath ⟨.trajectory, s'⟩ = .ok p' ∧ p.length = s.vs.length ∧ p'.length = p.length ∧
      (∀ (i : Nat) x, s.vs[i]? = some x → p[i]? = some ⟨x.x, x.y, x.psi⟩) ∧
      ∀ (i : Nat) a b, p[i]? = some a → p'[i]? = some b → b.asSE2 = T.asSE2.mul a.asSE2 := by
  obtain ⟨s', h1, -, -, h3⟩ := C114_moved s h T
  refine ⟨s', _, _, h1, rfl, rfl, by simp, by simp [h3.length_eq], ?_, ?_⟩
  · intro i x hx
    simp [hx, poseOf]
  · intro i a b ha hb
    rw [List.getElem?_map, Option.map_eq_some_iff] at ha hb
    obtain ⟨x, hx, rfl⟩ := ha
    obtain ⟨y, hy, rfl⟩ := hb
    obtain ⟨hi, hx⟩ := List.getElem?_eq_some_iff.mp hx
    obtain ⟨hj, hy⟩ := List.getElem?_eq_some_iff.mp hy
    have hm : IsMoved T x y := by
      rw [← hx, ← hy]
      exact List.Forall₂.get h3 hi hj
    rw [← (moveState_iff T x y).mpr hm]
    exact asSE2_moveState T x

/-- **C114.** What is returned is not a trajectory: it can neither be moved again nor be made a path. -/
theorem C114_false_class (o o' : Obj) (T : Transform) (h : applySE2 o T = .ok o') (T' : Transform) :
    applySE2 o' T' = .error .attribute ∧ asPath o' = .error .attribute := by
  unfold applySE2 at h
  split at h
  · cases h
  · split at h
    · cases h
    · injection h with h
      subst h
      exact ⟨rfl, rfl⟩

end Moved
end Verif
