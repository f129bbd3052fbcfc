import Verif.Agents.Model
import Verif.Maps.CenterProps

/-!
# What an agent sees of the others (C20 on global states)
-/

namespace Verif
namespace Agents

open Maps Mat3

variable {N : Type} [DecidableEq N]

theorem pose_rigid (s : ObsState) : IsRigid s.pose :=
  ⟨_, _, _, _, Real.cos_sq_add_sin_sq s.psi, rfl⟩

/-- Specification: seen from `my`, the other is at `(px, py)` (ahead, left) with heading `th` in
`(-π, π]`. -/
def SeenAt (my other : ObsState) (px py th : ℝ) : Prop :=
  other.pose = my.pose.mul (rigid (Real.cos th) (Real.sin th) px py) ∧ -Real.pi < th ∧ th ≤ Real.pi

/-- **C20.** What the speed behaviour reads of another agent is its position, heading and distance as
seen from the own pose, and its speed; it is always defined and unique. -/
theorem C20_view (my other : ObsState) :
    ∃ px py th, viewOf my other = .ok ⟨px, py, th, norm2 px py, other.vx⟩ ∧ SeenAt my other px py th ∧
      ∀ px' py' th', SeenAt my other px' py' th' → px' = px ∧ py' = py ∧ th' = th := by
  obtain ⟨r, hr, ⟨c, s, x, y, hcs, rfl⟩, hmul⟩ :=
    (C56_relative my.pose other.pose).2 (pose_rigid my) (pose_rigid other)
  obtain ⟨h1, h2, h3, h4⟩ := atan2_spec c s hcs
  refine ⟨x, y, atan2 s c, ?_, ⟨?_, h3, h4⟩, ?_⟩
  · unfold viewOf
    rw [hr]
    rfl
  · rw [h1, h2, hmul]
  · rintro px py th ⟨he, h5, h6⟩
    have := ((C56_relative my.pose other.pose).1 (rigid (Real.cos th) (Real.sin th) px py)).mpr
      ⟨(pose_rigid my).det_ne, he.symm⟩
    rw [hr] at this
    injection this with this
    simp only [rigid, Mat3.mk.injEq] at this
    refine ⟨this.2.2.1.symm, this.2.2.2.2.2.1.symm, ?_⟩
    rw [this.1, this.2.2.2.1, atan2_cos_sin th h5 h6]

example : SeenAt ⟨1, 2, Real.pi / 2, 3, 0⟩ ⟨1, 7, Real.pi / 2, 4, 0⟩ 5 0 0 := by
  refine ⟨?_, by linarith [Real.pi_pos], Real.pi_pos.le⟩
  ext <;> norm_num [ObsState.pose, rigid, Mat3.mul]

theorem viewsOf_spec (my : ObsState) (players : Dict N ObsState) :
    ∃ vs, viewsOf my players = .ok vs ∧
      List.Forall₂ (fun p v => v.1 = p.1 ∧ viewOf my p.2 = .ok v.2) players vs := by
  induction players with
  | nil => exact ⟨[], rfl, .nil⟩
  | cons p rest ih =>
    obtain ⟨n, o⟩ := p
    obtain ⟨vs, h1, h2⟩ := ih
    obtain ⟨px, py, th, hv, -⟩ := C20_view my o
    exact ⟨(n, ⟨px, py, th, norm2 px py, o.vx⟩) :: vs, by simp only [viewsOf, hv, h1],
      .cons ⟨rfl, hv⟩ h2⟩

theorem get?_views (my : ObsState) (players : Dict N ObsState) (vs : Dict N (AgentView ℝ))
    (h : List.Forall₂ (fun p v => v.1 = p.1 ∧ viewOf my p.2 = .ok v.2) players vs) (n : N)
    (o : ObsState) (ho : Dict.get? players n = some o) :
    ∃ v, Dict.get? vs n = some v ∧ viewOf my o = .ok v := by
  induction h with
  | nil => cases ho
  | @cons p v ps vs hpv h ih =>
    obtain ⟨pn, po⟩ := p
    obtain ⟨vn, vv⟩ := v
    obtain ⟨rfl, h2⟩ := hpv
    simp only at h2 ih ⊢
    unfold Dict.get? at ho ⊢
    by_cases e : vn = n
    · simp only [e, if_true] at ho ⊢
      injection ho with ho
      subst ho
      exact ⟨vv, rfl, h2⟩
    · simp only [e, if_false] at ho ⊢
      exact ih ho

/-- Specification: the other comes from the left, near and moving. -/
def FromLeft (prm : SpeedBehaviorParam ℝ) (my other : ObsState) : Prop :=
  ∃ px py th, SeenAt my other px py th ∧ -3 * Real.pi / 4 ≤ th ∧ th ≤ -Real.pi / 4 ∧
    prm.minimumYieldVel < other.vx ∧ norm2 px py < prm.yieldDistance

/-- Specification: the other comes head-on in a corridor of half width 1.2 m, within the distance covered
by both in the safety time. -/
def FromFront (prm : SpeedBehaviorParam ℝ) (my other : ObsState) : Prop :=
  ∃ px py th, SeenAt my other px py th ∧ 3 * Real.pi / 4 ≤ |th| ∧ 0 < px ∧ |py| ≤ 6 / 5 ∧
    norm2 px py < prm.safetyTimeBraking * (my.vx + other.vx)

/-- Specification: the other comes from the right, near and moving. -/
def FromRight (prm : SpeedBehaviorParam ℝ) (my other : ObsState) : Prop :=
  ∃ px py th, SeenAt my other px py th ∧ Real.pi / 4 ≤ th ∧ th ≤ 3 * Real.pi / 4 ∧
    prm.minimumYieldVel < other.vx ∧ norm2 px py < prm.yieldDistance

/-- Some other player is in the given situation. -/
def Other (me : N) (players : Dict N ObsState) (P : ObsState → Prop) : Prop :=
  ∃ n o, n ≠ me ∧ (n, o) ∈ players ∧ P o

/-- **C20.** On observed states: with the player among the observed the reference speed is defined; the
emergency flag says exactly whether another player comes from the left or from the front, and in that
case, and when another player comes from the right, the reference is zero. -/
theorem C20_states (prm : SpeedBehaviorParam ℝ) (me : N) (players : Dict N ObsState) (my : ObsState)
    (hme : Dict.get? players me = some my) :
    ∃ v e, speedRef prm me players = .ok (v, e) ∧
      (e = true ↔ Other me players (fun o => FromLeft prm my o ∨ FromFront prm my o)) ∧
      (e = true → v = 0) ∧ (Other me players (FromRight prm my) → v = 0) := by
  obtain ⟨vs, h1, h2⟩ := viewsOf_spec my players
  obtain ⟨w, hw, hwv⟩ := get?_views my players vs h2 me my hme
  have hwx : w.vx = my.vx := by
    obtain ⟨px, py, th, hv, -⟩ := C20_view my my
    rw [hv] at hwv
    injection hwv with hwv
    rw [← hwv]
  obtain ⟨v, e, hr, he, h0, hy⟩ := C20_decision Real.pi prm me vs w hw
  have mem1 : ∀ n a, (n, a) ∈ vs → ∃ o, (n, o) ∈ players ∧ viewOf my o = .ok a := by
    intro n a h
    obtain ⟨k, hk, hkv⟩ := List.getElem_of_mem h
    have hk' : k < players.length := by rw [h2.length_eq]; exact hk
    obtain ⟨e1, e2⟩ := h2.get hk' hk
    simp only [List.get_eq_getElem, hkv] at e1 e2
    exact ⟨players[k].2, by rw [e1]; exact List.getElem_mem hk', e2⟩
  have mem2 : ∀ n o, (n, o) ∈ players → ∃ a, (n, a) ∈ vs ∧ viewOf my o = .ok a := by
    intro n o h
    obtain ⟨k, hk, hkv⟩ := List.getElem_of_mem h
    have hk' : k < vs.length := by rw [← h2.length_eq]; exact hk
    obtain ⟨e1, e2⟩ := h2.get hk hk'
    simp only [List.get_eq_getElem, hkv] at e1 e2
    exact ⟨vs[k].2, by rw [← e1]; exact List.getElem_mem hk', e2⟩
  have lift : ∀ (P : AgentView ℝ → Prop) (Q : ObsState → Prop),
      (∀ o a, viewOf my o = .ok a → (P a ↔ Q o)) → (SomeOther me vs P ↔ Other me players Q) := by
    intro P Q hPQ
    constructor
    · rintro ⟨n, a, hn, ha, hp⟩
      obtain ⟨o, ho, hoa⟩ := mem1 n a ha
      exact ⟨n, o, hn, ho, (hPQ o a hoa).mp hp⟩
    · rintro ⟨n, o, hn, ho, hq⟩
      obtain ⟨a, ha, hoa⟩ := mem2 n o ho
      exact ⟨n, a, hn, ha, (hPQ o a hoa).mpr hq⟩
  have view : ∀ o a, viewOf my o = .ok a → SeenAt my o a.p0 a.p1 a.theta ∧ a.dist = norm2 a.p0 a.p1 ∧
      a.vx = o.vx ∧ ∀ px py th, SeenAt my o px py th → px = a.p0 ∧ py = a.p1 ∧ th = a.theta := by
    intro o a ha
    obtain ⟨px, py, th, hv, hs, hu⟩ := C20_view my o
    rw [hv] at ha
    injection ha with ha
    subst ha
    exact ⟨hs, rfl, rfl, hu⟩
  refine ⟨v, e, ?_, ?_, h0, ?_⟩
  · unfold speedRef
    simp only [hme, h1, hr]
  · rw [he]
    apply lift
    intro o a ha
    obtain ⟨hs, hd, hv, hu⟩ := view o a ha
    apply or_congr
    · constructor
      · rintro ⟨g1, g2, g3, g4⟩
        exact ⟨a.p0, a.p1, a.theta, hs, g1, g2, hv ▸ g3, hd ▸ g4⟩
      · rintro ⟨px, py, th, hs', g1, g2, g3, g4⟩
        obtain ⟨rfl, rfl, rfl⟩ := hu _ _ _ hs'
        exact ⟨g1, g2, hv ▸ g3, by rw [hd]; exact g4⟩
    · constructor
      · rintro ⟨g1, -, g3, g4, g5⟩
        exact ⟨a.p0, a.p1, a.theta, hs, g1, g3, g4, by rw [← hd, ← hv, ← hwx]; exact g5⟩
      · rintro ⟨px, py, th, hs', g1, g3, g4, g5⟩
        obtain ⟨rfl, rfl, rfl⟩ := hu _ _ _ hs'
        refine ⟨g1, ?_, g3, g4, by rw [hd, hv, hwx]; exact g5⟩
        have : |a.theta| ≤ Real.pi := abs_le.mpr ⟨hs.2.1.le, hs.2.2⟩
        linarith [Real.pi_pos]
  · intro h
    apply hy
    refine (lift _ _ ?_).mpr h
    intro o a ha
    obtain ⟨hs, hd, hv, hu⟩ := view o a ha
    constructor
    · rintro ⟨g1, g2, g3, g4⟩
      exact ⟨a.p0, a.p1, a.theta, hs, g1, by linarith, hv ▸ g3, hd ▸ g4⟩
    · rintro ⟨px, py, th, hs', g1, g2, g3, g4⟩
      obtain ⟨rfl, rfl, rfl⟩ := hu _ _ _ hs'
      exact ⟨g1, by linarith, hv ▸ g3, by rw [hd]; exact g4⟩

/-- Someone comes head-on: 5 m ahead, facing us, both at 10 m/s with a safety time of 1.5 s. -/
example : FromFront ⟨10, 7, 2, 3 / 2⟩ ⟨0, 0, 0, 10, 0⟩ ⟨5, 0, Real.pi, 10, 0⟩ := by
  refine ⟨5, 0, Real.pi, ⟨?_, by linarith [Real.pi_pos], le_rfl⟩, ?_, by norm_num, by norm_num, ?_⟩
  · ext <;> norm_num [ObsState.pose, rigid, Mat3.mul]
  · rw [abs_of_pos Real.pi_pos]; linarith [Real.pi_pos]
  · rw [norm2, Real.sqrt_lt' (by norm_num)]; norm_num

/-- A state moved by a rotation `phi` and a shift `(u, v)` of the whole scene. -/
noncomputable def moved (phi u v : ℝ) (s : ObsState) : ObsState :=
  ⟨Real.cos phi * s.x - Real.sin phi * s.y + u, Real.sin phi * s.x + Real.cos phi * s.y + v,
    s.psi + phi, s.vx, s.delta⟩

theorem moved_pose (phi u v : ℝ) (s : ObsState) :
    (moved phi u v s).pose = (rigid (Real.cos phi) (Real.sin phi) u v).mul s.pose := by
  ext <;> simp [moved, ObsState.pose, rigid, Mat3.mul, Real.cos_add, Real.sin_add] <;> ring

/-- **C20.** The decision does not depend on where the scene lies and how it is turned. -/
theorem C20_frame (prm : SpeedBehaviorParam ℝ) (me : N) (players : Dict N ObsState) (phi u v : ℝ) :
    speedRef prm me (players.map fun p => (p.1, moved phi u v p.2)) = speedRef prm me players := by
  have hg : (rigid (Real.cos phi) (Real.sin phi) u v).det ≠ 0 := by
    rw [rigid_det _ _ _ _ (Real.cos_sq_add_sin_sq phi)]; exact one_ne_zero
  have hview : ∀ my o, viewOf (moved phi u v my) (moved phi u v o) = viewOf my o := by
    intro my o
    unfold viewOf
    rw [moved_pose, moved_pose, C56_frame _ _ _ hg]
    rfl
  have hviews : ∀ my (ps : Dict N ObsState),
      viewsOf (moved phi u v my) (ps.map fun p => (p.1, moved phi u v p.2)) = viewsOf my ps := by
    intro my ps
    induction ps with
    | nil => rfl
    | cons p ps ih =>
      obtain ⟨n, o⟩ := p
      simp only [List.map_cons, viewsOf, hview]
      rw [ih]
  have hget : ∀ (ps : Dict N ObsState), Dict.get? (ps.map fun p => (p.1, moved phi u v p.2)) me =
      (Dict.get? ps me).map (moved phi u v) := by
    intro ps
    induction ps with
    | nil => rfl
    | cons p ps ih =>
      obtain ⟨n, o⟩ := p
      simp only [List.map_cons, Dict.get?]
      by_cases e : n = me
      · simp [e]
      · simp only [e, if_false]; exact ih
  unfold speedRef
  rw [hget]
  cases h : Dict.get? players me with
  | none => rfl
  | some my => simp only [Option.map_some, hviews]

end Agents
end Verif
