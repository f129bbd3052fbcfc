import Verif.Sim.ArriveProps
import Verif.Whole.PictureProps
import Verif.Scen.Goals

/-!
# C141: the goals of goals.py in the simulation

How deep the regions accepted by the goals on lanes are, and therefore how long a step may be so that a player
cannot drive over its goal unnoticed.
-/

set_option linter.unusedSectionVars false

namespace Verif
namespace Whole

open Sim Coll Maps Scen

section world

variable {N K : Type} [DecidableEq N] [Field K] [LinearOrder K] [IsStrictOrderedRing K] {F : Iface N K}
  {sc : Bool} {R : Parts N K F.M F.S}

/-- **C141.** In the world with the collision code of the library, collisions do not move the models. -/
theorem C141_keeps (hF : Whole.Still F) : KeepsPos (world F sc R) F.pose where
  env _ p m o t hp := (placed_of_resolveEnv hF t p hp m o.1 o.2).1.2.1
  first _ a m1 b m2 t hab := (placed_of_resolve hF t a b hab m1 m2).1.2.1
  second _ a m1 b m2 t hab := (placed_of_resolve hF t a b hab m1 m2).2.1.2.1

example : KeepsPos (world toyF true Toy.parts) toyF.pose := C141_keeps Toy.still

end world

/-! ## Depth of the regions -/

/-- Specification: how far the position `p` is ahead of the pose `q`. -/
noncomputable def ahead (q p : Transform) : ℝ :=
  Real.cos q.theta * (p.x - q.x) + Real.sin q.theta * (p.y - q.y)

/-- Specification: how far the position `p` is to the left of the pose `q`. -/
noncomputable def aside (q p : Transform) : ℝ :=
  Real.cos q.theta * (p.y - q.y) - Real.sin q.theta * (p.x - q.x)

theorem ahead_aside (q p : Transform) : p.x = q.x + Real.cos q.theta * ahead q p - Real.sin q.theta * aside q p ∧
    p.y = q.y + Real.sin q.theta * ahead q p + Real.cos q.theta * aside q p := by
  have h := Real.sin_sq_add_cos_sq q.theta
  unfold ahead aside
  constructor
  · linear_combination (q.x - p.x) * h
  · linear_combination (q.y - p.y) * h

theorem sq_dist (q p : Transform) (d s r : ℝ) :
    (p.x - ((applyT2 q.asSE2 (d, r)).1 + s * ((applyT2 q.asSE2 (d, -r)).1 - (applyT2 q.asSE2 (d, r)).1))) ^ 2 +
      (p.y - ((applyT2 q.asSE2 (d, r)).2 + s * ((applyT2 q.asSE2 (d, -r)).2 - (applyT2 q.asSE2 (d, r)).2))) ^ 2 =
      (ahead q p - d) ^ 2 + (aside q p - (r - 2 * s * r)) ^ 2 := by
  obtain ⟨h1, h2⟩ := ahead_aside q p
  have h := Real.sin_sq_add_cos_sq q.theta
  simp only [applyT2, Transform.asSE2, rigid]
  rw [h1, h2]
  linear_combination ((ahead q p - d) ^ 2 + (aside q p - (r - 2 * s * r)) ^ 2) * h

theorem near_of_ahead (q p : Transform) (d r ρ : ℝ) (h1 : |aside q p| ≤ r) (h2 : |ahead q p - d| ≤ ρ) :
    Near (applyT2 q.asSE2 (d, r)) (applyT2 q.asSE2 (d, -r)) ρ (p.x, p.y) := by
  have hr : 0 ≤ r := (abs_nonneg _).trans h1
  obtain ⟨h3, h4⟩ := abs_le.mp h1
  have hsq : (ahead q p - d) ^ 2 ≤ ρ ^ 2 := sq_le_sq' (abs_le.mp h2).1 (abs_le.mp h2).2
  rcases hr.eq_or_lt with hr | hr
  · refine ⟨0, le_rfl, zero_le_one, ?_⟩
    rw [sq_dist]
    have : aside q p = 0 := by rw [← hr] at h3 h4; linarith
    rw [this, ← hr]
    linarith
  · refine ⟨(r - aside q p) / (2 * r), by apply div_nonneg <;> linarith, ?_, ?_⟩
    · rw [div_le_one (by linarith)]; linarith
    · rw [sq_dist]
      have : r - 2 * ((r - aside q p) / (2 * r)) * r = aside q p := by field_simp; ring
      rw [this]
      linarith

theorem ahead_of_near (q p : Transform) (d r ρ : ℝ) (hρ : 0 ≤ ρ)
    (h : Near (applyT2 q.asSE2 (d, r)) (applyT2 q.asSE2 (d, -r)) ρ (p.x, p.y)) : |ahead q p - d| ≤ ρ := by
  obtain ⟨s, -, -, h⟩ := h
  rw [sq_dist] at h
  exact abs_le_of_sq_le_sq (by linarith [sq_nonneg (aside q p - (r - 2 * s * r))]) hρ

/-- **C141.** The goal at the end of a lane with inflation radius `ρ` accepts all positions of the lane that
are between `1/10 - 0.99 ρ` and `1/10 + 0.99 ρ` ahead of the last control point, and none outside of
`1/10 - ρ` and `1/10 + ρ`. -/
theorem C141_depth_end (contains : ℝ × ℝ → ℝ × ℝ → ℝ → ℝ × ℝ → Bool) (hb : BufferLaw contains)
    (lane : List CtrPoint) (c : CtrPoint) (hc : lane.getLast? = some c) (ρ : ℝ) (hρ : 0 < ρ) (p : Transform) :
    (|aside c.q p| ≤ c.r → |ahead c.q p - 1 / 10| ≤ 99 / 100 * ρ →
      laneEndFulfilled contains lane ρ p.asSE2 = .ok true) ∧
    (laneEndFulfilled contains lane ρ p.asSE2 = .ok true → |ahead c.q p - 1 / 10| ≤ ρ) := by
  obtain ⟨v, h1, h2, h3⟩ := C89_end_fulfilled contains hb lane c hc ρ hρ p
  rw [h1]
  constructor
  · intro ha hd
    rw [h3 (near_of_ahead _ _ _ _ _ ha hd)]
  · intro h
    injection h with h
    exact ahead_of_near _ _ _ _ _ hρ.le (h2 h)

/-- **C141.** A goal on a lane accepts all positions of the lane from the goal to 0.99 m ahead of it, if the
progress of the pose on the lane is at least that of the goal, and none that is farther than a metre. -/
theorem C141_depth_lane (contains : ℝ × ℝ → ℝ × ℝ → ℝ → ℝ × ℝ → Bool) (hb : BufferLaw contains)
    (closest : ℝ × ℝ → ℝ) (lane : List CtrPoint) (goal : ℝ) (c : Transform) (r : ℝ)
    (hc : centerPoint lane goal = .ok c.asSE2) (hr : radius (lane.map (·.r)) goal = .ok r) (p : Transform) :
    (|aside c p| ≤ r → |ahead c p| ≤ 99 / 100 → (∃ lp, lanePoseOf closest lane p.asSE2 = .ok lp ∧ goal ≤ lp.along) →
      refLaneFulfilled contains closest lane goal p.asSE2 = .ok true) ∧
    (refLaneFulfilled contains closest lane goal p.asSE2 = .ok true →
      |ahead c p| ≤ 1 ∧ ∃ lp, lanePoseOf closest lane p.asSE2 = .ok lp ∧ goal ≤ lp.along) := by
  unfold refLaneFulfilled crossSection
  simp only [Option.getD_some, hc, hr]
  constructor
  · rintro h1 h2 ⟨lp, hl, hle⟩
    rw [if_pos ((hb _ _ _ _ one_pos).2 ?_)]
    · simp only [hl, decide_eq_true hle]
    · rw [mul_one]
      exact near_of_ahead c p 0 r _ h1 (by rwa [sub_zero])
  · intro h
    split at h
    · rename_i hn
      have := ahead_of_near c p 0 r 1 zero_le_one ((hb _ _ _ _ one_pos).1 hn)
      rw [sub_zero] at this
      refine ⟨this, ?_⟩
      cases hl : lanePoseOf closest lane p.asSE2 with
      | error e => rw [hl] at h; cases h
      | ok lp =>
        simp only [hl] at h
        injection h with h
        exact ⟨lp, rfl, of_decide_eq_true h⟩
    · cases h

theorem ahead_step (q p p' : Transform) (d : ℝ) (hd : 0 ≤ d)
    (h : (p'.x - p.x) ^ 2 + (p'.y - p.y) ^ 2 ≤ d ^ 2) : ahead q p' ≤ ahead q p + d := by
  have hcs := Real.sin_sq_add_cos_sq q.theta
  have hle : (ahead q p' - ahead q p) ^ 2 ≤ d ^ 2 := by
    have e : (ahead q p' - ahead q p) ^ 2 = (p'.x - p.x) ^ 2 + (p'.y - p.y) ^ 2 -
        (aside q p' - aside q p) ^ 2 := by
      unfold ahead aside
      linear_combination ((p'.x - p.x) ^ 2 + (p'.y - p.y) ^ 2) * hcs
    linarith [sq_nonneg (aside q p' - aside q p)]
  linarith [(abs_le.mp (abs_le_of_sq_le_sq hle hd)).2]

/-! ## In the simulation -/

section sim

variable {N : Type} [DecidableEq N] {Wd : World N ℝ}

/-- **C141.** A player whose goal is the end of a lane, that is on the lane at the end of every step, begins
before the region of the goal and moves by at most 1.98 inflation radii in a step, has left when it has come to
the region or beyond. -/
theorem C141_lane_end {cfg : Cfg Wd} {σ : Nat → St Wd} {J : Nat} (h0 : Ready (σ 0))
    (hdt : 0 < cfg.dt) (hm : Dict.Wf cfg.missions) (hex : Exec cfg σ J)
    {pos : Wd.M → Transform} (hs : KeepsPos Wd pos) (henv : Wd.env ∉ (σ 0).players)
    {reach : N → Wd.G → Transform → ℝ → Bool} (hg : GoalBy Wd pos reach) {n : N} {g : Wd.G}
    (hng : (n, g) ∈ cfg.missions)
    (contains : ℝ × ℝ → ℝ × ℝ → ℝ → ℝ × ℝ → Bool) (hb : BufferLaw contains)
    (lane : List CtrPoint) (c : CtrPoint) (hc : lane.getLast? = some c) (ρ : ℝ) (hρ : 0 < ρ)
    (hgoal : ∀ q t, reach n g q t = true ↔ laneEndFulfilled contains lane ρ q.asSE2 = .ok true)
    (hway : ∀ i q, i ≤ J → At σ pos i n q → |aside c.q q| ≤ c.r)
    (hstart : ∀ q, At σ pos 0 n q → ahead c.q q < 1 / 10 - 99 / 100 * ρ)
    (hsteps : ∀ i q q', i < J → n ∈ (σ i).players → At σ pos i n q → At σ pos (i + 1) n q' →
      (q'.x - q.x) ^ 2 + (q'.y - q.y) ^ 2 ≤ (198 / 100 * ρ) ^ 2) :
    ∀ i q, i ≤ J → At σ pos i n q → 1 / 10 - 99 / 100 * ρ ≤ ahead c.q q → n ∉ (σ i).players := by
  refine C141_passes h0 hdt hm hex hs henv hg hng (Way := fun q => |aside c.q q| ≤ c.r)
    (b := 1 / 10 + 99 / 100 * ρ) ⟨?_, hway, hstart, ?_⟩
  · intro q t hw h1 h2
    rw [hgoal]
    exact (C141_depth_end contains hb lane c hc ρ hρ q).1 hw (abs_le.mpr ⟨by linarith, by linarith⟩)
  · intro i q q' hi hn h1 h2
    have := ahead_step c.q q q' (198 / 100 * ρ) (by linarith) (hsteps i q q' hi hn h1 h2)
    linarith

/-- **C141.** The same for a goal on a lane: it is noticed if no step is longer than 0.99 m. -/
theorem C141_lane {cfg : Cfg Wd} {σ : Nat → St Wd} {J : Nat} (h0 : Ready (σ 0))
    (hdt : 0 < cfg.dt) (hm : Dict.Wf cfg.missions) (hex : Exec cfg σ J)
    {pos : Wd.M → Transform} (hs : KeepsPos Wd pos) (henv : Wd.env ∉ (σ 0).players)
    {reach : N → Wd.G → Transform → ℝ → Bool} (hg : GoalBy Wd pos reach) {n : N} {g : Wd.G}
    (hng : (n, g) ∈ cfg.missions)
    (contains : ℝ × ℝ → ℝ × ℝ → ℝ → ℝ × ℝ → Bool) (hb : BufferLaw contains) (closest : ℝ × ℝ → ℝ)
    (lane : List CtrPoint) (goal : ℝ) (c : Transform) (r : ℝ)
    (hc : centerPoint lane goal = .ok c.asSE2) (hr : radius (lane.map (·.r)) goal = .ok r)
    (hgoal : ∀ q t, reach n g q t = true ↔ refLaneFulfilled contains closest lane goal q.asSE2 = .ok true)
    (hway : ∀ i q, i ≤ J → At σ pos i n q → |aside c q| ≤ r)
    (halong : ∀ i q, i ≤ J → At σ pos i n q → 0 ≤ ahead c q → ahead c q ≤ 99 / 100 →
      ∃ lp, lanePoseOf closest lane q.asSE2 = .ok lp ∧ goal ≤ lp.along)
    (hstart : ∀ q, At σ pos 0 n q → ahead c q < 0)
    (hsteps : ∀ i q q', i < J → n ∈ (σ i).players → At σ pos i n q → At σ pos (i + 1) n q' →
      (q'.x - q.x) ^ 2 + (q'.y - q.y) ^ 2 ≤ (99 / 100) ^ 2) :
    ∀ i q, i ≤ J → At σ pos i n q → 0 ≤ ahead c q → n ∉ (σ i).players := by
  refine C141_passes h0 hdt hm hex hs henv hg hng (Way := fun q => |aside c q| ≤ r ∧
    (0 ≤ ahead c q → ahead c q ≤ 99 / 100 → ∃ lp, lanePoseOf closest lane q.asSE2 = .ok lp ∧ goal ≤ lp.along))
    (b := 99 / 100) ⟨?_, fun i q hi h => ⟨hway i q hi h, halong i q hi h⟩, hstart, ?_⟩
  · rintro q t ⟨h0, h3⟩ h1 h2
    rw [hgoal]
    exact (C141_depth_lane contains hb closest lane goal c r hc hr q).1 h0
      (abs_le.mpr ⟨by linarith, h2.le⟩) (h3 h1 h2.le)
  · intro i q q' hi hn h1 h2
    have := ahead_step c q q' (99 / 100) (by norm_num) (hsteps i q q' hi hn h1 h2)
    linarith

end sim

/-! ## Runs on a lane of a hundred metres -/

namespace Strip

open Classical in
/-- What the goal at the end of a lane of a hundred metres accepts on its middle line; exact buffers of one
metre. -/
noncomputable def accReal (x : ℚ) : Bool :=
  decide (laneEndFulfilled (fun a b r p => decide (Near a b r p)) hundred 1 (Transform.asSE2 ⟨(x : ℝ), 0, 0⟩) =
    .ok true)

/-- The same as an interval. -/
def acc (x : ℚ) : Bool := decide (991 / 10 ≤ x ∧ x ≤ 1011 / 10)

open Classical in
theorem acc_eq : accReal = acc := by
  funext x
  unfold accReal acc
  rw [decide_eq_decide]
  have hd := C141_depth_end _ near_law hundred ⟨⟨100, 0, 0⟩, 2⟩ rfl 1 one_pos ⟨(x : ℝ), 0, 0⟩
  have ha : ahead ⟨100, 0, 0⟩ ⟨(x : ℝ), 0, 0⟩ = x - 100 := by simp [ahead]
  constructor
  · intro h
    have := hd.2 h
    simp only [ha] at this
    obtain ⟨h1, h2⟩ := abs_le.mp this
    have h1' : ((991 / 10 : ℚ) : ℝ) ≤ x := by push_cast; linarith
    have h2' : (x : ℝ) ≤ ((1011 / 10 : ℚ) : ℝ) := by push_cast; linarith
    exact ⟨by exact_mod_cast h1', by exact_mod_cast h2'⟩
  · rintro ⟨h1, h2⟩
    have h1' : ((991 / 10 : ℚ) : ℝ) ≤ x := by exact_mod_cast h1
    have h2' : (x : ℝ) ≤ ((1011 / 10 : ℚ) : ℝ) := by exact_mod_cast h2
    push_cast at h1' h2'
    unfold laneEndFulfilled
    rw [C89_end hundred ⟨⟨100, 0, 0⟩, 2⟩ rfl]
    refine congrArg Except.ok (decide_eq_true ?_)
    exact near_of_ahead ⟨100, 0, 0⟩ ⟨(x : ℝ), 0, 0⟩ (1 / 10) 2 1 (by simp [aside])
      (by rw [ha, abs_le]; constructor <;> linarith)

/-- Vehicles on the middle line of the lane that keep their speed, which is the state of the agents; steps of a
tenth of a second. Goals accept what `a` accepts. -/
abbrev wd (a : ℚ → Bool) : World Nat ℚ where
  W := ℚ
  M := ℚ
  X := ℚ
  P := ℚ
  C := ℚ
  I := Unit
  E := Unit
  O := Unit
  D := Unit
  G := Unit
  getState m := m
  footprint m := m
  isDyn _ := false
  onInit w _ := .ok w
  sense w _ o := .ok (w, o)
  getCommands w _ _ := .ok (w, w, ())
  getExtra w _ := .ok (w, none)
  update w _ m c dt := .ok (w, m + c * dt)
  fulfilled w _ _ x _ := .ok (w, a x)
  envQuery _ _ := []
  env := 99
  resolveEnv w _ m _ _ := ((w, m), .ok none)
  touch _ _ := false
  resolve w _ m₁ _ m₂ _ := ((w, m₁, m₂), .ok none)

def cfg (a : ℚ → Bool) : Cfg (wd a) where
  dt := 1 / 10
  dtCommands := 1 / 10
  maxSimTime := 45 / 100
  afterCollision := 1
  missions := [(0, ())]

/-- One vehicle at `x` with speed `v`. -/
def start (a : ℚ → Bool) (x v : ℚ) : St (wd a) where
  models := [(0, x)]
  players := [0]
  w := v
  time := 0
  terminated := false
  reports := []
  firstColl := none
  lastObs := ⟨[], 0⟩
  lastCmdTs := none
  lastCmds := []
  logger := []
  trace := []

theorem fresh (a : ℚ → Bool) (x v : ℚ) : Fresh (start a x v) where
  time := rfl
  terminated := rfl
  reports := rfl
  firstColl := rfl
  lastCmdTs := rfl
  wfModels := by show ([0] : List Nat).Nodup; decide
  players := by show ([0] : List Nat).Nodup; decide
  keys := by intro n; rfl
  trace := rfl

/-- The states of the execution. -/
def σ (a : ℚ → Bool) (x v : ℚ) : Nat → St (wd a)
  | 0 => Sim.Toy.orElse (start a x v) (initLoop (start a x v) (start a x v).players)
  | j + 1 => Sim.Toy.orElse (σ a x v j) (step (cfg a) (σ a x v j))

theorem ready (a : ℚ → Bool) (x v : ℚ)
    (h : Sim.Toy.isOk (initLoop (start a x v) (start a x v).players) = true) : Ready (σ a x v 0) :=
  ((safe_initLoop_fresh (start a x v) (fresh a x v)).ok (Sim.Toy.eq_ok (start a x v) h)).1

theorem exec {a : ℚ → Bool} {x v : ℚ} {j : Nat} (h : ∀ i < j, (σ a x v i).terminated = false ∧
    Sim.Toy.isOk (step (cfg a) (σ a x v i)) = true) : Exec (cfg a) (σ a x v) j :=
  fun i hi => ⟨(h i hi).1, Sim.Toy.eq_ok (σ a x v i) (h i hi).2⟩

theorem keeps (a : ℚ → Bool) : KeepsPos (wd a) (fun m : ℚ => m) :=
  ⟨fun _ _ _ _ _ _ => rfl, fun _ _ _ _ _ _ _ => rfl, fun _ _ _ _ _ _ _ => rfl⟩

theorem goal (a : ℚ → Bool) : GoalBy (wd a) (fun m : ℚ => m) (fun _ _ x _ => a x) := by
  rintro w n g x t w' b h
  injection h with h
  injection h with _ h
  exact h.symm

/-- Specification: a whole run of the world from a ready state until it stops, with one vehicle that has the end
of the lane as its goal, at the positions `xs` at the ends of the steps; at the end it is still active. -/
def Unnoticed (a : ℚ → Bool) (xs : List ℚ) : Prop :=
  ∃ τ : Nat → St (wd a), Ready (τ 0) ∧ Exec (cfg a) τ 5 ∧ (τ 5).terminated = true ∧ (τ 5).players = [0] ∧
    ∀ i, i ≤ 5 → (τ i).models = [(0, xs.getD i 0)]

theorem unnoticed_acc (x v : ℚ) (h : Sim.Toy.isOk (initLoop (start acc x v) (start acc x v).players) = true ∧
    (∀ i < 5, (σ acc x v i).terminated = false ∧ Sim.Toy.isOk (step (cfg acc) (σ acc x v i)) = true) ∧
    (σ acc x v 5).terminated = true ∧ (σ acc x v 5).players = [0]) (xs : List ℚ)
    (hx : ∀ i ≤ 5, (σ acc x v i).models = [(0, xs.getD i 0)]) : Unnoticed accReal xs := by
  rw [acc_eq]
  exact ⟨σ acc x v, ready _ _ _ h.1, exec h.2.1, h.2.2.1, h.2.2.2, hx⟩

/-- **C141** is false for longer steps: at 25 m/s and steps of 0.1 s, a vehicle drives from 96.5 m over the end
of the lane at 100 m, with a goal there that is inflated by a metre, and is never noticed; the run ends with the
maximal time. -/
theorem C141_false_jump : Unnoticed accReal [193 / 2, 99, 203 / 2, 104, 213 / 2, 109] :=
  unnoticed_acc (193 / 2) 25 (by decide +kernel) _ (by decide +kernel)

/-- **C141** is false for the beginning: a vehicle that stands at its goal is driven before the goal is examined
for the first time; if it leaves the region in the first step it is never noticed. -/
theorem C141_false_start : accReal 100 = true ∧ Unnoticed accReal [100, 205 / 2, 105, 215 / 2, 110, 225 / 2] :=
  ⟨by rw [acc_eq]; decide +kernel, unnoticed_acc 100 25 (by decide +kernel) _ (by decide +kernel)⟩

/-- At 15 m/s the vehicle leaves in the second step, and that ends the run. -/
theorem slow : Exec (cfg acc) (σ acc 97 15) 2 ∧ Ready (σ acc 97 15 0) ∧ 99 ∉ (σ acc 97 15 0).players ∧
    ∀ i ≤ 2, Dict.get? (σ acc 97 15 i).models 0 = some (97 + (i : ℚ) * (3 / 2)) :=
  ⟨exec (by decide +kernel), ready _ _ _ (by decide +kernel), by decide +kernel, by decide +kernel⟩

theorem slow_at {i : Nat} {q : ℚ} (hi : i ≤ 2) (h : At (σ acc 97 15) (fun m : ℚ => m) i 0 q) :
    q = 97 + (i : ℚ) * (3 / 2) := by
  obtain ⟨m, h1, h2⟩ := h
  rw [slow.2.2.2 i hi] at h1
  injection h1 with h1
  rw [← h2, ← h1]

theorem slow_journey : Journey (cfg acc) (σ acc 97 15) 2 (fun m : ℚ => m) (fun _ _ x _ => acc x) 0 ()
    (fun _ => True) (fun q => q) (991 / 10) (1011 / 10) where
  region q t _ h1 h2 := decide_eq_true ⟨h1, h2.le⟩
  way _ _ _ _ := trivial
  start q h := by rw [slow_at (by decide) h]; norm_num
  steps i q q' hi _ h h' := by
    rw [slow_at (by omega) h, slow_at (by omega) h']
    push_cast
    linarith

theorem slow_rate (i : Nat) (q q' : ℚ) (hi : i < 2) (h : At (σ acc 97 15) (fun m : ℚ => m) i 0 q)
    (h' : At (σ acc 97 15) (fun m : ℚ => m) (i + 1) 0 q') : q + 3 / 2 ≤ q' := by
  rw [slow_at (by omega) h, slow_at (by omega) h']
  push_cast
  linarith

example : 0 ∉ (σ acc 97 15 2).players :=
  C141_arrives slow.2.1 (by decide +kernel) (by unfold Dict.Wf; decide) slow.1 (keeps acc) slow.2.2.1 (goal acc)
    (g := ()) (by simp [cfg]) slow_journey (δ := 3 / 2) (x0 := 97)
    (fun q h => by rw [slow_at (by decide) h]; norm_num) (fun i q q' hi _ h h' => slow_rate i q q' hi h h')
    (by norm_num)

example (j : Nat) (hj : Exec (cfg acc) (σ acc 97 15) j) : j ≤ 2 :=
  C141_ends slow.2.1 (by decide +kernel) (by unfold Dict.Wf; decide) (by simp [cfg]) hj (keeps acc) slow.2.2.1
    (goal acc) (by decide) (fun n g h => by
      simp only [cfg, List.mem_singleton, Prod.mk.injEq] at h
      rw [h.1]
      exact ⟨_, _, _, _, 3 / 2, 97, slow_journey, fun q h => by rw [slow_at (by decide) h]; norm_num,
        fun i q q' hi _ h h' => slow_rate i q q' hi h h', by norm_num⟩)

end Strip

/-! A step in real arithmetic, for the goals on lanes. -/

namespace Metre

/-- The world of `Strip` in real arithmetic. -/
abbrev wd (a : ℝ → Bool) : World Nat ℝ where
  W := ℝ
  M := ℝ
  X := ℝ
  P := ℝ
  C := ℝ
  I := Unit
  E := Unit
  O := Unit
  D := Unit
  G := Unit
  getState m := m
  footprint m := m
  isDyn _ := false
  onInit w _ := .ok w
  sense w _ o := .ok (w, o)
  getCommands w _ _ := .ok (w, w, ())
  getExtra w _ := .ok (w, none)
  update w _ m c dt := .ok (w, m + c * dt)
  fulfilled w _ _ x _ := .ok (w, a x)
  envQuery _ _ := []
  env := 99
  resolveEnv w _ m _ _ := ((w, m), .ok none)
  touch _ _ := false
  resolve w _ m₁ _ m₂ _ := ((w, m₁, m₂), .ok none)

noncomputable def cfg (a : ℝ → Bool) : Cfg (wd a) :=
  { dt := 1, dtCommands := 1, maxSimTime := 10, afterCollision := 1, missions := [(0, ())] }

noncomputable def start (a : ℝ → Bool) (x v : ℝ) : St (wd a) where
  models := [(0, x)]
  players := [0]
  w := v
  time := 0
  terminated := false
  reports := []
  firstColl := none
  lastObs := ⟨[], 0⟩
  lastCmdTs := none
  lastCmds := []
  logger := [(0, {})]
  trace := []

theorem ready (a : ℝ → Bool) (x v : ℝ) : Ready (start a x v) :=
  ⟨⟨rfl, rfl, rfl, rfl, rfl, by simp [Dict.Wf, start, Dict.keys], by simp [start], by simp [start, Dict.keys],
    rfl⟩, by intro n hn; simp [start] at hn; subst hn; simp [start, Dict.get?]⟩

theorem one_step (a : ℝ → Bool) (x v : ℝ) : ∃ s', step (cfg a) (start a x v) = .ok s' ∧
    s'.models = [(0, x + v)] := by
  have h10 : ¬ (1 : ℝ) ≤ 0 := by norm_num
  cases ha : a (x + v) <;>
  simp [cfg, start, step, preUpdate, need, observe, lookup, Dict.get?, liftU, update,
    updateLoop, updatePlayer, addLog, Builder.add, maybeAsk, askPlayer, addExtra, Dict.set, postUpdate,
    removeLoop, removePlayer, terminationCondition, collTimer, Dict.keys, envLoop, envObstacles, pairLoop,
    combinations2, bind, Except.bind, pure, Except.pure, ha, h10]

theorem keeps (a : ℝ → Bool) : KeepsPos (wd a) (fun m : ℝ => (⟨m, 0, 0⟩ : Transform)) :=
  ⟨fun _ _ _ _ _ _ => rfl, fun _ _ _ _ _ _ _ => rfl, fun _ _ _ _ _ _ _ => rfl⟩

theorem goal (f : Transform → Bool) : GoalBy (wd fun x => f ⟨x, 0, 0⟩) (fun m : ℝ => (⟨m, 0, 0⟩ : Transform))
    (fun _ _ q _ => f q) := by
  rintro w n g x t w' b h
  injection h with h
  injection h with _ h
  exact h.symm

/-- A run of one step. -/
theorem exists_run (a : ℝ → Bool) (x v : ℝ) : ∃ σ : Nat → St (wd a), Ready (σ 0) ∧ Exec (cfg a) σ 1 ∧
    (σ 0).players = [0] ∧
    (∀ q, At σ (fun m : ℝ => (⟨m, 0, 0⟩ : Transform)) 0 0 q ↔ q = ⟨x, 0, 0⟩) ∧
    ∀ q, At σ (fun m : ℝ => (⟨m, 0, 0⟩ : Transform)) 1 0 q ↔ q = ⟨x + v, 0, 0⟩ := by
  obtain ⟨s', h1, h2⟩ := one_step a x v
  refine ⟨fun i => if i = 0 then start a x v else s', ready a x v, ?_, rfl, ?_, ?_⟩
  · intro i hi
    obtain rfl : i = 0 := by omega
    exact ⟨rfl, h1⟩
  · intro q
    simp [At, start, Dict.get?, eq_comm]
  · intro q
    simp [At, h2, Dict.get?, eq_comm]

open Classical in
/-- The hypotheses of `C141_lane_end` are met: from 98 m to the end of a lane of a hundred metres at 1.9 m per
step. -/
example : ∃ σ : Nat → St (wd fun x => decide (laneEndFulfilled (fun a b r p => decide (Near a b r p)) hundred 1
      (Transform.asSE2 ⟨x, 0, 0⟩) = .ok true)), Ready (σ 0) ∧ 0 ∈ (σ 0).players ∧ 0 ∉ (σ 1).players := by
  obtain ⟨σ, h0, hex, hp, hq0, hq1⟩ := exists_run (fun x => decide (laneEndFulfilled
    (fun a b r p => decide (Near a b r p)) hundred 1 (Transform.asSE2 ⟨x, 0, 0⟩) = .ok true)) 98 (19 / 10)
  refine ⟨σ, h0, by rw [hp]; simp, ?_⟩
  refine C141_lane_end h0 (by norm_num [cfg]) (by simp [Dict.Wf, cfg, Dict.keys]) hex (keeps _) (by rw [hp]; simp)
    (goal fun q => decide (laneEndFulfilled (fun a b r p => decide (Near a b r p)) hundred 1 q.asSE2 = .ok true))
    (n := 0) (g := ()) (by simp [cfg]) _ near_law hundred ⟨⟨100, 0, 0⟩, 2⟩ rfl 1 one_pos
    (fun q t => decide_eq_true_iff) ?_ ?_ ?_ 1 ⟨98 + 19 / 10, 0, 0⟩ le_rfl ((hq1 _).mpr rfl) ?_
  · intro i q hi h
    rcases Nat.le_one_iff_eq_zero_or_eq_one.mp hi with rfl | rfl
    · rw [(hq0 q).mp h]; simp [aside]
    · rw [(hq1 q).mp h]; simp [aside]
  · intro q h
    rw [(hq0 q).mp h]; norm_num [ahead]
  · intro i q q' hi _ h h'
    obtain rfl : i = 0 := by omega
    rw [(hq0 q).mp h, (hq1 q').mp h']
    norm_num
  · norm_num [ahead]

/-- A lane with one control point; its progress is that of this point at the origin. -/
noncomputable def point : List CtrPoint := [⟨⟨0, 0, 0⟩, 2⟩]

theorem point_center : centerPoint point 0 = .ok (Transform.asSE2 ⟨0, 0, 0⟩) := by
  obtain ⟨f, hf, he⟩ := C55_center point (by simp [point])
  rw [he 0]
  have := hf.at_ctr 0 ⟨⟨0, 0, 0⟩, 2⟩ rfl
  rw [← this]
  simp

theorem point_radius : radius (point.map (·.r)) 0 = .ok 2 := by
  obtain ⟨f, hf, he⟩ := C55_radius (point.map (·.r)) (by simp [point])
  rw [he]
  congr 1
  exact hf.after 2 rfl _ (by norm_num [point])

theorem point_along (q : Transform) : ∃ lp, lanePoseOf (fun _ => 0) point q.asSE2 = .ok lp ∧ 0 ≤ lp.along := by
  obtain ⟨rel, h2, -, -⟩ := (C56_relative (Transform.asSE2 ⟨0, 0, 0⟩) q.asSE2).2 (asSE2_rigid _) (asSE2_rigid _)
  have h1 : alongFromBeta (laneLengths point) point.length (0 : ℝ) = .ok 0 := by
    norm_num [alongFromBeta, laneLengths, point]
  obtain ⟨lp, -, -, hp, -, -, -, -, -, -, -, ha, -⟩ := C54_lane point (by simp [point]) (by simp [point]) 0
    (atan2 rel.a10 rel.a00) rel.a12
  refine ⟨lp, ?_, ha.ge⟩
  unfold lanePoseOf
  simp only [point_center, h1, h2, hp]

open Classical in
/-- The hypotheses of `C141_lane` are met: from half a metre before the goal, 0.9 m in a step. -/
example : ∃ σ : Nat → St (wd fun x => decide (refLaneFulfilled (fun a b r p => decide (Near a b r p)) (fun _ => 0)
      point 0 (Transform.asSE2 ⟨x, 0, 0⟩) = .ok true)), Ready (σ 0) ∧ 0 ∈ (σ 0).players ∧ 0 ∉ (σ 1).players := by
  obtain ⟨σ, h0, hex, hp, hq0, hq1⟩ := exists_run (fun x => decide (refLaneFulfilled
    (fun a b r p => decide (Near a b r p)) (fun _ => 0) point 0 (Transform.asSE2 ⟨x, 0, 0⟩) = .ok true))
    (-1 / 2) (9 / 10)
  refine ⟨σ, h0, by rw [hp]; simp, ?_⟩
  refine C141_lane h0 (by norm_num [cfg]) (by simp [Dict.Wf, cfg, Dict.keys]) hex (keeps _) (by rw [hp]; simp)
    (goal fun q => decide (refLaneFulfilled (fun a b r p => decide (Near a b r p)) (fun _ => 0) point 0 q.asSE2 =
      .ok true))
    (n := 0) (g := ()) (by simp [cfg]) _ near_law (fun _ => 0) point 0 ⟨0, 0, 0⟩ 2 point_center point_radius
    (fun q t => decide_eq_true_iff) ?_ (fun _ q _ _ _ _ => point_along q) ?_ ?_ 1 ⟨-1 / 2 + 9 / 10, 0, 0⟩ le_rfl
    ((hq1 _).mpr rfl) ?_
  · intro i q hi h
    rcases Nat.le_one_iff_eq_zero_or_eq_one.mp hi with rfl | rfl
    · rw [(hq0 q).mp h]; simp [aside]
    · rw [(hq1 q).mp h]; simp [aside]
  · intro q h
    rw [(hq0 q).mp h]; norm_num [ahead]
  · intro i q q' hi _ h h'
    obtain rfl : i = 0 := by omega
    rw [(hq0 q).mp h, (hq1 q').mp h']
    norm_num
  · norm_num [ahead]

end Metre

end Whole
end Verif
