import Verif.Control.KeepMotion
import Verif.Control.PursuitProps
import Verif.Phys.UpdateProps
import Mathlib.Analysis.ODE.ExistUnique
import Mathlib.Analysis.SpecialFunctions.Sqrt

/-!
# C122: pure pursuit leads to the lane
-/

namespace Verif
namespace Pursuit

open Maps Mat3 Set

/-- Specification: between the positions `a` and `b` the center line of the path is the straight line through `(ox, oy)`
with direction `φ`. -/
def StraightOn (path : List CtrPoint) (ox oy φ a b : ℝ) : Prop :=
  ∀ x ∈ Icc a b, ∃ g, pointAt path x = .ok g ∧ g.a02 = ox + x * Real.cos φ ∧ g.a12 = oy + x * Real.sin φ

/-- Specification: a minimiser that finds a minimum between the bounds if there is one. -/
def ExactSearch (minim : (ℝ → Except Err ℝ) → ℝ → ℝ → Except Err ℝ) : Prop :=
  ∀ (f : ℝ → Except Err ℝ) (lo hi : ℝ), (∃ x ∈ Icc lo hi, ∃ m, f x = .ok m ∧ ∀ x' ∈ Icc lo hi, ∃ m', f x' = .ok m' ∧
    m ≤ m') → ∃ x ∈ Icc lo hi, minim f lo hi = .ok x ∧ ∃ m, f x = .ok m ∧ ∀ x' ∈ Icc lo hi, ∃ m', f x' = .ok m' ∧ m ≤ m'

/-- Position along the line. -/
noncomputable def alongOf (ox oy φ : ℝ) (s : VehicleState ℝ) : ℝ :=
  (s.x - ox) * Real.cos φ + (s.y - oy) * Real.sin φ

/-- Lateral position, positive on the left. -/
noncomputable def leftOf (ox oy φ : ℝ) (s : VehicleState ℝ) : ℝ :=
  -(s.x - ox) * Real.sin φ + (s.y - oy) * Real.cos φ

/-- Specification: for `T` seconds a vehicle moves forward as in the model of the simulator, with any acceleration, while
its wheels have the angle that pure pursuit asks for; at poses for which the division by zero is raised, the wheels are
straight. `dist` is the distance driven. -/
structure Pursuing (minim : (ℝ → Except Err ℝ) → ℝ → ℝ → Except Err ℝ) (p : Param) (veh : Phys.VehicleParams ℝ)
    (path : List CtrPoint) (ox oy φ ref T : ℝ) (s : ℝ → VehicleState ℝ) (dist : ℝ → ℝ) : Prop where
  forward : ∀ t ∈ Icc 0 T, 0 ≤ (s t).vx
  driven : ∀ t ∈ Icc 0 T, HasDerivWithinAt dist (s t).vx (Icc 0 T) t
  start : dist 0 = 0
  moves : ∀ t ∈ Icc 0 T, ∃ u : ℝ × ℝ, ∀ i < 3, HasDerivWithinAt (fun τ => ((s τ).toArray).getD i 0)
    ((Phys.vehicleRate Phys.realTrig p.length p.lr veh (s t) u).toArray.getD i 0) (Icc 0 T) t
  steers : ∀ t ∈ Icc 0 T,
    (State.mk (some path) (some (rigid (Real.cos (s t).psi) (Real.sin (s t).psi) (s t).x (s t).y))
      (some (alongOf ox oy φ (s t))) ref).desiredSteering minim p = .ok (s t).delta ∨
    ((State.mk (some path) (some (rigid (Real.cos (s t).psi) (Real.sin (s t).psi) (s t).x (s t).y))
      (some (alongOf ox oy φ (s t))) ref).desiredSteering minim p = .error .zeroDiv ∧ (s t).delta = 0)

/-- The goal that is found. -/
theorem goal_found {minim : (ℝ → Except Err ℝ) → ℝ → ℝ → Except Err ℝ} (hm : ExactSearch minim) {p : Param}
    {path : List CtrPoint} {ox oy φ a b ref : ℝ} (hp : StraightOn path ox oy φ a b) (s : VehicleState ℝ)
    (h1 : a ≤ alongOf ox oy φ s + p.minDistance)
    (h2 : alongOf ox oy φ s + p.minDistance + lookahead p ref ≤ b) (hmin : 0 ≤ p.minDistance)
    (hmin' : p.minDistance ≤ 43 / 50 * lookahead p ref) (hL : 0 < lookahead p ref)
    (hy : |leftOf ox oy φ s| ≤ lookahead p ref / 2) :
    ∃ x g, findGoalPoint minim p path (rigid (Real.cos s.psi) (Real.sin s.psi) s.x s.y) (alongOf ox oy φ s) ref =
      .ok (x, g) ∧ x = alongOf ox oy φ s + Keep.far (lookahead p ref) (leftOf ox oy φ s) ∧
      g.a02 = ox + x * Real.cos φ ∧ g.a12 = oy + x * Real.sin φ := by
  set L := lookahead p ref
  set X := alongOf ox oy φ s with hX
  set Y := leftOf ox oy φ s with hY
  obtain ⟨f1, f2, f3, -⟩ := Keep.far_bounds hL hy
  have hdist : ∀ x g, g.a02 = ox + x * Real.cos φ → g.a12 = oy + x * Real.sin φ →
      normBetween (rigid (Real.cos s.psi) (Real.sin s.psi) s.x s.y) g = Real.sqrt ((x - X) ^ 2 + Y ^ 2) := by
    intro x g g1 g2
    unfold normBetween norm2
    rw [g1, g2, hX, hY]
    simp only [rigid, alongOf, leftOf]
    congr 1
    linear_combination (-(s.x - ox) ^ 2 - (s.y - oy) ^ 2 + x ^ 2) * Real.cos_sq_add_sin_sq φ
  have hf : ∀ x ∈ Icc (X + p.minDistance) (X + p.minDistance + L),
      goalPointError path (rigid (Real.cos s.psi) (Real.sin s.psi) s.x s.y) L x =
        .ok |Real.sqrt ((x - X) ^ 2 + Y ^ 2) - L| := by
    intro x hx
    obtain ⟨g, g0, g1, g2⟩ := hp x ⟨h1.trans hx.1, hx.2.trans h2⟩
    unfold goalPointError
    rw [g0]
    simp only
    rw [hdist x g g1 g2]
  have hz : Real.sqrt ((X + Keep.far L Y - X) ^ 2 + Y ^ 2) = L := by
    rw [add_sub_cancel_left, f3, sub_add_cancel, Real.sqrt_sq hL.le]
  have hmem : X + Keep.far L Y ∈ Icc (X + p.minDistance) (X + p.minDistance + L) :=
    ⟨by linarith, by linarith⟩
  obtain ⟨x, hx, hx1, m, hm1, hm2⟩ := hm _ _ _ ⟨_, hmem, _, hf _ hmem, fun x' hx' => ⟨_, hf x' hx', by
    rw [hz, sub_self, abs_zero]; exact abs_nonneg _⟩⟩
  rw [hf x hx] at hm1
  injection hm1 with hm1
  obtain ⟨m', hm', hle⟩ := hm2 _ hmem
  rw [hf _ hmem, hz, sub_self, abs_zero] at hm'
  injection hm' with hm'
  have hm0 : |Real.sqrt ((x - X) ^ 2 + Y ^ 2) - L| = 0 :=
    le_antisymm (by rw [hm1, hm']; exact hle) (abs_nonneg _)
  have hsq : Real.sqrt ((x - X) ^ 2 + Y ^ 2) = L := by
    rw [abs_eq_zero] at hm0; linarith
  have hx2 : (x - X) ^ 2 = Keep.far L Y ^ 2 := by
    rw [f3, ← hsq, Real.sq_sqrt (by positivity)]; ring
  have hxe : x - X = Keep.far L Y := by
    have h0 : 0 ≤ x - X := by linarith [hx.1]
    exact (sq_eq_sq₀ h0 (Real.sqrt_nonneg _)).mp hx2
  obtain ⟨g, g0, g1, g2⟩ := hp x ⟨h1.trans hx.1, hx.2.trans h2⟩
  refine ⟨x, g, ?_, by linarith, g1, g2⟩
  have hx1' : minim (goalPointError path (rigid (Real.cos s.psi) (Real.sin s.psi) s.x s.y) (lookahead p ref))
      (X + p.minDistance) (X + p.minDistance + lookahead p ref) = .ok x := hx1
  unfold findGoalPoint
  simp only [hx1', g0]

/-- The wheel angle that is asked for. -/
theorem tan_steer {minim : (ℝ → Except Err ℝ) → ℝ → ℝ → Except Err ℝ} (hm : ExactSearch minim) {p : Param}
    {path : List CtrPoint} {ox oy φ a b ref : ℝ} (hp : StraightOn path ox oy φ a b) (s : VehicleState ℝ)
    (h1 : a ≤ alongOf ox oy φ s + p.minDistance)
    (h2 : alongOf ox oy φ s + p.minDistance + lookahead p ref ≤ b) (hmin : 0 ≤ p.minDistance)
    (hmin' : p.minDistance ≤ 43 / 50 * lookahead p ref) (hl0 : 0 < p.lookMin) (hl1 : p.lookMin ≤ p.lookMax)
    (hr : 0 ≤ p.lr) (hlen : 0 < p.length)
    (hy : |leftOf ox oy φ s| ≤ lookahead p ref / 2)
    (hyr : |leftOf ox oy φ s - p.lr * Real.sin (s.psi - φ)| ≤ lookahead p ref / 2)
    (hc : 0 < Real.cos (s.psi - φ)) :
    let κ := Keep.curv (lookahead p ref) p.lr (1 / (2 * 10 ^ 9)) (leftOf ox oy φ s - p.lr * Real.sin (s.psi - φ))
      (Real.cos (s.psi - φ)) (Real.sin (s.psi - φ))
    let ans := (State.mk (some path) (some (rigid (Real.cos s.psi) (Real.sin s.psi) s.x s.y))
      (some (alongOf ox oy φ s)) ref).desiredSteering minim p
    (κ = 0 → ans = .error .zeroDiv) ∧ (κ ≠ 0 → ∃ δ, ans = .ok δ ∧ Real.tan δ = p.length * κ) := by
  intro κ ans
  have hL : 0 < lookahead p ref := hl0.trans_le ((C68_lookahead p hl1).1 ref).1
  obtain ⟨x, g, hg, hx, g1, g2⟩ := goal_found hm hp s h1 h2 hmin hmin' hL hy
  set L := lookahead p ref with hLdef
  set X := alongOf ox oy φ s with hX
  set Y := leftOf ox oy φ s with hY
  set c := Real.cos (s.psi - φ) with hcd
  set σ := Real.sin (s.psi - φ) with hsd
  have hcs : c ^ 2 + σ ^ 2 = 1 := Real.cos_sq_add_sin_sq _
  have hy' : |(Y - p.lr * σ) + p.lr * σ| ≤ L / 2 := by rw [sub_add_cancel]; exact hy
  obtain ⟨l1, l2, l3, l4⟩ := Keep.lon_bounds hL hr hcs hc hyr hy'
  set D := Keep.lon L p.lr (Y - p.lr * σ) c σ with hD
  set d := Keep.dist L p.lr (Y - p.lr * σ) c σ with hd
  have hd0 : d ≠ 0 := by
    have : 0 < d := by linarith
    exact this.ne'
  have hDe : D = p.lr * c + Keep.far L Y := by
    rw [hD]; unfold Keep.lon; rw [sub_add_cancel]
  have hans : ans = steeringTo p (rigid (Real.cos s.psi) (Real.sin s.psi) s.x s.y) g ref := by
    have hg' : findGoalPoint minim p path (rigid (Real.cos s.psi) (Real.sin s.psi) s.x s.y) (alongOf ox oy φ s) ref =
      .ok (x, g) := hg
    show State.desiredSteering minim p _ = _
    simp only [State.desiredSteering, hg']
  -- the goal in the frame of the vehicle
  have hcψ : Real.cos s.psi = c * Real.cos φ - σ * Real.sin φ := by
    rw [hcd, hsd, ← Real.cos_add, sub_add_cancel]
  have hsψ : Real.sin s.psi = σ * Real.cos φ + c * Real.sin φ := by
    rw [hcd, hsd, ← Real.sin_add, sub_add_cancel]
  have hφ := Real.cos_sq_add_sin_sq φ
  set lo := Keep.far L Y * c - Y * σ with hlo
  set la := -(Keep.far L Y * σ) - Y * c with hla
  have hxy : s.x = ox + X * Real.cos φ - Y * Real.sin φ ∧ s.y = oy + X * Real.sin φ + Y * Real.cos φ := by
    rw [hX, hY]
    unfold alongOf leftOf
    constructor
    · linear_combination (-(s.x - ox)) * hφ
    · linear_combination (-(s.y - oy)) * hφ
  have hgoal : (g.a02, g.a12) = applyT2 (rigid (Real.cos s.psi) (Real.sin s.psi) s.x s.y) (lo, la) := by
    rw [g1, g2]
    simp only [applyT2, rigid]
    rw [hcψ, hsψ, hxy.1, hxy.2, hx, hlo, hla]
    refine Prod.ext ?_ ?_
    · simp only
      linear_combination (-(Keep.far L Y * Real.cos φ) - Y * Real.sin φ) * hcs
    · simp only
      linear_combination (-(Keep.far L Y * Real.sin φ) + Y * Real.cos φ) * hcs
  have hnorm : d = norm2 (lo + p.lr) la := by
    rw [hd]
    unfold Keep.dist norm2
    congr 1
    rw [← hD, hDe, hlo, hla]
    linear_combination (-(Keep.far L Y) ^ 2 - Y ^ 2) * hcs + (p.lr ^ 2) * hcs
  have hκ : κ = (2 * la / d + 1 / 10 ^ 9) / L := by
    show Keep.curv L p.lr _ (Y - p.lr * σ) c σ = _
    unfold Keep.curv
    rw [← hD, ← hd, hDe, hla]
    field_simp
    ring
  obtain ⟨s1, s2⟩ := C68_steering p hl0 hl1 (rigid (Real.cos s.psi) (Real.sin s.psi) s.x s.y) g
    ⟨_, _, _, _, Real.cos_sq_add_sin_sq _, rfl⟩ lo la ref d hgoal hnorm hd0
  rw [hans]
  constructor
  · intro h0
    apply s1
    rw [hκ, div_eq_zero_iff] at h0
    rcases h0 with h0 | h0
    · linarith
    · exact absurd h0 hL.ne'
  · intro h0
    obtain ⟨δ, hδ, -, -, ht⟩ := s2 (by
      intro h'
      apply h0
      rw [hκ, h']; ring)
    refine ⟨δ, hδ, ?_⟩
    rw [ht, hκ]
    ring

/-- **C122.** On a straight lane the vehicle comes to a line parallel to the center line, at most `(L + lr) / (2e9)` left
of it, where `L` is the lookahead for the reference speed and `lr` the distance of the rear axle: for every start near
enough to the lane, the error of heading and lateral position of the rear axle decreases exponentially with the distance
driven, and the vehicle stays within half the lookahead of the center line on the way. -/
theorem C122_keeps_partial (minim : (ℝ → Except Err ℝ) → ℝ → ℝ → Except Err ℝ) (hm : ExactSearch minim) (p : Param) (ref : ℝ)
    (hl0 : 0 < p.lookMin) (hl1 : p.lookMin ≤ p.lookMax) (hlen : 0 < p.length) (hr : 0 ≤ p.lr)
    (hr' : p.lr ≤ 10 * lookahead p ref) (hmin : 0 ≤ p.minDistance)
    (hmin' : p.minDistance ≤ 43 / 50 * lookahead p ref) :
    ∃ off, 0 < off ∧ off ≤ (lookahead p ref + p.lr) / (2 * 10 ^ 9) ∧
      ∀ (veh : Phys.VehicleParams ℝ) (path : List CtrPoint) (ox oy φ a b T : ℝ) (s : ℝ → VehicleState ℝ)
        (dist lat head : ℝ → ℝ), StraightOn path ox oy φ a b →
        Pursuing minim p veh path ox oy φ ref T s dist →
        (∀ t ∈ Icc 0 T, a ≤ alongOf ox oy φ (s t) + p.minDistance ∧
          alongOf ox oy φ (s t) + p.minDistance + lookahead p ref ≤ b) →
        (∀ t, head t = (s t).psi - φ) → (∀ t, lat t = leftOf ox oy φ (s t) - p.lr * Real.sin (head t)) →
        |head 0| < Real.pi / 2 →
        2 * lat 0 ^ 2 / (lookahead p ref * (lookahead p ref + p.lr)) + Real.tan (head 0) ^ 2 / 2 <
          lookahead p ref ^ 2 / (6 * (lookahead p ref * (lookahead p ref + p.lr) + 2 * p.lr ^ 2)) →
        ∀ t ∈ Icc 0 T, |head t| < Real.pi / 3 ∧ |leftOf ox oy φ (s t)| < lookahead p ref / 2 ∧
          Real.sin (head t) ^ 2 + (lat t - off) ^ 2 / (lookahead p ref * (lookahead p ref + p.lr)) ≤
            3 * (Real.sin (head 0) ^ 2 + (lat 0 - off) ^ 2 / (lookahead p ref * (lookahead p ref + p.lr))) *
              Real.exp (-(dist t / (80 * (lookahead p ref + p.lr)))) := by
  have hL : 0 < lookahead p ref := hl0.trans_le ((C68_lookahead p hl1).1 ref).1
  obtain ⟨ys, y0, y1, y2, y3⟩ := Keep.exists_rest (e := 1 / (2 * 10 ^ 9)) hL hr hr' (by norm_num) (by norm_num)
  refine ⟨ys, y0, by rw [div_eq_mul_one_div, mul_comm]; exact y1, ?_⟩
  intro veh path ox oy φ a b T s dist lat head hp H hlane hhead hlat h0 hi t ht
  have hx : ∀ t ∈ Icc 0 T, HasDerivWithinAt (fun τ => (s τ).x) ((s t).vx * Real.cos (s t).psi -
      (s t).vx * Real.tan (s t).delta / p.length * p.lr * Real.sin (s t).psi) (Icc 0 T) t := fun t ht => by
    obtain ⟨u, hu⟩ := H.moves t ht
    exact hu 0 (by norm_num)
  have hy : ∀ t ∈ Icc 0 T, HasDerivWithinAt (fun τ => (s τ).y) ((s t).vx * Real.sin (s t).psi +
      (s t).vx * Real.tan (s t).delta / p.length * p.lr * Real.cos (s t).psi) (Icc 0 T) t := fun t ht => by
    obtain ⟨u, hu⟩ := H.moves t ht
    exact hu 1 (by norm_num)
  have hψ : ∀ t ∈ Icc 0 T, HasDerivWithinAt (fun τ => (s τ).psi) ((s t).vx * Real.tan (s t).delta / p.length)
      (Icc 0 T) t := fun t ht => by
    obtain ⟨u, hu⟩ := H.moves t ht
    exact hu 2 (by norm_num)
  have hφ := Real.cos_sq_add_sin_sq φ
  have hheadf : head = fun τ => (s τ).psi - φ := funext hhead
  have hlatf : lat = fun τ => leftOf ox oy φ (s τ) - p.lr * Real.sin ((s τ).psi - φ) := by
    funext τ; rw [hlat, hhead]
  have M : Keep.Motion (lookahead p ref) p.lr (1 / (2 * 10 ^ 9)) T (fun t => (s t).vx)
      (fun t => Real.tan (s t).delta / p.length) dist lat head := by
    refine ⟨H.forward, H.driven, fun t ht => ?_, fun t ht => ?_, fun t ht hc h1 h2 => ?_⟩
    · rw [hlatf]
      have d1 := ((((hx t ht).sub_const ox).neg.mul_const (Real.sin φ)).add
        (((hy t ht).sub_const oy).mul_const (Real.cos φ))).sub
        (((hψ t ht).sub_const φ).sin.const_mul p.lr)
      refine d1.congr_deriv ?_
      rw [hhead, Real.sin_sub, Real.cos_sub]
      ring
    · rw [hheadf]
      exact ((hψ t ht).sub_const φ).congr_deriv (by ring)
    · have e1 : lat t + p.lr * Real.sin (head t) = leftOf ox oy φ (s t) := by rw [hlat]; ring
      rw [e1] at h2
      rw [hlat, hhead] at h1
      rw [hhead] at hc
      obtain ⟨k1, k2⟩ := tan_steer hm hp (s t) (hlane t ht).1 (hlane t ht).2 hmin hmin' hl0 hl1 hr hlen h2 h1 hc
      rw [hlat, hhead]
      set κ := Keep.curv (lookahead p ref) p.lr (1 / (2 * 10 ^ 9))
        (leftOf ox oy φ (s t) - p.lr * Real.sin ((s t).psi - φ)) (Real.cos ((s t).psi - φ))
        (Real.sin ((s t).psi - φ))
      by_cases hk : κ = 0
      · have k3 := k1 hk
        rcases H.steers t ht with h | h
        · rw [k3] at h; cases h
        · rw [hk]
          show Real.tan (s t).delta / p.length = 0
          rw [h.2, Real.tan_zero, zero_div]
      · obtain ⟨δ, k3, k4⟩ := k2 hk
        rcases H.steers t ht with h | h
        · rw [k3] at h
          injection h with h
          show Real.tan (s t).delta / p.length = κ
          rw [← h, k4]
          field_simp
        · rw [k3] at h; cases h.1
  obtain ⟨r1, r2, r3, r4⟩ := Keep.keep hL hr hr' (by norm_num) (by norm_num) y0 y1 y2 y3 M H.start h0 hi t ht
  have e1 : lat t + p.lr * Real.sin (head t) = leftOf ox oy φ (s t) := by rw [hlat]; ring
  rw [e1] at r3
  exact ⟨r1, r3, r4⟩

/-- **C122, the end of the way**: the line that the vehicle comes to is the one on which the code raises
`ZeroDivisionError`. -/
theorem C122_false_limit (minim : (ℝ → Except Err ℝ) → ℝ → ℝ → Except Err ℝ) (hm : ExactSearch minim) (p : Param)
    (ref : ℝ) (hl0 : 0 < p.lookMin) (hl1 : p.lookMin ≤ p.lookMax) (hlen : 0 < p.length) (hr : 0 ≤ p.lr)
    (hr' : p.lr ≤ 10 * lookahead p ref) (hmin : 0 ≤ p.minDistance)
    (hmin' : p.minDistance ≤ 43 / 50 * lookahead p ref) :
    ∃ off, 0 < off ∧ off ≤ (lookahead p ref + p.lr) / (2 * 10 ^ 9) ∧
      ∀ (path : List CtrPoint) (ox oy φ a b : ℝ) (s : VehicleState ℝ), StraightOn path ox oy φ a b →
        a ≤ alongOf ox oy φ s + p.minDistance → alongOf ox oy φ s + p.minDistance + lookahead p ref ≤ b →
        s.psi = φ → leftOf ox oy φ s = off →
        (State.mk (some path) (some (rigid (Real.cos s.psi) (Real.sin s.psi) s.x s.y))
          (some (alongOf ox oy φ s)) ref).desiredSteering minim p = .error .zeroDiv := by
  have hL : 0 < lookahead p ref := hl0.trans_le ((C68_lookahead p hl1).1 ref).1
  obtain ⟨ys, y0, y1, y2, y3⟩ := Keep.exists_rest (e := 1 / (2 * 10 ^ 9)) hL hr hr' (by norm_num) (by norm_num)
  refine ⟨ys, y0, by rw [div_eq_mul_one_div, mul_comm]; exact y1, ?_⟩
  intro path ox oy φ a b s hp h1 h2 hψ hl
  have hy : |leftOf ox oy φ s| ≤ lookahead p ref / 2 := by rw [hl, abs_of_pos y0]; exact y2
  have hs : Real.sin (s.psi - φ) = 0 := by rw [hψ, sub_self, Real.sin_zero]
  have hc : Real.cos (s.psi - φ) = 1 := by rw [hψ, sub_self, Real.cos_zero]
  refine (tan_steer hm hp s h1 h2 hmin hmin' hl0 hl1 hr hlen hy (by rw [hs, mul_zero, sub_zero]; exact hy)
    (by rw [hc]; norm_num)).1 ?_
  rw [hs, hc, hl, mul_zero, sub_zero]
  have e1 : Keep.dist (lookahead p ref) p.lr ys 1 0 = Keep.dist0 (lookahead p ref) p.lr ys := by
    unfold Keep.dist Keep.dist0 Keep.lon
    simp
  unfold Keep.curv
  rw [e1, mul_one, mul_zero, add_zero, y3, sub_self, mul_zero]

/-! ### Straight lanes -/

/-- Control points on a line, at the positions `as`. -/
noncomputable def onLine (ox oy φ : ℝ) (rad : ℝ → ℝ) (as : List ℝ) : List CtrPoint :=
  as.map fun x => ⟨⟨ox + x * Real.cos φ, oy + x * Real.sin φ, φ⟩, rad x⟩

theorem line_between (ox oy φ x l : ℝ) :
    Transform.asSE2 ⟨ox + (x + l) * Real.cos φ, oy + (x + l) * Real.sin φ, φ⟩ =
      (Transform.asSE2 ⟨ox + x * Real.cos φ, oy + x * Real.sin φ, φ⟩).mul (rigid 1 0 l 0) := by
  simp only [Transform.asSE2, rigid, mul, Mat3.mk.injEq]
  refine ⟨by ring, by ring, by ring, by ring, by ring, by ring, by ring, by ring, by ring⟩

theorem interp_line (q : Transform) (l a : ℝ) :
    interpSE2 q.asSE2 (q.asSE2.mul (rigid 1 0 l 0)) a = q.asSE2.mul (rigid 1 0 (a * l) 0) := by
  unfold interpSE2
  rw [← mul_assoc', cof_mul _ (asSE2_rigid q).det_ne, one_mul', log_of_zero, exp_of_zero]
  · simp only [Twist.smul]
    rw [mul_zero]
  · simp [Twist.smul]
  · have := atan2_cos_sin 0 (by linarith [Real.pi_pos]) Real.pi_pos.le
    simpa using this

theorem dist_line (q : Transform) (l : ℝ) (hl : 0 ≤ l) :
    distSE2 q.asSE2 (q.asSE2.mul (rigid 1 0 l 0)) = l := by
  unfold distSE2
  rw [← mul_assoc', cof_mul _ (asSE2_rigid q).det_ne, one_mul', log_of_zero]
  · simp [norm2, Real.sqrt_sq hl, rigid]
  · have := atan2_cos_sin 0 (by linarith [Real.pi_pos]) Real.pi_pos.le
    simpa using this

/-- A lane whose control points lie on a line and head along it is straight, up to the snap window before its end. -/
theorem C122_lane (ox oy φ : ℝ) (rad : ℝ → ℝ) (as : List ℝ) (hs : (0 :: as).Pairwise (· < ·)) (b : ℝ)
    (hb : b < laneLength (onLine ox oy φ rad (0 :: as)) -
      max (1 / 10 ^ 9 * laneLength (onLine ox oy φ rad (0 :: as))) (1 / 10 ^ 8)) :
    StraightOn (onLine ox oy φ rad (0 :: as)) ox oy φ 0 b ∧
      laneLength (onLine ox oy φ rad (0 :: as)) = (0 :: as).getLast (by simp) := by
  set xs := 0 :: as with hxs
  set cps := onLine ox oy φ rad xs with hcps
  have hne : cps ≠ [] := by rw [hcps, hxs]; simp [onLine]
  have hget : ∀ (i : Nat) (x : ℝ), xs[i]? = some x →
      cps[i]? = some (⟨⟨ox + x * Real.cos φ, oy + x * Real.sin φ, φ⟩, rad x⟩ : CtrPoint) := by
    intro i x hx
    rw [hcps, onLine, List.getElem?_map, hx]; rfl
  have hlt : ∀ (i : Nat) (x x' : ℝ), xs[i]? = some x → xs[i + 1]? = some x' → x < x' := by
    intro i x x' h1 h2
    obtain ⟨l1, rfl⟩ := List.getElem?_eq_some_iff.mp h1
    obtain ⟨l2, rfl⟩ := List.getElem?_eq_some_iff.mp h2
    exact List.pairwise_iff_getElem.mp hs _ _ _ _ (by omega)
  have hlen : ∀ (i : Nat) (x x' : ℝ), xs[i]? = some x → xs[i + 1]? = some x' → (laneLengths cps)[i]? = some (x' - x) := by
    intro i x x' h1 h2
    rw [laneLengths_get cps i _ _ (hget i x h1) (hget (i + 1) x' h2)]
    have := line_between ox oy φ x (x' - x)
    rw [add_sub_cancel] at this
    rw [this, dist_line _ _ (by linarith [hlt i x x' h1 h2])]
  have hpre : ∀ (i : Nat) (x : ℝ), xs[i]? = some x → pre (laneLengths cps) i = x := by
    intro i
    induction i with
    | zero =>
      intro x hx
      rw [hxs] at hx
      simp only [List.getElem?_cons_zero, Option.some.injEq] at hx
      simp [pre, ← hx]
    | succ i ih =>
      intro x hx
      have hi : i < xs.length := by
        have := (List.getElem?_eq_some_iff.mp hx).1; omega
      have h1 := List.getElem?_eq_getElem hi
      rw [pre_succ _ _ _ (hlen i _ _ h1 hx), ih _ h1]
      ring
  have hcl : cps.length = xs.length := by rw [hcps, onLine, List.length_map]
  have hll : (laneLengths cps).length + 1 = xs.length := by rw [len_eq hne, hcl]
  have hpos : ∀ l ∈ laneLengths cps, 0 < l := by
    intro l hl
    obtain ⟨i, hi⟩ := List.getElem?_of_mem hl
    have hil := (List.getElem?_eq_some_iff.mp hi).1
    have h1 := List.getElem?_eq_getElem (show i < xs.length by omega)
    have h2 := List.getElem?_eq_getElem (show i + 1 < xs.length by omega)
    rw [hlen i _ _ h1 h2] at hi
    injection hi with hi
    have := hlt i _ _ h1 h2
    linarith
  refine ⟨?_, ?_⟩
  · intro x hx
    obtain ⟨f, hf, he⟩ := C55_center cps hne
    obtain ⟨g, hg, -⟩ := C53_along (laneLengths cps)
    obtain ⟨β, hβ, hβ1, -⟩ := C53_beta (laneLengths cps) hpos g hg x
    have hsum : laneLength cps = (laneLengths cps).sum := rfl
    have hxs' : x < (laneLengths cps).sum - max (1 / 10 ^ 9 * (laneLengths cps).sum) (1 / 10 ^ 8) := by
      rw [← hsum]; exact lt_of_le_of_lt hx.2 hb
    have hgb := hβ1 (fun h => by linarith [h.2.2])
    have hmono := C53_along_strict (laneLengths cps) hpos g hg
    have hm0 : (0 : ℝ) < max (1 / 10 ^ 9 * (laneLengths cps).sum) (1 / 10 ^ 8) := lt_max_of_lt_right (by norm_num)
    have hβ0 : 0 ≤ β := by
      by_contra h
      push Not at h
      have := hmono h
      rw [hg.before 0 le_rfl, hgb] at this
      linarith [hx.1]
    have hβn : β < (laneLengths cps).length := by
      by_contra h
      push Not at h
      have := hmono.monotone h
      rw [hg.after _ le_rfl, sub_self, hgb] at this
      linarith
    obtain ⟨i, l, hl, b1, b2, b3, -, -⟩ := hg.bounds hpos β hβ0 hβn
    have hil := (List.getElem?_eq_some_iff.mp hl).1
    have h1 := List.getElem?_eq_getElem (show i < xs.length by omega)
    have h2 := List.getElem?_eq_getElem (show i + 1 < xs.length by omega)
    rw [hlen i _ _ h1 h2] at hl
    injection hl with hl
    refine ⟨f β, ?_, ?_⟩
    · unfold pointAt
      rw [← len_eq hne, hβ]
      exact he β
    · have h3 := hf.seg i _ _ (hget i _ h1) (hget (i + 1) _ h2) (β - i) (by linarith) (by linarith)
      rw [add_sub_cancel] at h3
      have h4 := line_between ox oy φ (xs[i]) l
      rw [← hl, add_sub_cancel] at h4
      rw [h3]
      simp only
      rw [h4, interp_line, hl]
      rw [hgb, hpre i _ h1] at b3
      simp only [Transform.asSE2, rigid, mul]
      constructor
      · linear_combination (-Real.cos φ) * b3
      · linear_combination (-Real.sin φ) * b3
  · have h1 : xs[xs.length - 1]? = some (xs.getLast (by rw [hxs]; simp)) := by
      rw [List.getElem?_eq_getElem (by rw [hxs]; simp), List.getLast_eq_getElem]
    rw [← hpre _ _ h1]
    unfold laneLength pre
    rw [List.take_of_length_le (by omega)]

/-! ### A drive that meets the hypotheses -/

/-- A minimiser as specified. -/
theorem exact_exists : ∃ minim, ExactSearch minim := by
  classical
  refine ⟨fun f lo hi => if h : ∃ x ∈ Icc lo hi, ∃ m, f x = .ok m ∧ ∀ x' ∈ Icc lo hi, ∃ m', f x' = .ok m' ∧ m ≤ m'
    then .ok h.choose else .error .value, fun f lo hi h => ?_⟩
  exact ⟨h.choose, h.choose_spec.1, dif_pos h, h.choose_spec.2⟩

/-- The curvature for the parameters of the example: lookahead 8, rear axle 1 behind. -/
noncomputable def kap (q : ℝ × ℝ × ℝ) : ℝ :=
  Keep.curv 8 1 (1 / (2 * 10 ^ 9)) (q.2.1 - 1 * Real.sin q.2.2) (Real.cos q.2.2) (Real.sin q.2.2)

theorem kap_smooth : ContDiffAt ℝ 1 kap (10, 1, 0) := by
  have hs : ContDiffAt ℝ 1 (fun q : ℝ × ℝ × ℝ => Real.sin q.2.2) (10, 1, 0) := by fun_prop
  have hc : ContDiffAt ℝ 1 (fun q : ℝ × ℝ × ℝ => Real.cos q.2.2) (10, 1, 0) := by fun_prop
  have hy : ContDiffAt ℝ 1 (fun q : ℝ × ℝ × ℝ => q.2.1 - 1 * Real.sin q.2.2) (10, 1, 0) := by fun_prop
  have hlon : ContDiffAt ℝ 1 (fun q : ℝ × ℝ × ℝ => Keep.lon 8 1 (q.2.1 - 1 * Real.sin q.2.2) (Real.cos q.2.2)
      (Real.sin q.2.2)) (10, 1, 0) := by
    unfold Keep.lon Keep.far
    refine (contDiffAt_const.mul hc).add (ContDiffAt.sqrt ?_ ?_)
    · fun_prop
    · norm_num
  have hdist : ContDiffAt ℝ 1 (fun q : ℝ × ℝ × ℝ => Keep.dist 8 1 (q.2.1 - 1 * Real.sin q.2.2) (Real.cos q.2.2)
      (Real.sin q.2.2)) (10, 1, 0) := by
    unfold Keep.dist
    refine ContDiffAt.sqrt ((hy.pow 2).add (hlon.pow 2)) ?_
    simp only [Real.sin_zero]
    positivity
  unfold kap Keep.curv
  refine contDiffAt_const.mul (ContDiffAt.sub (ContDiffAt.div ((hy.mul hc).add (hlon.mul hs)) hdist ?_)
    contDiffAt_const)
  unfold Keep.dist
  refine (Real.sqrt_pos.mpr ?_).ne'
  simp only [Real.sin_zero]
  positivity

theorem look_ex : lookahead (Param.fromGeo 3 1) 10 = 8 := by
  unfold lookahead npClip Param.fromGeo
  norm_num

theorem drive_ex (minim : (ℝ → Except Err ℝ) → ℝ → ℝ → Except Err ℝ) (hm : ExactSearch minim)
    (veh : Phys.VehicleParams ℝ) (path : List CtrPoint) (hp : StraightOn path 0 0 0 0 99) :
    ∃ (T : ℝ) (s : ℝ → VehicleState ℝ), 0 < T ∧ Pursuing minim (Param.fromGeo 3 1) veh path 0 0 0 10 T s id ∧
      (∀ t ∈ Icc 0 T, 0 ≤ alongOf 0 0 0 (s t) + 2 ∧ alongOf 0 0 0 (s t) + 2 + 8 ≤ 99) ∧
      (s 0).x = 10 ∧ (s 0).y = 1 ∧ (s 0).psi = 0 := by
  have hf : ContDiffAt ℝ 1 (fun q : ℝ × ℝ × ℝ => (Real.cos q.2.2 - kap q * 1 * Real.sin q.2.2,
      Real.sin q.2.2 + kap q * 1 * Real.cos q.2.2, kap q)) (10, 1, 0) := by
    have h := kap_smooth
    fun_prop
  obtain ⟨α, h0, ε, hε, hα⟩ := hf.exists_forall_mem_closedBall_exists_eq_forall_mem_Ioo_hasDerivAt₀ 0
  have hcont : ContinuousAt α 0 := (hα 0 (by constructor <;> linarith)).continuousAt
  have hev : ∀ᶠ t in nhds (0 : ℝ), (0 < (α t).1 ∧ (α t).1 < 20) ∧ |(α t).2.1| < 4 ∧
      |(α t).2.1 - 1 * Real.sin (α t).2.2| < 4 ∧ 0 < Real.cos (α t).2.2 := by
    refine (((continuousAt_const (y := (0 : ℝ))).eventually_lt hcont.fst (by rw [h0]; norm_num)).and
      (hcont.fst.eventually_lt (continuousAt_const (y := (20 : ℝ))) (by rw [h0]; norm_num))).and
      ((hcont.snd.fst.abs.eventually_lt (continuousAt_const (y := (4 : ℝ))) (by rw [h0]; norm_num)).and
      (((hcont.snd.fst.sub (continuousAt_const.mul
        (Real.continuous_sin.continuousAt.comp hcont.snd.snd))).abs.eventually_lt
        (continuousAt_const (y := (4 : ℝ))) (by simp [h0])).and
        ((continuousAt_const (y := (0 : ℝ))).eventually_lt
        (Real.continuous_cos.continuousAt.comp hcont.snd.snd) (by simp [h0]))))
  obtain ⟨η, hη, hU⟩ := Metric.eventually_nhds_iff.mp hev
  set T := min ε η / 2 with hT
  have hTp : 0 < T := by rw [hT]; positivity
  have hin : ∀ t ∈ Icc 0 T, (0 < (α t).1 ∧ (α t).1 < 20) ∧ |(α t).2.1| < 4 ∧
      |(α t).2.1 - 1 * Real.sin (α t).2.2| < 4 ∧ 0 < Real.cos (α t).2.2 := fun t ht => hU (by
    rw [Real.dist_eq, sub_zero, abs_of_nonneg ht.1]
    have := min_le_right ε η
    linarith [ht.2])
  have hder : ∀ t ∈ Icc 0 T, HasDerivAt α (Real.cos (α t).2.2 - kap (α t) * 1 * Real.sin (α t).2.2,
      Real.sin (α t).2.2 + kap (α t) * 1 * Real.cos (α t).2.2, kap (α t)) t := fun t ht => hα t (by
    have := min_le_left ε η
    constructor <;> linarith [ht.1, ht.2])
  let ask : ℝ × ℝ × ℝ → ℝ := fun q => match (State.mk (some path)
      (some (rigid (Real.cos q.2.2) (Real.sin q.2.2) q.1 q.2.1)) (some (alongOf 0 0 0 ⟨q.1, q.2.1, q.2.2, 1, 0⟩))
      10).desiredSteering minim (Param.fromGeo 3 1) with
    | .ok δ => δ
    | .error _ => 0
  let s : ℝ → VehicleState ℝ := fun t => ⟨(α t).1, (α t).2.1, (α t).2.2, 1, ask (α t)⟩
  have hpos : ∀ t, alongOf 0 0 0 (s t) = (α t).1 := fun t => by simp [alongOf, s]
  have hlane : ∀ t ∈ Icc 0 T, 0 ≤ alongOf 0 0 0 (s t) + 2 ∧ alongOf 0 0 0 (s t) + 2 + 8 ≤ 99 := fun t ht => by
    rw [hpos]
    have := (hin t ht).1
    constructor <;> linarith [this.1, this.2]
  have hst : ∀ t ∈ Icc 0 T, ((State.mk (some path)
      (some (rigid (Real.cos (s t).psi) (Real.sin (s t).psi) (s t).x (s t).y))
      (some (alongOf 0 0 0 (s t))) 10).desiredSteering minim (Param.fromGeo 3 1) = .ok (s t).delta ∨
    ((State.mk (some path) (some (rigid (Real.cos (s t).psi) (Real.sin (s t).psi) (s t).x (s t).y))
      (some (alongOf 0 0 0 (s t))) 10).desiredSteering minim (Param.fromGeo 3 1) = .error .zeroDiv ∧
        (s t).delta = 0)) ∧ Real.tan (s t).delta = 3 * kap (α t) := by
    intro t ht
    obtain ⟨-, i2, i3, i4⟩ := hin t ht
    have e2 : leftOf 0 0 0 (s t) = (α t).2.1 := by simp [leftOf, s]
    obtain ⟨k1, k2⟩ := tan_steer hm (p := Param.fromGeo 3 1) (ref := 10) hp (s t)
      (by have := (hlane t ht).1; exact this) (by rw [look_ex]; exact (hlane t ht).2)
      (by norm_num [Param.fromGeo]) (by rw [look_ex]; norm_num [Param.fromGeo]) (by norm_num [Param.fromGeo])
      (by norm_num [Param.fromGeo]) (by norm_num [Param.fromGeo]) (by norm_num [Param.fromGeo])
      (by rw [look_ex, e2]; linarith) (by
        rw [look_ex, e2]
        have e3 : (s t).psi - 0 = (α t).2.2 := sub_zero _
        rw [e3]
        change |(α t).2.1 - 1 * Real.sin (α t).2.2| ≤ _
        linarith) (by
        have e3 : (s t).psi - 0 = (α t).2.2 := sub_zero _
        rw [e3]; exact i4)
    have e4 : Keep.curv (lookahead (Param.fromGeo 3 1) 10) (Param.fromGeo 3 1).lr (1 / (2 * 10 ^ 9))
        (leftOf 0 0 0 (s t) - (Param.fromGeo 3 1).lr * Real.sin ((s t).psi - 0)) (Real.cos ((s t).psi - 0))
        (Real.sin ((s t).psi - 0)) = kap (α t) := by
      rw [look_ex, e2, sub_zero]
      rfl
    rw [e4] at k1 k2
    have hask : (s t).delta = match (State.mk (some path)
      (some (rigid (Real.cos (s t).psi) (Real.sin (s t).psi) (s t).x (s t).y)) (some (alongOf 0 0 0 (s t)))
      10).desiredSteering minim (Param.fromGeo 3 1) with
      | .ok δ => δ
      | .error _ => 0 := rfl
    by_cases hk : kap (α t) = 0
    · have k3 := k1 hk
      rw [k3] at hask
      refine ⟨Or.inr ⟨k3, hask⟩, ?_⟩
      rw [hask, hk, Real.tan_zero, mul_zero]
    · obtain ⟨δ, k3, k4⟩ := k2 hk
      rw [k3] at hask
      simp only at hask
      refine ⟨Or.inl (by rw [k3, hask]), ?_⟩
      rw [hask, k4]
      rfl
  refine ⟨T, s, hTp, ⟨fun t ht => zero_le_one, fun t ht => (hasDerivAt_id t).hasDerivWithinAt, rfl,
    fun t ht => ⟨(0, 0), fun i hi => ?_⟩, fun t ht => (hst t ht).1⟩, hlane, ?_, ?_, ?_⟩
  · have hk : (1 : ℝ) * Real.tan (s t).delta / 3 = kap (α t) := by rw [(hst t ht).2]; ring
    have hd := hder t ht
    interval_cases i
    · refine (HasFDerivAt.hasDerivAt hd.fst).hasDerivWithinAt.congr_deriv ?_
      change _ = 1 * Real.cos (α t).2.2 - 1 * Real.tan (s t).delta / 3 * 1 * Real.sin (α t).2.2
      rw [hk, one_mul]
      simp
    · refine (HasFDerivAt.hasDerivAt hd.snd.fst).hasDerivWithinAt.congr_deriv ?_
      change _ = 1 * Real.sin (α t).2.2 + 1 * Real.tan (s t).delta / 3 * 1 * Real.cos (α t).2.2
      rw [hk, one_mul]
      simp
    · refine (HasFDerivAt.hasDerivAt hd.snd.snd).hasDerivWithinAt.congr_deriv ?_
      change _ = 1 * Real.tan (s t).delta / 3
      rw [hk]
      simp
  · change (α 0).1 = 10; rw [h0]
  · change (α 0).2.1 = 1; rw [h0]
  · change (α 0).2.2 = 0; rw [h0]

/-- The hypotheses of **C122** are met: with the parameters of the code for a wheelbase of 3 and a rear axle 1 behind, at a
reference speed of 10 (lookahead 8), on a lane of length 100, from one metre beside the lane. -/
example : ∃ (minim : (ℝ → Except Err ℝ) → ℝ → ℝ → Except Err ℝ) (path : List CtrPoint) (T : ℝ) (s : ℝ → VehicleState ℝ),
    ExactSearch minim ∧ StraightOn path 0 0 0 0 99 ∧ 0 < T ∧
    (∀ veh, Pursuing minim (Param.fromGeo 3 1) veh path 0 0 0 10 T s id) ∧
    (∀ t ∈ Icc 0 T, 0 ≤ alongOf 0 0 0 (s t) + (Param.fromGeo 3 1).minDistance ∧
      alongOf 0 0 0 (s t) + (Param.fromGeo 3 1).minDistance + lookahead (Param.fromGeo 3 1) 10 ≤ 99) ∧
    |(s 0).psi - 0| < Real.pi / 2 ∧
    2 * (leftOf 0 0 0 (s 0) - 1 * Real.sin ((s 0).psi - 0)) ^ 2 / (8 * (8 + 1)) + Real.tan ((s 0).psi - 0) ^ 2 / 2 <
      8 ^ 2 / (6 * (8 * (8 + 1) + 2 * 1 ^ 2)) ∧ leftOf 0 0 0 (s 0) = 1 := by
  obtain ⟨minim, hm⟩ := exact_exists
  have hlane := C122_lane 0 0 0 (fun _ => 1) [100] (by norm_num) 99
  have hlen : laneLength (onLine 0 0 0 (fun _ => 1) [0, 100]) = 100 := by
    have := (C122_lane 0 0 0 (fun _ => 1) [100] (by norm_num) (laneLength (onLine 0 0 0 (fun _ => 1) [0, 100]) -
      max (1 / 10 ^ 9 * laneLength (onLine 0 0 0 (fun _ => 1) [0, 100])) (1 / 10 ^ 8) - 1) (by linarith)).2
    simpa using this
  rw [hlen] at hlane
  have hp := (hlane (by norm_num)).1
  obtain ⟨T, s, hT, hP, hl, hx, hy, hψ⟩ := drive_ex minim hm ⟨⟨0, 0, 0, 0⟩, 0, 0⟩ _ hp
  refine ⟨minim, _, T, s, hm, hp, hT, fun veh => ⟨hP.forward, hP.driven, hP.start, fun t ht => ?_, hP.steers⟩,
    fun t ht => ?_, ?_, ?_, ?_⟩
  · obtain ⟨u, hu⟩ := hP.moves t ht
    refine ⟨u, fun i hi => ?_⟩
    have := hu i hi
    interval_cases i <;> exact this
  · rw [look_ex]; exact hl t ht
  · rw [hψ]; simp [Real.pi_pos]
  · simp only [leftOf, hψ, hx, hy]
    norm_num
  · simp [leftOf, hy]

/-- And the line that the vehicle comes to is met by poses of that lane. -/
example (off : ℝ) : alongOf 0 0 0 ⟨10, off, 0, 1, 0⟩ = 10 ∧ leftOf 0 0 0 ⟨10, off, 0, 1, 0⟩ = off := by
  constructor <;> simp [alongOf, leftOf]

end Pursuit
end Verif
