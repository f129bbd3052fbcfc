import Verif.Control.PurePursuit
import Verif.Maps.CenterProps
import Mathlib.Analysis.SpecialFunctions.Trigonometric.ArctanDeriv
import Mathlib.Analysis.Calculus.MeanValue

/-!
# Properties of pure pursuit (C68)
-/

namespace Verif
namespace Pursuit

open Maps

/-! ## Lookahead -/

/-- **C68.** The lookahead is always between its minimum and its maximum, is proportional to the speed in
between, and never decreases with the speed. -/
theorem C68_lookahead (p : Param) (h : p.lookMin ≤ p.lookMax) :
    (∀ v, p.lookMin ≤ lookahead p v ∧ lookahead p v ≤ p.lookMax) ∧
    (∀ v, p.lookMin ≤ p.kLook * v → p.kLook * v ≤ p.lookMax → lookahead p v = p.kLook * v) ∧
    (∀ v, p.kLook * v ≤ p.lookMin → lookahead p v = p.lookMin) ∧
    (∀ v, p.lookMax ≤ p.kLook * v → lookahead p v = p.lookMax) ∧
    (0 ≤ p.kLook → ∀ v w, v ≤ w → lookahead p v ≤ lookahead p w) := by
  refine ⟨fun v => ⟨le_npClip _ _ _ h, npClip_le _ _ _⟩, fun v h1 h2 => npClip_of_mem _ _ _ h1 h2,
    fun v h1 => ?_, fun v h1 => ?_, fun hk v w hvw =>
      npClip_mono _ _ (mul_le_mul_of_nonneg_left hvw hk)⟩
  · simp only [lookahead, npClip]
    rw [max_eq_right h1, min_eq_left h]
  · simp only [lookahead, npClip]
    exact min_eq_right (h1.trans (le_max_left _ _))

example : (Param.fromGeo 3 1).lookMin ≤ (Param.fromGeo 3 1).lookMax := by
  norm_num [Param.fromGeo]

/-! ## Which command is computed from which updates -/

/-- The last pose given in a history, with its progress. -/
def lastPose (ops : List Op) : Option (Mat3 ℝ × ℝ) :=
  (ops.filterMap fun o => match o with | .pose q a => some (q, a) | _ => none).getLast?

/-- The last path given in a history. -/
def lastPath (ops : List Op) : Option (List CtrPoint) :=
  (ops.filterMap fun o => match o with | .path c => some c | _ => none).getLast?

/-- The last speed given in a history. -/
def lastSpeed (ops : List Op) : Option ℝ :=
  (ops.filterMap fun o => match o with | .speed v => some v | _ => none).getLast?

theorem run_state (ops : List Op) :
    (State.run ops).pose = (lastPose ops).map (·.1) ∧
    (State.run ops).alongPath = (lastPose ops).map (·.2) ∧
    (State.run ops).path = lastPath ops ∧
    (State.run ops).speed = (lastSpeed ops).getD 0 := by
  induction ops using List.reverseRecOn with
  | nil => simp [State.run, State.init, lastPose, lastPath, lastSpeed]
  | append_singleton ops o ih =>
    obtain ⟨h1, h2, h3, h4⟩ := ih
    have e : State.run (ops ++ [o]) = (State.run ops).step o := by simp [State.run]
    rw [e]
    cases o <;>
      simp [State.step, State.updatePath, State.updatePose, State.updateSpeed, lastPose, lastPath,
        lastSpeed, List.filterMap_append] at h1 h2 h3 h4 ⊢ <;> simp_all

/-- What is assumed of the bounded minimiser: on functions that do not raise it returns a point within
the bounds. -/
def BoundedSearch (minim : (ℝ → Except Err ℝ) → ℝ → ℝ → Except Err ℝ) : Prop :=
  ∀ f lo hi, lo ≤ hi → (∀ x, ∃ y, f x = .ok y) → ∃ x, minim f lo hi = .ok x ∧ lo ≤ x ∧ x ≤ hi

theorem pointAt_total (path : List CtrPoint) (hne : path ≠ []) (x : ℝ) : ∃ g, pointAt path x = .ok g := by
  obtain ⟨b, hb⟩ := (C53_lane path hne).2.1 x
  obtain ⟨g, hg⟩ := (center_total path hne b).1
  exact ⟨g, by simp only [pointAt, hb, hg]⟩

/-- **C68.** The command is refused when no pose or no path was ever given; otherwise it is computed from
the last pose, path and speed (0 if none was given) for a goal on the center line of the path whose
progress is ahead of the vehicle by at least the minimum distance and at most the lookahead more. -/
theorem C68_command (minim : (ℝ → Except Err ℝ) → ℝ → ℝ → Except Err ℝ) (p : Param) (ops : List Op) :
    ((lastPose ops = none ∨ lastPath ops = none) →
      (State.run ops).desiredSteering minim p = .error .runtime) ∧
    (∀ q along path, lastPose ops = some (q, along) → lastPath ops = some path → path ≠ [] →
      BoundedSearch minim → 0 ≤ p.lookMin → p.lookMin ≤ p.lookMax →
      ∃ x goal, along + p.minDistance ≤ x ∧
        x ≤ along + p.minDistance + lookahead p ((lastSpeed ops).getD 0) ∧
        pointAt path x = .ok goal ∧
        (State.run ops).desiredSteering minim p = steeringTo p q goal ((lastSpeed ops).getD 0)) := by
  obtain ⟨h1, h2, h3, h4⟩ := run_state ops
  constructor
  · rintro (h | h)
    · rw [h] at h1
      simp only [State.desiredSteering, h1, Option.map_none]
    · rw [h] at h3
      unfold State.desiredSteering
      rw [h3]
      cases (State.run ops).pose <;> rfl
  · intro q along path hq hp hne hb hl0 hl1
    rw [hq] at h1 h2
    rw [hp] at h3
    simp only [Option.map_some] at h1 h2
    have hlk : 0 ≤ lookahead p ((lastSpeed ops).getD 0) :=
      hl0.trans ((C68_lookahead p hl1).1 _).1
    obtain ⟨x, hx, hx1, hx2⟩ := hb (goalPointError path q (lookahead p ((lastSpeed ops).getD 0)))
      (along + p.minDistance) (along + p.minDistance + lookahead p ((lastSpeed ops).getD 0))
      (by linarith) (fun x => by
        obtain ⟨g, hg⟩ := pointAt_total path hne x
        refine ⟨|normBetween q g - lookahead p ((lastSpeed ops).getD 0)|, ?_⟩
        simp only [goalPointError, hg])
    obtain ⟨goal, hgoal⟩ := pointAt_total path hne x
    refine ⟨x, goal, hx1, hx2, hgoal, ?_⟩
    simp only [State.desiredSteering, h1, h2, h3, h4, findGoalPoint, hx, hgoal]

/-- The hypotheses are met by a two-point lane, a pose on it, and the search that returns the lower
bound. -/
example : ∃ (ops : List Op) (q : Mat3 ℝ) (along : ℝ) (path : List CtrPoint),
    lastPose ops = some (q, along) ∧ lastPath ops = some path ∧ path ≠ [] ∧
    BoundedSearch (fun _ lo _ => .ok lo) ∧ 0 ≤ (Param.fromGeo 3 1).lookMin :=
  ⟨[.path [⟨⟨0, 0, 0⟩, 1⟩, ⟨⟨10, 0, 0⟩, 1⟩], .pose Mat3.one 1, .speed 5], Mat3.one, 1,
    [⟨⟨0, 0, 0⟩, 1⟩, ⟨⟨10, 0, 0⟩, 1⟩], rfl, rfl, by simp,
    fun _ lo hi h _ => ⟨lo, rfl, le_rfl, h⟩, by norm_num [Param.fromGeo]⟩

/-! ## The wheel angle -/

theorem sin_atan2_sub (x y c s : ℝ) (h : c ^ 2 + s ^ 2 = 1) (hd : norm2 x y ≠ 0) :
    Real.sin (atan2 y x - atan2 s c) = (c * y - s * x) / norm2 x y := by
  obtain ⟨hc, hs, -⟩ := atan2_spec c s h
  have hn : ‖(⟨x, y⟩ : ℂ)‖ = norm2 x y := by
    rw [Complex.norm_def, Complex.normSq_mk, norm2]; congr 1; ring
  have hz : (⟨x, y⟩ : ℂ) ≠ 0 := by
    intro h0; apply hd; rw [← hn, h0, norm_zero]
  have e1 : Real.sin (atan2 y x) = y / norm2 x y := by
    rw [atan2, Complex.sin_arg, hn]
  have e2 : Real.cos (atan2 y x) = x / norm2 x y := by
    rw [atan2, Complex.cos_arg hz, hn]
  rw [Real.sin_sub, e1, e2, hc, hs]
  field_simp

/-- **C68.** The wheel angle for a goal at `(lon, lat)` in the frame of the vehicle, at distance `d > 0`
from the rear axle: it raises exactly when `2 lat / d` is `-1e-9`, and otherwise is the angle whose
tangent is the wheelbase times `2 lat / d + 1e-9` over the lookahead. It is within `(-π/2, π/2)`. -/
theorem C68_steering (p : Param) (h0 : 0 < p.lookMin) (h1 : p.lookMin ≤ p.lookMax) (q goal : Mat3 ℝ)
    (hq : IsRigid q) (lon lat v d : ℝ) (hg : (goal.a02, goal.a12) = applyT2 q (lon, lat))
    (hd : d = norm2 (lon + p.lr) lat) (hpos : d ≠ 0) :
    (2 * lat / d = -1 / 10 ^ 9 → steeringTo p q goal v = .error .zeroDiv) ∧
    (2 * lat / d ≠ -1 / 10 ^ 9 → ∃ δ, steeringTo p q goal v = .ok δ ∧
      -(Real.pi / 2) < δ ∧ δ < Real.pi / 2 ∧
      Real.tan δ = p.length * (2 * lat / d + 1 / 10 ^ 9) / lookahead p v) := by
  obtain ⟨c, s, x, y, hcs, rfl⟩ := hq
  have hlk : 0 < lookahead p v := h0.trans_le ((C68_lookahead p h1).1 v).1
  have hsin : Real.sin (atan2 (goal.a12 - (applyT2 (rigid c s x y) (-p.lr, 0)).2)
      (goal.a02 - (applyT2 (rigid c s x y) (-p.lr, 0)).1) - atan2 s c) = lat / d := by
    injection hg with g1 g2
    have hx : goal.a02 - (applyT2 (rigid c s x y) (-p.lr, 0)).1 = c * (lon + p.lr) - s * lat := by
      rw [g1]; simp only [rigid, applyT2]; ring
    have hy : goal.a12 - (applyT2 (rigid c s x y) (-p.lr, 0)).2 = s * (lon + p.lr) + c * lat := by
      rw [g2]; simp only [rigid, applyT2]; ring
    have hn : norm2 (c * (lon + p.lr) - s * lat) (s * (lon + p.lr) + c * lat) = d := by
      rw [hd, norm2, norm2]; congr 1; linear_combination ((lon + p.lr) ^ 2 + lat ^ 2) * hcs
    rw [hx, hy, sin_atan2_sub _ _ c s hcs (by rw [hn]; exact hpos), hn]
    congr 1
    linear_combination lat * hcs
  have hden : 2 * (lat / d) = 2 * lat / d := by ring
  unfold steeringTo
  have ht : atan2 (rigid c s x y).a10 (rigid c s x y).a00 = atan2 s c := rfl
  simp only [ht, hsin, hden]
  constructor
  · intro h
    rw [if_pos (by rw [h, eps]; norm_num)]
  · intro h
    have hne : 2 * lat / d + eps ≠ 0 := by
      intro h'; apply h; rw [eps] at h'; linarith
    rw [if_neg hne, if_neg (div_ne_zero hlk.ne' hne)]
    refine ⟨_, rfl, Real.neg_pi_div_two_lt_arctan _, Real.arctan_lt_pi_div_two _, ?_⟩
    rw [Real.tan_arctan, eps]
    rw [eps] at hne
    field_simp

/-- A goal 4 m ahead and 3 m to the left. -/
example : ∃ q goal : Mat3 ℝ, IsRigid q ∧ (goal.a02, goal.a12) = applyT2 q (4, 3) ∧
    norm2 (4 + (Param.fromGeo 2 0).lr) 3 ≠ 0 ∧ 0 < (Param.fromGeo 2 0).lookMin :=
  ⟨rigid 1 0 0 0, rigid 1 0 4 3, ⟨1, 0, 0, 0, by norm_num, rfl⟩, by norm_num [rigid, applyT2], by
    rw [ne_eq, norm2_eq_zero]; norm_num, by norm_num [Param.fromGeo]⟩

/-- **C68.** The wheels turn towards the goal: left for goals on the left; right for goals more than
`5e-10 d` on the right. -/
theorem C68_side (p : Param) (h0 : 0 < p.lookMin) (h1 : p.lookMin ≤ p.lookMax) (hL : 0 < p.length)
    (q goal : Mat3 ℝ) (hq : IsRigid q) (lon lat v δ : ℝ)
    (hg : (goal.a02, goal.a12) = applyT2 q (lon, lat)) (hd : norm2 (lon + p.lr) lat ≠ 0)
    (hδ : steeringTo p q goal v = .ok δ) :
    (0 < δ ↔ -(norm2 (lon + p.lr) lat) / (2 * 10 ^ 9) < lat) ∧
    (δ < 0 ↔ lat < -(norm2 (lon + p.lr) lat) / (2 * 10 ^ 9)) := by
  have hlk : 0 < lookahead p v := h0.trans_le ((C68_lookahead p h1).1 v).1
  have hdp : 0 < norm2 (lon + p.lr) lat := lt_of_le_of_ne (norm2_nonneg _ _) (Ne.symm hd)
  obtain ⟨ha, hb⟩ := C68_steering p h0 h1 q goal hq lon lat v _ hg rfl hd
  have hne : 2 * lat / norm2 (lon + p.lr) lat ≠ -1 / 10 ^ 9 := by
    intro h; rw [ha h] at hδ; cases hδ
  obtain ⟨δ', h2, hl, hu, ht⟩ := hb hne
  rw [hδ] at h2
  injection h2 with h2
  subst h2
  have hδe : δ = Real.arctan (p.length * (2 * lat / norm2 (lon + p.lr) lat + 1 / 10 ^ 9) / lookahead p v) := by
    rw [← ht, Real.arctan_tan hl hu]
  have key : p.length * (2 * lat / norm2 (lon + p.lr) lat + 1 / 10 ^ 9) / lookahead p v =
      (p.length * 2 / (norm2 (lon + p.lr) lat * lookahead p v)) *
        (lat - -(norm2 (lon + p.lr) lat) / (2 * 10 ^ 9)) := by
    field_simp
    ring
  have hkp : 0 < p.length * 2 / (norm2 (lon + p.lr) lat * lookahead p v) := by positivity
  rw [hδe, key]
  constructor
  · rw [Real.arctan_pos, mul_pos_iff_of_pos_left hkp, sub_pos]
  · rw [Real.arctan_lt_zero, ← sub_neg (a := lat)]
    exact ⟨fun h => (pos_iff_neg_of_mul_neg h).mp hkp, fun h => mul_neg_of_pos_of_neg hkp h⟩

theorem arctan_add_le (u w : ℝ) : |Real.arctan u + Real.arctan w| ≤ |u + w| := by
  have := Convex.norm_image_sub_le_of_norm_deriv_le (𝕜 := ℝ) (f := Real.arctan) (s := Set.univ)
    (x := -w) (y := u) (C := 1) (fun x _ => Real.differentiable_arctan x) (fun x _ => by
      rw [Real.deriv_arctan, Real.norm_eq_abs, abs_of_nonneg (by positivity)]
      rw [div_le_one (by positivity)]
      nlinarith [sq_nonneg x]) convex_univ (Set.mem_univ _) (Set.mem_univ _)
  rw [Real.arctan_neg, sub_neg_eq_add, sub_neg_eq_add, one_mul, Real.norm_eq_abs, Real.norm_eq_abs] at this
  exact this

/-- **C68.** Goals mirrored at the vehicle axis give opposite wheel angles up to `2e-9` times wheelbase
over lookahead, and a goal straight ahead gives the angle zero up to half of that. -/
theorem C68_antisymmetric_partial (p : Param) (h0 : 0 < p.lookMin) (h1 : p.lookMin ≤ p.lookMax)
    (hL : 0 ≤ p.length) (q g1 g2 : Mat3 ℝ) (hq : IsRigid q) (lon lat v δ1 δ2 : ℝ)
    (hg1 : (g1.a02, g1.a12) = applyT2 q (lon, lat)) (hg2 : (g2.a02, g2.a12) = applyT2 q (lon, -lat))
    (hd : norm2 (lon + p.lr) lat ≠ 0)
    (hδ1 : steeringTo p q g1 v = .ok δ1) (hδ2 : steeringTo p q g2 v = .ok δ2) :
    |δ1 + δ2| ≤ 2 * (p.length / lookahead p v) / 10 ^ 9 ∧
    (lat = 0 → |δ1| ≤ (p.length / lookahead p v) / 10 ^ 9) := by
  have hlk : 0 < lookahead p v := h0.trans_le ((C68_lookahead p h1).1 v).1
  have hn : norm2 (lon + p.lr) (-lat) = norm2 (lon + p.lr) lat := by
    rw [norm2, norm2]; congr 1; ring
  set d := norm2 (lon + p.lr) lat with hdd
  have get : ∀ (g : Mat3 ℝ) (l δ : ℝ), (g.a02, g.a12) = applyT2 q (lon, l) → d = norm2 (lon + p.lr) l →
      steeringTo p q g v = .ok δ →
      δ = Real.arctan (p.length * (2 * l / d + 1 / 10 ^ 9) / lookahead p v) := by
    intro g l δ hg hdl hδ
    obtain ⟨ha, hb⟩ := C68_steering p h0 h1 q g hq lon l v d hg hdl hd
    have hne : 2 * l / d ≠ -1 / 10 ^ 9 := by
      intro h; rw [ha h] at hδ; cases hδ
    obtain ⟨δ', h2, hl, hu, ht⟩ := hb hne
    rw [hδ] at h2
    injection h2 with h2
    rw [h2, ← ht, Real.arctan_tan hl hu]
  have e1 := get g1 lat δ1 hg1 hdd hδ1
  have e2 := get g2 (-lat) δ2 hg2 hn.symm hδ2
  constructor
  · rw [e1, e2]
    refine (arctan_add_le _ _).trans (le_of_eq ?_)
    rw [show p.length * (2 * lat / d + 1 / 10 ^ 9) / lookahead p v +
      p.length * (2 * -lat / d + 1 / 10 ^ 9) / lookahead p v =
      2 * (p.length / lookahead p v) / 10 ^ 9 by ring]
    exact abs_of_nonneg (by positivity)
  · intro hl
    have := arctan_add_le (p.length * (2 * lat / d + 1 / 10 ^ 9) / lookahead p v) 0
    rw [Real.arctan_zero, add_zero, add_zero, ← e1] at this
    refine this.trans (le_of_eq ?_)
    rw [hl, show p.length * (2 * 0 / d + 1 / 10 ^ 9) / lookahead p v =
      p.length / lookahead p v / 10 ^ 9 by ring]
    exact abs_of_nonneg (by positivity)

/-- **C68 is false as stated**: for a goal exactly straight ahead the wheel angle is not zero, whatever
the (positive) wheelbase, lookahead and distance. -/
theorem C68_false_straight (p : Param) (h0 : 0 < p.lookMin) (h1 : p.lookMin ≤ p.lookMax)
    (hL : 0 < p.length) (q goal : Mat3 ℝ) (hq : IsRigid q) (lon v : ℝ)
    (hg : (goal.a02, goal.a12) = applyT2 q (lon, 0)) (hd : 0 < lon + p.lr) :
    ∃ δ, steeringTo p q goal v = .ok δ ∧ 0 < δ := by
  have hn : norm2 (lon + p.lr) 0 ≠ 0 := by
    rw [ne_eq, norm2_eq_zero]; intro h; exact hd.ne' h.1
  obtain ⟨δ, hδ, -⟩ := (C68_steering p h0 h1 q goal hq lon 0 v _ hg rfl hn).2 (by norm_num)
  refine ⟨δ, hδ, ((C68_side p h0 h1 hL q goal hq lon 0 v δ hg hn hδ).1).mpr ?_⟩
  have : 0 < norm2 (lon + p.lr) 0 := lt_of_le_of_ne (norm2_nonneg _ _) (Ne.symm hn)
  rw [neg_div]
  have : 0 < norm2 (lon + p.lr) 0 / (2 * 10 ^ 9) := by positivity
  linarith

/-- **C68.** The meaning of the angle: a goal at the lookahead distance from the rear axle lies, up to
the constant `1e-9`, on the circle that the rear axle describes with this wheel angle (radius wheelbase
over the tangent of the angle, tangent to the vehicle axis). -/
theorem C68_arc (p : Param) (h0 : 0 < p.lookMin) (h1 : p.lookMin ≤ p.lookMax) (hL : 0 < p.length)
    (q goal : Mat3 ℝ) (hq : IsRigid q) (lon lat v δ R : ℝ)
    (hg : (goal.a02, goal.a12) = applyT2 q (lon, lat))
    (hd : norm2 (lon + p.lr) lat = lookahead p v)
    (hδ : steeringTo p q goal v = .ok δ) (hR : R = p.length / Real.tan δ) :
    ((lon + p.lr) ^ 2 + (lat - R) ^ 2 - R ^ 2) * (2 * lat / lookahead p v + 1 / 10 ^ 9) =
      lookahead p v ^ 2 / 10 ^ 9 := by
  have hlk : 0 < lookahead p v := h0.trans_le ((C68_lookahead p h1).1 v).1
  obtain ⟨ha, hb⟩ := C68_steering p h0 h1 q goal hq lon lat v _ hg hd.symm hlk.ne'
  have hne : 2 * lat / lookahead p v ≠ -1 / 10 ^ 9 := by
    intro h; rw [ha h] at hδ; cases hδ
  obtain ⟨δ', h2, hl, hu, ht⟩ := hb hne
  rw [hδ] at h2
  injection h2 with h2
  subst h2
  have hden : 2 * lat / lookahead p v + 1 / 10 ^ 9 ≠ 0 := by
    intro h'; apply hne; linarith
  have hR' : R * (2 * lat / lookahead p v + 1 / 10 ^ 9) = lookahead p v := by
    rw [hR, ht]
    generalize 2 * lat / lookahead p v + 1 / 10 ^ 9 = z at hden ⊢
    field_simp
  have hsq : (lon + p.lr) ^ 2 + lat ^ 2 = lookahead p v ^ 2 := by
    rw [← hd, norm2_sq]
  have : (lon + p.lr) ^ 2 + (lat - R) ^ 2 - R ^ 2 = lookahead p v ^ 2 - 2 * lat * R := by
    rw [← hsq]; ring
  rw [this, sub_mul, mul_assoc (2 * lat), hR']
  field_simp
  ring

/-- **C68.** The parameters for a vehicle: the lookahead is between 3 and 30 metres, proportional to the speed in between,
and the wheel angle is that of the wheelbase of the vehicle for a goal seen from its rear axle. -/
theorem C68_vehicle (wheelbase lr : ℝ) (q goal : Mat3 ℝ) (hq : IsRigid q) (lon lat v d δ : ℝ)
    (hg : (goal.a02, goal.a12) = applyT2 q (lon, lat)) (hd : d = norm2 (lon + lr) lat) (hpos : d ≠ 0)
    (h : steeringTo (Param.fromGeo wheelbase lr) q goal v = .ok δ) :
    3 ≤ lookahead (Param.fromGeo wheelbase lr) v ∧ lookahead (Param.fromGeo wheelbase lr) v ≤ 30 ∧
    (15 / 4 ≤ v → v ≤ 75 / 2 → lookahead (Param.fromGeo wheelbase lr) v = 4 / 5 * v) ∧
    Real.tan δ = wheelbase * (2 * lat / d + 1 / 10 ^ 9) / lookahead (Param.fromGeo wheelbase lr) v := by
  have h0 : 0 < (Param.fromGeo wheelbase lr).lookMin := by norm_num [Param.fromGeo]
  have h1 : (Param.fromGeo wheelbase lr).lookMin ≤ (Param.fromGeo wheelbase lr).lookMax := by
    norm_num [Param.fromGeo]
  obtain ⟨l1, l2⟩ := (C68_lookahead (Param.fromGeo wheelbase lr) h1).1 v
  refine ⟨l1, l2, fun v1 v2 => ?_, ?_⟩
  · unfold lookahead
    rw [npClip_of_mem]
    · norm_num [Param.fromGeo]
    · simp only [Param.fromGeo]; linarith
    · simp only [Param.fromGeo]; linarith
  · obtain ⟨a, b⟩ := C68_steering (Param.fromGeo wheelbase lr) h0 h1 q goal hq lon lat v d hg hd hpos
    by_cases he : 2 * lat / d = -1 / 10 ^ 9
    · rw [a he] at h; cases h
    · obtain ⟨δ', e1, -, -, e2⟩ := b he
      rw [h] at e1
      injection e1 with e1
      rw [e1]
      exact e2

example : ∃ δ, steeringTo (Param.fromGeo 3 1) (rigid 1 0 0 0) (rigid 1 0 8 0) 10 = .ok δ :=
  (C68_false_straight (Param.fromGeo 3 1) (by norm_num [Param.fromGeo]) (by norm_num [Param.fromGeo])
    (by norm_num [Param.fromGeo]) (rigid 1 0 0 0) (rigid 1 0 8 0) ⟨1, 0, 0, 0, by norm_num, rfl⟩ 8 10 (by simp [rigid, applyT2])
    (by norm_num [Param.fromGeo])).imp fun _ h => h.1

end Pursuit
end Verif
