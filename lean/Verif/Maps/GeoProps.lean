import Verif.Maps.Geo
import Mathlib.Tactic.FieldSimp
import Mathlib.Tactic.Linarith
import Mathlib.Tactic.LinearCombination
import Mathlib.Analysis.SpecialFunctions.Trigonometric.Bounds

/-!
# C56, C57: algebra of poses, conversion to polygons
-/

namespace Verif
namespace Maps

set_option linter.unusedSectionVars false

/-- Specification: a rigid motion of the plane (rotation and translation). -/
def IsRigid {K : Type} [Field K] (m : Mat3 K) : Prop :=
  ∃ c s x y, c ^ 2 + s ^ 2 = 1 ∧ m = rigid c s x y

section Alg
variable {K : Type} [Field K] [DecidableEq K]

namespace Mat3

theorem mul_assoc' (a b c : Mat3 K) : (a.mul b).mul c = a.mul (b.mul c) := by
  ext <;> simp only [mul] <;> ring

theorem one_mul' (a : Mat3 K) : one.mul a = a := by
  ext <;> simp [mul, one]

theorem mul_one' (a : Mat3 K) : a.mul one = a := by
  ext <;> simp [mul, one]

theorem cof_mul (m : Mat3 K) (h : m.det ≠ 0) : m.cof.mul m = one := by
  ext <;> simp only [mul, one, cof] <;> rw [div_mul_eq_mul_div, div_mul_eq_mul_div, div_mul_eq_mul_div,
    ← add_div, ← add_div] <;> first
    | (rw [div_eq_one_iff_eq h]; simp only [det]; ring)
    | (rw [div_eq_zero_iff]; left; ring)

theorem mul_cof (m : Mat3 K) (h : m.det ≠ 0) : m.mul m.cof = one := by
  ext <;> simp only [mul, one, cof] <;> rw [mul_div_assoc', mul_div_assoc', mul_div_assoc',
    ← add_div, ← add_div] <;> first
    | (rw [div_eq_one_iff_eq h]; simp only [det]; ring)
    | (rw [div_eq_zero_iff]; left; ring)

theorem det_mul (m n : Mat3 K) : (m.mul n).det = m.det * n.det := by
  simp only [det, mul]; ring

theorem cof_unique (m n : Mat3 K) (h : m.det ≠ 0) (hn : m.mul n = one) : n = m.cof := by
  rw [← one_mul' n, ← cof_mul m h, mul_assoc', hn, mul_one']

theorem cof_prod (m n : Mat3 K) (hm : m.det ≠ 0) (hn : n.det ≠ 0) :
    (m.mul n).cof = n.cof.mul m.cof := by
  symm
  apply cof_unique
  · rw [det_mul]; exact mul_ne_zero hm hn
  · rw [mul_assoc', ← mul_assoc' n, mul_cof n hn, one_mul', mul_cof m hm]

end Mat3

open Mat3

theorem rigid_det (c s x y : K) (h : c ^ 2 + s ^ 2 = 1) : (rigid c s x y).det = 1 := by
  simp only [rigid, det]; linear_combination h

theorem IsRigid.det_ne {m : Mat3 K} (h : IsRigid m) : m.det ≠ 0 := by
  obtain ⟨c, s, x, y, hc, rfl⟩ := h
  rw [rigid_det c s x y hc]; exact one_ne_zero

theorem IsRigid.mul {m n : Mat3 K} (hm : IsRigid m) (hn : IsRigid n) : IsRigid (m.mul n) := by
  obtain ⟨c, s, x, y, h, rfl⟩ := hm
  obtain ⟨c', s', x', y', h', rfl⟩ := hn
  refine ⟨c * c' - s * s', s * c' + c * s', c * x' - s * y' + x, s * x' + c * y' + y, ?_, ?_⟩
  · linear_combination (c' ^ 2 + s' ^ 2) * h + h'
  · ext <;> simp only [rigid, Mat3.mul] <;> ring

theorem rigid_cof (c s x y : K) (h : c ^ 2 + s ^ 2 = 1) :
    (rigid c s x y).cof = rigid c (-s) (-(c * x + s * y)) (s * x - c * y) := by
  symm
  apply cof_unique
  · rw [rigid_det c s x y h]; exact one_ne_zero
  · ext <;> simp only [rigid, Mat3.mul, one] <;> first
      | linear_combination h
      | linear_combination (-x) * h
      | linear_combination (-y) * h
      | (ring_nf; done)

theorem IsRigid.cof {m : Mat3 K} (h : IsRigid m) : IsRigid m.cof := by
  obtain ⟨c, s, x, y, hc, rfl⟩ := h
  rw [rigid_cof c s x y hc]
  exact ⟨_, _, _, _, by rw [neg_sq]; exact hc, rfl⟩

/-- **C56.** The relative pose is the unique one which composed with the base gives the pose; it exists
exactly for bases with an inverse, in particular for all rigid motions, and is then rigid if the pose
is. -/
theorem C56_relative (base pose : Mat3 K) :
    (∀ r, relativePose base pose = .ok r ↔ base.det ≠ 0 ∧ base.mul r = pose) ∧
    (IsRigid base → IsRigid pose → ∃ r, relativePose base pose = .ok r ∧ IsRigid r ∧
      base.mul r = pose) := by
  have key : ∀ r, relativePose base pose = .ok r ↔ base.det ≠ 0 ∧ base.mul r = pose := by
    intro r
    unfold relativePose inv
    split
    · rename_i e h
      split at h
      · rename_i hd
        simp [hd]
      · cases h
    · rename_i i h
      split at h
      · cases h
      · rename_i hd
        injection h with h
        subst h
        constructor
        · intro h
          injection h with h
          subst h
          exact ⟨hd, by rw [← mul_assoc', mul_cof _ hd, one_mul']⟩
        · rintro ⟨-, rfl⟩
          rw [← mul_assoc', cof_mul _ hd, one_mul']
  refine ⟨key, fun hb hp => ?_⟩
  refine ⟨base.cof.mul pose, (key _).mpr ⟨hb.det_ne, ?_⟩, hb.cof.mul hp, ?_⟩ <;>
    rw [← mul_assoc', mul_cof _ hb.det_ne, one_mul']

/-- **C56.** A pose relative to itself is the identity. -/
theorem C56_self (q : Mat3 K) (h : q.det ≠ 0) : relativePose q q = .ok one :=
  ((C56_relative q q).1 _).mpr ⟨h, mul_one' q⟩

/-- **C56.** Relative poses do not change under a common change of frame. -/
theorem C56_frame (g base pose : Mat3 K) (hg : g.det ≠ 0) :
    relativePose (g.mul base) (g.mul pose) = relativePose base pose := by
  by_cases hb : base.det = 0
  · have : (g.mul base).det = 0 := by rw [det_mul, hb, mul_zero]
    simp only [relativePose, inv, hb, this, if_true]
  · have hgb : (g.mul base).det ≠ 0 := by rw [det_mul]; exact mul_ne_zero hg hb
    simp only [relativePose, inv, hb, hgb, if_false]
    rw [cof_prod g base hg hb, mul_assoc', ← mul_assoc' g.cof, cof_mul g hg, one_mul']

/-- **C56.** Chaining relative poses. -/
theorem C56_chain (a b c rab rbc : Mat3 K) (h1 : relativePose a b = .ok rab)
    (h2 : relativePose b c = .ok rbc) : relativePose a c = .ok (rab.mul rbc) := by
  rw [(C56_relative _ _).1] at h1 h2 ⊢
  exact ⟨h1.1, by rw [← mul_assoc', h1.2, h2.2]⟩

/-- Squared distance of two points. -/
def sqDist (p q : K × K) : K := (p.1 - q.1) ^ 2 + (p.2 - q.2) ^ 2

/-- **C56.** `SE2_apply_T2`, `transform_xy` and `apply_SE2_to_shapely_geo` apply the same map, point by
point and in order (`transform_xy` raises for no points). -/
theorem C56_same_map (q : Mat3 K) :
    (∀ p, affine q.a00 q.a01 q.a10 q.a11 q.a02 q.a12 p = applyT2 q p) ∧
    (∀ ps, ps ≠ [] → transformXY q ps = .ok (ps.map (applyT2 q))) ∧
    (transformXY q ([] : List (K × K)) = .error .value) ∧
    (∀ g, applyGeo g q = g.map (applyT2 q)) := by
  have h1 : ∀ p, affine q.a00 q.a01 q.a10 q.a11 q.a02 q.a12 p = applyT2 q p := by
    intro p; simp [affine, applyT2]
  refine ⟨h1, fun ps h => ?_, ?_, fun g => ?_⟩
  · unfold transformXY
    rw [if_neg h]
    rfl
  · simp [transformXY]
  · unfold applyGeo
    rw [show affine q.a00 q.a01 q.a10 q.a11 q.a02 q.a12 = applyT2 q from funext h1]

/-- **C56.** The map of a rigid motion preserves distances and orientation, that of the product of two is
the composition, that of the identity the identity; so transforming a geometry by a product is
transforming it twice. -/
theorem C56_rigid_map (q r : Mat3 K) (hr : IsRigid r) :
    (IsRigid q → ∀ a b, sqDist (applyT2 q a) (applyT2 q b) = sqDist a b) ∧
    (IsRigid q → ∀ a b c : K × K,
      ((applyT2 q b).1 - (applyT2 q a).1) * ((applyT2 q c).2 - (applyT2 q a).2) -
        ((applyT2 q b).2 - (applyT2 q a).2) * ((applyT2 q c).1 - (applyT2 q a).1) =
      (b.1 - a.1) * (c.2 - a.2) - (b.2 - a.2) * (c.1 - a.1)) ∧
    (∀ p, applyT2 (q.mul r) p = applyT2 q (applyT2 r p)) ∧
    (∀ p, applyT2 (one : Mat3 K) p = p) ∧
    (∀ g, applyGeo g (q.mul r) = applyGeo (applyGeo g r) q) := by
  have hcomp : ∀ p, applyT2 (q.mul r) p = applyT2 q (applyT2 r p) := by
    intro p
    obtain ⟨c, s, x, y, -, rfl⟩ := hr
    simp only [applyT2, Mat3.mul, rigid]
    ext <;> ring
  refine ⟨?_, ?_, hcomp, fun p => by simp [applyT2, one], ?_⟩
  · rintro ⟨c, s, x, y, h, rfl⟩ a b
    simp only [sqDist, applyT2, rigid]
    linear_combination ((a.1 - b.1) ^ 2 + (a.2 - b.2) ^ 2) * h
  · rintro ⟨c, s, x, y, h, rfl⟩ a b d
    simp only [applyT2, rigid]
    linear_combination ((b.1 - a.1) * (d.2 - a.2) - (b.2 - a.2) * (d.1 - a.1)) * h
  · intro g
    rw [(C56_same_map (q.mul r)).2.2.2, (C56_same_map q).2.2.2, (C56_same_map r).2.2.2]
    have : applyT2 (q.mul r) = applyT2 q ∘ applyT2 r := funext hcomp
    rw [this]
    cases g <;> simp [Geo.map, Function.comp_def]

/-- The kind of a geometry and its lists of coordinates, for a polygon the exterior and then the holes. -/
def coordLists : Geo K → Nat × List (List (K × K))
  | .point p => (0, [[p]])
  | .lineString ps => (1, [ps])
  | .linearRing ps => (2, [ps])
  | .polygon e hs => (3, e :: hs)
  | .multi ps => (4, ps)

/-- **C56.** Transforming a geometry keeps its kind and moves each of its coordinates, those of the holes of
a polygon too. -/
theorem C56_coordinates (g : Geo K) (q : Mat3 K) :
    coordLists (applyGeo g q) = ((coordLists g).1, (coordLists g).2.map (List.map (applyT2 q))) := by
  rw [(C56_same_map q).2.2.2]
  cases g <;> simp [Geo.map, coordLists]

example : coordLists (applyGeo (.polygon [(0, 0), (4, 0), (0, 4)] [[(1, 1), (2, 1), (1, 2)]]) (rigid (0 : ℚ) 1 1 2)) =
    (3, [[(1, 2), (1, 6), (-3, 2)], [(0, 3), (0, 4), (-1, 3)]]) := by decide +kernel

/-- A quarter turn about (1, 2). -/
example : IsRigid (rigid (0 : ℚ) 1 1 2) ∧ applyT2 (rigid (0 : ℚ) 1 1 2) (3, 0) = (1, 5) ∧
    relativePose (rigid (0 : ℚ) 1 1 2) (rigid 1 0 1 5) = .ok (rigid 0 (-1) 3 0) := by
  refine ⟨⟨0, 1, 1, 2, by norm_num, rfl⟩, by decide +kernel, by decide +kernel⟩

end Alg

/-! ## Angles, logarithm, distances -/

open Mat3

theorem norm2_sq (x y : ℝ) : norm2 x y ^ 2 = x ^ 2 + y ^ 2 := Real.sq_sqrt (by positivity)

theorem norm2_nonneg (x y : ℝ) : 0 ≤ norm2 x y := Real.sqrt_nonneg _

theorem norm2_rot (c s x y : ℝ) (h : c ^ 2 + s ^ 2 = 1) :
    norm2 (c * x - s * y) (s * x + c * y) = norm2 x y := by
  unfold norm2
  congr 1
  linear_combination (x ^ 2 + y ^ 2) * h

theorem norm2_smul (a x y : ℝ) : norm2 (a * x) (a * y) = |a| * norm2 x y := by
  unfold norm2
  rw [show (a * x) ^ 2 + (a * y) ^ 2 = a ^ 2 * (x ^ 2 + y ^ 2) by ring,
    Real.sqrt_mul (sq_nonneg a), Real.sqrt_sq_eq_abs]

theorem norm2_eq_zero (x y : ℝ) : norm2 x y = 0 ↔ x = 0 ∧ y = 0 := by
  unfold norm2
  rw [Real.sqrt_eq_zero (by positivity)]
  constructor
  · intro h
    constructor <;> nlinarith [sq_nonneg x, sq_nonneg y]
  · rintro ⟨rfl, rfl⟩; ring

theorem atan2_spec (c s : ℝ) (h : c ^ 2 + s ^ 2 = 1) :
    Real.cos (atan2 s c) = c ∧ Real.sin (atan2 s c) = s ∧ -Real.pi < atan2 s c ∧
      atan2 s c ≤ Real.pi := by
  have hn : ‖(⟨c, s⟩ : ℂ)‖ = 1 := by
    rw [Complex.norm_def, Complex.normSq_mk, show c * c + s * s = 1 by linarith [h, sq c, sq s],
      Real.sqrt_one]
  have h0 : (⟨c, s⟩ : ℂ) ≠ 0 := by
    intro h'; rw [h', norm_zero] at hn; exact zero_ne_one hn
  refine ⟨?_, ?_, Complex.neg_pi_lt_arg _, Complex.arg_le_pi _⟩
  · unfold atan2; rw [Complex.cos_arg h0, hn]; simp
  · unfold atan2; rw [Complex.sin_arg, hn]; simp

theorem atan2_cos_sin (w : ℝ) (h1 : -Real.pi < w) (h2 : w ≤ Real.pi) :
    atan2 (Real.sin w) (Real.cos w) = w := by
  unfold atan2
  have : (⟨Real.cos w, Real.sin w⟩ : ℂ) = Complex.cos w + Complex.sin w * Complex.I := by
    apply Complex.ext <;> simp [Complex.cos_ofReal_re, Complex.sin_ofReal_re, Complex.cos_ofReal_im,
      Complex.sin_ofReal_im]
  rw [this, Complex.arg_cos_add_sin_mul_I ⟨h1, h2⟩]

theorem one_sub_cos_pos (w : ℝ) (h1 : -(2 * Real.pi) < w) (h2 : w < 2 * Real.pi) (h0 : w ≠ 0) :
    0 < 1 - Real.cos w := by
  have := Real.cos_le_one w
  rcases lt_or_eq_of_le this with h | h
  · linarith
  · exact absurd ((Real.cos_eq_one_iff_of_lt_of_lt h1 h2).mp h) h0

theorem exp_of_zero (t : Twist) (h : t.w = 0) : expSE2 t = rigid 1 0 t.vx t.vy := if_pos h

theorem exp_of_ne (t : Twist) (h : t.w ≠ 0) : expSE2 t = rigid (Real.cos t.w) (Real.sin t.w)
    ((Real.sin t.w * t.vx - (1 - Real.cos t.w) * t.vy) / t.w)
    (((1 - Real.cos t.w) * t.vx + Real.sin t.w * t.vy) / t.w) := if_neg h

theorem log_of_zero (c s x y : ℝ) (h : atan2 s c = 0) : logSE2 (rigid c s x y) = ⟨0, x, y⟩ := if_pos h

theorem log_of_ne (c s x y : ℝ) (h : atan2 s c ≠ 0) : logSE2 (rigid c s x y) =
    ⟨atan2 s c, atan2 s c / (2 * (1 - Real.cos (atan2 s c))) *
        (Real.sin (atan2 s c) * x + (1 - Real.cos (atan2 s c)) * y),
      atan2 s c / (2 * (1 - Real.cos (atan2 s c))) *
        (Real.sin (atan2 s c) * y - (1 - Real.cos (atan2 s c)) * x)⟩ := if_neg h

theorem asSE2_rigid (t : Transform) : IsRigid t.asSE2 :=
  ⟨_, _, _, _, by rw [add_comm]; exact Real.sin_sq_add_cos_sq _, rfl⟩

/-- **C56.** The identity is neutral for poses and points. -/
theorem C56_identity (q : Mat3 ℝ) (p : ℝ × ℝ) :
    Transform.identity.asSE2.mul q = q ∧ q.mul Transform.identity.asSE2 = q ∧
      applyT2 Transform.identity.asSE2 p = p := by
  have h : Transform.identity.asSE2 = one := by simp [Transform.asSE2, Transform.identity, rigid, one]
  rw [h]
  exact ⟨one_mul' q, mul_one' q, by simp [applyT2, one]⟩

/-- **C56.** Conversions between transforms and arrays: a rigid array is recovered exactly, and a
transform up to full turns of its angle (exactly when the angle is in `(-π, π]`). -/
theorem C56_convert (q : Mat3 ℝ) (hq : IsRigid q) (t : Transform) :
    (Transform.fromSE2 q).asSE2 = q ∧
    (Transform.fromSE2 t.asSE2).x = t.x ∧ (Transform.fromSE2 t.asSE2).y = t.y ∧
    (-Real.pi < (Transform.fromSE2 t.asSE2).theta ∧ (Transform.fromSE2 t.asSE2).theta ≤ Real.pi) ∧
    (∃ k : ℤ, (Transform.fromSE2 t.asSE2).theta = t.theta + k * (2 * Real.pi)) ∧
    (-Real.pi < t.theta → t.theta ≤ Real.pi → Transform.fromSE2 t.asSE2 = t) := by
  have hsc : Real.cos t.theta ^ 2 + Real.sin t.theta ^ 2 = 1 := Real.cos_sq_add_sin_sq _
  obtain ⟨h1, h2, h3, h4⟩ := atan2_spec _ _ hsc
  refine ⟨?_, rfl, rfl, ⟨h3, h4⟩, ?_, ?_⟩
  · obtain ⟨c, s, x, y, h, rfl⟩ := hq
    obtain ⟨h1, h2, -, -⟩ := atan2_spec c s h
    simp only [Transform.asSE2, Transform.fromSE2, rigid, h1, h2]
  · have : (Transform.fromSE2 t.asSE2).theta = atan2 (Real.sin t.theta) (Real.cos t.theta) := rfl
    rw [this]
    have ha : (Real.cos (atan2 (Real.sin t.theta) (Real.cos t.theta)) = Real.cos t.theta) ∧
      (Real.sin (atan2 (Real.sin t.theta) (Real.cos t.theta)) = Real.sin t.theta) := ⟨h1, h2⟩
    have := Real.Angle.cos_sin_inj h1 h2
    obtain ⟨k, hk⟩ := Real.Angle.angle_eq_iff_two_pi_dvd_sub.mp this
    exact ⟨k, by linarith⟩
  · intro g1 g2
    have : (Transform.fromSE2 t.asSE2).theta = t.theta := atan2_cos_sin _ g1 g2
    exact Transform.ext rfl rfl this

/-- **C56.** Exponential and logarithm are inverse: the logarithm of a rigid motion is a twist with angle
in `(-π, π]` whose exponential is the motion. -/
theorem C56_exp_log (g : Mat3 ℝ) (hg : IsRigid g) :
    expSE2 (logSE2 g) = g ∧ -Real.pi < (logSE2 g).w ∧ (logSE2 g).w ≤ Real.pi := by
  obtain ⟨c, s, x, y, h, rfl⟩ := hg
  obtain ⟨h1, h2, h3, h4⟩ := atan2_spec c s h
  by_cases h0 : atan2 s c = 0
  · rw [log_of_zero c s x y h0, exp_of_zero _ rfl]
    rw [h0, Real.cos_zero] at h1
    rw [h0, Real.sin_zero] at h2
    refine ⟨by rw [h1, h2], ?_, ?_⟩
    · exact neg_lt_zero.mpr Real.pi_pos
    · exact Real.pi_pos.le
  · have hp := one_sub_cos_pos (atan2 s c) (by linarith [Real.pi_pos]) (by linarith [Real.pi_pos]) h0
    rw [log_of_ne c s x y h0, exp_of_ne _ h0]
    refine ⟨?_, h3, h4⟩
    simp only [h1, h2]
    rw [h1] at hp
    have hx : 1 - c ≠ 0 := hp.ne'
    congr 1
    · field_simp
      linear_combination x * h
    · field_simp
      linear_combination y * h

/-- **C56.** Every twist with angle in `(-π, π]` is the logarithm of its exponential. -/
theorem C56_log_exp (t : Twist) (h1 : -Real.pi < t.w) (h2 : t.w ≤ Real.pi) :
    logSE2 (expSE2 t) = t := by
  by_cases h0 : t.w = 0
  · rw [exp_of_zero t h0, log_of_zero]
    · ext <;> simp [h0]
    · have := atan2_cos_sin 0 (by linarith [Real.pi_pos]) Real.pi_pos.le
      simpa using this
  · have ha := atan2_cos_sin t.w h1 h2
    rw [exp_of_ne t h0, log_of_ne _ _ _ _ (by rw [ha]; exact h0), ha]
    have hp := (one_sub_cos_pos t.w (by linarith [Real.pi_pos]) (by linarith [Real.pi_pos]) h0).ne'
    have hsc := Real.sin_sq_add_cos_sq t.w
    generalize Real.sin t.w = s at *
    generalize Real.cos t.w = c at *
    ext
    · rfl
    · simp only
      field_simp
      linear_combination t.vx * hsc
    · simp only
      field_simp
      linear_combination t.vy * hsc

theorem expSE2_rigid (t : Twist) : IsRigid (expSE2 t) := by
  unfold expSE2
  split
  · exact ⟨1, 0, _, _, by norm_num, rfl⟩
  · exact ⟨_, _, _, _, Real.cos_sq_add_sin_sq _, rfl⟩

/-- The exponentials of multiples of one twist compose by adding the factors. -/
theorem exp_add (t : Twist) (a b : ℝ) :
    (expSE2 (t.smul a)).mul (expSE2 (t.smul b)) = expSE2 (t.smul (a + b)) := by
  by_cases hw : t.w = 0
  · rw [exp_of_zero _ (by simp [Twist.smul, hw]), exp_of_zero _ (by simp [Twist.smul, hw]),
      exp_of_zero _ (by simp [Twist.smul, hw])]
    ext <;> simp only [rigid, Mat3.mul, Twist.smul] <;> ring
  by_cases ha : a = 0
  · subst ha
    rw [exp_of_zero (t.smul 0) (by simp [Twist.smul]), zero_add]
    rw [show rigid 1 0 (t.smul 0).vx (t.smul 0).vy = one by simp [rigid, one, Twist.smul], one_mul']
  by_cases hb : b = 0
  · subst hb
    rw [exp_of_zero (t.smul 0) (by simp [Twist.smul]), add_zero]
    rw [show rigid 1 0 (t.smul 0).vx (t.smul 0).vy = one by simp [rigid, one, Twist.smul], mul_one']
  rw [exp_of_ne (t.smul a) (mul_ne_zero ha hw), exp_of_ne (t.smul b) (mul_ne_zero hb hw)]
  by_cases hab : a + b = 0
  · have hba : b = -a := by linarith
    subst hba
    rw [exp_of_zero _ (by simp [Twist.smul])]
    have hsc := Real.sin_sq_add_cos_sq (a * t.w)
    simp only [Twist.smul]
    rw [neg_mul a, Real.sin_neg, Real.cos_neg]
    generalize Real.sin (a * t.w) = s at *
    generalize Real.cos (a * t.w) = c at *
    ext <;> simp only [rigid, Mat3.mul]
    · linear_combination hsc
    · ring
    · field_simp
      linear_combination (t.vy) * hsc
    · ring
    · linear_combination hsc
    · field_simp
      linear_combination (-t.vx) * hsc
    · ring
    · ring
    · ring
  · rw [exp_of_ne (t.smul (a + b)) (mul_ne_zero hab hw)]
    simp only [Twist.smul]
    rw [add_mul a b t.w, Real.sin_add, Real.cos_add]
    generalize Real.sin (a * t.w) = s at *
    generalize Real.cos (a * t.w) = c at *
    generalize Real.sin (b * t.w) = s' at *
    generalize Real.cos (b * t.w) = c' at *
    have hab' : a * t.w + b * t.w ≠ 0 := by rw [← add_mul]; exact mul_ne_zero hab hw
    ext <;> simp only [rigid, Mat3.mul]
    · ring
    · ring
    · field_simp
      ring
    · ring
    · ring
    · field_simp
      ring
    · ring
    · ring
    · ring

/-- Squared length of the linear part of the logarithm. -/
theorem norm_log (c s x y : ℝ) (h : c ^ 2 + s ^ 2 = 1) :
    let v := logSE2 (rigid c s x y)
    norm2 v.vx v.vy ^ 2 =
      if atan2 s c = 0 then x ^ 2 + y ^ 2 else atan2 s c ^ 2 / (2 * (1 - c)) * (x ^ 2 + y ^ 2) := by
  obtain ⟨h1, h2, h3, h4⟩ := atan2_spec c s h
  intro v
  rw [norm2_sq]
  by_cases h0 : atan2 s c = 0
  · rw [if_pos h0]; simp only [v, log_of_zero c s x y h0]
  · have hp := one_sub_cos_pos (atan2 s c) (by linarith [Real.pi_pos]) (by linarith [Real.pi_pos]) h0
    rw [h1] at hp
    rw [if_neg h0]
    simp only [v, log_of_ne c s x y h0, h1, h2]
    have hx : 1 - c ≠ 0 := hp.ne'
    field_simp
    linear_combination (x ^ 2 + y ^ 2) * h

theorem atan2_neg_sq (c s : ℝ) (h : c ^ 2 + s ^ 2 = 1) : atan2 (-s) c ^ 2 = atan2 s c ^ 2 := by
  obtain ⟨h1, h2, h3, h4⟩ := atan2_spec c s h
  rcases lt_or_eq_of_le h4 with h5 | h5
  · have := atan2_cos_sin (-atan2 s c) (by linarith) (by linarith)
    rw [Real.sin_neg, Real.cos_neg, h1, h2] at this
    rw [this, neg_sq]
  · rw [h5, Real.sin_pi] at h2
    rw [← h2, neg_zero]

/-- The pose of `q1` relative to `q0`, in coordinates. -/
theorem rel_rigid (q0 q1 : Mat3 ℝ) (h0 : IsRigid q0) (h1 : IsRigid q1) :
    ∃ c s x y, c ^ 2 + s ^ 2 = 1 ∧ q0.cof.mul q1 = rigid c s x y ∧ x ^ 2 + y ^ 2 = normBetween q0 q1 ^ 2 := by
  obtain ⟨c, s, x, y, h, rfl⟩ := h0
  obtain ⟨c', s', x', y', h', rfl⟩ := h1
  refine ⟨c * c' + s * s', c * s' - s * c', c * (x' - x) + s * (y' - y), c * (y' - y) - s * (x' - x),
    ?_, ?_, ?_⟩
  · linear_combination (c' ^ 2 + s' ^ 2) * h + h'
  · rw [rigid_cof c s x y h]
    ext <;> simp only [rigid, Mat3.mul] <;> ring
  · unfold normBetween
    rw [norm2_sq]
    simp only [rigid]
    linear_combination ((x' - x) ^ 2 + (y' - y) ^ 2) * h

/-- **C56.** Distances do not change under a common change of frame. -/
theorem C56_distance_frame (g q0 q1 : Mat3 ℝ) (hg : IsRigid g) (h0 : IsRigid q0) (h1 : IsRigid q1) :
    distSE2 (g.mul q0) (g.mul q1) = distSE2 q0 q1 ∧
    normBetween (g.mul q0) (g.mul q1) = normBetween q0 q1 := by
  constructor
  · unfold distSE2
    rw [cof_prod g q0 hg.det_ne h0.det_ne, mul_assoc', ← mul_assoc' g.cof, cof_mul g hg.det_ne, one_mul']
  · obtain ⟨c, s, x, y, h, rfl⟩ := hg
    obtain ⟨c0, s0, x0, y0, h0, rfl⟩ := h0
    obtain ⟨c1, s1, x1, y1, h1, rfl⟩ := h1
    unfold normBetween
    simp only [rigid, Mat3.mul]
    rw [← norm2_rot c s (x0 - x1) (y0 - y1) h]
    congr 1 <;> ring

/-- `2 (1 - cos w)` is the square of the chord of the angle `w`. -/
theorem chord_bounds (w : ℝ) (h1 : -Real.pi < w) (h2 : w ≤ Real.pi) :
    2 * (1 - Real.cos w) ≤ w ^ 2 ∧ w ^ 2 ≤ (Real.pi / 2) ^ 2 * (2 * (1 - Real.cos w)) := by
  constructor
  · linarith [Real.one_sub_sq_div_two_le_cos (x := w)]
  · have hc : 1 - Real.cos w = 2 * Real.sin (|w| / 2) ^ 2 := by
      have h2 := Real.cos_two_mul (|w| / 2)
      have h3 := Real.sin_sq_add_cos_sq (|w| / 2)
      rw [show 2 * (|w| / 2) = |w| by ring, Real.cos_abs] at h2
      linarith
    have ha : |w| ≤ Real.pi := abs_le.mpr ⟨h1.le, h2⟩
    have hs := Real.mul_le_sin (x := |w| / 2) (by positivity) (by linarith)
    have hpi := Real.pi_pos
    have h4 : |w| ≤ Real.pi * Real.sin (|w| / 2) := by
      have : Real.pi * (2 / Real.pi * (|w| / 2)) = |w| := by field_simp
      calc |w| = Real.pi * (2 / Real.pi * (|w| / 2)) := this.symm
        _ ≤ _ := mul_le_mul_of_nonneg_left hs hpi.le
    rw [hc, ← sq_abs w]
    calc |w| ^ 2 ≤ (Real.pi * Real.sin (|w| / 2)) ^ 2 := pow_le_pow_left₀ (abs_nonneg _) h4 2
      _ = _ := by ring

/-- **C56.** What the distance of two poses is: it is symmetric, zero exactly for equal positions, equal
to the Euclidean distance of the positions for equal headings and in general between the Euclidean
distance and π/2 times it (it is the length of the circular arc joining the poses). -/
theorem C56_distance (q0 q1 : Mat3 ℝ) (h0 : IsRigid q0) (h1 : IsRigid q1) :
    distSE2 q0 q1 = distSE2 q1 q0 ∧ (distSE2 q0 q1 = 0 ↔ q0.a02 = q1.a02 ∧ q0.a12 = q1.a12) ∧
    normBetween q0 q1 ≤ distSE2 q0 q1 ∧ distSE2 q0 q1 ≤ Real.pi / 2 * normBetween q0 q1 ∧
    (q0.a00 = q1.a00 → q0.a10 = q1.a10 → distSE2 q0 q1 = normBetween q0 q1) := by
  obtain ⟨c, s, x, y, h, hr, hn⟩ := rel_rigid q0 q1 h0 h1
  have hd : distSE2 q0 q1 ^ 2 = if atan2 s c = 0 then normBetween q0 q1 ^ 2
      else atan2 s c ^ 2 / (2 * (1 - c)) * normBetween q0 q1 ^ 2 := by
    unfold distSE2
    rw [hr]
    have := norm_log c s x y h
    simp only at this ⊢
    rw [this, hn]
  have hrev : q1.cof.mul q0 = rigid c (-s) (-(c * x + s * y)) (s * x - c * y) := by
    rw [← rigid_cof c s x y h, ← hr, cof_prod _ _ h0.cof.det_ne h1.det_ne]
    congr 1
    apply cof_unique _ _ h0.cof.det_ne
    exact cof_mul _ h0.det_ne
  have hneg := atan2_neg_sq c s h
  have hd' : distSE2 q1 q0 ^ 2 = distSE2 q0 q1 ^ 2 := by
    rw [hd]
    unfold distSE2
    rw [hrev]
    have := norm_log c (-s) (-(c * x + s * y)) (s * x - c * y) (by rw [neg_sq]; exact h)
    simp only at this ⊢
    rw [this, hneg, ← hn,
      show (-(c * x + s * y)) ^ 2 + (s * x - c * y) ^ 2 = x ^ 2 + y ^ 2 by
        linear_combination (x ^ 2 + y ^ 2) * h]
    have hiff : atan2 (-s) c = 0 ↔ atan2 s c = 0 := by
      constructor
      · intro h'; rw [h'] at hneg; exact pow_eq_zero_iff (two_ne_zero) |>.mp (by rw [← hneg]; ring)
      · intro h'; rw [h'] at hneg; exact pow_eq_zero_iff (two_ne_zero) |>.mp (by rw [hneg]; ring)
    by_cases hz : atan2 s c = 0
    · rw [if_pos hz, if_pos (hiff.mpr hz)]
    · rw [if_neg hz, if_neg (fun h => hz (hiff.mp h))]
  have hnn : 0 ≤ distSE2 q0 q1 := norm2_nonneg _ _
  have hnn' : 0 ≤ distSE2 q1 q0 := norm2_nonneg _ _
  have hnb : 0 ≤ normBetween q0 q1 := norm2_nonneg _ _
  obtain ⟨a1, a2, a3, a4⟩ := atan2_spec c s h
  have hlow : normBetween q0 q1 ≤ distSE2 q0 q1 := by
    apply le_of_sq_le_sq _ hnn
    rw [hd]
    by_cases hz : atan2 s c = 0
    · rw [if_pos hz]
    · rw [if_neg hz]
      have hp := one_sub_cos_pos _ (by linarith [Real.pi_pos]) (by linarith [Real.pi_pos]) hz
      have hb := (chord_bounds _ a3 a4).1
      rw [a1] at hp hb
      have : 1 ≤ atan2 s c ^ 2 / (2 * (1 - c)) := by
        rw [one_le_div (by linarith)]; exact hb
      nlinarith [sq_nonneg (normBetween q0 q1)]
  have hup : distSE2 q0 q1 ≤ Real.pi / 2 * normBetween q0 q1 := by
    apply le_of_sq_le_sq _ (by have := Real.pi_pos; positivity)
    rw [hd, mul_pow]
    by_cases hz : atan2 s c = 0
    · rw [if_pos hz]
      have : 1 ≤ (Real.pi / 2) ^ 2 := by
        have := Real.two_le_pi; nlinarith
      nlinarith [sq_nonneg (normBetween q0 q1)]
    · rw [if_neg hz]
      have hp := one_sub_cos_pos _ (by linarith [Real.pi_pos]) (by linarith [Real.pi_pos]) hz
      have hb := (chord_bounds _ a3 a4).2
      rw [a1] at hp hb
      apply mul_le_mul_of_nonneg_right _ (sq_nonneg _)
      rw [div_le_iff₀ (by linarith)]
      exact hb
  refine ⟨?_, ?_, hlow, hup, ?_⟩
  · exact ((sq_eq_sq₀ hnn' hnn).mp hd').symm
  · have hzero : normBetween q0 q1 = 0 ↔ q0.a02 = q1.a02 ∧ q0.a12 = q1.a12 := by
      unfold normBetween
      rw [norm2_eq_zero, sub_eq_zero, sub_eq_zero]
    rw [← hzero]
    constructor
    · intro h'; linarith
    · intro h'; rw [h'] at hup; linarith
  · intro e1 e2
    obtain ⟨c0, s0, x0, y0, k0, rfl⟩ := h0
    obtain ⟨c1, s1, x1, y1, k1, rfl⟩ := h1
    simp only [rigid] at e1 e2
    subst e1 e2
    rw [rigid_cof _ _ _ _ k0] at hr
    have hc := congrArg Mat3.a00 hr
    have hs := congrArg Mat3.a10 hr
    simp only [rigid, Mat3.mul] at hc hs
    have hc' : c = 1 := by linear_combination (-1 : ℝ) * hc + k0
    have hs' : s = 0 := by linear_combination (-1 : ℝ) * hs
    have hz : atan2 s c = 0 := by
      have := atan2_cos_sin 0 (by linarith [Real.pi_pos]) Real.pi_pos.le
      rw [hs', hc']; simpa using this
    rw [if_pos hz] at hd
    exact (sq_eq_sq₀ hnn hnb).mp hd

/-- **C56.** Interpolation of poses starts in the first and ends in the second, stays rigid, moves with
constant speed (the distance of two interpolated poses is proportional to the difference of the
parameters) and does not depend on the frame. -/
theorem C56_interpolate (q0 q1 : Mat3 ℝ) (h0 : IsRigid q0) (h1 : IsRigid q1) :
    interpSE2 q0 q1 0 = q0 ∧ interpSE2 q0 q1 1 = q1 ∧ (∀ a, IsRigid (interpSE2 q0 q1 a)) ∧
    (∀ a b, a ≤ b → b - a ≤ 1 →
      distSE2 (interpSE2 q0 q1 a) (interpSE2 q0 q1 b) = (b - a) * distSE2 q0 q1) ∧
    (∀ g, IsRigid g → ∀ a, interpSE2 (g.mul q0) (g.mul q1) a = g.mul (interpSE2 q0 q1 a)) := by
  have hrel : IsRigid (q0.cof.mul q1) := h0.cof.mul h1
  obtain ⟨e1, e2, e3⟩ := C56_exp_log _ hrel
  have hrig : ∀ a, IsRigid (interpSE2 q0 q1 a) := fun a => h0.mul (expSE2_rigid _)
  refine ⟨?_, ?_, hrig, ?_, ?_⟩
  · unfold interpSE2
    rw [exp_of_zero _ (by simp [Twist.smul])]
    rw [show rigid 1 0 ((logSE2 (q0.cof.mul q1)).smul 0).vx ((logSE2 (q0.cof.mul q1)).smul 0).vy = one
      by simp [rigid, one, Twist.smul], mul_one']
  · unfold interpSE2
    rw [show (logSE2 (q0.cof.mul q1)).smul 1 = logSE2 (q0.cof.mul q1) by simp [Twist.smul], e1,
      ← mul_assoc', mul_cof _ h0.det_ne, one_mul']
  · intro a b hab hab1
    set v := logSE2 (q0.cof.mul q1) with hv
    have hstep : (interpSE2 q0 q1 a).mul (expSE2 (v.smul (b - a))) = interpSE2 q0 q1 b := by
      unfold interpSE2
      rw [mul_assoc', ← hv, exp_add, add_sub_cancel]
    unfold distSE2
    rw [← hstep, ← mul_assoc', cof_mul _ (hrig a).det_ne, one_mul', ← hv]
    have hw1 : -Real.pi < (v.smul (b - a)).w := by
      simp only [Twist.smul]
      nlinarith [Real.pi_pos]
    have hw2 : (v.smul (b - a)).w ≤ Real.pi := by
      simp only [Twist.smul]
      nlinarith [Real.pi_pos]
    rw [C56_log_exp _ hw1 hw2]
    simp only [Twist.smul]
    rw [norm2_smul, abs_of_nonneg (by linarith)]
  · intro g hg a
    unfold interpSE2
    rw [cof_prod g q0 hg.det_ne h0.det_ne, mul_assoc' q0.cof, ← mul_assoc' g.cof,
      cof_mul g hg.det_ne, one_mul', mul_assoc']

/-- Two poses one ahead of the other, half a turn apart: the arc is longer than the straight line. -/
example : IsRigid (rigid (1 : ℝ) 0 0 0) ∧ IsRigid (rigid (-1 : ℝ) 0 0 2) :=
  ⟨⟨1, 0, 0, 0, by norm_num, rfl⟩, ⟨-1, 0, 0, 2, by norm_num, rfl⟩⟩

/-! ## C57 -/

section Poly
variable {K : Type} [Field K] [DecidableEq K]

theorem sPolygon2cr_ring (v : K × K) (vs : List (K × K)) :
    sPolygon2cr (v :: vs ++ [v]) = .ok (v :: vs) := by
  unfold sPolygon2cr
  rw [List.getLast?_append, List.getLast?_singleton, List.dropLast_concat]
  simp

/-- **C57.** A shapely polygon, whose exterior ring is `v₀ … vₖ v₀`, becomes the one polygon with the
vertices `v₀ … vₖ`: no vertex is lost and the closing vertex is not repeated. The inner rings are
ignored, so a polygon with holes becomes the filled one. -/
theorem C57_polygon (buffer : K × K → K × K → List (K × K)) (v : K × K) (vs : List (K × K))
    (holes : List (List (K × K))) :
    shapely2cr buffer (.polygon (v :: vs ++ [v]) holes) = .ok [v :: vs] := by
  simp only [shapely2cr, sPolygon2cr_ring]

/-- **C57.** A line string or linear ring becomes one polygon per segment, in order, each the buffered
segment without its closing vertex; lines with fewer than two points give none. -/
theorem C57_line (buffer : K × K → K × K → List (K × K)) (ring : K × K → K × K → List (K × K))
    (hb : ∀ a b, ∃ v vs, ring a b = v :: vs ∧ buffer a b = v :: vs ++ [v]) (ps : List (K × K)) :
    shapely2cr buffer (.lineString ps) = .ok ((ps.zip ps.tail).map fun s => ring s.1 s.2) ∧
    shapely2cr buffer (.linearRing ps) = shapely2cr buffer (.lineString ps) ∧
    ∀ out, shapely2cr buffer (.lineString ps) = .ok out → out.length = ps.length - 1 := by
  have hone : ∀ a b, sPolygon2cr (buffer a b) = .ok (ring a b) := by
    intro a b
    obtain ⟨v, vs, h1, h2⟩ := hb a b
    rw [h1, h2, sPolygon2cr_ring]
  have hzip : ∀ qs : List (K × K), qs.dropLast.zip qs.tail = qs.zip qs.tail := by
    intro qs
    apply List.ext_getElem?
    intro i
    simp only [List.getElem?_zip_eq_some, List.zip, List.getElem?_zipWith]
    rw [List.getElem?_dropLast]
    by_cases hi : i < qs.length - 1
    · rw [if_pos hi]
    · rw [if_neg hi]
      have : qs.tail[i]? = none := by
        rw [List.getElem?_eq_none]; simp; omega
      rw [this]
      cases qs[i]? <;> rfl
  have hm : ∀ l : List ((K × K) × (K × K)),
      l.mapM (fun s => sPolygon2cr (buffer s.1 s.2)) = (.ok (l.map fun s => ring s.1 s.2) : Except Err _) := by
    intro l
    induction l with
    | nil => rfl
    | cons a l ih =>
      rw [List.mapM_cons, ih, hone]
      rfl
  have hmain : shapely2cr buffer (.lineString ps) = .ok ((ps.zip ps.tail).map fun s => ring s.1 s.2) := by
    simp only [shapely2cr, sLine2cr]
    rw [hzip, hm]
  refine ⟨hmain, rfl, fun out h => ?_⟩
  rw [hmain] at h
  injection h with h
  subst h
  simp

/-- **C57.** Points and collections are rejected with `ValueError`. -/
theorem C57_other (buffer : K × K → K × K → List (K × K)) (p : K × K) (ps : List (List (K × K))) :
    shapely2cr buffer (.point p) = .error .value ∧ shapely2cr buffer (.multi ps) = .error .value :=
  ⟨rfl, rfl⟩

/-- A square, and a line of two segments (with a three-point buffer for illustration). -/
example : shapely2cr (K := ℚ) (fun a b => [a, b, (0, 0), a])
      (.polygon [(0, 0), (1, 0), (1, 1), (0, 1), (0, 0)] []) = .ok [[(0, 0), (1, 0), (1, 1), (0, 1)]] ∧
    shapely2cr (K := ℚ) (fun a b => [a, b, (0, 0), a]) (.lineString [(1, 1), (2, 2), (3, 3)]) =
      .ok [[(1, 1), (2, 2), (0, 0)], [(2, 2), (3, 3), (0, 0)]] := by
  constructor <;> decide +kernel

end Poly

end Maps
end Verif
