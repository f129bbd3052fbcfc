import Verif.Phys.BicycleFloat
import Verif.Phys.LimitProps
import Verif.Seq.FloatRel

/-!
# The discrete bicycle model in floating point (C143)
-/

namespace Verif
namespace Phys

variable {r : ℚ → ℚ}

/-! ## Clipping -/

theorem clip_mono {a b lo hi : ℚ} (h : a ≤ b) : clip a lo hi ≤ clip b lo hi :=
  min_le_min (max_le_max h le_rfl) le_rfl

theorem clip_lip (a b lo hi : ℚ) : |clip a lo hi - clip b lo hi| ≤ |a - b| :=
  (abs_min_sub_min_le_max _ _ _ _).trans (by
    rw [sub_self, abs_zero, max_eq_left (abs_nonneg _)]
    refine (abs_max_sub_max_le_max _ _ _ _).trans ?_
    rw [sub_self, abs_zero, max_eq_left (abs_nonneg _)])

theorem clip_neg (hi a : ℚ) (h : 0 ≤ hi) : clip (-a) (-hi) hi = -clip a (-hi) hi := by
  unfold clip
  rcases le_total a hi with h1 | h1 <;> rcases le_total (-hi) a with h2 | h2 <;>
    rcases le_total (-a) hi with h3 | h3 <;> rcases le_total (-hi) (-a) with h4 | h4 <;>
    simp only [max_eq_left, max_eq_right, min_eq_left, min_eq_right, h1, h2, h3, h4,
      (by linarith : -hi ≤ hi)] <;> linarith

theorem clip_id {a lo hi : ℚ} (h1 : lo ≤ a) (h2 : a ≤ hi) : clip a lo hi = a := by
  unfold clip
  rw [max_eq_left h1, min_eq_left h2]

/-! ## C143 -/

/-- **C143.** Whatever the rounding, the state, the command, the step and the values returned for sine, cosine and
tangent: speed and steering angle end within their limits, exactly. -/
theorem C143_admissible (r : ℚ → ℚ) (T : Trig ℚ) (wb lr : ℚ) (p : VehicleParams ℚ) (hp : p.Valid) (x0 : VehicleState ℚ)
    (u : ℚ × ℚ) (dt : ℚ) : Admissible p (bicycleStepF r T wb lr p x0 u dt) := by
  have h1 := fun a => clip_clamp hp.base.vx.le a
  have h2 := fun a => clip_clamp (show -p.deltaMax ≤ p.deltaMax by linarith [hp.delta]) a
  exact ⟨⟨(h1 _).1, (h1 _).2.1⟩, ⟨(h2 _).1, (h2 _).2.1⟩⟩

/-- Specification: the yaw rate of the kinematic bicycle. -/
def yawRate (T : Trig ℚ) (wb : ℚ) (x : VehicleState ℚ) : ℚ := x.vx * T.tan x.delta / wb

set_option maxHeartbeats 1000000 in
/-- **C143.** One step in floats is the exact step (with the same values of sine, cosine and tangent) up to `2⁻⁴⁹` of the
magnitudes that are added: the coordinate and the way travelled, the angle and the turn, the speed and its change. -/
theorem C143_near (hr : RoundLaws r) (T : Trig ℚ) (wb lr : ℚ) (p : VehicleParams ℚ) (x0 : VehicleState ℚ) (u : ℚ × ℚ)
    (dt : ℚ) :
    let x := bicycleStep T wb lr p x0 u dt
    let y := bicycleStepF r T wb lr p x0 u dt
    let w := |yawRate T wb x0|
    |y.x - x.x| ≤ (|x0.x| + (|x0.vx| * |T.cos x0.psi| + w * |lr| * |T.sin x0.psi|) * |dt|) / 2 ^ 49 ∧
    |y.y - x.y| ≤ (|x0.y| + (|x0.vx| * |T.sin x0.psi| + w * |lr| * |T.cos x0.psi|) * |dt|) / 2 ^ 49 ∧
    |y.psi - x.psi| ≤ (|x0.psi| + w * |dt|) / 2 ^ 49 ∧
    |y.vx - x.vx| ≤ (|x0.vx| + |clip u.1 p.accMin p.accMax| * |dt|) / 2 ^ 50 ∧
    |y.delta - x.delta| ≤ (|x0.delta| + |clip u.2 (-p.ddeltaMax) p.ddeltaMax| * |dt|) / 2 ^ 50 := by
  intro x y w
  have S := fun a => Rel.self a
  have hdt : Rel 1 (r dt) dt |dt| := (S dt).round hr
  have hw : Rel 2 (r (r (x0.vx * T.tan x0.delta) / wb)) (yawRate T wb x0) w := by
    have h := (((((S x0.vx).mul (S (T.tan x0.delta))).round hr).divc wb).round hr)
    have e : w = |x0.vx| * |T.tan x0.delta| / |wb| := by
      show |x0.vx * T.tan x0.delta / wb| = _
      rw [abs_div, abs_mul]
    rw [e]; exact h
  have hdy : Rel 3 (r (r (r (x0.vx * T.tan x0.delta) / wb) * lr)) (yawRate T wb x0 * lr) (w * |lr|) :=
    ((hw.mul (S lr)).round hr)
  have fin : ∀ {k : ℕ} {a A M : ℚ}, Rel k a A M → k ≤ 8 → |a - A| ≤ M / 2 ^ 49 := by
    intro k a A M h hk
    have h1 := (h.mono hk).bound (by norm_num)
    refine h1.trans (le_of_eq ?_)
    norm_num; ring
  have fin4 : ∀ {k : ℕ} {a A M : ℚ}, Rel k a A M → k ≤ 4 → |a - A| ≤ M / 2 ^ 50 := by
    intro k a A M h hk
    have h1 := (h.mono hk).bound (by norm_num)
    refine h1.trans (le_of_eq ?_)
    norm_num; ring
  refine ⟨?_, ?_, ?_, ?_, ?_⟩
  · have h1 : Rel 4 (r (x0.vx * T.cos x0.psi)) (x0.vx * T.cos x0.psi) (|x0.vx| * |T.cos x0.psi|) :=
      (((S x0.vx).mul (S (T.cos x0.psi))).round hr).mono (by norm_num)
    have h2 := (hdy.mul (S (T.sin x0.psi))).round hr
    have h3 := (((h1.sub h2).round hr).mul hdt).round hr
    exact fin (((S x0.x).mono (by norm_num) |>.add h3).round hr) (by norm_num)
  · have h1 : Rel 4 (r (x0.vx * T.sin x0.psi)) (x0.vx * T.sin x0.psi) (|x0.vx| * |T.sin x0.psi|) :=
      (((S x0.vx).mul (S (T.sin x0.psi))).round hr).mono (by norm_num)
    have h2 := (hdy.mul (S (T.cos x0.psi))).round hr
    have h3 := (((h1.add h2).round hr).mul hdt).round hr
    exact fin (((S x0.y).mono (by norm_num) |>.add h3).round hr) (by norm_num)
  · have h3 := (hw.mul hdt).round hr
    exact fin (((S x0.psi).mono (by norm_num) |>.add h3).round hr) (by norm_num)
  · have h3 := ((S (clip u.1 p.accMin p.accMax)).mul hdt).round hr
    exact (clip_lip _ _ _ _).trans (fin4 (((S x0.vx).mono (by norm_num) |>.add h3).round hr) (by norm_num))
  · have h3 := ((S (clip u.2 (-p.ddeltaMax) p.ddeltaMax)).mul hdt).round hr
    exact (clip_lip _ _ _ _).trans (fin4 (((S x0.delta).mono (by norm_num) |>.add h3).round hr) (by norm_num))

/-- **C143.** More acceleration never gives less speed, and a faster vehicle never becomes the slower one; the same for
steering. -/
theorem C143_mono (hr : RoundLaws r) (T T' : Trig ℚ) (wb lr : ℚ) (p : VehicleParams ℚ) (x0 y0 : VehicleState ℚ)
    (u v : ℚ × ℚ) (dt : ℚ) (hdt : 0 ≤ dt) :
    (x0.vx ≤ y0.vx → u.1 ≤ v.1 →
      (bicycleStepF r T wb lr p x0 u dt).vx ≤ (bicycleStepF r T' wb lr p y0 v dt).vx) ∧
    (x0.delta ≤ y0.delta → u.2 ≤ v.2 →
      (bicycleStepF r T wb lr p x0 u dt).delta ≤ (bicycleStepF r T' wb lr p y0 v dt).delta) := by
  have hd : 0 ≤ r dt := hr.nonneg hdt
  constructor
  · intro h1 h2
    refine clip_mono (hr.mono _ _ (add_le_add h1 (hr.mono _ _ ?_)))
    exact mul_le_mul_of_nonneg_right (clip_mono h2) hd
  · intro h1 h2
    refine clip_mono (hr.mono _ _ (add_le_add h1 (hr.mono _ _ ?_)))
    exact mul_le_mul_of_nonneg_right (clip_mono h2) hd

/-- Specification: the five numbers are floats. -/
def Floats (r : ℚ → ℚ) (x : VehicleState ℚ) : Prop :=
  r x.x = x.x ∧ r x.y = x.y ∧ r x.psi = x.psi ∧ r x.vx = x.vx ∧ r x.delta = x.delta

/-- Specification: the limits allow zero commands. -/
def Rests (p : VehicleParams ℚ) : Prop := (p.accMin ≤ 0 ∧ 0 ≤ p.accMax) ∧ 0 ≤ p.ddeltaMax

/-- **C143.** Without acceleration the speed stays the same bit by bit, without steering the steering angle. -/
theorem C143_hold (hr : RoundLaws r) (T : Trig ℚ) (wb lr : ℚ) (p : VehicleParams ℚ) (hp : Rests p) (x0 : VehicleState ℚ)
    (hf : Floats r x0) (hx : Admissible p x0) (u : ℚ × ℚ) (dt : ℚ) :
    (u.1 = 0 → (bicycleStepF r T wb lr p x0 u dt).vx = x0.vx) ∧
    (u.2 = 0 → (bicycleStepF r T wb lr p x0 u dt).delta = x0.delta) := by
  constructor
  · intro h
    show clip (r (x0.vx + r (clip u.1 p.accMin p.accMax * r dt))) p.vxMin p.vxMax = _
    rw [h, clip_id hp.1.1 hp.1.2, zero_mul, hr.zero, add_zero, hf.2.2.2.1, clip_id hx.1.1 hx.1.2]
  · intro h
    show clip (r (x0.delta + r (clip u.2 (-p.ddeltaMax) p.ddeltaMax * r dt))) (-p.deltaMax) p.deltaMax = _
    rw [h, clip_id (by linarith [hp.2]) hp.2, zero_mul, hr.zero, add_zero, hf.2.2.2.2, clip_id hx.2.1 hx.2.2]

/-- **C143.** A standing vehicle stays where it is and keeps its direction bit by bit, whatever the steering does. -/
theorem C143_standing (hr : RoundLaws r) (T : Trig ℚ) (wb lr : ℚ) (p : VehicleParams ℚ) (x0 : VehicleState ℚ)
    (hf : Floats r x0) (hv : x0.vx = 0) (u : ℚ × ℚ) (dt : ℚ) :
    (bicycleStepF r T wb lr p x0 u dt).x = x0.x ∧ (bicycleStepF r T wb lr p x0 u dt).y = x0.y ∧
      (bicycleStepF r T wb lr p x0 u dt).psi = x0.psi := by
  have hz := hr.zero
  refine ⟨?_, ?_, ?_⟩ <;>
    simp [bicycleStepF, addF, mulF, bicycleRateF, hv, hz, hf.1, hf.2.1, hf.2.2.1]

/-- **C143.** A vehicle that steers straight on keeps its direction bit by bit. -/
theorem C143_straight (hr : RoundLaws r) (T : Trig ℚ) (wb lr : ℚ) (p : VehicleParams ℚ) (x0 : VehicleState ℚ)
    (hf : Floats r x0) (ht : T.tan x0.delta = 0) (u : ℚ × ℚ) (dt : ℚ) :
    (bicycleStepF r T wb lr p x0 u dt).psi = x0.psi := by
  simp [bicycleStepF, addF, mulF, bicycleRateF, ht, hr.zero, hf.2.2.1]

/-- Specification: the mirror image. -/
def mirrorQ (s : VehicleState ℚ) : VehicleState ℚ := ⟨s.x, -s.y, -s.psi, s.vx, -s.delta⟩

/-- **C143.** Left and right are treated alike, bit by bit. -/
theorem C143_mirror (hodd : ∀ x, r (-x) = -r x) (T : Trig ℚ) (hs : ∀ x, T.sin (-x) = -T.sin x)
    (hc : ∀ x, T.cos (-x) = T.cos x) (ht : ∀ x, T.tan (-x) = -T.tan x) (wb lr : ℚ) (p : VehicleParams ℚ) (hp : p.Valid)
    (x0 : VehicleState ℚ) (u : ℚ × ℚ) (dt : ℚ) :
    bicycleStepF r T wb lr p (mirrorQ x0) (u.1, -u.2) dt = mirrorQ (bicycleStepF r T wb lr p x0 u dt) := by
  have n1 : ∀ a b, r (-a + -b) = -r (a + b) := fun a b => by rw [← hodd]; congr 1; ring
  simp only [bicycleStepF, addF, mulF, bicycleRateF, mirrorQ, hs, hc, ht, clip_neg _ _ hp.ddelta.le, mul_neg, neg_mul,
    hodd, neg_div, neg_neg, n1, clip_neg _ _ hp.delta.le]

/-- **C143.** An acceleration that changes the speed by more than `2⁻⁵¹` of itself is never lost. -/
theorem C143_accelerates (hr : RoundLaws r) (T : Trig ℚ) (wb lr : ℚ) (p : VehicleParams ℚ) (x0 : VehicleState ℚ)
    (u : ℚ × ℚ) (dt : ℚ) (hdt : 0 < dt) (hfd : r dt = dt) (hu : p.accMin ≤ u.1 ∧ u.1 ≤ p.accMax)
    (hv : p.vxMin ≤ x0.vx ∧ x0.vx < p.vxMax) (hpos : 0 < u.1) (hbig : |x0.vx| / 2 ^ 51 ≤ u.1 * dt) :
    x0.vx < (bicycleStepF r T wb lr p x0 u dt).vx := by
  show _ < clip (r (x0.vx + r (clip u.1 p.accMin p.accMax * r dt))) p.vxMin p.vxMax
  rw [clip_id hu.1 hu.2, hfd]
  have hq : 0 < u.1 * dt := mul_pos hpos hdt
  have n1 := hr.near (u.1 * dt)
  rw [abs_of_pos hq] at n1
  have n2 := hr.near (x0.vx + r (u.1 * dt))
  have n1' := abs_le.mp n1
  set a := r (u.1 * dt) with ha
  have ha0 : 0 < a := hr.pos hq
  have n3 : |x0.vx + a| ≤ |x0.vx| + a := (abs_add_le _ _).trans (by rw [abs_of_pos ha0])
  have n2' := abs_le.mp n2
  have key : x0.vx < r (x0.vx + a) := by
    norm_num at hbig
    linarith [n1'.1, n2'.1]
  exact lt_min (lt_of_lt_of_le key (le_max_left _ _)) hv.2

/-! ## Roll-outs -/

/-- A roll-out in floats. -/
def rolloutF (r : ℚ → ℚ) (T : Trig ℚ) (wb lr : ℚ) (p : VehicleParams ℚ) (x0 : VehicleState ℚ) :
    List ((ℚ × ℚ) × ℚ) → List (VehicleState ℚ)
  | [] => []
  | (u, dt) :: us =>
    bicycleStepF r T wb lr p x0 u dt :: rolloutF r T wb lr p (bicycleStepF r T wb lr p x0 u dt) us

theorem rolloutF_near (hr : RoundLaws r) (T T' : Trig ℚ) (wb lr : ℚ) (p : VehicleParams ℚ) (hp : p.Valid) (V A h : ℚ)
    (hV : |p.vxMin| ≤ V ∧ |p.vxMax| ≤ V) (hA : |p.accMin| ≤ A ∧ |p.accMax| ≤ A) (us : List ((ℚ × ℚ) × ℚ)) :
    ∀ (x0 y0 : VehicleState ℚ), Admissible p y0 → (∀ q ∈ us, |q.2| ≤ h) → ∀ e f, |y0.vx - x0.vx| ≤ e →
      |y0.delta - x0.delta| ≤ f → ∀ (i : ℕ) (x y : VehicleState ℚ), (rollout T' wb lr p x0 us)[i]? = some x →
      (rolloutF r T wb lr p y0 us)[i]? = some y →
      |y.vx - x.vx| ≤ e + (i + 1) * ((V + A * h) / 2 ^ 50) ∧
      |y.delta - x.delta| ≤ f + (i + 1) * ((p.deltaMax + p.ddeltaMax * h) / 2 ^ 50) := by
  induction us with
  | nil => intro _ _ _ _ _ _ _ _ i x y hx; simp [rollout] at hx
  | cons q us ih =>
    obtain ⟨u, dt⟩ := q
    intro x0 y0 hy hq e f he hf i x y hx hy'
    have hdt : |dt| ≤ h := hq (u, dt) (by simp)
    have near := C143_near hr T wb lr p y0 u dt
    obtain ⟨-, -, -, n1, n2⟩ := near
    have ca := clip_clamp hp.base.acc.le u.1
    have cd := clip_clamp (show -p.ddeltaMax ≤ p.ddeltaMax by linarith [hp.ddelta]) u.2
    have a1 : |clip u.1 p.accMin p.accMax| ≤ A := (abs_le_max_abs_abs ca.1 ca.2.1).trans (max_le hA.1 hA.2)
    have a2 : |clip u.2 (-p.ddeltaMax) p.ddeltaMax| ≤ p.ddeltaMax := abs_le.mpr ⟨cd.1, cd.2.1⟩
    have a3 : |y0.vx| ≤ V := (abs_le_max_abs_abs hy.1.1 hy.1.2).trans (max_le hV.1 hV.2)
    have a4 : |y0.delta| ≤ p.deltaMax := abs_le.mpr hy.2
    have m1 : |clip u.1 p.accMin p.accMax| * |dt| ≤ A * h := mul_le_mul a1 hdt (abs_nonneg _) ((abs_nonneg _).trans a1)
    have m2 : |clip u.2 (-p.ddeltaMax) p.ddeltaMax| * |dt| ≤ p.ddeltaMax * h :=
      mul_le_mul a2 hdt (abs_nonneg _) hp.ddelta.le
    have b1 : |(bicycleStepF r T wb lr p y0 u dt).vx - (bicycleStep T' wb lr p x0 u dt).vx| ≤
        e + (V + A * h) / 2 ^ 50 := by
      have l := clip_lip (y0.vx + clip u.1 p.accMin p.accMax * dt) (x0.vx + clip u.1 p.accMin p.accMax * dt) p.vxMin p.vxMax
      rw [add_sub_add_right_eq_sub] at l
      have t := abs_sub_le (bicycleStepF r T wb lr p y0 u dt).vx (bicycleStep T wb lr p y0 u dt).vx
        (bicycleStep T' wb lr p x0 u dt).vx
      have l' : |(bicycleStep T wb lr p y0 u dt).vx - (bicycleStep T' wb lr p x0 u dt).vx| ≤ |y0.vx - x0.vx| := l
      have k : (|y0.vx| + |clip u.1 p.accMin p.accMax| * |dt|) / 2 ^ 50 ≤ (V + A * h) / 2 ^ 50 :=
        div_le_div_of_nonneg_right (by linarith) (by norm_num)
      linarith
    have b2 : |(bicycleStepF r T wb lr p y0 u dt).delta - (bicycleStep T' wb lr p x0 u dt).delta| ≤
        f + (p.deltaMax + p.ddeltaMax * h) / 2 ^ 50 := by
      have l := clip_lip (y0.delta + clip u.2 (-p.ddeltaMax) p.ddeltaMax * dt)
        (x0.delta + clip u.2 (-p.ddeltaMax) p.ddeltaMax * dt) (-p.deltaMax) p.deltaMax
      rw [add_sub_add_right_eq_sub] at l
      have t := abs_sub_le (bicycleStepF r T wb lr p y0 u dt).delta (bicycleStep T wb lr p y0 u dt).delta
        (bicycleStep T' wb lr p x0 u dt).delta
      have l' : |(bicycleStep T wb lr p y0 u dt).delta - (bicycleStep T' wb lr p x0 u dt).delta| ≤
        |y0.delta - x0.delta| := l
      have k : (|y0.delta| + |clip u.2 (-p.ddeltaMax) p.ddeltaMax| * |dt|) / 2 ^ 50 ≤
          (p.deltaMax + p.ddeltaMax * h) / 2 ^ 50 := div_le_div_of_nonneg_right (by linarith) (by norm_num)
      linarith
    cases i with
    | zero =>
      simp only [rollout, rolloutF, List.getElem?_cons_zero, Option.some.injEq] at hx hy'
      subst hx hy'
      push_cast
      rw [zero_add, one_mul, one_mul]
      exact ⟨b1, b2⟩
    | succ i =>
      simp only [rollout, rolloutF, List.getElem?_cons_succ] at hx hy'
      have := ih _ _ (C143_admissible r T wb lr p hp y0 u dt) (fun q hq' => hq q (List.mem_cons_of_mem _ hq')) _ _ b1 b2
        i x y hx hy'
      push_cast
      constructor
      · linarith [this.1]
      · linarith [this.2]

/-- **C143.** Over a roll-out the rounding errors of the speed and of the steering angle at most add up: after `i` steps of
at most `h` seconds the speed is within `i (V + A h) 2⁻⁵⁰` of the exact one and the steering angle likewise. -/
theorem C143_rollout (hr : RoundLaws r) (T T' : Trig ℚ) (wb lr : ℚ) (p : VehicleParams ℚ) (hp : p.Valid) (V A h : ℚ)
    (hV : |p.vxMin| ≤ V ∧ |p.vxMax| ≤ V) (hA : |p.accMin| ≤ A ∧ |p.accMax| ≤ A) (us : List ((ℚ × ℚ) × ℚ))
    (x0 : VehicleState ℚ) (hx0 : Admissible p x0) (hus : ∀ q ∈ us, |q.2| ≤ h) (i : ℕ) (x y : VehicleState ℚ)
    (hx : (rollout T' wb lr p x0 us)[i]? = some x) (hy : (rolloutF r T wb lr p x0 us)[i]? = some y) :
    |y.vx - x.vx| ≤ (i + 1) * ((V + A * h) / 2 ^ 50) ∧
      |y.delta - x.delta| ≤ (i + 1) * ((p.deltaMax + p.ddeltaMax * h) / 2 ^ 50) ∧ Admissible p y := by
  have h1 := rolloutF_near hr T T' wb lr p hp V A h hV hA us x0 x0 hx0 hus 0 0 (by simp) (by simp) i x y hx hy
  rw [zero_add, zero_add] at h1
  refine ⟨h1.1, h1.2, ?_⟩
  clear h1 hx hx0 hus
  induction us generalizing x0 i with
  | nil => simp [rolloutF] at hy
  | cons q us ih =>
    obtain ⟨u, dt⟩ := q
    cases i with
    | zero =>
      simp only [rolloutF, List.getElem?_cons_zero, Option.some.injEq] at hy
      rw [← hy]; exact C143_admissible r T wb lr p hp x0 u dt
    | succ i =>
      simp only [rolloutF, List.getElem?_cons_succ] at hy
      exact ih _ i hy

/-- **C143** fails for small accelerations: a vehicle at 16 m/s with a positive acceleration of 2⁻⁵⁰ m/s² and steps of one
second never gets faster, however long it drives (the exact roll-out reaches the limit). -/
theorem C143_false_accelerates : ¬ ∀ (p : VehicleParams ℚ) (T : Trig ℚ) (x0 : VehicleState ℚ) (u : ℚ × ℚ), p.Valid →
    Admissible p x0 → Floats Sim.double x0 → x0.vx < p.vxMax → p.accMin ≤ u.1 ∧ u.1 ≤ p.accMax → 0 < u.1 →
    ∃ n, ∃ y ∈ rolloutF Sim.double T 3 (3 / 2) p x0 (List.replicate n (u, 1)), x0.vx < y.vx := by
  intro H
  obtain ⟨n, y, hy, hlt⟩ := H carParams ⟨fun _ => 0, fun _ => 1, fun _ => 0⟩ ⟨0, 0, 0, 16, 0⟩ (1 / 2 ^ 50, 0) carParams_valid
    (by simp only [Admissible]; decide +kernel) (by simp only [Floats]; decide +kernel) (by decide +kernel)
    (by decide +kernel) (by norm_num)
  have step : ∀ x : VehicleState ℚ, x.vx = 16 →
      (bicycleStepF Sim.double ⟨fun _ => 0, fun _ => 1, fun _ => 0⟩ 3 (3 / 2) carParams x (1 / 2 ^ 50, 0) 1).vx = 16 := by
    intro x hx
    show clip (Sim.double (x.vx + Sim.double (clip (1 / 2 ^ 50) carParams.accMin carParams.accMax * Sim.double 1)))
      carParams.vxMin carParams.vxMax = 16
    rw [hx]; decide +kernel
  have all : ∀ n (x : VehicleState ℚ), x.vx = 16 → ∀ y ∈ rolloutF Sim.double ⟨fun _ => 0, fun _ => 1, fun _ => 0⟩ 3 (3 / 2)
      carParams x (List.replicate n ((1 / 2 ^ 50, 0), 1)), y.vx = 16 := by
    intro n
    induction n with
    | zero => intro x _ y hy; simp [rolloutF] at hy
    | succ n ih =>
      intro x hx y hy
      rw [List.replicate_succ] at hy
      rcases List.mem_cons.mp hy with rfl | hy
      · exact step x hx
      · exact ih _ (step x hx) y hy
  rw [all n _ rfl y hy] at hlt
  exact lt_irrefl _ hlt

/-! ## Examples -/

example : RoundLaws Sim.double ∧ (∀ x, Sim.double (-x) = -Sim.double x) := ⟨double_laws, double_neg⟩

/-- A car at 10 m/s that steers a little; sine, cosine and tangent as for small angles. -/
def exCar : VehicleState ℚ := ⟨3, 4, 1 / 8, 10, 1 / 16⟩
def exTrig : Trig ℚ := ⟨fun a => a, fun _ => 1, fun a => a⟩

theorem exCar_ok : Admissible carParams exCar ∧ Floats Sim.double exCar ∧ Rests carParams := by
  simp only [Admissible, Floats, Rests]; decide +kernel

-- one step of a tenth of a second (a `Decimal`) is not the exact step
example : (bicycleStepF Sim.double exTrig 3 (3 / 2) carParams exCar (2, 1 / 8) (1 / 10)).vx ≠
    (bicycleStep exTrig 3 (3 / 2) carParams exCar (2, 1 / 8) (1 / 10)).vx ∨
  (bicycleStepF Sim.double exTrig 3 (3 / 2) carParams exCar (2, 1 / 8) (1 / 10)).psi ≠
    (bicycleStep exTrig 3 (3 / 2) carParams exCar (2, 1 / 8) (1 / 10)).psi := by decide +kernel

example : |(bicycleStepF Sim.double exTrig 3 (3 / 2) carParams exCar (2, 1 / 8) (1 / 10)).vx -
    (bicycleStep exTrig 3 (3 / 2) carParams exCar (2, 1 / 8) (1 / 10)).vx| ≤ (10 + 2 * (1 / 10)) / 2 ^ 50 := by
  have h := (C143_near double_laws exTrig 3 (3 / 2) carParams exCar (2, 1 / 8) (1 / 10)).2.2.2.1
  have e : (|exCar.vx| + |clip 2 carParams.accMin carParams.accMax| * |1 / 10|) = 10 + 2 * (1 / 10) := by decide +kernel
  rw [e] at h
  exact h

example : (bicycleStepF Sim.double exTrig 3 (3 / 2) carParams exCar (0, 1 / 8) (1 / 10)).vx = 10 :=
  (C143_hold double_laws exTrig 3 (3 / 2) carParams exCar_ok.2.2 exCar exCar_ok.2.1 exCar_ok.1 (0, 1 / 8) (1 / 10)).1 rfl

example : (bicycleStepF Sim.double exTrig 3 (3 / 2) carParams { exCar with vx := 0 } (2, 1 / 8) (1 / 10)).psi = 1 / 8 :=
  (C143_standing double_laws exTrig 3 (3 / 2) carParams { exCar with vx := 0 }
    (by simp only [Floats]; decide +kernel) rfl (2, 1 / 8) (1 / 10)).2.2

example : (bicycleStepF Sim.double exTrig 3 (3 / 2) carParams { exCar with delta := 0 } (2, 1 / 8) (1 / 10)).psi = 1 / 8 :=
  C143_straight double_laws exTrig 3 (3 / 2) carParams { exCar with delta := 0 }
    (by simp only [Floats]; decide +kernel) rfl (2, 1 / 8) (1 / 10)

example : bicycleStepF Sim.double exTrig 3 (3 / 2) carParams (mirrorQ exCar) (2, -(1 / 8)) (1 / 10) =
    mirrorQ (bicycleStepF Sim.double exTrig 3 (3 / 2) carParams exCar (2, 1 / 8) (1 / 10)) :=
  C143_mirror double_neg exTrig (fun _ => rfl) (fun _ => rfl) (fun _ => rfl) 3 (3 / 2) carParams carParams_valid exCar
    (2, 1 / 8) (1 / 10)

example : exCar.vx < (bicycleStepF Sim.double exTrig 3 (3 / 2) carParams exCar (1 / 1000, 0) (1 / 8)).vx :=
  C143_accelerates double_laws exTrig 3 (3 / 2) carParams exCar (1 / 1000, 0) (1 / 8) (by norm_num) (by decide +kernel)
    (by decide +kernel) (by decide +kernel) (by norm_num) (by decide +kernel)

example : ∀ x y, (rollout exTrig 3 (3 / 2) carParams exCar (List.replicate 100 ((1, 1 / 50), 1 / 10)))[99]? = some x →
    (rolloutF Sim.double exTrig 3 (3 / 2) carParams exCar (List.replicate 100 ((1, 1 / 50), 1 / 10)))[99]? = some y →
    |y.vx - x.vx| ≤ 100 * ((36 + 8 * (1 / 10)) / 2 ^ 50) := by
  intro x y hx hy
  have h := (C143_rollout double_laws exTrig exTrig 3 (3 / 2) carParams carParams_valid 36 8 (1 / 10) (by decide +kernel)
    (by decide +kernel) _ exCar exCar_ok.1 (by
      intro q hq
      rw [List.eq_of_mem_replicate hq]
      norm_num [abs_of_pos]) 99 x y hx hy).1
  refine h.trans (le_of_eq ?_)
  norm_num

end Phys
end Verif
