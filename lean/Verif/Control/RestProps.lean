import Verif.Control.DriveProps

/-!
# C123: how far a controlled quantity runs ahead of its reference

The integral term of the controller remembers how far the quantity has run behind its reference. It has to be worked
off: the sum of all errors is zero in the end.
-/

namespace Verif
namespace Loop

open Filter Topology

/-- Specification: a controller asked every `h` seconds, with the reference `ref k` at request `k`; the quantity `x`
grows at the rate asked for last. -/
structure Tracks (p : PIDParam ℝ) (h : ℝ) (ref : ℕ → ℝ) (t : ℕ → ℝ) (s : ℕ → PIDState ℝ) (x u : ℕ → ℝ) : Prop where
  time : ∀ k, t (k + 1) = t k + h
  control : ∀ k, PIDState.getControl p (((s k).updateMeasurement (x k)).updateReference p (ref k)) (t k) =
    (s (k + 1), .ok (u k))
  plant : ∀ k, x (k + 1) = x k + h * u k

/-- Specification: how far `x` has fallen behind the reference in the requests `1, …, n`. -/
noncomputable def lag (p : PIDParam ℝ) (h : ℝ) (ref x : ℕ → ℝ) (n : ℕ) : ℝ :=
  ∑ k ∈ Finset.range n, h * (npClip (ref (k + 1)) p.setpoint.1 p.setpoint.2 - x (k + 1))

variable {p : PIDParam ℝ} {h : ℝ} {ref t : ℕ → ℝ} {s : ℕ → PIDState ℝ} {x u : ℕ → ℝ}

theorem Tracks.kept (H : Tracks p h ref t s x u) (k : ℕ) : (s (k + 1)).lastRequestAt = some (t k) ∧
    (s (k + 1)).lastProportionalError = npClip (ref k) p.setpoint.1 p.setpoint.2 - x k := by
  obtain ⟨i, v, h1⟩ := getControl_any p (((s k).updateMeasurement (x k)).updateReference p (ref k)) (t k)
  have h3 := (Prod.ext_iff.mp ((H.control k).symm.trans h1)).1
  simp only at h3
  rw [h3]
  exact ⟨rfl, rfl⟩

theorem Tracks.next (H : Tracks p h ref t s x u) (hh : 0 < h) (k : ℕ) :
    (s (k + 2)).lastIntegralError = npClip ((s (k + 1)).lastIntegralError +
      p.kI * (h * (npClip (ref (k + 1)) p.setpoint.1 p.setpoint.2 - x (k + 1)))) p.antiwindup.1 p.antiwindup.2 ∧
    u (k + 1) = npClip (p.kP * (npClip (ref (k + 1)) p.setpoint.1 p.setpoint.2 - x (k + 1)) +
      (s (k + 2)).lastIntegralError + p.kD * ((npClip (ref (k + 1)) p.setpoint.1 p.setpoint.2 - x (k + 1) -
        (npClip (ref k) p.setpoint.1 p.setpoint.2 - x k)) / h)) p.output.1 p.output.2 := by
  have ht : t (k + 1) - t k = h := by rw [H.time]; ring
  have h1 := getControl_some p (((s (k + 1)).updateMeasurement (x (k + 1))).updateReference p (ref (k + 1))) (t k)
    (t (k + 1)) (H.kept k).1 (by rw [ht]; exact hh.ne')
  rw [ht] at h1
  obtain ⟨h3, h4⟩ := Prod.ext_iff.mp ((H.control (k + 1)).symm.trans h1)
  simp only at h3 h4
  have h5 : (s (k + 2)).lastIntegralError = npClip ((s (k + 1)).lastIntegralError +
      p.kI * (npClip (ref (k + 1)) p.setpoint.1 p.setpoint.2 - x (k + 1)) * h) p.antiwindup.1 p.antiwindup.2 := by
    rw [h3]; rfl
  refine ⟨by rw [h5]; congr 1; ring, ?_⟩
  injection h4 with h4
  rw [h4, h5, ← (H.kept k).2]
  rfl

/-- **C123.** As long as it does not meet its limits, the integral term grows in proportion to the lag. -/
theorem C123_memory (H : Tracks p h ref t s x u) (hh : 0 < h) (n : ℕ)
    (hl : ∀ m, m ≤ n → p.antiwindup.1 ≤ (s 1).lastIntegralError + p.kI * lag p h ref x m ∧
      (s 1).lastIntegralError + p.kI * lag p h ref x m ≤ p.antiwindup.2) :
    (s (n + 1)).lastIntegralError = (s 1).lastIntegralError + p.kI * lag p h ref x n := by
  induction n with
  | zero => simp [lag]
  | succ n ih =>
    have e : (s 1).lastIntegralError + p.kI * lag p h ref x n +
        p.kI * (h * (npClip (ref (n + 1)) p.setpoint.1 p.setpoint.2 - x (n + 1))) =
        (s 1).lastIntegralError + p.kI * lag p h ref x (n + 1) := by
      simp only [lag, Finset.sum_range_succ]; ring
    have := hl (n + 1) le_rfl
    rw [(H.next hh n).1, ih (fun m hm => hl m (by omega)), e, npClip_of_mem _ _ _ this.1 this.2]

theorem Rec.integral_zero {e r o op I : ℕ → ℝ} (H : Rec p h e r o op I) (hs : Stable p h) :
    Tendsto I atTop (𝓝 0) := by
  have he : Tendsto e atTop (𝓝 0) := by
    obtain ⟨C, θ, N, h1, h2, h3⟩ := H.tendsto hs
    rw [← tendsto_add_atTop_iff_nat N]
    refine squeeze_zero_norm (a := fun j => C * θ ^ (j / 2)) (fun j => ?_) ?_
    · rw [Nat.add_comm j N]; exact h3 j
    · have e1 : Tendsto (fun n : ℕ => θ ^ n) atTop (𝓝 0) := tendsto_pow_atTop_nhds_zero_of_lt_one h1 h2
      have e2 : Tendsto (fun j : ℕ => j / 2) atTop atTop := Nat.tendsto_div_const_atTop (by norm_num)
      simpa using (e1.comp e2).const_mul C
  have ho : Tendsto o atTop (𝓝 0) := by
    have h1 : o = fun k => (e k - e (k + 1)) / h := by
      funext k
      rw [H.he]
      have := hs.pos.ne'
      field_simp
      ring
    have h2 : Tendsto (fun k => e (k + 1)) atTop (𝓝 0) := (tendsto_add_atTop_iff_nat 1).mpr he
    rw [h1]
    simpa using (he.sub h2).div_const h
  have hop : Tendsto op atTop (𝓝 0) := by
    rw [← tendsto_add_atTop_iff_nat 1]
    have : (fun k => op (k + 1)) = o := funext H.hop
    rw [this]
    exact ho
  obtain ⟨N, hN⟩ := H.raw_small hs
  have hr : Tendsto r atTop (𝓝 0) := by
    refine ho.congr' ?_
    filter_upwards [eventually_ge_atTop N] with k hk
    rw [H.ho, npClip_of_mem _ _ _ (hN k hk).1 (hN k hk).2]
  have hI : I = fun k => r k - p.kP * e k + p.kD * op k := by
    funext k
    rw [H.hr]; ring
  rw [hI]
  simpa using (hr.sub (he.const_mul p.kP)).add (hop.const_mul p.kD)

/-- From request `m` on the reference is the same. -/
theorem Tracks.closed (H : Tracks p h ref t s x u) {y : ℝ} {m : ℕ} (hy : ∀ k, m ≤ k → ref k = y) :
    Closed p h y (fun k => t (m + k)) (fun k => s (m + k)) (fun k => x (m + k)) (fun k => u (m + k)) :=
  ⟨fun k => H.time (m + k), fun k => by rw [← hy (m + k) (by omega)]; exact H.control (m + k),
    fun k => H.plant (m + k)⟩

/-- **C123.** If the reference stays the same from some request on, the integral term is worked off. -/
theorem C123_forgets (H : Tracks p h ref t s x u) (hs : Stable p h) {y : ℝ} {m : ℕ} (hy : ∀ k, m ≤ k → ref k = y) :
    Tendsto (fun n => (s n).lastIntegralError) atTop (𝓝 0) := by
  have := ((H.closed hy).seqs hs).integral_zero hs
  rw [← tendsto_add_atTop_iff_nat (m + 2)]
  refine this.congr (fun n => ?_)
  rw [show m + (n + 2) = n + (m + 2) by ring]

/-- **C123.** If the reference stays the same from some request on and the integral term never meets its limits, then the
lag tends to a value that depends on nothing but the integral term at the beginning. -/
theorem C123_lag (H : Tracks p h ref t s x u) (hs : Stable p h) {y : ℝ} {m : ℕ} (hy : ∀ k, m ≤ k → ref k = y)
    (hl : ∀ n, p.antiwindup.1 ≤ (s 1).lastIntegralError + p.kI * lag p h ref x n ∧
      (s 1).lastIntegralError + p.kI * lag p h ref x n ≤ p.antiwindup.2) :
    Tendsto (lag p h ref x) atTop (𝓝 (-(s 1).lastIntegralError / p.kI)) := by
  have h1 := (tendsto_add_atTop_iff_nat 1).mpr (C123_forgets H hs hy)
  have h2 : lag p h ref x = fun n => ((s (n + 1)).lastIntegralError - (s 1).lastIntegralError) / p.kI := by
    funext n
    rw [C123_memory H hs.pos n (fun m _ => hl m)]
    have := hs.kI.ne'
    field_simp
    ring
  rw [h2]
  simpa using (h1.sub_const (s 1).lastIntegralError).div_const p.kI

/-! ### Braking from a fresh controller -/

/-- The invariant of braking: `S` is the distance covered so far, `v` the speed at the beginning, `z` the speed one
request ago, `A` the largest deceleration. -/
structure Brakes (h A R v S x z : ℝ) : Prop where
  S0 : 0 ≤ S
  SR : S ≤ R
  low : -(1 / 100) * S ≤ x
  old : -(1 / 100) * (1 + h / 100) * S ≤ z
  phase : (11 / 40 * A ≤ x ∧ S + x ^ 2 / (2 * A) ≤ v ^ 2 / (2 * A)) ∨
    (3 / 20 * A ≤ x ∧ x ≤ 11 / 40 * A ∧ S + x ^ 2 / A ≤ v ^ 2 / (2 * A) + 19 / 500 * A) ∨
    (x ≤ 3 / 20 * A ∧ S + (1 / 4 - h) * x + 1 / 40 * z ≤ v ^ 2 / (2 * A) + 22 / 250 * A)

set_option maxHeartbeats 1000000 in
/-- One request of braking. -/
theorem Brakes.step {h A B R v S x z w u : ℝ} (hh : 0 < h) (h1 : h ≤ 9 / 40) (hA : 1 ≤ A) (hB : 1 / 50 ≤ B)
    (hR : R = v ^ 2 / (2 * A) + A / 5) (hR2 : R ≤ 200) (hRB : R / 100 + B / 10 ≤ 2 / 5 * A) (H : Brakes h A R v S x z)
    (hw : -A ≤ w ∧ w ≤ B) (hz : x = z + h * w)
    (hu : u = npClip (-4 * x - S / 100 - w / 10) (-A) B) : Brakes h A R v (S + h * (x + h * u)) (x + h * u) x := by
  obtain ⟨S0, SR, low, old, phase⟩ := H
  set r := -4 * x - S / 100 - w / 10 with hr
  have hclip := npClip_cases (r := r) (lo := -A) (hi := B) (by linarith)
  rw [← hu] at hclip
  have huA : -A ≤ u := by rcases hclip with ⟨-, e⟩ | ⟨e1, -, e⟩ | ⟨-, e⟩ <;> linarith
  have hv2 : 0 ≤ v ^ 2 / (2 * A) := by positivity
  -- the speed stays above the slow return
  have lin : -(1 / 100) * S ≤ (1 + h / 100) * (x + h * r) := by
    have e : x + h * r = (9 / 10 - 4 * h) * x + 1 / 10 * z - h * S / 100 := by rw [hr, hz]; ring
    have b1 : (9 / 10 - 4 * h) * (-(1 / 100) * S) ≤ (9 / 10 - 4 * h) * x :=
      mul_le_mul_of_nonneg_left low (by linarith)
    have b2 : -(1 - 3 * h + h / 1000) / 100 * S ≤ x + h * r := by rw [e]; linarith
    have b3 : (1 + h / 100) * (-(1 - 3 * h + h / 1000) / 100 * S) ≤ (1 + h / 100) * (x + h * r) :=
      mul_le_mul_of_nonneg_left b2 (by linarith)
    have b4 : (1 + h / 100) * (1 - 3 * h + h / 1000) ≤ 1 := by nlinarith
    have b5 : (1 + h / 100) * (1 - 3 * h + h / 1000) * S ≤ 1 * S := mul_le_mul_of_nonneg_right b4 S0
    linarith
  have low' : -(1 / 100) * S ≤ (1 + h / 100) * (x + h * u) := by
    rcases hclip with ⟨e1, e2⟩ | ⟨-, -, e2⟩ | ⟨e1, e2⟩
    · have : h * r ≤ h * u := mul_le_mul_of_nonneg_left (by linarith) hh.le
      have : (1 + h / 100) * (x + h * r) ≤ (1 + h / 100) * (x + h * u) :=
        mul_le_mul_of_nonneg_left (by linarith) (by linarith)
      linarith
    · rw [e2]; exact lin
    · rw [e2]
      have c1 : (1 + h / 100) * (-(1 / 100) * S + h * B) ≤ (1 + h / 100) * (x + h * B) :=
        mul_le_mul_of_nonneg_left (by linarith) (by linarith)
      have c2 : h * S ≤ h * 200 := mul_le_mul_of_nonneg_left (by linarith) hh.le
      have c3 : h * (1 / 50) ≤ h * B := mul_le_mul_of_nonneg_left hB hh.le
      have c4 : 0 ≤ h / 100 * (h * B) := by positivity
      linarith
  set x' := x + h * u with hx'
  set S' := S + h * x' with hS'
  have lowS : -(1 / 100) * S' ≤ x' := by rw [hS']; linarith
  have S0' : 0 ≤ S' := by
    have : (1 + h / 100) * S' = S + h / 100 * S + h * ((1 + h / 100) * x') := by rw [hS']; ring
    have h2 : h * (-(1 / 100) * S) ≤ h * ((1 + h / 100) * x') := mul_le_mul_of_nonneg_left low' hh.le
    have h3 : 0 ≤ (1 + h / 100) * S' := by rw [this]; linarith
    exact nonneg_of_mul_nonneg_right h3 (by linarith)
  have old' : -(1 / 100) * (1 + h / 100) * S' ≤ x := by
    have : h * (-(1 / 100) * S') ≤ h * x' := mul_le_mul_of_nonneg_left lowS hh.le
    have h2 : S ≤ (1 + h / 100) * S' := by rw [hS'] at this ⊢; linarith
    linarith
  -- where the braking ends
  have hfin : x' ≤ 3 / 20 * A → S' + (1 / 4 - h) * x' + 1 / 40 * x ≤ v ^ 2 / (2 * A) + 22 / 250 * A →
      Brakes h A R v S' x' x := by
    intro e1 e2
    refine ⟨S0', ?_, lowS, old', Or.inr (Or.inr ⟨e1, e2⟩)⟩
    have b1 : (1 / 4 - h) * (-(1 / 100) * S') ≤ (1 / 4 - h) * x' := mul_le_mul_of_nonneg_left lowS (by linarith)
    have b2 : 0 ≤ h * S' := mul_nonneg hh.le S0'
    rw [hR] at SR hRB ⊢
    linarith
  have hA0 : (0 : ℝ) < A := by linarith
  have hhA : h * A ≤ 9 / 40 * A := mul_le_mul_of_nonneg_right h1 (by linarith)
  have hhA0 : 0 < h * A := by positivity
  have hxx : x - h * A ≤ x' := by
    have : h * (-A) ≤ h * u := mul_le_mul_of_nonneg_left huA hh.le
    linarith
  have hxe : x' ^ 2 = x ^ 2 + h * (u * (x + x')) := by rw [hx']; ring
  rcases phase with ⟨p1, p2⟩ | ⟨p1, p3, p2⟩ | ⟨p1, p2⟩
  · have hur : u = -A := by
      rcases hclip with ⟨-, e⟩ | ⟨e1, -, e⟩ | ⟨e1, -⟩
      · exact e
      · refine le_antisymm ?_ huA
        rw [e, hr]; linarith [hw.1]
      · rw [hr] at e1; linarith [hw.1]
    have hdec : x' = x - h * A := by rw [hx', hur]; ring
    have hP : S' + x' ^ 2 / (2 * A) ≤ v ^ 2 / (2 * A) := by
      refine le_trans ?_ p2
      have e1 : S' + x' ^ 2 / (2 * A) = S + x ^ 2 / (2 * A) + h * ((x' - x) / 2) := by
        rw [hxe, hS', hur]; field_simp; ring
      have e2 : h * ((x' - x) / 2) ≤ h * 0 := mul_le_mul_of_nonneg_left (by linarith) hh.le
      rw [e1]; linarith
    have hx2 : 0 ≤ x' ^ 2 / (2 * A) := by positivity
    rcases le_total (11 / 40 * A) x' with q | q
    · exact ⟨S0', by rw [hR]; linarith, lowS, old', Or.inl ⟨q, hP⟩⟩
    · rcases le_total (3 / 20 * A) x' with q2 | q2
      · refine ⟨S0', by rw [hR]; linarith, lowS, old', Or.inr (Or.inl ⟨q2, q, ?_⟩)⟩
        have e1 : x' ^ 2 ≤ (11 / 40 * A) ^ 2 := pow_le_pow_left₀ (by linarith) q 2
        have e2 : x' ^ 2 / (2 * A) ≤ 19 / 500 * A := by
          rw [div_le_iff₀ (by linarith)]
          nlinarith
        have e3 : x' ^ 2 / A = x' ^ 2 / (2 * A) + x' ^ 2 / (2 * A) := by field_simp; ring
        rw [e3]; linarith
      · refine hfin q2 ?_
        have : (1 / 4 - h) * x' ≤ (1 / 4 - h) * (3 / 20 * A) := mul_le_mul_of_nonneg_left q2 (by linarith)
        linarith
  · have hur : u ≤ -A / 2 := by
      rcases hclip with ⟨-, e⟩ | ⟨-, -, e⟩ | ⟨e1, -⟩
      · linarith
      · rw [e, hr]; linarith [hw.1]
      · rw [hr] at e1; linarith [hw.1]
    have hdec : x' ≤ x := by
      have : h * u ≤ h * 0 := mul_le_mul_of_nonneg_left (by linarith) hh.le
      linarith
    have hP : S' + x' ^ 2 / A ≤ v ^ 2 / (2 * A) + 19 / 500 * A := by
      refine le_trans ?_ p2
      have e1 : S' + x' ^ 2 / A = S + x ^ 2 / A + h * (x' + u * (x + x') / A) := by
        rw [hxe, hS']; ring
      have e2 : u * (x + x') ≤ -A / 2 * (x + x') := mul_le_mul_of_nonneg_right hur (by linarith)
      have e3 : u * (x + x') / A ≤ -(x + x') / 2 := by
        rw [div_le_iff₀ (by linarith)]; linarith
      have e4 : h * (x' + u * (x + x') / A) ≤ h * 0 := mul_le_mul_of_nonneg_left (by linarith) hh.le
      rw [e1]; linarith
    have hx2 : 0 ≤ x' ^ 2 / A := by positivity
    rcases le_total (3 / 20 * A) x' with q | q
    · exact ⟨S0', by rw [hR]; linarith, lowS, old', Or.inr (Or.inl ⟨q, by linarith, hP⟩)⟩
    · refine hfin q ?_
      have : (1 / 4 - h) * x' ≤ (1 / 4 - h) * (3 / 20 * A) := mul_le_mul_of_nonneg_left q (by linarith)
      linarith
  · have hnolow : -A ≤ r := by rw [hr]; linarith [hw.2]
    have hur : u ≤ r := by rcases hclip with ⟨e, -⟩ | ⟨-, -, e⟩ | ⟨e1, e⟩ <;> linarith
    have hle : x' ≤ (9 / 10 - 4 * h) * x + 1 / 10 * z - h * S / 100 := by
      have e : x + h * r = (9 / 10 - 4 * h) * x + 1 / 10 * z - h * S / 100 := by rw [hr, hz]; ring
      rw [← e, hx']
      have := mul_le_mul_of_nonneg_left hur hh.le
      linarith
    have hhS : 0 ≤ h * S := mul_nonneg hh.le S0
    refine hfin ?_ ?_
    · have e1 : h * r ≤ h * (-4 * x + A / 10) :=
        mul_le_mul_of_nonneg_left (by rw [hr]; linarith [hw.1]) hh.le
      have e2 := mul_le_mul_of_nonneg_left hur hh.le
      have e3 : (1 - 4 * h) * x ≤ (1 - 4 * h) * (3 / 20 * A) := mul_le_mul_of_nonneg_left p1 (by linarith)
      have : 0 ≤ h * A := by positivity
      rw [hx']; linarith
    · rw [hS']
      linarith

/-- Specification: the gains and limits of the speed controller of a vehicle that brakes with at most `A` and
accelerates with at most `B`. -/
def SpeedGains (p : PIDParam ℝ) (A B : ℝ) : Prop :=
  p.kP = 4 ∧ p.kI = 1 / 100 ∧ p.kD = 1 / 10 ∧ p.antiwindup = (-2, 2) ∧ p.output = (-A, B) ∧
    p.setpoint.1 ≤ 0 ∧ 0 ≤ p.setpoint.2

/-- Specification: the distance covered from request 0 to request `n`, with a constant acceleration between
requests. -/
noncomputable def covered (h : ℝ) (x : ℕ → ℝ) (n : ℕ) : ℝ :=
  ∑ k ∈ Finset.range n, h * ((x k + x (k + 1)) / 2)

theorem covered_eq (h : ℝ) (x : ℕ → ℝ) (n : ℕ) :
    covered h x n = (∑ k ∈ Finset.range n, h * x (k + 1)) + h * x 0 / 2 - h * x n / 2 := by
  induction n with
  | zero => simp [covered]
  | succ n ih =>
    simp only [covered] at ih
    simp only [covered, Finset.sum_range_succ, ih]
    ring

theorem lag_zero {A B : ℝ} (hg : SpeedGains p A B) (x : ℕ → ℝ) (n : ℕ) :
    lag p h (fun _ => 0) x n = -∑ k ∈ Finset.range n, h * x (k + 1) := by
  have hz : npClip (0 : ℝ) p.setpoint.1 p.setpoint.2 = 0 := npClip_of_mem _ _ _ hg.2.2.2.2.2.1 hg.2.2.2.2.2.2
  simp only [lag, hz, ← Finset.sum_neg_distrib]
  refine Finset.sum_congr rfl (fun k _ => ?_)
  ring

/-- The first request to a fresh controller. -/
theorem Tracks.first (H : Tracks p h ref t s x u) (h0 : s 0 = PIDState.init)
    (hw : p.antiwindup.1 ≤ 0 ∧ 0 ≤ p.antiwindup.2) : (s 1).lastIntegralError = 0 ∧
    u 0 = npClip (p.kP * (npClip (ref 0) p.setpoint.1 p.setpoint.2 - x 0)) p.output.1 p.output.2 := by
  have h1 := H.control 0
  rw [h0] at h1
  simp only [PIDState.getControl, PIDState.updateReference, PIDState.updateMeasurement, PIDState.init, not_true,
    if_false, mul_zero, add_zero, zero_add, Prod.mk.injEq, Except.ok.injEq, npClip_of_mem _ _ _ hw.1 hw.2] at h1
  obtain ⟨h2, h3⟩ := h1
  exact ⟨by rw [← h2], h3.symm⟩

/-- A vehicle whose speed controller is told to stop in its first request brakes as in `Brakes`. -/
theorem brakes {A B R : ℝ} (H : Tracks p h (fun _ => 0) t s x u) (h0 : s 0 = PIDState.init) (hg : SpeedGains p A B)
    (hh : 0 < h) (h1 : h ≤ 9 / 40) (hA : 1 ≤ A) (hB : 1 / 50 ≤ B) (hR : R = x 0 ^ 2 / (2 * A) + A / 5) (hR2 : R ≤ 200)
    (hRB : R / 100 + B / 10 ≤ 2 / 5 * A) (hv : 0 ≤ x 0) (n : ℕ) : ∀ m, m ≤ n →
      (∃ z w, Brakes h A R (x 0) (∑ k ∈ Finset.range m, h * x (k + 1)) (x m) z ∧ (-A ≤ w ∧ w ≤ B) ∧ x m = z + h * w ∧
        u m = npClip (-4 * x m - (∑ k ∈ Finset.range m, h * x (k + 1)) / 100 - w / 10) (-A) B) := by
  obtain ⟨g1, g2, g3, g4, g5, g6, g7⟩ := id hg
  obtain ⟨f1, f2⟩ := H.first h0 (by rw [g4]; norm_num)
  have hz : npClip (0 : ℝ) p.setpoint.1 p.setpoint.2 = 0 := npClip_of_mem _ _ _ g6 g7
  induction n with
  | zero =>
    intro m hm
    obtain rfl : m = 0 := by omega
    refine ⟨x 0, 0, ⟨?_, ?_, ?_, ?_, ?_⟩, ⟨by linarith, by linarith⟩, by ring, ?_⟩
    · simp
    · have : 0 ≤ x 0 ^ 2 / (2 * A) := by positivity
      simp only [Finset.range_zero, Finset.sum_empty]
      linarith
    · simpa using hv
    · simpa using hv
    · have : 0 ≤ x 0 ^ 2 / (2 * A) := by positivity
      have h3 : 0 ≤ h * x 0 := by positivity
      simp only [Finset.range_zero, Finset.sum_empty, zero_add]
      rcases le_total (11 / 40 * A) (x 0) with q | q
      · exact Or.inl ⟨q, le_rfl⟩
      · rcases le_total (3 / 20 * A) (x 0) with q2 | q2
        · refine Or.inr (Or.inl ⟨q2, q, ?_⟩)
          have e1 : x 0 ^ 2 ≤ (11 / 40 * A) ^ 2 := pow_le_pow_left₀ hv q 2
          have e2 : x 0 ^ 2 / (2 * A) ≤ 19 / 500 * A := by
            rw [div_le_iff₀ (by linarith)]
            nlinarith
          have e3 : x 0 ^ 2 / A = x 0 ^ 2 / (2 * A) + x 0 ^ 2 / (2 * A) := by field_simp; ring
          rw [e3]; linarith
        · exact Or.inr (Or.inr ⟨q2, by linarith⟩)
    · rw [f2, hz, g1, g5]
      simp
  | succ n ih =>
    intro m hm
    rcases Nat.lt_or_ge m (n + 1) with h2 | h2
    · exact ih m (by omega)
    obtain rfl : m = n + 1 := by omega
    obtain ⟨z, w, b, bw, bz, bu⟩ := ih n le_rfl
    have b' := b.step hh h1 hA hB hR hR2 hRB bw bz bu
    rw [← H.plant n] at b'
    rw [Finset.sum_range_succ]
    have hub : -A ≤ u n ∧ u n ≤ B := by
      rw [bu]
      exact ⟨le_npClip _ _ _ (by linarith), npClip_le _ _ _⟩
    refine ⟨x n, u n, b', hub, H.plant n, ?_⟩
    have hmem := C123_memory H hh (n + 1) (fun m hm => by
      rw [f1, g2, g4, lag_zero hg]
      have hS : 0 ≤ ∑ k ∈ Finset.range m, h * x (k + 1) ∧ ∑ k ∈ Finset.range m, h * x (k + 1) ≤ R := by
        rcases Nat.lt_or_ge m (n + 1) with h2 | h2
        · obtain ⟨_, _, c, -⟩ := ih m (by omega)
          exact ⟨c.S0, c.SR⟩
        · obtain rfl : m = n + 1 := by omega
          rw [Finset.sum_range_succ]
          exact ⟨b'.S0, b'.SR⟩
      constructor <;> norm_num <;> linarith [hS.1, hS.2])
    have hD : (0 - x (n + 1) - (0 - x n)) / h = -u n := by
      rw [H.plant]
      field_simp
      ring
    rw [(H.next hh n).2, hz, hD, hmem, f1, g1, g2, g3, g5, lag_zero hg, Finset.sum_range_succ]
    congr 1
    ring

/-- **C123.** A vehicle whose controller is told to stop never covers much more than its braking distance, and never gets
behind the place where it was told so by more than what it covers in half a period. -/
theorem C123_braking {A B : ℝ} (H : Tracks p h (fun _ => 0) t s x u) (h0 : s 0 = PIDState.init)
    (hg : SpeedGains p A B) (hh : 0 < h) (h1 : h ≤ 9 / 40) (hA : 1 ≤ A) (hB : 1 / 50 ≤ B)
    (hR2 : x 0 ^ 2 / (2 * A) + A / 5 ≤ 200)
    (hRB : (x 0 ^ 2 / (2 * A) + A / 5) / 100 + B / 10 ≤ 2 / 5 * A) (hv : 0 ≤ x 0) (n : ℕ) :
    -(h * x n / 2) ≤ covered h x n ∧ covered h x n ≤ x 0 ^ 2 / (2 * A) + A / 4 + h * x 0 / 2 := by
  obtain ⟨_, _, c, -⟩ := brakes H h0 hg hh h1 hA hB rfl hR2 hRB hv n n le_rfl
  have c1 := c.S0
  have c2 := c.SR
  have c3 := c.low
  have h2 : 0 ≤ h * x 0 := by positivity
  rw [covered_eq]
  refine ⟨by linarith, ?_⟩
  have c4 : h * (-(1 / 100) * ∑ k ∈ Finset.range n, h * x (k + 1)) ≤ h * x n := mul_le_mul_of_nonneg_left c3 hh.le
  have c5 : h * ∑ k ∈ Finset.range n, h * x (k + 1) ≤ 9 / 40 * (40 * A) :=
    mul_le_mul h1 (by linarith) c1 (by norm_num)
  linarith

theorem SpeedGains.stable {A B : ℝ} (hg : SpeedGains p A B) (hh : 0 < h) (h1 : h ≤ 9 / 40) (hA : 1 ≤ A)
    (hA2 : A ≤ 200) (hB : 1 / 50 ≤ B) (hB2 : B ≤ 4 * A) : Stable p h := by
  obtain ⟨g1, g2, g3, g4, g5, g6, g7⟩ := hg
  refine ⟨hh, by rw [g1]; norm_num, by rw [g2]; norm_num, by rw [g3]; norm_num, by rw [g1, g3]; linarith,
    by rw [g1, g2, g3]; norm_num, by rw [g5]; constructor <;> simp only <;> linarith, by rw [g4]; norm_num, ?_⟩
  rw [g1, g2, g3, g4, g5]
  simp only [neg_neg, max_self]
  rcases le_total A B with q | q
  · rw [max_eq_right q, min_eq_left q]; linarith
  · rw [max_eq_left q, min_eq_right q]; linarith

/-- **C123 fails.** A vehicle whose controller is told to stop brakes, and then rolls back to where it was told so: its
distance from there tends to that covered in half a period, although it has been farther away, by nearly the braking
distance with the greatest deceleration. -/
theorem C123_false_back {A B : ℝ} (H : Tracks p h (fun _ => 0) t s x u) (h0 : s 0 = PIDState.init)
    (hg : SpeedGains p A B) (hh : 0 < h) (h1 : h ≤ 9 / 40) (hA : 1 ≤ A) (hB : 1 / 50 ≤ B)
    (hA2 : A ≤ 200) (hR2 : x 0 ^ 2 / (2 * A) + A / 5 ≤ 200)
    (hRB : (x 0 ^ 2 / (2 * A) + A / 5) / 100 + B / 10 ≤ 2 / 5 * A) (hv : 0 < x 0) :
    Tendsto (covered h x) atTop (𝓝 (h * x 0 / 2)) ∧
    ∃ n, (x 0 ^ 2 - (h * A) ^ 2) / (2 * A) ≤ covered h x n := by
  have hq : 0 ≤ x 0 ^ 2 / (2 * A) := by positivity
  have hs : Stable p h := hg.stable hh h1 hA hA2 hB (by linarith)
  have hb := fun n => brakes H h0 hg hh h1 hA hB rfl hR2 hRB hv.le n n le_rfl
  obtain ⟨g1, g2, g3, g4, g5, g6, g7⟩ := id hg
  have f1 := (H.first h0 (by rw [g4]; norm_num)).1
  have hlag := C123_lag H hs (y := 0) (m := 0) (fun _ _ => rfl) (fun n => by
    obtain ⟨_, _, c, -⟩ := hb n
    have c0 := c.S0
    have c1 := c.SR
    rw [f1, g2, g4, lag_zero hg]
    constructor <;> norm_num <;> linarith)
  have hx0 : Tendsto x atTop (𝓝 0) := by
    have := (C119_converges_partial (H.closed (y := 0) (m := 0) (fun _ _ => rfl)) hs).1
    rw [npClip_of_mem _ _ _ g6 g7] at this
    simpa using this
  have hS : Tendsto (fun n => ∑ k ∈ Finset.range n, h * x (k + 1)) atTop (𝓝 0) := by
    rw [f1] at hlag
    have e : (fun n => ∑ k ∈ Finset.range n, h * x (k + 1)) = fun n => -lag p h (fun _ => 0) x n := by
      funext n; rw [lag_zero hg, neg_neg]
    rw [e]
    simpa using hlag.neg
  refine ⟨?_, ?_⟩
  · have e : covered h x = fun n => (∑ k ∈ Finset.range n, h * x (k + 1)) + h * x 0 / 2 - h * x n / 2 :=
      funext (covered_eq h x)
    rw [e]
    simpa using (hS.add_const (h * x 0 / 2)).sub ((hx0.const_mul h).div_const 2)
  · -- it does not go forward for ever
    have hex : ∃ n, x n ≤ 0 := by
      by_contra hno
      push Not at hno
      have hm : Monotone (fun n => ∑ k ∈ Finset.range n, h * x (k + 1)) := by
        refine monotone_nat_of_le_succ (fun n => ?_)
        rw [Finset.sum_range_succ]
        have := mul_pos hh (hno (n + 1))
        linarith
      have h2 := hm.ge_of_tendsto hS 1
      simp only [Finset.sum_range_one] at h2
      have := mul_pos hh (hno (0 + 1))
      linarith
    classical
    have hN := Nat.find_spec hex
    have hmin := fun m => Nat.find_min hex (m := m)
    obtain ⟨n, hn⟩ : ∃ n, Nat.find hex = n + 1 := by
      rcases hf : Nat.find hex with _ | n
      · rw [hf] at hN; linarith
      · exact ⟨n, rfl⟩
    rw [hn] at hN hmin
    have hub : ∀ k, -A ≤ u k := by
      intro k
      obtain ⟨_, _, -, -, -, e⟩ := hb k
      rw [e]
      have : (0 : ℝ) < B := by linarith
      exact le_npClip _ _ _ (by linarith)
    have hA0 : (0 : ℝ) < A := by linarith
    have hpos : ∀ k, k ≤ n → 0 < x k := fun k hk => not_le.mp (hmin k (by omega))
    have hP : ∀ k, k ≤ n → x 0 ^ 2 / (2 * A) ≤ covered h x k + x k ^ 2 / (2 * A) := by
      intro k
      induction k with
      | zero => intro _; simp [covered]
      | succ k ih =>
        intro hk
        refine (ih (by omega)).trans ?_
        have e : covered h x (k + 1) + x (k + 1) ^ 2 / (2 * A) =
            covered h x k + x k ^ 2 / (2 * A) + h * ((x k + x (k + 1)) / 2) * ((A + u k) / A) := by
          have e2 : x (k + 1) ^ 2 = x k ^ 2 + h * u k * (x k + x (k + 1)) := by rw [H.plant]; ring
          rw [e2]
          simp only [covered, Finset.sum_range_succ]
          field_simp
          ring
        rw [e]
        have a1 := hpos k (by omega)
        have a2 := hpos (k + 1) hk
        have a3 : 0 ≤ (A + u k) / A := div_nonneg (by linarith [hub k]) hA0.le
        have : 0 ≤ h * ((x k + x (k + 1)) / 2) * ((A + u k) / A) := by positivity
        linarith
    refine ⟨n, ?_⟩
    have hxn : x n ≤ h * A := by
      have := mul_le_mul_of_nonneg_left (hub n) hh.le
      rw [H.plant] at hN
      linarith
    have hsq : x n ^ 2 ≤ (h * A) ^ 2 := pow_le_pow_left₀ (hpos n le_rfl).le hxn 2
    have := hP n le_rfl
    have h5 : x n ^ 2 / (2 * A) ≤ (h * A) ^ 2 / (2 * A) := by gcongr
    rw [sub_div]
    linarith

end Loop
end Verif
