import Verif.Phys.IvpProps

/-!
# The speed of a vehicle while a command is held
-/

namespace Verif
namespace Phys

theorem speed_rising {lo hi a T : ℝ} {f : ℝ → ℝ} (hf : ∀ t ∈ Set.Icc 0 T,
      HasDerivWithinAt f (speedConstraint lo hi (f t) a) (Set.Icc 0 T) t) (ha : 0 < a) (h0 : f 0 < hi) :
    ∀ t ∈ Set.Icc 0 T, f t < hi ∧ f t = f 0 + a * t := by
  have hcont : ContinuousOn f (Set.Icc 0 T) := fun t ht => (hf t ht).continuousWithinAt
  have line : ∀ b ∈ Set.Icc 0 T, (∀ t ∈ Set.Ico 0 b, f t < hi) → ∀ t ∈ Set.Icc 0 b, f t = f 0 + a * t := by
    intro b hb hlt t ht
    have hsub : Set.Icc 0 b ⊆ Set.Icc 0 T := Set.Icc_subset_Icc_right hb.2
    have := constant_of_has_deriv_right_zero (f := fun t => f t - a * t) (a := 0) (b := b)
      ((hcont.mono hsub).sub (by fun_prop)) (fun x hx => by
        have h1 : x ∈ Set.Icc 0 T := ⟨hx.1, hx.2.le.trans hb.2⟩
        have h2 := hf x h1
        have h3 : speedConstraint lo hi (f x) a = a := by
          unfold speedConstraint
          rw [if_neg]
          rintro (h | h)
          · exact absurd h.2 (not_lt.mpr ha.le)
          · exact absurd h.1 (not_le.mpr (hlt x hx))
        rw [h3] at h2
        have h4 : HasDerivWithinAt f a (Set.Ici x) x := by
          refine HasDerivWithinAt.mono_of_mem_nhdsWithin (h2.mono (Set.Icc_subset_Icc_left hx.1)) ?_
          exact Icc_mem_nhdsGE (hx.2.trans_le hb.2)
        have h5 := h4.sub ((hasDerivAt_id x).const_mul a).hasDerivWithinAt
        exact h5.congr_deriv (by simp)) t ht
    simp only [mul_zero, sub_zero] at this
    linarith
  have never : ∀ t ∈ Set.Icc 0 T, f t < hi := by
    by_contra hcon
    push Not at hcon
    obtain ⟨t1, ht1, h1⟩ := hcon
    set S := {t ∈ Set.Icc 0 T | hi ≤ f t} with hS
    have hclosed : IsClosed S := hcont.preimage_isClosed_of_isClosed isClosed_Icc isClosed_Ici
    have hne : S.Nonempty := ⟨t1, ht1, h1⟩
    have hbd : BddBelow S := ⟨0, fun t ht => ht.1.1⟩
    have hmem := hclosed.csInf_mem hne hbd
    set b := sInf S with hb
    have hlt : ∀ t ∈ Set.Ico 0 b, f t < hi := by
      intro t ht
      by_contra h
      exact absurd (csInf_le hbd (show t ∈ S from ⟨⟨ht.1, ht.2.le.trans hmem.1.2⟩, not_lt.mp h⟩)) (not_le.mpr ht.2)
    have hb0 : 0 < b := by
      rcases hmem.1.1.eq_or_lt with h | h
      · exact absurd hmem.2 (by rw [← h]; exact not_le.mpr h0)
      · exact h
    have hl := line b hmem.1 hlt
    have hsub : Set.Icc 0 b ⊆ Set.Icc 0 T := Set.Icc_subset_Icc_right hmem.1.2
    have d1 := (hf b hmem.1).mono hsub
    have hz : speedConstraint lo hi (f b) a = 0 := by
      unfold speedConstraint
      rw [if_pos (Or.inr ⟨hmem.2, ha⟩)]
    rw [hz] at d1
    have d2 : HasDerivWithinAt f a (Set.Icc 0 b) b := by
      have h5 := (((hasDerivAt_id b).const_mul a).const_add (f 0)).hasDerivWithinAt (s := Set.Icc 0 b)
      exact (h5.congr_deriv (by simp)).congr (fun t ht => hl t ht) (hl b ⟨hb0.le, le_rfl⟩)
    have := (uniqueDiffOn_Icc hb0 b ⟨hb0.le, le_rfl⟩).eq_deriv _ d1 d2
    linarith
  intro t ht
  exact ⟨never t ht, line T ⟨ht.1.trans ht.2, le_rfl⟩ (fun t ht => never t ⟨ht.1, ht.2.le⟩) t ht⟩

/-- A speed that begins strictly inside its limits and changes at the rate `a`, as far as the limits allow, grows
linearly: it does not arrive at a limit (no speed arrives there at a rate that jumps to zero). -/
theorem speed_linear {lo hi a T : ℝ} {f : ℝ → ℝ} (hT : 0 ≤ T) (hf : ∀ t ∈ Set.Icc 0 T,
      HasDerivWithinAt f (speedConstraint lo hi (f t) a) (Set.Icc 0 T) t) (h0 : lo < f 0 ∧ f 0 < hi) :
    f T = f 0 + a * T := by
  rcases lt_trichotomy a 0 with ha | ha | ha
  · have := speed_rising (lo := -hi) (hi := -lo) (a := -a) (T := T) (f := fun t => - f t) (fun t ht => by
      have h1 := (hf t ht).neg
      refine h1.congr_deriv ?_
      unfold speedConstraint
      by_cases h : (f t ≤ lo ∧ a < 0) ∨ (hi ≤ f t ∧ 0 < a)
      · rw [if_pos h, if_pos (by
          rcases h with h | h
          · right; exact ⟨by linarith, by linarith⟩
          · left; exact ⟨by linarith, by linarith⟩)]
        simp
      · rw [if_neg h, if_neg (by
          rintro (h' | h')
          · exact h (Or.inr ⟨by linarith, by linarith⟩)
          · exact h (Or.inl ⟨by linarith, by linarith⟩))]) (by linarith) (by linarith) T ⟨hT, le_rfl⟩
    linarith [this.2]
  · subst ha
    have := constant_of_has_deriv_right_zero (f := f) (a := 0) (b := T)
      (fun t ht => (hf t ht).continuousWithinAt) (fun x hx => by
        have h2 := hf x ⟨hx.1, hx.2.le⟩
        have h3 : speedConstraint lo hi (f x) 0 = 0 := by
          unfold speedConstraint
          split <;> rfl
        rw [h3] at h2
        exact HasDerivWithinAt.mono_of_mem_nhdsWithin (h2.mono (Set.Icc_subset_Icc_left hx.1))
          (Icc_mem_nhdsGE hx.2)) T ⟨hT, le_rfl⟩
    rw [this]; ring
  · exact (speed_rising hf ha h0.2 T ⟨hT, le_rfl⟩).2

/-- Specification: a speed that changes as that of a vehicle does to which `acc` is commanded. -/
def SpeedCurve (p : VehicleParams ℝ) (acc T : ℝ) (f : ℝ → ℝ) : Prop :=
  ∀ t ∈ Set.Icc 0 T, HasDerivWithinAt f (fullAccelerationLimits p.toModelParams (f t) acc) (Set.Icc 0 T) t

/-- The speed of a car or a bicycle that moves by its differential equation. -/
theorem speedCurve_of_motion {wb lr T : ℝ} {s : ℝ → VehicleState ℝ} {p : VehicleParams ℝ} {hc isCar : Bool}
    {u : VehicleCommands ℝ}
    (h : Motion VehicleState.toArray (fun x => (vehicleUpdate wb lr p hc isCar).rate x u) T s) :
    SpeedCurve p u.acc T (fun t => (s t).vx) := by
  intro t ht
  obtain ⟨d, h1, h2⟩ := h t ht
  have h3 := h2 3
  injection h1 with h1
  have h4 : (VehicleState.toArray d).getD 3 0 = fullAccelerationLimits p.toModelParams (s t).vx u.acc := by
    rw [← h1]
    rfl
  rw [h4] at h3
  exact h3

/-- The speed, strictly inside its limits, after a command within limits has been held. -/
theorem SpeedCurve.linear {T acc : ℝ} {f : ℝ → ℝ} {p : VehicleParams ℝ} (hT : 0 ≤ T) (h : SpeedCurve p acc T f)
    (ha : p.accMin ≤ acc ∧ acc ≤ p.accMax) (h0 : p.vxMin < f 0 ∧ f 0 < p.vxMax) : f T = f 0 + acc * T := by
  refine speed_linear (lo := p.vxMin) (hi := p.vxMax) hT (fun t ht => ?_) h0
  have := h t ht
  unfold fullAccelerationLimits accelerationLimits at this
  rw [if_neg (not_lt.mpr ha.1), if_neg (not_lt.mpr ha.2)] at this
  exact this

/-- A speed that grows linearly inside its limits. -/
theorem speedCurve_line {T acc v : ℝ} {p : VehicleParams ℝ} (ha : p.accMin ≤ acc ∧ acc ≤ p.accMax)
    (h0 : p.vxMin < v ∧ v < p.vxMax) (h1 : p.vxMin < v + acc * T ∧ v + acc * T < p.vxMax) :
    SpeedCurve p acc T (fun t => v + acc * t) := by
  intro t ht
  rw [fullAcc_inside p.toModelParams _ ha]
  · have := (((hasDerivAt_id t).const_mul acc).const_add v).hasDerivWithinAt (s := Set.Icc 0 T)
    exact this.congr_deriv (by simp)
  · rcases le_total 0 acc with h | h
    · have h2 := mul_nonneg h ht.1
      have h3 := mul_le_mul_of_nonneg_left ht.2 h
      exact ⟨by linarith [h0.1], by linarith [h1.2]⟩
    · have h2 := mul_nonneg (neg_nonneg.mpr h) ht.1
      have h3 := mul_le_mul_of_nonneg_left ht.2 (neg_nonneg.mpr h)
      exact ⟨by linarith [h1.1], by linarith [h0.2]⟩

end Phys
end Verif
