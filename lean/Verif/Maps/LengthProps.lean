import Verif.Maps.CenterProps
import Mathlib.MeasureTheory.Integral.IntervalIntegral.FundThmCalculus
import Mathlib.Analysis.SpecialFunctions.Trigonometric.Deriv

/-!
# Property C79: the position along a lane is the length of the center line

The specification is the length of a piecewise differentiable curve in the plane: the integral of the norm of its
derivative. It does not mention the distance of poses that the code adds up.
-/

namespace Verif
namespace Maps

open Real MeasureTheory Set

/-- Specification: the speed with which the position of a moving frame moves in the plane. -/
noncomputable def planeSpeed (f : ℝ → Mat3 ℝ) (β : ℝ) : ℝ :=
  Real.sqrt (deriv (fun t => (f t).a02) β ^ 2 + deriv (fun t => (f t).a12) β ^ 2)

/-- Specification: the length of the curve described by the position. -/
noncomputable def curveLength (f : ℝ → Mat3 ℝ) (a b : ℝ) : ℝ := ∫ β in a..b, planeSpeed f β

/-- The translation reached with a scaled twist moves in the direction of the twist turned by the angle reached. -/
theorem exp_deriv (v : Twist) (a : ℝ) :
    HasDerivAt (fun t => (expSE2 (v.smul t)).a02) (Real.cos (a * v.w) * v.vx - Real.sin (a * v.w) * v.vy) a ∧
    HasDerivAt (fun t => (expSE2 (v.smul t)).a12) (Real.sin (a * v.w) * v.vx + Real.cos (a * v.w) * v.vy) a := by
  by_cases hw : v.w = 0
  · have e1 : (fun t => (expSE2 (v.smul t)).a02) = fun t => t * v.vx := by
      funext t; simp [expSE2, Twist.smul, hw, rigid]
    have e2 : (fun t => (expSE2 (v.smul t)).a12) = fun t => t * v.vy := by
      funext t; simp [expSE2, Twist.smul, hw, rigid]
    rw [e1, e2, hw]
    refine ⟨?_, ?_⟩
    · simpa using (hasDerivAt_id a).mul_const v.vx
    · simpa using (hasDerivAt_id a).mul_const v.vy
  · have e1 : (fun t => (expSE2 (v.smul t)).a02) =
        fun t => (Real.sin (t * v.w) * v.vx - (1 - Real.cos (t * v.w)) * v.vy) / v.w := by
      funext t
      by_cases ht : t = 0
      · simp [expSE2, Twist.smul, ht, rigid]
      · simp only [expSE2, Twist.smul, rigid, mul_eq_zero, ht, hw, or_self, if_false]
        field_simp
    have e2 : (fun t => (expSE2 (v.smul t)).a12) =
        fun t => ((1 - Real.cos (t * v.w)) * v.vx + Real.sin (t * v.w) * v.vy) / v.w := by
      funext t
      by_cases ht : t = 0
      · simp [expSE2, Twist.smul, ht, rigid]
      · simp only [expSE2, Twist.smul, rigid, mul_eq_zero, ht, hw, or_self, if_false]
        field_simp
    have hlin : HasDerivAt (fun t : ℝ => t * v.w) v.w a := by simpa using (hasDerivAt_id a).mul_const v.w
    rw [e1, e2]
    refine ⟨?_, ?_⟩
    · have h := ((hlin.sin.mul_const v.vx).sub (((hasDerivAt_const a (1 : ℝ)).sub hlin.cos).mul_const v.vy)).div_const v.w
      refine h.congr_deriv ?_
      rw [div_eq_iff hw]
      ring
    · have h := ((((hasDerivAt_const a (1 : ℝ)).sub hlin.cos).mul_const v.vx).add (hlin.sin.mul_const v.vy)).div_const v.w
      refine h.congr_deriv ?_
      rw [div_eq_iff hw]
      ring

/-- Between two poses the position moves at a constant speed, the distance of the poses. -/
theorem interp_speed (q0 q1 : Mat3 ℝ) (h0 : IsRigid q0) (a : ℝ) :
    ∃ x y, HasDerivAt (fun t => (interpSE2 q0 q1 t).a02) x a ∧ HasDerivAt (fun t => (interpSE2 q0 q1 t).a12) y a ∧
      Real.sqrt (x ^ 2 + y ^ 2) = distSE2 q0 q1 := by
  obtain ⟨c, s, tx, ty, hcs, rfl⟩ := h0
  obtain ⟨d1, d2⟩ := exp_deriv (logSE2 ((rigid c s tx ty).cof.mul q1)) a
  obtain ⟨v, hv⟩ : ∃ v, v = logSE2 ((rigid c s tx ty).cof.mul q1) := ⟨_, rfl⟩
  rw [← hv] at d1 d2
  have r22 : ∀ t, (expSE2 (v.smul t)).a22 = 1 := by
    intro t; unfold expSE2; split <;> simp [rigid]
  obtain ⟨X, hX⟩ : ∃ X, X = Real.cos (a * v.w) * v.vx - Real.sin (a * v.w) * v.vy := ⟨_, rfl⟩
  obtain ⟨Y, hY⟩ : ∃ Y, Y = Real.sin (a * v.w) * v.vx + Real.cos (a * v.w) * v.vy := ⟨_, rfl⟩
  rw [← hX] at d1
  rw [← hY] at d2
  have e1 : (fun t => (interpSE2 (rigid c s tx ty) q1 t).a02) =
      fun t => c * (expSE2 (v.smul t)).a02 + -s * (expSE2 (v.smul t)).a12 + tx * 1 := by
    funext t
    rw [← r22 t]
    unfold interpSE2
    rw [← hv]
    rfl
  have e2 : (fun t => (interpSE2 (rigid c s tx ty) q1 t).a12) =
      fun t => s * (expSE2 (v.smul t)).a02 + c * (expSE2 (v.smul t)).a12 + ty * 1 := by
    funext t
    rw [← r22 t]
    unfold interpSE2
    rw [← hv]
    rfl
  refine ⟨c * X + -s * Y, s * X + c * Y, ?_, ?_, ?_⟩
  · rw [e1]
    exact ((d1.const_mul c).add (d2.const_mul (-s))).add_const _
  · rw [e2]
    exact ((d1.const_mul s).add (d2.const_mul c)).add_const _
  · unfold distSE2 norm2
    rw [← hv]
    congr 1
    have h1 := Real.sin_sq_add_cos_sq (a * v.w)
    have e3 : X ^ 2 + Y ^ 2 = v.vx ^ 2 + v.vy ^ 2 := by
      rw [hX, hY]
      linear_combination (v.vx ^ 2 + v.vy ^ 2) * h1
    linear_combination e3 + (X ^ 2 + Y ^ 2) * hcs

/-- Inside a segment the center line moves at the speed given by the length of the segment. -/
theorem center_speed {cps : List CtrPoint} {f : ℝ → Mat3 ℝ} (hf : IsCenter cps f) {i : ℕ} {c d : CtrPoint}
    (hc : cps[i]? = some c) (hd : cps[i + 1]? = some d) {β : ℝ} (h0 : (i : ℝ) < β) (h1 : β < i + 1) :
    DifferentiableAt ℝ (fun t => (f t).a02) β ∧ DifferentiableAt ℝ (fun t => (f t).a12) β ∧
      planeSpeed f β = distSE2 c.q.asSE2 d.q.asSE2 := by
  obtain ⟨x, y, hx, hy, hl⟩ := interp_speed c.q.asSE2 d.q.asSE2 (asSE2_rigid _) (β - i)
  have hev : ∀ᶠ t in nhds β, f t = interpSE2 c.q.asSE2 d.q.asSE2 (t - i) := by
    filter_upwards [Ioo_mem_nhds h0 h1] with t ht
    have := hf.seg i c d hc hd (t - i) (by linarith [ht.1]) (by linarith [ht.2])
    rwa [add_sub_cancel] at this
  have hx' : HasDerivAt (fun t => (f t).a02) x β := by
    have h := hx.comp_sub_const β (i : ℝ)
    exact h.congr_of_eventuallyEq (hev.mono fun t ht => by simp only [ht])
  have hy' : HasDerivAt (fun t => (f t).a12) y β := by
    have h := hy.comp_sub_const β (i : ℝ)
    exact h.congr_of_eventuallyEq (hev.mono fun t ht => by simp only [ht])
  refine ⟨hx'.differentiableAt, hy'.differentiableAt, ?_⟩
  unfold planeSpeed
  rw [hx'.deriv, hy'.deriv, hl]

/-- The length of a piece of the center line within a segment. -/
theorem length_segment {cps : List CtrPoint} {f : ℝ → Mat3 ℝ} (hf : IsCenter cps f) {g : ℝ → ℝ}
    (hg : IsAlong (laneLengths cps) g) {i : ℕ} {c d : CtrPoint}
    (hc : cps[i]? = some c) (hd : cps[i + 1]? = some d) {a b : ℝ} (h0 : (i : ℝ) ≤ a) (hab : a ≤ b) (h1 : b ≤ i + 1) :
    IntervalIntegrable (planeSpeed f) volume a b ∧ curveLength f a b = g b - g a := by
  have hconst : ∀ β ∈ Ioo a b, planeSpeed f β = distSE2 c.q.asSE2 d.q.asSE2 := fun β hβ =>
    (center_speed hf hc hd (by linarith [hβ.1]) (by linarith [hβ.2])).2.2
  have hae : ∀ᵐ β ∂volume, β ∈ Set.uIoc a b → planeSpeed f β = distSE2 c.q.asSE2 d.q.asSE2 := by
    have hb : ∀ᵐ β ∂(volume : Measure ℝ), β ≠ b := by
      simp [ae_iff, measure_singleton]
    filter_upwards [hb] with β hβ hm
    rw [uIoc_of_le hab] at hm
    exact hconst β ⟨hm.1, lt_of_le_of_ne hm.2 hβ⟩
  have hl := laneLengths_get cps i c d hc hd
  refine ⟨?_, ?_⟩
  · exact (intervalIntegrable_const (c := distSE2 c.q.asSE2 d.q.asSE2)).congr_ae
      (by rw [Filter.EventuallyEq, ae_restrict_iff' measurableSet_uIoc]; filter_upwards [hae] with β h hm using (h hm).symm)
  · unfold curveLength
    rw [intervalIntegral.integral_congr_ae hae, intervalIntegral.integral_const,
      hg.seg i _ hl _ (by linarith) h1, hg.seg i _ hl _ h0 (by linarith), smul_eq_mul]
    ring

/-- **C79.** The center line is a continuous curve, also beyond the ends of the lane. -/
theorem C79_continuous (cps : List CtrPoint) (hne : cps ≠ []) (f : ℝ → Mat3 ℝ) (hf : IsCenter cps f) :
    Continuous (fun β => (f β).a02) ∧ Continuous (fun β => (f β).a12) := by
  obtain ⟨⟨c0, hc0⟩, ⟨cl, hcl⟩⟩ := head_last cps hne
  have hh : cps.head? = some c0 := by rw [List.head?_eq_getElem?]; exact hc0
  have hfst : ∀ F : Mat3 ℝ → ℝ, (∀ q : Mat3 ℝ, Continuous fun x : ℝ => F (q.mul (rigid 1 0 x 0))) →
      (∀ q0 q1 : Mat3 ℝ, IsRigid q0 → Continuous fun t => F (interpSE2 q0 q1 t)) → Continuous fun β => F (f β) := by
    intro F hF1 hF2
    have hleft : ∀ k : ℕ, k + 1 ≤ cps.length → ContinuousOn (fun β => F (f β)) (Iic (k : ℝ)) := by
      intro k
      induction k with
      | zero =>
        intro _
        have h := (hF1 c0.q.asSE2).comp (continuous_id.div_const (10 : ℝ))
        refine h.continuousOn.congr fun β hβ => ?_
        simp only [Nat.cast_zero, mem_Iic] at hβ
        simp only [hf.before c0 hh β hβ, Function.comp_apply, id_eq]
      | succ k ih =>
        intro hk
        have hu : Iic ((k + 1 : ℕ) : ℝ) = Iic (k : ℝ) ∪ Icc (k : ℝ) (k + 1) := by
          push_cast
          rw [Iic_union_Icc_eq_Iic (by linarith)]
        rw [hu]
        refine (ih (by omega)).union_of_isClosed ?_ isClosed_Iic isClosed_Icc
        have hc : cps[k]? = some cps[k] := List.getElem?_eq_getElem (by omega)
        have hd : cps[k + 1]? = some cps[k + 1] := List.getElem?_eq_getElem (by omega)
        have h := (hF2 cps[k].q.asSE2 cps[k + 1].q.asSE2 (asSE2_rigid _)).comp (continuous_id.sub continuous_const :
          Continuous fun t : ℝ => t - (k : ℝ))
        refine h.continuousOn.congr fun β hβ => ?_
        have := hf.seg k _ _ hc hd (β - k) (by linarith [hβ.1]) (by linarith [hβ.2])
        rw [add_sub_cancel] at this
        simp only [this, Function.comp_apply]
        rfl
    have hpos : 0 < cps.length := List.length_pos_iff.mpr hne
    have hl := hleft (cps.length - 1) (by omega)
    rw [Nat.cast_sub hpos, Nat.cast_one] at hl
    rw [← continuousOn_univ, ← Iic_union_Ici (a := (cps.length : ℝ) - 1)]
    refine hl.union_of_isClosed ?_ isClosed_Iic isClosed_Ici
    have h := (hF1 cl.q.asSE2).comp ((continuous_id.sub continuous_const :
      Continuous fun t : ℝ => t - ((cps.length : ℝ) - 1)).div_const (10 : ℝ))
    refine h.continuousOn.congr fun β hβ => ?_
    have := hf.after cl hcl (β - ((cps.length : ℝ) - 1)) (by linarith [mem_Ici.mp hβ])
    rw [add_sub_cancel] at this
    simp only [this, Function.comp_apply]
    rfl
  refine ⟨hfst _ ?_ ?_, hfst _ ?_ ?_⟩
  · intro q
    simp only [Mat3.mul, rigid]
    fun_prop
  · intro q0 q1 h0
    exact continuous_iff_continuousAt.mpr fun t => by
      obtain ⟨x, y, hx, -, -⟩ := interp_speed q0 q1 h0 t
      exact hx.continuousAt
  · intro q
    simp only [Mat3.mul, rigid]
    fun_prop
  · intro q0 q1 h0
    exact continuous_iff_continuousAt.mpr fun t => by
      obtain ⟨x, y, -, hy, -⟩ := interp_speed q0 q1 h0 t
      exact hy.continuousAt

/-- **C79, within the lane.** The difference of the positions along the lane of two points of the center line is the
length of the center line between them, as a curve in the plane, over any number of segments. -/
theorem C79_length_partial (cps : List CtrPoint) (f : ℝ → Mat3 ℝ) (hf : IsCenter cps f) (g : ℝ → ℝ)
    (hg : IsAlong (laneLengths cps) g) (a b : ℝ) (h0 : 0 ≤ a) (hab : a ≤ b) (h1 : b ≤ (cps.length : ℝ) - 1) :
    (∀ β, 0 < β → β < (cps.length : ℝ) - 1 → (∀ k : ℕ, β ≠ k) →
      DifferentiableAt ℝ (fun t => (f t).a02) β ∧ DifferentiableAt ℝ (fun t => (f t).a12) β) ∧
      curveLength f a b = g b - g a := by
  have hseg : ∀ i : ℕ, ∀ β : ℝ, (i : ℝ) < β → β ≤ (cps.length : ℝ) - 1 →
      ∃ c d, cps[i]? = some c ∧ cps[i + 1]? = some d := by
    intro i β hi hβ
    have hlt : i + 1 < cps.length := by
      have : ((i + 1 : ℕ) : ℝ) < cps.length := by push_cast; linarith
      exact Nat.cast_lt.mp this
    exact ⟨_, _, List.getElem?_eq_getElem (by omega), List.getElem?_eq_getElem hlt⟩
  have hjoin : ∀ x y : ℝ, IntervalIntegrable (planeSpeed f) volume 0 x → curveLength f 0 x = g x - g 0 →
      IntervalIntegrable (planeSpeed f) volume x y → curveLength f x y = g y - g x →
      IntervalIntegrable (planeSpeed f) volume 0 y ∧ curveLength f 0 y = g y - g 0 := by
    intro x y i1 l1 i2 l2
    refine ⟨i1.trans i2, ?_⟩
    unfold curveLength at *
    rw [← intervalIntegral.integral_add_adjacent_intervals i1 i2, l1, l2]
    ring
  have hknot : ∀ k : ℕ, (k : ℝ) ≤ (cps.length : ℝ) - 1 →
      IntervalIntegrable (planeSpeed f) volume 0 (k : ℝ) ∧ curveLength f 0 k = g k - g 0 := by
    intro k
    induction k with
    | zero => intro _; simp [curveLength]
    | succ k ih =>
      intro hk
      push_cast at hk
      obtain ⟨i1, l1⟩ := ih (by linarith)
      obtain ⟨c, d, hc, hd⟩ := hseg k (k + 1) (by linarith) hk
      obtain ⟨i2, l2⟩ := length_segment hf hg hc hd le_rfl (by linarith : (k : ℝ) ≤ k + 1) le_rfl
      push_cast
      exact hjoin _ _ i1 l1 i2 l2
  have hall : ∀ β : ℝ, 0 ≤ β → β ≤ (cps.length : ℝ) - 1 →
      IntervalIntegrable (planeSpeed f) volume 0 β ∧ curveLength f 0 β = g β - g 0 := by
    intro β hβ0 hβ1
    have hfl := Nat.floor_le hβ0
    obtain ⟨i1, l1⟩ := hknot ⌊β⌋₊ (by linarith)
    rcases hfl.eq_or_lt with he | hlt
    · rw [← he]
      exact ⟨i1, l1⟩
    · obtain ⟨c, d, hc, hd⟩ := hseg ⌊β⌋₊ β hlt hβ1
      obtain ⟨i2, l2⟩ := length_segment hf hg hc hd le_rfl hlt.le (Nat.lt_floor_add_one β).le
      exact hjoin _ _ i1 l1 i2 l2
  refine ⟨?_, ?_⟩
  · intro β hβ0 hβ1 hk
    have hlt := lt_of_le_of_ne (Nat.floor_le hβ0.le) (hk _).symm
    obtain ⟨c, d, hc, hd⟩ := hseg ⌊β⌋₊ β hlt hβ1.le
    obtain ⟨u, w, -⟩ := center_speed hf hc hd hlt (Nat.lt_floor_add_one β)
    exact ⟨u, w⟩
  · obtain ⟨i1, l1⟩ := hall a h0 (by linarith)
    obtain ⟨i2, l2⟩ := hall b (by linarith) h1
    unfold curveLength at *
    rw [← intervalIntegral.integral_interval_sub_left i2 i1, l1, l2]
    ring

/-- A lane that turns left by a right angle: its center line is a quarter of a circle of radius 1 and a straight piece. -/
example : ∃ cps : List CtrPoint, ∃ f g, cps.length = 3 ∧ IsCenter cps f ∧ IsAlong (laneLengths cps) g ∧
    curveLength f (1 / 2) (3 / 2) = g (3 / 2) - g (1 / 2) := by
  obtain ⟨cps, hcps⟩ : ∃ cps : List CtrPoint, cps = [⟨⟨0, 0, 0⟩, 1⟩, ⟨⟨1, 1, Real.pi / 2⟩, 1⟩, ⟨⟨1, 5, Real.pi / 2⟩, 1⟩] :=
    ⟨_, rfl⟩
  obtain ⟨f, hf, -⟩ := C55_center cps (by simp [hcps])
  obtain ⟨g, hg, -⟩ := C53_along (laneLengths cps)
  have hl : cps.length = 3 := by rw [hcps]; rfl
  exact ⟨cps, f, g, hl, hf, hg, (C79_length_partial cps f hf g hg _ _ (by norm_num) (by norm_num)
    (by rw [hl]; norm_num)).2⟩

end Maps
end Verif
