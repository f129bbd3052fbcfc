import Verif.Seq.OpFloat
import Verif.Seq.OpProps
import Verif.Seq.FloatProps

/-!
# C140: operations on sequences of numbers in floating point
-/

namespace Verif

open Finset

/-- 2⁻⁵³ -/
local notation "𝕦" => (1 / 9007199254740992 : ℚ)

/-! ## Lemmas -/

theorem iterateF_spec {r : ℚ → ℚ} (s : Seq ℚ ℚ) (h : s.ts.length = s.vs.length) (hr : ∀ t ∈ s.ts, r t = t) :
    ∃ items, iterateF r s.ts s.vs = .ok items ∧ items.length = s.ts.length - 1 ∧
      ∀ i, i < items.length →
        items[i]? = some ⟨s.t i, s.t (i+1), r (s.t (i+1) - s.t i), s.v i, s.v (i+1)⟩ := by
  obtain ⟨items, h1, h2, h3⟩ := iterateWithDt_spec s.ts s.vs h
  have hmap : s.ts.map r = s.ts := by
    conv_rhs => rw [← List.map_id s.ts]
    exact List.map_congr_left hr
  refine ⟨items.map (fun it => { it with dt := r it.dt }), ?_, by simpa using h2, fun i hi => ?_⟩
  · unfold iterateF
    rw [hmap, h1]
  have hi0 : i < items.length := by simpa using hi
  have hi' : i + 1 < s.ts.length := by omega
  have hi2 : i + 1 < s.vs.length := by rw [← h]; exact hi'
  rw [List.getElem?_map, h3 i hi' hi2]
  unfold Seq.t Seq.v
  rw [List.getD_eq_getElem _ _ hi', List.getD_eq_getElem _ _ hi2,
    List.getD_eq_getElem s.ts _ (by omega), List.getD_eq_getElem s.vs _ (by omega)]
  rfl

/-- One step of the loop of `seq_integrate`. -/
def integrateStepF (r : ℚ → ℚ) (c : ℚ) (it : IterateDT ℚ ℚ) : ℚ := r (c + r (r (r (it.v0 + it.v1) / 2) * it.dt))

theorem integrateLoopF_length (r : ℚ → ℚ) (c : ℚ) (items : List (IterateDT ℚ ℚ)) :
    (integrateLoopF r c items).length = items.length := by
  induction items generalizing c with
  | nil => rfl
  | cons it rest ih => simp [integrateLoopF, ih]

theorem integrateLoopF_zero (r : ℚ → ℚ) (c : ℚ) (items : List (IterateDT ℚ ℚ)) (it : IterateDT ℚ ℚ)
    (h : items[0]? = some it) : (integrateLoopF r c items)[0]? = some (it.t1, integrateStepF r c it) := by
  cases items with
  | nil => simp at h
  | cons a rest =>
    simp at h
    subst h
    rfl

theorem integrateLoopF_succ (r : ℚ → ℚ) (c : ℚ) (items : List (IterateDT ℚ ℚ)) (i : ℕ) (it : IterateDT ℚ ℚ) (t x : ℚ)
    (h : items[i + 1]? = some it) (hx : (integrateLoopF r c items)[i]? = some (t, x)) :
    (integrateLoopF r c items)[i + 1]? = some (it.t1, integrateStepF r x it) := by
  induction items generalizing c i with
  | nil => simp at h
  | cons a rest ih =>
    simp only [List.getElem?_cons_succ] at h
    simp only [integrateLoopF, List.getElem?_cons_succ] at hx ⊢
    cases i with
    | zero =>
      simp only [List.getElem?_cons_zero, Option.some.injEq, Prod.mk.injEq] at hx
      rw [hx.2]
      exact integrateLoopF_zero r x rest it h
    | succ i =>
      simp only [List.getElem?_cons_succ] at hx
      exact ih _ i h hx

theorem trapezoid_succ (s : Seq ℚ ℚ) (k : ℕ) :
    trapezoid s (k + 1) = trapezoid s k + (s.v k + s.v (k + 1)) / 2 * (s.t (k + 1) - s.t k) := by
  unfold trapezoid
  rw [Finset.sum_range_succ]
  simp only [smul_eq_mul]
  ring

theorem trapezoid_abs (s : Seq ℚ ℚ) (h : s.Valid) (M : ℚ) (hM : ∀ i, |s.v i| ≤ M) (k : ℕ) (hk : k < s.ts.length) :
    |trapezoid s k| ≤ M * (s.t k - s.t 0) := by
  induction k with
  | zero => simp [trapezoid]
  | succ k ih =>
    have i1 := ih (by omega)
    have hlt := Seq.t_lt s h k (k + 1) (by omega) hk
    rw [trapezoid_succ]
    have i2 : |(s.v k + s.v (k + 1)) / 2 * (s.t (k + 1) - s.t k)| ≤ M * (s.t (k + 1) - s.t k) := by
      rw [abs_mul, abs_of_pos (by linarith : 0 < s.t (k + 1) - s.t k)]
      refine mul_le_mul_of_nonneg_right ?_ (by linarith)
      have a := hM k
      have b := hM (k + 1)
      rw [abs_le] at a b ⊢
      constructor <;> linarith [a.1, a.2, b.1, b.2]
    rw [abs_le] at i1 i2 ⊢
    constructor <;> linarith [i1.1, i1.2, i2.1, i2.2]

/-- The rounded contribution of one interval. -/
theorem term_near {r : ℚ → ℚ} (hr : RoundLaws r) {a b M dt : ℚ} (ha : |a| ≤ M) (hb : |b| ≤ M) (hdt : 0 ≤ dt) :
    |r (r (r (a + b) / 2) * r dt) - (a + b) / 2 * dt| ≤ ((1 + 𝕦) ^ 5 - 1) * (M * dt) := by
  have hM : 0 ≤ M := (abs_nonneg _).trans ha
  have k0 : |a + b| ≤ 2 * M := by
    rw [abs_le] at ha hb ⊢
    constructor <;> linarith [ha.1, ha.2, hb.1, hb.2]
  have k1 := hr.near (a + b)
  have k2 := hr.near (r (a + b) / 2)
  have k3 : |r (a + b)| ≤ 2 * M + 2 * M * 𝕦 := by
    rw [abs_le] at k0 k1 ⊢
    have := abs_le.mpr k0
    constructor <;> linarith [k0.1, k0.2, k1.1, k1.2]
  have k4 : |r (a + b) / 2| ≤ M + M * 𝕦 := by
    rw [abs_div, abs_two]
    linarith
  have k5 : |r (r (a + b) / 2) - (a + b) / 2| ≤ (2 * 𝕦 + 𝕦 * 𝕦) * M := by
    rw [abs_le] at k1 k2 ⊢
    constructor <;> linarith [k1.1, k1.2, k2.1, k2.2]
  have k6 : |r dt - dt| ≤ 𝕦 * dt := by
    have := hr.near dt
    rw [abs_of_nonneg hdt] at this
    linarith
  have k7 : |(a + b) / 2| ≤ M := by
    rw [abs_div, abs_two]
    linarith
  have k8 := mul_near hr k7 (abs_of_nonneg hdt).le k5 k6 (by norm_num) (by norm_num)
  refine k8.trans (mul_le_mul_of_nonneg_right ?_ (by positivity))
  norm_num

theorem integrate_near {r : ℚ → ℚ} (hr : RoundLaws r) (s : Seq ℚ ℚ) (h : s.Valid) (items : List (IterateDT ℚ ℚ))
    (hl : items.length = s.ts.length - 1)
    (hi : ∀ i, i < items.length → items[i]? = some ⟨s.t i, s.t (i+1), r (s.t (i+1) - s.t i), s.v i, s.v (i+1)⟩)
    (M : ℚ) (hM : ∀ i, |s.v i| ≤ M) (k : ℕ) (hk : k < items.length) :
    ∃ x, (integrateLoopF r 0 items)[k]? = some (s.t (k + 1), x) ∧
      |x - trapezoid s (k + 1)| ≤ ((1 + 𝕦) ^ (k + 6) - 1) * (M * (s.t (k + 1) - s.t 0)) := by
  have hM0 : 0 ≤ M := (abs_nonneg _).trans (hM 0)
  have step : ∀ (k : ℕ) (x S E A : ℚ), k < items.length → |x - S| ≤ E → |S| ≤ A → 0 ≤ E →
      |integrateStepF r x ⟨s.t k, s.t (k+1), r (s.t (k+1) - s.t k), s.v k, s.v (k+1)⟩ -
        (S + (s.v k + s.v (k + 1)) / 2 * (s.t (k + 1) - s.t k))| ≤
        (1 + 𝕦) * E + 𝕦 * A + ((1 + 𝕦) ^ 6 - 1) * (M * (s.t (k + 1) - s.t k)) := by
    intro k x S E A hk hE hA hE0
    have hlt := Seq.t_lt s h k (k + 1) (by omega) (by omega)
    have t1 := term_near hr (hM k) (hM (k + 1)) (by linarith : 0 ≤ s.t (k + 1) - s.t k)
    unfold integrateStepF
    simp only
    obtain ⟨y, hy⟩ : ∃ y, y = r (r (r (s.v k + s.v (k + 1)) / 2) * r (s.t (k + 1) - s.t k)) := ⟨_, rfl⟩
    obtain ⟨z, hz⟩ : ∃ z, z = (s.v k + s.v (k + 1)) / 2 * (s.t (k + 1) - s.t k) := ⟨_, rfl⟩
    obtain ⟨Z, hZ⟩ : ∃ Z, Z = M * (s.t (k + 1) - s.t k) := ⟨_, rfl⟩
    have hz2 : |z| ≤ Z := by
      rw [hz, hZ, abs_mul, abs_of_pos (by linarith : 0 < s.t (k + 1) - s.t k)]
      refine mul_le_mul_of_nonneg_right ?_ (by linarith)
      have a := hM k
      have b := hM (k + 1)
      rw [abs_le] at a b ⊢
      constructor <;> linarith [a.1, a.2, b.1, b.2]
    rw [← hy, ← hz, ← hZ] at t1
    rw [← hy, ← hz, ← hZ]
    have n := hr.near (x + y)
    have hZ0 : 0 ≤ Z := (abs_nonneg _).trans hz2
    have e6 : (1 + 𝕦) ^ 6 - 1 = (1 + 𝕦) * ((1 + 𝕦) ^ 5 - 1) + 𝕦 := by norm_num
    obtain ⟨p, hp⟩ : ∃ p, p = (1 + 𝕦) ^ 5 - 1 := ⟨_, rfl⟩
    rw [e6, ← hp]
    rw [← hp] at t1
    have b1 : |x + y| ≤ E + A + (p * Z + Z) := by
      rw [abs_le] at hE hA t1 hz2 ⊢
      constructor <;> linarith [hE.1, hE.2, hA.1, hA.2, t1.1, t1.2, hz2.1, hz2.2]
    have e7 : (1 + 𝕦) * E + 𝕦 * A + ((1 + 𝕦) * p + 𝕦) * Z = E + p * Z + (E + A + (p * Z + Z)) * 𝕦 := by ring
    rw [e7]
    rw [abs_le] at hE t1 n ⊢
    constructor <;> linarith [hE.1, hE.2, t1.1, t1.2, n.1, n.2]
  induction k with
  | zero =>
    have h0 := hi 0 hk
    refine ⟨_, integrateLoopF_zero r 0 items _ h0, ?_⟩
    have := step 0 0 0 0 0 hk (by simp) (by simp) le_rfl
    rw [trapezoid_succ]
    simpa [trapezoid] using this
  | succ k ih =>
    obtain ⟨x, hx, hE⟩ := ih (by omega)
    have hlt := Seq.t_lt s h k (k + 1) (by omega) (by omega)
    have hlt2 := Seq.t_lt s h (k + 1) (k + 2) (by omega) (by omega)
    have hlt0 : s.t 0 < s.t (k + 1) := Seq.t_lt s h 0 (k + 1) (by omega) (by omega)
    refine ⟨_, integrateLoopF_succ r 0 items k _ _ _ (hi (k + 1) hk) hx, ?_⟩
    rw [trapezoid_succ]
    have hpow : (1 : ℚ) ≤ (1 + 𝕦) ^ (k + 6) := one_le_pow₀ (by norm_num)
    have hA := trapezoid_abs s h M hM (k + 1) (by omega)
    obtain ⟨A, hAd⟩ : ∃ A, A = M * (s.t (k + 1) - s.t 0) := ⟨_, rfl⟩
    have hA0 : 0 ≤ A := by rw [hAd]; exact mul_nonneg hM0 (by linarith)
    rw [← hAd] at hA hE
    have := step (k + 1) x _ _ _ hk hE hA (mul_nonneg (by linarith) hA0)
    refine this.trans ?_
    obtain ⟨Z, hZ⟩ : ∃ Z, Z = M * (s.t (k + 1 + 1) - s.t (k + 1)) := ⟨_, rfl⟩
    have hZ0 : 0 ≤ Z := by rw [hZ]; exact mul_nonneg hM0 (by linarith)
    have e : M * (s.t (k + 1 + 1) - s.t 0) = A + Z := by rw [hAd, hZ]; ring
    rw [e, ← hZ]
    have e1 : (1 + 𝕦) * (((1 + 𝕦) ^ (k + 6) - 1) * A) + 𝕦 * A = ((1 + 𝕦) ^ (k + 1 + 6) - 1) * A := by ring
    have e2 : ((1 + 𝕦) ^ 6 - 1) * Z ≤ ((1 + 𝕦) ^ (k + 1 + 6) - 1) * Z := by
      refine mul_le_mul_of_nonneg_right ?_ hZ0
      have : (1 + 𝕦) ^ 6 ≤ (1 + 𝕦) ^ (k + 1 + 6) := pow_le_pow_right₀ (by norm_num) (by omega)
      linarith
    rw [e1, mul_add]
    linarith

theorem integrate_out {r : ℚ → ℚ} (s : Seq ℚ ℚ) (h : s.Valid) (hf : ∀ t ∈ s.ts, r t = t) (hn : 2 ≤ s.ts.length)
    (hr : RoundLaws r) : ∃ items, items.length = s.ts.length - 1 ∧
      (∀ i, i < items.length → items[i]? = some ⟨s.t i, s.t (i+1), r (s.t (i+1) - s.t i), s.v i, s.v (i+1)⟩) ∧
      seqIntegrateF r s = .ok ⟨(integrateLoopF r 0 items).map Prod.fst, (integrateLoopF r 0 items).map Prod.snd⟩ ∧
      (integrateLoopF r 0 items).map Prod.fst = s.ts.tail := by
  obtain ⟨items, h1, h2, h3⟩ := iterateF_spec s h.1 hf
  have hfst : (integrateLoopF r 0 items).map Prod.fst = s.ts.tail := by
    have gen : ∀ (l : List (IterateDT ℚ ℚ)) (c : ℚ), (integrateLoopF r c l).map Prod.fst = l.map (·.t1) := by
      intro l
      induction l with
      | nil => intro c; rfl
      | cons a l ih => intro c; simp only [integrateLoopF, List.map_cons, ih]
    rw [gen]
    apply List.ext_getElem (by simp [h2])
    intro i hi hi'
    simp only [List.length_map] at hi
    obtain ⟨_, e⟩ := List.getElem?_eq_some_iff.mp (h3 i hi)
    simp only [List.getElem_map, e, List.getElem_tail]
    exact List.getD_eq_getElem _ _ (by omega)
  refine ⟨items, h2, h3, ?_, hfst⟩
  have hA : Arith.Laws ⟨r, r⟩ := ⟨hr, hr⟩
  unfold seqIntegrateF
  rw [if_neg (by omega), if_neg (by rw [← h.1]; omega), h1]
  simp only
  rw [Seq.mkF_eq hA]
  refine Seq.mk?_of_valid _ _ (by simp) ?_
  rw [hfst]
  exact h.2.sublist (List.tail_sublist _)

theorem v_abs (s : Seq ℚ ℚ) (M : ℚ) (hM0 : 0 ≤ M) (hM : ∀ v ∈ s.vs, |v| ≤ M) (i : ℕ) : |s.v i| ≤ M := by
  unfold Seq.v
  by_cases hi : i < s.vs.length
  · rw [List.getD_eq_getElem _ _ hi]
    exact hM _ (List.getElem_mem _)
  · rw [List.getD_eq_default _ _ (by omega)]
    simpa using hM0

/-! ## C140 -/

/-- **C140** Integration, differentiation: the timestamps take part as floats only (`iterate_with_dt`), so `Decimal`
timestamps give what their conversions to floats give. -/
theorem C140_convert (s : Seq ℚ ℚ) : (2 ≤ s.vs.length →
      seqIntegrateF Sim.double s = seqIntegrateF Sim.double ⟨s.ts.map Sim.double, s.vs⟩) ∧
    seqDifferentiateF Sim.double s = seqDifferentiateF Sim.double ⟨s.ts.map Sim.double, s.vs⟩ := by
  have e : iterateF Sim.double (s.ts.map Sim.double) s.vs = iterateF Sim.double s.ts s.vs := by
    unfold iterateF
    rw [List.map_map]
    congr 3
    funext x
    exact double_laws.idem x
  constructor
  · intro h
    simp only [seqIntegrateF, e, List.length_map]
    rw [if_neg (by omega : ¬ s.vs.length = 1), if_neg (by omega : ¬ s.vs.length = 1)]
  · simp only [seqDifferentiateF, e, List.length_map]

/-- **C140** In floating point, integration of an accepted sequence with at least two samples succeeds, has the
timestamps of the samples but the first, and the integral up to sample `i + 1` is the trapezoid sum up to a relative
error (of the largest possible integral) which grows with the number of samples only. -/
theorem C140_integrate (s : Seq ℚ ℚ) (h : s.Valid) (hf : ∀ t ∈ s.ts, Sim.double t = t) (hn : 2 ≤ s.ts.length)
    (hmax : s.ts.length + 5 ≤ 2 ^ 52) (M : ℚ) (hM : ∀ v ∈ s.vs, |v| ≤ M) :
    ∃ s', seqIntegrateF Sim.double s = .ok s' ∧ s'.Valid ∧ s'.ts = s.ts.tail ∧ ∀ i, i + 1 < s.ts.length →
      |s'.v i - trapezoid s (i + 1)| ≤ (i + 6) / 2 ^ 52 * (M * (s.t (i + 1) - s.t 0)) := by
  obtain ⟨items, h2, h3, ho, hfst⟩ := integrate_out s h hf hn double_laws
  have hM0 : 0 ≤ M := by
    have hv : 0 < s.vs.length := by rw [← h.1]; omega
    exact (abs_nonneg _).trans (hM _ (List.getElem_mem hv))
  refine ⟨_, ho, ⟨by simp, ?_⟩, hfst, fun i hi => ?_⟩
  · simp only
    rw [hfst]
    exact h.2.sublist (List.tail_sublist _)
  obtain ⟨x, hx, hE⟩ := integrate_near double_laws s h items h2 h3 M (v_abs s M hM0 hM) i (by omega)
  have hv : Seq.v (⟨(integrateLoopF Sim.double 0 items).map Prod.fst,
      (integrateLoopF Sim.double 0 items).map Prod.snd⟩ : Seq ℚ ℚ) i = x := by
    simp [Seq.v, List.getD, hx]
  rw [hv]
  refine hE.trans (mul_le_mul_of_nonneg_right ?_ ?_)
  · have := pow_near (i + 6) (by omega)
    push_cast at this
    exact this
  · have := Seq.t_lt s h 0 (i + 1) (by omega) (by omega)
    exact mul_nonneg hM0 (by linarith)

/-- **C140** In floating point the integral of nonnegative values is nonnegative and never decreases (exactly). -/
theorem C140_monotone (s s' : Seq ℚ ℚ) (h : s.Valid) (hf : ∀ t ∈ s.ts, Sim.double t = t) (hn : 2 ≤ s.ts.length)
    (hv : ∀ v ∈ s.vs, 0 ≤ v) (hs : seqIntegrateF Sim.double s = .ok s') :
    (∀ v ∈ s'.vs, 0 ≤ v) ∧ s'.vs.Pairwise (· ≤ ·) := by
  obtain ⟨items, h2, h3, ho, _⟩ := integrate_out s h hf hn double_laws
  rw [ho] at hs
  injection hs with hs
  subst hs
  have hv0 : ∀ i, 0 ≤ s.v i := by
    intro i
    unfold Seq.v
    by_cases hi : i < s.vs.length
    · rw [List.getD_eq_getElem _ _ hi]
      exact hv _ (List.getElem_mem _)
    · rw [List.getD_eq_default _ _ (by omega)]
  have hit : ∀ it ∈ items, 0 ≤ it.v0 ∧ 0 ≤ it.v1 ∧ 0 ≤ it.dt := by
    intro it hm
    obtain ⟨i, hi, e⟩ := List.getElem_of_mem hm
    obtain ⟨_, e'⟩ := List.getElem?_eq_some_iff.mp (h3 i hi)
    rw [← e, e']
    have := Seq.t_lt s h i (i + 1) (by omega) (by omega)
    exact ⟨hv0 _, hv0 _, double_laws.nonneg (by linarith)⟩
  have gen : ∀ (l : List (IterateDT ℚ ℚ)) (c : ℚ), 0 ≤ c → Sim.double c = c →
      (∀ it ∈ l, 0 ≤ it.v0 ∧ 0 ≤ it.v1 ∧ 0 ≤ it.dt) →
      (∀ v ∈ (integrateLoopF Sim.double c l).map Prod.snd, c ≤ v) ∧
        ((integrateLoopF Sim.double c l).map Prod.snd).Pairwise (· ≤ ·) := by
    intro l
    induction l with
    | nil => intro c _ _ _; simp [integrateLoopF]
    | cons a l ih =>
      intro c hc hcr ha
      obtain ⟨p, q, d⟩ := ha a (by simp)
      simp only [integrateLoopF, List.map_cons]
      obtain ⟨y, hy⟩ : ∃ y, y = Sim.double (Sim.double (Sim.double (a.v0 + a.v1) / 2) * a.dt) := ⟨_, rfl⟩
      have hy0 : 0 ≤ y := by
        rw [hy]
        exact double_laws.nonneg (mul_nonneg (double_laws.nonneg (div_nonneg (double_laws.nonneg (by linarith))
          (by norm_num))) d)
      rw [← hy]
      have hle : c ≤ Sim.double (c + y) := by
        have h1 : c ≤ c + y := by linarith
        have h2 := double_laws.mono _ _ h1
        rwa [hcr] at h2
      obtain ⟨i1, i2⟩ := ih (Sim.double (c + y)) (hc.trans hle) (double_laws.idem _)
        (fun it hit => ha it (List.mem_cons_of_mem _ hit))
      refine ⟨?_, List.pairwise_cons.mpr ⟨i1, i2⟩⟩
      intro v hv
      rcases List.mem_cons.mp hv with rfl | hv
      · exact hle
      · exact hle.trans (i1 v hv)
  exact gen items 0 le_rfl double_laws.zero hit

theorem differentiateLoopF_spec {r : ℚ → ℚ} (items : List (IterateDT ℚ ℚ)) (h : ∀ it ∈ items, 0 < it.dt) :
    differentiateLoopF r items =
      .ok (items.map (fun it => (r (it.t0 + r (it.dt / 2)), r (r (it.v1 - it.v0) / it.dt)))) := by
  induction items with
  | nil => rfl
  | cons a rest ih =>
    have := (h a (by simp)).ne'
    simp only [differentiateLoopF, this, if_false, ih (fun it hit => h it (by simp [hit]))]
    rfl

/-- The rounded middle of an interval. -/
theorem middle_near {r : ℚ → ℚ} (hr : RoundLaws r) {t0 t1 T : ℚ} (h0 : |t0| ≤ T) (h1 : |t1| ≤ T) (h : t0 < t1) :
    |r (t0 + r (r (t1 - t0) / 2)) - (t0 + t1) / 2| ≤ 7 / 2 * 𝕦 * T := by
  have a := hr.near (t1 - t0)
  rw [abs_of_pos (by linarith : 0 < t1 - t0)] at a
  have b := hr.near (r (t1 - t0) / 2)
  have hp : 0 < r (t1 - t0) := hr.pos (by linarith)
  rw [abs_of_pos (by linarith : 0 < r (t1 - t0) / 2)] at b
  have c := hr.near (t0 + r (r (t1 - t0) / 2))
  obtain ⟨x, hx⟩ : ∃ x, x = r (t1 - t0) := ⟨_, rfl⟩
  obtain ⟨y, hy⟩ : ∃ y, y = r (x / 2) := ⟨_, rfl⟩
  rw [← hx] at a b c hp ⊢
  rw [← hy] at b c ⊢
  rw [abs_le] at h0 h1 a b
  have d : |t0 + y| ≤ T + 5 / 2 * 𝕦 * T := by
    rw [abs_le]
    constructor <;> linarith [h0.1, h0.2, h1.1, h1.2, a.1, a.2, b.1, b.2]
  rw [abs_le] at c ⊢
  constructor <;> linarith [h0.1, h0.2, h1.1, h1.2, a.1, a.2, b.1, b.2, c.1, c.2]

/-- **C140** In floating point, differentiation of an accepted sequence of which neighbouring timestamps are not too
close succeeds; the timestamps are within 2⁻⁵¹ (relative) of the middles and the values within 2⁻⁵¹ (relative) of the
difference quotients. -/
theorem C140_differentiate_partial (s : Seq ℚ ℚ) (h : s.Valid) (hf : ∀ t ∈ s.ts, Sim.double t = t)
    (hn : 1 ≤ s.ts.length) (T : ℚ) (hT : ∀ t ∈ s.ts, |t| ≤ T)
    (hgap : ∀ i, i + 1 < s.ts.length → T / 2 ^ 50 ≤ s.t (i + 1) - s.t i) :
    ∃ s', seqDifferentiateF Sim.double s = .ok s' ∧ s'.Valid ∧ s'.ts.length = s.ts.length - 1 ∧
      ∀ i, i + 1 < s.ts.length → |s'.t i - (s.t i + s.t (i + 1)) / 2| ≤ T / 2 ^ 51 ∧
        |s'.v i - (s.v (i + 1) - s.v i) / (s.t (i + 1) - s.t i)| ≤
          |(s.v (i + 1) - s.v i) / (s.t (i + 1) - s.t i)| / 2 ^ 51 := by
  obtain ⟨items, h1, h2, h3⟩ := iterateF_spec s h.1 hf
  have hit : ∀ it ∈ items, 0 < it.dt := by
    intro it hm
    obtain ⟨i, hi, e⟩ := List.getElem_of_mem hm
    obtain ⟨_, e'⟩ := List.getElem?_eq_some_iff.mp (h3 i hi)
    rw [← e, e']
    have := Seq.t_lt s h i (i + 1) (by omega) (by omega)
    exact double_laws.pos (by linarith)
  have htT : ∀ i, i < s.ts.length → |s.t i| ≤ T := by
    intro i hi
    unfold Seq.t
    rw [List.getD_eq_getElem _ _ hi]
    exact hT _ (List.getElem_mem _)
  have hT0 : 0 ≤ T := (abs_nonneg _).trans (htT 0 (by omega))
  obtain ⟨out, hout⟩ : ∃ out, out = items.map (fun it => (Sim.double (it.t0 + Sim.double (it.dt / 2)),
    Sim.double (Sim.double (it.v1 - it.v0) / it.dt))) := ⟨_, rfl⟩
  have hlen : out.length = items.length := by simp [hout]
  have hget : ∀ i, i < items.length → out[i]? =
      some (Sim.double (s.t i + Sim.double (Sim.double (s.t (i + 1) - s.t i) / 2)),
        Sim.double (Sim.double (s.v (i + 1) - s.v i) / Sim.double (s.t (i + 1) - s.t i))) := by
    intro i hi
    simp only [hout, List.getElem?_map, h3 i hi, Option.map_some]
  have hmid : ∀ i, i + 1 < s.ts.length →
      |Sim.double (s.t i + Sim.double (Sim.double (s.t (i + 1) - s.t i) / 2)) - (s.t i + s.t (i + 1)) / 2| ≤
        7 / 2 * 𝕦 * T := fun i hi =>
    middle_near double_laws (htT i (by omega)) (htT (i + 1) hi) (Seq.t_lt s h i (i + 1) (by omega) hi)
  have hpw : (out.map Prod.fst).Pairwise (· < ·) := by
    rw [List.pairwise_iff_getElem]
    intro i j hi hj hij
    simp only [List.length_map] at hi hj
    obtain ⟨_, ei⟩ := List.getElem?_eq_some_iff.mp (hget i (by omega))
    obtain ⟨_, ej⟩ := List.getElem?_eq_some_iff.mp (hget j (by omega))
    simp only [List.getElem_map, ei, ej]
    have a := hmid i (by omega)
    have b := hmid j (by omega)
    have g1 := hgap i (by omega)
    have g2 := hgap j (by omega)
    have l1 : s.t (i + 1) ≤ s.t j := by
      rcases Nat.eq_or_lt_of_le (show i + 1 ≤ j from hij) with e | e
      · rw [e]
      · exact (Seq.t_lt s h (i + 1) j e (by omega)).le
    have l2 := Seq.t_lt s h i (i + 1) (by omega) (by omega)
    rw [abs_le] at a b
    by_cases hz : T = 0
    · subst hz
      linarith [a.1, a.2, b.1, b.2, Seq.t_lt s h j (j + 1) (by omega) (by omega)]
    have hTp : 0 < T := lt_of_le_of_ne hT0 (Ne.symm hz)
    norm_num at g1 g2
    linarith [a.1, a.2, b.1, b.2]
  refine ⟨⟨out.map Prod.fst, out.map Prod.snd⟩, ?_, ⟨by simp, hpw⟩, by simp [hlen, h2], fun i hi => ?_⟩
  · unfold seqDifferentiateF
    rw [if_neg (by omega), h1]
    simp only [differentiateLoopF_spec items hit]
    rw [← hout, Seq.mkF_eq (⟨double_laws, double_laws⟩ : Arith.Laws ⟨Sim.double, Sim.double⟩)]
    exact Seq.mk?_of_valid _ _ (by simp) hpw
  · have hg := hget i (by omega)
    have l2 := Seq.t_lt s h i (i + 1) (by omega) (by omega)
    have ht : Seq.t (⟨out.map Prod.fst, out.map Prod.snd⟩ : Seq ℚ ℚ) i =
        Sim.double (s.t i + Sim.double (Sim.double (s.t (i + 1) - s.t i) / 2)) := by
      simp [Seq.t, List.getD, hg]
    have hv : Seq.v (⟨out.map Prod.fst, out.map Prod.snd⟩ : Seq ℚ ℚ) i =
        Sim.double (Sim.double (s.v (i + 1) - s.v i) / Sim.double (s.t (i + 1) - s.t i)) := by
      simp [Seq.v, List.getD, hg]
    rw [ht, hv]
    constructor
    · have := hmid i hi
      norm_num at this ⊢
      linarith
    · have d := (div_near double_laws (n := s.v (i + 1) - s.v i) (d := s.t (i + 1) - s.t i) (α := 𝕦) (β := 𝕦)
        (by linarith) ((double_laws.near _).trans (le_of_eq (mul_comm _ _)))
        ((double_laws.near _).trans (le_of_eq (mul_comm _ _))) (by norm_num) (by norm_num) (by norm_num)
        (by norm_num)).2
      refine d.trans ?_
      have := abs_nonneg ((s.v (i + 1) - s.v i) / (s.t (i + 1) - s.t i))
      norm_num at ⊢
      linarith

/-- C140: an accepted sequence whose derivative is refused in floating point: two middles coincide. -/
theorem C140_false_differentiate : ¬ ∀ s : Seq ℚ ℚ, s.Valid → s.ts ≠ [] → (∀ t ∈ s.ts, Sim.double t = t) →
    ∃ s', seqDifferentiateF Sim.double s = .ok s' := by
  intro h
  obtain ⟨s', hs⟩ := h ⟨[1 + 1 / 2 ^ 52, 1 + 2 / 2 ^ 52, 1 + 3 / 2 ^ 52], [0, 0, 0]⟩
    ⟨rfl, by decide +kernel⟩ (by simp) (by decide +kernel)
  rw [show seqDifferentiateF Sim.double ⟨[1 + 1 / 2 ^ 52, 1 + 2 / 2 ^ 52, 1 + 3 / 2 ^ 52], [0, 0, 0]⟩ =
    .error .zValue by decide +kernel] at hs
  cases hs

/-- C140: an accepted sequence with `Decimal` timestamps (all of them in the range of `Decimal`) of which two have the
same float: differentiation divides by zero, integration is refused. -/
theorem C140_false_decimal : ∃ s : Seq ℚ ℚ, s.Valid ∧ (∀ t ∈ s.ts, Sim.decimal t = t) ∧
    Seq.mkF .decimals s.ts s.vs = .ok s ∧ seqDifferentiateF Sim.double s = .error .zeroDiv ∧
    seqIntegrateF Sim.double s = .error .zValue :=
  ⟨⟨[0, 1, 1 + 1 / 10 ^ 20], [0, 0, 1]⟩, ⟨rfl, by decide +kernel⟩, by decide +kernel, by decide +kernel,
    by decide +kernel, by decide +kernel⟩

theorem accumulateFromF_length (r : ℚ → ℚ) (c : ℚ) (l : List ℚ) : (accumulateFromF r c l).length = l.length + 1 := by
  induction l generalizing c with
  | nil => rfl
  | cons v vs ih => simp [accumulateFromF, ih]

theorem accumulateFromF_near {r : ℚ → ℚ} (hr : RoundLaws r) (l : List ℚ) (c S B : ℚ) (k i : ℕ)
    (hc : |c - S| ≤ ((1 + 𝕦) ^ k - 1) * B) (hS : |S| ≤ B) (hi : i ≤ l.length) :
    ∃ x, (accumulateFromF r c l)[i]? = some x ∧
      |x - (S + (l.take i).sum)| ≤ ((1 + 𝕦) ^ (k + i) - 1) * (B + ((l.take i).map abs).sum) := by
  induction l generalizing c S B k i with
  | nil =>
    simp at hi
    subst hi
    exact ⟨c, rfl, by simpa using hc⟩
  | cons v vs ih =>
    cases i with
    | zero => exact ⟨c, rfl, by simpa using hc⟩
    | succ i =>
      have hpow : (1 : ℚ) ≤ (1 + 𝕦) ^ k := one_le_pow₀ (by norm_num)
      obtain ⟨p, hp⟩ : ∃ p, p = (1 + 𝕦) ^ k := ⟨_, rfl⟩
      have hB : 0 ≤ B := (abs_nonneg _).trans hS
      have hv0 := abs_nonneg v
      have hc' : |r (c + v) - (S + v)| ≤ ((1 + 𝕦) ^ (k + 1) - 1) * (B + |v|) := by
        have n := hr.near (c + v)
        rw [pow_succ, ← hp]
        rw [← hp] at hc hpow
        obtain ⟨q, hq⟩ : ∃ q, q = p - 1 := ⟨_, rfl⟩
        have hq0 : 0 ≤ q := by linarith
        rw [← hq] at hc
        have e : (p * (1 + 𝕦) - 1) * (B + |v|) = q * B + (q * B + B + |v|) * 𝕦 + q * |v| * (1 + 𝕦) := by
          rw [show p = q + 1 by linarith]; ring
        have e0 : 0 ≤ q * |v| := mul_nonneg hq0 hv0
        have b : |c + v| ≤ q * B + B + |v| := by
          have := abs_le.mp hc
          have := abs_le.mp hS
          have := neg_abs_le v
          have := le_abs_self v
          rw [abs_le]
          constructor <;> linarith
        rw [e]
        rw [abs_le] at hc n ⊢
        constructor <;> linarith [hc.1, hc.2, n.1, n.2]
      have hS' : |S + v| ≤ B + |v| := (abs_add_le _ _).trans (by linarith)
      obtain ⟨x, hx, hE⟩ := ih (r (c + v)) (S + v) (B + |v|) (k + 1) i hc' hS' (by simpa using hi)
      refine ⟨x, by simpa [accumulateFromF] using hx, ?_⟩
      simp only [List.take_succ_cons, List.sum_cons, List.map_cons]
      rw [show k + (i + 1) = k + 1 + i by ring, ← add_assoc, ← add_assoc]
      exact hE

/-- **C140** In floating point, accumulation keeps the timestamps (any of the three kinds), and value `i` is the sum of
the first `i + 1` values up to a relative error (of the sum of the magnitudes) which grows with `i` only. -/
theorem C140_accumulate {A : Arith} (hA : A.Std) (s : Seq ℚ ℚ) (h : s.Valid) (hmax : s.ts.length ≤ 2 ^ 52) :
    ∃ s', seqAccumulateF A s = .ok s' ∧ s'.Valid ∧ s'.ts = s.ts ∧ ∀ i, i < s.vs.length →
      |s'.v i - (s.vs.take (i + 1)).sum| ≤ i / 2 ^ 52 * ((s.vs.take (i + 1)).map abs).sum := by
  have hnum : RoundLaws A.num := hA.laws.num
  obtain ⟨ts, vs⟩ := s
  obtain ⟨hl, hp⟩ := h
  simp only at hl hp hmax
  unfold seqAccumulateF
  rw [Seq.mkF_eq hA.laws]
  cases vs with
  | nil =>
    have : ts = [] := by simpa using hl
    subst this
    exact ⟨⟨[], []⟩, rfl, ⟨rfl, by simp⟩, rfl, by simp⟩
  | cons v vs =>
    have hlen : ts.length = (accumulateFromF A.num v vs).length := by rw [accumulateFromF_length]; simpa using hl
    refine ⟨⟨ts, accumulateFromF A.num v vs⟩, Seq.mk?_of_valid _ _ hlen hp, ⟨hlen, hp⟩, rfl, fun i hi => ?_⟩
    simp only [List.length_cons] at hi hl
    obtain ⟨x, hx, hE⟩ := accumulateFromF_near hnum vs v v |v| 0 i (by simp) le_rfl (by omega)
    have hv : Seq.v (⟨ts, accumulateFromF A.num v vs⟩ : Seq ℚ ℚ) i = x := by
      simp [Seq.v, List.getD, hx]
    rw [hv]
    simp only [List.take_succ_cons, List.sum_cons, List.map_cons]
    refine hE.trans (mul_le_mul_of_nonneg_right ?_ ?_)
    · simpa using pow_near i (by omega)
    · exact add_nonneg (abs_nonneg _) (List.sum_nonneg (fun x hx => by
        obtain ⟨y, _, rfl⟩ := List.mem_map.mp hx
        exact abs_nonneg y))

/-- The rounded crossing of one interval. -/
theorem crossing_near {r : ℚ → ℚ} (hr : RoundLaws r) {t0 t1 a b T : ℚ} (h : t0 < t1) (h0 : |t0| ≤ T) (h1 : |t1| ≤ T)
    (hab : a < 0 ∧ 0 ≤ b ∨ 0 ≤ a ∧ b < 0) :
    |r (t0 + r (r (r a / r (r a - r b)) * r (t1 - t0))) - (t0 + a / (a - b) * (t1 - t0))| ≤
      (t1 - t0 + T) / 2 ^ 50 := by
  have hd : |a - b| = |a| + |b| := by
    rcases hab with ⟨x, y⟩ | ⟨x, y⟩
    · rw [abs_of_neg x, abs_of_nonneg y, abs_of_neg (by linarith)]; ring
    · rw [abs_of_nonneg x, abs_of_neg y, abs_of_pos (by linarith)]; ring
  have hne : a - b ≠ 0 := by
    rcases hab with ⟨x, y⟩ | ⟨x, y⟩
    · exact (by linarith : a - b < 0).ne
    · exact (by linarith : 0 < a - b).ne'
  have na := hr.near a
  have nb := hr.near b
  have nd := hr.near (r a - r b)
  have k1 : |r (r a - r b) - (a - b)| ≤ (21 / 10 * 𝕦) * |a - b| := by
    have e1 : |r a - r b| ≤ (1 + 𝕦) * |a - b| := by
      have := abs_le.mp (hd.le)
      rw [hd]
      have := neg_abs_le a
      have := le_abs_self a
      have := neg_abs_le b
      have := le_abs_self b
      rw [abs_le] at na nb ⊢
      constructor <;> linarith [na.1, na.2, nb.1, nb.2]
    have := abs_nonneg a
    have := abs_nonneg b
    rw [hd] at e1 ⊢
    rw [abs_le] at na nb nd ⊢
    constructor <;> linarith [na.1, na.2, nb.1, nb.2, nd.1, nd.2]
  have k2 := (div_near hr hne (na.trans (le_of_eq (mul_comm _ _))) k1 (by norm_num) (by norm_num) (by norm_num)
    (by norm_num)).2
  have k3 : |a / (a - b)| ≤ 1 := by
    rw [abs_div, div_le_one (abs_pos.mpr hne), hd]
    linarith [abs_nonneg b]
  have hs : 0 < t1 - t0 := by linarith
  have k4 := hr.near (t1 - t0)
  have k2' : |r (r a / r (r a - r b)) - a / (a - b)| ≤ (42 / 10 * 𝕦) * 1 := by
    refine k2.trans ?_
    linarith
  have k5 := mul_near hr k3 (le_of_eq (abs_of_pos hs)) k2'
    (k4.trans (le_of_eq (by rw [abs_of_pos hs]; ring : _ = 𝕦 * (t1 - t0)))) (by norm_num) (by norm_num)
  obtain ⟨y, hy⟩ : ∃ y, y = r (r (r a / r (r a - r b)) * r (t1 - t0)) := ⟨_, rfl⟩
  obtain ⟨z, hz⟩ : ∃ z, z = a / (a - b) * (t1 - t0) := ⟨_, rfl⟩
  have hin : |t0 + z| ≤ T := by
    have q0 : 0 ≤ a / (a - b) := by
      rcases hab with ⟨x, y⟩ | ⟨x, y⟩
      · exact div_nonneg_of_nonpos (by linarith) (by linarith)
      · exact div_nonneg (by linarith) (by linarith)
    have q1 := (abs_le.mp k3).2
    have z0 : 0 ≤ z := by rw [hz]; exact mul_nonneg q0 hs.le
    have z1 : z ≤ t1 - t0 := by
      rw [hz]
      calc _ ≤ 1 * (t1 - t0) := mul_le_mul_of_nonneg_right q1 hs.le
        _ = _ := one_mul _
    rw [abs_le] at h0 h1 ⊢
    constructor <;> linarith [h0.1, h0.2, h1.1, h1.2]
  rw [← hy, ← hz] at k5
  rw [← hy, ← hz]
  have k6 := hr.near (t0 + y)
  have k7 : |y - z| ≤ 7 * 𝕦 * (t1 - t0) := by
    refine k5.trans ?_
    rw [one_mul]
    exact mul_le_mul_of_nonneg_right (by norm_num) hs.le
  have k8 : |t0 + y| ≤ T + 7 * 𝕦 * (t1 - t0) := by
    rw [abs_le] at k7 hin ⊢
    constructor <;> linarith [k7.1, k7.2, hin.1, hin.2]
  have hT0 : 0 ≤ T := (abs_nonneg _).trans h0
  norm_num
  norm_num at k6 k7 k8
  rw [abs_le] at k6 k7 ⊢
  constructor <;> linarith [k6.1, k6.2, k7.1, k7.2]

theorem changes_iff {r : ℚ → ℚ} (hr : RoundLaws r) (v0 v1 thr : ℚ) :
    (decide (r (v0 - thr) < 0) ≠ decide (r (v1 - thr) < 0)) ↔ ¬ (thr ≤ v0 ↔ thr ≤ v1) := by
  have sgn : ∀ x : ℚ, r x < 0 ↔ x < 0 := by
    intro x
    constructor
    · intro hx
      by_contra hc
      linarith [hr.nonneg (not_lt.mp hc)]
    · intro hx
      have h1 := hr.near x
      rw [abs_of_neg hx, abs_le] at h1
      linarith [h1.1, h1.2]
  rw [ne_eq, decide_eq_decide, sgn, sgn, sub_neg, sub_neg, ← not_le, ← not_le, not_iff_not, not_iff_not]

theorem crossingIntervals_cons (thr t0 t1 v0 v1 : ℚ) (ts vs : List ℚ) :
    crossingIntervals thr ((t0 :: t1 :: ts).zip (v0 :: v1 :: vs)) =
      (if ¬ (thr ≤ v0 ↔ thr ≤ v1) then [((t0, v0), (t1, v1))] else []) ++
        crossingIntervals thr ((t1 :: ts).zip (v1 :: vs)) := by
  simp only [crossingIntervals, List.zip_cons_cons, List.tail_cons]
  rw [List.filter_cons]
  by_cases hc : ¬ (thr ≤ v0 ↔ thr ≤ v1)
  · rw [if_pos (by simpa using hc), if_pos hc]; rfl
  · rw [if_neg (by simpa using hc), if_neg hc]; rfl

/-- **C140** In floating point (timestamps that are floats) `find_crossings` reports one instant for every interval on
which the signal changes side, in order, and nothing else (a value equal to the threshold counts as above). The instant
is the exact one (where the straight line through the two samples meets the threshold) up to 2⁻⁵⁰ of the length of the
interval plus the size of its timestamps. -/
theorem C140_crossings (s : Seq ℚ ℚ) (h : s.Valid) (thr : ℚ) :
    List.Forall₂ (fun p c => |c - (p.1.1 + (p.1.2 - thr) / (p.1.2 - p.2.2) * (p.2.1 - p.1.1))| ≤
        (p.2.1 - p.1.1 + max |p.1.1| |p.2.1|) / 2 ^ 50)
      (crossingIntervals thr s.samples) (findCrossingsF Sim.double thr s.ts s.vs) := by
  obtain ⟨ts, vs⟩ := s
  obtain ⟨hl, hp⟩ := h
  change List.Forall₂ _ (crossingIntervals thr (ts.zip vs)) (findCrossingsF Sim.double thr ts vs)
  simp only at hl hp
  induction ts generalizing vs with
  | nil => simp [findCrossingsF, crossingIntervals]
  | cons t0 ts ih =>
    cases vs with
    | nil => simp at hl
    | cons v0 vs =>
      cases ts with
      | nil => simp [findCrossingsF, crossingIntervals]
      | cons t1 ts =>
        cases vs with
        | nil => simp at hl
        | cons v1 vs =>
          have hf := ih (v1 :: vs) (by simpa using hl) (List.pairwise_cons.mp hp).2
          have ht : t0 < t1 := (List.pairwise_cons.mp hp).1 t1 (by simp)
          rw [crossingIntervals_cons]
          simp only [findCrossingsF]
          by_cases hc : ¬ (thr ≤ v0 ↔ thr ≤ v1)
          · rw [if_pos ((changes_iff double_laws v0 v1 thr).mpr hc), if_pos hc, List.singleton_append]
            refine List.Forall₂.cons ?_ hf
            have hab : v0 - thr < 0 ∧ 0 ≤ v1 - thr ∨ 0 ≤ v0 - thr ∧ v1 - thr < 0 := by
              by_cases h0 : thr ≤ v0
              · right
                refine ⟨by linarith, ?_⟩
                by_contra hcon
                exact hc ⟨fun _ => by linarith, fun _ => h0⟩
              · left
                refine ⟨by linarith, ?_⟩
                by_contra hcon
                exact hc ⟨fun h => absurd h h0, fun h => absurd h (by linarith)⟩
            have := crossing_near double_laws ht (le_max_left |t0| |t1|) (le_max_right |t0| |t1|) hab
            rwa [sub_sub_sub_cancel_right] at this
          · rw [if_neg (fun h => hc ((changes_iff double_laws v0 v1 thr).mp h)), if_neg hc]
            simpa using hf

/-- **C140** In floating point a reported crossing is never before the earlier of the two samples it is between. -/
theorem C140_crossing_after_partial (s : Seq ℚ ℚ) (h : s.Valid) (hf : ∀ t ∈ s.ts, Sim.double t = t) (thr : ℚ) :
    List.Forall₂ (fun p c => p.1.1 ≤ c) (crossingIntervals thr s.samples)
      (findCrossingsF Sim.double thr s.ts s.vs) := by
  obtain ⟨ts, vs⟩ := s
  obtain ⟨hl, hp⟩ := h
  change List.Forall₂ _ (crossingIntervals thr (ts.zip vs)) (findCrossingsF Sim.double thr ts vs)
  simp only at hl hp hf
  induction ts generalizing vs with
  | nil => simp [findCrossingsF, crossingIntervals]
  | cons t0 ts ih =>
    cases vs with
    | nil => simp at hl
    | cons v0 vs =>
      cases ts with
      | nil => simp [findCrossingsF, crossingIntervals]
      | cons t1 ts =>
        cases vs with
        | nil => simp at hl
        | cons v1 vs =>
          have hfa := ih (v1 :: vs) (fun t ht => hf t (List.mem_cons_of_mem _ ht)) (by simpa using hl)
            (List.pairwise_cons.mp hp).2
          have ht : t0 < t1 := (List.pairwise_cons.mp hp).1 t1 (by simp)
          rw [crossingIntervals_cons]
          simp only [findCrossingsF]
          by_cases hc : ¬ (thr ≤ v0 ↔ thr ≤ v1)
          · rw [if_pos ((changes_iff double_laws v0 v1 thr).mpr hc), if_pos hc, List.singleton_append]
            refine List.Forall₂.cons ?_ hfa
            have hq : 0 ≤ Sim.double (v0 - thr) / Sim.double (Sim.double (v0 - thr) - Sim.double (v1 - thr)) := by
              by_cases h0 : thr ≤ v0
              · have h1 : v1 < thr := by
                  by_contra hcon
                  exact hc ⟨fun _ => by linarith, fun _ => h0⟩
                have a := double_laws.nonneg (by linarith : 0 ≤ v0 - thr)
                have b := double_laws.nonpos (by linarith : v1 - thr ≤ 0)
                exact div_nonneg a (double_laws.nonneg (by linarith))
              · have h1 : thr ≤ v1 := by
                  by_contra hcon
                  exact hc ⟨fun h => absurd h h0, fun h => absurd h (by linarith)⟩
                have a := double_laws.nonpos (by linarith : v0 - thr ≤ 0)
                have b := double_laws.nonneg (by linarith : 0 ≤ v1 - thr)
                exact div_nonneg_of_nonpos a (double_laws.nonpos (by linarith))
            have hz := double_laws.nonneg (mul_nonneg (double_laws.nonneg hq)
              (double_laws.nonneg (by linarith : 0 ≤ t1 - t0)))
            have hm := double_laws.mono _ _ (le_add_of_nonneg_right (a := t0) hz)
            rwa [hf t0 (by simp)] at hm
          · rw [if_neg (fun h => hc ((changes_iff double_laws v0 v1 thr).mp h)), if_neg hc]
            simpa using hfa

/-- C140: in floating point a reported crossing may be after the later of the two samples it is between. -/
theorem C140_false_crossing : ¬ ∀ (s : Seq ℚ ℚ) (thr : ℚ), s.Valid → (∀ t ∈ s.ts, Sim.double t = t) →
    (∀ v ∈ s.vs, Sim.double v = v) →
    List.Forall₂ (fun p c => p.1.1 ≤ c ∧ c ≤ p.2.1) (crossingIntervals thr s.samples)
      (findCrossingsF Sim.double thr s.ts s.vs) := by
  intro h
  have h := h ⟨[3 / 2, 2 ^ 52 + 3], [1, -(1 / 2 ^ 60)]⟩ 0 ⟨rfl, by decide +kernel⟩ (by decide +kernel)
    (by decide +kernel)
  rw [show findCrossingsF Sim.double 0 [3 / 2, 2 ^ 52 + 3] [1, -(1 / 2 ^ 60)] = [2 ^ 52 + 4] by decide +kernel,
    show crossingIntervals (0 : ℚ) (Seq.samples (⟨[3 / 2, 2 ^ 52 + 3], [1, -(1 / 2 ^ 60)]⟩ : Seq ℚ ℚ)) =
      [((3 / 2, 1), (2 ^ 52 + 3, -(1 / 2 ^ 60)))] by decide +kernel] at h
  cases h with
  | cons h1 _ => exact absurd h1.2 (by norm_num)

/-! ### The hypotheses are met: speeds of a vehicle, logged every tenth of a second -/

/-- Timestamps 0.0, 0.1, 0.2 (as floats) and speeds. -/
def exSpeeds : Seq ℚ ℚ := ⟨[0, Sim.double (1 / 10), Sim.double (2 / 10)], [1, Sim.double (13 / 10), -2]⟩

theorem exSpeeds_valid : exSpeeds.Valid := ⟨rfl, by decide +kernel⟩

example := C140_integrate exSpeeds exSpeeds_valid (by decide +kernel) (by decide +kernel) (by decide +kernel) 2
  (by decide +kernel)
example : seqIntegrateF Sim.double exSpeeds = .ok ⟨[Sim.double (1 / 10), Sim.double (2 / 10)],
    [517913957147607 / 4503599627370496, 2882303761517117 / 36028797018963968]⟩ := by
  decide +kernel
example := C140_monotone ⟨[0, 1, 3], [1, 2, 0]⟩ ⟨[1, 3], [3 / 2, 7 / 2]⟩ ⟨rfl, by simp⟩ (by decide +kernel) (by simp)
  (by simp) (by decide +kernel)
example := C140_differentiate_partial exSpeeds exSpeeds_valid (by decide +kernel) (by decide +kernel) 1
  (by decide +kernel) (by
    intro i hi
    have : i = 0 ∨ i = 1 := by have : exSpeeds.ts.length = 3 := rfl; omega
    rcases this with rfl | rfl <;> decide +kernel)
example := (C140_convert ⟨[0, 1 / 10, 2 / 10], [1, 2, 3]⟩).1 (by simp)
example := C140_accumulate (A := .decimals) (Or.inr (Or.inl rfl)) ⟨[0, 1 / 10, 2 / 10], [1, 2, 3]⟩
  ⟨rfl, by decide +kernel⟩ (by norm_num)
example : findCrossingsF Sim.double 0 exSpeeds.ts exSpeeds.vs ≠ [] := by decide +kernel
example := C140_crossings exSpeeds exSpeeds_valid 0
example := C140_crossing_after_partial exSpeeds exSpeeds_valid (by decide +kernel) 0

end Verif
