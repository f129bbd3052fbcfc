import Verif.Seq.FloatLemmas

/-!
# C138: sampled sequences in floating point
-/

namespace Verif
namespace Seq
variable {ι α : Type*} {A : Arith}

theorem atInterpF_outside (s : Seq ℚ (ι → ℚ)) (hpos : 0 < s.ts.length) (t : ℚ)
    (ht : t ≤ s.ts[0] ∨ s.ts[s.ts.length - 1] ≤ t) : atInterpF A s t = s.atInterp t := by
  have hne : s.ts ≠ [] := List.length_pos_iff.mp hpos
  unfold atInterpF atInterp
  rw [getStart_eq s hne, getEnd_eq s hne]
  simp only [List.head_eq_getElem, List.getLast_eq_getElem]
  by_cases h0 : t ≤ s.ts[0]
  · simp only [h0, if_true]
  · have h1 := ht.resolve_left h0
    simp only [h0, h1, if_true, if_false]

theorem atInterpF_between (hA : A.Laws) (s : Seq ℚ (ι → ℚ)) (h : s.Valid) (i : Nat) (hi : i + 1 < s.ts.length)
    (hi' : i + 1 < s.vs.length) (t : ℚ) (h0 : s.ts[i] ≤ t) (h1 : t < s.ts[i + 1]) (hst : ¬ t ≤ s.ts[0]) :
    ∃ c, scaleF A t s.ts[i] s.ts[i + 1] = .ok c ∧ atInterpF A s t = .ok (blendF A c s.vs[i] s.vs[i + 1]) := by
  have hpos : 0 < s.ts.length := by omega
  have hne : s.ts ≠ [] := List.length_pos_iff.mp hpos
  have hlt : s.ts[i] < s.ts[i + 1] := ts_lt s h hi (by omega)
  have hen : ¬ s.ts[s.ts.length - 1] ≤ t := by
    have := ts_le s h (i := i + 1) (j := s.ts.length - 1) (by omega) (by omega)
    intro hc
    linarith
  refine ⟨_, scaleF_ok hA hlt, ?_⟩
  unfold atInterpF
  rw [getStart_eq s hne]
  simp only [List.head_eq_getElem, hst, if_false]
  rw [getEnd_eq s hne]
  simp only [List.getLast_eq_getElem, hen, if_false]
  obtain ⟨b1, b2, b3⟩ := bisectRight_spec s.ts t h.2
  have hk : bisectRight s.ts t = i + 1 := by
    have k1 : ¬ bisectRight s.ts t ≤ i := fun hc => by
      have := b3 i (by omega) hc
      linarith
    have k2 : ¬ i + 1 < bisectRight s.ts t := fun hc => by
      have := b2 (i + 1) (by omega) hc
      linarith
    omega
  rw [hk]
  have hcast : (((i + 1 : Nat)) : Int) - 1 = ((i : Nat) : Int) := by omega
  rw [hcast, pyGet_of_lt s.ts _ (by omega), pyGet_of_lt s.ts _ hi, pyGet_of_lt s.vs _ (by omega),
    pyGet_of_lt s.vs _ hi']
  simp only
  rw [scaleF_ok hA hlt]

theorem exists_bracket_lt {β : Type*} (s : Seq ℚ β) (h : s.Valid) (t : ℚ) {hpos : 0 < s.ts.length}
    (h0 : s.ts[0] ≤ t) (h1 : t < s.ts[s.ts.length - 1]) :
    ∃ (i : Nat) (hi : i + 1 < s.ts.length), s.ts[i] ≤ t ∧ t < s.ts[i + 1] := by
  obtain ⟨b1, b2, b3⟩ := bisectRight_spec s.ts t h.2
  have k1 : bisectRight s.ts t < s.ts.length := by
    by_contra hc
    have := b2 (s.ts.length - 1) (by omega) (by omega)
    linarith
  have k2 : 0 < bisectRight s.ts t := by
    by_contra hc
    have := b3 0 (by omega) (by omega)
    linarith
  refine ⟨bisectRight s.ts t - 1, by omega, b2 _ (by omega) (by omega), ?_⟩
  have := b3 (bisectRight s.ts t) k1 (le_refl _)
  simp only [show bisectRight s.ts t - 1 + 1 = bisectRight s.ts t by omega]
  exact this

theorem blendF_zero (hA : A.Laws) (v0 v1 : ι → ℚ) (hv : ∀ j, A.num (v0 j) = v0 j) : blendF A 0 v0 v1 = v0 := by
  funext j
  simp [blendF, hA.num.zero, hA.num.one, hv]

theorem scaleF_start (hA : A.Laws) {t u1 c : ℚ} (h : t < u1) (hc : scaleF A t t u1 = .ok c) : c = 0 := by
  rw [scaleF_ok hA h] at hc
  injection hc with hc
  rw [← hc]
  simp [hA.num.zero]

/-- Consecutive samples by position. -/
theorem samples_pair {β : Type*} (s : Seq ℚ β) (h : s.Valid) (l r : List (ℚ × β)) (t0 t1 : ℚ) (v0 v1 : β)
    (hs : s.samples = l ++ (t0, v0) :: (t1, v1) :: r) :
    ∃ (hi : l.length + 1 < s.ts.length) (hi' : l.length + 1 < s.vs.length),
      s.ts[l.length] = t0 ∧ s.ts[l.length + 1] = t1 ∧ s.vs[l.length] = v0 ∧ s.vs[l.length + 1] = v1 := by
  have hlen : s.samples.length = l.length + (r.length + 2) := by rw [hs]; simp
  rw [Seq.samples_length s h] at hlen
  have hl := h.1
  have e0 : s.samples[l.length]'(by rw [Seq.samples_length s h]; omega) = (t0, v0) := by simp [hs]
  have e1 : s.samples[l.length + 1]'(by rw [Seq.samples_length s h]; omega) = (t1, v1) := by
    simp [hs]
  simp only [Seq.samples, List.getElem_zip, Prod.mk.injEq] at e0 e1
  exact ⟨by omega, by omega, e0.1, e1.1, e0.2, e1.2⟩

/-- The lookup on the half-open interval between two consecutive samples. -/
theorem atInterpF_pair (hA : A.Laws) (s : Seq ℚ (ι → ℚ)) (h : s.Valid) (l r : List (ℚ × (ι → ℚ))) (t0 t1 : ℚ)
    (v0 v1 : ι → ℚ) (hs : s.samples = l ++ (t0, v0) :: (t1, v1) :: r) (t : ℚ) (h0 : t0 ≤ t) (h1 : t < t1) :
    (t = t0 ∧ atInterpF A s t = .ok v0) ∨
      ∃ c, scaleF A t t0 t1 = .ok c ∧ atInterpF A s t = .ok (blendF A c v0 v1) := by
  obtain ⟨hi, hi', rfl, rfl, rfl, rfl⟩ := samples_pair s h l r t0 t1 v0 v1 hs
  by_cases hst : t ≤ s.ts[0]
  · left
    have hi0 : l.length = 0 := by
      by_contra hc
      have := ts_lt s h (i := 0) (j := l.length) (by omega) (by omega)
      linarith
    have e : t = s.ts[l.length] := by
      simp only [hi0] at h0 ⊢
      linarith
    refine ⟨e, ?_⟩
    rw [atInterpF_outside s (by omega) t (Or.inl hst), atInterp_before s h (by omega) t hst]
    simp only [hi0]
  · right
    exact atInterpF_between hA s h _ hi hi' t h0 h1 hst

theorem fst_ne_of_lt {β : Type*} (s : Seq ℚ β) (h : s.Valid) (l r : List (ℚ × β)) (t0 t1 : ℚ) (v0 v1 : β)
    (hs : s.samples = l ++ (t0, v0) :: (t1, v1) :: r) : t0 < t1 := by
  obtain ⟨hi, hi', rfl, rfl, rfl, rfl⟩ := samples_pair s h l r t0 t1 v0 v1 hs
  exact ts_lt s h hi (by omega)

end Seq

open Seq

/-- Specification: the arithmetics of the timestamps. -/
def Arith.Std (A : Arith) : Prop := A = .floats ∨ A = .decimals ∨ A = .ints

theorem Arith.Std.laws {A : Arith} (h : A.Std) : A.Laws := by
  rcases h with rfl | rfl | rfl
  · exact Arith.floats_laws
  · exact Arith.decimals_laws
  · exact Arith.ints_laws

section
variable {ι α : Type*} {A : Arith}

/-- **C138** The constructor, whose check computes rounded differences, accepts exactly the timestamps that increase
strictly: rounding neither hides nor invents a step. -/
theorem C138_construct (hA : A.Std) (ts : List ℚ) (vs : List α) (s : Seq ℚ α) :
    mkF A ts vs = .ok s ↔ ts.length = vs.length ∧ ts.Pairwise (· < ·) ∧ s = ⟨ts, vs⟩ := by
  rw [mkF_eq hA.laws, mk?_ok_iff]

/-- **C138** The interpolated lookup in an accepted sequence never raises (it never divides by zero). -/
theorem C138_total (hA : A.Std) (s : Seq ℚ (ι → ℚ)) (h : s.Valid) (hne : s.ts ≠ []) (t : ℚ) :
    ∃ w, atInterpF A s t = .ok w := by
  have hpos : 0 < s.ts.length := List.length_pos_iff.mpr hne
  by_cases h0 : t ≤ s.ts[0]
  · rw [atInterpF_outside s hpos t (Or.inl h0)]; exact C04_total s h hne t
  · by_cases h1 : s.ts[s.ts.length - 1] ≤ t
    · rw [atInterpF_outside s hpos t (Or.inr h1)]; exact C04_total s h hne t
    · obtain ⟨i, hi, a, b⟩ := exists_bracket_lt s h t (le_of_lt (not_le.mp h0)) (not_le.mp h1)
      obtain ⟨c, _, hc⟩ := atInterpF_between hA.laws s h i hi (by rw [← h.1]; exact hi) t a b h0
      exact ⟨_, hc⟩

/-- **C138** At the timestamp of a sample the lookup returns the sample, bit by bit. -/
theorem C138_samples (hA : A.Std) (s : Seq ℚ (ι → ℚ)) (h : s.Valid) (hf : ∀ v ∈ s.vs, ∀ j, Sim.double (v j) = v j)
    (t : ℚ) (v : ι → ℚ) (hm : (t, v) ∈ s.samples) : atInterpF A s t = .ok v := by
  have hnum : A.num = Sim.double := by rcases hA with rfl | rfl | rfl <;> rfl
  obtain ⟨l, r, hs⟩ := List.append_of_mem hm
  have hmem : v ∈ s.vs := (List.of_mem_zip hm).2
  cases r with
  | nil =>
    have hlen : s.samples.length = l.length + 1 := by rw [hs]; simp
    rw [Seq.samples_length s h] at hlen
    have hpos : 0 < s.ts.length := by omega
    have h0 : s.samples[l.length]'(by rw [Seq.samples_length s h]; omega) = (t, v) := by simp [hs]
    simp only [Seq.samples, List.getElem_zip, Prod.mk.injEq] at h0
    have e : s.ts.length - 1 = l.length := by omega
    rw [atInterpF_outside s hpos t (Or.inr (by simp only [e]; rw [h0.1]))]
    exact C04_at_samples s h t v hm
  | cons p r =>
    obtain ⟨t1, v1⟩ := p
    have hlt := fst_ne_of_lt s h l r t t1 v v1 hs
    rcases atInterpF_pair hA.laws s h l r t t1 v v1 hs t (le_refl _) hlt with ⟨_, h2⟩ | ⟨c, h1, h2⟩
    · exact h2
    · rw [h2, scaleF_start hA.laws hlt h1, blendF_zero hA.laws]
      intro j
      rw [hnum]
      exact hf v hmem j

/-- **C138** Between two consecutive samples at times that are floats the lookup differs from the chord by at most
2⁻⁴⁹ times the larger of the two values. -/
theorem C138_chord (hA : A.Std) (s : Seq ℚ (ι → ℚ)) (h : s.Valid) (l r : List (ℚ × (ι → ℚ))) (t0 t1 : ℚ)
    (v0 v1 : ι → ℚ) (hs : s.samples = l ++ (t0, v0) :: (t1, v1) :: r) (t : ℚ) (h0 : t0 ≤ t) (h1 : t < t1)
    (f0 : Sim.double t0 = t0) (ft : Sim.double t = t) (w : ι → ℚ) (hw : atInterpF A s t = .ok w) (j : ι) :
    |w j - (v0 j + (t - t0) / (t1 - t0) * (v1 j - v0 j))| ≤ max |v0 j| |v1 j| / 2 ^ 49 := by
  have hnum : A.num = Sim.double := by rcases hA with rfl | rfl | rfl <;> rfl
  have hM : 0 ≤ max |v0 j| |v1 j| := (abs_nonneg _).trans (le_max_left _ _)
  rcases atInterpF_pair hA.laws s h l r t0 t1 v0 v1 hs t h0 h1 with ⟨e, h2⟩ | ⟨c, h3, h2⟩
  · rw [h2] at hw
    injection hw with hw
    subst hw e
    simp only [sub_self, zero_div, zero_mul, add_zero, abs_zero]
    positivity
  · rw [h2] at hw
    injection hw with hw
    subst hw
    have k := scaleF_near hA.laws (E := 0) h0 h1 (by rw [hnum, ft]; simp) (by rw [hnum, f0]; simp) h3
    have hd : 0 < t1 - t0 := by linarith
    have k2 := blend_near hA.laws (div_nonneg (by linarith) hd.le) ((div_le_one hd).mpr (by linarith)) k
      (le_max_left |v0 j| |v1 j|) (le_max_right |v0 j| |v1 j|)
    refine k2.trans ?_
    have e : max |v0 j| |v1 j| / 2 ^ 49 = max |v0 j| |v1 j| * (1 / 2 ^ 49) := by ring
    rw [e]
    refine mul_le_mul_of_nonneg_left ?_ hM
    norm_num

/-- **C138** With `Decimal` timestamps (and integers beyond 2⁵³) the error has another part, in proportion to the
times over the step of the samples. -/
theorem C138_chord_decimal (hA : A.Std) (s : Seq ℚ (ι → ℚ)) (h : s.Valid) (l r : List (ℚ × (ι → ℚ))) (t0 t1 : ℚ)
    (v0 v1 : ι → ℚ) (hs : s.samples = l ++ (t0, v0) :: (t1, v1) :: r) (t : ℚ) (h0 : t0 ≤ t) (h1 : t < t1)
    (w : ι → ℚ) (hw : atInterpF A s t = .ok w) (j : ι) :
    |w j - (v0 j + (t - t0) / (t1 - t0) * (v1 j - v0 j))| ≤
      max |v0 j| |v1 j| * (1 / 2 ^ 49 + max |t0| |t| / (t1 - t0) / 2 ^ 50) := by
  have hnum : A.num = Sim.double := by rcases hA with rfl | rfl | rfl <;> rfl
  have hM : 0 ≤ max |v0 j| |v1 j| := (abs_nonneg _).trans (le_max_left _ _)
  have hT : 0 ≤ max |t0| |t| := (abs_nonneg _).trans (le_max_left _ _)
  have hd : 0 < t1 - t0 := by linarith
  rcases atInterpF_pair hA.laws s h l r t0 t1 v0 v1 hs t h0 h1 with ⟨e, h2⟩ | ⟨c, h3, h2⟩
  · rw [h2] at hw
    injection hw with hw
    subst hw e
    simp only [sub_self, zero_div, zero_mul, add_zero, abs_zero]
    positivity
  · rw [h2] at hw
    injection hw with hw
    subst hw
    have k := scaleF_near hA.laws (E := max |t0| |t| * (1 / 9007199254740992)) h0 h1
      ((hA.laws.num.near t).trans (mul_le_mul_of_nonneg_right (le_max_right _ _) (by norm_num)))
      ((hA.laws.num.near t0).trans (mul_le_mul_of_nonneg_right (le_max_left _ _) (by norm_num))) h3
    have k2 := blend_near hA.laws (div_nonneg (by linarith) hd.le) ((div_le_one hd).mpr (by linarith)) k
      (le_max_left |v0 j| |v1 j|) (le_max_right |v0 j| |v1 j|)
    refine k2.trans ?_
    refine mul_le_mul_of_nonneg_left ?_ hM
    obtain ⟨x, hx⟩ : ∃ x, x = max |t0| |t| / (t1 - t0) := ⟨_, rfl⟩
    have hx0 : 0 ≤ x := by rw [hx]; positivity
    have e : max |t0| |t| * (1 / 9007199254740992) / (t1 - t0) = x * (1 / 9007199254740992) := by rw [hx]; ring
    rw [e, ← hx]
    norm_num
    linarith

/-- **C138** With times that are floats, a component that is nowhere negative in the samples is not negative in
between. -/
theorem C138_sign_partial (s : Seq ℚ (ι → ℚ)) (h : s.Valid) (hf : ∀ u ∈ s.ts, Sim.double u = u) (t : ℚ)
    (ft : Sim.double t = t) (j : ι) (hv : ∀ v ∈ s.vs, 0 ≤ v j) (w : ι → ℚ)
    (hw : atInterpF .floats s t = .ok w) : 0 ≤ w j := by
  have L := double_laws
  by_cases hne : s.ts = []
  · simp [atInterpF, Seq.getStart, hne] at hw
  have hpos : 0 < s.ts.length := List.length_pos_iff.mpr hne
  by_cases h0 : t ≤ s.ts[0]
  · rw [atInterpF_outside s hpos t (Or.inl h0), Seq.atInterp_before s h hpos t h0] at hw
    injection hw with hw
    rw [← hw]; exact hv _ (List.getElem_mem _)
  · by_cases h1 : s.ts[s.ts.length - 1] ≤ t
    · rw [atInterpF_outside s hpos t (Or.inr h1), Seq.atInterp_after s h hpos t h1] at hw
      injection hw with hw
      rw [← hw]; exact hv _ (List.getElem_mem _)
    · obtain ⟨i, hi, a, b⟩ := exists_bracket_lt s h t (le_of_lt (not_le.mp h0)) (not_le.mp h1)
      have hi' : i + 1 < s.vs.length := by rw [← h.1]; exact hi
      obtain ⟨c, hc, hw'⟩ := atInterpF_between Arith.floats_laws s h i hi hi' t a b h0
      rw [hw'] at hw
      injection hw with hw
      have hlt : s.ts[i] < s.ts[i + 1] := by linarith
      rw [scaleF_ok Arith.floats_laws hlt] at hc
      injection hc with hc
      simp only [Arith.floats, ft, hf _ (List.getElem_mem _)] at hc
      have hdpos : 0 < Sim.double (Sim.double (s.ts[i + 1] - s.ts[i])) := L.pos (L.pos (by linarith))
      have c0 : 0 ≤ c := by
        rw [← hc]
        exact L.nonneg (div_nonneg (L.nonneg (by linarith)) hdpos.le)
      have c1 : c ≤ 1 := by
        rw [← hc]
        refine L.le_one ((div_le_one hdpos).mpr ?_)
        rw [L.idem]
        exact L.mono _ _ (by linarith)
      rw [← hw]
      unfold blendF
      have k0 : 0 ≤ s.vs[i] j := hv _ (List.getElem_mem _)
      have k1 : 0 ≤ s.vs[i + 1] j := hv _ (List.getElem_mem _)
      have k2 : 0 ≤ Sim.double (1 - c) := L.nonneg (by linarith)
      exact L.nonneg (add_nonneg (L.nonneg (mul_nonneg k0 k2)) (L.nonneg (mul_nonneg k1 c0)))

/-- **C138** Not so with `Decimal` timestamps: between samples 1 and 0 the lookup can be negative, as
`float(t) - float(t0)` can exceed `float(t1 - t0)`. -/
theorem C138_false_sign : ¬ ∀ (s : Seq ℚ (Unit → ℚ)) (t : ℚ) (w : Unit → ℚ), s.Valid →
    (∀ u ∈ s.ts, Sim.decimal u = u) → Sim.decimal t = t → (∀ v ∈ s.vs, 0 ≤ v ()) →
    atInterpF .decimals s t = .ok w → 0 ≤ w () := by
  intro H
  have hA := Arith.decimals_laws
  have h := H ⟨[10001 / 10, 10002 / 10], [fun _ => 1, fun _ => 0]⟩ (100019999999999999999 / 100000000000000000)
    (blendF .decimals (Sim.double (Sim.double (Sim.double (100019999999999999999 / 100000000000000000) -
      Sim.double (10001 / 10)) / Sim.double (Sim.decimal (10002 / 10 - 10001 / 10)))) (fun _ => 1) (fun _ => 0))
    ⟨rfl, by norm_num⟩ (by decide +kernel) (by decide +kernel) (by simp) ?_
  · revert h
    decide +kernel
  · obtain ⟨c, h1, h2⟩ := atInterpF_between (ι := Unit) hA ⟨[10001 / 10, 10002 / 10], [fun _ => 1, fun _ => 0]⟩
      ⟨rfl, by norm_num⟩ 0 (by simp) (by simp) (100019999999999999999 / 100000000000000000) (by norm_num)
      (by norm_num) (by norm_num)
    rw [h2]
    rw [scaleF_ok hA (by norm_num)] at h1
    injection h1 with h1
    rw [← h1]
    rfl

/-- **C138** Nor does the lookup stay between the two samples: a component that is 3 in both is 3 + 2⁻⁵¹ at the float
nearest to 0.2. -/
theorem C138_false_between : ¬ ∀ (s : Seq ℚ (Unit → ℚ)) (t : ℚ) (w : Unit → ℚ), s.Valid →
    (∀ u ∈ s.ts, Sim.double u = u) → Sim.double t = t → (∀ v ∈ s.vs, v () = 3) →
    atInterpF .floats s t = .ok w → w () ≤ 3 := by
  intro H
  have hA := Arith.floats_laws
  have h := H ⟨[0, 1], [fun _ => 3, fun _ => 3]⟩ (Sim.double (1 / 5))
    (blendF .floats (Sim.double (Sim.double (Sim.double (Sim.double (1 / 5)) - Sim.double 0) /
      Sim.double (Sim.double (1 - 0)))) (fun _ => 3) (fun _ => 3))
    ⟨rfl, by norm_num⟩ (by decide +kernel) (by decide +kernel) (by simp) ?_
  · revert h
    decide +kernel
  · have k : 0 < Sim.double (1 / 5) ∧ Sim.double (1 / 5) < 1 := by decide +kernel
    obtain ⟨c, h1, h2⟩ := atInterpF_between (ι := Unit) hA ⟨[0, 1], [fun _ => 3, fun _ => 3]⟩
      ⟨rfl, by norm_num⟩ 0 (by simp) (by simp) (Sim.double (1 / 5)) k.1.le k.2 (not_le.mpr k.1)
    rw [h2]
    rw [scaleF_ok hA (by norm_num)] at h1
    injection h1 with h1
    rw [← h1]
    rfl

/-- **C138** A shifted sequence keeps the values; each timestamp is the exact sum up to a relative error of 2⁻⁵³. -/
theorem C138_shift (hA : A.Std) (s s' : Seq ℚ α) (dt : ℚ) (hs : shiftF A s dt = .ok s') :
    s'.Valid ∧ s'.vs = s.vs ∧ List.Forall₂ (fun t t' => |t' - (t + dt)| ≤ |t + dt| / 2 ^ 53) s.ts s'.ts := by
  unfold shiftF at hs
  rw [C138_construct hA] at hs
  obtain ⟨h1, h2, rfl⟩ := hs
  refine ⟨⟨h1, h2⟩, rfl, ?_⟩
  rw [List.forall₂_map_right_iff]
  rw [List.forall₂_same]
  intro t _
  have := hA.laws.time.near (t + dt)
  norm_num at this ⊢
  linarith

/-- **C138** Shifting succeeds if the samples are further apart than 2⁻⁵² times the largest shifted time. -/
theorem C138_shift_ok (hA : A.Std) (s : Seq ℚ α) (h : s.Valid) (dt T : ℚ) (hT : ∀ t ∈ s.ts, |t + dt| ≤ T)
    (hgap : s.ts.Pairwise (fun a b => T / 2 ^ 52 < b - a)) : ∃ s', shiftF A s dt = .ok s' := by
  refine ⟨_, (C138_construct hA _ _ _).mpr ⟨by simpa using h.1, ?_, rfl⟩⟩
  rw [List.pairwise_map]
  have key : ∀ a ∈ s.ts, ∀ b ∈ s.ts, T / 2 ^ 52 < b - a → A.time (a + dt) < A.time (b + dt) := by
    intro a ha b hb hab
    have k1 := hA.laws.time.near (a + dt)
    have k2 := hA.laws.time.near (b + dt)
    have k3 := hT a ha
    have k4 := hT b hb
    rw [abs_le] at k1 k2
    norm_num at hab
    linarith [k1.2, k2.1]
  exact List.Pairwise.imp_of_mem (fun ha hb hab => key _ ha _ hb hab) hgap

/-- **C138** Not always: shifting samples at 0 and at the float nearest to 0.1 by 10¹⁶ is refused, as both times
become 10¹⁶. -/
theorem C138_false_shift : ¬ ∀ (s : Seq ℚ Unit) (dt : ℚ), s.Valid → (∀ u ∈ s.ts, Sim.double u = u) →
    Sim.double dt = dt → ∃ s', shiftF .floats s dt = .ok s' := by
  intro H
  obtain ⟨s', hs⟩ := H ⟨[0, Sim.double (1 / 10)], [(), ()]⟩ 10000000000000000 ⟨rfl, by decide +kernel⟩
    (by decide +kernel) (by decide +kernel)
  have e : shiftF .floats ⟨[0, Sim.double (1 / 10)], [(), ()]⟩ 10000000000000000 = .error .zValue := by
    decide +kernel
  rw [e] at hs
  cases hs

/-! ## Cases -/

/-- Two components: a speed and a position, logged at 0, 1/4 and the float nearest to 0.3. -/
def exLog : Seq ℚ (Bool → ℚ) :=
  ⟨[0, 1 / 4, Sim.double (3 / 10)], [fun b => if b then 1 else 2, fun b => if b then 3 else 2, fun b => if b then 0 else 5]⟩

theorem exLog_valid : exLog.Valid := by
  refine ⟨rfl, ?_⟩
  have : (1 / 4 : ℚ) < Sim.double (3 / 10) := by decide +kernel
  simp only [exLog, List.pairwise_cons, List.mem_cons, List.not_mem_nil, or_false, forall_eq_or_imp, forall_eq,
    IsEmpty.forall_iff, implies_true, List.Pairwise.nil, and_true]
  refine ⟨⟨by norm_num, by linarith⟩, this⟩

example : (∀ u ∈ exLog.ts, Sim.double u = u) ∧ (∀ v ∈ exLog.vs, ∀ j, Sim.double (v j) = v j) ∧
    (∀ v ∈ exLog.vs, 0 ≤ v true) := by
  decide +kernel

example : Sim.double (Sim.double (1 / 10)) = Sim.double (1 / 10) ∧ (0 : ℚ) ≤ Sim.double (1 / 10) ∧
    Sim.double (1 / 10) < 1 / 4 := by decide +kernel

example : exLog.samples = [] ++ (0, fun b => if b then 1 else 2) :: (1 / 4, fun b => if b then 3 else 2) ::
    [(Sim.double (3 / 10), fun b => if b then 0 else 5)] := rfl

/-- The lookup in that log at the float nearest to 0.1 (1.8000000000000003 and 2.0 in Python). -/
example : (atInterpF .floats exLog (Sim.double (1 / 10))).toOption.map (fun w => (w true, w false)) =
    some (4053239664633447 / 2251799813685248, 2) := by decide +kernel

/-- The shift of that log by 100. -/
example : (∀ t ∈ exLog.ts, |t + 100| ≤ 128) ∧ exLog.ts.Pairwise (fun a b => 128 / 2 ^ 52 < b - a) := by
  decide +kernel

end
end Verif
