import Verif.Seq.MapLemmas
import Mathlib.Tactic.NormNum
import Mathlib.Algebra.Order.Field.Rat

/-!
# Properties C04, C05, C06: interpolated lookup, subsequences, mapping and shifting

Statements speak about the list of samples `s.samples` (pairs of time and value, in order).
Values live in any vector space over the field of times.
-/

set_option linter.unusedSectionVars false

namespace Verif

variable {K : Type*} [Field K] [LinearOrder K] [IsStrictOrderedRing K]
variable {α β : Type*}

/-! ## C04: interpolated lookup -/

section
variable [AddCommGroup α] [Module K α]

/-- C04: an empty sequence raises `ZValueError`. -/
theorem C04_empty (s : Seq K α) (h : s.ts = []) (t : K) : s.atInterp t = .error .zValue := by
  simp [Seq.atInterp, Seq.getStart, h]

/-- C04: on a non-empty accepted sequence the lookup never raises (in particular it never
divides by zero). -/
theorem C04_total (s : Seq K α) (h : s.Valid) (hne : s.ts ≠ []) (t : K) :
    ∃ v, s.atInterp t = .ok v := by
  have hpos : 0 < s.ts.length := List.length_pos_iff.mpr hne
  by_cases h0 : t ≤ s.ts[0]
  · exact ⟨_, Seq.atInterp_before s h hpos t h0⟩
  · by_cases h1 : s.ts[s.ts.length - 1] ≤ t
    · exact ⟨_, Seq.atInterp_after s h hpos t h1⟩
    · have h2 : 1 < s.ts.length := by
        by_contra hc
        have e : s.ts.length - 1 = 0 := by omega
        simp only [e] at h1
        exact h1 (le_of_lt (not_le.mp h0))
      obtain ⟨i, hi, ha, hb⟩ := Seq.exists_bracket s h t h2 (le_of_lt (not_le.mp h0))
        (le_of_lt (not_le.mp h1))
      exact ⟨_, Seq.atInterp_between s h i hi (by rw [← h.1]; exact hi) t ha hb⟩

/-- C04: before the first sample the first value is held. -/
theorem C04_before (s : Seq K α) (h : s.Valid) (t0 : K) (v0 : α) (rest : List (K × α))
    (hs : s.samples = (t0, v0) :: rest) (t : K) (ht : t ≤ t0) : s.atInterp t = .ok v0 := by
  have hpos : 0 < s.samples.length := by rw [hs]; simp
  rw [Seq.samples_length s h] at hpos
  have h0 : s.samples[0]'(by rw [Seq.samples_length s h]; exact hpos) = (t0, v0) := by simp [hs]
  simp only [Seq.samples, List.getElem_zip, Prod.mk.injEq] at h0
  rw [Seq.atInterp_before s h hpos t (by rw [h0.1]; exact ht), h0.2]

/-- C04: after the last sample the last value is held. -/
theorem C04_after (s : Seq K α) (h : s.Valid) (t1 : K) (v1 : α) (l : List (K × α))
    (hs : s.samples = l ++ [(t1, v1)]) (t : K) (ht : t1 ≤ t) : s.atInterp t = .ok v1 := by
  have hlen : s.samples.length = l.length + 1 := by rw [hs]; simp
  rw [Seq.samples_length s h] at hlen
  have h0 : s.samples[l.length]'(by rw [Seq.samples_length s h]; omega) = (t1, v1) := by simp [hs]
  simp only [Seq.samples, List.getElem_zip, Prod.mk.injEq] at h0
  have e : s.ts.length - 1 = l.length := by omega
  rw [Seq.atInterp_after s h (by omega) t (by simp only [e]; rw [h0.1]; exact ht)]
  simp only [e, h0.2]

/-- **C04** Between two consecutive samples the lookup is on the chord. -/
theorem C04_chord (s : Seq K α) (h : s.Valid) (l r : List (K × α)) (t0 t1 : K) (v0 v1 : α)
    (hs : s.samples = l ++ (t0, v0) :: (t1, v1) :: r) (t : K) (h0 : t0 ≤ t) (h1 : t ≤ t1) :
    s.atInterp t = .ok (v0 + ((t - t0) / (t1 - t0)) • (v1 - v0)) := by
  have hlen : s.samples.length = l.length + (r.length + 2) := by rw [hs]; simp
  rw [Seq.samples_length s h] at hlen
  have e0 : s.samples[l.length]'(by rw [Seq.samples_length s h]; omega) = (t0, v0) := by simp [hs]
  have e1 : s.samples[l.length + 1]'(by rw [Seq.samples_length s h]; omega) = (t1, v1) := by
    simp [hs]
  simp only [Seq.samples, List.getElem_zip, Prod.mk.injEq] at e0 e1
  have := Seq.atInterp_between s h l.length (by omega) (by rw [← h.1]; omega) t
    (by rw [e0.1]; exact h0) (by rw [e1.1]; exact h1)
  rw [this, e0.1, e0.2, e1.1, e1.2]

/-- C04: the interpolated lookup agrees with the stored values at all samples. -/
theorem C04_at_samples (s : Seq K α) (h : s.Valid) (t : K) (v : α) (hm : (t, v) ∈ s.samples) :
    s.atInterp t = .ok v := by
  obtain ⟨l, r, hs⟩ := List.append_of_mem hm
  cases r with
  | nil => exact C04_after s h t v l hs t (le_refl _)
  | cons p r =>
    obtain ⟨t1, v1⟩ := p
    have hlt : t < t1 := by
      have hp : (s.samples.map Prod.fst).Pairwise (· < ·) := by
        unfold Seq.samples
        rw [zip_filter_fst _ _ h.1]
        exact h.2
      rw [hs] at hp
      simp only [List.map_append, List.map_cons] at hp
      exact (List.pairwise_cons.mp (List.pairwise_append.mp hp).2.1).1 t1 (by simp)
    rw [C04_chord s h l r t t1 v v1 hs t (le_refl _) (le_of_lt hlt)]
    simp

end

/-- C04, scalar values: between two consecutive samples the result stays between the two
values. -/
theorem C04_between_scalar (s : Seq K K) (h : s.Valid) (l r : List (K × K)) (t0 t1 v0 v1 : K)
    (hs : s.samples = l ++ (t0, v0) :: (t1, v1) :: r) (t : K) (h0 : t0 ≤ t) (h1 : t ≤ t1) (v : K)
    (hv : s.atInterp t = .ok v) : min v0 v1 ≤ v ∧ v ≤ max v0 v1 := by
  rw [C04_chord s h l r t0 t1 v0 v1 hs t h0 h1] at hv
  injection hv with hv
  simp only [smul_eq_mul] at hv
  have hd : 0 ≤ t1 - t0 := by linarith
  have a0 : 0 ≤ (t - t0) / (t1 - t0) := div_nonneg (by linarith) hd
  have a1 : (t - t0) / (t1 - t0) ≤ 1 := div_le_one_of_le₀ (by linarith) hd
  generalize (t - t0) / (t1 - t0) = c at *
  rcases le_total v0 v1 with hle | hle
  · rw [min_eq_left hle, max_eq_right hle]
    constructor <;> nlinarith
  · rw [min_eq_right hle, max_eq_left hle]
    constructor <;> nlinarith

/-- C04, scalar values: bounds on all samples are bounds on the interpolated signal. -/
theorem C04_range_scalar (s : Seq K K) (h : s.Valid) (lo hi : K)
    (hb : ∀ v ∈ s.vs, lo ≤ v ∧ v ≤ hi) (t v : K) (hv : s.atInterp t = .ok v) :
    lo ≤ v ∧ v ≤ hi := by
  by_cases hne : s.ts = []
  · rw [C04_empty s hne] at hv; cases hv
  have hpos : 0 < s.ts.length := List.length_pos_iff.mpr hne
  by_cases h0 : t ≤ s.ts[0]
  · rw [Seq.atInterp_before s h hpos t h0] at hv
    injection hv with hv
    rw [← hv]; exact hb _ (List.getElem_mem _)
  · by_cases h1 : s.ts[s.ts.length - 1] ≤ t
    · rw [Seq.atInterp_after s h hpos t h1] at hv
      injection hv with hv
      rw [← hv]; exact hb _ (List.getElem_mem _)
    · have h2 : 1 < s.ts.length := by
        by_contra hc
        have e : s.ts.length - 1 = 0 := by omega
        simp only [e] at h1
        exact h1 (le_of_lt (not_le.mp h0))
      obtain ⟨i, hi', ha, hb'⟩ := Seq.exists_bracket s h t h2 (le_of_lt (not_le.mp h0))
        (le_of_lt (not_le.mp h1))
      have hi2 : i + 1 < s.vs.length := by rw [← h.1]; exact hi'
      rw [Seq.atInterp_between s h i hi' hi2 t ha hb'] at hv
      injection hv with hv
      simp only [smul_eq_mul] at hv
      obtain ⟨p1, p2⟩ := hb s.vs[i] (List.getElem_mem _)
      obtain ⟨p3, p4⟩ := hb s.vs[i + 1] (List.getElem_mem _)
      have hd : 0 ≤ s.ts[i + 1] - s.ts[i] := by linarith
      have a0 : 0 ≤ (t - s.ts[i]) / (s.ts[i + 1] - s.ts[i]) := div_nonneg (by linarith) hd
      have a1 : (t - s.ts[i]) / (s.ts[i + 1] - s.ts[i]) ≤ 1 := div_le_one_of_le₀ (by linarith) hd
      generalize (t - s.ts[i]) / (s.ts[i + 1] - s.ts[i]) = c at *
      constructor <;> nlinarith

-- hypotheses of the C04 theorems on a concrete sequence, and a value strictly inside
example : (⟨[0, 2, 3], [10, 20, 0]⟩ : Seq ℚ ℚ).Valid ∧
    (⟨[0, 2, 3], [10, 20, 0]⟩ : Seq ℚ ℚ).samples = [] ++ (0, 10) :: (2, 20) :: [(3, 0)] ∧
    (⟨[0, 2, 3], [10, 20, 0]⟩ : Seq ℚ ℚ).atInterp (1/2) = .ok (25/2) := by
  refine ⟨⟨rfl, by simp; norm_num⟩, rfl, ?_⟩
  rw [C04_chord ⟨[0, 2, 3], [10, 20, 0]⟩ ⟨rfl, by simp; norm_num⟩ [] [(3, 0)] 0 2 10 20 rfl (1/2)
    (by norm_num) (by norm_num)]
  norm_num

/-! ## C05: subsequences -/

/-- **C05** For `a ≤ b` the result is an accepted sequence with exactly the samples in the
closed window, in order. -/
theorem C05_subsequence (s : Seq K α) (h : s.Valid) (a b : K) (hab : a ≤ b) :
    ∃ s', s.getSubsequence a b = .ok s' ∧ s'.Valid ∧
      s'.samples = s.samples.filter (fun p => decide (a ≤ p.1 ∧ p.1 ≤ b)) := by
  obtain ⟨r1, r2, r3⟩ := bisectRight_spec s.ts b h.2
  obtain ⟨l1, l2, l3⟩ := bisectLeft_spec s.ts a (h.2.imp (fun h => le_of_lt h))
  have hij : bisectLeft s.ts a ≤ bisectRight s.ts b := by
    by_contra hc
    have h1 := l2 (bisectRight s.ts b) (by omega) (by omega)
    have h2 := r3 (bisectRight s.ts b) (by omega) (le_refl _)
    linarith
  have hv1 : (pySlice s.ts (bisectLeft s.ts a) (bisectRight s.ts b)).length =
      (pySlice s.vs (bisectLeft s.ts a) (bisectRight s.ts b)).length := by
    simp [pySlice, h.1]
  have hv2 : (pySlice s.ts (bisectLeft s.ts a) (bisectRight s.ts b)).Pairwise (· < ·) := by
    unfold pySlice
    exact h.2.sublist ((List.drop_sublist _ _).trans (List.take_sublist _ _))
  refine ⟨⟨pySlice s.ts (bisectLeft s.ts a) (bisectRight s.ts b),
    pySlice s.vs (bisectLeft s.ts a) (bisectRight s.ts b)⟩, ?_, ⟨hv1, hv2⟩, ?_⟩
  · unfold Seq.getSubsequence
    rw [if_pos hab]
    exact Seq.mk?_of_valid _ _ hv1 hv2
  · unfold Seq.samples
    simp only
    rw [← pySlice_zip]
    apply pySlice_eq_filter _ _ _ _ hij
    · intro k hk hki
      have : k < s.ts.length := by simp at hk; omega
      have := l2 k this hki
      simp only [List.getElem_zip, decide_eq_false_iff_not, not_and, not_le]
      intro h'; linarith
    · intro k hk hki hkj
      have hk' : k < s.ts.length := by simp at hk; omega
      have h1 := l3 k hk' hki
      have h2 := r2 k hk' hkj
      simp only [List.getElem_zip, decide_eq_true_eq]
      exact ⟨h1, h2⟩
    · intro k hk hkj
      have hk' : k < s.ts.length := by simp at hk; omega
      have := r3 k hk' hkj
      simp only [List.getElem_zip, decide_eq_false_iff_not, not_and, not_le]
      intro _; exact this

/-- C05: a window with `a > b` fails the assertion. -/
theorem C05_assertion (s : Seq K α) (a b : K) (hab : b < a) :
    s.getSubsequence a b = .error .assertion := by
  simp [Seq.getSubsequence, not_le.mpr hab]

example : (⟨[0, 1, 2, 3], ["a", "b", "c", "d"]⟩ : Seq ℚ String).getSubsequence (1/2) 2 =
    .ok ⟨[1, 2], ["b", "c"]⟩ := by decide +kernel

/-! ## C06: mapping values and shifting time -/

/-- **C06** `transform_values(f)` is accepted and keeps, in order, exactly the samples on
which `f` is not `None`, with their timestamps. -/
theorem C06_transform (s : Seq K α) (h : s.Valid) (f : α → Option β) :
    ∃ s', s.transformValues f = .ok s' ∧ s'.Valid ∧
      s'.samples = s.samples.filterMap (fun p => (f p.2).map (fun y => (p.1, y))) := by
  have hp : (s.samples.map Prod.fst).Pairwise (· < ·) := by
    unfold Seq.samples
    rw [zip_filter_fst _ _ h.1]
    exact h.2
  have hv : ((s.samples.filterMap (fun p => (f p.2).map (fun y => (p.1, y)))).map Prod.fst).Pairwise
      (· < ·) := by
    rw [List.map_filterMap]
    refine pairwise_of_filterMap (· < ·) _ Prod.fst ?_ _ hp
    rintro ⟨t, v⟩ c hc
    cases hf : f v with
    | none => simp [hf] at hc
    | some y => simp [hf] at hc; exact hc.symm
  refine ⟨⟨_, _⟩, Seq.mk?_of_valid _ _ (by simp) hv, ⟨by simp, hv⟩, ?_⟩
  simp only [Seq.samples]
  exact (List.zip_of_prod rfl rfl).symm

/-- A total function keeps all timestamps. -/
theorem C06_transform_total (s : Seq K α) (h : s.Valid) (g : α → β) :
    s.transformValues (fun v => some (g v)) = .ok ⟨s.ts, s.vs.map g⟩ := by
  unfold Seq.transformValues
  have e : s.samples.filterMap (fun p => ((fun v => some (g v)) p.2).map (fun y => (p.1, y))) =
      s.samples.map (fun p => (p.1, g p.2)) := by
    rw [← List.filterMap_eq_map]; rfl
  simp only [e, List.map_map]
  have e1 : s.samples.map (Prod.fst ∘ fun p => (p.1, g p.2)) = s.ts := by
    rw [show (Prod.fst ∘ fun p : K × α => (p.1, g p.2)) = Prod.fst from rfl]
    exact zip_filter_fst _ _ h.1
  have e2 : s.samples.map (Prod.snd ∘ fun p => (p.1, g p.2)) = s.vs.map g := by
    rw [show (Prod.snd ∘ fun p : K × α => (p.1, g p.2)) = g ∘ Prod.snd from rfl, ← List.map_map]
    unfold Seq.samples
    rw [List.map_snd_zip (by rw [h.1])]
  rw [e1, e2]
  exact Seq.mk?_of_valid _ _ (by simp [h.1]) h.2

/-- C06: exact lookup commutes with the applied function. -/
theorem C06_at_transform (s : Seq K α) (s' : Seq K β) (h : s.Valid) (g : α → β)
    (hs : s.transformValues (fun v => some (g v)) = .ok s') (t : K) :
    s'.at' t = (s.at' t).map g := by
  rw [C06_transform_total s h] at hs
  injection hs with hs
  subst hs
  unfold Seq.at'
  cases s.ts.findIdx? (fun u => u == t) with
  | none => rfl
  | some i => exact pyGet_map g s.vs i

/-- C06: zero-order-hold lookup commutes with the applied function. -/
theorem C06_at_or_previous_transform (s : Seq K α) (s' : Seq K β) (h : s.Valid) (g : α → β)
    (hs : s.transformValues (fun v => some (g v)) = .ok s') (t : K) :
    s'.atOrPrevious t = (s.atOrPrevious t).map g := by
  have hat := C06_at_transform s s' h g hs t
  rw [C06_transform_total s h] at hs
  injection hs with hs
  unfold Seq.atOrPrevious
  rw [hat]
  subst hs
  simp only [Seq.getStart]
  cases s.ts with
  | nil => rfl
  | cons t0 ts =>
    simp only
    split
    · rfl
    · cases hh : s.at' t with
      | ok v => rfl
      | error e =>
        simp only [Except.map]
        cases e <;> simp only
        exact pyGet_map g s.vs _

/-- C06: interpolated lookup commutes with an affine function of the values. -/
theorem C06_at_interp_transform [AddCommGroup α] [Module K α] [AddCommGroup β] [Module K β]
    (s : Seq K α) (s' : Seq K β) (h : s.Valid)
    (g : α → β) (hg : ∀ (c : K) (v w : α), g ((1 - c) • v + c • w) = (1 - c) • g v + c • g w)
    (hs : s.transformValues (fun v => some (g v)) = .ok s') (t : K) :
    s'.atInterp t = (s.atInterp t).map g := by
  rw [C06_transform_total s h] at hs
  injection hs with hs
  subst hs
  unfold Seq.atInterp
  simp only [Seq.getStart, Seq.getEnd]
  cases hts : s.ts with
  | nil => rfl
  | cons t0 ts =>
    simp only
    split
    · exact pyGet_map g s.vs _
    · cases hl : (t0 :: ts).getLast? with
      | none => rfl
      | some t1 =>
        simp only
        split
        · exact pyGet_map g s.vs _
        · simp only [pyGet_map]
          cases pyGet (t0 :: ts) ((bisectRight (t0 :: ts) t : Int) - 1) <;>
          cases pyGet (t0 :: ts) (bisectRight (t0 :: ts) t : Int) <;>
          cases pyGet s.vs ((bisectRight (t0 :: ts) t : Int) - 1) <;>
          cases pyGet s.vs (bisectRight (t0 :: ts) t : Int) <;> try rfl
          simp only [Except.map]
          split
          · rfl
          · simp only [hg]

/-- **C06** Shifting always yields an accepted sequence: the same values at shifted times. -/
theorem C06_shift (s : Seq K α) (h : s.Valid) (d : K) :
    ∃ s', s.shiftTimestamps d = .ok s' ∧ s'.Valid ∧
      s'.samples = s.samples.map (fun p => (p.1 + d, p.2)) := by
  have hv : (s.ts.map (· + d)).Pairwise (· < ·) := by
    rw [List.pairwise_map]
    exact h.2.imp (fun hab => by linarith)
  refine ⟨⟨s.ts.map (· + d), s.vs⟩, Seq.mk?_of_valid _ _ (by simp [h.1]) hv, ⟨by simp [h.1], hv⟩, ?_⟩
  unfold Seq.samples
  simp only [List.zip_map_left]
  rfl

theorem shift_eq (s s' : Seq K α) (d : K) (hs : s.shiftTimestamps d = .ok s') :
    s' = ⟨s.ts.map (· + d), s.vs⟩ := by
  unfold Seq.shiftTimestamps at hs
  exact ((Seq.mk?_ok_iff _ _ _).mp hs).2.2

theorem strictMono_add (d : K) : StrictMono (fun x : K => x + d) := fun a b h => by
  simp only; linarith

/-- C06: exact lookup after shifting. -/
theorem C06_at_shift (s s' : Seq K α) (h : s.Valid) (d : K) (hs : s.shiftTimestamps d = .ok s')
    (t : K) : s'.at' (t + d) = s.at' t := by
  rw [shift_eq s s' d hs]
  unfold Seq.at'
  rw [findIdx?_map_inj (fun x : K => x + d) (strictMono_add d).injective]

/-- C06: zero-order-hold lookup after shifting. -/
theorem C06_at_or_previous_shift (s s' : Seq K α) (h : s.Valid) (d : K)
    (hs : s.shiftTimestamps d = .ok s') (t : K) :
    s'.atOrPrevious (t + d) = s.atOrPrevious t := by
  have hat := C06_at_shift s s' h d hs t
  rw [shift_eq s s' d hs] at hat ⊢
  unfold Seq.atOrPrevious
  rw [hat]
  simp only [bisectRight_map _ (strictMono_add d)]
  cases hts : s.ts with
  | nil => simp [Seq.getStart, hts]
  | cons t0 ts => simp [Seq.getStart, hts]

/-- C06: interpolated lookup after shifting. -/
theorem C06_at_interp_shift [AddCommGroup α] [Module K α] (s s' : Seq K α) (h : s.Valid) (d : K)
    (hs : s.shiftTimestamps d = .ok s') (t : K) :
    s'.atInterp (t + d) = s.atInterp t := by
  rw [shift_eq s s' d hs]
  unfold Seq.atInterp
  simp only [bisectRight_map _ (strictMono_add d), pyGet_map]
  rcases s with ⟨ts, vs⟩
  cases ts with
  | nil => simp [Seq.getStart]
  | cons t0 ts =>
    have hl : ((t0 :: ts).map (· + d)).getLast? = (t0 :: ts).getLast?.map (· + d) :=
      List.getLast?_map
    simp only [Seq.getStart, Seq.getEnd, hl]
    simp only [List.map_cons, add_le_add_iff_right]
    split
    · rfl
    · cases (t0 :: ts).getLast? with
      | none => rfl
      | some t1 =>
        simp only [Option.map_some, add_le_add_iff_right]
        split
        · rfl
        · cases pyGet (t0 :: ts) ((bisectRight (t0 :: ts) t : Int) - 1) <;>
          cases pyGet (t0 :: ts) (bisectRight (t0 :: ts) t : Int) <;>
          cases pyGet vs ((bisectRight (t0 :: ts) t : Int) - 1) <;>
          cases pyGet vs (bisectRight (t0 :: ts) t : Int) <;> try rfl
          simp only [Except.map, add_sub_add_right_eq_sub]

example : (⟨[0, 1], [5, 7]⟩ : Seq ℚ ℚ).shiftTimestamps (1/2) = .ok ⟨[1/2, 3/2], [5, 7]⟩ := by
  decide +kernel
example : (⟨[0, 1, 2], [5, 7, 6]⟩ : Seq ℚ ℚ).transformValues
    (fun v => if v = 7 then none else some (v * 2)) = .ok ⟨[0, 2], [10, 12]⟩ := by decide +kernel
example : ∀ (c v w : ℚ), (fun x : ℚ => 3 * x + 1) ((1 - c) • v + c • w) =
    (1 - c) • (fun x : ℚ => 3 * x + 1) v + c • (fun x : ℚ => 3 * x + 1) w := by
  intro c v w; simp only [smul_eq_mul]; ring

end Verif
