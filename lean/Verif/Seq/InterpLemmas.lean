import Mathlib.Algebra.Module.Basic
import Mathlib.Tactic.Module
import Verif.Seq.Lemmas

/-! # Helper lemmas on interpolated lookup -/

set_option linter.unusedSectionVars false

namespace Verif
namespace Seq

variable {K : Type*} [Field K] [LinearOrder K] [IsStrictOrderedRing K]
variable {α : Type*}

theorem ts_lt (s : Seq K α) (h : s.Valid) {i j : Nat} (hj : j < s.ts.length) (hij : i < j) :
    s.ts[i]'(by omega) < s.ts[j] := List.pairwise_iff_getElem.mp h.2 i j (by omega) hj hij

theorem ts_le (s : Seq K α) (h : s.Valid) {i j : Nat} (hj : j < s.ts.length) (hij : i ≤ j) :
    s.ts[i]'(by omega) ≤ s.ts[j] := by
  rcases Nat.eq_or_lt_of_le hij with e | l
  · subst e; exact le_refl _
  · exact le_of_lt (ts_lt s h hj l)

variable [AddCommGroup α] [Module K α]

theorem atInterp_before (s : Seq K α) (h : s.Valid) (hpos : 0 < s.ts.length) (t : K)
    (ht : t ≤ s.ts[0]) : s.atInterp t = .ok (s.vs[0]'(by rw [← h.1]; exact hpos)) := by
  have hne : s.ts ≠ [] := List.length_pos_iff.mp hpos
  unfold atInterp
  rw [getStart_eq s hne]
  simp only [List.head_eq_getElem, ht, if_true]
  have := pyGet_of_lt s.vs 0 (by rw [← h.1]; exact hpos)
  simpa using this

theorem atInterp_after (s : Seq K α) (h : s.Valid) (hpos : 0 < s.ts.length) (t : K)
    (ht : s.ts[s.ts.length - 1] ≤ t) :
    s.atInterp t = .ok (s.vs[s.ts.length - 1]'(by rw [← h.1]; omega)) := by
  have hne : s.ts ≠ [] := List.length_pos_iff.mp hpos
  by_cases h0 : t ≤ s.ts[0]
  · have h1 : s.ts[0] = s.ts[s.ts.length - 1] :=
      le_antisymm (ts_le s h (by omega) (by omega)) (le_trans ht h0)
    have h2 : s.ts.length - 1 = 0 := by
      by_contra hc
      have := ts_lt s h (i := 0) (j := s.ts.length - 1) (by omega) (by omega)
      rw [h1] at this
      exact lt_irrefl _ this
    rw [atInterp_before s h hpos t h0]
    simp only [h2]
  · unfold atInterp
    rw [getStart_eq s hne]
    simp only [List.head_eq_getElem, h0, if_false]
    rw [getEnd_eq s hne]
    simp only [List.getLast_eq_getElem, ht, if_true]
    have hv : s.vs ≠ [] := by
      intro hc
      have := h.1
      rw [hc] at this
      simp only [List.length_nil] at this
      omega
    rw [pyGet_neg_one _ hv, List.getLast_eq_getElem]
    simp only [h.1]

/-- The chord formula on the interval between sample `i` and sample `i+1`. -/
theorem atInterp_between (s : Seq K α) (h : s.Valid) (i : Nat) (hi : i + 1 < s.ts.length)
    (hi' : i + 1 < s.vs.length) (t : K) (h0 : s.ts[i] ≤ t) (h1 : t ≤ s.ts[i + 1]) :
    s.atInterp t = .ok (s.vs[i] + ((t - s.ts[i]) / (s.ts[i + 1] - s.ts[i])) • (s.vs[i + 1] - s.vs[i])) := by
  have hpos : 0 < s.ts.length := by omega
  have hne : s.ts ≠ [] := List.length_pos_iff.mp hpos
  have hlt : s.ts[i] < s.ts[i + 1] := ts_lt s h hi (by omega)
  have hd : s.ts[i + 1] - s.ts[i] ≠ 0 := sub_ne_zero.mpr (ne_of_gt hlt)
  by_cases hst : t ≤ s.ts[0]
  · have hi0 : i = 0 := by
      by_contra hc
      have := ts_lt s h (i := 0) (j := i) (by omega) (by omega)
      exact absurd (lt_of_lt_of_le this (le_trans h0 hst)) (lt_irrefl _)
    subst hi0
    have : t = s.ts[0] := le_antisymm hst h0
    rw [atInterp_before s h hpos t hst, this]
    simp
  · by_cases hen : s.ts[s.ts.length - 1] ≤ t
    · have hil : i + 1 = s.ts.length - 1 := by
        by_contra hc
        have := ts_lt s h (i := i + 1) (j := s.ts.length - 1) (by omega) (by omega)
        exact absurd (lt_of_lt_of_le this (le_trans hen h1)) (lt_irrefl _)
      have ht : t = s.ts[i + 1] := by
        refine le_antisymm h1 ?_
        simp only [hil]; exact hen
      rw [atInterp_after s h hpos t hen]
      simp only [← hil]
      congr 1
      rw [ht, div_self hd, one_smul]
      module
    · unfold atInterp
      rw [getStart_eq s hne]
      simp only [List.head_eq_getElem, hst, if_false]
      rw [getEnd_eq s hne]
      simp only [List.getLast_eq_getElem, hen, if_false]
      obtain ⟨b1, b2, b3⟩ := bisectRight_spec s.ts t h.2
      have hlen := h.1
      -- position of the search
      have hb_lt : bisectRight s.ts t < s.ts.length := by
        by_contra hc
        have := b2 (s.ts.length - 1) (by omega) (by omega)
        exact hen this
      have hb_gt : i < bisectRight s.ts t := by
        by_contra hc
        have := b3 i (by omega) (by omega)
        exact absurd (lt_of_lt_of_le this h0) (lt_irrefl _)
      have hcast : ((bisectRight s.ts t : Nat) : Int) - 1 = ((bisectRight s.ts t - 1 : Nat) : Int) := by
        omega
      rw [hcast, pyGet_of_lt s.ts _ (by omega), pyGet_of_lt s.ts _ hb_lt,
        pyGet_of_lt s.vs _ (by omega), pyGet_of_lt s.vs _ (by omega)]
      simp only
      have hdk : s.ts[bisectRight s.ts t] - s.ts[bisectRight s.ts t - 1] ≠ 0 :=
        sub_ne_zero.mpr (ne_of_gt (ts_lt s h hb_lt (by omega)))
      rw [if_neg hdk]
      congr 1
      rcases Nat.lt_or_ge (i + 1) (bisectRight s.ts t) with hk | hk
      · -- t is exactly at sample i+1
        have ht : t = s.ts[i + 1] := le_antisymm h1 (b2 (i + 1) (by omega) hk)
        have hk2 : bisectRight s.ts t = i + 2 := by
          by_contra hc
          have h5 := b2 (i + 2) (by omega) (by omega)
          have h6 := ts_lt s h (i := i + 1) (j := i + 2) (by omega) (by omega)
          rw [← ht] at h6
          exact absurd (lt_of_lt_of_le h6 h5) (lt_irrefl _)
        simp only [hk2, show i + 2 - 1 = i + 1 from rfl]
        have e1 : t - s.ts[i + 1] = 0 := sub_eq_zero.mpr ht
        have e2 : (t - s.ts[i]) / (s.ts[i + 1] - s.ts[i]) = 1 := by
          rw [div_eq_one_iff_eq hd]; exact congrArg (· - s.ts[i]) ht
        rw [e1, e2, zero_div]
        module
      · have hk2 : bisectRight s.ts t = i + 1 := by omega
        simp only [hk2, show i + 1 - 1 = i from rfl]
        module

/-- A time inside the covered interval lies between two consecutive samples. -/
theorem exists_bracket {β : Type*} (s : Seq K β) (h : s.Valid) (t : K) (hpos : 1 < s.ts.length)
    (h0 : s.ts[0] ≤ t) (h1 : t ≤ s.ts[s.ts.length - 1]) :
    ∃ (i : Nat) (hi : i + 1 < s.ts.length), s.ts[i] ≤ t ∧ t ≤ s.ts[i + 1] := by
  obtain ⟨b1, b2, b3⟩ := bisectRight_spec s.ts t h.2
  have hk : 0 < bisectRight s.ts t := by
    by_contra hc
    have := b3 0 (by omega) (by omega)
    exact absurd (lt_of_lt_of_le this h0) (lt_irrefl _)
  by_cases hl : bisectRight s.ts t < s.ts.length
  · refine ⟨bisectRight s.ts t - 1, by omega, b2 _ (by omega) (by omega), ?_⟩
    have := b3 _ hl (le_refl _)
    simp only [show bisectRight s.ts t - 1 + 1 = bisectRight s.ts t from by omega]
    exact le_of_lt this
  · refine ⟨s.ts.length - 2, by omega, b2 _ (by omega) (by omega), ?_⟩
    simp only [show s.ts.length - 2 + 1 = s.ts.length - 1 from by omega]
    exact h1

end Seq
end Verif
