import Verif.Seq.OpModel
import Verif.Seq.BuilderProps
import Verif.Seq.InterpProps
import Mathlib.Data.List.GetD
import Mathlib.Algebra.BigOperators.Group.Finset.Basic
import Mathlib.Algebra.BigOperators.Group.List.Basic
import Mathlib.Algebra.BigOperators.Intervals
import Mathlib.Algebra.Module.BigOperators
import Mathlib.Algebra.BigOperators.Ring.Finset
import Mathlib.Tactic.Module
import Mathlib.Tactic.LinearCombination

/-!
# Properties C09-C12: integration, differentiation, accumulation, crossings

For a sequence `s`, `s.t i` and `s.v i` are the time and value of sample `i` (0 outside).
The specifications are sums over these.
-/

set_option linter.unusedSectionVars false

namespace Verif

open Finset

variable {K : Type*} [Field K] [LinearOrder K] [IsStrictOrderedRing K]
variable {α : Type*}

/-- Time of sample `i`. -/
def Seq.t (s : Seq K α) (i : Nat) : K := s.ts.getD i 0

/-- Value of sample `i`. -/
def Seq.v [Zero α] (s : Seq K α) (i : Nat) : α := s.vs.getD i 0

theorem Seq.t_lt (s : Seq K α) (h : s.Valid) (i j : Nat) (hij : i < j) (hj : j < s.ts.length) :
    s.t i < s.t j := by
  unfold Seq.t
  rw [List.getD_eq_getElem _ _ hj, List.getD_eq_getElem _ _ (by omega)]
  exact List.pairwise_iff_getElem.mp h.2 i j (by omega) hj hij

theorem items_getD [Zero α] (s : Seq K α) (h : s.Valid) :
    ∃ items, iterateWithDt s.ts s.vs = .ok items ∧ items.length = s.ts.length - 1 ∧
      ∀ i, i < items.length →
        items[i]? = some ⟨s.t i, s.t (i+1), s.t (i+1) - s.t i, s.v i, s.v (i+1)⟩ := by
  obtain ⟨items, h1, h2, h3⟩ := iterateWithDt_spec s.ts s.vs h.1
  refine ⟨items, h1, h2, fun i hi => ?_⟩
  have hi' : i + 1 < s.ts.length := by omega
  have hi2 : i + 1 < s.vs.length := by rw [← h.1]; exact hi'
  rw [h3 i hi' hi2]
  unfold Seq.t Seq.v
  rw [List.getD_eq_getElem _ _ hi', List.getD_eq_getElem _ _ hi2,
    List.getD_eq_getElem s.ts _ (by omega), List.getD_eq_getElem s.vs _ (by omega)]

/-! ## C09: integration -/

section
variable [AddCommGroup α] [Module K α]

/-- Specification: the trapezoid rule from the first sample to sample `k`. -/
def trapezoid (s : Seq K α) (k : Nat) : α :=
  ∑ j ∈ range k, ((s.t (j+1) - s.t j) / 2) • (s.v j + s.v (j+1))

theorem integrateLoop_length (c : α) (items : List (IterateDT K α)) :
    (integrateLoop c items).length = items.length := by
  induction items generalizing c with
  | nil => rfl
  | cons it rest ih => simp [integrateLoop, ih]

theorem integrateLoop_getElem (c : α) (items : List (IterateDT K α)) (i : Nat)
    (it : IterateDT K α) (hi : items[i]? = some it) :
    (integrateLoop c items)[i]? = some (it.t1,
      c + ((items.take (i+1)).map (fun it => (it.dt / 2) • (it.v0 + it.v1))).sum) := by
  induction items generalizing c i with
  | nil => simp at hi
  | cons a rest ih =>
    have e : a.dt • (2 : K)⁻¹ • (a.v0 + a.v1) = (a.dt / 2) • (a.v0 + a.v1) := by
      rw [smul_smul, div_eq_mul_inv]
    cases i with
    | zero =>
      simp at hi; subst hi
      simp [integrateLoop, smul_smul, div_eq_mul_inv]
    | succ i =>
      simp only [List.getElem?_cons_succ] at hi
      simp only [integrateLoop, List.getElem?_cons_succ]
      rw [ih _ i hi, e]
      simp [add_assoc]

theorem sum_take_eq (items : List (IterateDT K α)) (s : Seq K α)
    (h : ∀ i, i < items.length →
        items[i]? = some ⟨s.t i, s.t (i+1), s.t (i+1) - s.t i, s.v i, s.v (i+1)⟩)
    (k : Nat) (hk : k ≤ items.length) :
    ((items.take k).map (fun it => (it.dt / 2) • (it.v0 + it.v1))).sum = trapezoid s k := by
  induction k with
  | zero => simp [trapezoid]
  | succ k ih =>
    have := h k (by omega)
    rw [List.take_add_one, this]
    simp only [Option.toList, List.map_append, List.sum_append, ih (by omega)]
    unfold trapezoid
    rw [Finset.sum_range_succ]
    simp

/-- **C09** Integrating a sequence with at least two samples succeeds and gives an accepted
sequence with one sample per interval: at the end of interval `i` it has the trapezoid sum up
to there. -/
theorem C09_integrate (s : Seq K α) (h : s.Valid) (hn : 2 ≤ s.ts.length) :
    ∃ s', seqIntegrate s = .ok s' ∧ s'.Valid ∧ s'.ts.length = s.ts.length - 1 ∧
      ∀ i, i < s'.ts.length → s'.t i = s.t (i + 1) ∧ s'.v i = trapezoid s (i + 1) := by
  obtain ⟨items, h1, h2, h3⟩ := items_getD s h
  have hget : ∀ i, i < items.length →
      (integrateLoop (0 : α) items)[i]? = some (s.t (i+1), trapezoid s (i+1)) := by
    intro i hi
    rw [integrateLoop_getElem 0 items i _ (h3 i hi), sum_take_eq items s h3 (i+1) (by omega)]
    simp
  set out := integrateLoop (0 : α) items with hout
  have hlen : out.length = items.length := integrateLoop_length _ _
  have hpw : (out.map Prod.fst).Pairwise (· < ·) := by
    rw [List.pairwise_iff_getElem]
    intro i j hi hj hij
    simp only [List.length_map] at hi hj
    have ei := List.getElem?_eq_some_iff.mp (hget i (by omega))
    have ej := List.getElem?_eq_some_iff.mp (hget j (by omega))
    obtain ⟨_, ei⟩ := ei
    obtain ⟨_, ej⟩ := ej
    simp only [List.getElem_map, ei, ej]
    exact Seq.t_lt s h _ _ (by omega) (by omega)
  refine ⟨⟨out.map Prod.fst, out.map Prod.snd⟩, ?_, ⟨by simp, hpw⟩, by simp [hlen, h2], ?_⟩
  · unfold seqIntegrate
    rw [if_neg (by omega), if_neg (by rw [← h.1]; omega), h1]
    exact Seq.mk?_of_valid _ _ (by simp) hpw
  · intro i hi
    simp only [List.length_map] at hi
    have := hget i (by omega)
    simp [Seq.t, Seq.v, List.getD, this]

/-- C09: an empty sequence raises `ValueError`. -/
theorem C09_empty (s : Seq K α) (h : s.ts = []) : seqIntegrate s = .error .value := by
  simp [seqIntegrate, h]

/-- C09: a sequence with one sample is returned unchanged. -/
theorem C09_single (s : Seq K α) (h : s.Valid) (h1 : s.ts.length = 1) : seqIntegrate s = .ok s := by
  simp [seqIntegrate, h1, ← h.1]

theorem trapezoid_linear (s1 s2 s3 : Seq K α) (a b : K) (k : Nat) (h2 : ∀ i ≤ k, s2.t i = s1.t i)
    (h3 : ∀ i ≤ k, s3.t i = s1.t i) (hv : ∀ i ≤ k, s3.v i = a • s1.v i + b • s2.v i) :
    trapezoid s3 k = a • trapezoid s1 k + b • trapezoid s2 k := by
  unfold trapezoid
  rw [Finset.smul_sum, Finset.smul_sum, ← Finset.sum_add_distrib]
  apply Finset.sum_congr rfl
  intro j hj
  have hj' := Finset.mem_range.mp hj
  rw [h2 _ hj', h2 _ hj'.le, h3 _ hj', h3 _ hj'.le, hv _ hj', hv _ hj'.le]
  module

/-- C09: the integral is linear in the signal: integrating `a` times one signal plus `b` times another one at the
same times gives `a` times the integral of the first plus `b` times that of the second. -/
theorem C09_linear (s1 s2 s3 r1 r2 r3 : Seq K α) (a b : K) (v1 : s1.Valid) (v2 : s2.Valid) (v3 : s3.Valid)
    (hn : 2 ≤ s1.ts.length) (h2 : s2.ts = s1.ts) (h3 : s3.ts = s1.ts)
    (hv : ∀ i < s1.ts.length, s3.v i = a • s1.v i + b • s2.v i) (e1 : seqIntegrate s1 = .ok r1)
    (e2 : seqIntegrate s2 = .ok r2) (e3 : seqIntegrate s3 = .ok r3) :
    r3.ts = r1.ts ∧ r3.ts = r2.ts ∧ ∀ i < r3.ts.length, r3.v i = a • r1.v i + b • r2.v i := by
  obtain ⟨_, f1, -, l1, g1⟩ := C09_integrate s1 v1 hn
  obtain ⟨_, f2, -, l2, g2⟩ := C09_integrate s2 v2 (by rw [h2]; exact hn)
  obtain ⟨_, f3, -, l3, g3⟩ := C09_integrate s3 v3 (by rw [h3]; exact hn)
  rw [e1] at f1
  rw [e2] at f2
  rw [e3] at f3
  obtain ⟨rfl, rfl, rfl⟩ : r1 = _ ∧ r2 = _ ∧ r3 = _ :=
    ⟨Except.ok.inj f1, Except.ok.inj f2, Except.ok.inj f3⟩
  rw [h2] at l2
  rw [h3] at l3
  have t2 : ∀ i, s2.t i = s1.t i := fun i => by simp only [Seq.t, h2]
  have t3 : ∀ i, s3.t i = s1.t i := fun i => by simp only [Seq.t, h3]
  have key : ∀ (p q : Seq K α), p.ts.length = q.ts.length → (∀ i < p.ts.length, p.t i = q.t i) → p.ts = q.ts := by
    intro p q hl ht
    refine List.ext_getElem hl fun i hi hi' => ?_
    have := ht i hi
    simpa only [Seq.t, List.getD_eq_getElem _ _ hi, List.getD_eq_getElem _ _ hi'] using this
  refine ⟨key _ _ (by omega) fun i hi => ?_, key _ _ (by omega) fun i hi => ?_, fun i hi => ?_⟩
  · rw [(g3 i hi).1, (g1 i (by omega)).1, t3]
  · rw [(g3 i hi).1, (g2 i (by omega)).1, t3, t2]
  · rw [(g3 i hi).2, (g1 i (by omega)).2, (g2 i (by omega)).2]
    exact trapezoid_linear s1 s2 s3 a b (i + 1) (fun j _ => t2 j) (fun j _ => t3 j) fun j hj => hv j (by omega)

/-- C09: for a signal `p + t q` the integral is exact. -/
theorem C09_affine_exact (s r : Seq K α) (p q : α) (h : s.Valid) (hn : 2 ≤ s.ts.length)
    (hv : ∀ i < s.ts.length, s.v i = p + s.t i • q) (e : seqIntegrate s = .ok r) (i : Nat) (hi : i < r.ts.length) :
    r.v i = (r.t i - s.t 0) • p + ((r.t i ^ 2 - s.t 0 ^ 2) / 2) • q := by
  obtain ⟨_, f, -, l, g⟩ := C09_integrate s h hn
  rw [e] at f
  obtain rfl := Except.ok.inj f
  have key : ∀ k < s.ts.length, trapezoid s k = (s.t k - s.t 0) • p + ((s.t k ^ 2 - s.t 0 ^ 2) / 2) • q := by
    intro k hk
    unfold trapezoid
    induction k with
    | zero => simp
    | succ k ih =>
      rw [Finset.sum_range_succ, ih (by omega), hv k (by omega), hv (k+1) hk]
      module
  rw [(g i hi).2, (g i hi).1]
  exact key (i + 1) (by omega)

end

/-- The hypotheses of C09 on a concrete sequence. -/
example : (⟨[0, 1, 3], [2, 4, 0]⟩ : Seq ℚ ℚ).Valid ∧
    seqIntegrate (⟨[0, 1, 3], [2, 4, 0]⟩ : Seq ℚ ℚ) = .ok ⟨[1, 3], [3, 7]⟩ := by
  refine ⟨⟨rfl, by simp⟩, by decide +kernel⟩

example := C09_linear (⟨[0, 1, 3], [2, 4, 0]⟩ : Seq ℚ ℚ) ⟨[0, 1, 3], [1, 1, 5]⟩ ⟨[0, 1, 3], [7, 11, 15]⟩ ⟨[1, 3], [3, 7]⟩
  ⟨[1, 3], [1, 7]⟩ ⟨[1, 3], [9, 35]⟩ 2 3 ⟨rfl, by simp⟩ ⟨rfl, by simp⟩ ⟨rfl, by simp⟩ (by simp) rfl rfl
  (by decide +kernel) (by decide +kernel) (by decide +kernel) (by decide +kernel)
example := C09_affine_exact (⟨[0, 1, 3], [2, 5, 11]⟩ : Seq ℚ ℚ) ⟨[1, 3], [7 / 2, 39 / 2]⟩ 2 3 ⟨rfl, by simp⟩ (by simp)
  (by decide +kernel) (by decide +kernel) 1 (by simp)

/-! ## C10: differentiation -/

theorem differentiateLoop_spec (items : List (IterateDT K K)) (h : ∀ it ∈ items, 0 < it.dt) :
    differentiateLoop items =
      .ok (items.map (fun it => (it.t0 + it.dt / 2, (it.v1 - it.v0) / it.dt))) := by
  induction items with
  | nil => rfl
  | cons a rest ih =>
    have := (h a (by simp)).ne'
    simp only [differentiateLoop, this, if_false, ih (fun it hit => h it (by simp [hit]))]
    rfl

/-- **C10** Differentiation of a non-empty sequence succeeds (no division by zero) and gives
an accepted sequence with the difference quotient at the middle of every interval. -/
theorem C10_differentiate (s : Seq K K) (h : s.Valid) (hn : 1 ≤ s.ts.length) :
    ∃ s', seqDifferentiate s = .ok s' ∧ s'.Valid ∧ s'.ts.length = s.ts.length - 1 ∧
      ∀ i, i < s'.ts.length → s'.t i = (s.t i + s.t (i + 1)) / 2 ∧
        s'.v i = (s.v (i + 1) - s.v i) / (s.t (i + 1) - s.t i) := by
  obtain ⟨items, h1, h2, h3⟩ := items_getD s h
  have hpos : ∀ it ∈ items, 0 < it.dt := by
    obtain ⟨items', e, _, _, hp⟩ := C08_items s h
    rw [h1] at e; injection e with e; subst e; exact hp
  set out := items.map (fun it => (it.t0 + it.dt / 2, (it.v1 - it.v0) / it.dt)) with hout
  have hlen : out.length = items.length := by simp [hout]
  have hget : ∀ i, i < items.length → out[i]? =
      some ((s.t i + s.t (i + 1)) / 2, (s.v (i + 1) - s.v i) / (s.t (i + 1) - s.t i)) := by
    intro i hi
    simp only [hout, List.getElem?_map, h3 i hi, Option.map_some]
    congr 2
    ring
  have hpw : (out.map Prod.fst).Pairwise (· < ·) := by
    rw [List.pairwise_iff_getElem]
    intro i j hi hj hij
    simp only [List.length_map] at hi hj
    obtain ⟨_, ei⟩ := List.getElem?_eq_some_iff.mp (hget i (by omega))
    obtain ⟨_, ej⟩ := List.getElem?_eq_some_iff.mp (hget j (by omega))
    simp only [List.getElem_map, ei, ej]
    have a := Seq.t_lt s h i j hij (by omega)
    have b := Seq.t_lt s h (i+1) (j+1) (by omega) (by omega)
    linarith
  refine ⟨⟨out.map Prod.fst, out.map Prod.snd⟩, ?_, ⟨by simp, hpw⟩, by simp [hlen, h2], ?_⟩
  · unfold seqDifferentiate
    rw [if_neg (by omega), h1]
    simp only [differentiateLoop_spec items hpos]
    exact Seq.mk?_of_valid _ _ (by simp) hpw
  · intro i hi
    simp only [List.length_map] at hi
    have := hget i (by omega)
    simp [Seq.t, Seq.v, List.getD, this]

/-- C10: an empty sequence raises `ValueError`. -/
theorem C10_empty (s : Seq K K) (h : s.ts = []) : seqDifferentiate s = .error .value := by
  simp [seqDifferentiate, h]

/-- C10: the result for a single sample is the empty sequence. -/
theorem C10_single (s : Seq K K) (h : s.Valid) (h1 : s.ts.length = 1) :
    seqDifferentiate s = .ok ⟨[], []⟩ := by
  obtain ⟨s', e, hv, hl, _⟩ := C10_differentiate s h (by omega)
  rw [e]
  obtain ⟨ts, vs⟩ := s'
  have h0 : ts = [] := List.length_eq_zero_iff.mp (by simpa [h1] using hl)
  have h2 : vs = [] := List.length_eq_zero_iff.mp (by have := hv.1; simp [h0] at this; exact this.symm)
  rw [h0, h2]

/-- C10: derivative times interval length adds up to last minus first value (fundamental
theorem). -/
theorem C10_fundamental (s s' : Seq K K) (h : s.Valid) (hn : 1 ≤ s.ts.length)
    (hs : seqDifferentiate s = .ok s') :
    ∑ i ∈ range (s.ts.length - 1), s'.v i * (s.t (i + 1) - s.t i) =
      s.v (s.ts.length - 1) - s.v 0 := by
  obtain ⟨s'', e, _, hl, hv⟩ := C10_differentiate s h hn
  rw [hs] at e; injection e with e; subst e
  rw [← Finset.sum_range_sub s.v]
  apply Finset.sum_congr rfl
  intro i hi
  rw [Finset.mem_range] at hi
  rw [(hv i (by omega)).2]
  have := Seq.t_lt s h i (i+1) (by omega) (by omega)
  field_simp [sub_ne_zero.mpr this.ne']

/-- C10: the derivative of an affine signal is its slope everywhere. -/
theorem C10_affine (s s' : Seq K K) (h : s.Valid) (hn : 1 ≤ s.ts.length) (p q : K)
    (hq : ∀ i < s.ts.length, s.v i = p + q * s.t i) (hs : seqDifferentiate s = .ok s') (i : Nat)
    (hi : i < s'.ts.length) : s'.v i = q := by
  obtain ⟨s'', e, _, hl, hv⟩ := C10_differentiate s h hn
  rw [hs] at e; injection e with e; subst e
  have := Seq.t_lt s h i (i+1) (by omega) (by omega)
  rw [(hv i hi).2, hq i (by omega), hq (i+1) (by omega)]
  have hne := sub_ne_zero.mpr this.ne'
  rw [div_eq_iff hne]; ring

example : seqDifferentiate (⟨[0, 1, 3], [2, 4, 0]⟩ : Seq ℚ ℚ) = .ok ⟨[1/2, 2], [2, -2]⟩ := by
  decide +kernel

/-! ## C11: accumulation -/

theorem accumulateFrom_length [Add α] (c : α) (l : List α) :
    (accumulateFrom c l).length = l.length + 1 := by
  induction l generalizing c with
  | nil => rfl
  | cons v vs ih => simp [accumulateFrom, ih]

theorem accumulateFrom_getElem [AddCommMonoid α] (c : α) (l : List α) (i : Nat)
    (hi : i ≤ l.length) : (accumulateFrom c l)[i]? = some (c + (l.take i).sum) := by
  induction l generalizing c i with
  | nil => simp at hi; subst hi; simp [accumulateFrom]
  | cons v vs ih =>
    cases i with
    | zero => simp [accumulateFrom]
    | succ i =>
      simp only [accumulateFrom, List.getElem?_cons_succ]
      rw [ih _ i (by simpa using hi)]
      simp [add_assoc]

/-- **C11** Accumulation keeps the timestamps; value `i` is the sum of the first `i + 1`
values. -/
theorem C11_accumulate [AddCommMonoid α] (s : Seq K α) (h : s.Valid) :
    ∃ s', seqAccumulate s = .ok s' ∧ s'.Valid ∧ s'.ts = s.ts ∧
      ∀ i, i < s.vs.length → s'.vs[i]? = some ((s.vs.take (i + 1)).sum) := by
  have hl : (accumulate s.vs).length = s.vs.length := by
    unfold accumulate
    split
    · simp_all
    · rename_i v vs hv; rw [hv, accumulateFrom_length]; rfl
  refine ⟨⟨s.ts, accumulate s.vs⟩, Seq.mk?_of_valid _ _ (by rw [hl]; exact h.1) h.2,
    ⟨by rw [hl]; exact h.1, h.2⟩, rfl, ?_⟩
  intro i hi
  simp only
  unfold accumulate
  split
  · rename_i hv; simp [hv] at hi
  · rename_i v vs hv
    rw [accumulateFrom_getElem _ _ _ (by simp [hv] at hi; omega), hv]
    simp

example : seqAccumulate (⟨[0, 1, 3], [2, 4, 1]⟩ : Seq ℚ ℚ) = .ok ⟨[0, 1, 3], [2, 6, 7]⟩ := by
  decide +kernel

/-! ## C12: crossings -/

/-- Specification: the intervals (pairs of consecutive samples) on whose ends the signal is
on different sides of the threshold, a value equal to the threshold counting as above. -/
def crossingIntervals (thr : K) (samples : List (K × K)) : List ((K × K) × (K × K)) :=
  (samples.zip samples.tail).filter (fun p => decide (¬ (thr ≤ p.1.2 ↔ thr ≤ p.2.2)))

theorem findCrossings_spec (thr : K) (ts vs : List K) (hl : ts.length = vs.length)
    (hp : ts.Pairwise (· < ·)) :
    ∃ cs, findCrossings false thr ts vs = .ok cs ∧
      List.Forall₂ (fun p c => p.1.1 ≤ c ∧ c ≤ p.2.1 ∧
          p.1.2 + ((c - p.1.1) / (p.2.1 - p.1.1)) • (p.2.2 - p.1.2) = thr)
        (crossingIntervals thr (ts.zip vs)) cs := by
  induction ts generalizing vs with
  | nil => exact ⟨[], by simp [findCrossings], by simp [crossingIntervals]⟩
  | cons t0 ts ih =>
    cases vs with
    | nil => simp at hl
    | cons v0 vs =>
      cases ts with
      | nil => exact ⟨[], by simp [findCrossings], by simp [crossingIntervals]⟩
      | cons t1 ts =>
        cases vs with
        | nil => simp at hl
        | cons v1 vs =>
          obtain ⟨cs, e, hf⟩ := ih (v1 :: vs) (by simpa using hl) (List.pairwise_cons.mp hp).2
          have ht : t0 < t1 := (List.pairwise_cons.mp hp).1 t1 (by simp)
          have hiff : (decide (v0 - thr < 0) ≠ decide (v1 - thr < 0)) ↔
              ¬ (thr ≤ v0 ↔ thr ≤ v1) := by
            rw [ne_eq, decide_eq_decide, sub_neg, sub_neg, ← not_le, ← not_le, not_iff_not, not_iff_not]
          simp only [findCrossings, e]
          have hcons : crossingIntervals thr ((t0 :: t1 :: ts).zip (v0 :: v1 :: vs)) =
              (if ¬ (thr ≤ v0 ↔ thr ≤ v1) then [((t0, v0), (t1, v1))] else []) ++
              crossingIntervals thr ((t1 :: ts).zip (v1 :: vs)) := by
            simp only [crossingIntervals, List.zip_cons_cons, List.tail_cons]
            rw [List.filter_cons]
            by_cases hc : ¬ (thr ≤ v0 ↔ thr ≤ v1)
            · rw [if_pos (by simpa using hc), if_pos hc]; rfl
            · rw [if_neg (by simpa using hc), if_neg hc]; rfl
          rw [hcons]
          by_cases hc : ¬ (thr ≤ v0 ↔ thr ≤ v1)
          · rw [if_pos (hiff.mpr hc), if_pos hc]
            refine ⟨_, rfl, ?_⟩
            rw [List.singleton_append]
            refine List.Forall₂.cons ?_ hf
            simp only [smul_eq_mul, sub_sub_sub_cancel_right]
            have hne : v0 - v1 ≠ 0 := by
              intro h0
              have : v0 = v1 := sub_eq_zero.mp h0
              exact hc (by rw [this])
            have hd : 0 < t1 - t0 := sub_pos.mpr ht
            have hrange : 0 ≤ (v0 - thr) / (v0 - v1) ∧ (v0 - thr) / (v0 - v1) ≤ 1 := by
              by_cases h0 : thr ≤ v0
              · have h1 : v1 < thr := by
                  by_contra hcon; exact hc ⟨fun _ => not_lt.mp hcon, fun _ => h0⟩
                have hpos : 0 < v0 - v1 := by linarith
                exact ⟨div_nonneg (by linarith) hpos.le, (div_le_one hpos).mpr (by linarith)⟩
              · have h1 : thr ≤ v1 := by
                  by_contra hcon; exact hc ⟨fun h => absurd h h0, fun h => absurd h hcon⟩
                have h0' := not_le.mp h0
                have hneg : v0 - v1 < 0 := by linarith
                exact ⟨div_nonneg_of_nonpos (by linarith) hneg.le,
                  (div_le_one_of_neg hneg).mpr (by linarith)⟩
            refine ⟨by nlinarith [hrange.1], by nlinarith [hrange.2], ?_⟩
            rw [add_sub_cancel_left, mul_div_cancel_right₀ _ hd.ne']
            field_simp
            ring
          · rw [if_neg (fun h => hc (hiff.mp h)), if_neg hc]
            exact ⟨cs, rfl, by simpa using hf⟩

theorem mem_zip_tail {β : Type*} (l : List β) (p q : β) (h : (p, q) ∈ l.zip l.tail) :
    ∃ a b, l = a ++ p :: q :: b := by
  induction l with
  | nil => simp at h
  | cons x l ih =>
    cases l with
    | nil => simp at h
    | cons y l =>
      simp only [List.tail_cons, List.zip_cons_cons, List.mem_cons, Prod.mk.injEq] at h
      rcases h with ⟨rfl, rfl⟩ | h
      · exact ⟨[], l, rfl⟩
      · obtain ⟨a, b, e⟩ := ih (by simpa using h)
        exact ⟨x :: a, b, by rw [e]; rfl⟩

theorem forall₂_imp_mem {β γ : Type*} {R S : β → γ → Prop} {l : List β} {m : List γ}
    (h : List.Forall₂ R l m) (hi : ∀ p ∈ l, ∀ c, R p c → S p c) : List.Forall₂ S l m := by
  induction h with
  | nil => exact List.Forall₂.nil
  | @cons p c l m hpc _ ih =>
    exact List.Forall₂.cons (hi p (by simp) c hpc) (ih (fun p hp => hi p (by simp [hp])))

/-- **C12** With `float` timestamps `find_crossings` succeeds and reports one instant per
interval on which the signal changes side, in order, and nothing else. Each instant lies in its
interval, and the interpolated signal equals the threshold there. -/
theorem C12_crossings (s : Seq K K) (h : s.Valid) (thr : K) :
    ∃ cs, findCrossings false thr s.ts s.vs = .ok cs ∧
      List.Forall₂ (fun p c => p.1.1 ≤ c ∧ c ≤ p.2.1 ∧ s.atInterp c = .ok thr)
        (crossingIntervals thr s.samples) cs := by
  obtain ⟨cs, e, hf⟩ := findCrossings_spec thr s.ts s.vs h.1 h.2
  refine ⟨cs, e, forall₂_imp_mem hf ?_⟩
  rintro ⟨⟨t0, v0⟩, ⟨t1, v1⟩⟩ hp c ⟨h0, h1, h2⟩
  refine ⟨h0, h1, ?_⟩
  obtain ⟨a, b, hs⟩ := mem_zip_tail _ _ _ (List.mem_filter.mp hp).1
  rw [C04_chord s h a b t0 t1 v0 v1 hs c h0 h1]
  exact congrArg _ h2

/-- C12: with `Decimal` timestamps the call succeeds (with no crossings) exactly when there is
no crossing, and raises `TypeError` otherwise. -/
theorem C12_decimal (s : Seq K K) (h : s.Valid) (thr : K) :
    (crossingIntervals thr s.samples = [] → findCrossings true thr s.ts s.vs = .ok []) ∧
    (crossingIntervals thr s.samples ≠ [] → findCrossings true thr s.ts s.vs = .error .type) := by
  obtain ⟨ts, vs⟩ := s
  obtain ⟨hl, hp⟩ := h
  change (crossingIntervals thr (ts.zip vs) = [] → findCrossings true thr ts vs = .ok []) ∧
    (crossingIntervals thr (ts.zip vs) ≠ [] → findCrossings true thr ts vs = .error .type)
  simp only at hl hp
  induction ts generalizing vs with
  | nil => simp [findCrossings, crossingIntervals]
  | cons t0 ts ih =>
    cases vs with
    | nil => simp at hl
    | cons v0 vs =>
      cases ts with
      | nil => simp [findCrossings, crossingIntervals]
      | cons t1 ts =>
        cases vs with
        | nil => simp at hl
        | cons v1 vs =>
          have hiff : (decide (v0 - thr < 0) ≠ decide (v1 - thr < 0)) ↔
              ¬ (thr ≤ v0 ↔ thr ≤ v1) := by
            rw [ne_eq, decide_eq_decide, sub_neg, sub_neg, ← not_le, ← not_le, not_iff_not,
              not_iff_not]
          have := ih (v1 :: vs) (by simpa using hl) (List.pairwise_cons.mp hp).2
          by_cases hc : ¬ (thr ≤ v0 ↔ thr ≤ v1)
          · have hne : crossingIntervals thr ((t0 :: t1 :: ts).zip (v0 :: v1 :: vs)) ≠ [] := by
              simp only [crossingIntervals, List.zip_cons_cons, List.tail_cons]
              rw [List.filter_cons, if_pos (by simpa using hc)]
              simp
            refine ⟨fun h => absurd h hne, fun _ => ?_⟩
            simp only [findCrossings]
            rw [if_pos (hiff.mpr hc)]
            simp
          · have e : crossingIntervals thr ((t0 :: t1 :: ts).zip (v0 :: v1 :: vs)) =
                crossingIntervals thr ((t1 :: ts).zip (v1 :: vs)) := by
              simp only [crossingIntervals, List.zip_cons_cons, List.tail_cons]
              rw [List.filter_cons, if_neg (by simpa using hc)]
            rw [e]
            have e2 : findCrossings true thr (t0 :: t1 :: ts) (v0 :: v1 :: vs) =
                findCrossings true thr (t1 :: ts) (v1 :: vs) := by
              simp only [findCrossings]
              rw [if_neg (fun h => hc (hiff.mp h))]
            rw [e2]
            exact this

example : findCrossings false (1 : ℚ) [0, 1, 2, 3] [0, 2, 1, 0] = .ok [1/2, 2] ∧
    crossingIntervals (1 : ℚ) ([0, 1, 2, 3].zip [0, 2, 1, 0]) =
      [((0, 0), (1, 2)), ((2, 1), (3, 0))] := by decide +kernel
example : findCrossings true (1 : ℚ) [0, 1] [0, 2] = .error .type := by decide +kernel

end Verif
