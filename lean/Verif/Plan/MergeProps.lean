import Verif.Plan.TrajModel
import Verif.Seq.InterpProps
import Verif.Seq.BuilderProps
import Mathlib.Tactic.FieldSimp

/-!
# Properties C14 and C15: merging trajectories, commands plan
-/

set_option linter.unusedSectionVars false

namespace Verif

variable {K : Type*} [Field K] [LinearOrder K] [IsStrictOrderedRing K]

/-! ## C14 -/

/-- Specification: the samples of the merged trajectory. -/
def mergedSamples (s o : Traj K) : List (K × VehicleState K) :=
  match s.samples with
  | [] => o.samples
  | _ => s.samples ++ o.samples.tail

/-- Specification: speeds and steering angles agree at the seam within the tolerance. -/
def SeamStatesAgree (s o : Traj K) (tol : K) : Prop :=
  ∀ a b, s.samples.getLast? = some a → o.samples.head? = some b →
    |a.2.vx - b.2.vx| < tol ∧ |a.2.delta - b.2.delta| < tol

/-- Specification: last time of the first and first time of the second trajectory agree. -/
def SeamTimesAgree (s o : Traj K) (tol : K) : Prop :=
  ∀ a, s.samples.getLast? = some a → ∃ b, o.samples.head? = some b ∧ |a.1 - b.1| ≤ tol

/-- Specification of a valid list of samples. -/
def TimesIncrease {β : Type*} (l : List (K × β)) : Prop := (l.map Prod.fst).Pairwise (· < ·)

theorem Seq.isEmpty_iff {α : Type*} (s : Seq K α) (h : s.Valid) : s.isEmpty = true ↔ s.samples = [] := by
  obtain ⟨ts, vs⟩ := s
  have := h.1
  cases ts <;> cases vs <;> simp_all [Seq.isEmpty, Seq.samples]

theorem mergeTail_spec (s o : Traj K) (hs : s.Valid) (ho : o.Valid) (r : Traj K) :
    mergeTail s o = .ok r ↔
      r.Valid ∧ TimesIncrease (mergedSamples s o) ∧ r.samples = mergedSamples s o := by
  have hzip : ∀ (a c : List K) (b d : List (VehicleState K)), a.length = b.length →
      (a ++ c).zip (b ++ d) = a.zip b ++ c.zip d := fun a c b d h => List.zip_append h
  have htail : o.ts.tail.zip o.vs.tail = o.samples.tail := by
    obtain ⟨ts, vs⟩ := o
    cases ts <;> cases vs <;> simp [Seq.samples]
  have hlen : o.ts.tail.length = o.vs.tail.length := by simp [ho.1]
  -- the lists handed to the constructor
  obtain ⟨T, V, hT, hlenTV, hsamp⟩ : ∃ T V, mergeTail s o = Seq.mk? T V ∧ T.length = V.length ∧
      T.zip V = mergedSamples s o := by
    unfold mergeTail
    by_cases he : s.isEmpty = true
    · have h0 := (Seq.isEmpty_iff s hs).mp he
      refine ⟨_, _, if_pos he, by simp [hs.1, ho.1], ?_⟩
      rw [hzip _ _ _ _ hs.1]
      have h1 : s.ts.zip s.vs = [] := h0
      rw [h1]
      unfold mergedSamples
      split
      · rfl
      · rename_i h; exact absurd h0 h
    · have h0 : s.samples ≠ [] := fun h => he ((Seq.isEmpty_iff s hs).mpr h)
      refine ⟨_, _, if_neg he, by simp [hs.1, ho.1], ?_⟩
      rw [hzip _ _ _ _ hs.1, htail]
      unfold mergedSamples
      split
      · rename_i h; exact absurd h h0
      · rfl
  rw [hT]
  have hTfst : T = (mergedSamples s o).map Prod.fst := by
    rw [← hsamp]; exact (zip_filter_fst _ _ hlenTV).symm
  rw [Seq.mk?_ok_iff]
  constructor
  · rintro ⟨h1, h2, rfl⟩
    exact ⟨⟨h1, h2⟩, by unfold TimesIncrease; rw [← hTfst]; exact h2, hsamp⟩
  · rintro ⟨h1, h2, h3⟩
    refine ⟨hlenTV, by rw [hTfst]; exact h2, ?_⟩
    obtain ⟨ts, vs⟩ := r
    have e1 : ts = T := by
      rw [hTfst, ← h3]; exact (zip_filter_fst _ _ h1.1).symm
    have e2 : vs = V := by
      have a1 : vs = (mergedSamples s o).map Prod.snd := by
        rw [← h3]; exact (List.map_snd_zip (by simp [h1.1])).symm
      have a2 : V = (mergedSamples s o).map Prod.snd := by
        rw [← hsamp]; exact (List.map_snd_zip (by simp [hlenTV])).symm
      rw [a1, a2]
    rw [e1, e2]

theorem mergeTail_error (s o : Traj K) (e : Err)
    (h : mergeTail s o = .error e) : e = .zValue := by
  unfold mergeTail at h
  split at h
  all_goals exact Seq.mk?_error _ _ _ h

theorem isConnectable_spec (s o : Traj K) (hs : s.Valid) (ho : o.Valid) (tol : K) :
    ∃ b, isConnectable s o tol = .ok b ∧ (b = true ↔ SeamStatesAgree s o tol) := by
  unfold isConnectable
  by_cases he : s.isEmpty = true ∨ o.isEmpty = true
  · refine ⟨true, if_pos he, fun _ => ?_, fun _ => rfl⟩
    intro a b ha hb
    rcases he with he | he
    · rw [(Seq.isEmpty_iff s hs).mp he] at ha; simp at ha
    · rw [(Seq.isEmpty_iff o ho).mp he] at hb; simp at hb
  · rw [if_neg he]
    push Not at he
    have h1 : s.samples ≠ [] := fun h => he.1 ((Seq.isEmpty_iff s hs).mpr h)
    have h2 : o.samples ≠ [] := fun h => he.2 ((Seq.isEmpty_iff o ho).mpr h)
    obtain ⟨a, ha⟩ : ∃ a, s.samples.getLast? = some a := by
      cases hg : s.samples.getLast? with
      | none => exact absurd (List.getLast?_eq_none_iff.mp hg) h1
      | some x => exact ⟨x, rfl⟩
    obtain ⟨b, r, hb⟩ : ∃ b r, o.samples = b :: r := List.exists_cons_of_ne_nil h2
    have hfst : s.samples.map Prod.fst = s.ts := zip_filter_fst _ _ hs.1
    have hfst2 : o.samples.map Prod.fst = o.ts := zip_filter_fst _ _ ho.1
    have e1 : s.getEnd = .ok a.1 := by
      unfold Seq.getEnd
      rw [← hfst, List.getLast?_map, ha]; rfl
    have e2 : s.at' a.1 = .ok a.2 := (Seq.at'_ok_iff s hs a.1 a.2).mpr (List.mem_of_getLast? ha)
    have e3 : o.getStart = .ok b.1 := by
      unfold Seq.getStart
      rw [← hfst2, hb]; rfl
    have e4 : o.at' b.1 = .ok b.2 := (Seq.at'_ok_iff o ho b.1 b.2).mpr (by rw [hb]; simp)
    simp only [e1, e2, e3, e4]
    refine ⟨_, rfl, ?_⟩
    have d1 : (a.2.sub b.2).vx = a.2.vx - b.2.vx := by
      simp only [VehicleState.sub, VehicleState.add, VehicleState.mul]; ring
    have d2 : (a.2.sub b.2).delta = a.2.delta - b.2.delta := by
      simp only [VehicleState.sub, VehicleState.add, VehicleState.mul]; ring
    rw [d1, d2, Bool.and_eq_true, decide_eq_true_iff, decide_eq_true_iff]
    constructor
    · rintro ⟨p, q⟩ a' b' ha' hb'
      rw [ha] at ha'; injection ha' with ha'
      rw [hb] at hb'; simp at hb'
      subst ha' hb'
      exact ⟨p, q⟩
    · intro h
      exact h a b ha (by rw [hb]; rfl)

/-- **C14** `merge` succeeds exactly when speed and steering agree at the seam and the
resulting timestamps increase; the result then has exactly the samples of the first trajectory
followed by those of the second without its first one (all of the second if the first is
empty). -/
theorem C14_merge_ok_iff (s o r : Traj K) (hs : s.Valid) (ho : o.Valid) (tol : K) :
    merge s o tol = .ok r ↔
      SeamStatesAgree s o tol ∧ r.Valid ∧ TimesIncrease (mergedSamples s o) ∧
        r.samples = mergedSamples s o := by
  obtain ⟨b, hb, hiff⟩ := isConnectable_spec s o hs ho tol
  unfold merge
  rw [hb]
  cases b with
  | true => simp only [mergeTail_spec s o hs ho]; simp [hiff.mp rfl]
  | false =>
    simp only [reduceCtorEq, false_iff, not_and]
    intro h; exact absurd (hiff.mpr h) (by simp)

/-- C14: otherwise `merge` raises: `AssertionError` when the seam states disagree, `ZValueError`
when only the times do. -/
theorem C14_merge_error (s o : Traj K) (e : Err) (hs : s.Valid) (ho : o.Valid) (tol : K)
    (h : merge s o tol = .error e) :
    (e = .assertion ∧ ¬ SeamStatesAgree s o tol) ∨ (e = .zValue ∧ SeamStatesAgree s o tol) := by
  obtain ⟨b, hb, hiff⟩ := isConnectable_spec s o hs ho tol
  unfold merge at h
  rw [hb] at h
  cases b with
  | true => exact Or.inr ⟨mergeTail_error s o e h, hiff.mp rfl⟩
  | false =>
    injection h with h
    exact Or.inl ⟨h.symm, fun hc => absurd (hiff.mpr hc) (by simp)⟩

theorem mergeUnsafe_cases (s o : Traj K) (hs : s.Valid) (ho : o.Valid) (tol : K) :
    (SeamTimesAgree s o tol ∧ mergeUnsafe s o tol = mergeTail s o) ∨
    (¬ SeamTimesAgree s o tol ∧ o.samples ≠ [] ∧ mergeUnsafe s o tol = .error .assertion) ∨
    (¬ SeamTimesAgree s o tol ∧ o.samples = [] ∧ mergeUnsafe s o tol = .error .index) := by
  unfold mergeUnsafe
  by_cases he : s.isEmpty = true
  · left
    rw [if_pos he]
    refine ⟨?_, rfl⟩
    intro a ha
    rw [(Seq.isEmpty_iff s hs).mp he] at ha; simp at ha
  · rw [if_neg he]
    have h1 : s.samples ≠ [] := fun h => he ((Seq.isEmpty_iff s hs).mpr h)
    obtain ⟨a, ha⟩ : ∃ a, s.samples.getLast? = some a := by
      cases hg : s.samples.getLast? with
      | none => exact absurd (List.getLast?_eq_none_iff.mp hg) h1
      | some x => exact ⟨x, rfl⟩
    have hfst : s.samples.map Prod.fst = s.ts := zip_filter_fst _ _ hs.1
    have hfst2 : o.samples.map Prod.fst = o.ts := zip_filter_fst _ _ ho.1
    have e1 : s.ts.getLast? = some a.1 := by rw [← hfst, List.getLast?_map, ha]; rfl
    rw [e1]
    cases hb : o.samples with
    | nil =>
      right; right
      have : o.ts = [] := by rw [← hfst2, hb]; rfl
      refine ⟨?_, rfl, by rw [this]⟩
      intro h
      obtain ⟨b, hb', _⟩ := h a ha
      rw [hb] at hb'; simp at hb'
    | cons b r =>
      have : o.ts = b.1 :: r.map Prod.fst := by rw [← hfst2, hb]; rfl
      rw [this]
      simp only
      by_cases hle : |a.1 - b.1| ≤ tol
      · left
        refine ⟨?_, by rw [if_pos hle]⟩
        intro a' ha'
        rw [ha] at ha'; injection ha' with ha'; subst ha'
        exact ⟨b, by rw [hb]; rfl, hle⟩
      · right; left
        refine ⟨?_, by simp, by rw [if_neg hle]⟩
        intro h
        obtain ⟨b', hb', hle'⟩ := h a ha
        rw [hb] at hb'; simp at hb'; subst hb'
        exact hle hle'

/-- **C14** `merge_unsafe` succeeds exactly when the seam times agree within the tolerance and the
resulting timestamps increase, with the same result as above. -/
theorem C14_merge_unsafe_ok_iff (s o r : Traj K) (hs : s.Valid) (ho : o.Valid) (tol : K) :
    mergeUnsafe s o tol = .ok r ↔
      SeamTimesAgree s o tol ∧ r.Valid ∧ TimesIncrease (mergedSamples s o) ∧
        r.samples = mergedSamples s o := by
  rcases mergeUnsafe_cases s o hs ho tol with ⟨h1, h2⟩ | ⟨h1, _, h2⟩ | ⟨h1, _, h2⟩
  · rw [h2, mergeTail_spec s o hs ho]; simp [h1]
  · rw [h2]; simp [h1]
  · rw [h2]; simp [h1]

/-- C14: which exceptions `merge_unsafe` raises. -/
theorem C14_merge_unsafe_error (s o : Traj K) (e : Err) (hs : s.Valid) (ho : o.Valid) (tol : K)
    (h : mergeUnsafe s o tol = .error e) :
    (e = .assertion ∧ o.samples ≠ [] ∧ ¬ SeamTimesAgree s o tol) ∨
    (e = .index ∧ o.samples = [] ∧ ¬ SeamTimesAgree s o tol) ∨
    (e = .zValue ∧ SeamTimesAgree s o tol) := by
  rcases mergeUnsafe_cases s o hs ho tol with ⟨h1, h2⟩ | ⟨h1, h3, h2⟩ | ⟨h1, h3, h2⟩
  · rw [h2] at h
    exact Or.inr (Or.inr ⟨mergeTail_error s o e h, h1⟩)
  · rw [h2] at h; injection h with h
    exact Or.inl ⟨h.symm, h3, h1⟩
  · rw [h2] at h; injection h with h
    exact Or.inr (Or.inl ⟨h.symm, h3, h1⟩)

-- hypotheses met by a concrete pair of trajectories
example : merge (⟨[0, 1], [⟨0, 0, 0, 1, 0⟩, ⟨1, 0, 0, 2, 0⟩]⟩ : Traj ℚ)
    ⟨[1, 2], [⟨1, 0, 0, 2, 0⟩, ⟨3, 0, 0, 3, 0⟩]⟩ =
    .ok ⟨[0, 1, 2], [⟨0, 0, 0, 1, 0⟩, ⟨1, 0, 0, 2, 0⟩, ⟨3, 0, 0, 3, 0⟩]⟩ := by decide +kernel
example : mergeUnsafe (⟨[0, 1], [⟨0, 0, 0, 1, 0⟩, ⟨1, 0, 0, 2, 0⟩]⟩ : Traj ℚ)
    ⟨[2, 3], [⟨1, 0, 0, 2, 0⟩, ⟨3, 0, 0, 3, 0⟩]⟩ = .error .assertion := by decide +kernel

/-! ## C15 -/

/-- C15 is false: with two or more samples the call raises `TypeError` (the loop unpacks an
object that is not iterable). -/
theorem C15_false (s : Traj K) (h : s.Valid) (hn : 2 ≤ s.ts.length) :
    commandsPlan s = .error .type := by
  obtain ⟨items, h1, h2, _⟩ := C08_items s h
  unfold commandsPlan commandsPlanWith
  rw [h1]
  cases items with
  | nil => simp at h2; omega
  | cons it rest => simp [planLoop, unpackCode]

/-- What does hold: with fewer than two samples the plan is empty. -/
theorem C15_short_partial (s : Traj K) (h : s.Valid) (hn : s.ts.length < 2) :
    commandsPlan s = .ok ⟨[], []⟩ := by
  obtain ⟨items, h1, h2, _⟩ := C08_items s h
  unfold commandsPlan commandsPlanWith
  rw [h1]
  have : items = [] := List.length_eq_zero_iff.mp (by omega)
  rw [this]
  rfl

theorem planLoop_fields (items : List (IterateDT K (VehicleState K))) (h : ∀ it ∈ items, 0 < it.dt) :
    planLoop unpackFields items = .ok (items.map (fun it => (it.t0,
      ({ acc := (it.v1.vx - it.v0.vx) / it.dt,
         ddelta := (it.v1.delta - it.v0.delta) / it.dt } : VehicleCommands K)))) := by
  induction items with
  | nil => rfl
  | cons it rest ih =>
    simp only [planLoop, unpackFields, (h it (by simp)).ne', if_false,
      ih (fun x hx => h x (by simp [hx]))]
    rfl

/-- What would hold if the loop header unpacked the fields: the plan has one command per
interval, at its start, and holding that command over the interval takes speed and steering
from one sample exactly to the next. -/
theorem C15_fields_partial (s : Traj K) (h : s.Valid) :
    ∃ p, commandsPlanWith unpackFields s = .ok p ∧ p.Valid ∧ p.ts.length = s.ts.length - 1 ∧
      ∀ (i : Nat) (t0 t1 : K) (a b : VehicleState K), s.samples[i]? = some (t0, a) →
        s.samples[i + 1]? = some (t1, b) → ∃ c, p.samples[i]? = some (t0, c) ∧
          a.vx + c.acc * (t1 - t0) = b.vx ∧ a.delta + c.ddelta * (t1 - t0) = b.delta := by
  obtain ⟨items, h1, h2, h3, hpos⟩ := C08_items s h
  set out := items.map (fun it => (it.t0,
      ({ acc := (it.v1.vx - it.v0.vx) / it.dt,
         ddelta := (it.v1.delta - it.v0.delta) / it.dt } : VehicleCommands K))) with hout
  have hts : out.map Prod.fst = s.ts.take (s.ts.length - 1) := by
    apply List.ext_getElem
    · simp [hout, h2]
    · intro i hi1 hi2
      simp only [hout, List.length_map] at hi1
      have hi : i + 1 < s.samples.length := by rw [Seq.samples_length s h]; omega
      have := h3 i s.samples[i].1 s.samples[i+1].1 s.samples[i].2 s.samples[i+1].2
        (List.getElem?_eq_getElem (by omega)) (List.getElem?_eq_getElem hi)
      rw [List.getElem?_eq_getElem hi1] at this
      injection this with this
      simp only [hout, List.getElem_map, List.getElem_take, this]
      simp [Seq.samples]
  have hpw : (out.map Prod.fst).Pairwise (· < ·) := by
    rw [hts]; exact h.2.sublist (List.take_sublist _ _)
  have hzip : (out.map Prod.fst).zip (out.map Prod.snd) = out := (List.zip_of_prod rfl rfl).symm
  refine ⟨⟨out.map Prod.fst, out.map Prod.snd⟩, ?_, ⟨by simp, hpw⟩, by simp [hout, h2], ?_⟩
  · unfold commandsPlanWith
    rw [h1]
    simp only [planLoop_fields items hpos]
    exact Seq.mk?_of_valid _ _ (by simp) hpw
  · intro i t0 t1 a b e0 e1
    have hit := h3 i t0 t1 a b e0 e1
    simp only [Seq.samples] at hzip ⊢
    rw [hzip]
    simp only [hout, List.getElem?_map, hit, Option.map_some]
    refine ⟨_, rfl, ?_, ?_⟩
    all_goals
      have hd : t1 - t0 ≠ 0 := by
        have := hpos _ (List.mem_of_getElem? hit)
        simpa using this.ne'
      simp only
      field_simp
      ring

example : commandsPlan (⟨[0, 1], [⟨0, 0, 0, 1, 0⟩, ⟨1, 0, 0, 2, 0⟩]⟩ : Traj ℚ) = .error .type := by
  decide +kernel
example : commandsPlanWith unpackFields
    (⟨[0, 2], [⟨0, 0, 0, 1, 0⟩, ⟨1, 0, 0, 2, 1⟩]⟩ : Traj ℚ) = .ok ⟨[0], [⟨1/2, 1/2, .none⟩]⟩ := by
  decide +kernel

end Verif
