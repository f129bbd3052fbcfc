import Verif.Seq.Lemmas
import Mathlib.Algebra.BigOperators.Group.List.Basic
import Mathlib.Tactic.NormNum
import Mathlib.Algebra.Order.Field.Rat

/-!
# Properties C07 and C08: the builder and iteration over consecutive pairs
-/

set_option linter.unusedSectionVars false

namespace Verif

/-! ## C07: the builder -/

section
variable {K : Type*} [LinearOrder K] {α : Type*}

/-- Specification of a history of additions: scan the requests and keep those whose time is
after the time of the last one kept. -/
def acceptedAfter : Option K → List (K × α) → List (K × α)
  | _, [] => []
  | none, p :: ps => p :: acceptedAfter (some p.1) ps
  | some t, p :: ps =>
    if t < p.1 then p :: acceptedAfter (some p.1) ps else acceptedAfter (some t) ps

/-- What a builder has stored. -/
def Builder.stored (b : Builder K α) : List (K × α) := b.ts.zip b.vs

/-- **C07** A single `add` succeeds exactly when the time is after the last stored one
(always on an empty builder). -/
theorem C07_add_ok_iff (b : Builder K α) (t : K) (v : α) :
    (b.add t v).2 = .ok () ↔ ∀ t', b.ts.getLast? = some t' → t' < t := by
  unfold Builder.add
  cases h : b.ts.getLast? with
  | none => simp
  | some t' =>
    by_cases hle : t ≤ t'
    · simp [hle]
    · simp [hle, not_le.mp hle]

/-- C07: otherwise it raises `ZValueError` and leaves the builder as it was. -/
theorem C07_add_error (b : Builder K α) (t t' : K) (v : α) (hl : b.ts.getLast? = some t')
    (ht : t ≤ t') : b.add t v = (b, .error .zValue) := by
  simp [Builder.add, hl, ht]

/-- The invariant of reachable builders. -/
structure Builder.Inv (b : Builder K α) : Prop where
  len : b.ts.length = b.vs.length
  incr : b.ts.Pairwise (· < ·)

theorem Builder.add_inv (b : Builder K α) (hb : b.Inv) (t : K) (v : α)
    (hlt : ∀ t', b.ts.getLast? = some t' → t' < t) :
    (b.add t v).1.Inv ∧ (b.add t v).1.stored = b.stored ++ [(t, v)] ∧
      (b.add t v).1.ts.getLast? = some t := by
  have hb' : (b.add t v).1 = ⟨b.ts ++ [t], b.vs ++ [v]⟩ := by
    unfold Builder.add
    cases hl : b.ts.getLast? with
    | none => rfl
    | some t' => simp [not_le.mpr (hlt t' hl)]
  rw [hb']
  refine ⟨⟨by simp [hb.len], ?_⟩, ?_, by simp⟩
  · rw [List.pairwise_append]
    refine ⟨hb.incr, by simp, ?_⟩
    intro a ha c hc
    simp only [List.mem_singleton] at hc
    subst hc
    rcases List.eq_nil_or_concat b.ts with hnil | ⟨l, x, hx⟩
    · simp [hnil] at ha
    · have hx' : b.ts = l ++ [x] := by simpa using hx
      have h1 : x < c := hlt x (by rw [hx']; simp)
      have hp := hb.incr
      rw [hx', List.pairwise_append] at hp
      rw [hx'] at ha
      rcases List.mem_append.mp ha with ha | ha
      · exact lt_trans (hp.2.2 a ha x (by simp)) h1
      · simp only [List.mem_singleton] at ha; rw [ha]; exact h1
  · simp only [Builder.stored]
    exact List.zip_append hb.len

theorem Builder.run_spec (b : Builder K α) (hb : b.Inv) (ps : List (K × α)) :
    (ps.foldl Builder.addCatch b).Inv ∧
    (ps.foldl Builder.addCatch b).stored = b.stored ++ acceptedAfter b.ts.getLast? ps := by
  induction ps generalizing b with
  | nil => exact ⟨hb, by simp [acceptedAfter]⟩
  | cons p ps ih =>
    simp only [List.foldl_cons]
    by_cases hlt : ∀ t', b.ts.getLast? = some t' → t' < p.1
    · obtain ⟨h1, h2, h3⟩ := Builder.add_inv b hb p.1 p.2 hlt
      obtain ⟨h4, h5⟩ := ih (b.addCatch p) h1
      refine ⟨h4, ?_⟩
      rw [h5]
      unfold Builder.addCatch
      rw [h2, h3]
      cases hl : b.ts.getLast? with
      | none => simp [acceptedAfter]
      | some t' => simp [acceptedAfter, hlt t' hl]
    · push Not at hlt
      obtain ⟨t', hl, hle⟩ := hlt
      have hc : b.addCatch p = b := by
        unfold Builder.addCatch
        rw [C07_add_error b p.1 t' p.2 hl hle]
      rw [hc]
      obtain ⟨h4, h5⟩ := ih b hb
      refine ⟨h4, ?_⟩
      rw [h5, hl]
      simp [acceptedAfter, not_lt.mpr hle]

/-- **C07** After any history of additions (rejected ones raise and are skipped) the
sequence built has exactly the accepted samples, in the order in which they were added. -/
theorem C07_history (ps : List (K × α)) :
    ∃ s, (ps.foldl Builder.addCatch {}).asSequence = .ok s ∧ s.Valid ∧
      s.samples = acceptedAfter none ps := by
  have hb : (({} : Builder K α)).Inv := ⟨rfl, List.Pairwise.nil⟩
  obtain ⟨h1, h2⟩ := Builder.run_spec {} hb ps
  refine ⟨⟨_, _⟩, Seq.mk?_of_valid _ _ h1.len h1.incr, ⟨h1.len, h1.incr⟩, ?_⟩
  have : ({} : Builder K α).stored = [] := rfl
  rw [this] at h2
  simpa [Builder.stored, Seq.samples] using h2

/-- C07: samples already stored are never lost, reordered or rewritten. -/
theorem C07_append_only (ps qs : List (K × α)) :
    (ps.foldl Builder.addCatch {}).stored <+: ((ps ++ qs).foldl Builder.addCatch {}).stored := by
  have hb : (({} : Builder K α)).Inv := ⟨rfl, List.Pairwise.nil⟩
  rw [List.foldl_append, (Builder.run_spec _ (Builder.run_spec {} hb ps).1 qs).2]
  exact List.prefix_append _ _

-- a history with two rejected requests
example : (([(1, "a"), (1, "b"), (3, "c"), (2, "d"), (4, "e")] : List (ℚ × String)).foldl
    Builder.addCatch {}).asSequence = .ok ⟨[1, 3, 4], ["a", "c", "e"]⟩ := by decide +kernel

end

/-! ## C08: iteration over consecutive pairs -/

section
variable {K : Type*} [Field K] [LinearOrder K] [IsStrictOrderedRing K] {α : Type*}

theorem iterateWithDt_spec (ts : List K) (vs : List α) (hl : ts.length = vs.length) :
    ∃ items, iterateWithDt ts vs = .ok items ∧ items.length = ts.length - 1 ∧
      ∀ (i : Nat) (h : i + 1 < ts.length) (h' : i + 1 < vs.length),
        items[i]? = some ⟨ts[i], ts[i + 1], ts[i + 1] - ts[i], vs[i], vs[i + 1]⟩ := by
  induction ts generalizing vs with
  | nil => exact ⟨[], by simp [iterateWithDt], rfl, fun i h => by simp at h⟩
  | cons t0 ts ih =>
    cases vs with
    | nil => simp at hl
    | cons v0 vs =>
      cases ts with
      | nil => exact ⟨[], by simp [iterateWithDt], rfl, fun i h => by simp at h⟩
      | cons t1 ts =>
        cases vs with
        | nil => simp at hl
        | cons v1 vs =>
          obtain ⟨items, h1, h2, h3⟩ := ih (v1 :: vs) (by simpa using hl)
          refine ⟨⟨t0, t1, t1 - t0, v0, v1⟩ :: items, by simp [iterateWithDt, h1], by simp [h2], ?_⟩
          intro i h h'
          cases i with
          | zero => simp
          | succ i =>
            have := h3 i (by simpa using h) (by simpa using h')
            simpa using this

/-- **C08** On an accepted sequence the iteration never raises and yields `n - 1` items;
item `i` carries the two neighbouring samples and their (positive) time difference. -/
theorem C08_items (s : Seq K α) (h : s.Valid) :
    ∃ items, iterateWithDt s.ts s.vs = .ok items ∧ items.length = s.ts.length - 1 ∧
      (∀ (i : Nat) (t0 t1 : K) (v0 v1 : α), s.samples[i]? = some (t0, v0) →
        s.samples[i + 1]? = some (t1, v1) → items[i]? = some ⟨t0, t1, t1 - t0, v0, v1⟩) ∧
      (∀ it ∈ items, 0 < it.dt) := by
  obtain ⟨items, h1, h2, h3⟩ := iterateWithDt_spec s.ts s.vs h.1
  refine ⟨items, h1, h2, ?_, ?_⟩
  · intro i t0 t1 v0 v1 e0 e1
    obtain ⟨l0, e0⟩ := List.getElem?_eq_some_iff.mp e0
    obtain ⟨l1, e1⟩ := List.getElem?_eq_some_iff.mp e1
    simp only [Seq.samples, List.getElem_zip, Prod.mk.injEq] at e0 e1
    rw [Seq.samples_length s h] at l1
    rw [h3 i l1 (by rw [← h.1]; exact l1), e0.1, e0.2, e1.1, e1.2]
  · intro it hit
    obtain ⟨i, hi, e⟩ := List.getElem_of_mem hit
    have hi' : i + 1 < s.ts.length := by omega
    have := h3 i hi' (by rw [← h.1]; exact hi')
    rw [List.getElem?_eq_getElem hi, e] at this
    injection this with this
    rw [this]
    exact sub_pos.mpr (List.pairwise_iff_getElem.mp h.2 i (i + 1) (by omega) hi' (by omega))

/-- C08: the time differences add up to the covered duration. -/
theorem C08_total_duration (s : Seq K α) (h : s.Valid) (items : List (IterateDT K α))
    (hi : iterateWithDt s.ts s.vs = .ok items) (a b : K) (ha : s.getStart = .ok a)
    (hb : s.getEnd = .ok b) : (items.map (·.dt)).sum = b - a := by
  obtain ⟨ts, vs⟩ := s
  obtain ⟨hlen, hp⟩ := h
  simp only at hlen hp hi
  induction ts generalizing vs items a with
  | nil => simp [Seq.getStart] at ha
  | cons t0 ts ih =>
    simp only [Seq.getStart] at ha
    injection ha with ha
    subst ha
    cases vs with
    | nil => simp at hlen
    | cons v0 vs =>
      cases ts with
      | nil =>
        simp [Seq.getEnd] at hb
        simp [iterateWithDt] at hi
        subst hi; simp [hb]
      | cons t1 ts =>
        cases vs with
        | nil => simp at hlen
        | cons v1 vs =>
          simp only [iterateWithDt] at hi
          split at hi
          · cases hi
          · rename_i rest hrest
            injection hi with hi
            have := ih rest t1 (v1 :: vs) hrest rfl (by simpa [Seq.getEnd] using hb)
              (by simpa using hlen) (List.pairwise_cons.mp hp).2
            rw [← hi]
            simp [this]

example : iterateWithDt (K := ℚ) [0, 1, 3] ["a", "b", "c"] =
    .ok [⟨0, 1, 1, "a", "b"⟩, ⟨1, 3, 2, "b", "c"⟩] := by decide +kernel

end
end Verif
