import Verif.Seq.Lemmas

/-!
# Properties C01-C08 and C72: sampled sequences

Specification vocabulary used in the statements: lists, membership, `List.Pairwise (· < ·)`
(every earlier entry is smaller than every later one), `zip`. `Seq.Valid s` says that the two
stored tuples have the same length and that the timestamps strictly increase over the whole
length; `C01_accepted_iff_valid` shows that these are exactly the accepted sequences.
-/

set_option linter.unusedSectionVars false

namespace Verif

/-! ## C01: construction -/

/-- Specification: the kinds of the timestamps are admissible: all are numbers and no
Decimal occurs together with an int or a float. -/
def KindsOk (ts : List RawTs) : Prop :=
  (∀ t ∈ ts, t.kind ≠ .other) ∧
  ¬ ((∃ t ∈ ts, t.kind = .dec) ∧ (∃ t ∈ ts, t.kind = .int ∨ t.kind = .float))

/-- Specification: the timestamps are the finite numbers `q`. -/
def FiniteVals (ts : List RawTs) (q : List ℚ) : Prop := ts.map (·.val) = q.map XNum.fin

/-- **C01** For finite timestamps the constructor succeeds exactly on equally long inputs with
admissible kinds and strictly increasing timestamps, and stores the given pairs. -/
theorem C01_construct_iff {α : Type*} (ts : List RawTs) (vs : List α) (q : List ℚ)
    (hfin : FiniteVals ts q) (s : RawSeq α) :
    construct true ts vs = .ok s ↔
      ts.length = vs.length ∧ KindsOk ts ∧ q.Pairwise (· < ·) ∧ s = ⟨ts, vs⟩ := by
  have hall : ts.all RawTs.isReal = true ↔ ∀ t ∈ ts, t.kind ≠ .other := by
    simp [RawTs.isReal, List.all_eq_true]
  have hmix : ((ts.any (·.kind = .dec)) && (ts.any (·.kind = .int) || ts.any (·.kind = .float)))
      = true ↔ ((∃ t ∈ ts, t.kind = .dec) ∧ (∃ t ∈ ts, t.kind = .int ∨ t.kind = .float)) := by
    simp only [Bool.and_eq_true, Bool.or_eq_true, List.any_eq_true, decide_eq_true_eq]
    constructor
    · rintro ⟨h1, ⟨t, ht, h⟩ | ⟨t, ht, h⟩⟩
      · exact ⟨h1, t, ht, Or.inl h⟩
      · exact ⟨h1, t, ht, Or.inr h⟩
    · rintro ⟨h1, t, ht, h | h⟩
      · exact ⟨h1, Or.inl ⟨t, ht, h⟩⟩
      · exact ⟨h1, Or.inr ⟨t, ht, h⟩⟩
  unfold construct
  simp only [if_true]
  constructor
  · intro h
    split at h
    · cases h
    · rename_i hlen
      split at h
      · cases h
      · rename_i hreal
        split at h
        · cases h
        · rename_i hdt
          split at h
          · cases h
          · rename_i hmx
            injection h with h
            refine ⟨not_not.mp hlen, ⟨hall.mp (by simpa using hreal), ?_⟩, ?_, h.symm⟩
            · intro hh; exact hmx (hmix.mpr hh)
            · exact checkDts_finite_ok ts q hfin hdt
  · rintro ⟨hlen, ⟨hk, hm⟩, hp, rfl⟩
    rw [if_neg (by simpa using hlen), if_neg (by simp [hall.mpr hk]),
      checkDts_of_increasing ts q hfin hk hm hp]
    simp only
    rw [if_neg]
    intro hh; exact hm (hmix.mp hh)

/-- C01, error side: any other input with finite timestamps raises; there is no third
outcome and no partially built object. -/
theorem C01_construct_error {α : Type*} (ts : List RawTs) (vs : List α) (q : List ℚ)
    (hfin : FiniteVals ts q)
    (h : ¬ (ts.length = vs.length ∧ KindsOk ts ∧ q.Pairwise (· < ·))) :
    ∃ e, construct true ts vs = .error e := by
  cases hc : construct true ts vs with
  | error e => exact ⟨e, rfl⟩
  | ok s =>
    have := (C01_construct_iff ts vs q hfin s).mp hc
    exact absurd ⟨this.1, this.2.1, this.2.2.1⟩ h

/-- Switching `DgCommonsConstants.checks` off disables every check: C01 holds only with the
default value of that flag. -/
theorem C01_checks_off {α : Type*} (ts : List RawTs) (vs : List α) :
    construct false ts vs = .ok ⟨ts, vs⟩ := by simp [construct]

-- the hypothesis is met by, and both sides are true for, a mixed int/float/bool sequence
example : FiniteVals [⟨.bool, .fin 0⟩, ⟨.int, .fin 1⟩, ⟨.float, .fin (3/2)⟩] [0, 1, 3/2] := by
  simp [FiniteVals]
example : construct true [⟨.bool, .fin 0⟩, ⟨.int, .fin 1⟩, ⟨.float, .fin (3/2)⟩] ["a", "b", "c"]
    = .ok ⟨[⟨.bool, .fin 0⟩, ⟨.int, .fin 1⟩, ⟨.float, .fin (3/2)⟩], ["a", "b", "c"]⟩ := by decide +kernel
-- Decimal mixed with int is rejected, with bool accepted
example : construct true [⟨.int, .fin 0⟩, ⟨.dec, .fin 1⟩] [0, 1] = .error .zValue := by decide +kernel
example : construct true [⟨.bool, .fin 0⟩, ⟨.dec, .fin 1⟩] [0, 1] =
    .ok ⟨[⟨.bool, .fin 0⟩, ⟨.dec, .fin 1⟩], [0, 1]⟩ := by decide +kernel

/-- For timestamps of one numeric kind the constructor with kinds is the simple one used in
the rest of the model (same value, same exception). -/
theorem construct_eq_mk {α : Type*} (k : Kind) (hk : k ≠ .other) (q : List ℚ) (vs : List α) :
    construct true (q.map fun x => ⟨k, .fin x⟩) vs =
      (Seq.mk? q vs).map (fun s => ⟨s.ts.map fun x => ⟨k, .fin x⟩, s.vs⟩) := by
  have hdt : ∀ q : List ℚ, checkDts (q.map fun x => (⟨k, .fin x⟩ : RawTs)) =
      if Seq.increasing q then .ok () else .error .zValue := by
    intro q
    induction q with
    | nil => simp [checkDts, Seq.increasing]
    | cons x q ih =>
      cases q with
      | nil => simp [checkDts, Seq.increasing]
      | cons y q =>
        simp only [List.map_cons] at ih ⊢
        unfold checkDts
        have hd : dtNotPositive (⟨k, .fin x⟩ : RawTs) ⟨k, .fin y⟩ = .ok (decide (y - x ≤ 0)) := by
          unfold dtNotPositive
          have : ¬ ((k = .dec ∨ k = .dec) ∧ (k = .float ∨ k = .float)) := by
            rintro ⟨h | h, h' | h'⟩ <;> rw [h] at h' <;> cases h'
          simp only [this, if_false, XNum.sub, XNum.leZero, reduceCtorEq, and_false]
        rw [hd]
        by_cases hxy : x < y
        · rw [show decide (y - x ≤ 0) = false by simpa using hxy]
          simp only [ih]
          simp [Seq.increasing, hxy]
        · rw [show decide (y - x ≤ 0) = true by simpa using hxy]
          simp [Seq.increasing, hxy]
  unfold construct Seq.mk?
  simp only [if_true, List.length_map, hdt]
  by_cases hlen : q.length = vs.length
  · have hreal : (q.map fun x => (⟨k, .fin x⟩ : RawTs)).all RawTs.isReal = true := by
      simp [RawTs.isReal, hk]
    simp only [hlen, ne_eq, not_true_eq_false, if_false, hreal, Bool.not_true, Bool.false_eq_true]
    by_cases hi : Seq.increasing q = true
    · simp only [hi, if_true]
      have : ((q.map fun x => (⟨k, .fin x⟩ : RawTs)).any (·.kind = .dec) &&
          ((q.map fun x => (⟨k, .fin x⟩ : RawTs)).any (·.kind = .int) ||
          (q.map fun x => (⟨k, .fin x⟩ : RawTs)).any (·.kind = .float))) = false := by
        cases k <;> simp
      rw [this]
      simp [Except.map]
    · simp only [hi, Bool.false_eq_true, if_false]
      simp [Except.map]
  · simp [hlen, Except.map]

/-- C01 for sequences of one kind: the accepted sequences are exactly the valid ones. -/
theorem C01_accepted_iff_valid {K α : Type*} [LinearOrder K] (s : Seq K α) :
    (∃ ts vs, Seq.mk? ts vs = .ok s) ↔ s.Valid := by
  constructor
  · rintro ⟨ts, vs, h⟩
    obtain ⟨h1, h2, rfl⟩ := (Seq.mk?_ok_iff ts vs s).mp h
    exact ⟨h1, h2⟩
  · intro h
    exact ⟨s.ts, s.vs, Seq.mk?_of_valid _ _ h.1 h.2⟩

/-! ## C72: not-a-number timestamps -/

/-- **C72 is false of the code**: a float not-a-number timestamp is accepted, also between
two equal timestamps, because `nan <= 0` is false. -/
theorem C72_false : ¬ ∀ (ts : List RawTs) (vs : List Nat) (s : RawSeq Nat),
    construct true ts vs = .ok s → ∀ t ∈ s.ts, t.val ≠ .nan := by
  intro h
  have h1 : construct true [⟨.float, .fin 0⟩, ⟨.float, .nan⟩, ⟨.float, .fin 0⟩] [1, 2, 3] =
      .ok ⟨[⟨.float, .fin 0⟩, ⟨.float, .nan⟩, ⟨.float, .fin 0⟩], [1, 2, 3]⟩ := by decide +kernel
  exact h _ _ _ h1 ⟨.float, .nan⟩ (by simp) rfl

/-- Order on extended numbers without not-a-number (specification for C72). -/
def XNum.lt : XNum → XNum → Prop
  | .fin a, .fin b => a < b
  | .ninf, .fin _ => True
  | .ninf, .pinf => True
  | .fin _, .pinf => True
  | _, _ => False

/-- C72, what remains true (partial: it is restricted to Decimal timestamps and at least two
of them; missing: float timestamps, for which it is false, and a single timestamp). -/
theorem C72_partial {α : Type*} (ts : List RawTs) (vs : List α) (s : RawSeq α)
    (hd : ∀ t ∈ ts, t.kind = .dec) (h2 : 2 ≤ ts.length) (h : construct true ts vs = .ok s) :
    (∀ t ∈ ts, t.val ≠ .nan) ∧ ts.Pairwise (fun a b => a.val.lt b.val) := by
  have htr : ∀ a b c : XNum, a.lt b → b.lt c → a.lt c := by
    intro a b c h1 h2
    cases a <;> cases b <;> cases c <;>
      first | exact False.elim h1 | exact False.elim h2 | trivial | exact lt_trans (a := (_ : ℚ)) h1 h2
  have key : ∀ ts : List RawTs, (∀ t ∈ ts, t.kind = .dec) → checkDts ts = .ok () →
      2 ≤ ts.length → (∀ t ∈ ts, t.val ≠ .nan) ∧ ts.Pairwise (fun a b => a.val.lt b.val) := by
    intro ts
    induction ts with
    | nil => intro _ _ h; simp at h
    | cons a ts ih =>
      intro hk hc hl
      cases ts with
      | nil => simp at hl
      | cons b ts =>
        unfold checkDts at hc
        split at hc
        · cases hc
        · cases hc
        · rename_i hdt
          have hka := hk a (by simp)
          have hkb := hk b (by simp)
          have hab : a.val.lt b.val ∧ a.val ≠ .nan ∧ b.val ≠ .nan := by
            unfold dtNotPositive at hdt
            simp only [hka, hkb, or_self, reduceCtorEq, and_false, if_false, true_and] at hdt
            generalize a.val = av at hdt ⊢
            generalize b.val = bv at hdt ⊢
            cases av <;> cases bv <;>
              simp only [XNum.sub, XNum.leZero, reduceCtorEq, if_true, if_false, Except.ok.injEq,
                decide_eq_false_iff_not, not_le, sub_pos, Bool.true_eq_false] at hdt <;>
              simp [XNum.lt, hdt]
          cases ts with
          | nil => exact ⟨by simp [hab.2.1, hab.2.2], by simp [hab.1]⟩
          | cons c ts =>
            obtain ⟨i1, i2⟩ := ih (fun t ht => hk t (List.mem_cons_of_mem _ ht)) hc (by simp)
            refine ⟨?_, List.pairwise_cons.mpr ⟨?_, i2⟩⟩
            · intro t ht
              rcases List.mem_cons.mp ht with rfl | ht
              · exact hab.2.1
              · exact i1 t ht
            · intro z hz
              rcases List.mem_cons.mp hz with rfl | hz
              · exact hab.1
              · exact htr _ _ _ hab.1 ((List.pairwise_cons.mp i2).1 z hz)
  have hc : checkDts ts = .ok () := by
    unfold construct at h
    simp only [if_true] at h
    split at h
    · cases h
    · split at h
      · cases h
      · split at h
        · cases h
        · assumption
  exact key ts hd hc h2

example : construct true [⟨.dec, .fin 0⟩, ⟨.dec, .pinf⟩] [1, 2] =
    .ok ⟨[⟨.dec, .fin 0⟩, ⟨.dec, .pinf⟩], [1, 2]⟩ := by decide +kernel

/-! ## C02: exact lookup -/

section
variable {K α β : Type*} [LinearOrder K]

/-- **C02** `at(t)` returns `v` exactly when the sample `(t, v)` is stored. -/
theorem C02_at_ok_iff (s : Seq K α) (h : s.Valid) (t : K) (v : α) :
    s.at' t = .ok v ↔ (t, v) ∈ s.samples := Seq.at'_ok_iff s h t v

/-- C02: the only exception is `UndefinedAtTime`, raised exactly off the timestamps. -/
theorem C02_at_error_iff (s : Seq K α) (h : s.Valid) (t : K) (e : Err) :
    s.at' t = .error e ↔ e = .undefinedAtTime ∧ t ∉ s.ts := Seq.at'_error_iff s h t e

/-- C02: the stored value is unique. -/
theorem C02_at_unique (s : Seq K α) (h : s.Valid) (t : K) (v w : α)
    (hv : (t, v) ∈ s.samples) (hw : (t, w) ∈ s.samples) : v = w := by
  have h1 := (C02_at_ok_iff s h t v).mpr hv
  have h2 := (C02_at_ok_iff s h t w).mpr hw
  rw [h1] at h2
  injection h2

example : (⟨[0, 1/2, 2], ["a", "b", "c"]⟩ : Seq ℚ String).Valid := by
  constructor <;> simp; norm_num

/-! ## C03: zero-order hold -/

/-- Specification: `v` is the value at the latest timestamp that is not after `t`. -/
def IsLatest (l : List (K × α)) (t : K) (v : α) : Prop :=
  ∃ t', (t', v) ∈ l ∧ t' ≤ t ∧ ∀ p ∈ l, p.1 ≤ t → p.1 ≤ t'

/-- **C03** `at_or_previous(t)` returns `v` exactly when `v` is the value of the latest
timestamp not after `t`. -/
theorem C03_at_or_previous_ok_iff (s : Seq K α) (h : s.Valid) (t : K) (v : α) :
    s.atOrPrevious t = .ok v ↔ IsLatest s.samples t v := by
  constructor
  · intro ho
    by_cases hne : s.ts = []
    · simp [Seq.atOrPrevious, Seq.getStart, hne] at ho
    · by_cases ht : s.ts.head hne ≤ t
      · obtain ⟨k, hk, hk', he, hle, hgt⟩ := atOrPrevious_eq s h t hne ht
        rw [he] at ho
        injection ho with ho
        refine ⟨s.ts[k], ?_, hle, ?_⟩
        · rw [Seq.mem_samples_iff]
          exact ⟨k, List.getElem?_eq_getElem hk, by rw [List.getElem?_eq_getElem hk', ho]⟩
        · rintro ⟨u, w⟩ hp hu
          rw [Seq.mem_samples_iff] at hp
          obtain ⟨i, h1, _⟩ := hp
          obtain ⟨hi, e⟩ := List.getElem?_eq_some_iff.mp h1
          simp only at hu ⊢
          rw [← e] at hu ⊢
          by_cases hik : k < i
          · exact absurd (lt_of_lt_of_le (hgt i hi hik) hu) (lt_irrefl _)
          · rcases Nat.eq_or_lt_of_le (not_lt.mp hik) with e' | l
            · subst e'; exact le_refl _
            · exact le_of_lt (List.pairwise_iff_getElem.mp h.2 i k hi hk l)
      · exfalso
        have hs := Seq.getStart_eq s hne
        unfold Seq.atOrPrevious at ho
        rw [hs] at ho
        simp only [not_le.mp ht, if_true] at ho
        cases ho
  · rintro ⟨t', hm, hle, hmax⟩
    have hm' := hm
    rw [Seq.mem_samples_iff] at hm'
    obtain ⟨i, h1, h2⟩ := hm'
    obtain ⟨hi, e1⟩ := List.getElem?_eq_some_iff.mp h1
    obtain ⟨hi2, e2⟩ := List.getElem?_eq_some_iff.mp h2
    have hne : s.ts ≠ [] := by rintro h0; simp [h0] at hi
    have ht : s.ts.head hne ≤ t := by
      rw [List.head_eq_getElem]
      refine le_trans ?_ hle
      rw [← e1]
      rcases Nat.eq_zero_or_pos i with rfl | l
      · exact le_refl _
      · exact le_of_lt (List.pairwise_iff_getElem.mp h.2 0 i (by omega) hi l)
    obtain ⟨k, hk, hk', he, hle', hgt⟩ := atOrPrevious_eq s h t hne ht
    rw [he]
    have hki : s.ts[k] ≤ t' := hmax (s.ts[k], s.vs[k]) (by
      rw [Seq.mem_samples_iff]
      exact ⟨k, List.getElem?_eq_getElem hk, List.getElem?_eq_getElem hk'⟩) hle'
    have : k = i := by
      rcases Nat.lt_trichotomy k i with l | e | l
      · have := hgt i hi l
        rw [e1] at this
        exact absurd (lt_of_lt_of_le this hle) (lt_irrefl _)
      · exact e
      · have := List.pairwise_iff_getElem.mp h.2 i k hi hk l
        rw [e1] at this
        exact absurd (lt_of_lt_of_le this hki) (lt_irrefl _)
    subst this
    rw [e2]

/-- C03, error side: `ZValueError` exactly on the empty sequence, `UndefinedAtTime` exactly
when the sequence is not empty and every timestamp is after `t`. -/
theorem C03_at_or_previous_error_iff (s : Seq K α) (h : s.Valid) (t : K) (e : Err) :
    s.atOrPrevious t = .error e ↔
      (s.ts = [] ∧ e = .zValue) ∨ (s.ts ≠ [] ∧ (∀ u ∈ s.ts, t < u) ∧ e = .undefinedAtTime) := by
  by_cases hne : s.ts = []
  · simp [Seq.atOrPrevious, Seq.getStart, hne, eq_comm]
  · by_cases ht : s.ts.head hne ≤ t
    · obtain ⟨k, hk, hk', he, hle, hgt⟩ := atOrPrevious_eq s h t hne ht
      rw [he]
      simp only [reduceCtorEq, hne, ne_eq, not_false_eq_true, true_and, false_and, false_or, false_iff]
      rintro ⟨hall, _⟩
      exact absurd (lt_of_lt_of_le (hall _ (List.head_mem hne)) ht) (lt_irrefl _)
    · have hs := Seq.getStart_eq s hne
      unfold Seq.atOrPrevious
      rw [hs]
      simp only [not_le.mp ht, if_true, Except.error.injEq, hne, ne_eq, not_false_eq_true, true_and,
        false_and, false_or]
      constructor
      · rintro rfl
        refine ⟨?_, rfl⟩
        intro u hu
        obtain ⟨i, hi, rfl⟩ := List.getElem_of_mem hu
        refine lt_of_lt_of_le (not_le.mp ht) ?_
        rw [List.head_eq_getElem]
        rcases Nat.eq_zero_or_pos i with rfl | l
        · exact le_refl _
        · exact le_of_lt (List.pairwise_iff_getElem.mp h.2 0 i (by omega) hi l)
      · rintro ⟨_, rfl⟩; rfl

example : IsLatest (⟨[0, 1, 2], ["a", "b", "c"]⟩ : Seq ℚ String).samples (3/2) "b" :=
  ⟨1, by simp [Seq.samples], by norm_num, by simp [Seq.samples]; norm_num⟩

end
end Verif
