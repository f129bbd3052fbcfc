import Mathlib.Data.List.Basic
import Mathlib.Data.List.Pairwise
import Mathlib.Tactic.Linarith
import Mathlib.Tactic.Ring
import Mathlib.Tactic.FieldSimp
import Verif.Seq.Model

/-! # Helper lemmas on sequences (no property statements here) -/

set_option linter.unusedSectionVars false

namespace Verif

theorem pyGet_natCast {α : Type*} (xs : List α) (i : Nat) :
    pyGet xs (i : Int) = match xs[i]? with | some a => .ok a | none => .error .index := by
  unfold pyGet
  have h1 : ¬ ((i : Int) < 0) := by omega
  simp only [h1, if_false, Int.toNat_natCast]
  cases xs[i]? <;> rfl

theorem pyGet_of_lt {α : Type*} (xs : List α) (i : Nat) (h : i < xs.length) :
    pyGet xs (i : Int) = .ok xs[i] := by
  rw [pyGet_natCast, List.getElem?_eq_getElem h]

theorem pyGet_zero_cons {α : Type*} (x : α) (xs : List α) : pyGet (x :: xs) 0 = .ok x := by
  have := pyGet_of_lt (x :: xs) 0 (by simp)
  simpa using this

theorem pyGet_neg_one {α : Type*} (xs : List α) (h : xs ≠ []) :
    pyGet xs (-1) = .ok (xs.getLast h) := by
  have hl : 0 < xs.length := List.length_pos_iff.mpr h
  unfold pyGet
  have h2 : ¬ ((-1 : Int) + xs.length < 0) := by omega
  have h3 : ((-1 : Int) + xs.length).toNat = xs.length - 1 := by omega
  simp only [show ((-1 : Int) < 0) from by decide, if_true, h2, if_false, h3]
  rw [List.getElem?_eq_getElem (by omega), List.getLast_eq_getElem]

theorem pyGet_ok_iff {α : Type*} (xs : List α) (i : Nat) (a : α) :
    pyGet xs (i : Int) = .ok a ↔ xs[i]? = some a := by
  rw [pyGet_natCast]
  cases xs[i]? <;> simp

section
variable {K : Type*} [LinearOrder K]

/-- What `bisect_right` computes on a sorted list. -/
theorem bisectRightFrom_spec (a : List K) (x : K) (hs : a.Pairwise (· < ·)) :
    ∀ (n lo hi : Nat), hi - lo ≤ n → lo ≤ hi → hi ≤ a.length →
      (∀ (i : Nat) (h : i < a.length), i < lo → a[i] ≤ x) →
      (∀ (i : Nat) (h : i < a.length), hi ≤ i → x < a[i]) →
      let k := bisectRightFrom a x lo hi
      k ≤ a.length ∧ (∀ (i : Nat) (h : i < a.length), i < k → a[i] ≤ x) ∧
      (∀ (i : Nat) (h : i < a.length), k ≤ i → x < a[i]) := by
  intro n
  induction n with
  | zero =>
    intro lo hi h1 h2 h3 h4 h5
    have : lo = hi := by omega
    subst this
    rw [bisectRightFrom]
    simp only [lt_irrefl, dite_false]
    exact ⟨h3, h4, h5⟩
  | succ n ih =>
    intro lo hi h1 h2 h3 h4 h5
    rw [bisectRightFrom]
    by_cases hlt : lo < hi
    · simp only [hlt, dite_true]
      have hm : (lo + hi) / 2 < a.length := by omega
      rw [List.getElem?_eq_getElem hm]
      simp only
      split
      · rename_i hx
        apply ih lo ((lo + hi) / 2) (by omega) (by omega) (by omega) h4
        intro i hi' hle
        rcases Nat.eq_or_lt_of_le hle with e | l
        · subst e; exact hx
        · exact lt_trans hx (List.pairwise_iff_getElem.mp hs _ _ hm hi' l)
      · rename_i hx
        apply ih ((lo + hi) / 2 + 1) hi (by omega) (by omega) h3 _ h5
        intro i hi' hle
        rcases Nat.eq_or_lt_of_le (Nat.le_of_lt_succ hle) with e | l
        · subst e; exact not_lt.mp hx
        · exact le_trans (le_of_lt (List.pairwise_iff_getElem.mp hs _ _ hi' hm l)) (not_lt.mp hx)
    · have : lo = hi := by omega
      subst this
      simp only [lt_irrefl, dite_false]
      exact ⟨h3, h4, h5⟩

theorem bisectRight_spec (a : List K) (x : K) (hs : a.Pairwise (· < ·)) :
    bisectRight a x ≤ a.length ∧
    (∀ (i : Nat) (h : i < a.length), i < bisectRight a x → a[i] ≤ x) ∧
    (∀ (i : Nat) (h : i < a.length), bisectRight a x ≤ i → x < a[i]) :=
  bisectRightFrom_spec a x hs a.length 0 a.length (by omega) (by omega) (le_refl _)
    (by intro i _ h; omega) (by intro i h h'; omega)

/-- What `bisect_left` computes on a list sorted in the weak sense. -/
theorem bisectLeftFrom_spec (a : List K) (x : K) (hs : a.Pairwise (· ≤ ·)) :
    ∀ (n lo hi : Nat), hi - lo ≤ n → lo ≤ hi → hi ≤ a.length →
      (∀ (i : Nat) (h : i < a.length), i < lo → a[i] < x) →
      (∀ (i : Nat) (h : i < a.length), hi ≤ i → x ≤ a[i]) →
      let k := bisectLeftFrom a x lo hi
      k ≤ a.length ∧ (∀ (i : Nat) (h : i < a.length), i < k → a[i] < x) ∧
      (∀ (i : Nat) (h : i < a.length), k ≤ i → x ≤ a[i]) := by
  intro n
  induction n with
  | zero =>
    intro lo hi h1 h2 h3 h4 h5
    have : lo = hi := by omega
    subst this
    rw [bisectLeftFrom]
    simp only [lt_irrefl, dite_false]
    exact ⟨h3, h4, h5⟩
  | succ n ih =>
    intro lo hi h1 h2 h3 h4 h5
    rw [bisectLeftFrom]
    by_cases hlt : lo < hi
    · simp only [hlt, dite_true]
      have hm : (lo + hi) / 2 < a.length := by omega
      rw [List.getElem?_eq_getElem hm]
      simp only
      split
      · rename_i hx
        apply ih ((lo + hi) / 2 + 1) hi (by omega) (by omega) h3 _ h5
        intro i hi' hle
        rcases Nat.eq_or_lt_of_le (Nat.le_of_lt_succ hle) with e | l
        · subst e; exact hx
        · exact lt_of_le_of_lt (List.pairwise_iff_getElem.mp hs _ _ hi' hm l) hx
      · rename_i hx
        apply ih lo ((lo + hi) / 2) (by omega) (by omega) (by omega) h4
        intro i hi' hle
        rcases Nat.eq_or_lt_of_le hle with e | l
        · subst e; exact not_lt.mp hx
        · exact le_trans (not_lt.mp hx) (List.pairwise_iff_getElem.mp hs _ _ hm hi' l)
    · have : lo = hi := by omega
      subst this
      simp only [lt_irrefl, dite_false]
      exact ⟨h3, h4, h5⟩

theorem bisectLeft_spec (a : List K) (x : K) (hs : a.Pairwise (· ≤ ·)) :
    bisectLeft a x ≤ a.length ∧
    (∀ (i : Nat) (h : i < a.length), i < bisectLeft a x → a[i] < x) ∧
    (∀ (i : Nat) (h : i < a.length), bisectLeft a x ≤ i → x ≤ a[i]) :=
  bisectLeftFrom_spec a x hs a.length 0 a.length (by omega) (by omega) (le_refl _)
    (by intro i _ h; omega) (by intro i h h'; omega)

namespace Seq
variable {α β : Type*}

theorem increasing_iff (l : List K) : increasing l = true ↔ l.Pairwise (· < ·) := by
  induction l with
  | nil => simp [increasing]
  | cons a l ih =>
    cases l with
    | nil => simp [increasing]
    | cons b l =>
      simp only [increasing, Bool.and_eq_true, decide_eq_true_eq, ih]
      constructor
      · rintro ⟨hab, hp⟩
        refine List.pairwise_cons.mpr ⟨?_, hp⟩
        intro c hc
        rcases List.mem_cons.mp hc with rfl | hc
        · exact hab
        · exact lt_trans hab ((List.pairwise_cons.mp hp).1 c hc)
      · intro hp
        exact ⟨(List.pairwise_cons.mp hp).1 b (by simp), (List.pairwise_cons.mp hp).2⟩

/-- Well formed sequences: the invariant established by the constructor. -/
def Valid (s : Seq K α) : Prop := s.ts.length = s.vs.length ∧ s.ts.Pairwise (· < ·)

theorem mk?_ok_iff (ts : List K) (vs : List α) (s : Seq K α) :
    mk? ts vs = .ok s ↔ ts.length = vs.length ∧ ts.Pairwise (· < ·) ∧ s = ⟨ts, vs⟩ := by
  unfold mk?
  by_cases h : ts.length = vs.length
  · simp only [h, ne_eq, not_true_eq_false, if_false, true_and]
    by_cases hi : increasing ts = true
    · rw [if_pos hi]
      simp only [(increasing_iff ts).mp hi, true_and]
      constructor
      · intro e; injection e with e; exact e.symm
      · rintro rfl; rfl
    · rw [if_neg hi]
      simp only [reduceCtorEq, false_iff]
      intro hh
      exact hi ((increasing_iff ts).mpr hh.1)
  · simp [h]

theorem mk?_of_valid (ts : List K) (vs : List α) (h1 : ts.length = vs.length)
    (h2 : ts.Pairwise (· < ·)) : mk? ts vs = .ok ⟨ts, vs⟩ :=
  (mk?_ok_iff ts vs _).mpr ⟨h1, h2, rfl⟩

theorem mk?_error (ts : List K) (vs : List α) (e : Err) (h : mk? ts vs = .error e) :
    e = .zValue := by
  unfold mk? at h
  split at h
  · injection h with h; exact h.symm
  · split at h
    · cases h
    · injection h with h; exact h.symm

theorem samples_length (s : Seq K α) (h : s.Valid) : s.samples.length = s.ts.length := by
  simp [samples, h.1]

theorem mem_samples_iff (s : Seq K α) (t : K) (v : α) :
    (t, v) ∈ s.samples ↔ ∃ i : Nat, s.ts[i]? = some t ∧ s.vs[i]? = some v := by
  unfold samples
  constructor
  · intro h
    obtain ⟨i, hi, he⟩ := List.getElem_of_mem h
    rw [List.getElem_zip] at he
    injection he with h1 h2
    simp only [List.length_zip] at hi
    refine ⟨i, ?_, ?_⟩
    · rw [List.getElem?_eq_getElem (by omega), h1]
    · rw [List.getElem?_eq_getElem (by omega), h2]
  · rintro ⟨i, h1, h2⟩
    rw [List.getElem?_eq_some_iff] at h1 h2
    obtain ⟨h1, e1⟩ := h1
    obtain ⟨h2, e2⟩ := h2
    refine List.mem_iff_getElem.mpr ⟨i, by simp; omega, ?_⟩
    rw [List.getElem_zip, e1, e2]

theorem valid_nodup_idx (s : Seq K α) (h : s.Valid) (i j : Nat) (t : K)
    (hi : s.ts[i]? = some t) (hj : s.ts[j]? = some t) : i = j := by
  rw [List.getElem?_eq_some_iff] at hi hj
  obtain ⟨h1, e1⟩ := hi
  obtain ⟨h2, e2⟩ := hj
  rcases Nat.lt_trichotomy i j with l | e | l
  · have := List.pairwise_iff_getElem.mp h.2 _ _ h1 h2 l
    rw [e1, e2] at this; exact absurd this (lt_irrefl _)
  · exact e
  · have := List.pairwise_iff_getElem.mp h.2 _ _ h2 h1 l
    rw [e1, e2] at this; exact absurd this (lt_irrefl _)

theorem findIdx?_some (l : List K) (t : K) (i : Nat) (h : l.findIdx? (fun u => u == t) = some i) :
    l[i]? = some t := by
  rw [List.findIdx?_eq_some_iff_getElem] at h
  obtain ⟨h1, h2, _⟩ := h
  rw [List.getElem?_eq_getElem h1]
  simpa using h2

theorem findIdx?_none (l : List K) (t : K) :
    l.findIdx? (fun u => u == t) = none ↔ t ∉ l := by
  rw [List.findIdx?_eq_none_iff]
  simp only [beq_eq_false_iff_ne, ne_eq]
  constructor
  · intro h hm; exact h t hm rfl
  · rintro h x hx rfl; exact h hx

theorem getStart_eq (s : Seq K α) (hne : s.ts ≠ []) : s.getStart = .ok (s.ts.head hne) := by
  rcases s with ⟨ts, vs⟩
  cases ts with
  | nil => exact absurd rfl hne
  | cons x xs => rfl

theorem getStart_nil (s : Seq K α) (hne : s.ts = []) : s.getStart = .error .zValue := by
  simp [getStart, hne]

theorem getEnd_eq (s : Seq K α) (hne : s.ts ≠ []) : s.getEnd = .ok (s.ts.getLast hne) := by
  simp [getEnd, List.getLast?_eq_getLast_of_ne_nil hne]

end Seq

variable {α : Type*}

theorem Seq.at'_ok_iff (s : Seq K α) (h : s.Valid) (t : K) (v : α) :
    s.at' t = .ok v ↔ (t, v) ∈ s.samples := by
  rw [Seq.mem_samples_iff]
  unfold Seq.at'
  cases hf : s.ts.findIdx? (fun u => u == t) with
  | none =>
    simp only [reduceCtorEq, false_iff]
    rintro ⟨i, h1, _⟩
    exact (Seq.findIdx?_none _ _).mp hf (List.mem_of_getElem? h1)
  | some i =>
    have hi := Seq.findIdx?_some _ _ _ hf
    simp only [pyGet_ok_iff]
    constructor
    · intro hv; exact ⟨i, hi, hv⟩
    · rintro ⟨j, h1, h2⟩
      rw [Seq.valid_nodup_idx s h i j t hi h1]; exact h2

theorem Seq.at'_error_iff (s : Seq K α) (h : s.Valid) (t : K) (e : Err) :
    s.at' t = .error e ↔ e = .undefinedAtTime ∧ t ∉ s.ts := by
  unfold Seq.at'
  cases hf : s.ts.findIdx? (fun u => u == t) with
  | none =>
    have := (Seq.findIdx?_none _ _).mp hf
    simp only [Except.error.injEq, this, not_false_eq_true, and_true]
    exact eq_comm
  | some i =>
    have hi := Seq.findIdx?_some _ _ _ hf
    have hlt : i < s.vs.length := by
      rw [← h.1]
      exact (List.getElem?_eq_some_iff.mp hi).1
    have hm : t ∈ s.ts := List.mem_of_getElem? hi
    simp [pyGet_of_lt _ _ hlt, hm]

/-- The result of `at_or_previous` is the last sample before the `bisect` position. -/
theorem atOrPrevious_eq (s : Seq K α) (h : s.Valid) (t : K)
    (hne : s.ts ≠ []) (ht : s.ts.head hne ≤ t) :
    ∃ (k : Nat) (hk : k < s.ts.length) (hk' : k < s.vs.length),
      s.atOrPrevious t = .ok s.vs[k] ∧ s.ts[k] ≤ t ∧
      (∀ (i : Nat) (hi : i < s.ts.length), k < i → t < s.ts[i]) := by
  obtain ⟨b1, b2, b3⟩ := bisectRight_spec s.ts t h.2
  have hpos : 0 < s.ts.length := List.length_pos_iff.mpr hne
  have hk0 : 0 < bisectRight s.ts t := by
    rcases Nat.eq_zero_or_pos (bisectRight s.ts t) with h0 | h0
    · have := b3 0 hpos (by omega)
      rw [List.head_eq_getElem] at ht
      exact absurd (lt_of_lt_of_le this ht) (lt_irrefl _)
    · exact h0
  have hlen := h.1
  refine ⟨bisectRight s.ts t - 1, by omega, by omega, ?_, b2 _ (by omega) (by omega), ?_⟩
  · unfold Seq.atOrPrevious
    have hs := Seq.getStart_eq s hne
    rw [hs]
    simp only [not_lt.mpr ht, if_false]
    have hcast : ((bisectRight s.ts t : Nat) : Int) - 1 = ((bisectRight s.ts t - 1 : Nat) : Int) := by
      omega
    cases ha : s.at' t with
    | error e =>
      obtain ⟨rfl, _⟩ := (Seq.at'_error_iff s h t e).mp ha
      simp only
      rw [hcast, pyGet_of_lt _ _ (by omega)]
    | ok v =>
      simp only
      have hm := (Seq.at'_ok_iff s h t v).mp ha
      rw [Seq.mem_samples_iff] at hm
      obtain ⟨i, h1, h2⟩ := hm
      obtain ⟨hi, he⟩ := List.getElem?_eq_some_iff.mp h1
      have hib : i < bisectRight s.ts t := by
        by_contra hcon
        have := b3 i hi (by omega)
        rw [he] at this
        exact lt_irrefl _ this
      have : i = bisectRight s.ts t - 1 := by
        by_contra hcon
        have h3 := b2 (bisectRight s.ts t - 1) (by omega) (by omega)
        have h4 := List.pairwise_iff_getElem.mp h.2 i (bisectRight s.ts t - 1) hi (by omega) (by omega)
        rw [he] at h4
        exact absurd (lt_of_lt_of_le h4 h3) (lt_irrefl _)
      subst this
      obtain ⟨hh, hv⟩ := List.getElem?_eq_some_iff.mp h2
      rw [hv]
  · intro i hi hlt
    exact b3 i hi (by omega)

end

theorem checkDts_finite_ok : ∀ (ts : List RawTs) (q : List ℚ), ts.map (·.val) = q.map XNum.fin →
    checkDts ts = .ok () → q.Pairwise (· < ·) := by
  intro ts
  induction ts with
  | nil => intro q hq _; cases q <;> simp_all
  | cons a ts ih =>
    intro q hq hc
    cases q with
    | nil => exact List.Pairwise.nil
    | cons x q =>
      cases ts with
      | nil =>
        cases q with
        | nil => simp
        | cons y q => simp at hq
      | cons b ts =>
        cases q with
        | nil => simp
        | cons y q =>
          simp only [List.map_cons, List.cons.injEq] at hq
          obtain ⟨ha, hb, hr⟩ := hq
          unfold checkDts at hc
          split at hc
          · cases hc
          · cases hc
          · rename_i hd
            have hp := ih (y :: q) (by simp [hb, hr]) hc
            have hlt : x < y := by
              unfold dtNotPositive at hd
              simp only [ha, hb, XNum.sub, XNum.leZero] at hd
              split at hd
              · cases hd
              · split at hd
                · cases hd
                · simp only [Except.ok.injEq, decide_eq_false_iff_not, not_le] at hd
                  linarith
            refine List.pairwise_cons.mpr ⟨?_, hp⟩
            intro z hz
            rcases List.mem_cons.mp hz with rfl | hz
            · exact hlt
            · exact lt_trans hlt ((List.pairwise_cons.mp hp).1 z hz)

theorem checkDts_of_increasing : ∀ (ts : List RawTs) (q : List ℚ), ts.map (·.val) = q.map XNum.fin →
    (∀ t ∈ ts, t.kind ≠ .other) →
    ¬ ((∃ t ∈ ts, t.kind = .dec) ∧ (∃ t ∈ ts, t.kind = .int ∨ t.kind = .float)) →
    q.Pairwise (· < ·) → checkDts ts = .ok () := by
  intro ts
  induction ts with
  | nil => intros; rfl
  | cons a ts ih =>
    intro q hq hk hm hp
    cases ts with
    | nil => rfl
    | cons b ts =>
      cases q with
      | nil => simp at hq
      | cons x q =>
        cases q with
        | nil => simp at hq
        | cons y q =>
          simp only [List.map_cons, List.cons.injEq] at hq
          obtain ⟨ha, hb, hr⟩ := hq
          have hlt : x < y := (List.pairwise_cons.mp hp).1 y (by simp)
          have hd : dtNotPositive a b = .ok false := by
            unfold dtNotPositive
            have h1 : ¬ ((a.kind = .dec ∨ b.kind = .dec) ∧ (a.kind = .float ∨ b.kind = .float)) := by
              rintro ⟨h1, h2⟩
              apply hm
              constructor
              · rcases h1 with h | h
                · exact ⟨a, by simp, h⟩
                · exact ⟨b, by simp, h⟩
              · rcases h2 with h | h
                · exact ⟨a, by simp, Or.inr h⟩
                · exact ⟨b, by simp, Or.inr h⟩
            simp only [ha, hb, XNum.sub, XNum.leZero]
            rw [if_neg h1]
            simp only [reduceCtorEq, and_false, if_false, Except.ok.injEq, decide_eq_false_iff_not,
              not_le]
            linarith
          unfold checkDts
          rw [hd]
          apply ih (y :: q)
          · simp [hb, hr]
          · intro t ht; exact hk t (List.mem_cons_of_mem _ ht)
          · rintro ⟨⟨t, ht, h⟩, ⟨u, hu, h'⟩⟩
            exact hm ⟨⟨t, List.mem_cons_of_mem _ ht, h⟩, ⟨u, List.mem_cons_of_mem _ hu, h'⟩⟩
          · exact (List.pairwise_cons.mp hp).2

end Verif
