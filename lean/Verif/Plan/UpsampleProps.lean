import Verif.Plan.TrajModel
import Verif.Seq.InterpProps
import Mathlib.Data.List.Chain
import Mathlib.Tactic.Module
import Mathlib.Tactic.FieldSimp
import Mathlib.Tactic.Ring
import Mathlib.Tactic.LinearCombination

/-!
# Property C13: upsampling
-/

set_option linter.unusedSectionVars false

namespace Verif

variable {K : Type*} [Field K] [LinearOrder K] [IsStrictOrderedRing K]
variable {α : Type*} [AddCommGroup α] [Module K α]

/-- The point at time `t` of the straight line through two samples. -/
def chordAt (p q : K × α) (t : K) : α := p.2 + ((t - p.1) / (q.1 - p.1)) • (q.2 - p.2)

/-- Consecutive elements of a list. -/
def Consecutive {β : Type*} (l : List β) (p q : β) : Prop := ∃ a b, l = a ++ p :: q :: b

/-- Two samples lie, in this order, on one segment of the polyline `l`. -/
def OnSegment (l : List (K × α)) (a b : K × α) : Prop :=
  ∃ p q, Consecutive l p q ∧ p.1 ≤ a.1 ∧ a.1 < b.1 ∧ b.1 ≤ q.1 ∧ a.2 = chordAt p q a.1 ∧
    b.2 = chordAt p q b.1

/-- A chord of a chord is the same line. -/
theorem chordAt_chordAt (p q : K × α) (u0 u1 t : K) (hpq : p.1 < q.1) (hu : u0 < u1) :
    chordAt (u0, chordAt p q u0) (u1, chordAt p q u1) t = chordAt p q t := by
  unfold chordAt
  have h1 : q.1 - p.1 ≠ 0 := sub_ne_zero.mpr hpq.ne'
  have h2 : u1 - u0 ≠ 0 := sub_ne_zero.mpr hu.ne'
  have e : (t - p.1) / (q.1 - p.1) = (u0 - p.1) / (q.1 - p.1) +
      ((t - u0) / (u1 - u0)) * ((u1 - p.1) / (q.1 - p.1) - (u0 - p.1) / (q.1 - p.1)) := by
    field_simp
    ring
  rw [e]
  module

/-- A finer polyline with the same ends is the same function of time. -/
theorem atInterp_refine (s s' : Seq K α) (h : s.Valid) (h' : s'.Valid)
    (first : K × α) (hf : s.samples.head? = some first) (hf' : s'.samples.head? = some first)
    (last : K × α) (hl : s.samples.getLast? = some last) (hl' : s'.samples.getLast? = some last)
    (hc : ∀ a b, Consecutive s'.samples a b → OnSegment s.samples a b) (t : K) :
    s'.atInterp t = s.atInterp t := by
  obtain ⟨r, hr⟩ : ∃ r, s.samples = first :: r := by
    cases hs : s.samples with
    | nil => simp [hs] at hf
    | cons x r => simp [hs] at hf; exact ⟨r, by rw [hf]⟩
  obtain ⟨r', hr'⟩ : ∃ r, s'.samples = first :: r := by
    cases hs : s'.samples with
    | nil => simp [hs] at hf'
    | cons x r => simp [hs] at hf'; exact ⟨r, by rw [hf']⟩
  obtain ⟨l, hl2⟩ : ∃ l, s.samples = l ++ [last] := List.getLast?_eq_some_iff.mp hl
  obtain ⟨l', hl2'⟩ : ∃ l, s'.samples = l ++ [last] := List.getLast?_eq_some_iff.mp hl'
  by_cases h0 : t ≤ first.1
  · rw [C04_before s h first.1 first.2 r hr t h0, C04_before s' h' first.1 first.2 r' hr' t h0]
  by_cases h1 : last.1 ≤ t
  · rw [C04_after s h last.1 last.2 l hl2 t h1, C04_after s' h' last.1 last.2 l' hl2' t h1]
  have hlen : s'.ts.length = r'.length + 1 := by
    rw [← Seq.samples_length s' h', hr']; simp
  have hlen2 : s'.ts.length = l'.length + 1 := by
    rw [← Seq.samples_length s' h', hl2']; simp
  have hfirst : s'.ts[0]'(by omega) = first.1 := by
    have : s'.samples[0]'(by rw [Seq.samples_length s' h']; omega) = first := by simp [hr']
    simp only [Seq.samples, List.getElem_zip] at this
    rw [← this]
  have hlast : s'.ts[l'.length]'(by omega) = last.1 := by
    have : s'.samples[l'.length]'(by rw [Seq.samples_length s' h']; omega) = last := by simp [hl2']
    simp only [Seq.samples, List.getElem_zip] at this
    rw [← this]
  have h2 : 1 < s'.ts.length := by
    by_contra hcon
    have : l'.length = 0 := by omega
    simp only [this] at hlast
    rw [hfirst] at hlast
    exact h1 (by rw [← hlast]; exact (le_of_lt (not_le.mp h0)))
  have hidx : s'.ts.length - 1 = l'.length := by omega
  obtain ⟨i, hi, ha, hb⟩ := Seq.exists_bracket s' h' t h2
    (by rw [hfirst]; exact le_of_lt (not_le.mp h0))
    (by simp only [hidx]; rw [hlast]; exact le_of_lt (not_le.mp h1))
  have hi' : i + 1 < s'.samples.length := by rw [Seq.samples_length s' h']; exact hi
  have hcon : Consecutive s'.samples (s'.samples[i]) (s'.samples[i+1]) := by
    refine ⟨s'.samples.take i, s'.samples.drop (i + 2), ?_⟩
    conv_lhs => rw [← List.take_append_drop i s'.samples]
    rw [List.drop_eq_getElem_cons (by omega), List.drop_eq_getElem_cons (i := i + 1) (by omega)]
  obtain ⟨p, q, ⟨a, b, hpq⟩, c1, c2, c3, c4, c5⟩ := hc _ _ hcon
  obtain ⟨a', b', hab'⟩ := hcon
  have e0 : s'.samples[i].1 = s'.ts[i] := by simp [Seq.samples]
  have e1 : s'.samples[i+1].1 = s'.ts[i+1] := by simp [Seq.samples]
  rw [← e0] at ha
  rw [← e1] at hb
  generalize s'.samples[i] = x at *
  generalize s'.samples[i+1] = y at *
  rw [C04_chord s' h' a' b' x.1 y.1 x.2 y.2 hab' t ha hb,
    C04_chord s h a b p.1 q.1 p.2 q.2 hpq t (le_trans c1 ha) (le_trans hb c3)]
  have key := chordAt_chordAt p q x.1 y.1 t (lt_of_le_of_lt c1 (lt_of_lt_of_le c2 c3)) c2
  rw [← c4, ← c5] at key
  exact congrArg _ key

/-! ## The samples of the upsampled trajectory -/

/-- Samples on one segment: the left end and `n` interior points. -/
def segPoints (n : Nat) (p q : K × α) : List (K × α) :=
  (List.range (n + 1)).map (fun i : Nat =>
    ((i : K) * ((q.1 - p.1) / ((n : K) + 1)) + p.1,
      chordAt p q ((i : K) * ((q.1 - p.1) / ((n : K) + 1)) + p.1)))

/-- All samples. -/
def refined (n : Nat) : List (K × α) → List (K × α)
  | p :: q :: r => segPoints n p q ++ refined n (q :: r)
  | [p] => [p]
  | [] => []

theorem chordAt_left (p q : K × α) : chordAt p q p.1 = p.2 := by simp [chordAt]
theorem chordAt_right (p q : K × α) (h : p.1 < q.1) : chordAt p q q.1 = q.2 := by
  simp [chordAt, div_self (sub_ne_zero.mpr h.ne')]

theorem refined_head (n : Nat) (p : K × α) (r : List (K × α)) :
    ∃ r', refined n (p :: r) = p :: r' := by
  cases r with
  | nil => exact ⟨[], rfl⟩
  | cons q r =>
    refine ⟨(segPoints n p q ++ refined n (q :: r)).tail, ?_⟩
    · simp only [refined, segPoints, List.range_succ_eq_map, List.map_cons, List.cons_append,
        List.tail_cons]
      simp [chordAt_left]

theorem refined_ne_nil (n : Nat) (p : K × α) (r : List (K × α)) : refined n (p :: r) ≠ [] := by
  obtain ⟨r', h⟩ := refined_head n p r
  rw [h]; simp

theorem refined_last (n : Nat) (l : List (K × α)) : (refined n l).getLast? = l.getLast? := by
  induction l with
  | nil => rfl
  | cons p r ih =>
    cases r with
    | nil => rfl
    | cons q r =>
      simp only [refined]
      rw [List.getLast?_append, ih]
      simp [List.getLast?_cons]

theorem refined_length (n : Nat) (l : List (K × α)) (h : l ≠ []) :
    (refined n l).length = l.length + (l.length - 1) * n := by
  induction l with
  | nil => exact absurd rfl h
  | cons p r ih =>
    cases r with
    | nil => simp [refined]
    | cons q r =>
      simp only [refined, List.length_append, ih (by simp), segPoints, List.length_map,
        List.length_range, List.length_cons]
      have : r.length + 1 + 1 - 1 = r.length + 1 := by omega
      have h2 : r.length + 1 - 1 = r.length := by omega
      rw [this, h2]; ring

theorem sublist_refined (n : Nat) (l : List (K × α)) : l.Sublist (refined n l) := by
  induction l with
  | nil => exact List.Sublist.refl _
  | cons p r ih =>
    cases r with
    | nil => exact List.Sublist.refl _
    | cons q r =>
      simp only [refined]
      rw [show p :: q :: r = [p] ++ (q :: r) from rfl]
      refine List.Sublist.append ?_ ih
      rw [List.singleton_sublist]
      simp only [segPoints, List.mem_map, List.mem_range]
      exact ⟨0, by omega, by simp [chordAt_left]⟩

/-- Consecutive refined samples lie on one segment. -/
theorem refined_chain (n : Nat) (l : List (K × α)) (hp : (l.map Prod.fst).Pairwise (· < ·)) :
    (refined n l).IsChain (OnSegment l) := by
  induction l with
  | nil => exact List.IsChain.nil
  | cons p r ih =>
    cases r with
    | nil => exact List.IsChain.singleton _
    | cons q r =>
      have hpq : p.1 < q.1 := by
        simp only [List.map_cons, List.pairwise_cons] at hp
        exact hp.1 q.1 (by simp)
      have hd : 0 < (q.1 - p.1) / ((n : K) + 1) := div_pos (sub_pos.mpr hpq) (by positivity)
      have hn : ((n : K) + 1) * ((q.1 - p.1) / ((n : K) + 1)) = q.1 - p.1 := by
        field_simp
      have hcons : Consecutive (p :: q :: r) p q := ⟨[], r, rfl⟩
      set d := (q.1 - p.1) / ((n : K) + 1) with hdd
      -- one step inside the segment
      have step : ∀ i : Nat, i ≤ n → OnSegment (p :: q :: r)
          ((i : K) * d + p.1, chordAt p q ((i : K) * d + p.1))
          (((i + 1 : Nat) : K) * d + p.1, chordAt p q (((i + 1 : Nat) : K) * d + p.1)) := by
        intro i hi
        refine ⟨p, q, hcons, ?_, ?_, ?_, rfl, rfl⟩
        · have : 0 ≤ (i : K) * d := mul_nonneg (Nat.cast_nonneg _) hd.le
          simp only; linarith
        · simp only; push_cast; linarith [add_mul (i : K) 1 d]
        · have : ((i + 1 : Nat) : K) ≤ (n : K) + 1 := by
            have : ((i + 1 : Nat) : K) ≤ ((n + 1 : Nat) : K) := Nat.cast_le.mpr (by omega)
            simpa using this
          have := mul_le_mul_of_nonneg_right this hd.le
          simp only; linarith
      simp only [refined]
      rw [List.isChain_append]
      refine ⟨?_, ?_, ?_⟩
      · unfold segPoints
        rw [List.isChain_map, List.isChain_iff_getElem]
        intro i hi
        simp only [List.getElem_range]
        simp only [List.length_range] at hi
        exact step i (by omega)
      · refine (ih (by simpa using (List.pairwise_cons.mp hp).2)).imp ?_
        rintro a b ⟨p', q', ⟨x, y, hxy⟩, rest⟩
        exact ⟨p', q', ⟨p :: x, y, by rw [hxy]; rfl⟩, rest⟩
      · intro a ha b hb
        obtain ⟨r', hr'⟩ := refined_head n q r
        rw [hr'] at hb
        simp at hb
        subst hb
        have hla : a = ((n : K) * d + p.1, chordAt p q ((n : K) * d + p.1)) := by
          simp [segPoints, List.range_succ] at ha
          rw [← ha]
        rw [hla]
        have := step n le_rfl
        have e : ((n + 1 : Nat) : K) * d + p.1 = q.1 := by
          push_cast; rw [hn]; ring
        rw [e, chordAt_right p q hpq] at this
        exact this

theorem refined_times (n : Nat) (l : List (K × α)) (hp : (l.map Prod.fst).Pairwise (· < ·)) :
    ((refined n l).map Prod.fst).Pairwise (· < ·) := by
  rw [← List.isChain_iff_pairwise, List.isChain_map]
  exact (refined_chain n l hp).imp (fun a b ⟨_, _, _, _, h, _⟩ => h)

/-! ## The model computes the refined list -/

theorem mapE_eq_ok {β γ : Type*} (f : β → Except Err γ) (g : β → γ) (l : List β)
    (h : ∀ x ∈ l, f x = .ok (g x)) : mapE f l = .ok (l.map g) := by
  induction l with
  | nil => rfl
  | cons x xs ih =>
    simp [mapE, h x (by simp), ih (fun y hy => h y (by simp [hy]))]

theorem upsampleSegment_eq (s : Seq K α) (h : s.Valid) (n : Nat) (p q : K × α)
    (hc : Consecutive s.samples p q) :
    upsampleSegment s n p.1 q.1 = .ok (segPoints n p q) := by
  obtain ⟨a, b, hs⟩ := hc
  have hp : (s.samples.map Prod.fst).Pairwise (· < ·) := by
    unfold Seq.samples
    rw [zip_filter_fst _ _ h.1]
    exact h.2
  have hpq : p.1 < q.1 := by
    rw [hs] at hp
    simp only [List.map_append, List.map_cons] at hp
    exact (List.pairwise_cons.mp (List.pairwise_append.mp hp).2.1).1 q.1 (by simp)
  have hat : s.at' p.1 = .ok p.2 := (Seq.at'_ok_iff s h p.1 p.2).mpr (by rw [hs]; simp)
  have hd : 0 < (q.1 - p.1) / ((n : K) + 1) := div_pos (sub_pos.mpr hpq) (by positivity)
  have hn : ((n : K) + 1) * ((q.1 - p.1) / ((n : K) + 1)) = q.1 - p.1 := by
    field_simp
  unfold upsampleSegment
  simp only [hat]
  rw [mapE_eq_ok _ (fun i : Nat => (((i : K) + 1) * ((q.1 - p.1) / ((n : K) + 1)) + p.1,
    chordAt p q (((i : K) + 1) * ((q.1 - p.1) / ((n : K) + 1)) + p.1)))]
  · simp only [segPoints, List.range_succ_eq_map, List.map_cons, List.map_map]
    congr 2
    · simp [chordAt_left]
    · apply List.map_congr_left
      intro i _
      simp
  · intro i hi
    rw [List.mem_range] at hi
    have h1 : 0 ≤ ((i : K) + 1) * ((q.1 - p.1) / ((n : K) + 1)) :=
      mul_nonneg (by positivity) hd.le
    have h2 : ((i : K) + 1) ≤ (n : K) + 1 := by
      have : (i : K) ≤ (n : K) := Nat.cast_le.mpr (by omega)
      linarith
    have h3 := mul_le_mul_of_nonneg_right h2 hd.le
    rw [C04_chord s h a b p.1 q.1 p.2 q.2 hs _ (by linarith) (by linarith)]
    rfl

theorem upsampleLoop_eq (s : Seq K α) (h : s.Valid) (n : Nat) (l : List (K × α))
    (hl : ∃ a, s.samples = a ++ l) :
    ∃ out, upsampleLoop s n (l.map Prod.fst) = .ok out ∧
      ∀ last, l.getLast? = some last → refined n l = out ++ [last] := by
  induction l with
  | nil => exact ⟨[], rfl, by simp⟩
  | cons p r ih =>
    cases r with
    | nil => exact ⟨[], by simp [upsampleLoop], by simp [refined]⟩
    | cons q r =>
      obtain ⟨a, ha⟩ := hl
      obtain ⟨out, h1, h2⟩ := ih ⟨a ++ [p], by rw [ha]; simp⟩
      refine ⟨segPoints n p q ++ out, ?_, ?_⟩
      · simp only [List.map_cons, upsampleLoop]
        rw [upsampleSegment_eq s h n p q ⟨a, r, ha⟩]
        simp only [List.map_cons] at h1
        simp [h1]
      · intro last hlast
        simp only [refined]
        rw [h2 last (by simpa using hlast)]
        simp

/-- **C13** Upsampling a non-empty trajectory of `k` samples succeeds, has `k + (k-1) n` samples
with increasing timestamps, keeps every original sample (in order) and is the same function of
time. -/
theorem C13_upsample (s : Seq K α) (h : s.Valid) (hne : s.ts ≠ []) (n : Nat) :
    ∃ s', upsample s n = .ok s' ∧ s'.Valid ∧
      s'.ts.length = s.ts.length + (s.ts.length - 1) * n ∧
      s.samples.Sublist s'.samples ∧ ∀ t, s'.atInterp t = s.atInterp t := by
  have hp : (s.samples.map Prod.fst).Pairwise (· < ·) := by
    unfold Seq.samples
    rw [zip_filter_fst _ _ h.1]
    exact h.2
  have hfst : s.samples.map Prod.fst = s.ts := zip_filter_fst _ _ h.1
  have hsne : s.samples ≠ [] := by
    intro h0
    apply hne
    rw [← hfst, h0]; rfl
  obtain ⟨out, h1, h2⟩ := upsampleLoop_eq s h n s.samples ⟨[], rfl⟩
  rw [hfst] at h1
  obtain ⟨last, hlast⟩ : ∃ last, s.samples.getLast? = some last := by
    cases hg : s.samples.getLast? with
    | none => exact absurd (List.getLast?_eq_none_iff.mp hg) hsne
    | some x => exact ⟨x, rfl⟩
  have hts : s.ts.getLast? = some last.1 := by rw [← hfst, List.getLast?_map, hlast]; rfl
  have hat : s.at' last.1 = .ok last.2 :=
    (Seq.at'_ok_iff s h last.1 last.2).mpr (List.mem_of_getLast? hlast)
  have hr := h2 last hlast
  have htimes := refined_times n s.samples hp
  have hzip : ((refined n s.samples).map Prod.fst).zip ((refined n s.samples).map Prod.snd) =
      refined n s.samples := (List.zip_of_prod rfl rfl).symm
  have hvalid : (⟨(refined n s.samples).map Prod.fst, (refined n s.samples).map Prod.snd⟩ :
      Seq K α).Valid := ⟨by simp, htimes⟩
  refine ⟨⟨(refined n s.samples).map Prod.fst, (refined n s.samples).map Prod.snd⟩, ?_, hvalid,
    ?_, ?_, ?_⟩
  · unfold upsample
    simp only [h1, hts, hat]
    rw [show (last.1, last.2) = last from rfl, ← hr]
    exact Seq.mk?_of_valid _ _ (by simp) htimes
  · simp only [List.length_map]
    rw [refined_length n _ hsne, Seq.samples_length s h]
  · simp only [Seq.samples] at hzip ⊢
    rw [hzip]
    exact sublist_refined n _
  · intro t
    obtain ⟨first, r, hfr⟩ : ∃ first r, s.samples = first :: r := List.exists_cons_of_ne_nil hsne
    refine atInterp_refine s _ h hvalid first (by rw [hfr]; rfl) ?_ last hlast ?_ ?_ t
    · simp only [Seq.samples] at hzip ⊢
      rw [hzip]
      obtain ⟨r', hr'⟩ := refined_head n first r
      simp only [Seq.samples] at hfr
      rw [hfr, hr']; rfl
    · simp only [Seq.samples] at hzip ⊢
      rw [hzip, refined_last]
      exact hlast
    · intro a b hab
      simp only [Seq.samples] at hzip hab
      rw [hzip] at hab
      obtain ⟨x, y, hxy⟩ := hab
      have hch := refined_chain n s.samples hp
      simp only [Seq.samples] at hch
      rw [hxy, List.isChain_append] at hch
      exact (List.isChain_cons_cons.mp hch.2.1).1

/-- C13: an empty trajectory raises `IndexError`. -/
theorem C13_empty (s : Seq K α) (h : s.ts = []) (n : Nat) : upsample s n = .error .index := by
  simp [upsample, h, upsampleLoop]

-- the hypotheses on a concrete trajectory
example : (⟨[0, 1, 3], [2, 4, 0]⟩ : Seq ℚ ℚ).Valid ∧
    upsample (⟨[0, 1, 3], [2, 4, 0]⟩ : Seq ℚ ℚ) 1 = .ok ⟨[0, 1/2, 1, 2, 3], [2, 3, 4, 2, 0]⟩ := by
  refine ⟨⟨rfl, by simp⟩, by decide +kernel⟩
-- it applies to vehicle states
example (s : Traj ℚ) (h : s.Valid) (hne : s.ts ≠ []) (n : Nat) :=
  C13_upsample s h hne n

end Verif
