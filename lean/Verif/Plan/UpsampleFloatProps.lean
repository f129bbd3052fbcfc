import Verif.Plan.UpsampleFloat
import Verif.Plan.UpsampleProps
import Verif.Seq.FloatProps

/-!
# Upsampling in floating point (C142)
-/

namespace Verif
open _root_.Verif.Seq

section
variable {ι : Type*} {A : Arith}

/-! ## The samples that are computed -/

/-- The looked up value. -/
def valF (A : Arith) (s : Seq ℚ (ι → ℚ)) (t : ℚ) : ι → ℚ :=
  match s.atInterpF A t with
  | .ok w => w
  | .error _ => 0

def segF (A : Arith) (s : Seq ℚ (ι → ℚ)) (n : Nat) (p q : ℚ × (ι → ℚ)) : List (ℚ × (ι → ℚ)) :=
  p :: (List.range n).map (fun i => (upsampleTime A n p.1 q.1 (i + 1), valF A s (upsampleTime A n p.1 q.1 (i + 1))))

def refinedF (A : Arith) (s : Seq ℚ (ι → ℚ)) (n : Nat) : List (ℚ × (ι → ℚ)) → List (ℚ × (ι → ℚ))
  | p :: q :: r => segF A s n p q ++ refinedF A s n (q :: r)
  | [p] => [p]
  | [] => []

theorem valF_eq (hA : A.Std) (s : Seq ℚ (ι → ℚ)) (h : s.Valid) (hne : s.ts ≠ []) (t : ℚ) :
    s.atInterpF A t = .ok (valF A s t) := by
  obtain ⟨w, hw⟩ := C138_total hA s h hne t
  simp [valF, hw]

theorem upsampleSegmentF_eq (hA : A.Std) (s : Seq ℚ (ι → ℚ)) (h : s.Valid) (hne : s.ts ≠ []) (n : Nat)
    (p q : ℚ × (ι → ℚ)) (hp : p ∈ s.samples) : upsampleSegmentF A s n p.1 q.1 = .ok (segF A s n p q) := by
  have hat : s.at' p.1 = .ok p.2 := (Seq.at'_ok_iff s h p.1 p.2).mpr hp
  unfold upsampleSegmentF
  simp only [hat]
  rw [mapE_eq_ok _ (fun i : Nat => (upsampleTime A n p.1 q.1 (i + 1), valF A s (upsampleTime A n p.1 q.1 (i + 1))))]
  · rfl
  · intro i _
    rw [valF_eq hA s h hne]

theorem upsampleLoopF_eq (hA : A.Std) (s : Seq ℚ (ι → ℚ)) (h : s.Valid) (hne : s.ts ≠ []) (n : Nat)
    (l : List (ℚ × (ι → ℚ))) (hl : ∀ p ∈ l, p ∈ s.samples) :
    ∃ out, upsampleLoopF A s n (l.map Prod.fst) = .ok out ∧
      ∀ last, l.getLast? = some last → refinedF A s n l = out ++ [last] := by
  induction l with
  | nil => exact ⟨[], rfl, by simp⟩
  | cons p r ih =>
    cases r with
    | nil => exact ⟨[], by simp [upsampleLoopF], by simp [refinedF]⟩
    | cons q r =>
      obtain ⟨out, h1, h2⟩ := ih (fun x hx => hl x (List.mem_cons_of_mem _ hx))
      refine ⟨segF A s n p q ++ out, ?_, ?_⟩
      · simp only [List.map_cons, upsampleLoopF]
        rw [upsampleSegmentF_eq hA s h hne n p q (hl p (by simp))]
        simp only [List.map_cons] at h1
        simp [h1]
      · intro last hlast
        simp only [refinedF]
        rw [h2 last (by simpa using hlast)]
        simp

theorem samples_ne (s : Seq ℚ (ι → ℚ)) (h : s.Valid) (hne : s.ts ≠ []) : s.samples ≠ [] := by
  intro h0
  apply hne
  rw [← zip_filter_fst s.ts s.vs h.1]
  show s.samples.map Prod.fst = []
  rw [h0]; rfl

theorem upsampleF_eq (hA : A.Std) (s : Seq ℚ (ι → ℚ)) (h : s.Valid) (hne : s.ts ≠ []) (n : Nat) :
    upsampleF A s n =
      mkF A ((refinedF A s n s.samples).map Prod.fst) ((refinedF A s n s.samples).map Prod.snd) := by
  have hfst : s.samples.map Prod.fst = s.ts := zip_filter_fst _ _ h.1
  have hsne := samples_ne s h hne
  obtain ⟨out, h1, h2⟩ := upsampleLoopF_eq hA s h hne n s.samples (fun _ hp => hp)
  rw [hfst] at h1
  obtain ⟨last, hlast⟩ : ∃ last, s.samples.getLast? = some last := by
    cases hg : s.samples.getLast? with
    | none => exact absurd (List.getLast?_eq_none_iff.mp hg) hsne
    | some x => exact ⟨x, rfl⟩
  have hts : s.ts.getLast? = some last.1 := by rw [← hfst, List.getLast?_map, hlast]; rfl
  have hat : s.at' last.1 = .ok last.2 :=
    (Seq.at'_ok_iff s h last.1 last.2).mpr (List.mem_of_getLast? hlast)
  unfold upsampleF
  simp only [h1, hts, hat]
  rw [h2 last hlast]

theorem upsampleF_ok_iff (hA : A.Std) (s : Seq ℚ (ι → ℚ)) (h : s.Valid) (hne : s.ts ≠ []) (n : Nat)
    (s' : Seq ℚ (ι → ℚ)) :
    upsampleF A s n = .ok s' ↔ ((refinedF A s n s.samples).map Prod.fst).Pairwise (· < ·) ∧
      s' = ⟨(refinedF A s n s.samples).map Prod.fst, (refinedF A s n s.samples).map Prod.snd⟩ := by
  rw [upsampleF_eq hA s h hne, C138_construct hA]
  simp

theorem segF_length (s : Seq ℚ (ι → ℚ)) (n : Nat) (p q : ℚ × (ι → ℚ)) : (segF A s n p q).length = n + 1 := by
  simp [segF]

theorem refinedF_length (s : Seq ℚ (ι → ℚ)) (n : Nat) (l : List (ℚ × (ι → ℚ))) (h : l ≠ []) :
    (refinedF A s n l).length = l.length + (l.length - 1) * n := by
  induction l with
  | nil => exact absurd rfl h
  | cons p r ih =>
    cases r with
    | nil => simp [refinedF]
    | cons q r =>
      simp only [refinedF, List.length_append, ih (by simp), segF_length, List.length_cons]
      have : r.length + 1 + 1 - 1 = r.length + 1 := by omega
      have h2 : r.length + 1 - 1 = r.length := by omega
      rw [this, h2]; ring

theorem refinedF_head (s : Seq ℚ (ι → ℚ)) (n : Nat) (p : ℚ × (ι → ℚ)) (r : List (ℚ × (ι → ℚ))) :
    ∃ r', refinedF A s n (p :: r) = p :: r' := by
  cases r with
  | nil => exact ⟨[], rfl⟩
  | cons q r => exact ⟨_, rfl⟩

theorem refinedF_last (s : Seq ℚ (ι → ℚ)) (n : Nat) (l : List (ℚ × (ι → ℚ))) :
    (refinedF A s n l).getLast? = l.getLast? := by
  induction l with
  | nil => rfl
  | cons p r ih =>
    cases r with
    | nil => rfl
    | cons q r =>
      simp only [refinedF]
      rw [List.getLast?_append, ih]
      simp [List.getLast?_cons]

theorem sublist_refinedF (s : Seq ℚ (ι → ℚ)) (n : Nat) (l : List (ℚ × (ι → ℚ))) :
    l.Sublist (refinedF A s n l) := by
  induction l with
  | nil => exact List.Sublist.refl _
  | cons p r ih =>
    cases r with
    | nil => exact List.Sublist.refl _
    | cons q r =>
      simp only [refinedF]
      rw [show p :: q :: r = [p] ++ (q :: r) from rfl]
      refine List.Sublist.append ?_ ih
      rw [List.singleton_sublist]
      simp [segF]

theorem refinedF_get (s : Seq ℚ (ι → ℚ)) (n : Nat) (a b : List (ℚ × (ι → ℚ))) (p q : ℚ × (ι → ℚ)) (i : Nat)
    (hi : i ≤ n) :
    (refinedF A s n (a ++ p :: q :: b))[a.length * (n + 1) + i]? = (segF A s n p q)[i]? := by
  induction a with
  | nil =>
    simp only [List.nil_append, refinedF, List.length_nil, Nat.zero_mul, Nat.zero_add]
    rw [List.getElem?_append_left (by rw [segF_length]; omega)]
  | cons x a ih =>
    have e : ∃ y r, a ++ p :: q :: b = y :: r := by
      cases a with
      | nil => exact ⟨_, _, rfl⟩
      | cons y a => exact ⟨_, _, rfl⟩
    obtain ⟨y, r, e⟩ := e
    rw [List.cons_append, e]
    simp only [refinedF]
    rw [List.getElem?_append_right (by rw [segF_length, List.length_cons]; nlinarith), segF_length, ← e]
    rw [show (x :: a).length * (n + 1) + i - (n + 1) = a.length * (n + 1) + i by
      rw [List.length_cons, Nat.add_mul, Nat.one_mul]; omega]
    exact ih

/-! ## The computed timestamps -/

set_option maxHeartbeats 1000000 in
/-- Four roundings. -/
theorem upsampleTime_near (hA : A.Laws) (n : Nat) (tp tn : ℚ) (h : tp < tn) (i : Nat) (hi : i ≤ n) :
    |upsampleTime A n tp tn i - (tp + (i : ℚ) * ((tn - tp) / ((n : ℚ) + 1)))| ≤
      max |tp| |tn| * (10 / 9007199254740992) := by
  set M := max |tp| |tn| with hM
  have m1 : |tp| ≤ M := le_max_left _ _
  have m2 : |tn| ≤ M := le_max_right _ _
  have hN : (0 : ℚ) < (n : ℚ) + 1 := by positivity
  have hi' : (i : ℚ) ≤ n := by exact_mod_cast hi
  have hi0 : (0 : ℚ) ≤ i := Nat.cast_nonneg _
  set g := tn - tp with hg
  have hg0 : 0 < g := by linarith
  have hgM : g ≤ 2 * M := by
    have := abs_le.mp m1; have := abs_le.mp m2; linarith
  set u : ℚ := 1 / 9007199254740992 with hu
  have n1 := hA.time.near g
  rw [abs_of_pos hg0] at n1
  have b1 := abs_le.mp n1
  -- dt
  set d := upsampleDt A n tp tn with hd
  have n2 := hA.time.near (A.time g / ((n : ℚ) + 1))
  have hd' : d = A.time (A.time g / ((n : ℚ) + 1)) := rfl
  rw [← hd', ← hu] at n2
  have q1 : |A.time g / ((n : ℚ) + 1) - g / ((n : ℚ) + 1)| ≤ g / ((n : ℚ) + 1) * u := by
    rw [← sub_div, abs_div, abs_of_pos hN, div_mul_eq_mul_div]
    exact div_le_div_of_nonneg_right n1 hN.le
  set e := g / ((n : ℚ) + 1) with he
  have he0 : 0 < e := div_pos hg0 hN
  have q1' := abs_le.mp q1
  have hx : |A.time g / ((n : ℚ) + 1)| ≤ e * (1 + u) := by
    rw [abs_le]; constructor <;> [nlinarith [q1'.1]; nlinarith [q1'.2]]
  have q2 : |d - e| ≤ e * (3 * u) := by
    have := abs_sub_le d (A.time g / ((n : ℚ) + 1)) e
    have k : |A.time g / ((n : ℚ) + 1)| * u ≤ e * (1 + u) * u := mul_le_mul_of_nonneg_right hx (by norm_num [hu])
    have k2 : e * (1 + u) * u + e * u ≤ e * (3 * u) := by
      have : (1 + u) * u + u ≤ 3 * u := by norm_num [hu]
      have := mul_le_mul_of_nonneg_left this he0.le
      linarith
    exact this.trans ((add_le_add (n2.trans k) q1).trans k2)
  -- i * dt
  set a := A.time ((i : ℚ) * d) with ha
  have n3 := hA.time.near ((i : ℚ) * d)
  rw [← ha, ← hu] at n3
  have hie : (i : ℚ) * e ≤ g := by
    have : ((n : ℚ) + 1) * e = g := by rw [he]; field_simp
    have := mul_le_mul_of_nonneg_right (show (i : ℚ) ≤ n + 1 by linarith) he0.le
    linarith
  have hie0 : 0 ≤ (i : ℚ) * e := mul_nonneg hi0 he0.le
  have q3 : |(i : ℚ) * d - (i : ℚ) * e| ≤ g * (3 * u) := by
    rw [← mul_sub, abs_mul, abs_of_nonneg hi0]
    have k1 := mul_le_mul_of_nonneg_left q2 hi0
    have k2 := mul_le_mul_of_nonneg_right hie (show (0 : ℚ) ≤ 3 * u by norm_num [hu])
    linarith
  have q3' := abs_le.mp q3
  have hx3 : |(i : ℚ) * d| ≤ g * (1 + 3 * u) := by
    rw [abs_le]; constructor
    · have : 0 ≤ g * (3 * u) := by positivity
      have : g * (1 + 3 * u) = g + g * (3 * u) := by ring
      linarith [q3'.1]
    · have : g * (1 + 3 * u) = g + g * (3 * u) := by ring
      linarith [q3'.2]
  have q4 : |a - (i : ℚ) * e| ≤ g * (17 / 4 * u) := by
    have := abs_sub_le a ((i : ℚ) * d) ((i : ℚ) * e)
    have k : |(i : ℚ) * d| * u ≤ g * (1 + 3 * u) * u := mul_le_mul_of_nonneg_right hx3 (by norm_num [hu])
    have k2 : g * (1 + 3 * u) * u + g * (3 * u) ≤ g * (17 / 4 * u) := by
      have : (1 + 3 * u) * u + 3 * u ≤ 17 / 4 * u := by norm_num [hu]
      have := mul_le_mul_of_nonneg_left this hg0.le
      linarith
    exact this.trans ((add_le_add (n3.trans k) q3).trans k2)
  have n5 := hA.time.near (a + tp)
  rw [← hu] at n5
  have q4' := abs_le.mp q4
  have e1 := abs_le.mp m1
  have e2 := abs_le.mp m2
  have hM0 : 0 ≤ M := (abs_nonneg _).trans m1
  have hu0 : (0 : ℚ) < u := by norm_num [hu]
  have g2 : g * (17 / 4 * u) ≤ M * (17 / 2 * u) := by
    have := mul_le_mul_of_nonneg_right hgM (show (0 : ℚ) ≤ 17 / 4 * u by linarith)
    linarith
  have hx5 : |a + tp| ≤ M * (1 + 17 / 2 * u) := by
    have : M * (1 + 17 / 2 * u) = M + M * (17 / 2 * u) := by ring
    rw [abs_le]; constructor <;> linarith [q4'.1, q4'.2]
  have k5 : |a + tp| * u ≤ M * (1 + 17 / 2 * u) * u := mul_le_mul_of_nonneg_right hx5 hu0.le
  have k6 : M * (1 + 17 / 2 * u) * u + M * (17 / 2 * u) ≤ M * (10 * u) := by
    have : (1 + 17 / 2 * u) * u + 17 / 2 * u ≤ 10 * u := by norm_num [hu]
    have := mul_le_mul_of_nonneg_left this hM0
    linarith
  have tri := abs_sub_le (A.time (a + tp)) (a + tp) (tp + (i : ℚ) * e)
  have e5 : a + tp - (tp + (i : ℚ) * e) = a - (i : ℚ) * e := by ring
  rw [e5] at tri
  have goal1 : M * (10 / 9007199254740992) = M * (10 * u) := by rw [hu]; ring
  rw [goal1]
  show |A.time (a + tp) - (tp + (i : ℚ) * e)| ≤ _
  exact tri.trans ((add_le_add (n5.trans k5) (q4.trans g2)).trans k6)

/-- The timestamps of one segment, the left end included. -/
theorem segF_get (s : Seq ℚ (ι → ℚ)) (n : Nat) (p q : ℚ × (ι → ℚ)) (i : Nat) (hi : i < n) :
    (segF A s n p q)[i + 1]? =
      some (upsampleTime A n p.1 q.1 (i + 1), valF A s (upsampleTime A n p.1 q.1 (i + 1))) := by
  simp [segF, List.getElem?_range hi]

theorem seg_times (hA : A.Laws) (s : Seq ℚ (ι → ℚ)) (n : Nat) (p q : ℚ × (ι → ℚ)) (h : p.1 < q.1)
    (hr : ((n : ℚ) + 1) * max |p.1| |q.1| < 2 ^ 48 * (q.1 - p.1)) :
    ((segF A s n p q ++ [q]).map Prod.fst).Pairwise (· < ·) := by
  set M := max |p.1| |q.1| with hM
  have hM0 : 0 ≤ M := (abs_nonneg _).trans (le_max_left _ _)
  have hN : (0 : ℚ) < (n : ℚ) + 1 := by positivity
  set e := (q.1 - p.1) / ((n : ℚ) + 1) with he
  have hNe : ((n : ℚ) + 1) * e = q.1 - p.1 := by rw [he]; field_simp
  have hroom : M * (32 / 9007199254740992) < e := by
    have : ((n : ℚ) + 1) * M < ((n : ℚ) + 1) * (2 ^ 48 * e) := by linarith
    have := lt_of_mul_lt_mul_left this hN.le
    norm_num at this
    linarith
  have near : ∀ i ≤ n, |upsampleTime A n p.1 q.1 i - (p.1 + (i : ℚ) * e)| ≤ M * (10 / 9007199254740992) :=
    fun i hi => upsampleTime_near hA n p.1 q.1 h i hi
  rw [← List.isChain_iff_pairwise, List.isChain_map]
  simp only [segF, List.cons_append]
  have hlast : ∀ i, i + 1 ≤ n → upsampleTime A n p.1 q.1 (i + 1) < q.1 := by
    intro i hi
    have k := abs_le.mp (near (i + 1) hi)
    have : ((i + 1 : ℕ) : ℚ) ≤ n := by exact_mod_cast hi
    have := mul_le_mul_of_nonneg_right this (show 0 ≤ e by linarith [mul_nonneg hM0 (show (0:ℚ) ≤ 32 / 9007199254740992 by norm_num)])
    linarith [k.2]
  have hfirst : 1 ≤ n → p.1 < upsampleTime A n p.1 q.1 1 := by
    intro hi
    have k := abs_le.mp (near 1 hi)
    push_cast at k
    linarith [k.1]
  have hstep : ∀ i, i + 2 ≤ n → upsampleTime A n p.1 q.1 (i + 1) < upsampleTime A n p.1 q.1 (i + 2) := by
    intro i hi
    have k := abs_le.mp (near (i + 1) (by omega))
    have k2 := abs_le.mp (near (i + 2) hi)
    push_cast at k k2
    linarith [k.2, k2.1]
  cases n with
  | zero => simp [h]
  | succ m =>
    rw [List.range_succ_eq_map, List.map_cons, List.cons_append, List.isChain_cons_cons]
    refine ⟨hfirst (by omega), ?_⟩
    rw [← List.cons_append, ← List.map_cons (f := fun i => (upsampleTime A (m + 1) p.1 q.1 (i + 1),
      valF A s (upsampleTime A (m + 1) p.1 q.1 (i + 1)))), ← List.range_succ_eq_map, List.isChain_append]
    refine ⟨?_, by simp, ?_⟩
    · rw [List.isChain_map, List.isChain_iff_getElem]
      intro i hi
      simp only [List.length_range] at hi
      simp only [List.getElem_range]
      exact hstep i (by omega)
    · intro a ha b hb
      simp at hb
      subst hb
      simp [List.range_succ] at ha
      rw [← ha]
      exact hlast m le_rfl

theorem refinedF_times (hA : A.Laws) (s : Seq ℚ (ι → ℚ)) (n : Nat) (l : List (ℚ × (ι → ℚ)))
    (hp : (l.map Prod.fst).Pairwise (· < ·))
    (hr : ∀ p q, Consecutive l p q → ((n : ℚ) + 1) * max |p.1| |q.1| < 2 ^ 48 * (q.1 - p.1)) :
    ((refinedF A s n l).map Prod.fst).Pairwise (· < ·) := by
  rw [← List.isChain_iff_pairwise, List.isChain_map]
  induction l with
  | nil => exact List.IsChain.nil
  | cons p r ih =>
    cases r with
    | nil => exact List.IsChain.singleton _
    | cons q r =>
      have hpq : p.1 < q.1 := by
        simp only [List.map_cons, List.pairwise_cons] at hp
        exact hp.1 q.1 (by simp)
      have h1 := seg_times hA s n p q hpq (hr p q ⟨[], r, rfl⟩)
      rw [← List.isChain_iff_pairwise, List.isChain_map] at h1
      have h2 := ih (by simpa using (List.pairwise_cons.mp hp).2)
        (fun a b ⟨x, y, hxy⟩ => hr a b ⟨p :: x, y, by rw [hxy]; rfl⟩)
      simp only [refinedF]
      obtain ⟨r', hr'⟩ := refinedF_head (A := A) s n q r
      rw [hr'] at h2 ⊢
      exact List.isChain_split.mpr ⟨h1, h2⟩

/-! ## The function of time -/

/-- A sample near the segment of `p` and `q`. -/
def NearSeg (ε : ι → ℚ) (p q x : ℚ × (ι → ℚ)) : Prop :=
  p.1 ≤ x.1 ∧ x.1 ≤ q.1 ∧ ∀ j, |x.2 j - chordAt p q x.1 j| ≤ ε j

def NearPair (ε : ι → ℚ) (l : List (ℚ × (ι → ℚ))) (x y : ℚ × (ι → ℚ)) : Prop :=
  ∃ p q, Consecutive l p q ∧ x.1 < y.1 ∧ NearSeg ε p q x ∧ NearSeg ε p q y

theorem refinedF_near (s : Seq ℚ (ι → ℚ)) (n : Nat) (ε : ι → ℚ) (hε0 : ∀ j, 0 ≤ ε j) (l : List (ℚ × (ι → ℚ)))
    (hε : ∀ p q, Consecutive l p q → ∀ i ≤ n, p.1 < upsampleTime A n p.1 q.1 i → upsampleTime A n p.1 q.1 i < q.1 →
      ∀ j, |valF A s (upsampleTime A n p.1 q.1 i) j - chordAt p q (upsampleTime A n p.1 q.1 i) j| ≤ ε j)
    (hp : ((refinedF A s n l).map Prod.fst).Pairwise (· < ·)) :
    (refinedF A s n l).IsChain (NearPair ε l) := by
  induction l with
  | nil => exact List.IsChain.nil
  | cons p r ih =>
    cases r with
    | nil => exact List.IsChain.singleton _
    | cons q r =>
      simp only [refinedF] at hp ⊢
      obtain ⟨r', hr'⟩ := refinedF_head (A := A) s n q r
      rw [hr'] at ih hp ⊢
      have hpc := hp
      rw [← List.isChain_iff_pairwise, List.isChain_map, List.isChain_split] at hpc
      have hcons : Consecutive (p :: q :: r) p q := ⟨[], r, rfl⟩
      rw [List.map_append, List.pairwise_append] at hp
      have hq : ∀ x ∈ segF A s n p q, x.1 < q.1 := fun x hx =>
        hp.2.2 x.1 (List.mem_map_of_mem hx) q.1 (by simp)
      have hpp : ∀ x ∈ (List.range n).map (fun i => (upsampleTime A n p.1 q.1 (i + 1),
          valF A s (upsampleTime A n p.1 q.1 (i + 1)))), p.1 < x.1 := by
        intro x hx
        have := hp.1
        simp only [segF, List.map_cons, List.pairwise_cons] at this
        exact this.1 x.1 (List.mem_map_of_mem hx)
      have hpq : p.1 < q.1 := hq p (by simp [segF])
      have all : ∀ x ∈ segF A s n p q ++ [q], NearSeg ε p q x := by
        intro x hx
        rw [List.mem_append] at hx
        rcases hx with hx | hx
        · have hlt := hq x hx
          simp only [segF, List.mem_cons] at hx
          rcases hx with rfl | hx
          · exact ⟨le_rfl, hlt.le, fun j => by rw [chordAt_left]; simpa using hε0 j⟩
          · have hgt := hpp x hx
            refine ⟨hgt.le, hlt.le, ?_⟩
            simp only [List.mem_map, List.mem_range] at hx
            obtain ⟨i, hi, rfl⟩ := hx
            exact hε p q hcons (i + 1) (by omega) hgt hlt
        · simp at hx
          subst hx
          exact ⟨hpq.le, le_rfl, fun j => by rw [chordAt_right p x hpq]; simpa using hε0 j⟩
      rw [List.isChain_split]
      constructor
      · rw [List.isChain_iff_getElem] at hpc ⊢
        intro i hi
        exact ⟨p, q, hcons, hpc.1 i hi, all _ (List.getElem_mem _), all _ (List.getElem_mem _)⟩
      · refine (ih ?_ hp.2.1).imp ?_
        · rintro a b ⟨x, y, hxy⟩
          exact hε a b ⟨p :: x, y, by rw [hxy]; rfl⟩
        · rintro a b ⟨p', q', ⟨x, y, hxy⟩, rest⟩
          exact ⟨p', q', ⟨p :: x, y, by rw [hxy]; rfl⟩, rest⟩

/-- Samples near the segments give a function of time near the old one. -/
theorem atInterp_near (s s' : Seq ℚ (ι → ℚ)) (h : s.Valid) (h' : s'.Valid) (ε : ι → ℚ) (hε0 : ∀ j, 0 ≤ ε j)
    (first : ℚ × (ι → ℚ)) (hf : s.samples.head? = some first) (hf' : s'.samples.head? = some first)
    (last : ℚ × (ι → ℚ)) (hl : s.samples.getLast? = some last) (hl' : s'.samples.getLast? = some last)
    (hc : ∀ a b, Consecutive s'.samples a b → NearPair ε s.samples a b) (t : ℚ) (w w' : ι → ℚ)
    (hw : s.atInterp t = .ok w) (hw' : s'.atInterp t = .ok w') (j : ι) : |w' j - w j| ≤ ε j := by
  obtain ⟨r, hr⟩ : ∃ r, s.samples = first :: r := List.head?_eq_some_iff.mp hf
  obtain ⟨r', hr'⟩ : ∃ r', s'.samples = first :: r' := List.head?_eq_some_iff.mp hf'
  obtain ⟨l, hl2⟩ : ∃ l, s.samples = l ++ [last] := List.getLast?_eq_some_iff.mp hl
  obtain ⟨l', hl2'⟩ : ∃ l', s'.samples = l' ++ [last] := List.getLast?_eq_some_iff.mp hl'
  have same : s.atInterp t = s'.atInterp t → |w' j - w j| ≤ ε j := by
    intro e
    rw [hw, hw'] at e
    injection e with e
    rw [e]; simpa using hε0 j
  by_cases h0 : t ≤ first.1
  · exact same (by
      rw [C04_before s h first.1 first.2 r hr t h0, C04_before s' h' first.1 first.2 r' hr' t h0])
  by_cases h1 : last.1 ≤ t
  · exact same (by
      rw [C04_after s h last.1 last.2 l hl2 t h1, C04_after s' h' last.1 last.2 l' hl2' t h1])
  have hlen : s'.ts.length = r'.length + 1 := by
    rw [← Seq.samples_length s' h', hr']; simp
  have hlen2 : s'.ts.length = l'.length + 1 := by
    rw [← Seq.samples_length s' h', hl2']; simp
  have hfirst : s'.ts[0]'(by omega) = first.1 := by
    have : s'.samples[0]'(by rw [Seq.samples_length s' h']; omega) = first := by simp [hr']
    simp only [Seq.samples, List.getElem_zip] at this
    rw [← this]
  have hlast : s'.ts[l'.length]'(by omega) = last.1 := by
    have : s'.samples[l'.length]'(by rw [Seq.samples_length s' h']; omega) = last := by simp [hl2']
    simp only [Seq.samples, List.getElem_zip] at this
    rw [← this]
  have h2 : 1 < s'.ts.length := by
    by_contra hcon
    have : l'.length = 0 := by omega
    simp only [this] at hlast
    rw [hfirst] at hlast
    exact h1 (by rw [← hlast]; exact (le_of_lt (not_le.mp h0)))
  have hidx : s'.ts.length - 1 = l'.length := by omega
  obtain ⟨i, hi, ha, hb⟩ := Seq.exists_bracket s' h' t h2
    (by rw [hfirst]; exact le_of_lt (not_le.mp h0))
    (by simp only [hidx]; rw [hlast]; exact le_of_lt (not_le.mp h1))
  have hi' : i + 1 < s'.samples.length := by rw [Seq.samples_length s' h']; exact hi
  have hcon : Consecutive s'.samples (s'.samples[i]) (s'.samples[i+1]) := by
    refine ⟨s'.samples.take i, s'.samples.drop (i + 2), ?_⟩
    conv_lhs => rw [← List.take_append_drop i s'.samples]
    rw [List.drop_eq_getElem_cons (by omega), List.drop_eq_getElem_cons (i := i + 1) (by omega)]
  obtain ⟨p, q, ⟨a, b, hpq⟩, c2, ⟨c1, _, c4⟩, ⟨_, c3, c5⟩⟩ := hc _ _ hcon
  obtain ⟨a', b', hab'⟩ := hcon
  have e0 : s'.samples[i].1 = s'.ts[i] := by simp [Seq.samples]
  have e1 : s'.samples[i+1].1 = s'.ts[i+1] := by simp [Seq.samples]
  rw [← e0] at ha
  rw [← e1] at hb
  generalize s'.samples[i] = x at *
  generalize s'.samples[i+1] = y at *
  have v' : w' = chordAt x y t := by
    have := C04_chord s' h' a' b' x.1 y.1 x.2 y.2 hab' t ha hb
    rw [hw'] at this
    injection this
  have v : w = chordAt (x.1, chordAt p q x.1) (y.1, chordAt p q y.1) t := by
    have := C04_chord s h a b p.1 q.1 p.2 q.2 hpq t (le_trans c1 ha) (le_trans hb c3)
    rw [hw] at this
    injection this with this
    rw [this]
    exact (chordAt_chordAt p q x.1 y.1 t (lt_of_le_of_lt c1 (lt_of_lt_of_le c2 c3)) c2).symm
  have k4 := c4 j
  have k5 := c5 j
  set X := chordAt p q x.1 with hX
  set Y := chordAt p q y.1 with hY
  set c := (t - x.1) / (y.1 - x.1) with hcdef
  have hc0 : 0 ≤ c := div_nonneg (by linarith) (by linarith)
  have hc1 : c ≤ 1 := (div_le_one (by linarith)).mpr (by linarith)
  have e : w' j - w j = (1 - c) * (x.2 j - X j) + c * (y.2 j - Y j) := by
    rw [v', v]
    simp only [chordAt, Pi.add_apply, Pi.smul_apply, Pi.sub_apply, smul_eq_mul, ← hcdef]
    ring
  rw [e]
  refine (abs_add_le _ _).trans ?_
  rw [abs_mul, abs_mul, abs_of_nonneg hc0, abs_of_nonneg (show 0 ≤ 1 - c by linarith)]
  have m1 := mul_le_mul_of_nonneg_left k4 (show 0 ≤ 1 - c by linarith)
  have m2 := mul_le_mul_of_nonneg_left k5 hc0
  linarith

theorem foldr_max_nonneg (l : List ℚ) : 0 ≤ l.foldr max 0 := by
  induction l with
  | nil => exact le_rfl
  | cons x l ih => exact ih.trans (le_max_right _ _)

theorem le_foldr_max (l : List ℚ) (x : ℚ) (h : x ∈ l) : x ≤ l.foldr max 0 := by
  induction l with
  | nil => simp at h
  | cons y l ih =>
    rcases List.mem_cons.mp h with rfl | h
    · exact le_max_left _ _
    · exact (ih h).trans (le_max_right _ _)

theorem foldr_max_le (l : List ℚ) (V : ℚ) (hV : 0 ≤ V) (h : ∀ x ∈ l, x ≤ V) : l.foldr max 0 ≤ V := by
  induction l with
  | nil => exact hV
  | cons y l ih => exact max_le (h y (by simp)) (ih (fun x hx => h x (List.mem_cons_of_mem _ hx)))

/-! ## The properties -/

/-- Floats or `Decimal` numbers. -/
def Arith.Real (A : Arith) : Prop := A = .floats ∨ A = .decimals

theorem Arith.Real.std (hA : A.Real) : A.Std := by
  rcases hA with rfl | rfl
  · exact Or.inl rfl
  · exact Or.inr (Or.inl rfl)

theorem valid_pairwise (s : Seq ℚ (ι → ℚ)) (h : s.Valid) : (s.samples.map Prod.fst).Pairwise (· < ·) := by
  unfold Seq.samples
  rw [zip_filter_fst _ _ h.1]
  exact h.2

theorem samples_of (l : List (ℚ × (ι → ℚ))) : (⟨l.map Prod.fst, l.map Prod.snd⟩ : Seq ℚ (ι → ℚ)).samples = l :=
  (List.zip_of_prod rfl rfl).symm

/-- **C142** Upsampling whose result is accepted: the result has `k + (k-1) n` samples, contains every original sample
unchanged (same timestamp, same value, bit by bit) and in order, and begins and ends with the same sample. The `i`-th
timestamp after the `m`-th original one is off the equally spaced position by at most `2⁻⁴⁹` of the larger neighbour. -/
theorem C142_upsample (hA : A.Real) (s s' : Seq ℚ (ι → ℚ)) (h : s.Valid) (hne : s.ts ≠ []) (n : Nat)
    (hs : upsampleF A s n = .ok s') :
    s'.Valid ∧ s'.ts.length = s.ts.length + (s.ts.length - 1) * n ∧ s.samples.Sublist s'.samples ∧
      s'.samples.head? = s.samples.head? ∧ s'.samples.getLast? = s.samples.getLast? ∧
      ∀ a b p q, s.samples = a ++ p :: q :: b → s'.samples[a.length * (n + 1)]? = some p ∧
        ∀ i ≤ n, ∃ x, s'.samples[a.length * (n + 1) + i]? = some x ∧
          |x.1 - (p.1 + i * ((q.1 - p.1) / (n + 1)))| ≤ max |p.1| |q.1| / 2 ^ 49 := by
  obtain ⟨hp, rfl⟩ := (upsampleF_ok_iff hA.std s h hne n s').mp hs
  refine ⟨⟨by simp, hp⟩, ?_, ?_, ?_, ?_, ?_⟩
  · simp only [List.length_map]
    rw [refinedF_length s n _ (samples_ne s h hne), Seq.samples_length s h]
  · rw [samples_of]; exact sublist_refinedF s n _
  · rw [samples_of]
    obtain ⟨x, r, e⟩ := List.exists_cons_of_ne_nil (samples_ne s h hne)
    obtain ⟨r', e'⟩ := refinedF_head (A := A) s n x r
    rw [e, e']; rfl
  · rw [samples_of, refinedF_last]
  · intro a b p q hab
    have hpq : p.1 < q.1 := fst_ne_of_lt s h a b p.1 q.1 p.2 q.2 hab
    rw [samples_of]
    have hg := fun i hi => refinedF_get (A := A) s n a b p q i hi
    rw [← hab] at hg
    have h0 := hg 0 (by omega)
    rw [Nat.add_zero] at h0
    refine ⟨by rw [h0]; rfl, ?_⟩
    have hM0 : 0 ≤ max |p.1| |q.1| := (abs_nonneg _).trans (le_max_left _ _)
    intro i hi
    rw [hg i hi]
    cases i with
    | zero => exact ⟨p, rfl, by simp; positivity⟩
    | succ i =>
      refine ⟨_, segF_get s n p q i (by omega), ?_⟩
      have k := upsampleTime_near hA.std.laws n p.1 q.1 hpq (i + 1) hi
      refine k.trans ?_
      rw [show max |p.1| |q.1| / 2 ^ 49 = max |p.1| |q.1| * (1 / 2 ^ 49) by ring]
      exact mul_le_mul_of_nonneg_left (by norm_num) hM0

/-- **C142** When the gap between neighbouring timestamps exceeds `(n+1) 2⁻⁴⁸` of the larger one, upsampling succeeds. -/
theorem C142_succeeds (hA : A.Real) (s : Seq ℚ (ι → ℚ)) (h : s.Valid) (hne : s.ts ≠ []) (n : Nat)
    (hroom : s.ts.IsChain (fun a b => ((n : ℚ) + 1) * max |a| |b| < 2 ^ 48 * (b - a))) :
    ∃ s', upsampleF A s n = .ok s' := by
  refine ⟨_, (upsampleF_ok_iff hA.std s h hne n _).mpr ⟨?_, rfl⟩⟩
  refine refinedF_times hA.std.laws s n _ (valid_pairwise s h) ?_
  rintro p q ⟨a, b, hab⟩
  have hfst : s.samples.map Prod.fst = s.ts := zip_filter_fst _ _ h.1
  rw [← hfst, hab, List.map_append, List.map_cons, List.map_cons, List.isChain_append] at hroom
  exact (List.isChain_cons_cons.mp hroom.2.1).1

/-- **C142** Upsampling by nothing gives the same trajectory back. -/
theorem C142_zero (hA : A.Real) (s : Seq ℚ (ι → ℚ)) (h : s.Valid) (hne : s.ts ≠ []) : upsampleF A s 0 = .ok s := by
  have e : ∀ l : List (ℚ × (ι → ℚ)), refinedF A s 0 l = l := by
    intro l
    induction l with
    | nil => rfl
    | cons p r ih =>
      cases r with
      | nil => rfl
      | cons q r => simp only [refinedF, ih]; simp [segF]
  rw [upsampleF_ok_iff hA.std s h hne, e]
  refine ⟨valid_pairwise s h, ?_⟩
  have h1 : s.samples.map Prod.fst = s.ts := zip_filter_fst _ _ h.1
  have h2 : s.samples.map Prod.snd = s.vs := by
    unfold Seq.samples
    exact List.map_snd_zip (by rw [h.1])
  rw [h1, h2]

/-- The function of time of the result, from a bound on the lookups. -/
theorem upsampleF_near (hA : A.Real) (s s' : Seq ℚ (ι → ℚ)) (h : s.Valid) (hne : s.ts ≠ []) (n : Nat)
    (hs : upsampleF A s n = .ok s') (ε : ι → ℚ) (hε0 : ∀ j, 0 ≤ ε j)
    (hε : ∀ p q, Consecutive s.samples p q → ∀ t w, A.time t = t → p.1 ≤ t → t < q.1 → s.atInterpF A t = .ok w →
      ∀ j, |w j - chordAt p q t j| ≤ ε j) (t : ℚ) (w w' : ι → ℚ)
    (hw : s.atInterp t = .ok w) (hw' : s'.atInterp t = .ok w') (j : ι) : |w' j - w j| ≤ ε j := by
  obtain ⟨hv, -, -, hh, hl, -⟩ := C142_upsample hA s s' h hne n hs
  obtain ⟨hp, rfl⟩ := (upsampleF_ok_iff hA.std s h hne n s').mp hs
  obtain ⟨first, r, e⟩ := List.exists_cons_of_ne_nil (samples_ne s h hne)
  obtain ⟨last, hlast⟩ : ∃ last, s.samples.getLast? = some last := by
    cases hg : s.samples.getLast? with
    | none => exact absurd (List.getLast?_eq_none_iff.mp hg) (samples_ne s h hne)
    | some x => exact ⟨x, rfl⟩
  have hf : s.samples.head? = some first := by rw [e]; rfl
  refine atInterp_near s _ h hv ε hε0 first hf (hh.trans hf) last hlast (hl.trans hlast) ?_ t w w' hw hw' j
  rintro a b ⟨x, y, hxy⟩
  have hch := refinedF_near (A := A) s n ε hε0 s.samples (fun p q hc i _ h1 h2 j =>
    hε p q hc _ _ (hA.std.laws.time.idem _) h1.le h2 (valF_eq hA.std s h hne _) j) hp
  rw [samples_of] at hxy
  rw [hxy, List.isChain_append] at hch
  exact (List.isChain_cons_cons.mp hch.2.1).1

/-- **C142** With float timestamps the upsampled trajectory is almost the same function of time: at every time every
component of its (exact) interpolation differs from that of the original by at most `2⁻⁴⁹` of the largest value of this
component. -/
theorem C142_function (s s' : Seq ℚ (ι → ℚ)) (h : s.Valid) (hne : s.ts ≠ []) (hf : ∀ u ∈ s.ts, Sim.double u = u) (n : Nat)
    (hs : upsampleF .floats s n = .ok s') (j : ι) (V : ℚ) (hV : ∀ v ∈ s.vs, |v j| ≤ V) (t : ℚ) :
    ∃ w w', s.atInterp t = .ok w ∧ s'.atInterp t = .ok w' ∧ |w' j - w j| ≤ V / 2 ^ 49 := by
  have hA : Arith.floats.Real := Or.inl rfl
  obtain ⟨hv, hlen, -, -, -, -⟩ := C142_upsample hA s s' h hne n hs
  have hpos : 0 < s.ts.length := List.length_pos_iff.mpr hne
  obtain ⟨w, hw⟩ := C04_total s h hne t
  obtain ⟨w', hw'⟩ := C04_total s' hv (List.length_pos_iff.mp (by omega)) t
  refine ⟨w, w', hw, hw', ?_⟩
  -- the bound of every component
  have hvs : s.vs ≠ [] := List.length_pos_iff.mp (by have := h.1; omega)
  have hV0 : 0 ≤ V := by
    obtain ⟨v, r, e⟩ := List.exists_cons_of_ne_nil hvs
    exact (abs_nonneg _).trans (hV v (by rw [e]; simp))
  have key := upsampleF_near hA s s' h hne n hs
    (fun k => (s.vs.map (fun v => |v k|)).foldr max 0 / 2 ^ 49) (fun k => div_nonneg (foldr_max_nonneg _) (by norm_num))
    ?_ t w w' hw hw' j
  · refine key.trans (div_le_div_of_nonneg_right ?_ (by norm_num))
    refine foldr_max_le _ _ hV0 ?_
    intro x hx
    obtain ⟨v, hv, rfl⟩ := List.mem_map.mp hx
    exact hV v hv
  · rintro p q ⟨a, b, hab⟩ t w ht h0 h1 hw k
    have hpm : p ∈ s.samples := by rw [hab]; simp
    have hqm : q ∈ s.samples := by rw [hab]; simp
    have := C138_chord hA.std s h a b p.1 q.1 p.2 q.2 hab t h0 h1 (hf _ (List.of_mem_zip hpm).1) ht w hw k
    refine (le_of_eq ?_).trans (this.trans (div_le_div_of_nonneg_right (max_le ?_ ?_) (by norm_num)))
    · simp only [chordAt, Pi.add_apply, Pi.smul_apply, Pi.sub_apply, smul_eq_mul]
    · exact le_foldr_max _ _ (List.mem_map.mpr ⟨p.2, (List.of_mem_zip hpm).2, rfl⟩)
    · exact le_foldr_max _ _ (List.mem_map.mpr ⟨q.2, (List.of_mem_zip hqm).2, rfl⟩)

/-- **C142** With `Decimal` timestamps the lookup converts them to floats first, so the bound depends on how far the
timestamps are from zero, measured in gaps between neighbours. -/
theorem C142_function_decimal (s s' : Seq ℚ (ι → ℚ)) (h : s.Valid) (hne : s.ts ≠ []) (n : Nat)
    (hs : upsampleF .decimals s n = .ok s') (G : ℚ) (hG0 : 0 ≤ G)
    (hG : s.ts.IsChain (fun a b => max |a| |b| ≤ G * (b - a))) (j : ι) (V : ℚ) (hV : ∀ v ∈ s.vs, |v j| ≤ V) (t : ℚ) :
    ∃ w w', s.atInterp t = .ok w ∧ s'.atInterp t = .ok w' ∧ |w' j - w j| ≤ V * (1 / 2 ^ 49 + G / 2 ^ 50) := by
  have hA : Arith.decimals.Real := Or.inr rfl
  obtain ⟨hv, hlen, -, -, -, -⟩ := C142_upsample hA s s' h hne n hs
  have hpos : 0 < s.ts.length := List.length_pos_iff.mpr hne
  obtain ⟨w, hw⟩ := C04_total s h hne t
  obtain ⟨w', hw'⟩ := C04_total s' hv (List.length_pos_iff.mp (by omega)) t
  refine ⟨w, w', hw, hw', ?_⟩
  have hvs : s.vs ≠ [] := List.length_pos_iff.mp (by have := h.1; omega)
  have hV0 : 0 ≤ V := by
    obtain ⟨v, r, e⟩ := List.exists_cons_of_ne_nil hvs
    exact (abs_nonneg _).trans (hV v (by rw [e]; simp))
  have hc0 : 0 ≤ 1 / 2 ^ 49 + G / 2 ^ 50 := by positivity
  have key := upsampleF_near hA s s' h hne n hs
    (fun k => (s.vs.map (fun v => |v k|)).foldr max 0 * (1 / 2 ^ 49 + G / 2 ^ 50))
    (fun k => mul_nonneg (foldr_max_nonneg _) hc0) ?_ t w w' hw hw' j
  · refine key.trans (mul_le_mul_of_nonneg_right ?_ hc0)
    refine foldr_max_le _ _ hV0 ?_
    intro x hx
    obtain ⟨v, hv, rfl⟩ := List.mem_map.mp hx
    exact hV v hv
  · rintro p q ⟨a, b, hab⟩ t w ht h0 h1 hw k
    have hpm : p ∈ s.samples := by rw [hab]; simp
    have hqm : q ∈ s.samples := by rw [hab]; simp
    have hpq : p.1 < q.1 := lt_of_le_of_lt h0 h1
    have := C138_chord_decimal hA.std s h a b p.1 q.1 p.2 q.2 hab t h0 h1 w hw k
    have hmax : max |p.2 k| |q.2 k| ≤ (s.vs.map (fun v => |v k|)).foldr max 0 := max_le
      (le_foldr_max _ _ (List.mem_map.mpr ⟨p.2, (List.of_mem_zip hpm).2, rfl⟩))
      (le_foldr_max _ _ (List.mem_map.mpr ⟨q.2, (List.of_mem_zip hqm).2, rfl⟩))
    have hT : max |p.1| |t| ≤ max |p.1| |q.1| := by
      refine max_le (le_max_left _ _) ?_
      rw [abs_le]
      have a1 := neg_abs_le p.1
      have a2 := le_abs_self q.1
      have a3 := le_max_left |p.1| |q.1|
      have a4 := le_max_right |p.1| |q.1|
      constructor <;> linarith
    have hG' : max |p.1| |q.1| ≤ G * (q.1 - p.1) := by
      have hfst : s.samples.map Prod.fst = s.ts := zip_filter_fst _ _ h.1
      rw [← hfst, hab, List.map_append, List.map_cons, List.map_cons, List.isChain_append] at hG
      exact (List.isChain_cons_cons.mp hG.2.1).1
    have hq : max |p.1| |t| / (q.1 - p.1) ≤ G := (div_le_iff₀ (by linarith)).mpr (hT.trans hG')
    refine (le_of_eq ?_).trans (this.trans (mul_le_mul hmax ?_ ?_ (foldr_max_nonneg _)))
    · simp only [chordAt, Pi.add_apply, Pi.smul_apply, Pi.sub_apply, smul_eq_mul]
    · exact add_le_add le_rfl (div_le_div_of_nonneg_right hq (by norm_num))
    · have : 0 ≤ max |p.1| |t| / (q.1 - p.1) := div_nonneg ((abs_nonneg _).trans (le_max_left _ _)) (by linarith)
      positivity

end

/-- **C142** fails without room: the trajectory with the neighbouring floats `1` and `1 + 2⁻⁵²` is accepted, but it cannot
be upsampled (the new timestamp is rounded to `1`, and the constructor raises `ZValueError`). -/
theorem C142_false_succeeds : ¬ ∀ (s : Seq ℚ (Unit → ℚ)), s.Valid → s.ts ≠ [] → (∀ u ∈ s.ts, Sim.double u = u) →
    ∃ s', upsampleF .floats s 1 = .ok s' := by
  intro H
  obtain ⟨s', hs⟩ := H ⟨[1, 1 + 1 / 2 ^ 52], [fun _ => 0, fun _ => 1]⟩ ⟨rfl, by simp⟩ (by simp) (by decide +kernel)
  rw [upsampleF_ok_iff (Or.inl rfl) _ ⟨rfl, by simp⟩ (by simp)] at hs
  have h1 := hs.1
  simp only [Seq.samples, List.zip_cons_cons, List.zip_nil_right, refinedF, segF, List.map_cons,
    List.range_one, List.map_nil, List.cons_append, List.pairwise_cons, List.nil_append] at h1
  have h2 := h1.1 (upsampleTime .floats 1 1 (1 + 1 / 2 ^ 52) (0 + 1)) (by simp)
  have h3 : upsampleTime .floats 1 1 (1 + 1 / 2 ^ 52) (0 + 1) = 1 := by decide +kernel
  rw [h3] at h2
  exact lt_irrefl _ h2

/-- An empty trajectory raises `IndexError`. -/
theorem C142_empty {ι : Type*} (A : Arith) (s : Seq ℚ (ι → ℚ)) (h : s.ts = []) (n : Nat) :
    upsampleF A s n = .error .index := by
  simp [upsampleF, h, upsampleLoopF]

/-! ## Examples -/

/-- A trajectory sampled every tenth of a second from `t = 1000 s`. -/
def exTraj : Seq ℚ (Bool → ℚ) :=
  ⟨[1000, Sim.double (10001 / 10), Sim.double (10002 / 10)],
    [fun b => if b then 1 else 2, fun b => if b then 3 else 2, fun b => if b then 0 else 5]⟩

theorem exTraj_valid : exTraj.Valid := by
  refine ⟨rfl, ?_⟩
  have h1 : (1000 : ℚ) < Sim.double (10001 / 10) := by decide +kernel
  have h2 : Sim.double (10001 / 10) < Sim.double (10002 / 10) := by decide +kernel
  simp only [exTraj, List.pairwise_cons, List.mem_cons, List.not_mem_nil, or_false, forall_eq_or_imp, forall_eq,
    IsEmpty.forall_iff, implies_true, List.Pairwise.nil, and_true]
  exact ⟨⟨h1, h1.trans h2⟩, h2⟩

theorem exTraj_room : exTraj.ts.IsChain (fun a b => (((9 : ℕ) : ℚ) + 1) * max |a| |b| < 2 ^ 48 * (b - a)) := by
  simp only [exTraj, List.isChain_cons_cons, List.IsChain.singleton, and_true]
  decide +kernel

-- nine new samples in every step of a tenth of a second around t = 1000 s
example : ∃ s', upsampleF .floats exTraj 9 = .ok s' ∧ s'.ts.length = 21 ∧ exTraj.samples.Sublist s'.samples := by
  obtain ⟨s', hs⟩ := C142_succeeds (Or.inl rfl) exTraj exTraj_valid (by simp [exTraj]) 9 exTraj_room
  obtain ⟨_, hl, hsub, _⟩ := C142_upsample (Or.inl rfl) exTraj s' exTraj_valid (by simp [exTraj]) 9 hs
  exact ⟨s', hs, by rw [hl]; rfl, hsub⟩

-- and the function of time is kept to within 5/2⁴⁹
example : ∃ s', upsampleF .floats exTraj 9 = .ok s' ∧ ∀ j t, ∃ w w', exTraj.atInterp t = .ok w ∧
    s'.atInterp t = .ok w' ∧ |w' j - w j| ≤ 5 / 2 ^ 49 := by
  obtain ⟨s', hs⟩ := C142_succeeds (Or.inl rfl) exTraj exTraj_valid (by simp [exTraj]) 9 exTraj_room
  refine ⟨s', hs, fun j t => ?_⟩
  refine C142_function exTraj s' exTraj_valid (by simp [exTraj]) ?_ 9 hs j 5 ?_ t
  · simp only [exTraj, List.mem_cons, List.not_mem_nil, or_false, forall_eq_or_imp, forall_eq]
    exact ⟨by decide +kernel, double_laws.idem _, double_laws.idem _⟩
  · simp only [exTraj, List.mem_cons, List.not_mem_nil, or_false, forall_eq_or_imp, forall_eq]
    cases j <;> norm_num

/-- Decimal timestamps. -/
def exTrajD : Seq ℚ (Bool → ℚ) :=
  ⟨[1, 11 / 10, 12 / 10], [fun b => if b then 1 else 2, fun b => if b then 3 else 2, fun b => if b then 0 else 5]⟩

example : ∃ s', upsampleF .decimals exTrajD 2 = .ok s' ∧ s'.ts.length = 7 ∧ ∀ j t, ∃ w w', exTrajD.atInterp t = .ok w ∧
    s'.atInterp t = .ok w' ∧ |w' j - w j| ≤ 5 * (1 / 2 ^ 49 + 12 / 2 ^ 50) := by
  have hv : exTrajD.Valid := ⟨rfl, by simp [exTrajD]; norm_num⟩
  obtain ⟨s', hs⟩ := C142_succeeds (Or.inr rfl) exTrajD hv (by simp [exTrajD]) 2 (by
    simp only [exTrajD, List.isChain_cons_cons, List.IsChain.singleton, and_true]
    decide +kernel)
  refine ⟨s', hs, ?_, fun j t => ?_⟩
  · rw [(C142_upsample (Or.inr rfl) exTrajD s' hv (by simp [exTrajD]) 2 hs).2.1]; rfl
  · refine C142_function_decimal exTrajD s' hv (by simp [exTrajD]) 2 hs 12 (by norm_num) ?_ j 5 ?_ t
    · simp only [exTrajD, List.isChain_cons_cons, List.IsChain.singleton, and_true]
      decide +kernel
    · simp only [exTrajD, List.mem_cons, List.not_mem_nil, or_false, forall_eq_or_imp, forall_eq]
      cases j <;> norm_num

-- a third of a tenth of a second is not a `Decimal`: the new timestamp is the rounded one
example : upsampleTime .decimals 2 1 (11 / 10) 1 = 1033333333333333333333333333 / 1000000000000000000000000000 := by
  decide +kernel

end Verif
