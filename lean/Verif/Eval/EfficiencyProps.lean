import Verif.Eval.Efficiency
import Verif.Seq.BuilderProps
import Verif.Maps.GeoProps
import Verif.Maps.LaneProps

/-!
# C60, C61, C62, C63, C84: efficiency and comfort metrics
-/

namespace Verif
namespace Eval

open Maps

set_option linter.unusedSectionVars false

/-! ## C60: distance travelled -/

/-- Distance of two points of the plane. -/
noncomputable def ptDist (p q : ℝ × ℝ) : ℝ := Real.sqrt ((q.1 - p.1) ^ 2 + (q.2 - p.2) ^ 2)

/-- Length of the polyline through the points. -/
noncomputable def polyLen : List (ℝ × ℝ) → ℝ
  | p :: q :: r => ptDist p q + polyLen (q :: r)
  | _ => 0

theorem ptDist_nonneg (p q : ℝ × ℝ) : 0 ≤ ptDist p q := Real.sqrt_nonneg _

theorem ptDist_self (p : ℝ × ℝ) : ptDist p p = 0 := by simp [ptDist]

theorem ptDist_triangle (p q r : ℝ × ℝ) : ptDist p r ≤ ptDist p q + ptDist q r := by
  have key : ∀ a b c d : ℝ, Real.sqrt ((a + c) ^ 2 + (b + d) ^ 2) ≤
      Real.sqrt (a ^ 2 + b ^ 2) + Real.sqrt (c ^ 2 + d ^ 2) := by
    intro a b c d
    rw [Real.sqrt_le_left (by positivity)]
    have h1 := Real.sq_sqrt (show 0 ≤ a ^ 2 + b ^ 2 by positivity)
    have h2 := Real.sq_sqrt (show 0 ≤ c ^ 2 + d ^ 2 by positivity)
    have h3 : a * c + b * d ≤ Real.sqrt (a ^ 2 + b ^ 2) * Real.sqrt (c ^ 2 + d ^ 2) := by
      rw [← Real.sqrt_mul (by positivity)]
      apply Real.le_sqrt_of_sq_le
      nlinarith [sq_nonneg (a * d - b * c)]
    nlinarith
  have := key (q.1 - p.1) (q.2 - p.2) (r.1 - q.1) (r.2 - q.2)
  unfold ptDist
  rwa [show q.1 - p.1 + (r.1 - q.1) = r.1 - p.1 by ring,
    show q.2 - p.2 + (r.2 - q.2) = r.2 - p.2 by ring] at this

theorem foldl_polyLen {α : Type} (pos : α → ℝ × ℝ) (ts : List ℝ) (vs : List α)
    (h : ts.length = vs.length) : ∃ items, iterateWithDt ts vs = .ok items ∧ ∀ d : ℝ,
      items.foldl (fun d it =>
        d + norm2 ((pos it.v1).1 - (pos it.v0).1) ((pos it.v1).2 - (pos it.v0).2)) d =
      d + polyLen (vs.map pos) := by
  induction ts generalizing vs with
  | nil =>
    cases vs with
    | nil => exact ⟨[], by simp [iterateWithDt], fun d => by simp [polyLen]⟩
    | cons _ _ => simp at h
  | cons t0 ts ih =>
    cases vs with
    | nil => simp at h
    | cons v0 vs =>
      cases ts with
      | nil =>
        cases vs with
        | nil => exact ⟨[], by simp [iterateWithDt], fun d => by simp [polyLen]⟩
        | cons _ _ => simp at h
      | cons t1 ts =>
        cases vs with
        | nil => simp at h
        | cons v1 vs =>
          obtain ⟨items, h1, h2⟩ := ih (v1 :: vs) (by simpa using h)
          refine ⟨⟨t0, t1, t1 - t0, v0, v1⟩ :: items, by simp [iterateWithDt, h1], ?_⟩
          intro d
          rw [List.foldl_cons, h2]
          simp only [List.map_cons, polyLen, ptDist, norm2]
          ring

/-- **C60.** The distance travelled is the length of the polyline through the logged positions. -/
theorem C60_length {α : Type} (pos : α → ℝ × ℝ) (s : Seq ℝ α) (h : s.Valid) :
    distanceTraveled pos s = .ok (polyLen (s.vs.map pos)) := by
  obtain ⟨items, h1, h2⟩ := foldl_polyLen pos s.ts s.vs h.1
  unfold distanceTraveled
  rw [h1]
  simp only [h2, zero_add]

theorem polyLen_nonneg : ∀ ps : List (ℝ × ℝ), 0 ≤ polyLen ps
  | [] => le_refl _
  | [_] => le_refl _
  | p :: q :: r => by
    have := polyLen_nonneg (q :: r)
    have := ptDist_nonneg p q
    simp only [polyLen]
    linarith

theorem ptDist_eq_zero (p q : ℝ × ℝ) : ptDist p q = 0 ↔ p = q := by
  constructor
  · intro h
    unfold ptDist at h
    rw [Real.sqrt_eq_zero (by positivity)] at h
    apply Prod.ext <;> nlinarith [sq_nonneg (q.1 - p.1), sq_nonneg (q.2 - p.2)]
  · rintro rfl; exact ptDist_self p

/-- **C60.** It is non-negative, and zero exactly if all logged positions are the same. -/
theorem C60_nonneg {α : Type} (pos : α → ℝ × ℝ) (s : Seq ℝ α) (h : s.Valid) :
    ∃ d, distanceTraveled pos s = .ok d ∧ 0 ≤ d ∧
      (d = 0 ↔ ∀ v ∈ s.vs, ∀ w ∈ s.vs, pos v = pos w) := by
  refine ⟨_, C60_length pos s h, polyLen_nonneg _, ?_⟩
  have key : ∀ ps : List (ℝ × ℝ), polyLen ps = 0 ↔ ∀ p ∈ ps, ∀ q ∈ ps, p = q := by
    intro ps
    induction ps with
    | nil => simp [polyLen]
    | cons p ps ih =>
      cases ps with
      | nil => simp [polyLen]
      | cons q r =>
        have h1 := ptDist_nonneg p q
        have h2 := polyLen_nonneg (q :: r)
        simp only [polyLen]
        constructor
        · intro h0
          have hpq : p = q := (ptDist_eq_zero p q).mp (by linarith)
          have hall := ih.mp (by linarith)
          subst hpq
          intro a ha b hb
          have f : ∀ c ∈ p :: p :: r, c ∈ p :: r := by
            intro c hc
            rcases List.mem_cons.mp hc with rfl | hc
            · exact List.mem_cons_self ..
            · exact hc
          exact hall a (f a ha) b (f b hb)
        · intro hall
          have hpq : p = q := hall p (by simp) q (by simp)
          rw [(ptDist_eq_zero p q).mpr hpq,
            ih.mpr (fun a ha b hb => hall a (List.mem_cons_of_mem _ ha) b (List.mem_cons_of_mem _ hb))]
          simp
  rw [key]
  constructor
  · intro hh v hv w hw
    exact hh _ (List.mem_map_of_mem hv) _ (List.mem_map_of_mem hw)
  · intro hh p hp q hq
    obtain ⟨v, hv, rfl⟩ := List.mem_map.mp hp
    obtain ⟨w, hw, rfl⟩ := List.mem_map.mp hq
    exact hh v hv w hw

/-- **C60.** It is at least the straight-line distance between any two logged positions. -/
theorem C60_displacement {α : Type} (pos : α → ℝ × ℝ) (s : Seq ℝ α) (h : s.Valid) :
    ∃ d, distanceTraveled pos s = .ok d ∧ ∀ v ∈ s.vs, ∀ w ∈ s.vs, ptDist (pos v) (pos w) ≤ d := by
  refine ⟨_, C60_length pos s h, ?_⟩
  have hsymm : ∀ p q, ptDist p q = ptDist q p := by
    intro p q; unfold ptDist; congr 1; ring
  have key0 : ∀ (ps : List (ℝ × ℝ)) p, ∀ q ∈ p :: ps, ptDist p q ≤ polyLen (p :: ps) := by
    intro ps
    induction ps with
    | nil => intro p q hq; simp at hq; subst hq; simp [ptDist_self, polyLen]
    | cons r ps ih =>
      intro p q hq
      rcases List.mem_cons.mp hq with rfl | hq
      · rw [ptDist_self]; exact polyLen_nonneg _
      · have := ih r q hq
        have := ptDist_triangle p r q
        simp only [polyLen]
        linarith
  have key : ∀ ps : List (ℝ × ℝ), ∀ p ∈ ps, ∀ q ∈ ps, ptDist p q ≤ polyLen ps := by
    intro ps
    induction ps with
    | nil => intro p hp; simp at hp
    | cons a ps ih =>
      intro p hp q hq
      rcases List.mem_cons.mp hp with rfl | hp'
      · exact key0 ps p q hq
      · rcases List.mem_cons.mp hq with rfl | hq'
        · rw [hsymm]; exact key0 ps q p hp
        · have h1 := ih p hp' q hq'
          cases ps with
          | nil => simp at hp'
          | cons b ps =>
            have := ptDist_nonneg a b
            simp only [polyLen]
            linarith
  intro v hv w hw
  exact key _ _ (List.mem_map_of_mem hv) _ (List.mem_map_of_mem hw)

/-- **C60.** Splitting a log at a sample (which belongs to both parts) splits the distance. -/
theorem C60_additive {α : Type} (pos : α → ℝ × ℝ) (ts ts' : List ℝ) (t : ℝ) (vs vs' : List α) (v : α)
    (h1 : ts.length = vs.length) (h : (⟨ts ++ t :: ts', vs ++ v :: vs'⟩ : Seq ℝ α).Valid) :
    ∃ d d', distanceTraveled pos ⟨ts ++ [t], vs ++ [v]⟩ = .ok d ∧
      distanceTraveled pos ⟨t :: ts', v :: vs'⟩ = .ok d' ∧
      distanceTraveled pos ⟨ts ++ t :: ts', vs ++ v :: vs'⟩ = .ok (d + d') := by
  obtain ⟨hl, hp⟩ := h
  simp only [List.length_append, List.length_cons] at hl
  have v1 : (⟨ts ++ [t], vs ++ [v]⟩ : Seq ℝ α).Valid := by
    refine ⟨by simp [h1], ?_⟩
    have : (ts ++ [t]).Sublist (ts ++ t :: ts') := by simp
    exact hp.sublist this
  have v2 : (⟨t :: ts', v :: vs'⟩ : Seq ℝ α).Valid :=
    ⟨by simp; omega, hp.sublist (List.sublist_append_right _ _)⟩
  refine ⟨_, _, C60_length pos _ v1, C60_length pos _ v2, ?_⟩
  rw [C60_length pos _ ⟨by simp; omega, hp⟩]
  congr 1
  simp only [List.map_append, List.map_cons, List.map_nil]
  have key : ∀ (ps qs : List (ℝ × ℝ)) p, polyLen (ps ++ p :: qs) = polyLen (ps ++ [p]) + polyLen (p :: qs) := by
    intro ps
    induction ps with
    | nil => intro qs p; simp [polyLen]
    | cons a ps ih =>
      intro qs p
      cases ps with
      | nil => simp [polyLen]
      | cons b ps =>
        have := ih qs p
        simp only [List.cons_append, polyLen] at this ⊢
        linarith
  exact key _ _ _

/-- A rotation by an angle with cosine `c` and sine `s` followed by a translation. -/
def moved (c s x y : ℝ) (p : ℝ × ℝ) : ℝ × ℝ := (c * p.1 - s * p.2 + x, s * p.1 + c * p.2 + y)

/-- **C60.** It does not depend on the frame. -/
theorem C60_frame {α : Type} (pos : α → ℝ × ℝ) (s : Seq ℝ α) (h : s.Valid) (c si x y : ℝ)
    (hc : c ^ 2 + si ^ 2 = 1) :
    distanceTraveled (fun v => moved c si x y (pos v)) s = distanceTraveled pos s := by
  rw [C60_length _ s h, C60_length _ s h]
  congr 1
  have hd : ∀ p q, ptDist (moved c si x y p) (moved c si x y q) = ptDist p q := by
    intro p q
    unfold ptDist moved
    congr 1
    simp only
    linear_combination ((q.1 - p.1) ^ 2 + (q.2 - p.2) ^ 2) * hc
  generalize s.vs = vs
  induction vs with
  | nil => rfl
  | cons a vs ih =>
    cases vs with
    | nil => rfl
    | cons b vs =>
      simp only [List.map_cons, polyLen, hd] at ih ⊢
      rw [ih]

example : distanceTraveled (α := ℝ × ℝ) id ⟨[0, 1, 2], [(0, 0), (3, 4), (3, 0)]⟩ = .ok 9 := by
  rw [C60_length _ _ ⟨rfl, by simp⟩]
  simp only [List.map_cons, List.map_nil, polyLen, ptDist, id]
  rw [show ((3 - 0 : ℝ) ^ 2 + (4 - 0) ^ 2) = 5 ^ 2 by norm_num,
    show ((3 - 3 : ℝ) ^ 2 + (0 - 4) ^ 2) = 4 ^ 2 by norm_num, Real.sqrt_sq (by norm_num),
    Real.sqrt_sq (by norm_num)]
  norm_num

/-! ## C61: first time the goal is reached -/

section
variable {K : Type} [Field K] [LinearOrder K] [IsStrictOrderedRing K] {α : Type}

theorem goalLoop_spec (P : α → Bool) : ∀ (ts pre : List K) (vs : List α), ts.length = vs.length →
    (goalLoop (fun v => .ok (P v)) (pre ++ ts) pre.length vs) =
      .ok (((ts.zip vs).find? (fun x => P x.2)).map (·.1)) := by
  intro ts
  induction ts with
  | nil =>
    intro pre vs h
    cases vs with
    | nil => rfl
    | cons _ _ => simp at h
  | cons t ts ih =>
    intro pre vs h
    cases vs with
    | nil => simp at h
    | cons v vs =>
      simp only [goalLoop]
      cases hv : P v with
      | true =>
        have : pyGet (pre ++ t :: ts) (pre.length : Int) = .ok t :=
          pyGet_nat _ _ _ (by simp)
        simp [this, hv]
      | false =>
        have := ih (pre ++ [t]) vs (by simpa using h)
        simp only [List.append_assoc, List.singleton_append, List.length_append, List.length_cons,
          List.length_nil, Nat.zero_add] at this
        simp [hv, this]

/-- **C61.** The result is a time exactly if it is the first logged time at which the predicate holds, and
`None` exactly if it holds at no logged time. -/
theorem C61_first (P : α → Bool) (s : Seq K α) (h : s.Valid) :
    (∀ t, timeGoalLaneReached (fun v => .ok (P v)) s = .ok (some t) ↔
      ∃ v, (t, v) ∈ s.samples ∧ P v = true ∧ ∀ t' v', (t', v') ∈ s.samples → P v' = true → t ≤ t') ∧
    (timeGoalLaneReached (fun v => .ok (P v)) s = .ok none ↔ ∀ v ∈ s.vs, P v = false) := by
  have e : timeGoalLaneReached (fun v => .ok (P v)) s =
      .ok ((s.samples.find? (fun x => P x.2)).map (·.1)) := goalLoop_spec P s.ts [] s.vs h.1
  have hpw : s.samples.Pairwise (fun a b => a.1 < b.1) := by
    have : (s.samples.map Prod.fst).Pairwise (· < ·) := by
      rw [show s.samples.map Prod.fst = s.ts from List.map_fst_zip h.1.le]; exact h.2
    exact List.pairwise_map.mp this
  have hfind : ∀ l : List (K × α), l.Pairwise (fun a b => a.1 < b.1) → ∀ t,
      ((l.find? (fun x => P x.2)).map (·.1) = some t ↔
        ∃ v, (t, v) ∈ l ∧ P v = true ∧ ∀ t' v', (t', v') ∈ l → P v' = true → t ≤ t') := by
    intro l
    induction l with
    | nil => simp
    | cons a l ih =>
      intro hp t
      obtain ⟨hp1, hp2⟩ := List.pairwise_cons.mp hp
      obtain ⟨u, w⟩ := a
      cases hw : P w with
      | true =>
        simp only [List.find?_cons, hw, Option.map_some, Option.some.injEq]
        constructor
        · rintro rfl
          refine ⟨w, by simp, hw, ?_⟩
          intro t' v' hm _
          rcases List.mem_cons.mp hm with hm | hm
          · injection hm with h1 _; exact h1.ge
          · exact (hp1 _ hm).le
        · rintro ⟨v, hm, hv, hmin⟩
          rcases List.mem_cons.mp hm with hm | hm
          · injection hm with h1 _; exact h1.symm
          · exact absurd (hmin u w (by simp) hw) (not_le.mpr (hp1 _ hm))
      | false =>
        simp only [List.find?_cons, hw]
        rw [ih hp2 t]
        constructor
        · rintro ⟨v, hm, hv, hmin⟩
          refine ⟨v, List.mem_cons_of_mem _ hm, hv, ?_⟩
          intro t' v' hm' hv'
          rcases List.mem_cons.mp hm' with hm' | hm'
          · injection hm' with _ h2; rw [h2, hw] at hv'; cases hv'
          · exact hmin t' v' hm' hv'
        · rintro ⟨v, hm, hv, hmin⟩
          rcases List.mem_cons.mp hm with hm | hm
          · injection hm with _ h2; rw [h2, hw] at hv; cases hv
          · exact ⟨v, hm, hv, fun t' v' hm' => hmin t' v' (List.mem_cons_of_mem _ hm')⟩
  constructor
  · intro t
    rw [e, Except.ok.injEq]
    exact hfind _ hpw t
  · rw [e, Except.ok.injEq, Option.map_eq_none_iff, List.find?_eq_none]
    constructor
    · intro hall v hv
      obtain ⟨i, hi, rfl⟩ := List.getElem_of_mem hv
      have hm : (s.ts[i]'(by rw [h.1]; exact hi), s.vs[i]) ∈ s.samples := by
        have : i < s.samples.length := by rw [Seq.samples_length s h, h.1]; exact hi
        have hx := List.getElem_mem this
        simpa [Seq.samples] using hx
      simpa using hall _ hm
    · intro hall x hx
      have : x.2 ∈ s.vs := (List.of_mem_zip (a := x.1) (b := x.2) hx).2
      simp [hall _ this]

/-- **C61.** If the predicate raises, the exception comes out exactly if it was not fulfilled before. -/
theorem C61_error (reached : α → Except Err Bool) (s : Seq K α) (h : s.Valid) (e : Err) :
    timeGoalLaneReached reached s = .error e ↔
      ∃ pre v post, s.vs = pre ++ v :: post ∧ (∀ w ∈ pre, reached w = .ok false) ∧
        reached v = .error e := by
  have key : ∀ (ts pre : List K) (vs : List α), ts.length = vs.length →
      (goalLoop reached (pre ++ ts) pre.length vs = .error e ↔
        ∃ p v post, vs = p ++ v :: post ∧ (∀ w ∈ p, reached w = .ok false) ∧ reached v = .error e) := by
    intro ts
    induction ts with
    | nil =>
      intro pre vs h
      cases vs with
      | nil => simp [goalLoop]
      | cons _ _ => simp at h
    | cons t ts ih =>
      intro pre vs h
      cases vs with
      | nil => simp at h
      | cons v vs =>
        simp only [goalLoop]
        cases hv : reached v with
        | error e' =>
          constructor
          · intro he
            injection he with he
            exact ⟨[], v, vs, rfl, by simp, by rw [hv, he]⟩
          · rintro ⟨p, w, post, hvs, hp, hw⟩
            cases p with
            | nil => injection hvs with h1 _; rw [← h1, hv] at hw; injection hw with hw; rw [hw]
            | cons a p =>
              injection hvs with h1 _
              have := hp a (by simp)
              rw [← h1, hv] at this
              cases this
        | ok b =>
          cases b with
          | true =>
            have : pyGet (pre ++ t :: ts) (pre.length : Int) = .ok t := pyGet_nat _ _ _ (by simp)
            simp only [this]
            constructor
            · intro he; cases he
            · rintro ⟨p, w, post, hvs, hp, hw⟩
              cases p with
              | nil => injection hvs with h1 _; rw [← h1, hv] at hw; cases hw
              | cons a p =>
                injection hvs with h1 _
                have := hp a (by simp)
                rw [← h1, hv] at this
                cases this
          | false =>
            have := ih (pre ++ [t]) vs (by simpa using h)
            simp only [List.append_assoc, List.singleton_append, List.length_append, List.length_cons,
              List.length_nil, Nat.zero_add] at this
            simp only [this]
            constructor
            · rintro ⟨p, w, post, hvs, hp, hw⟩
              refine ⟨v :: p, w, post, by rw [hvs]; rfl, ?_, hw⟩
              intro x hx
              rcases List.mem_cons.mp hx with rfl | hx
              · exact hv
              · exact hp x hx
            · rintro ⟨p, w, post, hvs, hp, hw⟩
              cases p with
              | nil => injection hvs with h1 _; rw [← h1, hv] at hw; cases hw
              | cons a p =>
                injection hvs with h1 h2
                exact ⟨p, w, post, h2, fun x hx => hp x (List.mem_cons_of_mem _ hx), hw⟩
  exact key s.ts [] s.vs h.1

example : timeGoalLaneReached (K := ℚ) (fun v : ℚ => .ok (decide (5 ≤ v))) ⟨[0, 1, 2, 3], [1, 7, 3, 9]⟩ =
    .ok (some 1) := by decide +kernel

/-! ## C63: the largest jerk -/

/-- The difference quotients of consecutive accelerations whose interval ends within the range. -/
def IsJerk (acc : α → K) (lo hi : Option K) (s : Seq K α) (j : K) : Prop :=
  ∃ (i : Nat) (t0 t1 : K) (v0 v1 : α), s.samples[i]? = some (t0, v0) ∧ s.samples[i + 1]? = some (t1, v1) ∧
    (∀ a, lo = some a → a ≤ t1) ∧ (∀ b, hi = some b → t1 ≤ b) ∧ j = (acc v1 - acc v0) / (t1 - t0)

theorem tooEarly_iff (lo : Option K) (t : K) : tooEarly lo t = true ↔ ¬ ∀ a, lo = some a → a ≤ t := by
  cases lo <;> simp [tooEarly]

theorem tooLate_iff (hi : Option K) (t : K) : tooLate hi t = true ↔ ¬ ∀ b, hi = some b → t ≤ b := by
  cases hi <;> simp [tooLate]

theorem jerkLoop_spec (acc : α → K) (lo hi : Option K) (items : List (IterateDT K α))
    (hp : items.Pairwise (fun a b => a.t1 < b.t1)) (m : K) :
    let J := fun j => ∃ it ∈ items, (∀ a, lo = some a → a ≤ it.t1) ∧ (∀ b, hi = some b → it.t1 ≤ b) ∧
      j = (acc it.v1 - acc it.v0) / (it.t1 - it.t0)
    m ≤ jerkLoop acc lo hi m items ∧ (∀ j, J j → |j| ≤ jerkLoop acc lo hi m items) ∧
      (jerkLoop acc lo hi m items = m ∨ ∃ j, J j ∧ jerkLoop acc lo hi m items = |j|) := by
  induction items generalizing m with
  | nil => simp [jerkLoop]
  | cons it items ih =>
    obtain ⟨hp1, hp2⟩ := List.pairwise_cons.mp hp
    intro J
    have hlo := tooEarly_iff lo it.t1
    have hhi := tooLate_iff hi it.t1
    simp only [jerkLoop]
    split
    · rename_i hc
      obtain ⟨a1, a2, a3⟩ := ih hp2 m
      refine ⟨a1, ?_, ?_⟩
      · rintro j ⟨x, hx, h1, h2, h3⟩
        rcases List.mem_cons.mp hx with rfl | hx
        · exact absurd h1 (hlo.mp hc)
        · exact a2 j ⟨x, hx, h1, h2, h3⟩
      · rcases a3 with a3 | ⟨j, ⟨x, hx, hh⟩, a3⟩
        · exact Or.inl a3
        · exact Or.inr ⟨j, ⟨x, List.mem_cons_of_mem _ hx, hh⟩, a3⟩
    · rename_i hc
      split
      · rename_i hc'
        refine ⟨le_refl _, ?_, Or.inl rfl⟩
        rintro j ⟨x, hx, h1, h2, h3⟩
        exfalso
        apply hhi.mp hc'
        intro b hb
        rcases List.mem_cons.mp hx with rfl | hx
        · exact h2 b hb
        · exact (hp1 x hx).le.trans (h2 b hb)
      · rename_i hc'
        set jk := (acc it.v1 - acc it.v0) / (it.t1 - it.t0) with hjk
        have hJ : J jk := ⟨it, by simp, not_not.mp (fun h => hc (hlo.mpr h)),
          not_not.mp (fun h => hc' (hhi.mpr h)), hjk⟩
        obtain ⟨a1, a2, a3⟩ := ih hp2 (if m < |jk| then |jk| else m)
        have hm1 : m ≤ (if m < |jk| then |jk| else m) := by split <;> [exact le_of_lt ‹_›; exact le_refl _]
        have hm2 : |jk| ≤ (if m < |jk| then |jk| else m) := by
          split <;> [exact le_refl _; exact not_lt.mp ‹_›]
        refine ⟨hm1.trans a1, ?_, ?_⟩
        · rintro j ⟨x, hx, h1, h2, h3⟩
          rcases List.mem_cons.mp hx with rfl | hx
          · rw [h3]; exact hm2.trans a1
          · exact a2 j ⟨x, hx, h1, h2, h3⟩
        · rcases a3 with a3 | ⟨j, ⟨x, hx, hh⟩, a3⟩
          · rw [a3]
            split
            · exact Or.inr ⟨jk, hJ, rfl⟩
            · exact Or.inl rfl
          · exact Or.inr ⟨j, ⟨x, List.mem_cons_of_mem _ hx, hh⟩, a3⟩

/-- **C63.** The result is an upper bound for the absolute values of all difference quotients of
consecutive accelerations whose interval ends within the range; it is attained by one of them, or is zero
if there is none. -/
theorem C63_max_jerk (acc : α → K) (lo hi : Option K) (s : Seq K α) (h : s.Valid) :
    ∃ m, getMaxJerk acc lo hi s = .ok m ∧ (∀ j, IsJerk acc lo hi s j → |j| ≤ m) ∧
      ((∃ j, IsJerk acc lo hi s j ∧ m = |j|) ∨ (m = 0 ∧ ∀ j, ¬ IsJerk acc lo hi s j)) := by
  obtain ⟨items, h1, h2, h3, h4⟩ := C08_items s h
  have hs := Seq.samples_length s h
  have hget : ∀ i (hi : i < items.length), ∃ t0 t1 v0 v1, s.samples[i]? = some (t0, v0) ∧
      s.samples[i + 1]? = some (t1, v1) ∧ items[i] = ⟨t0, t1, t1 - t0, v0, v1⟩ := by
    intro i hi
    have a1 : i < s.samples.length := by omega
    have a2 : i + 1 < s.samples.length := by omega
    refine ⟨(s.samples[i]).1, (s.samples[i + 1]).1, (s.samples[i]).2, (s.samples[i + 1]).2,
      List.getElem?_eq_getElem a1, List.getElem?_eq_getElem a2, ?_⟩
    have := h3 i _ _ _ _ (List.getElem?_eq_getElem a1) (List.getElem?_eq_getElem a2)
    rw [List.getElem?_eq_getElem hi] at this
    injection this
  have hpw : items.Pairwise (fun a b => a.t1 < b.t1) := by
    rw [List.pairwise_iff_getElem]
    intro i j hi hj hij
    obtain ⟨a0, a1, a2, a3, _, hb, hc⟩ := hget i hi
    obtain ⟨b0, b1, b2, b3, _, hb', hc'⟩ := hget j hj
    rw [hc, hc']
    have hp : s.samples.Pairwise (fun a b => a.1 < b.1) := by
      have : (s.samples.map Prod.fst).Pairwise (· < ·) := by
        rw [show s.samples.map Prod.fst = s.ts from List.map_fst_zip h.1.le]; exact h.2
      exact List.pairwise_map.mp this
    obtain ⟨l1, e1⟩ := List.getElem?_eq_some_iff.mp hb
    obtain ⟨l2, e2⟩ := List.getElem?_eq_some_iff.mp hb'
    have := List.pairwise_iff_getElem.mp hp (i + 1) (j + 1) l1 l2 (by omega)
    rw [e1, e2] at this
    exact this
  have hJ : ∀ j, IsJerk acc lo hi s j ↔ ∃ it ∈ items, (∀ a, lo = some a → a ≤ it.t1) ∧
      (∀ b, hi = some b → it.t1 ≤ b) ∧ j = (acc it.v1 - acc it.v0) / (it.t1 - it.t0) := by
    intro j
    constructor
    · rintro ⟨i, t0, t1, v0, v1, e0, e1, b1, b2, b3⟩
      exact ⟨⟨t0, t1, t1 - t0, v0, v1⟩, List.mem_of_getElem? (h3 i _ _ _ _ e0 e1), b1, b2, b3⟩
    · rintro ⟨it, hit, b1, b2, b3⟩
      obtain ⟨i, hi', e⟩ := List.getElem_of_mem hit
      obtain ⟨t0, t1, v0, v1, c1, c2, c3⟩ := hget i hi'
      rw [← e, c3] at b1 b2 b3
      exact ⟨i, t0, t1, v0, v1, c1, c2, b1, b2, b3⟩
  obtain ⟨a1, a2, a3⟩ := jerkLoop_spec acc lo hi items hpw 0
  refine ⟨jerkLoop acc lo hi 0 items, by unfold getMaxJerk; rw [h1], ?_, ?_⟩
  · intro j hj; exact a2 j ((hJ j).mp hj)
  · by_cases hex : ∃ j, IsJerk acc lo hi s j
    · left
      rcases a3 with a3 | ⟨j, hj, a3⟩
      · obtain ⟨j, hj⟩ := hex
        refine ⟨j, hj, ?_⟩
        have := a2 j ((hJ j).mp hj)
        rw [a3] at this ⊢
        exact (le_antisymm this (abs_nonneg j)).symm
      · exact ⟨j, (hJ j).mpr hj, a3⟩
    · right
      refine ⟨?_, fun j hj => hex ⟨j, hj⟩⟩
      rcases a3 with a3 | ⟨j, hj, _⟩
      · exact a3
      · exact absurd ⟨j, (hJ j).mpr hj⟩ hex

example : getMaxJerk (K := ℚ) (α := ℚ) id (some 1) (some 3) ⟨[0, 1, 3, 4], [0, 2, -4, 100]⟩ = .ok 3 := by
  decide +kernel

end

/-! ## C62, C84: the lane search -/

section
variable {K : Type} [Field K] [LinearOrder K] [IsStrictOrderedRing K] {L : Type}

/-- The lane poses are those of the lanes (C54): the flags follow from the position along the lane. -/
def Net.Sound (net : Net K L) : Prop :=
  ∀ l p, net.pose l = .ok p → ∃ r lateral, p.flags = laneFlags r (net.length l) p.along lateral

/-- The position is beyond the end of the lane by at least a unit. -/
def Net.Beyond (net : Net K L) (l : L) : Prop :=
  ∃ p, net.pose l = .ok p ∧ 1 ≤ p.along ∧ net.length l + 1 ≤ p.along

/-- The position is before the start of the lane. -/
def Net.Before (net : Net K L) (l : L) : Prop := ∃ p, net.pose l = .ok p ∧ p.along < 0

/-- The search from the goal lane ends. -/
def Ends (net : Net K L) (goal : L) : Prop :=
  ∀ (f : Except Err Bool) (pt ht : K), ∃ fuel, desiredLaneReached net goal f pt ht fuel ≠ none

theorem turn_beyond (net : Net K L) (hs : net.Sound) (l : L) (p : SearchPose K)
    (hp : net.pose l = .ok p) (h1 : 1 ≤ p.along) (h2 : net.length l + 1 ≤ p.along) :
    turn net l p = match move net (net.succ l) p with
      | .error e => .error e
      | .ok (.exit p) => .ok (.exit p)
      | .ok (.cont l p) => if p.flags.alongBefore then move net (net.pred l) p else .ok (.cont l p) := by
  obtain ⟨r, lat, hf⟩ := hs l p hp
  unfold turn
  have ha : p.flags.alongInside = false := by
    rw [hf]; simp only [laneFlags, decide_eq_false_iff_not, not_and, not_lt]; intro _; linarith
  have hb : p.flags.alongAfter = true := by
    rw [hf]; simp only [laneFlags, decide_eq_true_eq]; linarith
  rw [ha, hb]
  simp only [Bool.false_eq_true, if_false, if_true]
  have hfar : ¬ (|p.along| < 1 ∨ |p.along - net.length l| < 1) := by
    rintro (h | h)
    · have := (abs_lt.mp h).2; linarith
    · have := (abs_lt.mp h).2; linarith
  rw [if_neg hfar]
  rfl

/-- **C62 is false**: if the position is beyond the end of the goal lane by at least a unit and before the
start of its successor, whose predecessor is the goal lane, then the search never ends: no number of
turns of the loop suffices. -/
theorem C62_false_pingpong (net : Net K L) (hs : net.Sound) (l m : L) (hl : net.Beyond l)
    (hm : net.Before m) (h1 : net.succ l = .ok (some m)) (h2 : net.pred m = .ok (some l))
    (f : Except Err Bool) (pt ht : K) (fuel : Nat) :
    desiredLaneReached net l f pt ht fuel = none := by
  obtain ⟨p, hp, ha, hb⟩ := hl
  obtain ⟨q, hq, hc⟩ := hm
  have hqb : q.flags.alongBefore = true := by
    obtain ⟨r, lat, hf⟩ := hs m q hq
    rw [hf]; simp only [laneFlags, decide_eq_true_eq]; exact hc
  have ht : turn net l p = .ok (.cont l p) := by
    rw [turn_beyond net hs l p hp ha hb, h1]
    simp only [move, hq, hqb, if_true, h2, hp]
  have : ∀ fuel, search net fuel l p = none := by
    intro fuel
    induction fuel with
    | zero => rfl
    | succ n ih => simp only [search, ht]; exact ih
  simp only [desiredLaneReached, hp, this fuel]

/-- **C62 is false** in a second way: if the position is beyond the end of all lanes of a cycle of
successors (as in a roundabout), the search never ends. -/
theorem C62_false_cycle (net : Net K L) (hs : net.Sound) (C : L → Prop)
    (hC : ∀ l, C l → net.Beyond l ∧ ∃ m, net.succ l = .ok (some m) ∧ C m)
    (hlen : ∀ l, C l → 0 ≤ net.length l) (l : L) (hl : C l) (f : Except Err Bool) (pt ht : K) (fuel : Nat) :
    desiredLaneReached net l f pt ht fuel = none := by
  have key : ∀ fuel l p, C l → net.pose l = .ok p → search net fuel l p = none := by
    intro fuel
    induction fuel with
    | zero => intros; rfl
    | succ n ih =>
      intro l p hl hp
      obtain ⟨⟨p', hp', ha, hb⟩, m, hm, hCm⟩ := hC l hl
      rw [hp] at hp'
      injection hp' with hp'
      subst hp'
      obtain ⟨⟨q, hq, hqa, hqb⟩, _⟩ := hC m hCm
      have hqf : q.flags.alongBefore = false := by
        obtain ⟨r, lat, hf⟩ := hs m q hq
        rw [hf]; simp only [laneFlags, decide_eq_false_iff_not, not_lt]; linarith
      have : turn net l p = .ok (.cont m q) := by
        rw [turn_beyond net hs l p hp ha hb, hm]
        simp only [move, hq, hqf, Bool.false_eq_true, if_false]
      simp only [search, this]
      exact ih m q hCm hq
  obtain ⟨⟨p, hp, _⟩, _⟩ := hC l hl
  simp only [desiredLaneReached, hp, key fuel l p hl hp]

/-- A right-angled turn: the first lane goes from (-10,0) to (0,0), the second one from (0,0) to (0,10).
The lane coordinates of the position `(x, y)` (the center line is extended straight beyond the ends, ten
units of along-lane per meter, see C79). -/
def corner (x y : ℚ) : Net ℚ Bool where
  pose := fun l => .ok (if l then
      let a := if x < -10 then 10 * (x + 10) else if x ≤ 0 then x + 10 else 10 + 10 * x
      ⟨laneFlags 2 10 a y, a, 0⟩
    else
      let a := if y < 0 then 10 * y else if y ≤ 10 then y else 10 + 10 * (y - 10)
      ⟨laneFlags 2 10 a (-x), a, 0⟩)
  length := fun _ => 10
  succ := fun l => .ok (if l then some false else none)
  pred := fun l => .ok (if l then none else some true)

theorem corner_sound (x y : ℚ) : (corner x y).Sound := by
  intro l p hp
  cases l <;>
  · simp only [corner, Bool.false_eq_true, if_false, if_true, Except.ok.injEq] at hp
    subst hp
    exact ⟨_, _, rfl⟩

-- a vehicle half a meter off the outer side of the corner is enough
example : (corner (1 / 2) (-1 / 2)).Beyond true ∧ (corner (1 / 2) (-1 / 2)).Before false ∧
    (corner (1 / 2) (-1 / 2)).succ true = .ok (some false) ∧
    (corner (1 / 2) (-1 / 2)).pred false = .ok (some true) := by
  refine ⟨⟨_, rfl, ?_, ?_⟩, ⟨_, rfl, ?_⟩, rfl, rfl⟩ <;> decide +kernel

/-- **C62, what holds.** The search ends if no position is at the same time beyond a lane and before its
successor or before a lane and beyond its predecessor, and the chains of successors and predecessors are
finite (`up` and `down` count the remaining lanes); nothing raised is needed. -/
theorem C62_ends_partial (net : Net K L) (hs : net.Sound) (hlen : ∀ l, 0 ≤ net.length l)
    (up down : L → Nat)
    (hup : ∀ l m, net.succ l = .ok (some m) → up m < up l)
    (hdown : ∀ l m, net.pred l = .ok (some m) → down m < down l)
    (h1 : ∀ l m p q, net.succ l = .ok (some m) → net.pose l = .ok p → net.pose m = .ok q →
      net.length l < p.along → 0 ≤ q.along)
    (h2 : ∀ l m p q, net.pred l = .ok (some m) → net.pose l = .ok p → net.pose m = .ok q →
      p.along < 0 → q.along ≤ net.length m)
    (goal : L) : Ends net goal := by
  intro f pt ht
  -- turns at poses not before the lane go up, the others go down
  have kup : ∀ n l p, up l ≤ n → net.pose l = .ok p → 0 ≤ p.along →
      ∃ fuel, search net fuel l p ≠ none := by
    intro n
    induction n with
    | zero =>
      intro l p hn hp hpos
      obtain ⟨r, lat, hf⟩ := hs l p hp
      refine ⟨1, ?_⟩
      simp only [search, turn]
      split
      · simp
      · simp
      · rename_i l' p' hturn
        exfalso
        split at hturn
        · cases hturn
        · split at hturn
          · cases hturn
          · rename_i hin hfar
            have hafter : p.flags.alongAfter = true := by
              have : ¬ (0 ≤ p.along ∧ p.along < net.length l) := by
                intro hh; apply hin; rw [hf]; simp only [laneFlags, decide_eq_true_eq]; exact hh
              have hge : net.length l ≤ p.along := not_lt.mp (fun hh => this ⟨hpos, hh⟩)
              rw [hf]; simp only [laneFlags, decide_eq_true_eq]
              apply lt_of_le_of_ne hge
              intro he
              apply hfar
              right
              rw [← he]; simp
            rw [hafter] at hturn
            simp only [if_true, move] at hturn
            cases hsu : net.succ l with
            | error e => rw [hsu] at hturn; cases hturn
            | ok o =>
              rw [hsu] at hturn
              cases o with
              | none => cases hturn
              | some m => exact absurd (hup l m hsu) (by omega)
    | succ n ih =>
      intro l p hn hp hpos
      obtain ⟨r, lat, hf⟩ := hs l p hp
      cases hturn : turn net l p with
      | error e => exact ⟨1, by simp [search, hturn]⟩
      | ok tn =>
        cases tn with
        | exit q => exact ⟨1, by simp [search, hturn]⟩
        | cont l' p' =>
          have hnext : up l' ≤ n ∧ net.pose l' = .ok p' ∧ 0 ≤ p'.along := by
            unfold turn at hturn
            split at hturn
            · cases hturn
            · rename_i hin
              split at hturn
              · cases hturn
              · rename_i hfar
                have hgt : net.length l < p.along := by
                  have : ¬ (0 ≤ p.along ∧ p.along < net.length l) := by
                    intro hh; apply hin; rw [hf]; simp only [laneFlags, decide_eq_true_eq]; exact hh
                  have hge : net.length l ≤ p.along := not_lt.mp (fun hh => this ⟨hpos, hh⟩)
                  apply lt_of_le_of_ne hge
                  intro he
                  apply hfar
                  right
                  rw [← he]; simp
                have hafter : p.flags.alongAfter = true := by
                  rw [hf]; simp only [laneFlags, decide_eq_true_eq]; exact hgt
                rw [hafter] at hturn
                simp only [if_true, move] at hturn
                cases hsu : net.succ l with
                | error e => rw [hsu] at hturn; cases hturn
                | ok o =>
                  rw [hsu] at hturn
                  cases o with
                  | none => cases hturn
                  | some m =>
                    simp only at hturn
                    cases hq : net.pose m with
                    | error e => rw [hq] at hturn; cases hturn
                    | ok q =>
                      rw [hq] at hturn
                      have hq0 := h1 l m p q hsu hp hq hgt
                      have hqb : q.flags.alongBefore = false := by
                        obtain ⟨r', lat', hf'⟩ := hs m q hq
                        rw [hf']; simp only [laneFlags, decide_eq_false_iff_not, not_lt]; exact hq0
                      simp only [hqb] at hturn
                      simp only [Bool.false_eq_true, if_false, Except.ok.injEq, Turn.cont.injEq] at hturn
                      obtain ⟨rfl, rfl⟩ := hturn
                      exact ⟨by have := hup l m hsu; omega, hq, hq0⟩
          obtain ⟨fuel, hfu⟩ := ih l' p' hnext.1 hnext.2.1 hnext.2.2
          exact ⟨fuel + 1, by simp only [search, hturn]; exact hfu⟩
  have kdown : ∀ n l p, down l ≤ n → net.pose l = .ok p → p.along ≤ net.length l →
      ∃ fuel, search net fuel l p ≠ none := by
    intro n
    induction n with
    | zero =>
      intro l p hn hp hpos
      rcases le_or_gt 0 p.along with h0 | h0
      · exact kup _ l p (le_refl _) hp h0
      obtain ⟨r, lat, hf⟩ := hs l p hp
      refine ⟨1, ?_⟩
      simp only [search, turn]
      split
      · simp
      · simp
      · rename_i l' p' hturn
        exfalso
        split at hturn
        · cases hturn
        · split at hturn
          · cases hturn
          · have hafter : p.flags.alongAfter = false := by
              rw [hf]; simp only [laneFlags, decide_eq_false_iff_not, not_lt]; exact hpos
            have hbefore : p.flags.alongBefore = true := by
              rw [hf]; simp only [laneFlags, decide_eq_true_eq]; exact h0
            rw [hafter] at hturn
            simp only [Bool.false_eq_true, if_false, hbefore, if_true, move] at hturn
            cases hsu : net.pred l with
            | error e => rw [hsu] at hturn; cases hturn
            | ok o =>
              rw [hsu] at hturn
              cases o with
              | none => cases hturn
              | some m => exact absurd (hdown l m hsu) (by omega)
    | succ n ih =>
      intro l p hn hp hpos
      rcases le_or_gt 0 p.along with h0 | h0
      · exact kup _ l p (le_refl _) hp h0
      obtain ⟨r, lat, hf⟩ := hs l p hp
      cases hturn : turn net l p with
      | error e => exact ⟨1, by simp [search, hturn]⟩
      | ok tn =>
        cases tn with
        | exit q => exact ⟨1, by simp [search, hturn]⟩
        | cont l' p' =>
          have hnext : down l' ≤ n ∧ net.pose l' = .ok p' ∧ p'.along ≤ net.length l' := by
            unfold turn at hturn
            split at hturn
            · cases hturn
            · split at hturn
              · cases hturn
              · have hafter : p.flags.alongAfter = false := by
                  rw [hf]; simp only [laneFlags, decide_eq_false_iff_not, not_lt]; exact hpos
                have hbefore : p.flags.alongBefore = true := by
                  rw [hf]; simp only [laneFlags, decide_eq_true_eq]; exact h0
                rw [hafter] at hturn
                simp only [Bool.false_eq_true, if_false, hbefore, if_true, move] at hturn
                cases hsu : net.pred l with
                | error e => rw [hsu] at hturn; cases hturn
                | ok o =>
                  rw [hsu] at hturn
                  cases o with
                  | none => cases hturn
                  | some m =>
                    simp only at hturn
                    cases hq : net.pose m with
                    | error e => rw [hq] at hturn; cases hturn
                    | ok q =>
                      rw [hq] at hturn
                      simp only [Except.ok.injEq, Turn.cont.injEq] at hturn
                      obtain ⟨rfl, rfl⟩ := hturn
                      exact ⟨by have := hdown l m hsu; omega, hq, h2 l m p q hsu hp hq h0⟩
          obtain ⟨fuel, hfu⟩ := ih l' p' hnext.1 hnext.2.1 hnext.2.2
          exact ⟨fuel + 1, by simp only [search, hturn]; exact hfu⟩
  cases hp : net.pose goal with
  | error e => exact ⟨0, by simp [desiredLaneReached, hp]⟩
  | ok p =>
    have : ∃ fuel, search net fuel goal p ≠ none := by
      rcases le_or_gt 0 p.along with h0 | h0
      · exact kup _ goal p (le_refl _) hp h0
      · exact kdown _ goal p (le_refl _) hp (h0.le.trans (hlen goal))
    obtain ⟨fuel, hfu⟩ := this
    refine ⟨fuel, ?_⟩
    simp only [desiredLaneReached, hp]
    cases hse : search net fuel goal p with
    | none => exact absurd hse hfu
    | some r =>
      cases r with
      | error e => simp
      | ok q =>
        simp only
        cases f with
        | error e => simp
        | ok b => cases b <;> simp

-- a position on the second lane of the corner meets the hypotheses
example : (corner 0 5).Sound ∧ (∀ l, 0 ≤ (corner 0 5).length l) ∧
    (∀ l m, (corner 0 5).succ l = .ok (some m) → (if m then 1 else 0) < (if l then 1 else 0)) ∧
    (∀ l m, (corner 0 5).pred l = .ok (some m) → (if m then 0 else 1) < (if l then 0 else 1)) ∧
    (∀ l m p q, (corner 0 5).succ l = .ok (some m) → (corner 0 5).pose l = .ok p →
      (corner 0 5).pose m = .ok q → (corner 0 5).length l < p.along → 0 ≤ q.along) ∧
    (∀ l m p q, (corner 0 5).pred l = .ok (some m) → (corner 0 5).pose l = .ok p →
      (corner 0 5).pose m = .ok q → p.along < 0 → q.along ≤ (corner 0 5).length m) := by
  refine ⟨corner_sound _ _, fun l => ?_, ?_, ?_, ?_, ?_⟩
  · show (0 : ℚ) ≤ 10; norm_num
  · rintro (_ | _) (_ | _) h <;> simp [corner] at h <;> simp
  · rintro (_ | _) (_ | _) h <;> simp [corner] at h <;> simp
  · rintro (_ | _) (_ | _) p q h hp hq _ <;> simp [corner] at h
    simp only [corner, Bool.false_eq_true, if_false, Except.ok.injEq] at hq
    subst hq
    norm_num
  · rintro (_ | _) (_ | _) p q h hp hq hlt <;> simp [corner] at h
    simp only [corner, Bool.false_eq_true, if_false, Except.ok.injEq] at hp
    subst hp
    norm_num at hlt

/-- A lane reached from the goal lane through successors. -/
inductive FromGoal (net : Net K L) (goal : L) : L → Prop
  | goal : FromGoal net goal goal
  | next (l m : L) : FromGoal net goal l → net.succ l = .ok (some m) → FromGoal net goal m

/-- A lane reached from the goal lane through successors and predecessors. -/
inductive Around (net : Net K L) (goal : L) : L → Prop
  | goal : Around net goal goal
  | next (l m : L) : Around net goal l → net.succ l = .ok (some m) → Around net goal m
  | prev (l m : L) : Around net goal l → net.pred l = .ok (some m) → Around net goal m

/-- The vehicle drives in the middle of the lane, aligned with it. -/
def Net.Centered (net : Net K L) (pt ht : K) (l : L) : Prop :=
  ∃ p, net.pose l = .ok p ∧ p.flags.lateralInside = true ∧ p.flags.distCenter < pt ∧ |p.relHeading| < ht

/-- **C84, what holds.** A positive answer means that the goal is fulfilled, or that the vehicle is
centered in some lane found from the goal lane through successors and predecessors. -/
theorem C84_sound_partial (net : Net K L) (goal : L) (f : Except Err Bool) (pt ht : K) (fuel : Nat)
    (h : desiredLaneReached net goal f pt ht fuel = some (.ok true)) :
    f = .ok true ∨ ∃ l, Around net goal l ∧ net.Centered pt ht l := by
  have hmove : ∀ next p tn, move net next p = .ok tn →
      (tn = .exit p ∨ ∃ l p', next = .ok (some l) ∧ net.pose l = .ok p' ∧ tn = .cont l p') := by
    intro next p tn hm
    unfold move at hm
    split at hm
    · cases hm
    · injection hm with hm; exact Or.inl hm.symm
    · rename_i l
      cases hq : net.pose l with
      | error e => rw [hq] at hm; cases hm
      | ok q => rw [hq] at hm; injection hm with hm; exact Or.inr ⟨l, q, rfl, hq, hm.symm⟩
  have hturn : ∀ l p tn, Around net goal l → net.pose l = .ok p → turn net l p = .ok tn →
      ((∃ q, tn = .exit q ∧ ∃ l', Around net goal l' ∧ net.pose l' = .ok q) ∨
       (∃ l' q, tn = .cont l' q ∧ Around net goal l' ∧ net.pose l' = .ok q)) := by
    intro l p tn hl hp ht
    unfold turn at ht
    split at ht
    · injection ht with ht; exact Or.inl ⟨p, ht.symm, l, hl, hp⟩
    · split at ht
      · injection ht with ht; exact Or.inl ⟨p, ht.symm, l, hl, hp⟩
      · have second : ∀ l p, Around net goal l → net.pose l = .ok p →
            (if p.flags.alongBefore then move net (net.pred l) p else .ok (.cont l p)) = .ok tn →
            ((∃ q, tn = .exit q ∧ ∃ l', Around net goal l' ∧ net.pose l' = .ok q) ∨
             (∃ l' q, tn = .cont l' q ∧ Around net goal l' ∧ net.pose l' = .ok q)) := by
          intro l p hl hp h2
          split at h2
          · rcases hmove _ _ _ h2 with rfl | ⟨m, q, hm, hq, rfl⟩
            · exact Or.inl ⟨p, rfl, l, hl, hp⟩
            · exact Or.inr ⟨m, q, rfl, Around.prev l m hl hm, hq⟩
          · injection h2 with h2; exact Or.inr ⟨l, p, h2.symm, hl, hp⟩
        cases hfirst : (if p.flags.alongAfter then move net (net.succ l) p else .ok (.cont l p)) with
        | error e => rw [hfirst] at ht; cases ht
        | ok tn' =>
          rw [hfirst] at ht
          split at hfirst
          · rcases hmove _ _ _ hfirst with rfl | ⟨m, q, hm, hq, rfl⟩
            · injection ht with ht; exact Or.inl ⟨p, ht.symm, l, hl, hp⟩
            · exact second m q (Around.next l m hl hm) hq ht
          · injection hfirst with hfirst
            subst hfirst
            exact second l p hl hp ht
  have hsearch : ∀ fuel l p q, Around net goal l → net.pose l = .ok p →
      search net fuel l p = some (.ok q) → ∃ l', Around net goal l' ∧ net.pose l' = .ok q := by
    intro fuel
    induction fuel with
    | zero => intro l p q _ _ h; cases h
    | succ n ih =>
      intro l p q hl hp h
      simp only [search] at h
      cases ht : turn net l p with
      | error e => rw [ht] at h; cases h
      | ok tn =>
        rw [ht] at h
        rcases hturn l p tn hl hp ht with ⟨q', rfl, l', hl', hq'⟩ | ⟨l', q', rfl, hl', hq'⟩
        · simp only [Option.some.injEq, Except.ok.injEq] at h
          subst h
          exact ⟨l', hl', hq'⟩
        · exact ih l' q' q hl' hq' h
  unfold desiredLaneReached at h
  cases hp : net.pose goal with
  | error e => rw [hp] at h; cases h
  | ok p =>
    rw [hp] at h
    simp only at h
    cases hse : search net fuel goal p with
    | none => rw [hse] at h; cases h
    | some r =>
      rw [hse] at h
      cases r with
      | error e => cases h
      | ok q =>
        cases f with
        | error e => cases h
        | ok b =>
          cases b with
          | true => exact Or.inl rfl
          | false =>
            right
            simp only [Option.some.injEq, Except.ok.injEq, Bool.and_eq_true, decide_eq_true_eq] at h
            obtain ⟨l, hl, hq⟩ := hsearch fuel goal p q Around.goal hp hse
            exact ⟨l, hl, q, hq, h.1.1, h.1.2, h.2⟩

/-- **C84 is false as documented** ("the goal lane or any of its successors"): a vehicle near the
middle of the first lane of the corner, five meters before the second lane, is reported to have reached the second
one, though it is centered neither in it nor in any of its successors and does not fulfil the goal. -/
theorem C84_false_predecessor :
    desiredLaneReached (corner (-5) (-1 / 2)) false (.ok false) (4 / 5) (2 / 25) 2 = some (.ok true) ∧
    ∀ l, FromGoal (corner (-5) (-1 / 2)) false l → ¬ (corner (-5) (-1 / 2)).Centered (4 / 5) (2 / 25) l := by
  constructor
  · decide +kernel
  · have hl : ∀ l, FromGoal (corner (-5) (-1 / 2)) false l → l = false := by
      intro l h
      induction h with
      | goal => rfl
      | next l m _ hs ih => subst ih; simp [corner] at hs
    intro l h
    rw [hl l h]
    rintro ⟨p, hp, h1, -, -⟩
    simp only [corner, Bool.false_eq_true, if_false, Except.ok.injEq] at hp
    subst hp
    simp only [laneFlags, decide_eq_true_eq] at h1
    norm_num at h1

/-- **C84 is false** in a second way: with no successor, a vehicle far beyond the end of the goal lane but
in line with it is reported to have reached it. -/
theorem C84_false_past_end :
    desiredLaneReached (corner 0 1000) false (.ok false) (4 / 5) (2 / 25) 1 = some (.ok true) := by
  decide +kernel

/-- **C84, the other direction.** Where the search through the lanes ends without an error, a fulfilled goal
is reported as reached, and one not fulfilled is reported as not reached only if the lane at which the search
ended is not one the vehicle is centered in. -/
theorem C84_fulfilled (net : Net K L) (goal : L) (pt ht : K) (fuel : Nat) (b : Bool)
    (h : desiredLaneReached net goal (.ok false) pt ht fuel = some (.ok b)) :
    desiredLaneReached net goal (.ok true) pt ht fuel = some (.ok true) ∧
    ∀ q p, net.pose goal = .ok q → search net fuel goal q = some (.ok p) →
      (b = false ↔ (p.flags.lateralInside = false ∨ pt ≤ p.flags.distCenter ∨ ht ≤ |p.relHeading|)) := by
  unfold desiredLaneReached at h ⊢
  cases hq : net.pose goal with
  | error e => rw [hq] at h; cases h
  | ok q =>
    rw [hq] at h
    simp only at h ⊢
    cases hs : search net fuel goal q with
    | none => rw [hs] at h; cases h
    | some r =>
      cases r with
      | error e => rw [hs] at h; cases h
      | ok p =>
        rw [hs] at h
        simp only [Option.some.injEq, Except.ok.injEq] at h
        refine ⟨rfl, ?_⟩
        intro q' p' hq' hp'
        injection hq' with hq'
        subst hq'
        rw [hs] at hp'
        simp only [Option.some.injEq, Except.ok.injEq] at hp'
        subst hp'
        rw [← h]
        simp only [Bool.and_eq_false_iff, decide_eq_false_iff_not, not_lt]
        tauto

example : desiredLaneReached (corner 0 1000) false (.ok false) (4 / 5) (2 / 25) 1 = some (.ok true) :=
  C84_false_past_end

end
end Eval
end Verif
