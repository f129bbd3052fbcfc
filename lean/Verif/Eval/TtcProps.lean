import Verif.Eval.SafetyProps
import Mathlib.Analysis.SpecialFunctions.Sqrt

/-!
# C81: time to collision and deceleration rate over players and times
-/

namespace Verif
namespace Eval

open Sim

set_option linter.unusedSectionVars false

variable {N : Type} [DecidableEq N]

/-- The result is the first candidate with the least value below infinity, or infinity. -/
def IsMinOf {A : Type} (cands : List (A × EReal)) (v : EReal) (a : Option A) : Prop :=
  (v = ⊤ ∧ a = none ∧ ∀ x ∈ cands, x.2 = ⊤) ∨
  ∃ pre n post, cands = pre ++ (n, v) :: post ∧ a = some n ∧ v < ⊤ ∧ (∀ x ∈ pre, v < x.2) ∧
    (∀ x ∈ post, v ≤ x.2)

/-- The result is the first candidate with the greatest value above minus infinity, or minus infinity. -/
def IsMaxOf {A : Type} (cands : List (A × EReal)) (v : EReal) (a : Option A) : Prop :=
  (v = ⊥ ∧ a = none ∧ ∀ x ∈ cands, x.2 = ⊥) ∨
  ∃ pre n post, cands = pre ++ (n, v) :: post ∧ a = some n ∧ ⊥ < v ∧ (∀ x ∈ pre, x.2 < v) ∧
    (∀ x ∈ post, x.2 ≤ v)

theorem isMinOf_snoc {A : Type} (cands : List (A × EReal)) (v : EReal) (a : Option A)
    (h : IsMinOf cands v a) (n : A) (w : EReal) :
    (w < v → IsMinOf (cands ++ [(n, w)]) w (some n)) ∧ (¬ w < v → IsMinOf (cands ++ [(n, w)]) v a) := by
  constructor
  · intro hlt
    refine Or.inr ⟨cands, n, [], rfl, rfl, lt_of_lt_of_le hlt le_top, ?_, by simp⟩
    intro x hx
    rcases h with ⟨rfl, -, hall⟩ | ⟨pre, n', post, rfl, -, -, h1, h2⟩
    · rw [hall x hx]; exact hlt
    · rcases List.mem_append.mp hx with hx | hx
      · exact hlt.trans (h1 x hx)
      · rcases List.mem_cons.mp hx with rfl | hx
        · exact hlt
        · exact lt_of_lt_of_le hlt (h2 x hx)
  · intro hge
    rcases h with ⟨rfl, rfl, hall⟩ | ⟨pre, n', post, rfl, rfl, h0, h1, h2⟩
    · refine Or.inl ⟨rfl, rfl, ?_⟩
      intro x hx
      rcases List.mem_append.mp hx with hx | hx
      · exact hall x hx
      · simp at hx; subst hx; exact top_le_iff.mp (not_lt.mp hge)
    · refine Or.inr ⟨pre, n', post ++ [(n, w)], by simp, rfl, h0, h1, ?_⟩
      intro x hx
      rcases List.mem_append.mp hx with hx | hx
      · exact h2 x hx
      · simp at hx; subst hx; exact not_lt.mp hge

theorem isMaxOf_snoc {A : Type} (cands : List (A × EReal)) (v : EReal) (a : Option A)
    (h : IsMaxOf cands v a) (n : A) (w : EReal) :
    (v < w → IsMaxOf (cands ++ [(n, w)]) w (some n)) ∧ (¬ v < w → IsMaxOf (cands ++ [(n, w)]) v a) := by
  constructor
  · intro hlt
    refine Or.inr ⟨cands, n, [], rfl, rfl, lt_of_le_of_lt bot_le hlt, ?_, by simp⟩
    intro x hx
    rcases h with ⟨rfl, -, hall⟩ | ⟨pre, n', post, rfl, -, -, h1, h2⟩
    · rw [hall x hx]; exact hlt
    · rcases List.mem_append.mp hx with hx | hx
      · exact (h1 x hx).trans hlt
      · rcases List.mem_cons.mp hx with rfl | hx
        · exact hlt
        · exact lt_of_le_of_lt (h2 x hx) hlt
  · intro hge
    rcases h with ⟨rfl, rfl, hall⟩ | ⟨pre, n', post, rfl, rfl, h0, h1, h2⟩
    · refine Or.inl ⟨rfl, rfl, ?_⟩
      intro x hx
      rcases List.mem_append.mp hx with hx | hx
      · exact hall x hx
      · simp at hx; subst hx; exact le_bot_iff.mp (not_lt.mp hge)
    · refine Or.inr ⟨pre, n', post ++ [(n, w)], by simp, rfl, h0, h1, ?_⟩
      intro x hx
      rcases List.mem_append.mp hx with hx | hx
      · exact h2 x hx
      · simp at hx; subst hx; exact not_lt.mp hge

/-- Time to collision as an extended number. -/
noncomputable def ttcVal (c : Option (ℝ × ℝ × ℝ)) : EReal :=
  match c with
  | none => ⊤
  | some c => (c.1 : EReal)

/-- The agents looked at: the other active players that come closer and are near. -/
noncomputable def approaching {X : Type} (kin : X → Kin) (ego : N) (xe : X) (act : Dict N X) : Dict N X :=
  act.filter (fun e => decide (e.1 ≠ ego) && !skipAgent (kin xe) (kin e.2))

theorem ttcDracLoop_spec {X M : Type} (kin : X → Kin) (ttc : X → X → M → M → Option (ℝ × ℝ × ℝ))
    (models : Dict N M) (mo : N → M) (ego : N) (xe : X) (act : Dict N X)
    (h : ∀ e ∈ act, Dict.get? models e.1 = some (mo e.1)) :
    ∀ (c1 c2 : List (N × EReal)) (r : TtcDrac N), IsMinOf c1 r.ttc r.ttcAgent →
      IsMaxOf c2 r.drac r.dracAgent →
      ∃ r', ttcDracLoop kin ttc models ego xe (mo ego) act r = .ok r' ∧
        IsMinOf (c1 ++ (approaching kin ego xe act).map
          (fun e => (e.1, ttcVal (ttc xe e.2 (mo ego) (mo e.1))))) r'.ttc r'.ttcAgent ∧
        IsMaxOf (c2 ++ (approaching kin ego xe act).map
          (fun e => (e.1, drac (kin xe).vx ((ttc xe e.2 (mo ego) (mo e.1)).map (·.2.1))))) r'.drac
          r'.dracAgent := by
  induction act with
  | nil => intro c1 c2 r h1 h2; exact ⟨r, rfl, by simpa [approaching] using h1, by simpa [approaching] using h2⟩
  | cons e act ih =>
    obtain ⟨n, x⟩ := e
    have ih' := ih (fun e he => h e (List.mem_cons_of_mem _ he))
    intro c1 c2 r h1 h2
    simp only [ttcDracLoop]
    by_cases hn : n = ego
    · rw [if_pos hn]
      obtain ⟨r', g1, g2, g3⟩ := ih' c1 c2 r h1 h2
      refine ⟨r', g1, ?_, ?_⟩
      · simpa [approaching, hn] using g2
      · simpa [approaching, hn] using g3
    · rw [if_neg hn]
      have hm := h (n, x) (by simp)
      simp only [getKey, hm]
      cases hsk : skipAgent (kin xe) (kin x) with
      | true =>
        simp only [if_true]
        obtain ⟨r', g1, g2, g3⟩ := ih' c1 c2 r h1 h2
        refine ⟨r', g1, ?_, ?_⟩
        · simpa [approaching, hsk] using g2
        · simpa [approaching, hsk] using g3
      | false =>
        simp only [Bool.false_eq_true, if_false]
        set c := ttc xe x (mo ego) (mo n) with hc
        have hval : (c.map (fun c => (c.1 : EReal))).getD ⊤ = ttcVal c := by cases c <;> rfl
        rw [hval]
        set w1 := ttcVal c with hw1
        set w2 := drac (kin xe).vx (c.map (·.2.1)) with hw2
        have hu : IsMinOf (c1 ++ [(n, w1)]) (r.update n w1 w2).ttc (r.update n w1 w2).ttcAgent ∧
            IsMaxOf (c2 ++ [(n, w2)]) (r.update n w1 w2).drac (r.update n w1 w2).dracAgent := by
          have a1 := isMinOf_snoc c1 _ _ h1 n w1
          have a2 := isMaxOf_snoc c2 _ _ h2 n w2
          unfold TtcDrac.update
          by_cases p1 : w1 < r.ttc
          · by_cases p2 : r.drac < w2
            · simp only [if_pos p1, if_pos p2]; exact ⟨a1.1 p1, a2.1 p2⟩
            · simp only [if_pos p1, if_neg p2]; exact ⟨a1.1 p1, a2.2 p2⟩
          · by_cases p2 : r.drac < w2
            · simp only [if_neg p1, if_pos p2]; exact ⟨a1.2 p1, a2.1 p2⟩
            · simp only [if_neg p1, if_neg p2]; exact ⟨a1.2 p1, a2.2 p2⟩
        obtain ⟨r', g1, g2, g3⟩ := ih' _ _ _ hu.1 hu.2
        refine ⟨r', g1, ?_, ?_⟩
        · have : (approaching kin ego xe ((n, x) :: act)) = (n, x) :: approaching kin ego xe act := by
            simp [approaching, hn, hsk]
          rw [this]
          simpa [← hc, ← hw1] using g2
        · have : (approaching kin ego xe ((n, x) :: act)) = (n, x) :: approaching kin ego xe act := by
            simp [approaching, hn, hsk]
          rw [this]
          simpa [← hc, ← hw2] using g3

/-- **C81.** At one time: without active ego, infinity and minus infinity without players; else the time to
collision is the least one over the other active players that come closer and are near, the deceleration
rate the greatest one, each with the first player attaining it. -/
theorem C81_at_t {X M G : Type} (kin : X → Kin) (ttc : X → X → M → M → Option (ℝ × ℝ × ℝ))
    (D : G → X → Bool) (models : Dict N M) (missions : Dict N G) (mo : N → M) (go : N → G) (ego : N)
    (states : Dict N X) (hm : ∀ e ∈ states, Dict.get? models e.1 = some (mo e.1))
    (hg : ∀ e ∈ states, Dict.get? missions e.1 = some (go e.1)) (hw : Dict.Wf states) :
    ∃ r, ttcDracAt kin ttc (fun g x => .ok (D g x)) models missions ego states = .ok r ∧
      ((∀ x, (ego, x) ∈ states → D (go ego) x = true) →
        r.ttc = ⊤ ∧ r.ttcAgent = none ∧ r.drac = ⊥ ∧ r.dracAgent = none) ∧
      (∀ xe, (ego, xe) ∈ states → D (go ego) xe = false →
        let near := approaching kin ego xe (active D go states)
        IsMinOf (near.map (fun e => (e.1, ttcVal (ttc xe e.2 (mo ego) (mo e.1))))) r.ttc r.ttcAgent ∧
        IsMaxOf (near.map (fun e => (e.1, drac (kin xe).vx ((ttc xe e.2 (mo ego) (mo e.1)).map (·.2.1)))))
          r.drac r.dracAgent) := by
  have hact : ∀ e ∈ active D go states, e ∈ states := fun e he => (List.mem_filter.mp he).1
  have hwa : Dict.Wf (active D go states) := by
    unfold Dict.Wf Dict.keys active
    exact List.Nodup.sublist ((List.filter_sublist).map _) hw
  unfold ttcDracAt
  rw [removeFinished_eq D missions go states hg]
  simp only [bind, Except.bind]
  cases hget : Dict.get? (active D go states) ego with
  | none =>
    refine ⟨{}, rfl, fun _ => ⟨rfl, rfl, rfl, rfl⟩, ?_⟩
    intro x hx hD
    have hmem : (ego, x) ∈ active D go states := List.mem_filter.mpr ⟨hx, by simp [hD]⟩
    rw [Dict.get?_of_mem hwa hmem] at hget
    cases hget
  | some xe =>
    have hmem := Dict.get?_eq_some_mem hget
    have hst := hact _ hmem
    have hme := hm _ hst
    simp only [getKey, hme]
    obtain ⟨r, h1, h2, h3⟩ := ttcDracLoop_spec kin ttc models mo ego xe (active D go states)
      (fun e he => hm e (hact e he)) [] [] {} (Or.inl ⟨rfl, rfl, by simp⟩) (Or.inl ⟨rfl, rfl, by simp⟩)
    refine ⟨r, h1, ?_, ?_⟩
    · intro hall
      have hD : D (go ego) xe = false := by
        have := (List.mem_filter.mp hmem).2
        simpa using this
      rw [hall xe hst] at hD
      cases hD
    · intro x hx hD
      have hmem' : (ego, x) ∈ active D go states := List.mem_filter.mpr ⟨hx, by simp [hD]⟩
      have hget' := Dict.get?_of_mem hwa hmem'
      rw [hget] at hget'
      injection hget' with hget'
      subst hget'
      exact ⟨by simpa using h2, by simpa using h3⟩

open Classical in
/-- **C81.** Over the times: the least time to collision and the greatest deceleration rate over the logged
times within the range, each with the first time attaining it and the player found at that time. -/
theorem C81_times (at_t : ℝ → Except Err (TtcDrac N)) (lo hi : Option ℝ) (ts : List ℝ)
    (hp : ts.Pairwise (· < ·)) (res : ℝ → TtcDrac N)
    (hat : ∀ t ∈ ts, InRange lo hi t → at_t t = .ok (res t)) :
    ∃ v a t? w b u?, ttcDracTimes at_t lo hi ts ((⊤, none, none), (⊥, none, none)) =
        .ok ((v, a, t?), (w, b, u?)) ∧
      IsMinOf ((ts.filter (fun t => decide (InRange lo hi t))).map (fun t => (t, (res t).ttc))) v t? ∧
      IsMaxOf ((ts.filter (fun t => decide (InRange lo hi t))).map (fun t => (t, (res t).drac))) w u? ∧
      (∀ t, t? = some t → a = (res t).ttcAgent) ∧ (t? = none → a = none) ∧
      (∀ t, u? = some t → b = (res t).dracAgent) ∧ (u? = none → b = none) := by
  have key : ∀ ts : List ℝ, ts.Pairwise (· < ·) → (∀ t ∈ ts, InRange lo hi t → at_t t = .ok (res t)) →
      ∀ (c1 c2 : List (ℝ × EReal)) v a t? w b u?, IsMinOf c1 v t? → IsMaxOf c2 w u? →
      (∀ t, t? = some t → a = (res t).ttcAgent) → (t? = none → a = none) →
      (∀ t, u? = some t → b = (res t).dracAgent) → (u? = none → b = none) →
      ∃ v' a' t?' w' b' u?', ttcDracTimes at_t lo hi ts ((v, a, t?), (w, b, u?)) =
        .ok ((v', a', t?'), (w', b', u?')) ∧
      IsMinOf (c1 ++ (ts.filter (fun t => decide (InRange lo hi t))).map (fun t => (t, (res t).ttc))) v' t?' ∧
      IsMaxOf (c2 ++ (ts.filter (fun t => decide (InRange lo hi t))).map (fun t => (t, (res t).drac))) w' u?' ∧
      (∀ t, t?' = some t → a' = (res t).ttcAgent) ∧ (t?' = none → a' = none) ∧
      (∀ t, u?' = some t → b' = (res t).dracAgent) ∧ (u?' = none → b' = none) := by
    intro ts
    induction ts with
    | nil =>
      intro _ _ c1 c2 v a t? w b u? h1 h2 h3 h4 h5 h6
      exact ⟨v, a, t?, w, b, u?, rfl, by simpa using h1, by simpa using h2, h3, h4, h5, h6⟩
    | cons t ts ih =>
      intro hp hat c1 c2 v a t? w b u? h1 h2 h3 h4 h5 h6
      obtain ⟨hp1, hp2⟩ := List.pairwise_cons.mp hp
      have ih' := ih hp2 (fun u hu => hat u (List.mem_cons_of_mem _ hu))
      simp only [ttcDracTimes]
      split
      · rename_i he
        have hnot : ¬ InRange lo hi t := fun h => (tooEarly_iff lo t).mp he h.1
        rw [List.filter_cons_of_neg (by simpa using hnot)]
        exact ih' c1 c2 v a t? w b u? h1 h2 h3 h4 h5 h6
      · rename_i he
        split
        · rename_i hl
          have hnone : ((t :: ts).filter (fun t => decide (InRange lo hi t))) = [] := by
            rw [List.filter_eq_nil_iff]
            intro u hu
            simp only [decide_eq_true_eq]
            intro hr
            apply (tooLate_iff hi t).mp hl
            intro b hb
            rcases List.mem_cons.mp hu with rfl | hu
            · exact hr.2 b hb
            · exact (hp1 u hu).le.trans (hr.2 b hb)
          rw [hnone]
          exact ⟨v, a, t?, w, b, u?, rfl, by simpa using h1, by simpa using h2, h3, h4, h5, h6⟩
        · rename_i hl
          have hrt : InRange lo hi t := ⟨not_not.mp (fun h => he ((tooEarly_iff lo t).mpr h)),
            not_not.mp (fun h => hl ((tooLate_iff hi t).mpr h))⟩
          rw [hat t (by simp) hrt, List.filter_cons_of_pos (by simpa using hrt)]
          simp only
          have a1 := isMinOf_snoc c1 _ _ h1 t (res t).ttc
          have a2 := isMaxOf_snoc c2 _ _ h2 t (res t).drac
          have reb : ∀ (c : List (ℝ × EReal)) x l, c ++ (x :: l) = (c ++ [x]) ++ l := by
            intro c x l; simp
          rw [List.map_cons, List.map_cons, reb c1, reb c2]
          by_cases p1 : (res t).ttc < v
          · by_cases p2 : w < (res t).drac
            · simp only [if_pos p1, if_pos p2]
              exact ih' _ _ _ _ _ _ _ _ (a1.1 p1) (a2.1 p2) (by rintro _ ⟨⟩; rfl) (by simp)
                (by rintro _ ⟨⟩; rfl) (by simp)
            · simp only [if_pos p1, if_neg p2]
              exact ih' _ _ _ _ _ _ _ _ (a1.1 p1) (a2.2 p2) (by rintro _ ⟨⟩; rfl) (by simp) h5 h6
          · by_cases p2 : w < (res t).drac
            · simp only [if_neg p1, if_pos p2]
              exact ih' _ _ _ _ _ _ _ _ (a1.2 p1) (a2.1 p2) h3 h4 (by rintro _ ⟨⟩; rfl) (by simp)
            · simp only [if_neg p1, if_neg p2]
              exact ih' _ _ _ _ _ _ _ _ (a1.2 p1) (a2.2 p2) h3 h4 h5 h6
  obtain ⟨v, a, t?, w, b, u?, h⟩ := key ts hp hat [] [] ⊤ none none ⊥ none none
    (Or.inl ⟨rfl, rfl, by simp⟩) (Or.inl ⟨rfl, rfl, by simp⟩) (by simp) (by simp) (by simp) (by simp)
  exact ⟨v, a, t?, w, b, u?, by simpa using h⟩

/-- Distance of the two centers when both keep their velocity for the time `t`. -/
noncomputable def distAfter (e a : Kin) (t : ℝ) : ℝ :=
  Real.sqrt (((a.x + t * (a.vx * Real.cos a.psi)) - (e.x + t * (e.vx * Real.cos e.psi))) ^ 2 +
    ((a.y + t * (a.vx * Real.sin a.psi)) - (e.y + t * (e.vx * Real.sin e.psi))) ^ 2)

/-- **C81.** A player is looked at exactly if the centers coincide, or their distance is decreasing at a rate
that would close it within five seconds. -/
theorem C81_near (e a : Kin) :
    skipAgent e a = false ↔ (e.x = a.x ∧ e.y = a.y) ∨
      ∃ rate, HasDerivAt (distAfter e a) rate 0 ∧ 0 < distAfter e a 0 ∧ rate < 0 ∧
        distAfter e a 0 ≤ 5 * (-rate) := by
  have hd0 : distAfter e a 0 = Maps.norm2 (a.x - e.x) (a.y - e.y) := by
    simp [distAfter, Maps.norm2]
  by_cases h0 : Maps.norm2 (a.x - e.x) (a.y - e.y) = 0
  · have hz := (Maps.norm2_eq_zero _ _).mp h0
    have : skipAgent e a = false := by
      unfold skipAgent
      simp only [h0, if_true]
    rw [this]
    simp only [true_iff]
    exact Or.inl ⟨by linarith [hz.1], by linarith [hz.2]⟩
  · have hpos : 0 < Maps.norm2 (a.x - e.x) (a.y - e.y) :=
      lt_of_le_of_ne (Maps.norm2_nonneg _ _) (Ne.symm h0)
    have hne : ¬ (e.x = a.x ∧ e.y = a.y) := by
      rintro ⟨hx, hy⟩
      apply h0
      rw [Maps.norm2_eq_zero]
      exact ⟨by rw [hx]; ring, by rw [hy]; ring⟩
    have hder : HasDerivAt (distAfter e a) (closing e a) 0 := by
      have hx : HasDerivAt (fun t : ℝ => (a.x + t * (a.vx * Real.cos a.psi)) -
          (e.x + t * (e.vx * Real.cos e.psi))) (a.vx * Real.cos a.psi - e.vx * Real.cos e.psi) 0 := by
        have h1 := ((hasDerivAt_id (0 : ℝ)).mul_const (a.vx * Real.cos a.psi)).const_add a.x
        have h2 := ((hasDerivAt_id (0 : ℝ)).mul_const (e.vx * Real.cos e.psi)).const_add e.x
        exact (h1.sub h2).congr_deriv (by ring)
      have hy : HasDerivAt (fun t : ℝ => (a.y + t * (a.vx * Real.sin a.psi)) -
          (e.y + t * (e.vx * Real.sin e.psi))) (a.vx * Real.sin a.psi - e.vx * Real.sin e.psi) 0 := by
        have h1 := ((hasDerivAt_id (0 : ℝ)).mul_const (a.vx * Real.sin a.psi)).const_add a.y
        have h2 := ((hasDerivAt_id (0 : ℝ)).mul_const (e.vx * Real.sin e.psi)).const_add e.y
        exact (h1.sub h2).congr_deriv (by ring)
      have hsum := (hx.pow 2).add (hy.pow 2)
      have hsq : (a.x - e.x) ^ 2 + (a.y - e.y) ^ 2 ≠ 0 := by
        intro hh
        apply h0
        unfold Maps.norm2
        rw [hh, Real.sqrt_zero]
      have hs := hsum.sqrt (by simpa using hsq)
      have hfun : distAfter e a = fun t => Real.sqrt
          (((fun t : ℝ => (a.x + t * (a.vx * Real.cos a.psi)) - (e.x + t * (e.vx * Real.cos e.psi))) ^ 2 +
            (fun t : ℝ => (a.y + t * (a.vx * Real.sin a.psi)) - (e.y + t * (e.vx * Real.sin e.psi))) ^ 2) t) := by
        funext t; rfl
      rw [hfun]
      convert hs using 1
      have hn : Maps.norm2 (a.x - e.x) (a.y - e.y) = Real.sqrt ((a.x - e.x) ^ 2 + (a.y - e.y) ^ 2) := rfl
      have hn0 : Real.sqrt ((a.x - e.x) ^ 2 + (a.y - e.y) ^ 2) ≠ 0 := by rw [← hn]; exact h0
      unfold closing
      rw [hn]
      simp only [zero_mul, add_zero, Pi.add_apply, Pi.pow_apply]
      field_simp
      ring
    have hskip : skipAgent e a = false ↔ closing e a < 0 ∧
        Maps.norm2 (a.x - e.x) (a.y - e.y) ≤ 5 * (-closing e a) := by
      unfold skipAgent
      simp only [h0, if_false, decide_eq_false_iff_not, not_or, not_lt]
      constructor
      · rintro ⟨h1, h2, h3⟩
        have hlt : closing e a < 0 := lt_of_le_of_ne h1 h2
        refine ⟨hlt, ?_⟩
        rw [abs_div, abs_of_pos hpos, abs_of_neg hlt, div_le_iff₀ (by linarith)] at h3
        exact h3
      · rintro ⟨h1, h2⟩
        refine ⟨h1.le, h1.ne, ?_⟩
        rw [abs_div, abs_of_pos hpos, abs_of_neg h1, div_le_iff₀ (by linarith)]
        exact h2
    rw [hskip]
    constructor
    · rintro ⟨h1, h2⟩
      exact Or.inr ⟨closing e a, hder, by rw [hd0]; exact hpos, h1, by rw [hd0]; exact h2⟩
    · rintro (h | ⟨rate, hr, -, h2, h3⟩)
      · exact absurd h hne
      · have : rate = closing e a := hr.unique hder
        rw [this] at h2 h3
        rw [hd0] at h3
        exact ⟨h2, h3⟩

-- a player ten meters ahead approached with five meters per second
example : skipAgent ⟨0, 0, 0, 5⟩ ⟨10, 0, 0, 0⟩ = false := by
  have hn : Maps.norm2 10 0 = 10 := by
    unfold Maps.norm2
    rw [show ((10 : ℝ) ^ 2 + 0 ^ 2) = 10 ^ 2 by norm_num, Real.sqrt_sq (by norm_num)]
  unfold skipAgent closing
  simp only [sub_zero, hn, Real.cos_zero, Real.sin_zero]
  norm_num

/-- **C81.** For an ego that drives forward into a collision, the deceleration rate `a` is the constant
deceleration that stops the ego exactly at the point of collision: after the time `v/a` the speed is zero
and the distance covered is the distance to collision. -/
theorem C81_drac (vx t : ℝ) (hv : 0 < vx) (ht : 0 < t) :
    ∃ a : ℝ, drac vx (some (vx * t)) = (a : EReal) ∧ 0 < a ∧ vx - a * (vx / a) = 0 ∧
      vx * (vx / a) - a * (vx / a) ^ 2 / 2 = vx * t := by
  have hd : 0 < vx * t := mul_pos hv ht
  refine ⟨vx ^ 2 / (2 * (vx * t)), ?_, by positivity, ?_, ?_⟩
  · unfold drac
    simp only [if_pos hd]
  · field_simp
    ring
  · field_simp
    ring

/-- **C81, a surprise.** An ego that stands still or drives backwards has an infinite deceleration rate as
soon as a collision is foreseen, also when it is someone else who drives into it; and one for which no
collision is foreseen has the rate zero. -/
theorem C81_false_standing (vx t : ℝ) (hv : vx ≤ 0) (ht : 0 ≤ t) :
    drac vx (some (vx * t)) = ⊤ ∧ drac vx none = 0 := by
  refine ⟨?_, rfl⟩
  unfold drac
  simp only [if_neg (not_lt.mpr (mul_nonpos_of_nonpos_of_nonneg hv ht))]

open Classical in
/-- **C81.** `get_min_ttc_max_drac` as a whole: the extremes over the logged times of the ego within the range, of what
`get_ttc_drac_at_t` finds in the states at that time; a missing ego is a `KeyError`. -/
theorem C81_whole {Wd : World N ℝ} [AddCommGroup Wd.X] [Module ℝ Wd.X] {M G : Type}
    (kin : Wd.X → Kin) (ttc : Wd.X → Wd.X → M → M → Option (ℝ × ℝ × ℝ)) (done : G → Wd.X → Except Err Bool)
    (logs : Dict N (PlayerLog Wd)) (models : Dict N M) (missions : Dict N G) (ego : N) (lo hi : Option ℝ) :
    (Dict.get? logs ego = none →
      getMinTtcMaxDrac kin ttc done logs models missions ego lo hi = .error .key) ∧
    ∀ l, Dict.get? logs ego = some l → l.states.ts.Pairwise (· < ·) →
    ∀ (sts : ℝ → Dict N Wd.X) (res : ℝ → TtcDrac N),
      (∀ t ∈ l.states.ts, InRange lo hi t → statesAt logs t = .ok (sts t) ∧
        ttcDracAt kin ttc done models missions ego (sts t) = .ok (res t)) →
      ∃ v a t? w b u?, getMinTtcMaxDrac kin ttc done logs models missions ego lo hi =
          .ok ((v, a, t?), (w, b, u?)) ∧
        IsMinOf ((l.states.ts.filter (fun t => decide (InRange lo hi t))).map (fun t => (t, (res t).ttc))) v t? ∧
        IsMaxOf ((l.states.ts.filter (fun t => decide (InRange lo hi t))).map (fun t => (t, (res t).drac))) w u? ∧
        (∀ t, t? = some t → a = (res t).ttcAgent) ∧ (t? = none → a = none) ∧
        (∀ t, u? = some t → b = (res t).dracAgent) ∧ (u? = none → b = none) := by
  refine ⟨fun h => ?_, fun l hl hp sts res hat => ?_⟩
  · unfold getMinTtcMaxDrac getKey
    rw [h]; rfl
  · have e : getMinTtcMaxDrac kin ttc done logs models missions ego lo hi = ttcDracTimes (fun t => do
        let st ← statesAt logs t
        ttcDracAt kin ttc done models missions ego st) lo hi l.states.ts ((⊤, none, none), (⊥, none, none)) := by
      unfold getMinTtcMaxDrac getKey
      rw [hl]; rfl
    rw [e]
    refine C81_times _ lo hi l.states.ts hp res (fun t ht hr => ?_)
    obtain ⟨h1, h2⟩ := hat t ht hr
    rw [h1]
    exact h2

end Eval
end Verif
