import Verif.Eval.Safety
import Verif.Eval.EfficiencyProps
import Verif.Sim.LogProps

/-!
# C64, C65, C81, C82: safety metrics
-/

namespace Verif
namespace Eval

open Sim

set_option linter.unusedSectionVars false

/-! ## C82: collisions of the ego -/

/-- **C82.** `has_collision` holds exactly if some report lists the ego among its players. -/
theorem C82_has_collision {N : Type} [DecidableEq N] (ego : N) (reports : List (List N)) :
    hasCollision ego reports = true ↔ ∃ r ∈ reports, ego ∈ r := by
  have key : ∀ (rs : List (List N)) s, ego ∈ rs.foldl (fun s r => s ++ r) s ↔ ego ∈ s ∨ ∃ r ∈ rs, ego ∈ r := by
    intro rs
    induction rs with
    | nil => simp
    | cons a rs ih => intro s; rw [List.foldl_cons, ih]; simp [or_assoc]
  unfold hasCollision
  rw [decide_eq_true_eq, key]
  simp

example : hasCollision "Ego" [["P1", "P2"], ["P1", "Ego"]] = true ∧ hasCollision "Ego" [["P1", "P2"]] = false := by
  decide

/-! ## C64: the search for the time to collision -/

section
variable {K : Type} [Field K] [LinearOrder K] [IsStrictOrderedRing K] {P : Type}

/-- What the search should return: the first of the 32 times 0, 0.1, ..., 3.1 at which the moved shape
meets the other one, and infinity if there is none. -/
def IsTtc (meets : P → Bool) (shift : P → P) (q : P) (r : Option K) : Prop :=
  (∃ k : Nat, k ≤ 31 ∧ meets (shift^[k] q) = true ∧ (∀ j < k, meets (shift^[j] q) = false) ∧
    r = some ((k : K) / 10)) ∨
  ((∀ k ≤ 31, meets (shift^[k] q) = false) ∧ r = none)

theorem ttcLoop_spec (meets : P → Bool) (shift : P → P) (q : P) : ∀ (m : Nat) (i fuel : Nat),
    i + m = 31 → m < fuel → (∀ j < i, meets (shift^[j] q) = false) →
    ∃ r : Option K, ttcLoop meets shift fuel (shift^[i] q) ((i : K) / 10) = some r ∧
      IsTtc meets shift q r := by
  intro m
  induction m with
  | zero =>
    intro i fuel hi hf hj
    obtain ⟨fuel, rfl⟩ : ∃ f, fuel = f + 1 := ⟨fuel - 1, by omega⟩
    have hi : i = 31 := by omega
    simp only [ttcLoop]
    cases hm : meets (shift^[i] q) with
    | true => exact ⟨_, by simp, Or.inl ⟨i, by omega, hm, hj, rfl⟩⟩
    | false =>
      simp only [Bool.false_eq_true, if_false]
      rw [if_pos (by rw [hi]; norm_num)]
      refine ⟨none, rfl, Or.inr ⟨?_, rfl⟩⟩
      intro k hk
      rcases Nat.lt_or_ge k i with h | h
      · exact hj k h
      · rw [show k = i by omega]; exact hm
  | succ m ih =>
    intro i fuel hi hf hj
    obtain ⟨fuel, rfl⟩ : ∃ f, fuel = f + 1 := ⟨fuel - 1, by omega⟩
    simp only [ttcLoop]
    cases hm : meets (shift^[i] q) with
    | true => exact ⟨_, by simp, Or.inl ⟨i, by omega, hm, hj, rfl⟩⟩
    | false =>
      simp only [Bool.false_eq_true, if_false]
      have hle : ¬ (3 : K) < (i : K) / 10 := by
        have : (i : K) ≤ 30 := by exact_mod_cast (by omega : i ≤ 30)
        rw [not_lt]
        linarith
      rw [if_neg hle]
      have := ih (i + 1) fuel (by omega) (by omega) (by
        intro j hj'
        rcases Nat.lt_or_ge j i with h | h
        · exact hj j h
        · rw [show j = i by omega]; exact hm)
      rw [Function.iterate_succ_apply'] at this
      rw [show (i : K) / 10 + 1 / 10 = ((i + 1 : Nat) : K) / 10 by push_cast; ring]
      exact this

/-- **C64.** The search always ends after at most 32 checks, and returns the first of the times 0, 0.1,
..., 3.1 at which the shapes meet, or infinity if there is none. -/
theorem C64_search (meets : P → Bool) (shift : P → P) (q : P) (fuel : Nat) (hf : 32 ≤ fuel) :
    ∃ r : Option K, ttcLoop meets shift fuel q 0 = some r ∧ IsTtc meets shift q r := by
  have := ttcLoop_spec (K := K) meets shift q 31 0 fuel rfl (by omega) (by simp)
  simpa using this

/-- **C64.** All 32 checks may be needed. -/
theorem C64_tight (meets : P → Bool) (shift : P → P) (q : P)
    (h : ∀ k < 31, meets (shift^[k] q) = false) : ttcLoop (K := K) meets shift 31 q 0 = none := by
  have key : ∀ (m i : Nat), i + m = 31 → ttcLoop (K := K) meets shift m (shift^[i] q) ((i : K) / 10) = none := by
    intro m
    induction m with
    | zero => intros; rfl
    | succ m ih =>
      intro i hi
      simp only [ttcLoop, h i (by omega), Bool.false_eq_true, if_false]
      have hle : ¬ (3 : K) < (i : K) / 10 := by
        have : (i : K) ≤ 30 := by exact_mod_cast (by omega : i ≤ 30)
        rw [not_lt]
        linarith
      rw [if_neg hle]
      have := ih (i + 1) (by omega)
      rw [Function.iterate_succ_apply'] at this
      rw [show (i : K) / 10 + 1 / 10 = ((i + 1 : Nat) : K) / 10 by push_cast; ring]
      exact this
  simpa using key 31 0 rfl

-- intervals on a line that meet after five steps, and never
example : ttcLoop (K := ℚ) (fun q : ℚ => decide (q ≤ 2)) (fun q => q - 1 / 2) 32 (9 / 2) 0 = some (some (1 / 2)) ∧
    ttcLoop (K := ℚ) (fun q : ℚ => decide (q ≤ 2)) (fun q => q) 32 (9 / 2) 0 = some none := by decide +kernel

end

/-- **C64.** Shapes that can be translated, with intersection independent of a common translation: the
result is the first of the times 0, 0.1, ..., 3.1 at which the two shapes, each moved straight ahead with
its velocity, intersect, with the distances covered until then; it is infinite if there is none. -/
theorem C64_motion {P : Type} (intersects : P → P → Bool) (translate : ℝ → ℝ → P → P)
    (t0 : ∀ p, translate 0 0 p = p)
    (tadd : ∀ a b c d p, translate a b (translate c d p) = translate (a + c) (b + d) p)
    (tinv : ∀ a b p q, intersects (translate a b p) (translate a b q) = intersects p q)
    (p1 p2 : P) (s1 s2 : Kin) (fuel : Nat) (hf : 32 ≤ fuel) :
    let meetAt := fun t : ℝ => intersects
      (translate (t * (s1.vx * Real.cos s1.psi)) (t * (s1.vx * Real.sin s1.psi)) p1)
      (translate (t * (s2.vx * Real.cos s2.psi)) (t * (s2.vx * Real.sin s2.psi)) p2)
    (∃ k : Nat, k ≤ 31 ∧ meetAt ((k : ℝ) / 10) = true ∧ (∀ j : Nat, j < k → meetAt ((j : ℝ) / 10) = false) ∧
      getTtc intersects translate p1 p2 s1 s2 fuel =
        some (some ((k : ℝ) / 10, s1.vx * ((k : ℝ) / 10), s2.vx * ((k : ℝ) / 10)))) ∨
    ((∀ k : Nat, k ≤ 31 → meetAt ((k : ℝ) / 10) = false) ∧
      getTtc intersects translate p1 p2 s1 s2 fuel = some none) := by
  intro meetAt
  set dx := (s2.vx * Real.cos s2.psi - s1.vx * Real.cos s1.psi) * (1 / 10) with hdx
  set dy := (s2.vx * Real.sin s2.psi - s1.vx * Real.sin s1.psi) * (1 / 10) with hdy
  have hiter : ∀ k : Nat, (translate dx dy)^[k] p2 = translate (k * dx) (k * dy) p2 := by
    intro k
    induction k with
    | zero => simp [t0]
    | succ k ih =>
      rw [Function.iterate_succ_apply', ih, tadd]
      push_cast
      congr 1 <;> ring
  have hmeet : ∀ k : Nat, intersects p1 ((translate dx dy)^[k] p2) = meetAt ((k : ℝ) / 10) := by
    intro k
    rw [hiter]
    simp only [meetAt]
    rw [← tinv ((k : ℝ) / 10 * (s1.vx * Real.cos s1.psi)) ((k : ℝ) / 10 * (s1.vx * Real.sin s1.psi)) p1
      (translate (k * dx) (k * dy) p2), tadd]
    congr 2 <;> simp only [hdx, hdy] <;> ring
  obtain ⟨r, hr, hspec⟩ := C64_search (K := ℝ) (intersects p1) (translate dx dy) p2 fuel hf
  unfold getTtc
  simp only [← hdx, ← hdy, hr]
  rcases hspec with ⟨k, hk, hm, hj, rfl⟩ | ⟨hall, rfl⟩
  · left
    refine ⟨k, hk, by rw [← hmeet]; exact hm, fun j hj' => by rw [← hmeet]; exact hj j hj', ?_⟩
    simp
  · right
    exact ⟨fun k hk => by rw [← hmeet]; exact hall k hk, rfl⟩

-- points of the plane
example : ∃ (intersects : ℝ × ℝ → ℝ × ℝ → Bool) (translate : ℝ → ℝ → ℝ × ℝ → ℝ × ℝ),
    (∀ p, translate 0 0 p = p) ∧
    (∀ a b c d p, translate a b (translate c d p) = translate (a + c) (b + d) p) ∧
    (∀ a b p q, intersects (translate a b p) (translate a b q) = intersects p q) ∧
    intersects (0, 0) (0, 0) = true ∧ intersects (0, 0) (1, 0) = false := by
  classical
  refine ⟨fun p q => decide (p = q), fun a b p => (a + p.1, b + p.2), ?_, ?_, ?_, ?_, ?_⟩
  · intro p; simp
  · intro a b c d p; simp [add_assoc]
  · intro a b p q; simp [Prod.ext_iff]
  · simp
  · simp

/-! ## C65: minimal distances -/

section
variable {N K : Type} [DecidableEq N] [Field K] [LinearOrder K] [IsStrictOrderedRing K]

/-- The candidates are listed with their values; the result is the first one with the least value. -/
def IsFirstMin (cands : List (N × K)) (r : Option K × Option N) : Prop :=
  (cands = [] ∧ r = (none, none)) ∨
  ∃ pre n d post, cands = pre ++ (n, d) :: post ∧ r = (some d, some n) ∧ (∀ x ∈ pre, d < x.2) ∧
    (∀ x ∈ post, d ≤ x.2)

theorem isFirstMin_snoc (cands : List (N × K)) (r : Option K × Option N) (h : IsFirstMin cands r) (n : N)
    (d : K) : IsFirstMin (cands ++ [(n, d)]) (if infLt (some d) r.1 then (some d, some n) else r) := by
  rcases h with ⟨rfl, rfl⟩ | ⟨pre, n', d', post, rfl, rfl, h1, h2⟩
  · exact Or.inr ⟨[], n, d, [], by simp, by simp [infLt], by simp, by simp⟩
  · simp only [infLt, decide_eq_true_eq]
    split
    · rename_i hlt
      refine Or.inr ⟨pre ++ (n', d') :: post, n, d, [], by simp, rfl, ?_, by simp⟩
      intro x hx
      rcases List.mem_append.mp hx with hx | hx
      · exact hlt.trans (h1 x hx)
      · rcases List.mem_cons.mp hx with rfl | hx
        · exact hlt
        · exact lt_of_lt_of_le hlt (h2 x hx)
    · rename_i hge
      refine Or.inr ⟨pre, n', d', post ++ [(n, d)], by simp, rfl, h1, ?_⟩
      intro x hx
      rcases List.mem_append.mp hx with hx | hx
      · exact h2 x hx
      · simp at hx; subst hx; exact not_lt.mp hge

/-- The players that have not accomplished their goal. -/
def active {X G : Type} (D : G → X → Bool) (go : N → G) (states : Dict N X) : Dict N X :=
  states.filter (fun e => !D (go e.1) e.2)

theorem removeFinished_eq {X G : Type} (D : G → X → Bool) (missions : Dict N G) (go : N → G)
    (states : Dict N X) (h : ∀ e ∈ states, Dict.get? missions e.1 = some (go e.1)) :
    removeFinished (fun g x => .ok (D g x)) missions states = .ok (active D go states) := by
  induction states with
  | nil => rfl
  | cons e rest ih =>
    obtain ⟨n, x⟩ := e
    have h1 := h (n, x) (by simp)
    simp only [removeFinished, getKey, h1, bind, Except.bind, pure, Except.pure,
      ih (fun e he => h e (List.mem_cons_of_mem _ he))]
    simp only [active, List.filter_cons]
    cases D (go n) x <;> simp

/-- The other active players with their distances from the ego. -/
def distances {X M : Type} (dist : X → X → M → M → K) (mo : N → M) (ego : N) (xe : X) (act : Dict N X) :
    List (N × K) :=
  (act.filter (fun e => decide (e.1 ≠ ego))).map (fun e => (e.1, dist xe e.2 (mo ego) (mo e.1)))

theorem distLoop_spec {X M : Type} (dist : X → X → M → M → K) (models : Dict N M) (mo : N → M) (ego : N)
    (xe : X) (act : Dict N X) (h : ∀ e ∈ act, Dict.get? models e.1 = some (mo e.1)) :
    ∀ (cands : List (N × K)) r, IsFirstMin cands r →
      ∃ r', distLoop dist models ego xe (mo ego) act r = .ok r' ∧
        IsFirstMin (cands ++ distances dist mo ego xe act) r' := by
  induction act with
  | nil => intro cands r hr; exact ⟨r, rfl, by simpa [distances] using hr⟩
  | cons e act ih =>
    obtain ⟨n, x⟩ := e
    intro cands r hr
    have ih' := ih (fun e he => h e (List.mem_cons_of_mem _ he))
    simp only [distLoop]
    by_cases hn : n = ego
    · rw [if_pos hn]
      obtain ⟨r', h1, h2⟩ := ih' cands r hr
      refine ⟨r', h1, ?_⟩
      simpa [distances, hn] using h2
    · rw [if_neg hn]
      have hm := h (n, x) (by simp)
      simp only [getKey, hm]
      obtain ⟨r', h1, h2⟩ := ih' (cands ++ [(n, dist xe x (mo ego) (mo n))]) _
        (isFirstMin_snoc cands r hr n (dist xe x (mo ego) (mo n)))
      refine ⟨r', h1, ?_⟩
      simpa [distances, hn] using h2

/-- **C65.** At one time: if the ego is not active, infinity and no player; else the smallest distance from
another active player with the first player attaining it, and infinity with no player if there is none. -/
theorem C65_at_t {X M G : Type} (dist : X → X → M → M → K) (D : G → X → Bool) (models : Dict N M)
    (missions : Dict N G) (mo : N → M) (go : N → G) (ego : N) (states : Dict N X)
    (hm : ∀ e ∈ states, Dict.get? models e.1 = some (mo e.1))
    (hg : ∀ e ∈ states, Dict.get? missions e.1 = some (go e.1)) (hw : Dict.Wf states) :
    ∃ r, minDistAt dist (fun g x => .ok (D g x)) models missions ego states = .ok r ∧
      ((∀ x, (ego, x) ∈ states → D (go ego) x = true) → r = (none, none)) ∧
      (∀ x, (ego, x) ∈ states → D (go ego) x = false →
        IsFirstMin (distances dist mo ego x (active D go states)) r) := by
  have hact : ∀ e ∈ active D go states, e ∈ states := fun e he => (List.mem_filter.mp he).1
  have hwa : Dict.Wf (active D go states) := by
    unfold Dict.Wf Dict.keys active
    exact List.Nodup.sublist ((List.filter_sublist).map _) hw
  unfold minDistAt
  rw [removeFinished_eq D missions go states hg]
  simp only [bind, Except.bind]
  cases hget : Dict.get? (active D go states) ego with
  | none =>
    refine ⟨(none, none), rfl, fun _ => rfl, ?_⟩
    intro x hx hD
    have hmem : (ego, x) ∈ active D go states := List.mem_filter.mpr ⟨hx, by simp [hD]⟩
    rw [Dict.get?_of_mem hwa hmem] at hget
    cases hget
  | some xe =>
    have hmem := Dict.get?_eq_some_mem hget
    have hst := hact _ hmem
    have hme := hm _ hst
    simp only [getKey, hme]
    obtain ⟨r, h1, h2⟩ := distLoop_spec dist models mo ego xe (active D go states)
      (fun e he => hm e (hact e he)) [] (none, none) (Or.inl ⟨rfl, rfl⟩)
    refine ⟨r, h1, ?_, ?_⟩
    · intro hall
      have hD : D (go ego) xe = false := by
        have := (List.mem_filter.mp hmem).2
        simpa using this
      rw [hall xe hst] at hD
      cases hD
    · intro x hx hD
      have hmem' : (ego, x) ∈ active D go states := List.mem_filter.mpr ⟨hx, by simp [hD]⟩
      have hget' := Dict.get?_of_mem hwa hmem'
      rw [hget] at hget'
      injection hget' with hget'
      subst hget'
      simpa using h2

/-- The time lies in the range. -/
def InRange (lo hi : Option K) (t : K) : Prop := (∀ a, lo = some a → a ≤ t) ∧ (∀ b, hi = some b → t ≤ b)

theorem minLoop_spec (at_t : K → Except Err (Option K × Option N)) (lo hi : Option K) (ts : List K)
    (hp : ts.Pairwise (· < ·)) (res : K → Option K × Option N)
    (hat : ∀ t ∈ ts, InRange lo hi t → at_t t = .ok (res t)) :
    ∀ (acc : Option K × Option N × Option K),
    ∃ r, minLoop at_t lo hi ts acc = .ok r ∧
      ((r = acc ∧ ∀ t ∈ ts, InRange lo hi t → infLt (res t).1 acc.1 = false) ∨
       ∃ t ∈ ts, InRange lo hi t ∧ r = ((res t).1, (res t).2, some t) ∧ infLt (res t).1 acc.1 = true ∧
        (∀ t' ∈ ts, InRange lo hi t' → infLt (res t').1 (res t).1 = false) ∧
        (∀ t' ∈ ts, InRange lo hi t' → t' < t → infLt (res t).1 (res t').1 = true)) := by
  have trans : ∀ a b c : Option K, infLt a b = true → infLt b c = false ∨ infLt b c = true := by
    intro a b c _; cases infLt b c <;> simp
  have tr1 : ∀ a b c : Option K, infLt a b = true → infLt c b = false → infLt a c = true := by
    intro a b c h1 h2
    cases a <;> cases b <;> cases c <;> simp [infLt] at *
    exact lt_of_lt_of_le h1 h2
  have tr2 : ∀ a b c : Option K, infLt a b = true → infLt b c = true → infLt a c = true := by
    intro a b c h1 h2
    cases a <;> cases b <;> cases c <;> simp [infLt] at *
    exact lt_trans h1 h2
  have asym : ∀ a b : Option K, infLt a b = true → infLt b a = false := by
    intro a b h
    cases a <;> cases b <;> simp [infLt] at *
    exact le_of_lt h
  have irr : ∀ a : Option K, infLt a a = false := by intro a; cases a <;> simp [infLt]
  induction ts with
  | nil => intro acc; exact ⟨acc, rfl, Or.inl ⟨rfl, by simp⟩⟩
  | cons t ts ih =>
    obtain ⟨hp1, hp2⟩ := List.pairwise_cons.mp hp
    have ih' := ih hp2 (fun u hu => hat u (List.mem_cons_of_mem _ hu))
    intro acc
    simp only [minLoop]
    split
    · rename_i he
      have hnot : ¬ InRange lo hi t := fun h => (tooEarly_iff lo t).mp he h.1
      obtain ⟨r, h1, h2⟩ := ih' acc
      refine ⟨r, h1, ?_⟩
      rcases h2 with ⟨e, h2⟩ | ⟨u, hu, hr, e, h3, h4, h5⟩
      · refine Or.inl ⟨e, ?_⟩
        intro u hu hr
        rcases List.mem_cons.mp hu with rfl | hu
        · exact absurd hr hnot
        · exact h2 u hu hr
      · refine Or.inr ⟨u, List.mem_cons_of_mem _ hu, hr, e, h3, ?_, ?_⟩
        · intro w hw hwr
          rcases List.mem_cons.mp hw with rfl | hw
          · exact absurd hwr hnot
          · exact h4 w hw hwr
        · intro w hw hwr hlt
          rcases List.mem_cons.mp hw with rfl | hw
          · exact absurd hwr hnot
          · exact h5 w hw hwr hlt
    · rename_i he
      split
      · rename_i hl
        refine ⟨acc, rfl, Or.inl ⟨rfl, ?_⟩⟩
        intro u hu hr
        exfalso
        apply (tooLate_iff hi t).mp hl
        intro b hb
        rcases List.mem_cons.mp hu with rfl | hu
        · exact hr.2 b hb
        · exact (hp1 u hu).le.trans (hr.2 b hb)
      · rename_i hl
        have hrt : InRange lo hi t := ⟨not_not.mp (fun h => he ((tooEarly_iff lo t).mpr h)),
          not_not.mp (fun h => hl ((tooLate_iff hi t).mpr h))⟩
        rw [hat t (by simp) hrt]
        simp only
        by_cases hc : infLt (res t).1 acc.1 = true
        · rw [if_pos hc]
          obtain ⟨r, h1, h2⟩ := ih' ((res t).1, (res t).2, some t)
          refine ⟨r, h1, Or.inr ?_⟩
          rcases h2 with ⟨e, h2⟩ | ⟨u, hu, hr, e, h3, h4, h5⟩
          · refine ⟨t, by simp, hrt, e, hc, ?_, ?_⟩
            · intro w hw hwr
              rcases List.mem_cons.mp hw with rfl | hw
              · exact irr _
              · exact h2 w hw hwr
            · intro w hw hwr hlt
              rcases List.mem_cons.mp hw with rfl | hw
              · exact absurd hlt (lt_irrefl _)
              · exact absurd hlt (not_lt.mpr (hp1 w hw).le)
          · refine ⟨u, List.mem_cons_of_mem _ hu, hr, e, tr2 _ _ _ h3 hc, ?_, ?_⟩
            · intro w hw hwr
              rcases List.mem_cons.mp hw with rfl | hw
              · exact asym _ _ h3
              · exact h4 w hw hwr
            · intro w hw hwr hlt
              rcases List.mem_cons.mp hw with rfl | hw
              · exact h3
              · exact h5 w hw hwr hlt
        · rw [if_neg hc]
          have hc' : infLt (res t).1 acc.1 = false := by simpa using hc
          obtain ⟨r, h1, h2⟩ := ih' acc
          refine ⟨r, h1, ?_⟩
          rcases h2 with ⟨e, h2⟩ | ⟨u, hu, hr, e, h3, h4, h5⟩
          · refine Or.inl ⟨e, ?_⟩
            intro w hw hwr
            rcases List.mem_cons.mp hw with rfl | hw
            · exact hc'
            · exact h2 w hw hwr
          · refine Or.inr ⟨u, List.mem_cons_of_mem _ hu, hr, e, h3, ?_, ?_⟩
            · intro w hw hwr
              rcases List.mem_cons.mp hw with rfl | hw
              · exact asym _ _ (tr1 _ _ _ h3 hc')
              · exact h4 w hw hwr
            · intro w hw hwr hlt
              rcases List.mem_cons.mp hw with rfl | hw
              · exact tr1 _ _ _ h3 hc'
              · exact h5 w hw hwr hlt

variable {Wd : World N K} [AddCommGroup Wd.X] [Module K Wd.X]

/-- `d` is the distance between the active ego and the other active player `n` at the logged time `t` of
the ego within the range. -/
def IsDist {M G : Type} (dist : Wd.X → Wd.X → M → M → K) (D : G → Wd.X → Bool) (mo : N → M) (go : N → G)
    (egoTimes : List K) (snap : K → Dict N Wd.X) (ego : N) (lo hi : Option K) (t : K) (n : N) (d : K) : Prop :=
  t ∈ egoTimes ∧ InRange lo hi t ∧ ∃ xe x, (ego, xe) ∈ snap t ∧ (n, x) ∈ snap t ∧ n ≠ ego ∧
    D (go ego) xe = false ∧ D (go n) x = false ∧ d = dist xe x (mo ego) (mo n)

/-- **C65.** If the log can be read at the ego's logged times in the range (see C29) and there are models and
missions for all players, the result is the smallest distance between the active ego and another active
player over these times, with such a player, at the first time at which it is attained; if there is none
it is infinity without a player and time. -/
theorem C65_min_dist {M G : Type} (dist : Wd.X → Wd.X → M → M → K) (D : G → Wd.X → Bool)
    (logs : Dict N (PlayerLog Wd)) (models : Dict N M) (missions : Dict N G) (mo : N → M) (go : N → G)
    (ego : N) (lo hi : Option K) (l : PlayerLog Wd) (hl : Dict.get? logs ego = some l)
    (hv : l.states.Valid) (snap : K → Dict N Wd.X)
    (hsnap : ∀ t ∈ l.states.ts, InRange lo hi t → statesAt logs t = .ok (snap t))
    (hwf : ∀ t, Dict.Wf (snap t))
    (hm : ∀ t, ∀ e ∈ snap t, Dict.get? models e.1 = some (mo e.1))
    (hg : ∀ t, ∀ e ∈ snap t, Dict.get? missions e.1 = some (go e.1)) :
    let S := IsDist (Wd := Wd) dist D mo go l.states.ts snap ego lo hi
    ∃ r, getMinDist dist (fun g x => .ok (D g x)) logs models missions ego lo hi = .ok r ∧
      ((r = (none, none, none) ∧ ∀ t n d, ¬ S t n d) ∨
       ∃ t n d, r = (some d, some n, some t) ∧ S t n d ∧ ∀ t' n' d', S t' n' d' →
        d ≤ d' ∧ (t' < t → d < d')) := by
  intro S
  -- the result at one time
  have hat : ∀ t, ∃ r, minDistAt dist (fun g x => .ok (D g x)) models missions ego (snap t) = .ok r ∧
      (t ∈ l.states.ts → InRange lo hi t →
        ((r = (none, none) ∧ ∀ n d, ¬ S t n d) ∨
        ∃ n d, r = (some d, some n) ∧ S t n d ∧ ∀ n' d', S t n' d' → d ≤ d')) := by
    intro t
    obtain ⟨r, h1, h2, h3⟩ := C65_at_t dist D models missions mo go ego (snap t) (hm t) (hg t) (hwf t)
    refine ⟨r, h1, ?_⟩
    intro htm hr
    by_cases hex : ∃ xe, (ego, xe) ∈ snap t ∧ D (go ego) xe = false
    · obtain ⟨xe, hxe, hD⟩ := hex
      have hmemd : ∀ n d, S t n d ↔ (n, d) ∈ distances dist mo ego xe (active D go (snap t)) := by
        intro n d
        constructor
        · rintro ⟨_, _, xe', x, e1, e2, e3, e4, e5, rfl⟩
          have hxx : xe' = xe := by
            have a := Dict.get?_of_mem (hwf t) e1
            have b := Dict.get?_of_mem (hwf t) hxe
            rw [a] at b; injection b
          subst hxx
          refine List.mem_map.mpr ⟨(n, x), List.mem_filter.mpr ⟨List.mem_filter.mpr ⟨e2, by simp [e5]⟩,
            by simpa using e3⟩, rfl⟩
        · intro hmem
          obtain ⟨⟨n', x⟩, hx, heq⟩ := List.mem_map.mp hmem
          obtain ⟨hx1, hx2⟩ := List.mem_filter.mp hx
          obtain ⟨hx3, hx4⟩ := List.mem_filter.mp hx1
          injection heq with q1 q2
          simp only at q1 q2
          subst q1
          exact ⟨htm, hr, xe, x, hxe, hx3, by simpa using hx2, hD, by simpa using hx4, q2.symm⟩
      rcases h3 xe hxe hD with ⟨hnil, rfl⟩ | ⟨pre, n, d, post, hc, rfl, g1, g2⟩
      · left
        refine ⟨rfl, ?_⟩
        intro n d hS
        rw [hmemd, hnil] at hS
        simp at hS
      · right
        refine ⟨n, d, rfl, (hmemd n d).mpr (by rw [hc]; simp), ?_⟩
        intro n' d' hS
        rw [hmemd, hc] at hS
        rcases List.mem_append.mp hS with hS | hS
        · exact (g1 _ hS).le
        · rcases List.mem_cons.mp hS with hS | hS
          · injection hS with _ q; exact q.ge
          · exact g2 _ hS
    · left
      push Not at hex
      refine ⟨h2 (fun x hx => by simpa using hex x hx), ?_⟩
      rintro n d ⟨_, _, xe', x, e1, e2, e3, e4, e5, rfl⟩
      exact hex xe' e1 e4
  choose res hres hspec using hat
  obtain ⟨r, h1, h2⟩ := minLoop_spec (fun t => do
      let st ← statesAt logs t
      minDistAt dist (fun g x => .ok (D g x)) models missions ego st) lo hi l.states.ts hv.2 res
    (by
      intro t ht hr
      simp only [hsnap t ht hr, bind, Except.bind]
      exact hres t) (none, none, none)
  refine ⟨r, ?_, ?_⟩
  · unfold getMinDist
    simp only [getKey, hl, bind, Except.bind]
    exact h1
  · rcases h2 with ⟨rfl, h2⟩ | ⟨t, ht, hr, rfl, h3, h4, h5⟩
    · left
      refine ⟨rfl, ?_⟩
      intro t n d hS
      have hle := h2 t hS.1 hS.2.1
      rcases hspec t hS.1 hS.2.1 with ⟨_, hno⟩ | ⟨n', d', e, _, _⟩
      · exact hno n d hS
      · rw [e] at hle; simp [infLt] at hle
    · right
      rcases hspec t ht hr with ⟨e, _⟩ | ⟨n, d, e, hS, hmin⟩
      · rw [e] at h3; simp [infLt] at h3
      · refine ⟨t, n, d, by rw [e], hS, ?_⟩
        intro t' n' d' hS'
        have a1 := h4 t' hS'.1 hS'.2.1
        rcases hspec t' hS'.1 hS'.2.1 with ⟨_, hno⟩ | ⟨n2, d2, e2, hS2, hmin2⟩
        · exact absurd hS' (hno n' d')
        · rw [e2, e] at a1
          simp only [infLt, decide_eq_false_iff_not, not_lt] at a1
          have a2 := hmin2 n' d' hS'
          refine ⟨a1.trans a2, ?_⟩
          intro hlt
          have a3 := h5 t' hS'.1 hS'.2.1 hlt
          rw [e2, e] at a3
          simp only [infLt, decide_eq_true_eq] at a3
          exact lt_of_lt_of_le a3 a2

end

/-- The log of a second car of the example. -/
def Toy.log1 : PlayerLog Toy.wd :=
  ⟨⟨[0, 1], [(5 : ℚ), 3]⟩, ⟨[0], [(1 : ℚ)]⟩, ⟨[], []⟩, ⟨[0], [(0 : Nat)]⟩⟩

/-- The states at the logged times of car 0. -/
def Toy.snap (t : ℚ) : Dict Nat Toy.wd.X :=
  if t = 1 / 2 then [(0, (1 : ℚ)), (1, (4 : ℚ))]
  else if t = 1 then [(0, (2 : ℚ)), (1, (3 : ℚ))] else [(0, (0 : ℚ)), (1, (5 : ℚ))]

-- the hypotheses of `C65_min_dist` for two cars on a line, between 0.2 s and 0.9 s
example : ∃ r, getMinDist (Wd := Toy.wd) (M := Unit) (G := Unit) (fun (x y : ℚ) _ _ => |x - y|)
    (fun _ (x : ℚ) => .ok (decide (100 ≤ x))) [(0, Toy.log0), (1, Toy.log1)] [(0, ()), (1, ())]
    [(0, ()), (1, ())] 0 (some (1 / 5)) (some (9 / 10)) = .ok r ∧ r.1 = some 3 := by
  have hk : ∀ t, ∀ e ∈ Toy.snap t, e.1 = 0 ∨ e.1 = 1 := by
    intro t e he
    unfold Toy.snap at he
    split at he
    · simp at he; rcases he with rfl | rfl <;> simp
    · split at he <;> (simp at he; rcases he with rfl | rfl <;> simp)
  have hget : ∀ n : Nat, n = 0 ∨ n = 1 → Dict.get? [(0, ()), (1, ())] n = some () := by
    rintro n (rfl | rfl) <;> rfl
  have hsn : ∀ t ∈ Toy.log0.states.ts, statesAt (Wd := Toy.wd) [(0, Toy.log0), (1, Toy.log1)] t =
      .ok (Toy.snap t) := by
    have h3 : ∀ t : ℚ, t = 0 ∨ t = 1 / 2 ∨ t = 1 → @Eq (Except Err (List (Nat × ℚ)))
        (statesAt (Wd := Toy.wd) [(0, Toy.log0), (1, Toy.log1)] t) (.ok (Toy.snap t)) := by
      rintro t (rfl | rfl | rfl) <;> decide +kernel
    intro t ht
    simp only [Toy.log0, List.mem_cons, List.not_mem_nil, or_false] at ht
    exact h3 t ht
  obtain ⟨r, h1, h2⟩ := C65_min_dist (Wd := Toy.wd) (M := Unit) (G := Unit) (fun (x y : ℚ) _ _ => |x - y|)
    (fun _ (x : ℚ) => decide (100 ≤ x)) [(0, Toy.log0), (1, Toy.log1)] [(0, ()), (1, ())]
    [(0, ()), (1, ())] (fun _ => ()) (fun _ => ()) 0 (some (1 / 5)) (some (9 / 10)) Toy.log0 rfl
    Toy.log0_valid.1 Toy.snap (fun t ht _ => hsn t ht)
    (by
      intro t
      unfold Toy.snap
      split
      · simp [Dict.Wf, Dict.keys]
      · split <;> simp [Dict.Wf, Dict.keys])
    (fun t e he => hget _ (hk t e he)) (fun t e he => hget _ (hk t e he))
  refine ⟨r, h1, ?_⟩
  have hS : IsDist (Wd := Toy.wd) (M := Unit) (G := Unit) (fun (x y : ℚ) _ _ => |x - y|)
      (fun _ (x : ℚ) => decide (100 ≤ x)) (fun _ => ()) (fun _ => ()) Toy.log0.states.ts Toy.snap 0
      (some (1 / 5)) (some (9 / 10)) (1 / 2) 1 3 := by
    refine ⟨by simp [Toy.log0], ⟨?_, ?_⟩, (1 : ℚ), (4 : ℚ), ?_, ?_, by decide, ?_, ?_, ?_⟩
    · rintro _ ⟨⟩; norm_num
    · rintro _ ⟨⟩; norm_num
    · simp [Toy.snap]
    · simp [Toy.snap]
    all_goals decide +kernel
  rcases h2 with ⟨_, hno⟩ | ⟨t, n, d, rfl, hSt, hmin⟩
  · exact absurd hS (hno _ _ _)
  · have := (hmin _ _ _ hS).1
    obtain ⟨ht, hr, xe, x, e1, e2, e3, -, -, rfl⟩ := hSt
    have h12 : t = 1 / 2 := by
      simp only [Toy.log0, List.mem_cons, List.not_mem_nil, or_false] at ht
      have l := hr.1 _ rfl
      have u := hr.2 _ rfl
      rcases ht with rfl | rfl | rfl
      · norm_num at l
      · rfl
      · norm_num at u
    subst h12
    simp [Toy.snap] at e1 e2
    rcases e2 with ⟨rfl, rfl⟩ | ⟨rfl, rfl⟩
    · exact absurd rfl e3
    · subst e1; norm_num

-- two cars on a line with positions as states
example : minDistAt (N := String) (K := ℚ) (X := ℚ) (M := Unit) (G := Unit) (fun x y _ _ => |x - y|)
    (fun _ x => .ok (decide (100 ≤ x))) [("a", ()), ("b", ()), ("c", ())] [("a", ()), ("b", ()), ("c", ())] "a"
    [("a", 1), ("b", 5), ("c", 100)] = .ok (some 4, some "b") := by decide +kernel

/-- **C65, C81.** The states read at a time are those of all players of the log, in its order: each is what
the player's own sequence of states gives at this time. -/
theorem C65_snapshot {N K : Type} [DecidableEq N] [Field K] [LinearOrder K] {Wd : World N K}
    [AddCommGroup Wd.X] [Module K Wd.X] (logs : Dict N (PlayerLog Wd)) (t : K) (st : Dict N Wd.X)
    (h : statesAt logs t = .ok st) :
    List.Forall₂ (fun e s => s.1 = e.1 ∧ e.2.states.atInterp t = .ok s.2) logs st := by
  induction logs generalizing st with
  | nil => cases h; exact .nil
  | cons e logs ih =>
    obtain ⟨n, l⟩ := e
    cases hx : extraAt l.extra t with
    | error _ => simp [statesAt, SimLog.atInterp, PlayerLog.atInterp, hx, bind, Except.bind] at h
    | ok x =>
    cases hs : l.states.atInterp t with
    | error _ => simp [statesAt, SimLog.atInterp, PlayerLog.atInterp, hx, hs, bind, Except.bind] at h
    | ok s =>
    cases hc : l.commands.atOrPrevious t with
    | error _ => simp [statesAt, SimLog.atInterp, PlayerLog.atInterp, hx, hs, hc, bind, Except.bind] at h
    | ok c =>
    cases hi : l.info.atOrPrevious t with
    | error _ => simp [statesAt, SimLog.atInterp, PlayerLog.atInterp, hx, hs, hc, hi, bind, Except.bind] at h
    | ok i =>
    cases hr : SimLog.atInterp logs t with
    | error _ =>
      simp [statesAt, SimLog.atInterp, PlayerLog.atInterp, hx, hs, hc, hi, hr, bind, Except.bind, pure, Except.pure] at h
    | ok r =>
      simp only [statesAt, SimLog.atInterp, PlayerLog.atInterp, hx, hs, hc, hi, hr, bind, Except.bind, pure,
        Except.pure, Except.ok.injEq, List.map_cons] at h
      subst h
      exact .cons ⟨rfl, hs⟩ (ih _ (by simp [statesAt, hr, bind, Except.bind, pure, Except.pure]))

-- both cars of the example above at half a second
example : ∃ st, statesAt (Wd := Toy.wd) [(0, Toy.log0), (1, Toy.log1)] (1 / 2) = .ok st ∧ st.map (·.1) = [0, 1] := by
  refine ⟨Toy.snap (1 / 2), ?_, ?_⟩
  · exact of_decide_eq_true (by decide +kernel)
  · decide +kernel

end Eval
end Verif
