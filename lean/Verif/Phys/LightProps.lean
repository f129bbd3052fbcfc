import Verif.Phys.Lights
import Mathlib.Tactic.Linarith
import Mathlib.Tactic.Ring
import Mathlib.Tactic.NormNum
import Mathlib.Tactic.FieldSimp

/-!
# C58: vehicle lights
-/

namespace Verif
namespace Lights

set_option linter.unusedSectionVars false

variable {K : Type} [Field K] [LinearOrder K] [IsStrictOrderedRing K] [FloorRing K]

/-- Specification of rounding: a nearest integer, the even one if there are two. -/
def IsRound (x : K) (n : Int) : Prop :=
  |x - (n : K)| ≤ 1 / 2 ∧ (|x - (n : K)| = 1 / 2 → n % 2 = 0)

theorem npRound_spec (x : K) : IsRound x (npRound x) := by
  have h1 := Int.floor_le x
  have h2 := Int.lt_floor_add_one x
  unfold npRound IsRound
  split
  · rename_i h
    rw [abs_of_nonneg (by linarith)]
    exact ⟨by linarith, fun e => by linarith⟩
  · rename_i h
    split
    · rename_i h'
      push_cast
      rw [abs_of_nonpos (by linarith)]
      exact ⟨by linarith, fun e => by linarith⟩
    · rename_i h'
      have e : x - (⌊x⌋ : K) = 1 / 2 := le_antisymm (not_lt.mp h') (not_lt.mp h)
      split
      · rename_i hev
        rw [abs_of_nonneg (by linarith)]
        exact ⟨e.le, fun _ => hev⟩
      · rename_i hodd
        push_cast
        rw [abs_of_nonpos (by linarith)]
        exact ⟨by linarith, fun _ => by omega⟩

theorem isRound_unique (x : K) (m n : Int) (hm : IsRound x m) (hn : IsRound x n) : m = n := by
  obtain ⟨m1, m2⟩ := hm
  obtain ⟨n1, n2⟩ := hn
  have a1 := abs_le.mp m1
  have a2 := abs_le.mp n1
  by_contra hne
  rcases lt_or_gt_of_ne hne with h | h
  · have hK : (m : K) + 1 ≤ (n : K) := by exact_mod_cast h
    have e1 : x - (m : K) = 1 / 2 := by linarith
    have e2 : x - (n : K) = -(1 / 2) := by linarith
    have hmn : n = m + 1 := by
      have : (n : K) = ((m + 1 : Int) : K) := by push_cast; linarith
      exact_mod_cast this
    have p1 := m2 (by rw [e1, abs_of_nonneg (by norm_num)])
    have p2 := n2 (by rw [e2, abs_neg, abs_of_nonneg (by norm_num)])
    omega
  · have hK : (n : K) + 1 ≤ (m : K) := by exact_mod_cast h
    have e1 : x - (n : K) = 1 / 2 := by linarith
    have e2 : x - (m : K) = -(1 / 2) := by linarith
    have hmn : m = n + 1 := by
      have : (m : K) = ((n + 1 : Int) : K) := by push_cast; linarith
      exact_mod_cast this
    have p1 := n2 (by rw [e1, abs_of_nonneg (by norm_num)])
    have p2 := m2 (by rw [e2, abs_neg, abs_of_nonneg (by norm_num)])
    omega

theorem npRound_add_two (x : K) : npRound (x + 2) = npRound x + 2 := by
  apply isRound_unique (x + 2) _ _ (npRound_spec _)
  obtain ⟨h1, h2⟩ := npRound_spec x
  have e : x + 2 - ((npRound x + 2 : Int) : K) = x - (npRound x : K) := by push_cast; ring
  unfold IsRound
  rw [e]
  exact ⟨h1, fun h => by have := h2 h; omega⟩

/-- Off the ties, rounding commutes with adding one. -/
theorem npRound_add_one (x : K) (h : |x - (npRound x : K)| ≠ 1 / 2) : npRound (x + 1) = npRound x + 1 := by
  apply isRound_unique (x + 1) _ _ (npRound_spec _)
  obtain ⟨h1, h2⟩ := npRound_spec x
  have e : x + 1 - ((npRound x + 1 : Int) : K) = x - (npRound x : K) := by push_cast; ring
  unfold IsRound
  rw [e]
  exact ⟨h1, fun h' => absurd h' h⟩

/-- The known commands. -/
def Known : Cmd → Prop
  | .other _ => False
  | _ => True

/-- The blinking commands. -/
def Blinking (c : Cmd) : Prop := c = .turnLeft ∨ c = .turnRight ∨ c = .hazard

theorem pyGet_mod {α : Type} (xs : List α) (h : xs ≠ []) (k : Int) :
    ∃ a, pyGet xs (k % (xs.length : Int)) = .ok a ∧ a ∈ xs := by
  have hl : 0 < xs.length := List.length_pos_iff.mpr h
  have h0 := Int.emod_nonneg k (show (xs.length : Int) ≠ 0 by omega)
  have h1 := Int.emod_lt_of_pos k (show (0 : Int) < xs.length by omega)
  unfold pyGet
  simp only
  rw [if_neg (by omega), if_neg (by omega)]
  have : (k % (xs.length : Int)).toNat < xs.length := by omega
  rw [List.getElem?_eq_getElem this]
  exact ⟨_, rfl, List.getElem_mem _⟩

theorem phaseAt_two (p q : Cmd) (t : K) :
    phaseAt [p, q] t = .ok (if npRound (t / (2 / 5)) % 2 = 0 then p else q) := by
  unfold phaseAt
  simp only [List.length_cons, List.length_nil]
  rcases Int.emod_two_eq_zero_or_one (npRound (t / (2 / 5))) with h | h
  · rw [if_pos h, show ((0 + 1 + 1 : Nat) : Int) = 2 from rfl, h]; rfl
  · rw [if_neg (by omega), show ((0 + 1 + 1 : Nat) : Int) = 2 from rfl, h]; rfl

theorem phaseAt_one (p : Cmd) (t : K) : phaseAt [p] t = .ok p := by
  unfold phaseAt
  simp only [List.length_cons, List.length_nil]
  rw [show ((0 + 1 : Nat) : Int) = 1 from rfl, Int.emod_one]
  rfl

/-- The phase shown by a command at a time. -/
def shown (c : Cmd) (t : K) : Except Err Cmd :=
  match phases c with
  | .error e => .error e
  | .ok ps => phaseAt ps t

/-- **C58.** Every known command shows, at every time, one of its phases: itself, or for the blinking
ones itself or no lights; unknown commands raise `KeyError`. -/
theorem C58_phase (c : Cmd) (t : K) :
    (Known c → ∃ p, shown c t = .ok p ∧ (p = c ∨ (Blinking c ∧ p = .noLights))) ∧
    (¬ Known c → shown c t = .error .key) := by
  constructor
  · intro h
    cases c <;> simp only [shown, phases, phaseAt_one, phaseAt_two, Blinking]
    · exact ⟨_, rfl, Or.inl rfl⟩
    · exact ⟨_, rfl, Or.inl rfl⟩
    all_goals first
      | (refine ⟨_, rfl, ?_⟩; split
         · exact Or.inl rfl
         · exact Or.inr ⟨by simp, rfl⟩)
      | exact absurd h (by simp [Known])
  · intro h
    cases c <;> first
      | rfl
      | exact absurd trivial h

/-- **C58.** The phase has twice the phase period, and for blinking commands the command is shown for the
times nearest to the even multiples of the phase period and no lights for those nearest to the odd ones,
so that half a period later it is the other one, except exactly half way between two multiples. -/
theorem C58_period (c : Cmd) (t : K) :
    shown c (t + 2 * (2 / 5)) = shown c t ∧
    (Blinking c → ∀ n : Int, |t - (n : K) * (2 / 5)| < 1 / 5 →
      shown c t = .ok (if n % 2 = 0 then c else .noLights) ∧
      shown c (t + 2 / 5) = .ok (if n % 2 = 0 then .noLights else c)) := by
  have e2 : (t + 2 * (2 / 5)) / (2 / 5) = t / (2 / 5) + 2 := by field_simp
  have e1 : (t + 2 / 5) / (2 / 5) = t / (2 / 5) + 1 := by field_simp
  constructor
  · have hm : npRound (t / (2 / 5) + 2) % 2 = npRound (t / (2 / 5)) % 2 := by
      rw [npRound_add_two]; omega
    cases c <;> simp only [shown, phases, phaseAt_one, phaseAt_two, e2, hm]
  · intro hb n hn
    have hx : |t / (2 / 5) - (n : K)| < 1 / 2 := by
      rw [show t / (2 / 5) - (n : K) = (t - (n : K) * (2 / 5)) / (2 / 5) by field_simp, abs_div,
        abs_of_pos (by norm_num : (0 : K) < 2 / 5), div_lt_iff₀ (by norm_num)]
      linarith
    have hr : npRound (t / (2 / 5)) = n :=
      isRound_unique _ _ _ (npRound_spec _) ⟨hx.le, fun h => absurd h hx.ne⟩
    have hr1 : npRound (t / (2 / 5) + 1) = n + 1 := by
      rw [npRound_add_one _ (by rw [hr]; exact hx.ne), hr]
    have hm : (n + 1) % 2 = 0 ↔ ¬ n % 2 = 0 := by omega
    rcases hb with rfl | rfl | rfl <;>
      (simp only [shown, phases, phaseAt_two, e1, hr, hr1, hm]
       refine ⟨trivial, ?_⟩
       by_cases h : n % 2 = 0 <;> simp [h])

/-- Half way between two multiples the alternation can fail: at 0.2 s and at 0.6 s the left blinker is
on. -/
example : shown (K := ℚ) .turnLeft (1 / 5) = .ok .turnLeft ∧ shown (K := ℚ) .turnLeft (3 / 5) = .ok .turnLeft ∧
    shown (K := ℚ) .turnLeft (2 / 5) = .ok .noLights := by decide +kernel

/-- Specification of what a display should show: the colors of the phase in the table of the source,
with red back lights brighter when braking. -/
def Expected (c : Cmd) (acc t : K) (out : Except Err Colors) : Prop :=
  match shown c t with
  | .error e => out = .error e
  | .ok p => ∃ o, out = .ok o ∧ o.frontLeft = (fresh p).frontLeft ∧ o.frontRight = (fresh p).frontRight ∧
      o.backLeft = (if acc < 0 ∧ (fresh p).backLeft = .red then .redMore else (fresh p).backLeft) ∧
      o.backRight = (if acc < 0 ∧ (fresh p).backRight = .red then .redMore else (fresh p).backRight)

theorem display_eq (tb : Table) (c : Cmd) (acc t : K) :
    display tb c acc t = match shown c t with
      | .error e => .error e
      | .ok p => if acc < 0 then .ok (brighten (tb p), tb.set p (brighten (tb p))) else .ok (tb p, tb) := by
  unfold display shown
  cases phases c <;> rfl

/-- Invariant of all histories: every entry of the table is as in the source or brightened. -/
def TableOk (tb : Table) : Prop := ∀ p, tb p = fresh p ∨ tb p = brighten (fresh p)

theorem brighten_idem (c : Colors) : brighten (brighten c) = brighten c := by
  unfold brighten
  cases c with
  | mk a b d e => cases d <;> cases e <;> rfl

theorem display_ok (tb tb' : Table) (c : Cmd) (acc t : K) (o : Colors) (h : TableOk tb)
    (hd : display tb c acc t = .ok (o, tb')) : TableOk tb' := by
  rw [display_eq] at hd
  split at hd
  · cases hd
  · rename_i p _
    split at hd
    · injection hd with hd
      injection hd with h1 h2
      subst h2
      intro q
      unfold Table.set
      by_cases hq : q = p
      · subst hq
        rw [if_pos rfl]
        right
        rcases h q with h | h
        · rw [h]
        · rw [h, brighten_idem]
      · rw [if_neg hq]; exact h q
    · injection hd with hd
      injection hd with h1 h2
      subst h2
      exact h

theorem run_ok (hist : List (Cmd × K × K)) : ∀ tb, TableOk tb → TableOk (run tb hist) := by
  induction hist with
  | nil => intro tb h; exact h
  | cons d hist ih =>
    intro tb h
    obtain ⟨c, a, t⟩ := d
    simp only [run]
    split
    · exact ih tb h
    · rename_i o tb' hd
      exact ih tb' (display_ok tb tb' c a t o h hd)

/-- **C58.** After any history of displays: front lights always show the colors of the phase; a braking
display shows exactly what is specified; and a display that does not brake shows at most brighter back
lights. -/
theorem C58_always (hist : List (Cmd × K × K)) (c : Cmd) (acc t : K) :
    (acc < 0 → Expected c acc t ((display (run fresh hist) c acc t).map (·.1))) ∧
    (0 ≤ acc → ∀ o tb, display (run fresh hist) c acc t = .ok (o, tb) →
      ∃ p, shown c t = .ok p ∧ (o = fresh p ∨ o = brighten (fresh p))) := by
  have hok := run_ok hist fresh (fun p => Or.inl rfl)
  constructor
  · intro ha
    unfold Expected
    rw [display_eq]
    cases shown c t with
    | error e => rfl
    | ok p =>
      simp only [if_pos ha]
      have : brighten (run fresh hist p) = brighten (fresh p) := by
        rcases hok p with h | h
        · rw [h]
        · rw [h, brighten_idem]
      refine ⟨brighten (fresh p), ?_, rfl, rfl, ?_, ?_⟩
      · rw [← this]; rfl
      · simp only [brighten, ha, true_and]
      · simp only [brighten, ha, true_and]
  · intro ha o tb hd
    rw [display_eq] at hd
    split at hd
    · cases hd
    · rename_i p hp
      rw [if_neg (not_lt.mpr ha)] at hd
      injection hd with hd
      injection hd with h1 h2
      subst h1
      exact ⟨p, hp, hok p⟩

/-- **C58.** As long as no vehicle has braked, every display shows exactly what is specified. -/
theorem C58_no_braking_partial (hist : List (Cmd × K × K)) (h : ∀ d ∈ hist, 0 ≤ d.2.1) (c : Cmd)
    (acc t : K) : Expected c acc t ((display (run fresh hist) c acc t).map (·.1)) := by
  have hrun : ∀ (hist : List (Cmd × K × K)), (∀ d ∈ hist, 0 ≤ d.2.1) → run fresh hist = fresh := by
    intro hist
    induction hist with
    | nil => intro _; rfl
    | cons d hist ih =>
      intro h
      obtain ⟨c, a, t⟩ := d
      have ha : ¬ a < 0 := not_lt.mpr (h (c, a, t) (by simp))
      have ih' := ih (fun d hd => h d (List.mem_cons_of_mem _ hd))
      simp only [run, display_eq, if_neg ha]
      cases shown c t <;> exact ih'
  rcases lt_or_ge acc 0 with ha | ha
  · exact (C58_always hist c acc t).1 ha
  · rw [hrun hist h]
    unfold Expected
    rw [display_eq]
    cases shown c t with
    | error e => rfl
    | ok p =>
      simp only [if_neg (not_lt.mpr ha)]
      refine ⟨fresh p, rfl, rfl, rfl, ?_, ?_⟩ <;>
        rw [if_neg (fun hh => absurd hh.1 (not_lt.mpr ha))]

/-- Once brightened, an entry stays bright. -/
theorem run_bright (p : Cmd) (hist : List (Cmd × K × K)) :
    ∀ tb, tb p = brighten (fresh p) → run tb hist p = brighten (fresh p) := by
  induction hist with
  | nil => intro tb h; exact h
  | cons d hist ih =>
    intro tb h
    obtain ⟨c, a, t⟩ := d
    simp only [run]
    cases hd : display tb c a t with
    | error e => exact ih tb h
    | ok r =>
      obtain ⟨o, tb'⟩ := r
      apply ih
      rw [display_eq] at hd
      split at hd
      · cases hd
      · rename_i q _
        split at hd
        · injection hd with hd
          injection hd with h1 h2
          subst h2
          unfold Table.set
          by_cases hq : p = q
          · subst hq; rw [if_pos rfl, h, brighten_idem]
          · rw [if_neg hq]; exact h
        · injection hd with hd
          injection hd with h1 h2
          subst h2
          exact h

/-- Which phases make a light on the left or the right orange. -/
def Flashes (left : Bool) (p : Cmd) : Prop := p = .hazard ∨ p = (if left then .turnLeft else .turnRight)

/-- **C58.** The colours of the displayed phase, whatever was displayed before: a light is orange exactly
when its side flashes (both sides with the hazard lights); otherwise a front light is yellow with the
headlights and white without, and a back light is red or bright red, bright when braking. -/
theorem C58_colours (hist : List (Cmd × K × K)) (c : Cmd) (acc t : K) (o : Colors) (tb : Table)
    (h : display (run fresh hist) c acc t = .ok (o, tb)) :
    ∃ p, shown c t = .ok p ∧ Known c ∧
      (Flashes true p → o.frontLeft = .orange ∧ o.backLeft = .orange) ∧
      (Flashes false p → o.frontRight = .orange ∧ o.backRight = .orange) ∧
      (¬ Flashes true p → o.frontLeft = (if p = .headlights then .yellow else .white) ∧
        (o.backLeft = .red ∨ o.backLeft = .redMore) ∧ (acc < 0 → o.backLeft = .redMore)) ∧
      (¬ Flashes false p → o.frontRight = (if p = .headlights then .yellow else .white) ∧
        (o.backRight = .red ∨ o.backRight = .redMore) ∧ (acc < 0 → o.backRight = .redMore)) := by
  have hk : Known c := by
    by_contra hk
    rw [display_eq, (C58_phase c t).2 hk] at h
    cases h
  obtain ⟨p, hp, hpc⟩ := (C58_phase c t).1 hk
  refine ⟨p, hp, hk, ?_⟩
  have hpk : Known p := by
    rcases hpc with rfl | ⟨-, rfl⟩
    · exact hk
    · simp [Known]
  have ho : (acc < 0 → o = brighten (fresh p)) ∧ (o = fresh p ∨ o = brighten (fresh p)) := by
    rcases lt_or_ge acc 0 with ha | ha
    · have hb : o = brighten (fresh p) := by
        have e := (C58_always hist c acc t).1 ha
        rw [h] at e
        unfold Expected at e
        rw [hp] at e
        obtain ⟨o', e0, e1, e2, e3, e4⟩ := e
        have : o = o' := by injection e0
        rw [this]
        simp only [ha, true_and] at e3 e4
        obtain ⟨a, b, d, f⟩ := o'
        simp only at e1 e2 e3 e4
        subst e1; subst e2; subst e3; subst e4
        rfl
      exact ⟨fun _ => hb, Or.inr hb⟩
    · obtain ⟨p', hp', h2⟩ := (C58_always hist c acc t).2 ha o tb h
      rw [hp] at hp'
      injection hp' with hp'
      subst hp'
      exact ⟨fun k => absurd k (not_lt.mpr ha), h2⟩
  obtain ⟨h1, h2⟩ := ho
  rcases lt_or_ge acc 0 with ha | ha
  · have e := h1 ha
    subst e
    clear hp hpc hk h h1 h2
    cases p <;> simp_all [Flashes, fresh, brighten, Known]
  · have hna : ¬ acc < 0 := not_lt.mpr ha
    clear hp hpc hk h h1
    rcases h2 with rfl | rfl <;> cases p <;> simp_all [Flashes, fresh, brighten, Known]

/-- A left turn signal is displayed at time 0. -/
example : ∃ o tb, display (run fresh ([] : List (Cmd × ℚ × ℚ))) .turnLeft (0 : ℚ) 0 = .ok (o, tb) ∧ o.frontLeft = .orange ∧
    o.frontRight = .white := by
  rcases h : display (run fresh ([] : List (Cmd × ℚ × ℚ))) .turnLeft (0 : ℚ) 0 with e | ⟨o, tb⟩
  · have : (display (run fresh ([] : List (Cmd × ℚ × ℚ))) .turnLeft (0 : ℚ) 0).toOption.isSome = true := by
      decide +kernel
    rw [h] at this
    cases this
  · have : ((display (run fresh ([] : List (Cmd × ℚ × ℚ))) .turnLeft (0 : ℚ) 0).map Prod.fst).toOption =
        some (⟨.orange, .white, .orange, .red⟩ : Colors) := by decide +kernel
    rw [h] at this
    simp only [Except.map, Except.toOption, Option.some.injEq] at this
    exact ⟨o, tb, rfl, by rw [this], by rw [this]⟩

/-- **C58 is false for the last clause**: once any vehicle has been displayed braking in a phase with a
red back light, every later display of that phase, by any vehicle, braking or not, shows the bright
lights, and so differs from what is specified when not braking. -/
theorem C58_false_interference (hist hist' : List (Cmd × K × K)) (c c' : Cmd) (a a' t t' : K) (p : Cmd)
    (ha : a < 0) (ha' : 0 ≤ a') (hp : shown c t = .ok p) (hp' : shown c' t' = .ok p)
    (hred : (fresh p).backLeft = .red ∨ (fresh p).backRight = .red) :
    ¬ Expected c' a' t' ((display (run fresh (hist ++ (c, a, t) :: hist')) c' a' t').map (·.1)) := by
  have happ : ∀ (h1 h2 : List (Cmd × K × K)) tb, run tb (h1 ++ h2) = run (run tb h1) h2 := by
    intro h1
    induction h1 with
    | nil => intro h2 tb; rfl
    | cons d h1 ih =>
      intro h2 tb
      obtain ⟨c, a, t⟩ := d
      simp only [List.cons_append, run]
      split <;> exact ih _ _
  have hbright : run fresh (hist ++ (c, a, t) :: hist') p = brighten (fresh p) := by
    rw [happ]
    simp only [run, display_eq, hp, if_pos ha]
    apply run_bright
    unfold Table.set
    rw [if_pos rfl]
    rcases run_ok hist fresh (fun p => Or.inl rfl) p with h | h
    · rw [h]
    · rw [h, brighten_idem]
  unfold Expected
  rw [display_eq, hp']
  simp only [if_neg (not_lt.mpr ha'), hbright]
  rintro ⟨o, ho, -, -, h3, h4⟩
  have ho' : brighten (fresh p) = o := by
    have : (Except.ok (brighten (fresh p)) : Except Err Colors) = .ok o := ho
    injection this
  subst ho'
  rw [if_neg (fun hh => absurd hh.1 (not_lt.mpr ha'))] at h3 h4
  rcases hred with h | h
  · rw [show (brighten (fresh p)).backLeft = .redMore by simp [brighten, h], h] at h3
    cases h3
  · rw [show (brighten (fresh p)).backRight = .redMore by simp [brighten, h], h] at h4
    cases h4

/-- The hypotheses are met, e.g., by two vehicles without lights, the first one braking. -/
example : shown (K := ℚ) .noLights 0 = .ok .noLights ∧ (fresh .noLights).backLeft = .red ∧
    (display (K := ℚ) (run (K := ℚ) fresh [(.noLights, -1, 0)]) .noLights 1 5).toOption.map (·.1.backLeft) =
      some .redMore := by decide +kernel

end Lights
end Verif
