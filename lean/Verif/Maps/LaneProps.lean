import Verif.Maps.Lanes
import Verif.Maps.GeoProps

/-!
# C53, C54, C55: lane coordinates
-/

namespace Verif
namespace Maps

set_option linter.unusedSectionVars false

section
variable {K : Type} [Field K] [LinearOrder K] [IsStrictOrderedRing K] [FloorRing K]

theorem pyGet_nat {α : Type} (xs : List α) (i : Nat) (a : α) (h : xs[i]? = some a) :
    pyGet xs (i : Int) = .ok a := by
  unfold pyGet
  simp only
  rw [if_neg (by omega), if_neg (by omega)]
  simp [h]

theorem pyGet_last {α : Type} (xs : List α) (a : α) (h : xs.getLast? = some a) :
    pyGet xs (-1) = .ok a := by
  unfold pyGet
  have hl : 0 < xs.length := by
    cases xs with
    | nil => simp at h
    | cons => simp
  rw [show (if (-1 : Int) < 0 then -1 + (xs.length : Int) else -1) = -1 + (xs.length : Int) from rfl]
  simp only
  rw [if_neg (by omega)]
  rw [List.getLast?_eq_getElem?] at h
  have : (-1 + (xs.length : Int)).toNat = xs.length - 1 := by omega
  rw [this, h]

/-- Specification: the position along the lane as a function of the progress. It is the progress itself
before the lane, grows linearly by the segment length on each segment, starting at the sum of the
lengths before, and by the excess progress after the lane. -/
structure IsAlong (lengths : List K) (f : K → K) : Prop where
  before : ∀ b, b ≤ 0 → f b = b
  seg : ∀ (i : Nat) (l : K), lengths[i]? = some l → ∀ b, (i : K) ≤ b → b ≤ (i : K) + 1 →
    f b = (lengths.take i).sum + l * (b - (i : K))
  after : ∀ b, (lengths.length : K) ≤ b → f b = lengths.sum + (b - (lengths.length : K))

/-- Position at the start of segment `i`. -/
def pre (lengths : List K) (i : Nat) : K := (lengths.take i).sum

theorem pre_succ (lengths : List K) (i : Nat) (l : K) (h : lengths[i]? = some l) :
    pre lengths (i + 1) = pre lengths i + l := by
  unfold pre
  rw [List.take_add_one, h, List.sum_append]
  simp

theorem pre_zero (lengths : List K) : pre lengths 0 = 0 := by simp [pre]

theorem pre_len (lengths : List K) : pre lengths lengths.length = lengths.sum := by simp [pre]

theorem pre_mono (lengths : List K) (h : ∀ l ∈ lengths, 0 ≤ l) {i j : Nat} (hij : i ≤ j) :
    pre lengths i ≤ pre lengths j := by
  induction j, hij using Nat.le_induction with
  | base => exact le_rfl
  | succ j hj ih =>
    rcases hl : lengths[j]? with _ | l
    · have : lengths.length ≤ j := List.getElem?_eq_none_iff.mp hl
      have e : pre lengths (j + 1) = pre lengths j := by
        unfold pre; rw [List.take_of_length_le this, List.take_of_length_le (by omega)]
      rw [e]; exact ih
    · rw [pre_succ lengths j l hl]
      have := h l (List.mem_of_getElem? hl)
      linarith

/-- Between 0 and the last control point the segment is the integer part of the progress. -/
theorem floor_nat (b : K) (m : Nat) (h0 : 0 ≤ b) (h1 : b < m) :
    ∃ i : Nat, i < m ∧ ⌊b⌋ = (i : Int) ∧ (i : K) ≤ b ∧ b < (i : K) + 1 := by
  have hf : 0 ≤ ⌊b⌋ := Int.floor_nonneg.mpr h0
  obtain ⟨i, hi⟩ := Int.eq_ofNat_of_zero_le hf
  have e : ((⌊b⌋ : Int) : K) = (i : K) := by rw [hi]; simp
  have l1 := Int.floor_le b
  have l2 := Int.lt_floor_add_one b
  rw [e] at l1 l2
  refine ⟨i, ?_, hi, l1, l2⟩
  exact_mod_cast lt_of_le_of_lt l1 h1

/-- **C53.** `along_lane_from_beta` never raises on a lane with at least one control point and is the
specified function. -/
theorem C53_along (lengths : List K) :
    ∃ f, IsAlong lengths f ∧ ∀ b, alongFromBeta lengths (lengths.length + 1) b = .ok (f b) := by
  have hm : ((lengths.length + 1 : Nat) : K) - 1 = (lengths.length : K) := by push_cast; ring
  have hseg : ∀ (i : Nat) (l : K), lengths[i]? = some l → ∀ b, (i : K) ≤ b → b < (i : K) + 1 →
      alongFromBeta lengths (lengths.length + 1) b = .ok ((lengths.take i).sum + l * (b - (i : K))) := by
    intro i l hl b h1 h2
    have hil : i < lengths.length := (List.getElem?_eq_some_iff.mp hl).1
    have hb0 : ¬ b < 0 := not_lt.mpr (le_trans (Nat.cast_nonneg i) h1)
    have hbm : ¬ (lengths.length : K) ≤ b := by
      rw [not_le]
      have : (i : K) + 1 ≤ (lengths.length : K) := by exact_mod_cast hil
      linarith
    have hfl : ⌊b⌋ = (i : Int) := by
      rw [Int.floor_eq_iff]; exact ⟨by simpa using h1, by simpa using h2⟩
    unfold alongFromBeta
    rw [if_neg hb0, hm, if_neg hbm]
    simp only [hfl, pyGet_nat lengths i l hl, Int.toNat_natCast, Int.cast_natCast]
  have hafter : ∀ b, (lengths.length : K) ≤ b → alongFromBeta lengths (lengths.length + 1) b =
      .ok (lengths.sum + (b - (lengths.length : K))) := by
    intro b hb
    unfold alongFromBeta
    rw [if_neg (not_lt.mpr (le_trans (Nat.cast_nonneg _) hb)), hm, if_pos hb]
  have hbefore : ∀ b, b < 0 → alongFromBeta lengths (lengths.length + 1) b = .ok b := by
    intro b hb
    unfold alongFromBeta
    rw [if_pos hb]
  have htot : ∀ b, ∃ v, alongFromBeta lengths (lengths.length + 1) b = .ok v := by
    intro b
    rcases lt_or_ge b 0 with h | h
    · exact ⟨_, hbefore b h⟩
    · rcases lt_or_ge b (lengths.length : K) with h' | h'
      · obtain ⟨i, hi, -, h1, h2⟩ := floor_nat b _ h h'
        exact ⟨_, hseg i lengths[i] (List.getElem?_eq_getElem hi) b h1 h2⟩
      · exact ⟨_, hafter b h'⟩
  choose f hf using htot
  have ok_inj : ∀ {x y : K}, (Except.ok x : Except Err K) = .ok y → x = y := by
    intro x y h; injection h
  -- value at the start of a segment or at the end
  have hstart : ∀ i : Nat, i ≤ lengths.length → f (i : K) = pre lengths i := by
    intro i hi
    rcases lt_or_eq_of_le hi with hi | hi
    · have := hseg i lengths[i] (List.getElem?_eq_getElem hi) i le_rfl (by linarith)
      rw [hf] at this
      rw [ok_inj this, sub_self, mul_zero, add_zero]; rfl
    · have := hafter (i : K) (by rw [hi])
      rw [hf] at this
      rw [ok_inj this, hi, sub_self, add_zero, pre_len]
  refine ⟨f, ⟨?_, ?_, ?_⟩, hf⟩
  · intro b hb
    rcases lt_or_eq_of_le hb with hb | hb
    · exact ok_inj ((hf b).symm.trans (hbefore b hb))
    · subst hb
      have := hstart 0 (Nat.zero_le _)
      rw [pre_zero] at this
      simpa using this
  · intro i l hl b h1 h2
    rcases lt_or_eq_of_le h2 with h2 | h2
    · exact ok_inj ((hf b).symm.trans (hseg i l hl b h1 h2))
    · have hil : i < lengths.length := (List.getElem?_eq_some_iff.mp hl).1
      have := hstart (i + 1) hil
      push_cast at this
      rw [h2, this, pre_succ lengths i l hl]
      unfold pre
      ring
  · intro b hb
    exact ok_inj ((hf b).symm.trans (hafter b hb))

theorem IsAlong.bounds {lengths : List K} {f : K → K} (hf : IsAlong lengths f)
    (hpos : ∀ l ∈ lengths, 0 < l) (b : K) (h0 : 0 ≤ b) (h1 : b < lengths.length) :
    ∃ (i : Nat) (l : K), lengths[i]? = some l ∧ (i : K) ≤ b ∧ b < (i : K) + 1 ∧
      f b = pre lengths i + l * (b - i) ∧ pre lengths i ≤ f b ∧ f b < pre lengths (i + 1) := by
  obtain ⟨i, hi, -, h1, h2⟩ := floor_nat b _ h0 h1
  have hl := List.getElem?_eq_getElem hi
  have hp := hpos _ (List.getElem_mem hi)
  have e := hf.seg i _ hl b h1 h2.le
  refine ⟨i, lengths[i], hl, h1, h2, e, ?_, ?_⟩
  · rw [e]; unfold pre; nlinarith
  · rw [e, pre_succ lengths i _ hl]; unfold pre; nlinarith

/-- **C53.** The position along the lane is strictly increasing in the progress. -/
theorem C53_along_strict (lengths : List K) (hpos : ∀ l ∈ lengths, 0 < l) (f : K → K)
    (hf : IsAlong lengths f) : StrictMono f := by
  have hnn : ∀ l ∈ lengths, 0 ≤ l := fun l h => (hpos l h).le
  have hS : 0 ≤ lengths.sum := List.sum_nonneg hnn
  intro b c hbc
  rcases lt_or_ge b 0 with hb | hb
  · rw [hf.before b hb.le]
    rcases lt_or_ge c 0 with hc | hc
    · rw [hf.before c hc.le]; exact hbc
    · rcases lt_or_ge c (lengths.length : K) with hc' | hc'
      · obtain ⟨i, l, hl, -, -, -, h, -⟩ := hf.bounds hpos c hc hc'
        have := pre_mono lengths hnn (Nat.zero_le i)
        rw [pre_zero] at this
        linarith
      · rw [hf.after c hc']; linarith
  · rcases lt_or_ge b (lengths.length : K) with hb' | hb'
    · obtain ⟨i, l, hl, i1, i2, ei, e1, e2⟩ := hf.bounds hpos b hb hb'
      have hil : i < lengths.length := (List.getElem?_eq_some_iff.mp hl).1
      rcases lt_or_ge c (lengths.length : K) with hc' | hc'
      · obtain ⟨j, l', hl', j1, j2, ej, e1', e2'⟩ := hf.bounds hpos c (by linarith) hc'
        have hij : i ≤ j := by
          have : (i : K) < (j : K) + 1 := by linarith
          have : i < j + 1 := by exact_mod_cast this
          omega
        rcases Nat.lt_or_ge i j with h | h
        · have := pre_mono lengths hnn h
          exact lt_of_lt_of_le e2 (this.trans e1')
        · obtain rfl : i = j := by omega
          rw [hl] at hl'
          injection hl' with hl'
          subst hl'
          rw [ei, ej]
          have := hpos l (List.mem_of_getElem? hl)
          nlinarith
      · rw [hf.after c hc']
        have := pre_mono lengths hnn (show i + 1 ≤ lengths.length from hil)
        rw [pre_len] at this
        linarith
    · rw [hf.after b hb', hf.after c (by linarith)]
      linarith

/-- Specification: positions just before the end of the lane that the code snaps to the end. -/
def Snap (lengths : List K) (x : K) : Prop :=
  0 ≤ x ∧ x < lengths.sum ∧ lengths.sum - x ≤ max (1 / 10 ^ 9 * lengths.sum) (1 / 10 ^ 8)

theorem isClose_iff (x s : K) (h0 : 0 ≤ x) (h1 : x ≤ s) :
    isClose x s ↔ s - x ≤ max (1 / 10 ^ 9 * s) (1 / 10 ^ 8) := by
  unfold isClose
  rw [abs_sub_comm, abs_of_nonneg (by linarith : 0 ≤ s - x), abs_of_nonneg h0,
    abs_of_nonneg (by linarith : 0 ≤ s), max_eq_right h1]

theorem segLoop_spec (lengths : List K) (hnn : ∀ l ∈ lengths, 0 ≤ l) (x : K) (i : Nat) (l : K)
    (hl : lengths[i]? = some l) (h1 : pre lengths i ≤ x) (h2 : x < pre lengths (i + 1)) :
    ∀ is : List Nat, i ∈ is → segLoop lengths x is = .ok ((i : K) + (x - pre lengths i) / l) := by
  intro is
  induction is with
  | nil => intro h; cases h
  | cons j is ih =>
    intro hmem
    unfold segLoop
    by_cases hj : j = i
    · subst hj
      rw [if_pos ⟨h1, h2⟩, pyGet_nat lengths j l hl]
      rfl
    · rw [if_neg]
      · exact ih (by rcases List.mem_cons.mp hmem with h | h; exact absurd h.symm hj; exact h)
      · rintro ⟨g1, g2⟩
        change pre lengths j ≤ x at g1
        change x < pre lengths (j + 1) at g2
        rcases Nat.lt_or_ge i j with h | h
        · have := pre_mono lengths hnn (show i + 1 ≤ j from h)
          linarith
        · have := pre_mono lengths hnn (show j + 1 ≤ i by omega)
          linarith

theorem exists_segment (lengths : List K) (x : K) (h0 : 0 ≤ x) (h1 : x < lengths.sum) :
    ∃ i l, lengths[i]? = some l ∧ pre lengths i ≤ x ∧ x < pre lengths (i + 1) := by
  have : ∀ m : Nat, m ≤ lengths.length → x < pre lengths m →
      ∃ i l, lengths[i]? = some l ∧ pre lengths i ≤ x ∧ x < pre lengths (i + 1) := by
    intro m
    induction m with
    | zero => intro _ h; rw [pre_zero] at h; linarith
    | succ m ih =>
      intro hm hx
      rcases lt_or_ge x (pre lengths m) with h | h
      · exact ih (by omega) h
      · exact ⟨m, lengths[m], List.getElem?_eq_getElem (by omega), h, hx⟩
  exact this lengths.length le_rfl (by rw [pre_len]; exact h1)

/-- **C53.** `beta_from_along_lane` never fails an assertion, for any lengths that are not negative (as
distances are), on any lane with at least one control point. -/
theorem C53_no_assertion (lengths : List K) (hnn : ∀ l ∈ lengths, 0 ≤ l) (x : K) :
    ∃ b, betaFromAlong lengths (lengths.length + 1) x = .ok b := by
  unfold betaFromAlong
  simp only
  split
  · exact ⟨_, rfl⟩
  · rename_i h0
    split
    · exact ⟨_, rfl⟩
    · rename_i h1
      split
      · exact ⟨_, rfl⟩
      · rename_i h2
        rw [not_lt] at h0 h1
        have hlt : x < lengths.sum := by
          rcases lt_or_eq_of_le h1 with h | h
          · exact h
          · exfalso
            apply h2
            rw [isClose_iff x _ h0 h1, h, sub_self]
            exact le_max_of_le_right (by positivity)
        rw [if_neg (not_not.mpr ⟨h0, hlt⟩)]
        obtain ⟨i, l, hl, g1, g2⟩ := exists_segment lengths x h0 hlt
        exact ⟨_, segLoop_spec lengths hnn x i l hl g1 g2 _
          (List.mem_range.mpr (by have := (List.getElem?_eq_some_iff.mp hl).1; omega))⟩

/-- **C53.** The progress of a position: it maps back to the position, except for positions in the snap
window just before the end, which get the progress of the end. -/
theorem C53_beta (lengths : List K) (hpos : ∀ l ∈ lengths, 0 < l) (f : K → K)
    (hf : IsAlong lengths f) (x : K) :
    ∃ b, betaFromAlong lengths (lengths.length + 1) x = .ok b ∧
      (¬ Snap lengths x → f b = x) ∧ (Snap lengths x → b = lengths.length ∧ f b = lengths.sum) := by
  have hnn : ∀ l ∈ lengths, 0 ≤ l := fun l h => (hpos l h).le
  have hm : ((lengths.length + 1 : Nat) : K) - 1 = (lengths.length : K) := by push_cast; ring
  have hend : f (lengths.length : K) = lengths.sum := by
    rw [hf.after _ le_rfl, sub_self, add_zero]
  unfold betaFromAlong
  simp only
  rw [hm]
  split
  · rename_i h
    refine ⟨_, rfl, fun _ => hf.before x h.le, fun hs => absurd hs.1 (not_le.mpr h)⟩
  · rename_i h0
    rw [not_lt] at h0
    split
    · rename_i h
      refine ⟨_, rfl, fun _ => ?_, fun hs => absurd hs.2.1 (not_lt.mpr h.le)⟩
      rw [hf.after _ (by linarith)]; ring
    · rename_i h1
      rw [not_lt] at h1
      split
      · rename_i h2
        refine ⟨_, rfl, fun hs => ?_, fun hs => ⟨rfl, hend⟩⟩
        rw [hend]
        rcases lt_or_eq_of_le h1 with h | h
        · exact absurd ⟨h0, h, (isClose_iff x _ h0 h1).mp h2⟩ hs
        · exact h.symm
      · rename_i h2
        have hlt : x < lengths.sum := by
          rcases lt_or_eq_of_le h1 with h | h
          · exact h
          · exfalso
            apply h2
            rw [isClose_iff x _ h0 h1, h, sub_self]
            exact le_max_of_le_right (by positivity)
        rw [if_neg (not_not.mpr ⟨h0, hlt⟩)]
        obtain ⟨i, l, hl, g1, g2⟩ := exists_segment lengths x h0 hlt
        refine ⟨_, segLoop_spec lengths hnn x i l hl g1 g2 _
          (List.mem_range.mpr (by have := (List.getElem?_eq_some_iff.mp hl).1; omega)),
          fun _ => ?_, fun hs => absurd ((isClose_iff x _ h0 h1).mpr hs.2.2) h2⟩
        have hp := hpos l (List.mem_of_getElem? hl)
        rw [pre_succ lengths i l hl] at g2
        have q0 : 0 ≤ (x - pre lengths i) / l := div_nonneg (by linarith) hp.le
        have q1 : (x - pre lengths i) / l ≤ 1 := by rw [div_le_one hp]; linarith
        rw [hf.seg i l hl _ (by linarith) (by linarith)]
        change pre lengths i + _ = x
        field_simp
        ring

/-- **C53.** The progress of the position of a progress is that progress (outside the snap window). -/
theorem C53_inverse (lengths : List K) (hpos : ∀ l ∈ lengths, 0 < l) (b a : K)
    (ha : alongFromBeta lengths (lengths.length + 1) b = .ok a) (hs : ¬ Snap lengths a) :
    betaFromAlong lengths (lengths.length + 1) a = .ok b := by
  obtain ⟨f, hf, he⟩ := C53_along lengths
  rw [he b] at ha
  injection ha with ha
  obtain ⟨b', hb', h1, -⟩ := C53_beta lengths hpos f hf a
  rw [hb']
  congr 1
  apply (C53_along_strict lengths hpos f hf).injective
  rw [h1 hs, ha]

/-- **C53.** The progress is increasing in the position: strictly, except that all positions in the snap
window and the end itself have the same progress. -/
theorem C53_beta_mono (lengths : List K) (hpos : ∀ l ∈ lengths, 0 < l) (x y bx by' : K) (hxy : x < y)
    (hx : betaFromAlong lengths (lengths.length + 1) x = .ok bx)
    (hy : betaFromAlong lengths (lengths.length + 1) y = .ok by') :
    bx ≤ by' ∧ (bx = by' ↔ Snap lengths x ∧ y ≤ lengths.sum) := by
  obtain ⟨f, hf, -⟩ := C53_along lengths
  have hmono := C53_along_strict lengths hpos f hf
  obtain ⟨b1, e1, n1, s1⟩ := C53_beta lengths hpos f hf x
  obtain ⟨b2, e2, n2, s2⟩ := C53_beta lengths hpos f hf y
  rw [hx] at e1; injection e1 with e1; subst e1
  rw [hy] at e2; injection e2 with e2; subst e2
  rw [← hmono.le_iff_le, ← hmono.injective.eq_iff]
  by_cases h1 : Snap lengths x
  · rw [(s1 h1).2]
    by_cases h2 : Snap lengths y
    · rw [(s2 h2).2]
      exact ⟨le_rfl, fun _ => ⟨h1, h2.2.1.le⟩, fun _ => rfl⟩
    · rw [n2 h2]
      have hge : lengths.sum ≤ y := by
        by_contra hlt
        rw [not_le] at hlt
        exact h2 ⟨by linarith [h1.1], hlt, by linarith [h1.2.2]⟩
      refine ⟨hge, ?_, ?_⟩
      · intro h; exact ⟨h1, h.symm.le⟩
      · rintro ⟨-, h⟩; exact le_antisymm hge h
  · rw [n1 h1]
    by_cases h2 : Snap lengths y
    · rw [(s2 h2).2]
      have hlt : x < lengths.sum := lt_trans hxy h2.2.1
      exact ⟨hlt.le, fun h => absurd h hlt.ne, fun h => absurd h.1 h1⟩
    · rw [n2 h2]
      exact ⟨hxy.le, fun h => absurd h hxy.ne, fun h => absurd h.1 h1⟩

/-- A lane with segments of length 2 and 3. -/
example : alongFromBeta ([2, 3] : List ℚ) 3 (3 / 2) = .ok (7 / 2) ∧
    betaFromAlong ([2, 3] : List ℚ) 3 (7 / 2) = .ok (3 / 2) ∧
    betaFromAlong ([2, 3] : List ℚ) 3 6 = .ok 3 ∧
    betaFromAlong ([2, 3] : List ℚ) 3 (5 - 1 / 10 ^ 8) = .ok 2 ∧ Snap ([2, 3] : List ℚ) (5 - 1 / 10 ^ 8) ∧
    ¬ Snap ([2, 3] : List ℚ) (7 / 2) := by
  refine ⟨by decide +kernel, by decide +kernel, by decide +kernel, by decide +kernel, ?_, ?_⟩ <;>
    norm_num [Snap]

/-! ## C54 -/

/-- **C54.** For a radius that is not negative: exactly one of the three lateral flags holds; at most one
of the three longitudinal flags holds, and exactly one unless the position is exactly the length of the
lane, where none holds (for a lane length that is not negative); `inside` means both; the distances are
those to the boundaries and to the center. -/
theorem C54_flags (r l along lateral : K) (hr : 0 ≤ r) (hl : 0 ≤ l) :
    let p := laneFlags r l along lateral
    ((p.lateralInside = true ∧ p.outsideLeft = false ∧ p.outsideRight = false) ∨
      (p.lateralInside = false ∧ p.outsideLeft = true ∧ p.outsideRight = false) ∨
      (p.lateralInside = false ∧ p.outsideLeft = false ∧ p.outsideRight = true)) ∧
    (p.lateralInside = true ↔ |lateral| ≤ r) ∧ (p.outsideLeft = true ↔ r < lateral) ∧
    ((along ≠ l ∧ ((p.alongInside = true ∧ p.alongBefore = false ∧ p.alongAfter = false) ∨
      (p.alongInside = false ∧ p.alongBefore = true ∧ p.alongAfter = false) ∨
      (p.alongInside = false ∧ p.alongBefore = false ∧ p.alongAfter = true))) ∨
      (along = l ∧ p.alongInside = false ∧ p.alongBefore = false ∧ p.alongAfter = false)) ∧
    (p.inside = true ↔ p.lateralInside = true ∧ p.alongInside = true) ∧
    (p.inside = true ↔ |lateral| ≤ r ∧ 0 ≤ along ∧ along < l) ∧
    p.distLeft = |lateral - r| ∧ p.distRight = |lateral + r| ∧ p.distCenter = |lateral| := by
  intro p
  simp only [p, laneFlags]
  refine ⟨?_, ?_, by simp, ?_, by simp, ?_, ?_, ?_, trivial⟩
  · rcases lt_or_ge r lateral with h | h
    · right; left
      simp only [decide_eq_false_iff_not, decide_eq_true_eq, not_and, not_le, not_lt]
      exact ⟨fun _ => h, h, by linarith⟩
    · rcases lt_or_ge lateral (-r) with h' | h'
      · right; right
        simp only [decide_eq_false_iff_not, decide_eq_true_eq, not_and, not_le, not_lt]
        exact ⟨fun g => absurd g (not_le.mpr h'), h, h'⟩
      · left
        simp only [decide_eq_false_iff_not, decide_eq_true_eq, not_lt]
        exact ⟨⟨h', h⟩, h, h'⟩
  · rw [decide_eq_true_eq, abs_le]
  · rcases lt_trichotomy along l with h | h | h
    · left
      refine ⟨h.ne, ?_⟩
      rcases lt_or_ge along 0 with h' | h'
      · right; left
        simp only [decide_eq_false_iff_not, decide_eq_true_eq, not_and, not_lt]
        exact ⟨fun g => absurd g (not_le.mpr h'), h', h.le⟩
      · left
        simp only [decide_eq_false_iff_not, decide_eq_true_eq, not_lt]
        exact ⟨⟨h', h⟩, h', h.le⟩
    · right
      simp only [decide_eq_false_iff_not, not_and, not_lt]
      exact ⟨h, fun _ => h.ge, by linarith, h.le⟩
    · left
      refine ⟨h.ne', ?_⟩
      right; right
      simp only [decide_eq_false_iff_not, decide_eq_true_eq, not_and, not_lt]
      exact ⟨fun _ => h.le, by linarith, h⟩
  · rw [Bool.and_eq_true, decide_eq_true_eq, decide_eq_true_eq, abs_le]
  · rw [abs_sub_comm]
  · rw [← abs_neg]; congr 1; ring

example : (laneFlags (2 : ℚ) 10 3 1).inside = true ∧ (laneFlags (2 : ℚ) 10 10 1).alongInside = false ∧
    (laneFlags (2 : ℚ) 10 10 1).alongAfter = false := by decide +kernel

/-! ## C55: the radius -/

/-- Specification of a piecewise linear profile through the values `vs` at 0, 1, 2, …, constant outside. -/
structure IsProfile (vs : List K) (f : K → K) : Prop where
  before : ∀ v, vs.head? = some v → ∀ b, b ≤ 0 → f b = v
  after : ∀ v, vs.getLast? = some v → ∀ b, (vs.length : K) - 1 ≤ b → f b = v
  seg : ∀ (i : Nat) (v w : K), vs[i]? = some v → vs[i + 1]? = some w → ∀ a, 0 ≤ a → a ≤ 1 →
    f ((i : K) + a) = (1 - a) * v + a * w

/-- **C55.** The radius on a lane with at least one control point: it never raises, passes through the
radii of the control points, is linear in between and constant outside. -/
theorem C55_radius (rs : List K) (hne : rs ≠ []) :
    ∃ f, IsProfile rs f ∧ ∀ b, radius rs b = .ok (f b) := by
  obtain ⟨v0, hv0⟩ : ∃ v, rs[0]? = some v := by
    cases rs with
    | nil => exact absurd rfl hne
    | cons a t => exact ⟨a, rfl⟩
  obtain ⟨vl, hvl⟩ : ∃ v, rs.getLast? = some v := by
    cases h : rs.getLast? with
    | none => exact absurd (List.getLast?_eq_none_iff.mp h) hne
    | some v => exact ⟨v, rfl⟩
  have hlen : 0 < rs.length := List.length_pos_iff.mpr hne
  have hlK : ((rs.length - 1 : Nat) : K) = (rs.length : K) - 1 := by
    rw [Nat.cast_sub hlen]; simp
  have hbefore : ∀ b, b < 0 → radius rs b = .ok v0 := by
    intro b hb
    unfold radius
    simp only
    rw [if_pos (Int.floor_lt.mpr (by simpa using hb))]
    exact pyGet_nat rs 0 v0 hv0
  have hafter : ∀ b, (rs.length : K) - 1 ≤ b → radius rs b = .ok vl := by
    intro b hb
    have h1 : (rs.length : Int) - 1 ≤ ⌊b⌋ := by
      rw [Int.le_floor]; push_cast; exact hb
    unfold radius
    simp only
    rw [if_neg (by omega), if_pos h1]
    exact pyGet_last rs vl hvl
  have hseg : ∀ (i : Nat) (v w : K), rs[i]? = some v → rs[i + 1]? = some w → ∀ a, 0 ≤ a → a < 1 →
      radius rs ((i : K) + a) = .ok (v * (1 - a) + w * a) := by
    intro i v w hv hw a h0 h1
    have hi : i + 1 < rs.length := (List.getElem?_eq_some_iff.mp hw).1
    have hfl : ⌊(i : K) + a⌋ = (i : Int) := by
      rw [Int.floor_eq_iff]; constructor <;> simp [h0, h1]
    unfold radius
    simp only [hfl]
    rw [if_neg (by omega), if_neg (by omega), pyGet_nat rs i v hv]
    simp only
    have hw' := pyGet_nat rs (i + 1) w hw
    push_cast at hw'
    rw [hw']
    simp only [Int.cast_natCast, add_sub_cancel_left]
  have htot : ∀ b, ∃ v, radius rs b = .ok v := by
    intro b
    rcases lt_or_ge b 0 with h | h
    · exact ⟨_, hbefore b h⟩
    · rcases lt_or_ge b ((rs.length : K) - 1) with h' | h'
      · rw [← hlK] at h'
        obtain ⟨i, hi, -, h1, h2⟩ := floor_nat b _ h h'
        have := hseg i rs[i] rs[i + 1] (List.getElem?_eq_getElem (by omega))
          (List.getElem?_eq_getElem (by omega)) (b - i) (by linarith) (by linarith)
        rw [add_sub_cancel] at this
        exact ⟨_, this⟩
      · exact ⟨_, hafter b h'⟩
  choose f hf using htot
  have ok_inj : ∀ {x y : K}, (Except.ok x : Except Err K) = .ok y → x = y := by
    intro x y h; injection h
  have hat : ∀ (i : Nat) (v : K), rs[i]? = some v → f (i : K) = v := by
    intro i v hv
    have hi : i < rs.length := (List.getElem?_eq_some_iff.mp hv).1
    rcases Nat.lt_or_ge (i + 1) rs.length with h | h
    · have := hseg i v rs[i + 1] hv (List.getElem?_eq_getElem h) 0 le_rfl one_pos
      rw [add_zero, hf] at this
      rw [ok_inj this]; ring
    · have hil : i = rs.length - 1 := by omega
      have := hafter (i : K) (by rw [← hlK, hil])
      rw [hf] at this
      rw [ok_inj this]
      rw [List.getLast?_eq_getElem?, ← hil, hv] at hvl
      injection hvl with hvl
      exact hvl.symm
  refine ⟨f, ⟨?_, ?_, ?_⟩, hf⟩
  · intro v hv b hb
    rw [List.head?_eq_getElem?] at hv
    rcases lt_or_eq_of_le hb with h | h
    · have := ok_inj ((hf b).symm.trans (hbefore b h))
      rw [hv] at hv0
      injection hv0 with hv0
      rw [this, hv0]
    · subst h
      have := hat 0 v hv
      simpa using this
  · intro v hv b hb
    rw [hv] at hvl
    injection hvl with hvl
    rw [ok_inj ((hf b).symm.trans (hafter b hb)), hvl]
  · intro i v w hv hw a h0 h1
    rcases lt_or_eq_of_le h1 with h | h
    · rw [ok_inj ((hf _).symm.trans (hseg i v w hv hw a h0 h))]; ring
    · subst h
      have := hat (i + 1) w hw
      push_cast at this
      rw [this]; ring

/-- **C55.** The radius at a control point is its radius, and everywhere it lies within any bounds on
the radii of the control points. -/
theorem C55_bounds (rs : List K) (f : K → K) (hf : IsProfile rs f) :
    (∀ (i : Nat) (v : K), rs[i]? = some v → f (i : K) = v) ∧
    (∀ lo hi, (∀ v ∈ rs, lo ≤ v ∧ v ≤ hi) → rs ≠ [] → ∀ b, lo ≤ f b ∧ f b ≤ hi) := by
  constructor
  · intro i v hv
    have hi : i < rs.length := (List.getElem?_eq_some_iff.mp hv).1
    rcases Nat.lt_or_ge (i + 1) rs.length with h | h
    · have := hf.seg i v rs[i + 1] hv (List.getElem?_eq_getElem h) 0 le_rfl zero_le_one
      rw [add_zero] at this
      rw [this]; ring
    · have hil : i = rs.length - 1 := by omega
      apply hf.after v (by rw [List.getLast?_eq_getElem?, ← hil, hv])
      have : ((rs.length - 1 : Nat) : K) = (rs.length : K) - 1 := by
        rw [Nat.cast_sub (by omega)]; simp
      rw [hil, this]
  · intro lo hi hb hne b
    have hlen : 0 < rs.length := List.length_pos_iff.mpr hne
    have hlK : ((rs.length - 1 : Nat) : K) = (rs.length : K) - 1 := by
      rw [Nat.cast_sub hlen]; simp
    rcases lt_or_ge b 0 with h | h
    · have hv0 : rs.head? = some rs[0] := by rw [List.head?_eq_getElem?, List.getElem?_eq_getElem hlen]
      rw [hf.before _ hv0 b h.le]
      exact hb _ (List.getElem_mem _)
    · rcases lt_or_ge b ((rs.length : K) - 1) with h' | h'
      · rw [← hlK] at h'
        obtain ⟨i, hi', -, h1, h2⟩ := floor_nat b _ h h'
        have e := hf.seg i rs[i] rs[i + 1] (List.getElem?_eq_getElem (by omega))
          (List.getElem?_eq_getElem (by omega)) (b - i) (by linarith) (by linarith)
        rw [add_sub_cancel] at e
        rw [e]
        obtain ⟨a1, a2⟩ := hb rs[i] (List.getElem_mem _)
        obtain ⟨b1, b2⟩ := hb rs[i + 1] (List.getElem_mem _)
        constructor <;> nlinarith
      · have hv : rs.getLast? = some (rs.getLast hne) := List.getLast?_eq_some_getLast hne
        rw [hf.after _ hv b h']
        exact hb _ (List.getLast_mem hne)

example : radius ([1, 3, 2] : List ℚ) (3 / 2) = .ok (5 / 2) ∧ radius ([1, 3, 2] : List ℚ) (-4) = .ok 1 ∧
    radius ([1, 3, 2] : List ℚ) 7 = .ok 2 := by decide +kernel

end

end Maps
end Verif
