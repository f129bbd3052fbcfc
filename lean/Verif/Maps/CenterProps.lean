import Verif.Maps.LaneProps

/-!
# C53, C54, C55, C79, C80 for lanes with poses
-/

namespace Verif
namespace Maps

open Mat3

/-- Specification: a lane with at least one control point and no two consecutive ones at the same
place. -/
structure GoodLane (cps : List CtrPoint) : Prop where
  ne : cps ≠ []
  distinct : ∀ (i : Nat) (c d : CtrPoint), cps[i]? = some c → cps[i + 1]? = some d →
    ¬ (c.q.x = d.q.x ∧ c.q.y = d.q.y)

theorem laneLengths_length (cps : List CtrPoint) : (laneLengths cps).length = cps.length - 1 := by
  simp [laneLengths]

theorem laneLengths_get (cps : List CtrPoint) (i : Nat) (c d : CtrPoint) (hc : cps[i]? = some c)
    (hd : cps[i + 1]? = some d) : (laneLengths cps)[i]? = some (distSE2 c.q.asSE2 d.q.asSE2) := by
  unfold laneLengths
  rw [List.getElem?_map]
  have : (cps.zip cps.tail)[i]? = some (c, d) := by
    rw [List.getElem?_zip_eq_some]
    exact ⟨hc, by rw [List.getElem?_tail]; exact hd⟩
  rw [this]
  rfl

theorem laneLengths_mem (cps : List CtrPoint) (l : ℝ) (h : l ∈ laneLengths cps) :
    ∃ (i : Nat) (c d : CtrPoint), cps[i]? = some c ∧ cps[i + 1]? = some d ∧
      l = distSE2 c.q.asSE2 d.q.asSE2 := by
  obtain ⟨i, hi⟩ := List.mem_iff_getElem?.mp h
  have hlt : i < cps.length - 1 := by
    rw [← laneLengths_length]; exact (List.getElem?_eq_some_iff.mp hi).1
  have hc : cps[i]? = some cps[i] := List.getElem?_eq_getElem (by omega)
  have hd : cps[i + 1]? = some cps[i + 1] := List.getElem?_eq_getElem (by omega)
  refine ⟨i, _, _, hc, hd, ?_⟩
  rw [laneLengths_get cps i _ _ hc hd] at hi
  injection hi with hi
  exact hi.symm

theorem laneLengths_nonneg (cps : List CtrPoint) : ∀ l ∈ laneLengths cps, 0 ≤ l := by
  intro l hl
  obtain ⟨i, c, d, -, -, rfl⟩ := laneLengths_mem cps l hl
  exact norm2_nonneg _ _

theorem GoodLane.pos {cps : List CtrPoint} (h : GoodLane cps) : ∀ l ∈ laneLengths cps, 0 < l := by
  intro l hl
  obtain ⟨i, c, d, hc, hd, rfl⟩ := laneLengths_mem cps l hl
  have hne := h.distinct i c d hc hd
  have h0 := (C56_distance _ _ (asSE2_rigid c.q) (asSE2_rigid d.q)).2.1
  have hnn : 0 ≤ distSE2 c.q.asSE2 d.q.asSE2 := norm2_nonneg _ _
  rcases lt_or_eq_of_le hnn with h | h
  · exact h
  · exact absurd (h0.mp h.symm) hne

theorem len_eq {cps : List CtrPoint} (h : cps ≠ []) : (laneLengths cps).length + 1 = cps.length := by
  rw [laneLengths_length]
  have := List.length_pos_iff.mpr h
  omega

/-- **C53.** On every lane with at least one control point neither conversion raises, and on one whose
consecutive control points differ they are strictly increasing and inverse to each other, up to the snap
at the end. -/
theorem C53_lane (cps : List CtrPoint) (hne : cps ≠ []) :
    (∀ b, ∃ a, alongFromBeta (laneLengths cps) cps.length b = .ok a) ∧
    (∀ a, ∃ b, betaFromAlong (laneLengths cps) cps.length a = .ok b) ∧
    (GoodLane cps →
      (∀ b b' a a', b < b' → alongFromBeta (laneLengths cps) cps.length b = .ok a →
        alongFromBeta (laneLengths cps) cps.length b' = .ok a' → a < a') ∧
      (∀ b a, alongFromBeta (laneLengths cps) cps.length b = .ok a → ¬ Snap (laneLengths cps) a →
        betaFromAlong (laneLengths cps) cps.length a = .ok b) ∧
      (∀ a b, betaFromAlong (laneLengths cps) cps.length a = .ok b → ¬ Snap (laneLengths cps) a →
        alongFromBeta (laneLengths cps) cps.length b = .ok a)) := by
  obtain ⟨f, hf, he⟩ := C53_along (laneLengths cps)
  rw [len_eq hne] at he
  refine ⟨fun b => ⟨_, he b⟩, fun a => ?_, fun hg => ⟨?_, ?_, ?_⟩⟩
  · have := C53_no_assertion (laneLengths cps) (laneLengths_nonneg cps) a
    rw [len_eq hne] at this
    exact this
  · intro b b' a a' hb h1 h2
    rw [he] at h1 h2
    injection h1 with h1
    injection h2 with h2
    rw [← h1, ← h2]
    exact C53_along_strict _ hg.pos f hf hb
  · intro b a h1 hs
    have := C53_inverse (laneLengths cps) hg.pos b a (by rw [len_eq hne]; exact h1) hs
    rw [len_eq hne] at this
    exact this
  · intro a b h1 hs
    obtain ⟨b', h2, h3, -⟩ := C53_beta (laneLengths cps) hg.pos f hf a
    rw [len_eq hne, h1] at h2
    injection h2 with h2
    subst h2
    rw [he, h3 hs]

/-! ## C55: the center line -/

theorem ahead_rigid (q : Transform) : IsRigid (ahead q) :=
  (asSE2_rigid q).mul ⟨1, 0, 1 / 10, 0, by norm_num, rfl⟩

theorem interp_ahead (q : Transform) (a : ℝ) :
    interpSE2 q.asSE2 (ahead q) a = q.asSE2.mul (rigid 1 0 (a / 10) 0) := by
  unfold interpSE2 ahead
  rw [← mul_assoc', cof_mul _ (asSE2_rigid q).det_ne, one_mul', log_of_zero, exp_of_zero]
  · simp only [Twist.smul]
    rw [show a * (1 / 10) = a / 10 by ring, mul_zero]
  · simp [Twist.smul]
  · have := atan2_cos_sin 0 (by linarith [Real.pi_pos]) Real.pi_pos.le
    simpa using this

/-- Specification of the center line: it passes through the control points in order, along the arc of
constant curvature joining consecutive ones, and continues straight along the first and last heading, a
tenth of a metre per unit of progress. -/
structure IsCenter (cps : List CtrPoint) (f : ℝ → Mat3 ℝ) : Prop where
  at_ctr : ∀ (i : Nat) (c : CtrPoint), cps[i]? = some c → f i = c.q.asSE2
  seg : ∀ (i : Nat) (c d : CtrPoint), cps[i]? = some c → cps[i + 1]? = some d → ∀ a, 0 ≤ a → a ≤ 1 →
    f ((i : ℝ) + a) = interpSE2 c.q.asSE2 d.q.asSE2 a
  before : ∀ c, cps.head? = some c → ∀ b, b ≤ 0 → f b = c.q.asSE2.mul (rigid 1 0 (b / 10) 0)
  after : ∀ c, cps.getLast? = some c → ∀ a, 0 ≤ a →
    f ((cps.length : ℝ) - 1 + a) = c.q.asSE2.mul (rigid 1 0 (a / 10) 0)

theorem head_last (cps : List CtrPoint) (hne : cps ≠ []) :
    (∃ c, cps[0]? = some c) ∧ (∃ c, cps.getLast? = some c) := by
  constructor
  · cases cps with
    | nil => exact absurd rfl hne
    | cons a t => exact ⟨a, rfl⟩
  · cases h : cps.getLast? with
    | none => exact absurd (List.getLast?_eq_none_iff.mp h) hne
    | some v => exact ⟨v, rfl⟩

section Cases
/-! The three cases of the two center functions. -/

theorem center_before (cps : List CtrPoint) (c : CtrPoint) (hc : cps[0]? = some c) (b : ℝ) (hb : b < 0) :
    centerPoint cps b = .ok (interpSE2 c.q.asSE2 (ahead c.q) b) ∧
    centerFast cps b = .ok (blend c.q (Transform.fromSE2 (ahead c.q)) b) := by
  have h1 : ⌊b⌋ < 0 := Int.floor_lt.mpr (by simpa using hb)
  have h2 : pyGet cps 0 = .ok c := pyGet_nat cps 0 c hc
  unfold centerPoint centerFast
  simp only [if_pos h1, h2]
  exact ⟨trivial, trivial⟩

theorem center_after (cps : List CtrPoint) (c : CtrPoint) (hc : cps.getLast? = some c) (b : ℝ)
    (hb : (cps.length : ℝ) - 1 ≤ b) :
    centerPoint cps b = .ok (interpSE2 c.q.asSE2 (ahead c.q) (b - ((cps.length : ℝ) - 1))) ∧
    centerFast cps b = .ok (blend c.q (Transform.fromSE2 (ahead c.q)) (b - ((cps.length : ℝ) - 1))) := by
  have h1 : (cps.length : Int) - 1 ≤ ⌊b⌋ := by
    rw [Int.le_floor]; push_cast; exact hb
  have hl : 0 < cps.length := by
    cases cps with
    | nil => simp at hc
    | cons => simp
  have h0 : ¬ ⌊b⌋ < 0 := by omega
  have h2 := pyGet_last cps c hc
  unfold centerPoint centerFast
  simp only [if_neg h0, if_pos h1, h2]
  exact ⟨trivial, trivial⟩

theorem center_seg (cps : List CtrPoint) (i : Nat) (c d : CtrPoint) (hc : cps[i]? = some c)
    (hd : cps[i + 1]? = some d) (a : ℝ) (h0 : 0 ≤ a) (h1 : a < 1) :
    centerPoint cps ((i : ℝ) + a) = .ok (interpSE2 c.q.asSE2 d.q.asSE2 a) ∧
    centerFast cps ((i : ℝ) + a) = .ok (blend c.q d.q a) := by
  have hi : i + 1 < cps.length := (List.getElem?_eq_some_iff.mp hd).1
  have hfl : ⌊(i : ℝ) + a⌋ = (i : Int) := by
    rw [Int.floor_eq_iff]; constructor <;> simp [h0, h1]
  have g1 : ¬ ((i : Int) < 0) := by omega
  have g2 : ¬ ((cps.length : Int) - 1 ≤ (i : Int)) := by omega
  have p1 := pyGet_nat cps i c hc
  have p2 := pyGet_nat cps (i + 1) d hd
  push_cast at p2
  unfold centerPoint centerFast
  simp only [hfl, if_neg g1, if_neg g2, p1, p2, Int.cast_natCast, add_sub_cancel_left]
  exact ⟨trivial, trivial⟩

theorem center_total (cps : List CtrPoint) (hne : cps ≠ []) (b : ℝ) :
    (∃ q, centerPoint cps b = .ok q) ∧ ∃ q, centerFast cps b = .ok q := by
  obtain ⟨⟨c, hc⟩, ⟨cl, hcl⟩⟩ := head_last cps hne
  have hlen : 0 < cps.length := List.length_pos_iff.mpr hne
  have hlK : ((cps.length - 1 : Nat) : ℝ) = (cps.length : ℝ) - 1 := by
    rw [Nat.cast_sub hlen]; simp
  rcases lt_or_ge b 0 with h | h
  · exact ⟨⟨_, (center_before cps c hc b h).1⟩, ⟨_, (center_before cps c hc b h).2⟩⟩
  · rcases lt_or_ge b ((cps.length : ℝ) - 1) with h' | h'
    · rw [← hlK] at h'
      obtain ⟨i, hi, -, h1, h2⟩ := floor_nat b _ h h'
      have := center_seg cps i cps[i] cps[i + 1] (List.getElem?_eq_getElem (by omega))
        (List.getElem?_eq_getElem (by omega)) (b - i) (by linarith) (by linarith)
      rw [add_sub_cancel] at this
      exact ⟨⟨_, this.1⟩, ⟨_, this.2⟩⟩
    · exact ⟨⟨_, (center_after cps cl hcl b h').1⟩, ⟨_, (center_after cps cl hcl b h').2⟩⟩

end Cases

/-- **C55.** `center_point` never raises on a lane with at least one control point and is the specified
line. -/
theorem C55_center (cps : List CtrPoint) (hne : cps ≠ []) :
    ∃ f, IsCenter cps f ∧ ∀ b, centerPoint cps b = .ok (f b) := by
  have htot := fun b => (center_total cps hne b).1
  choose f hf using htot
  have ok_inj : ∀ {x y : Mat3 ℝ}, (Except.ok x : Except Err (Mat3 ℝ)) = .ok y → x = y := by
    intro x y h; injection h
  have hone : ∀ q : Mat3 ℝ, q.mul (rigid 1 0 (0 / 10) 0) = q := by
    intro q
    rw [show rigid (1 : ℝ) 0 (0 / 10) 0 = one by simp [rigid, one], mul_one']
  have hlen : 0 < cps.length := List.length_pos_iff.mpr hne
  have hlK : ((cps.length - 1 : Nat) : ℝ) = (cps.length : ℝ) - 1 := by
    rw [Nat.cast_sub hlen]; simp
  have hafter : ∀ c, cps.getLast? = some c → ∀ a, 0 ≤ a →
      f ((cps.length : ℝ) - 1 + a) = c.q.asSE2.mul (rigid 1 0 (a / 10) 0) := by
    intro c hc a ha
    have := (center_after cps c hc _ (by linarith : (cps.length : ℝ) - 1 ≤ (cps.length : ℝ) - 1 + a)).1
    rw [hf, add_sub_cancel_left, interp_ahead] at this
    exact ok_inj this
  have hat : ∀ (i : Nat) (c : CtrPoint), cps[i]? = some c → f i = c.q.asSE2 := by
    intro i c hc
    have hi : i < cps.length := (List.getElem?_eq_some_iff.mp hc).1
    rcases Nat.lt_or_ge (i + 1) cps.length with h | h
    · have := (center_seg cps i c cps[i + 1] hc (List.getElem?_eq_getElem h) 0 le_rfl one_pos).1
      rw [add_zero, hf, (C56_interpolate _ _ (asSE2_rigid _) (asSE2_rigid _)).1] at this
      exact ok_inj this
    · have hil : i = cps.length - 1 := by omega
      have := hafter c (by rw [List.getLast?_eq_getElem?, ← hil, hc]) 0 le_rfl
      rw [add_zero, hone, ← hlK, ← hil] at this
      exact this
  refine ⟨f, ⟨hat, ?_, ?_, hafter⟩, hf⟩
  · intro i c d hc hd a h0 h1
    rcases lt_or_eq_of_le h1 with h | h
    · exact ok_inj ((hf _).symm.trans (center_seg cps i c d hc hd a h0 h).1)
    · subst h
      have := hat (i + 1) d hd
      push_cast at this
      rw [this, (C56_interpolate _ _ (asSE2_rigid _) (asSE2_rigid _)).2.1]
  · intro c hc b hb
    rw [List.head?_eq_getElem?] at hc
    rcases lt_or_eq_of_le hb with h | h
    · have := (center_before cps c hc b h).1
      rw [hf, interp_ahead] at this
      exact ok_inj this
    · subst h
      have := hat 0 c hc
      rw [Nat.cast_zero] at this
      rw [this, hone]

/-- **C55.** The fast center line: it never raises on a lane with at least one control point, passes
through the positions and headings of the control points, is the straight segment between consecutive
ones, and continues straight along the first and last heading. -/
theorem C55_fast (cps : List CtrPoint) (hne : cps ≠ []) :
    ∃ f : ℝ → Transform, (∀ b, centerFast cps b = .ok (f b)) ∧
      (∀ (i : Nat) (c : CtrPoint), cps[i]? = some c → f i = c.q) ∧
      (∀ (i : Nat) (c d : CtrPoint), cps[i]? = some c → cps[i + 1]? = some d → ∀ a, 0 ≤ a → a ≤ 1 →
        (f ((i : ℝ) + a)).x = c.q.x + a * (d.q.x - c.q.x) ∧
        (f ((i : ℝ) + a)).y = c.q.y + a * (d.q.y - c.q.y)) ∧
      (∀ c, cps.head? = some c → ∀ b, b ≤ 0 → (f b).x = c.q.x + b / 10 * Real.cos c.q.theta ∧
        (f b).y = c.q.y + b / 10 * Real.sin c.q.theta) ∧
      (∀ c, cps.getLast? = some c → ∀ a, 0 ≤ a →
        (f ((cps.length : ℝ) - 1 + a)).x = c.q.x + a / 10 * Real.cos c.q.theta ∧
        (f ((cps.length : ℝ) - 1 + a)).y = c.q.y + a / 10 * Real.sin c.q.theta) := by
  have htot := fun b => (center_total cps hne b).2
  choose f hf using htot
  have ok_inj : ∀ {x y : Transform}, (Except.ok x : Except Err Transform) = .ok y → x = y := by
    intro x y h; injection h
  have hlen : 0 < cps.length := List.length_pos_iff.mpr hne
  have hlK : ((cps.length - 1 : Nat) : ℝ) = (cps.length : ℝ) - 1 := by
    rw [Nat.cast_sub hlen]; simp
  have hafter : ∀ c, cps.getLast? = some c → ∀ a, 0 ≤ a →
      f ((cps.length : ℝ) - 1 + a) = blend c.q (Transform.fromSE2 (ahead c.q)) a := by
    intro c hc a ha
    have := (center_after cps c hc _ (by linarith : (cps.length : ℝ) - 1 ≤ (cps.length : ℝ) - 1 + a)).2
    rw [hf, add_sub_cancel_left] at this
    exact ok_inj this
  have hzero : ∀ p q : Transform, blend p q 0 = p := by
    intro p q; ext <;> simp [blend]
  have hat : ∀ (i : Nat) (c : CtrPoint), cps[i]? = some c → f i = c.q := by
    intro i c hc
    have hi : i < cps.length := (List.getElem?_eq_some_iff.mp hc).1
    rcases Nat.lt_or_ge (i + 1) cps.length with h | h
    · have := (center_seg cps i c cps[i + 1] hc (List.getElem?_eq_getElem h) 0 le_rfl one_pos).2
      rw [add_zero, hf, hzero] at this
      exact ok_inj this
    · have hil : i = cps.length - 1 := by omega
      have := hafter c (by rw [List.getLast?_eq_getElem?, ← hil, hc]) 0 le_rfl
      rw [add_zero, hzero, ← hlK, ← hil] at this
      exact this
  have hb : ∀ (q : Transform) (a : ℝ),
      (blend q (Transform.fromSE2 (ahead q)) a).x = q.x + a / 10 * Real.cos q.theta ∧
      (blend q (Transform.fromSE2 (ahead q)) a).y = q.y + a / 10 * Real.sin q.theta := by
    intro q a
    simp only [blend, Transform.fromSE2, ahead, Transform.asSE2, rigid, Mat3.mul]
    constructor <;> ring
  refine ⟨f, hf, hat, ?_, ?_, ?_⟩
  · intro i c d hc hd a h0 h1
    rcases lt_or_eq_of_le h1 with h | h
    · rw [ok_inj ((hf _).symm.trans (center_seg cps i c d hc hd a h0 h).2)]
      simp only [blend]
      constructor <;> ring
    · subst h
      have := hat (i + 1) d hd
      push_cast at this
      rw [this]
      constructor <;> ring
  · intro c hc b hb'
    rw [List.head?_eq_getElem?] at hc
    rcases lt_or_eq_of_le hb' with h | h
    · rw [ok_inj ((hf _).symm.trans (center_before cps c hc b h).2)]
      exact hb c.q b
    · subst h
      have := hat 0 c hc
      rw [Nat.cast_zero] at this
      rw [this]
      constructor <;> ring
  · intro c hc a ha
    rw [hafter c hc a ha]
    exact hb c.q a

/-- The headings of the fast center line are interpolated as numbers: between two control points heading
almost backwards, `0.9 π` and `-0.9 π`, the heading half way points forwards. (`center_point` turns the
short way.) -/
theorem C55_fast_heading_counterexample : ∃ cps : List CtrPoint, ∃ t,
    (∀ c ∈ cps, Real.cos c.q.theta < 0) ∧ centerFast cps (1 / 2) = .ok t ∧ Real.cos t.theta = 1 := by
  refine ⟨[⟨⟨0, 0, 9 / 10 * Real.pi⟩, 1⟩, ⟨⟨-1, 0, -(9 / 10 * Real.pi)⟩, 1⟩],
    blend ⟨0, 0, 9 / 10 * Real.pi⟩ ⟨-1, 0, -(9 / 10 * Real.pi)⟩ (1 / 2), ?_, ?_, ?_⟩
  rotate_left
  · have := (center_seg [⟨⟨0, 0, 9 / 10 * Real.pi⟩, 1⟩, ⟨⟨-1, 0, -(9 / 10 * Real.pi)⟩, 1⟩] 0 _ _ rfl rfl
      (1 / 2) (by norm_num) (by norm_num)).2
    rw [Nat.cast_zero, zero_add] at this
    exact this
  · simp only [blend]
    rw [show 9 / 10 * Real.pi * (1 - 1 / 2) + -(9 / 10 * Real.pi) * (1 / 2) = 0 by ring, Real.cos_zero]
  · have hp := Real.pi_pos
    have h1 : Real.cos (9 / 10 * Real.pi) < 0 :=
      Real.cos_neg_of_pi_div_two_lt_of_lt (by linarith) (by linarith)
    intro c hc
    simp only [List.mem_cons, List.not_mem_nil, or_false] at hc
    rcases hc with rfl | rfl
    · exact h1
    · simp only [Real.cos_neg]; exact h1

/-! ## C79: position along the lane is arc length -/

/-- **C79, within the lane.** On each segment the difference of the positions along the lane of two
points of the center line is the length of the arc between them. -/
theorem C79_arc_partial (cps : List CtrPoint) (f : ℝ → Mat3 ℝ) (hf : IsCenter cps f) (g : ℝ → ℝ)
    (hg : IsAlong (laneLengths cps) g) (i : Nat) (c d : CtrPoint) (hc : cps[i]? = some c)
    (hd : cps[i + 1]? = some d) (a b : ℝ) (h0 : 0 ≤ a) (hab : a ≤ b) (h1 : b ≤ 1) :
    distSE2 (f ((i : ℝ) + a)) (f ((i : ℝ) + b)) = g ((i : ℝ) + b) - g ((i : ℝ) + a) := by
  have hl := laneLengths_get cps i c d hc hd
  rw [hf.seg i c d hc hd a h0 (by linarith), hf.seg i c d hc hd b (by linarith) h1,
    (C56_interpolate _ _ (asSE2_rigid _) (asSE2_rigid _)).2.2.2.1 a b hab (by linarith),
    hg.seg i _ hl _ (by linarith) (by linarith), hg.seg i _ hl _ (by linarith) (by linarith)]
  ring

/-- **C79 is false beyond the ends**: there the center line moves a tenth of a metre per metre of
position along the lane. -/
theorem C79_false_outside (cps : List CtrPoint) (hne : cps ≠ []) (f : ℝ → Mat3 ℝ) (hf : IsCenter cps f)
    (g : ℝ → ℝ) (hg : IsAlong (laneLengths cps) g) (a b : ℝ) (h0 : 0 ≤ a) (hab : a ≤ b) :
    distSE2 (f ((cps.length : ℝ) - 1 + a)) (f ((cps.length : ℝ) - 1 + b)) = (b - a) / 10 ∧
    g ((cps.length : ℝ) - 1 + b) - g ((cps.length : ℝ) - 1 + a) = b - a ∧
    distSE2 (f (-b)) (f (-a)) = (b - a) / 10 ∧ g (-a) - g (-b) = b - a := by
  obtain ⟨⟨c, hc⟩, ⟨cl, hcl⟩⟩ := head_last cps hne
  have hlK : ((laneLengths cps).length : ℝ) = (cps.length : ℝ) - 1 := by
    rw [← len_eq hne]; push_cast; ring
  have hdist : ∀ (q : Mat3 ℝ), IsRigid q → ∀ x y : ℝ, x ≤ y →
      distSE2 (q.mul (rigid 1 0 x 0)) (q.mul (rigid 1 0 y 0)) = y - x := by
    intro q hq x y hxy
    have r1 : IsRigid (rigid (1 : ℝ) 0 x 0) := ⟨1, 0, x, 0, by norm_num, rfl⟩
    have r2 : IsRigid (rigid (1 : ℝ) 0 y 0) := ⟨1, 0, y, 0, by norm_num, rfl⟩
    rw [(C56_distance_frame q _ _ hq r1 r2).1, (C56_distance _ _ r1 r2).2.2.2.2 rfl rfl]
    simp only [normBetween, rigid, norm2]
    rw [show (x - y) ^ 2 + (0 - 0) ^ 2 = (y - x) ^ 2 by ring, Real.sqrt_sq (by linarith)]
  refine ⟨?_, ?_, ?_, ?_⟩
  · rw [hf.after cl hcl a h0, hf.after cl hcl b (by linarith), hdist _ (asSE2_rigid _) _ _ (by linarith)]
    ring
  · rw [hg.after _ (by linarith), hg.after _ (by linarith)]
    ring
  · have hh : cps.head? = some c := by rw [List.head?_eq_getElem?]; exact hc
    rw [hf.before c hh _ (by linarith), hf.before c hh _ (by linarith),
      hdist _ (asSE2_rigid _) _ _ (by linarith)]
    ring
  · rw [hg.before _ (by linarith), hg.before _ (by linarith)]
    ring

/-- The case of a lane with two control points, one metre beyond its end. -/
example : ∃ cps : List CtrPoint, ∃ f g, cps.length = 2 ∧ IsCenter cps f ∧ IsAlong (laneLengths cps) g := by
  obtain ⟨f, hf, -⟩ := C55_center [⟨⟨0, 0, 0⟩, 1⟩, ⟨⟨5, 0, 0⟩, 1⟩] (by simp)
  obtain ⟨g, hg, -⟩ := C53_along (laneLengths [⟨⟨0, 0, 0⟩, 1⟩, ⟨⟨5, 0, 0⟩, 1⟩])
  exact ⟨_, f, g, rfl, hf, hg⟩

/-! ## C54 for lanes -/

/-- **C54.** On a lane with at least one control point and radii that are not negative `lane_pose` never
raises; its flags and distances are those specified for the radius of the lane there, which lies within
the radii of the control points. -/
theorem C54_lane (cps : List CtrPoint) (hne : cps ≠ []) (hr : ∀ c ∈ cps, 0 ≤ c.r)
    (along heading lateral : ℝ) :
    ∃ p r b, lanePose cps along heading lateral = .ok p ∧ 0 ≤ r ∧
      betaFromAlong (laneLengths cps) cps.length along = .ok b ∧ radius (cps.map (·.r)) b = .ok r ∧
      p.flags = laneFlags r (laneLength cps) along lateral ∧ 0 ≤ laneLength cps ∧
      p.lateralLeft = r ∧ p.lateralRight = -r ∧
      p.along = along ∧ p.lateral = lateral ∧ p.relHeading = heading ∧
      (p.correctDirection = true ↔ |heading| ≤ Real.pi / 2) := by
  obtain ⟨b, hb⟩ := (C53_lane cps hne).2.1 along
  obtain ⟨f, hf, he⟩ := C55_radius (cps.map (·.r)) (by simpa using hne)
  obtain ⟨q, hq⟩ := (center_total cps hne b).1
  have hr0 : 0 ≤ f b := by
    have : ∀ b, 0 ≤ f b := by
      intro b
      by_contra hneg
      have hall : ∀ v ∈ cps.map (·.r), 0 ≤ v ∧ v ≤ (cps.map (·.r)).sum := by
        intro v hv
        obtain ⟨c, hc, rfl⟩ := List.mem_map.mp hv
        exact ⟨hr c hc, List.single_le_sum (by
          intro x hx
          obtain ⟨d, hd, rfl⟩ := List.mem_map.mp hx
          exact hr d hd) _ hv⟩
      exact hneg ((C55_bounds _ f hf).2 0 _ hall (by simpa using hne) b).1
    exact this b
  refine ⟨⟨laneFlags (f b) (laneLength cps) along lateral, lateral, along, heading,
    @decide (|heading| ≤ Real.pi / 2) (Classical.propDecidable _), f b, -f b, Transform.fromSE2 q⟩,
    f b, b, ?_, hr0, hb, he b, ?_⟩
  · unfold lanePose
    simp only [hb, hq, he b]
  · refine ⟨rfl, List.sum_nonneg (laneLengths_nonneg cps), rfl, rfl, rfl, rfl, rfl, ?_⟩
    simp

/-- **C54.** What the pose found for a rigid pose means: the given pose is the reported center point,
followed by an offset whose lateral part is the reported one and a turn by the reported heading, which
is in `(-π, π]`; the direction is correct exactly when the heading has no component against the lane. -/
theorem C54_pose (closest : ℝ × ℝ → ℝ) (cps : List CtrPoint) (hg : GoodLane cps)
    (hr : ∀ c ∈ cps, 0 ≤ c.r) (q : Mat3 ℝ) (hq : IsRigid q)
    (hs : ∀ a, alongFromBeta (laneLengths cps) cps.length (closest (q.a02, q.a12)) = .ok a →
      ¬ Snap (laneLengths cps) a) :
    ∃ p lon, lanePoseOf closest cps q = .ok p ∧
      q = p.center.asSE2.mul (rigid (Real.cos p.relHeading) (Real.sin p.relHeading) lon p.lateral) ∧
      alongFromBeta (laneLengths cps) cps.length (closest (q.a02, q.a12)) = .ok p.along ∧
      -Real.pi < p.relHeading ∧ p.relHeading ≤ Real.pi ∧
      (p.correctDirection = true ↔ 0 ≤ Real.cos p.relHeading) := by
  set b := closest (q.a02, q.a12) with hbdef
  obtain ⟨f, hf, he⟩ := C55_center cps hg.ne
  obtain ⟨a, ha⟩ := (C53_lane cps hg.ne).1 b
  have hinv := ((C53_lane cps hg.ne).2.2 hg).2.1 b a ha (hs a ha)
  have hfr : ∀ b, IsRigid (f b) := by
    intro b
    have hlen : 0 < cps.length := List.length_pos_iff.mpr hg.ne
    have hlK : ((cps.length - 1 : Nat) : ℝ) = (cps.length : ℝ) - 1 := by
      rw [Nat.cast_sub hlen]; simp
    obtain ⟨⟨c, hc⟩, ⟨cl, hcl⟩⟩ := head_last cps hg.ne
    have hrr : ∀ x : ℝ, IsRigid (rigid (1 : ℝ) 0 x 0) := fun x => ⟨1, 0, x, 0, by norm_num, rfl⟩
    rcases lt_or_ge b 0 with h | h
    · rw [hf.before c (by rw [List.head?_eq_getElem?]; exact hc) b h.le]
      exact (asSE2_rigid _).mul (hrr _)
    · rcases lt_or_ge b ((cps.length : ℝ) - 1) with h' | h'
      · rw [← hlK] at h'
        obtain ⟨i, hi, -, h1, h2⟩ := floor_nat b _ h h'
        have := hf.seg i cps[i] cps[i + 1] (List.getElem?_eq_getElem (by omega))
          (List.getElem?_eq_getElem (by omega)) (b - i) (by linarith) (by linarith)
        rw [add_sub_cancel] at this
        rw [this]
        exact (C56_interpolate _ _ (asSE2_rigid _) (asSE2_rigid _)).2.2.1 _
      · have := hf.after cl hcl (b - ((cps.length : ℝ) - 1)) (by linarith)
        rw [add_sub_cancel] at this
        rw [this]
        exact (asSE2_rigid _).mul (hrr _)
  obtain ⟨rel, hrel, hrig, hmul⟩ := (C56_relative (f b) q).2 (hfr b) hq
  obtain ⟨p, r, b', hp, -, hb', hrad, -, -, -, -, pal, plat, phead, pdir⟩ :=
    C54_lane cps hg.ne hr a (atan2 rel.a10 rel.a00) rel.a12
  rw [hinv] at hb'
  injection hb' with hb'
  subst hb'
  have hpc : p.center = Transform.fromSE2 (f b) := by
    unfold lanePose at hp
    simp only [hinv, he b, hrad] at hp
    injection hp with hp
    rw [← hp]
  obtain ⟨c, s, x, y, hcs, rfl⟩ := hrig
  obtain ⟨t1, t2, t3, t4⟩ := atan2_spec c s hcs
  simp only [rigid] at phead plat
  refine ⟨p, x, ?_, ?_, ?_, ?_, ?_, ?_⟩
  · unfold lanePoseOf
    simp only [← hbdef, he b, ha, hrel]
    exact hp
  · rw [hpc, (C56_convert (f b) (hfr b) Transform.identity).1, phead, plat, t1, t2]
    exact hmul.symm
  · rw [pal]; exact ha
  · rw [phead]; exact t3
  · rw [phead]; exact t4
  · rw [pdir, phead]
    simp only [rigid]
    constructor
    · intro h
      rw [abs_le] at h
      exact Real.cos_nonneg_of_mem_Icc ⟨by linarith, h.2⟩
    · intro h
      by_contra hgt
      rw [not_le] at hgt
      have hneg : Real.cos |atan2 s c| < 0 :=
        Real.cos_neg_of_pi_div_two_lt_of_lt hgt (by
          have := abs_le.mpr ⟨t3.le, t4⟩
          linarith [Real.pi_pos])
      rw [Real.cos_abs] at hneg
      linarith

example : GoodLane [⟨⟨0, 0, 0⟩, 1⟩, ⟨⟨5, 0, 0⟩, 1⟩] := by
  refine ⟨by simp, fun i c d hc hd => ?_⟩
  match i with
  | 0 =>
    simp only [List.getElem?_cons_zero, Option.some.injEq] at hc
    simp only [zero_add, List.getElem?_cons_succ, List.getElem?_cons_zero, Option.some.injEq] at hd
    subst hc hd
    norm_num
  | (n + 1) => simp at hd

/-! ## C80: lanes from their boundaries -/

/-- **C80.** When the center vertices are the midpoints of the left and right vertices, the lane built
from them has, at each control point, exactly these vertices as bounds (the first coordinate of the
result is the right one), its heading is the right-to-left direction turned clockwise, and its radius
half the width. -/
theorem C80_vertices (left right center : List (ℝ × ℝ)) (hl : left.length = center.length)
    (hr : right.length = center.length)
    (hmid : ∀ (i : Nat) (l r c : ℝ × ℝ), left[i]? = some l → right[i]? = some r → center[i]? = some c →
      c = ((l.1 + r.1) / 2, (l.2 + r.2) / 2)) :
    ∃ cps, fromVertices left right center = .ok cps ∧ cps.length = center.length ∧
      ∀ (i : Nat) (l r : ℝ × ℝ), left[i]? = some l → right[i]? = some r →
        boundsAt cps i = .ok (r, l) ∧
        ∃ c, cps[i]? = some c ∧ (2 * c.r) ^ 2 = (r.1 - l.1) ^ 2 + (r.2 - l.2) ^ 2 ∧
          2 * c.r * Real.cos c.q.theta = l.2 - r.2 ∧ 2 * c.r * Real.sin c.q.theta = r.1 - l.1 := by
  have hget : ∀ i, i < center.length → ∃ p, (match center[i]?, right[i]?, left[i]? with
      | some c, some r, some l => (.ok (ctrPointOf l r c) : Except Err CtrPoint)
      | _, _, _ => .error .index) = .ok p ∧
      ∀ l r c, left[i]? = some l → right[i]? = some r → center[i]? = some c → p = ctrPointOf l r c := by
    intro i hi
    have h1 := List.getElem?_eq_getElem hi
    have h2 := List.getElem?_eq_getElem (l := right) (i := i) (by omega)
    have h3 := List.getElem?_eq_getElem (l := left) (i := i) (by omega)
    refine ⟨ctrPointOf left[i] right[i] center[i], ?_, ?_⟩
    · rw [h1, h2, h3]
    · intro l r c e1 e2 e3
      rw [h1] at e3; rw [h2] at e2; rw [h3] at e1
      injection e1 with e1; injection e2 with e2; injection e3 with e3
      rw [e1, e2, e3]
  have hmap : ∀ n, n ≤ center.length → ∃ cps, (List.range n).mapM (fun i =>
      match center[i]?, right[i]?, left[i]? with
      | some c, some r, some l => (.ok (ctrPointOf l r c) : Except Err CtrPoint)
      | _, _, _ => .error .index) = .ok cps ∧ cps.length = n ∧
      ∀ i l r c, i < n → left[i]? = some l → right[i]? = some r → center[i]? = some c →
        cps[i]? = some (ctrPointOf l r c) := by
    intro n
    induction n with
    | zero => intro _; exact ⟨[], rfl, rfl, fun i _ _ _ h => by omega⟩
    | succ n ih =>
      intro hn
      obtain ⟨cps, h1, h2, h3⟩ := ih (by omega)
      obtain ⟨p, hp, hp'⟩ := hget n (by omega)
      refine ⟨cps ++ [p], ?_, by simp [h2], ?_⟩
      · rw [List.range_succ, List.mapM_append, h1]
        simp only [List.mapM_cons, List.mapM_nil, hp]
        rfl
      · intro i l r c hi e1 e2 e3
        rcases Nat.lt_or_ge i n with h | h
        · rw [List.getElem?_append_left (by omega)]
          exact h3 i l r c h e1 e2 e3
        · obtain rfl : i = n := by omega
          rw [List.getElem?_append_right (by omega), h2, Nat.sub_self]
          rw [hp' l r c e1 e2 e3]
          rfl
  obtain ⟨cps, h1, h2, h3⟩ := hmap center.length le_rfl
  refine ⟨cps, h1, h2, ?_⟩
  intro i l r el er
  have hi : i < center.length := by rw [← hl]; exact (List.getElem?_eq_some_iff.mp el).1
  have ec := List.getElem?_eq_getElem hi
  have hc := h3 i l r _ hi el er ec
  have hm := hmid i l r _ el er ec
  have hne : cps ≠ [] := by intro h; rw [h] at h2; simp at h2; omega
  obtain ⟨f, hf, he⟩ := C55_center cps hne
  obtain ⟨g, hg, hge⟩ := C55_radius (cps.map (·.r)) (by simpa using hne)
  have hrad : g i = (ctrPointOf l r center[i]).r := by
    apply (C55_bounds _ g hg).1
    rw [List.getElem?_map, hc]; rfl
  -- the trigonometry of the normal
  have key : norm2 (r.1 - l.1) (r.2 - l.2) * Real.cos (atan2 (r.1 - l.1) (-(r.2 - l.2))) = l.2 - r.2 ∧
      norm2 (r.1 - l.1) (r.2 - l.2) * Real.sin (atan2 (r.1 - l.1) (-(r.2 - l.2))) = r.1 - l.1 := by
    have hnorm : ‖(⟨-(r.2 - l.2), r.1 - l.1⟩ : ℂ)‖ = norm2 (r.1 - l.1) (r.2 - l.2) := by
      rw [Complex.norm_def, Complex.normSq_mk]
      unfold norm2
      congr 1; ring
    have h1 := Complex.norm_mul_cos_arg (⟨-(r.2 - l.2), r.1 - l.1⟩ : ℂ)
    have h2 := Complex.norm_mul_sin_arg (⟨-(r.2 - l.2), r.1 - l.1⟩ : ℂ)
    rw [hnorm] at h1 h2
    unfold atan2
    exact ⟨by rw [h1]; ring, h2⟩
  refine ⟨?_, _, hc, ?_, ?_, ?_⟩
  · unfold boundsAt
    rw [he, hge, hf.at_ctr i _ hc, hrad]
    simp only
    congr 1
    simp only [applyT2, Transform.asSE2, ctrPointOf, rigid, hm]
    obtain ⟨k1, k2⟩ := key
    generalize Real.cos (atan2 (r.1 - l.1) (-(r.2 - l.2))) = C at *
    generalize Real.sin (atan2 (r.1 - l.1) (-(r.2 - l.2))) = S at *
    ext
    · simp only; linear_combination (1 / 2) * k2
    · simp only; linear_combination (-1 / 2) * k1
    · simp only; linear_combination (-1 / 2) * k2
    · simp only; linear_combination (1 / 2) * k1
  · simp only [ctrPointOf]
    rw [mul_div_cancel₀ _ (two_ne_zero), norm2_sq]
  · simp only [ctrPointOf]
    rw [mul_div_cancel₀ _ (two_ne_zero)]
    exact key.1
  · simp only [ctrPointOf]
    rw [mul_div_cancel₀ _ (two_ne_zero)]
    exact key.2

example : ∀ (i : Nat) (l r c : ℝ × ℝ), ([(0, 1), (5, 1)] : List (ℝ × ℝ))[i]? = some l →
    ([(0, -1), (5, -1)] : List (ℝ × ℝ))[i]? = some r → ([(0, 0), (5, 0)] : List (ℝ × ℝ))[i]? = some c →
    c = ((l.1 + r.1) / 2, (l.2 + r.2) / 2) := by
  intro i l r c h1 h2 h3
  match i with
  | 0 => simp at h1 h2 h3; subst h1 h2 h3; norm_num
  | 1 => simp at h1 h2 h3; subst h1 h2 h3; norm_num
  | (n + 2) => simp at h1

/-! ## C54: points inside a lane -/

/-- **C54.** `is_inside_from_T2value` on a lane with at least two control points: the point is inside exactly
when the position found for it is on some segment between consecutive control points and its distance to the
center point there is at most the radius there, both interpolated linearly. -/
theorem C54_inside (closest : ℝ × ℝ → ℝ) (cps : List CtrPoint) (h2 : 2 ≤ cps.length) (p : ℝ × ℝ) :
    ∃ P : Prop, isInside closest cps p = .ok P ∧
      (P ↔ ∃ (i : Nat) (c d : CtrPoint) (a : ℝ), cps[i]? = some c ∧ cps[i + 1]? = some d ∧ 0 ≤ a ∧ a ≤ 1 ∧
        closest p = i + a ∧
        norm2 (c.q.x + a * (d.q.x - c.q.x) - p.1) (c.q.y + a * (d.q.y - c.q.y) - p.2) ≤
          (1 - a) * c.r + a * d.r) := by
  have hne : cps ≠ [] := by intro h; simp [h] at h2
  obtain ⟨f, hf, -, hseg, -⟩ := C55_fast cps hne
  obtain ⟨g, hg, hgv⟩ := C55_radius (cps.map (·.r)) (by simpa using hne)
  refine ⟨_, by unfold isInside; simp only [hgv, hf]; rfl, ?_⟩
  have hlK : ((cps.length - 1 : Nat) : ℝ) = (cps.length : ℝ) - 1 := by
    rw [Nat.cast_sub (by omega)]; simp
  have at_seg : ∀ (i : Nat) (c d : CtrPoint) (a : ℝ), cps[i]? = some c → cps[i + 1]? = some d → 0 ≤ a →
      a ≤ 1 → closest p = i + a →
      ((f (closest p)).x = c.q.x + a * (d.q.x - c.q.x) ∧ (f (closest p)).y = c.q.y + a * (d.q.y - c.q.y)) ∧
      g (closest p) = (1 - a) * c.r + a * d.r := by
    intro i c d a hc hd h0 h1 hb
    rw [hb]
    exact ⟨hseg i c d hc hd a h0 h1, hg.seg i c.r d.r (by simp [hc]) (by simp [hd]) a h0 h1⟩
  constructor
  · rintro ⟨hn, h0, h1⟩
    have key : ∃ (i : Nat) (a : ℝ), i + 1 < cps.length ∧ 0 ≤ a ∧ a ≤ 1 ∧ closest p = i + a := by
      rcases lt_or_eq_of_le h1 with h | h
      · rw [← hlK] at h
        obtain ⟨i, hi, -, hl, hu⟩ := floor_nat (closest p) _ h0 h
        exact ⟨i, closest p - i, by omega, by linarith, by linarith, by ring⟩
      · refine ⟨cps.length - 2, 1, by omega, by norm_num, le_rfl, ?_⟩
        rw [h, Nat.cast_sub h2]
        push_cast
        ring
    obtain ⟨i, a, hi, ha0, ha1, hb⟩ := key
    have hc : cps[i]? = some cps[i] := List.getElem?_eq_getElem (by omega)
    have hd : cps[i + 1]? = some cps[i + 1] := List.getElem?_eq_getElem hi
    obtain ⟨⟨e1, e2⟩, e3⟩ := at_seg i _ _ a hc hd ha0 ha1 hb
    refine ⟨i, cps[i], cps[i + 1], a, hc, hd, ha0, ha1, hb, ?_⟩
    rw [← e1, ← e2, ← e3]
    exact hn
  · rintro ⟨i, c, d, a, hc, hd, ha0, ha1, hb, hn⟩
    obtain ⟨⟨e1, e2⟩, e3⟩ := at_seg i _ _ a hc hd ha0 ha1 hb
    rw [← e1, ← e2, ← e3] at hn
    have hi : i + 1 < cps.length := (List.getElem?_eq_some_iff.mp hd).1
    have hiK : (i : ℝ) + 1 ≤ (cps.length : ℝ) - 1 := by
      have : ((i + 1 + 1 : Nat) : ℝ) ≤ (cps.length : ℝ) := by exact_mod_cast hi
      push_cast at this
      linarith
    have hi0 : (0 : ℝ) ≤ i := Nat.cast_nonneg i
    exact ⟨hn, by rw [hb]; linarith, by rw [hb]; linarith⟩

/-- A point a metre off the middle of a segment of a lane four metres wide. -/
example : ∃ P : Prop, isInside (fun _ => 1 / 2) [⟨⟨0, 0, 0⟩, 2⟩, ⟨⟨5, 0, 0⟩, 2⟩] (5 / 2, 1) = .ok P ∧ P := by
  obtain ⟨P, h1, h2⟩ := C54_inside (fun _ => 1 / 2) [⟨⟨0, 0, 0⟩, 2⟩, ⟨⟨5, 0, 0⟩, 2⟩] (by simp) (5 / 2, 1)
  refine ⟨P, h1, h2.mpr ⟨0, _, _, 1 / 2, rfl, rfl, by norm_num, by norm_num, by norm_num, ?_⟩⟩
  norm_num [norm2]

end Maps
end Verif
