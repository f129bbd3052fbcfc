import Verif.Maps.Profile
import Verif.Maps.CenterProps

/-!
# The outline of a lane (C107)
-/

namespace Verif
namespace Maps

open Mat3

theorem boundsAll_ok (cps : List CtrPoint) (g : ℝ → (ℝ × ℝ) × (ℝ × ℝ)) (h : ∀ b, boundsAt cps b = .ok (g b))
    (bs : List ℝ) : boundsAll cps bs = .ok (bs.map g) := by
  induction bs with
  | nil => rfl
  | cons b bs ih => simp only [boundsAll, h, ih, List.map_cons]

theorem center_rigid (cps : List CtrPoint) (hne : cps ≠ []) (b : ℝ) (q : Mat3 ℝ) (h : centerPoint cps b = .ok q) :
    IsRigid q := by
  unfold centerPoint at h
  dsimp only at h
  split at h
  · split at h
    · exact absurd h (by simp)
    · rw [Except.ok.injEq] at h
      exact h ▸ (C56_interpolate _ _ (asSE2_rigid _) (ahead_rigid _)).2.2.1 _
  · split at h
    · split at h
      · exact absurd h (by simp)
      · rw [Except.ok.injEq] at h
        exact h ▸ (C56_interpolate _ _ (asSE2_rigid _) (ahead_rigid _)).2.2.1 _
    · split at h
      · exact absurd h (by simp)
      · split at h
        · exact absurd h (by simp)
        · rw [Except.ok.injEq] at h
          exact h ▸ (C56_interpolate _ _ (asSE2_rigid _) (asSE2_rigid _)).2.2.1 _

/-- **C107.** The outline of a lane with `n` segments runs along its right bound from the start to the end and back
along its left bound: there are `n * pps` evenly spaced positions, the first at the start and the last at the end,
and at each of them one point on either side, at right angles to the heading of the center line and as far from
it as the lane's radius. -/
theorem C107_profile_partial (cps : List CtrPoint) (n pps : Nat) (hlen : cps.length = n + 1) (h2 : 2 ≤ n * pps) :
    ∃ pts f w, laneProfile cps pps = .ok pts ∧ IsCenter cps f ∧ IsProfile (cps.map (·.r)) w ∧
      pts.length = 2 * (n * pps) ∧
      ∀ k < n * pps, ∃ b c s x y : ℝ, b = k * (n / ((n * pps : ℕ) - 1)) ∧ c ^ 2 + s ^ 2 = 1 ∧ f b = rigid c s x y ∧
        pts[k]? = some (x + w b * s, y - w b * c) ∧
        pts[2 * (n * pps) - 1 - k]? = some (x - w b * s, y + w b * c) := by
  have hne : cps ≠ [] := by
    intro h; rw [h] at hlen; simp at hlen
  obtain ⟨f, hf, hfv⟩ := C55_center cps hne
  obtain ⟨w, hw, hwv⟩ := C55_radius (cps.map (·.r)) (by simpa using hne)
  have hg : ∀ b, boundsAt cps b = .ok (applyT2 (f b) (0, -w b), applyT2 (f b) (0, w b)) := by
    intro b
    simp only [boundsAt, hfv, hwv]
  set bs := linspace ((cps.length - 1 : Nat) : ℝ) ((cps.length - 1) * pps) with hbs
  have hprof : laneProfile cps pps = .ok
      ((bs.map fun b => (applyT2 (f b) (0, -w b), applyT2 (f b) (0, w b))).map Prod.fst ++
        ((bs.map fun b => (applyT2 (f b) (0, -w b), applyT2 (f b) (0, w b))).map Prod.snd).reverse) := by
    unfold laneProfile
    rw [if_neg (by simp [hne]), boundsAll_ok cps _ hg]
  rw [hprof]
  refine ⟨_, f, w, rfl, hf, hw, ?_, ?_⟩
  · have hl : bs.length = n * pps := by
      rw [hbs]
      unfold linspace
      rw [hlen, Nat.add_sub_cancel, if_neg (by omega)]
      simp
    simp only [List.length_append, List.length_map, List.length_reverse, hl]
    omega
  · intro k hk
    have hlin : bs = (List.range (n * pps)).map fun (k : Nat) => (k : ℝ) * (n / ((n * pps : ℕ) - 1)) := by
      rw [hbs]
      unfold linspace
      rw [hlen, Nat.add_sub_cancel, if_neg (by omega)]
    obtain ⟨c, s, x, y, hcs, hq⟩ := center_rigid cps hne (k * (n / ((n * pps : ℕ) - 1))) _ (hfv _)
    refine ⟨_, c, s, x, y, rfl, hcs, hq, ?_, ?_⟩
    · rw [List.getElem?_append_left (by simp [hlin, hk]), hlin]
      simp only [List.map_map, List.getElem?_map, List.getElem?_range hk, Option.map_some, Function.comp, hq,
        applyT2, rigid]
      congr 2 <;> ring
    · have hl : (List.map Prod.fst (List.map (fun b => (applyT2 (f b) (0, -w b), applyT2 (f b) (0, w b)))
          bs)).length = n * pps := by simp [hlin]
      rw [List.getElem?_append_right (by rw [hl]; omega), hl,
        List.getElem?_reverse (by simp [hlin]; omega)]
      have e : (List.map Prod.snd (List.map (fun b => (applyT2 (f b) (0, -w b), applyT2 (f b) (0, w b)))
          bs)).length - 1 -
            (2 * (n * pps) - 1 - k - n * pps) = k := by
        simp [hlin]; omega
      rw [e, hlin]
      simp only [List.map_map, List.getElem?_map, List.getElem?_range hk, Option.map_some, Function.comp, hq,
        applyT2, rigid]
      congr 2 <;> ring

/-- **C107.** The outline of a lane that was built from the vertices of its bounds starts and ends with these: the
first right vertex, …, the last right vertex, the last left vertex, …, the first left vertex. -/
theorem C107_ends (left right center : List (ℝ × ℝ)) (n pps : Nat) (hc : center.length = n + 1) (h2 : 2 ≤ n * pps)
    (hl : left.length = center.length) (hr : right.length = center.length)
    (hmid : ∀ (i : Nat) (l r c : ℝ × ℝ), left[i]? = some l → right[i]? = some r → center[i]? = some c →
      c = ((l.1 + r.1) / 2, (l.2 + r.2) / 2)) :
    ∃ cps pts, fromVertices left right center = .ok cps ∧ laneProfile cps pps = .ok pts ∧
      pts[0]? = right[0]? ∧ pts[n * pps - 1]? = right[n]? ∧ pts[n * pps]? = left[n]? ∧
      pts[2 * (n * pps) - 1]? = left[0]? := by
  obtain ⟨cps, hcps, hlen, hb⟩ := C80_vertices left right center hl hr hmid
  obtain ⟨pts, f, w, h1, hf, hw, -, hpt⟩ := C107_profile_partial cps n pps (by omega) h2
  refine ⟨cps, pts, hcps, h1, ?_⟩
  have hne : cps ≠ [] := by
    intro h; rw [h] at hlen; simp at hlen; omega
  obtain ⟨f', hf', hfv⟩ := C55_center cps hne
  obtain ⟨w', hw', hwv⟩ := C55_radius (cps.map (·.r)) (by simpa using hne)
  -- at a control point both center lines and both radii are those of the control point
  have hval : ∀ (i : Nat) (l r : ℝ × ℝ), left[i]? = some l → right[i]? = some r →
      ∀ c s x y : ℝ, f i = rigid c s x y → r = (x + w i * s, y - w i * c) ∧ l = (x - w i * s, y + w i * c) := by
    intro i l r el er c s x y hq
    obtain ⟨hba, cp, hcp, -⟩ := hb i l r el er
    have q1 : f' i = f i := by rw [hf'.at_ctr i cp hcp, hf.at_ctr i cp hcp]
    have hwi : ∀ v : ℝ → ℝ, IsProfile (cps.map (·.r)) v → v i = cp.r := by
      intro v hv
      have hi : i < cps.length := (List.getElem?_eq_some_iff.mp hcp).1
      have hci : (cps.map (·.r))[i]? = some cp.r := by rw [List.getElem?_map, hcp]; rfl
      rcases Nat.lt_or_ge (i + 1) cps.length with h | h
      · have := hv.seg i cp.r cps[i + 1].r hci
          (by rw [List.getElem?_map, List.getElem?_eq_getElem h]; rfl) 0 le_rfl zero_le_one
        simpa using this
      · refine hv.after cp.r ?_ i ?_
        · rw [List.getLast?_eq_getElem?, List.length_map, show cps.length - 1 = i by omega, hci]
        · have : cps.length = i + 1 := by omega
          rw [List.length_map, this]; push_cast; linarith
    have q2 : w' i = w i := by rw [hwi w' hw', hwi w hw]
    simp only [boundsAt, hfv, hwv, q1, q2, hq, applyT2, rigid, Except.ok.injEq, Prod.mk.injEq] at hba
    obtain ⟨e1, e2⟩ := hba
    rw [← e1, ← e2]
    constructor
    · ext <;> dsimp only <;> ring
    · ext <;> dsimp only <;> ring
  have get : ∀ i, i < n + 1 → ∃ l r, left[i]? = some l ∧ right[i]? = some r := fun i hi =>
    ⟨left[i]'(by omega), right[i]'(by omega), List.getElem?_eq_getElem _, List.getElem?_eq_getElem _⟩
  obtain ⟨l0, r0, el0, er0⟩ := get 0 (by omega)
  obtain ⟨ln, rn, eln, ern⟩ := get n (by omega)
  obtain ⟨b, c, s, x, y, hbb, -, hq, p1, p2⟩ := hpt 0 (by omega)
  obtain ⟨b', c', s', x', y', hbb', -, hq', p1', p2'⟩ := hpt (n * pps - 1) (by omega)
  have eb : b = ((0 : ℕ) : ℝ) := by rw [hbb]; simp
  have eb' : b' = (n : ℝ) := by
    rw [hbb', Nat.cast_sub (by omega)]
    have : ((n * pps : ℕ) : ℝ) - 1 ≠ 0 := by
      have : (2 : ℝ) ≤ ((n * pps : ℕ) : ℝ) := by exact_mod_cast h2
      linarith
    push_cast at this ⊢
    field_simp
  rw [eb] at hq p1 p2
  rw [eb'] at hq' p1' p2'
  obtain ⟨v1, v2⟩ := hval 0 l0 r0 el0 er0 c s x y hq
  obtain ⟨v3, v4⟩ := hval n ln rn eln ern c' s' x' y' hq'
  refine ⟨?_, ?_, ?_, ?_⟩
  · rw [p1, er0, v1]
  · rw [p1', ern, v3]
  · rw [show n * pps = 2 * (n * pps) - 1 - (n * pps - 1) by omega, p2', eln, v4]
  · rw [show 2 * (n * pps) - 1 = 2 * (n * pps) - 1 - 0 by omega, p2, el0, v2]

/-- A lane that is wide in the middle. -/
noncomputable def wideLane : List CtrPoint := [⟨⟨0, 0, 0⟩, 1⟩, ⟨⟨1 / 10, 0, 0⟩, 3⟩, ⟨⟨2 / 10, 0, 0⟩, 1⟩]

theorem ahead_straight (x : ℝ) : ahead ⟨x, 0, 0⟩ = Transform.asSE2 ⟨x + 1 / 10, 0, 0⟩ := by
  simp [ahead, Transform.asSE2, rigid, Mat3.mul]
  ring

/-- **C107 is false between the ends**: with two segments and the default of five points per segment the control
point in the middle is not among the positions, and the outline of the lane below, which is six metres wide at
its widest, is everywhere narrower. -/
theorem C107_false_corner : ∃ pts, laneProfile wideLane 5 = .ok pts ∧
    boundsAt wideLane 1 = .ok ((1 / 10, -3), (1 / 10, 3)) ∧ ∀ p ∈ pts, |p.2| ≤ 25 / 9 := by
  obtain ⟨pts, f, w, h1, hf, hw, hlen, hpt⟩ := C107_profile_partial wideLane 2 5 rfl (by norm_num)
  have hc : ∀ b : ℝ, 0 ≤ b → b ≤ 2 → f b = rigid 1 0 (b / 10) 0 := by
    intro b h0 h2
    rcases le_total b 1 with h | h
    · have := hf.seg 0 _ _ rfl rfl b h0 h
      rw [show ((0 : ℕ) : ℝ) + b = b by simp] at this
      rw [this]
      have e := interp_ahead ⟨0, 0, 0⟩ b
      rw [ahead_straight, zero_add] at e
      rw [e]
      simp [Transform.asSE2, rigid, Mat3.mul]
    · have := hf.seg 1 _ _ rfl rfl (b - 1) (by linarith) (by linarith)
      rw [show ((1 : ℕ) : ℝ) + (b - 1) = b by simp] at this
      rw [this]
      have e := interp_ahead ⟨1 / 10, 0, 0⟩ (b - 1)
      rw [ahead_straight, show (1 / 10 + 1 / 10 : ℝ) = 2 / 10 by norm_num] at e
      rw [e]
      simp [Transform.asSE2, rigid, Mat3.mul]
      ring
  have hr : ∀ b : ℝ, (0 ≤ b → b ≤ 1 → w b = 1 + 2 * b) ∧ (1 ≤ b → b ≤ 2 → w b = 5 - 2 * b) := by
    intro b
    constructor
    · intro h0 h
      have := hw.seg 0 1 3 rfl rfl b h0 h
      rw [show ((0 : ℕ) : ℝ) + b = b by simp] at this
      rw [this]; ring
    · intro h0 h
      have := hw.seg 1 3 1 rfl rfl (b - 1) (by linarith) (by linarith)
      rw [show ((1 : ℕ) : ℝ) + (b - 1) = b by simp] at this
      rw [this]; ring
  refine ⟨pts, h1, ?_, ?_⟩
  · obtain ⟨f', hf', hfv⟩ := C55_center wideLane (by simp [wideLane])
    obtain ⟨w', hw', hwv⟩ := C55_radius (wideLane.map (·.r)) (by simp [wideLane])
    have e1 : f' 1 = Transform.asSE2 ⟨1 / 10, 0, 0⟩ := by
      have := hf'.at_ctr 1 _ rfl
      simpa using this
    have e2 : w' 1 = 3 := by
      have := hw'.seg 1 3 1 rfl rfl 0 le_rfl zero_le_one
      simpa using this
    simp [boundsAt, hfv, hwv, e1, e2, applyT2, Transform.asSE2, rigid]
  · intro p hp
    obtain ⟨j, hj, rfl⟩ := List.getElem_of_mem hp
    -- both sides are handled through their common position
    have side : ∀ k : ℕ, k < 10 → ∃ b : ℝ, b = k * (2 / 9) ∧ pts[k]? = some (b / 10, -w b) ∧
        pts[19 - k]? = some (b / 10, w b) ∧ |w b| ≤ 25 / 9 := by
      intro k hk
      obtain ⟨b, c, s, x, y, hb, -, hq, p1, p2⟩ := hpt k (by omega)
      have hb : b = k * (2 / 9) := by rw [hb]; norm_num
      have hk' : (k : ℝ) ≤ 9 := by exact_mod_cast (show k ≤ 9 by omega)
      have h0 : 0 ≤ b := by rw [hb]; positivity
      have h2 : b ≤ 2 := by rw [hb]; linarith
      rw [hc b h0 h2] at hq
      simp only [rigid, Mat3.mk.injEq] at hq
      obtain ⟨q1, -, q3, q4, -, q6, -⟩ := hq
      subst q1 q3 q4 q6
      refine ⟨b, hb, ?_, ?_, ?_⟩
      · rw [p1]; simp
      · rw [show 19 - k = 2 * (2 * 5) - 1 - k by omega, p2]; simp
      · rcases Nat.lt_or_ge k 5 with h | h
        · have hk4 : (k : ℝ) ≤ 4 := by exact_mod_cast (show k ≤ 4 by omega)
          rw [(hr b).1 h0 (by rw [hb]; linarith), abs_le, hb]
          constructor <;> linarith [Nat.cast_nonneg (α := ℝ) k]
        · have hk5 : (5 : ℝ) ≤ k := by exact_mod_cast h
          rw [(hr b).2 (by rw [hb]; linarith) h2, abs_le, hb]
          constructor <;> linarith
    rcases Nat.lt_or_ge j 10 with h | h
    · obtain ⟨b, -, e, -, hw⟩ := side j h
      rw [List.getElem?_eq_getElem hj, Option.some.injEq] at e
      rw [e]
      simpa using hw
    · obtain ⟨b, -, -, e, hw⟩ := side (19 - j) (by omega)
      rw [show 19 - (19 - j) = j by omega, List.getElem?_eq_getElem hj, Option.some.injEq] at e
      rw [e]
      exact hw

/-- **C107 is false for lanes with a single control point**, whose outline has no points. -/
theorem C107_false_single (c : CtrPoint) (pps : Nat) : laneProfile [c] pps = .ok [] := by
  simp [laneProfile, linspace, boundsAll]

example := C107_profile_partial [⟨⟨0, 0, 0⟩, 1⟩, ⟨⟨5, 0, 0⟩, 1⟩] 1 5 rfl (by norm_num)

example : ∃ cps pts, fromVertices [(0, 1), (5, 1)] [(0, -1), (5, -1)] [(0, 0), (5, 0)] = .ok cps ∧
    laneProfile cps 5 = .ok pts ∧ pts[0]? = some ((0, -1) : ℝ × ℝ) ∧ pts[4]? = some ((5, -1) : ℝ × ℝ) ∧
    pts[5]? = some ((5, 1) : ℝ × ℝ) ∧ pts[9]? = some ((0, 1) : ℝ × ℝ) := by
  refine C107_ends [(0, 1), (5, 1)] [(0, -1), (5, -1)] [(0, 0), (5, 0)] 1 5 rfl (by norm_num) rfl rfl ?_
  intro i l r c hl hr hc
  match i with
  | 0 => simp at hl hr hc; subst hl hr hc; norm_num
  | 1 => simp at hl hr hc; subst hl hr hc; norm_num
  | (n + 2) => simp at hl

end Maps
end Verif
