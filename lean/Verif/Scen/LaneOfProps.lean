import Verif.Scen.LaneOf
import Verif.Maps.CenterProps
import Verif.Seq.Lemmas

/-!
# C136: the lane of a position is the lanelet at the position, continued
-/

namespace Verif
namespace Scen

open Maps

/-! ## Specification -/

/-- Contract of CommonRoad: `own i` is the lanelet with id `i`, as many vertices on both sides and in the middle, and
whatever is merged starts with it. -/
structure Continues (net : Network) (own : Nat → Merged) : Prop where
  same : ∀ i, ∀ m ∈ net.merged i, m.left.length = m.center.length ∧ m.right.length = m.center.length
  left : ∀ i, ∀ m ∈ net.merged i, (own i).left <+: m.left
  right : ∀ i, ∀ m ∈ net.merged i, (own i).right <+: m.right
  center : ∀ i, ∀ m ∈ net.merged i, (own i).center <+: m.center
  sameOwn : ∀ i, (own i).left.length = (own i).center.length ∧ (own i).right.length = (own i).center.length

/-- The pair of progress `b` and lane is described alike by two lanes: position along the lane, pose of the center line
and half width. -/
def Alike (lane lane' : List CtrPoint) (b : ℝ) : Prop :=
  alongFromBeta (laneLengths lane) lane.length b = alongFromBeta (laneLengths lane') lane'.length b ∧
  centerPoint lane b = centerPoint lane' b ∧ radius (lane.map (·.r)) b = radius (lane'.map (·.r)) b

/-! ## Control points of vertices -/

theorem mapM_forall₂ {α β : Type} (f : α → Except Err β) : ∀ (xs : List α) (ys : List β), xs.mapM f = .ok ys ↔
    List.Forall₂ (fun x y => f x = .ok y) xs ys := by
  intro xs
  induction xs with
  | nil =>
    intro ys
    simp only [List.mapM_nil, List.forall₂_nil_left_iff]
    exact ⟨fun h => by injection h with h; exact h.symm, fun h => by rw [h]; rfl⟩
  | cons x xs ih =>
    intro ys
    rw [List.mapM_cons]
    constructor
    · intro h
      cases hx : f x with
      | error e => rw [hx] at h; cases h
      | ok y =>
        rw [hx] at h
        cases hxs : xs.mapM f with
        | error e => rw [hxs] at h; cases h
        | ok zs =>
          rw [hxs] at h
          injection h with h
          subst h
          exact .cons hx ((ih zs).mp hxs)
    · intro h
      cases h with
      | cons h1 h2 =>
        rw [h1, (ih _).mpr h2]
        rfl

theorem fromVertices_ok (left right center : List (ℝ × ℝ)) (cps : List CtrPoint) :
    fromVertices left right center = .ok cps ↔ cps.length = center.length ∧
      ∀ i, i < center.length → ∃ c r l, center[i]? = some c ∧ right[i]? = some r ∧ left[i]? = some l ∧
        cps[i]? = some (ctrPointOf l r c) := by
  unfold fromVertices
  rw [mapM_forall₂, List.forall₂_iff_get]
  simp only [List.length_range, List.get_eq_getElem, List.getElem_range]
  constructor
  · rintro ⟨hl, h⟩
    refine ⟨hl.symm, fun i hi => ?_⟩
    have := h i hi (by omega)
    cases hc : center[i]? with
    | none => rw [hc] at this; cases this
    | some c =>
      cases hr : right[i]? with
      | none => rw [hc, hr] at this; cases this
      | some r =>
        cases hl' : left[i]? with
        | none => rw [hc, hr, hl'] at this; cases this
        | some l =>
          rw [hc, hr, hl'] at this
          injection this with this
          exact ⟨c, r, l, rfl, rfl, rfl, by rw [List.getElem?_eq_getElem (by omega), this]⟩
  · rintro ⟨hl, h⟩
    refine ⟨hl.symm, fun i hi hi' => ?_⟩
    obtain ⟨c, r, l, hc, hr, hl', hx⟩ := h i hi
    rw [hc, hr, hl']
    rw [List.getElem?_eq_getElem hi'] at hx
    injection hx with hx
    rw [hx]

theorem fromVertices_total (left right center : List (ℝ × ℝ)) (hl : left.length = center.length)
    (hr : right.length = center.length) : ∃ cps, fromVertices left right center = .ok cps := by
  refine ⟨List.ofFn fun i : Fin center.length =>
    ctrPointOf (left[i.1]'(by omega)) (right[i.1]'(by omega)) center[i.1], ?_⟩
  rw [fromVertices_ok]
  refine ⟨by simp, fun i hi => ⟨center[i], right[i]'(by omega), left[i]'(by omega), ?_, ?_, ?_, ?_⟩⟩
  · exact List.getElem?_eq_getElem hi
  · exact List.getElem?_eq_getElem _
  · exact List.getElem?_eq_getElem _
  · rw [List.getElem?_ofFn, dif_pos hi]

theorem prefix_get {α : Type} {xs ys : List α} (h : xs <+: ys) {i : Nat} {a : α} (hx : xs[i]? = some a) : ys[i]? = some a := by
  obtain ⟨t, rfl⟩ := h
  rw [List.getElem?_append_left (List.getElem?_eq_some_iff.mp hx).1]
  exact hx

theorem prefix_of_get {α : Type} {xs ys : List α} (h : ∀ (i : Nat) a, xs[i]? = some a → ys[i]? = some a) : xs <+: ys := by
  rw [List.prefix_iff_getElem?]
  intro i hi
  exact h i _ (List.getElem?_eq_getElem hi)

/-! ## The lane of a position -/

/-- **C136.** The lane that is returned consists of the control points of a merged lanelet that starts with a lanelet at
the position, both as selected. -/
theorem C136_selected (net : Network) (p : ℝ × ℝ) (initSel succSel : Nat) (lane : List CtrPoint)
    (h : laneOfPosition net p initSel succSel = .ok lane) :
    ∃ i m, (net.findByPosition p)[initSel]? = some i ∧ (net.merged i)[succSel]? = some m ∧
      lane.length = m.center.length ∧ ∀ (k : Nat) (c r l : ℝ × ℝ), m.center[k]? = some c → m.right[k]? = some r → m.left[k]? = some l →
        lane[k]? = some (ctrPointOf l r c) := by
  unfold laneOfPosition at h
  simp only at h
  split at h
  · cases h
  · cases hi : pyGet (net.findByPosition p) initSel with
    | error e => rw [hi] at h; cases h
    | ok i =>
      rw [hi] at h
      simp only at h
      cases hm : pyGet (net.merged i) succSel with
      | error e => rw [hm] at h; cases h
      | ok m =>
        rw [hm] at h
        obtain ⟨h1, h2⟩ := (fromVertices_ok _ _ _ _).mp h
        refine ⟨i, m, (pyGet_ok_iff _ _ _).mp hi, (pyGet_ok_iff _ _ _).mp hm, h1, fun k c r l hc hr hl => ?_⟩
        obtain ⟨c', r', l', hc', hr', hl', hx⟩ := h2 k (List.getElem?_eq_some_iff.mp hc).1
        rw [hc] at hc'
        rw [hr] at hr'
        rw [hl] at hl'
        injection hc' with hc'
        injection hr' with hr'
        injection hl' with hl'
        rw [hx, hc', hr', hl']

/-- **C136.** It is returned exactly if there is such a choice. Off the lanelets it raises `AssertionError`, for
selections beyond what is there `IndexError`. -/
theorem C136_exists (net : Network) {own : Nat → Merged} (hc : Continues net own) (p : ℝ × ℝ) (initSel succSel : Nat) :
    (net.findByPosition p = [] → laneOfPosition net p initSel succSel = .error .assertion) ∧
    (net.findByPosition p ≠ [] → (∀ i, (net.findByPosition p)[initSel]? = some i → (net.merged i)[succSel]? = none) →
      laneOfPosition net p initSel succSel = .error .index) ∧
    ∀ i m, (net.findByPosition p)[initSel]? = some i → (net.merged i)[succSel]? = some m →
      ∃ lane, laneOfPosition net p initSel succSel = .ok lane := by
  unfold laneOfPosition
  refine ⟨fun h => by simp [h], fun h hs => ?_, fun i m hi hm => ?_⟩
  · simp only [List.length_eq_zero_iff, if_neg h, pyGet_natCast]
    cases hi : (net.findByPosition p)[initSel]? with
    | none => rfl
    | some i =>
      simp only [hs i hi]
  · have hne : net.findByPosition p ≠ [] := by
      rintro h
      rw [h] at hi
      simp at hi
    simp only [List.length_eq_zero_iff, if_neg hne, pyGet_natCast, hi, hm]
    have hs := hc.same i m (List.mem_of_getElem? hm)
    exact fromVertices_total _ _ _ hs.1 hs.2

/-- **C136.** The lane starts with the lane of the lanelet at the position alone. -/
theorem C136_starts (net : Network) {own : Nat → Merged} (hc : Continues net own) (p : ℝ × ℝ) (initSel succSel : Nat)
    (lane : List CtrPoint) (h : laneOfPosition net p initSel succSel = .ok lane) :
    ∃ i lane0, (net.findByPosition p)[initSel]? = some i ∧ fromLanelet (own i) = .ok lane0 ∧ lane0 <+: lane := by
  obtain ⟨i, m, hi, hm, hlen, hget⟩ := C136_selected net p initSel succSel lane h
  have hmem := List.mem_of_getElem? hm
  obtain ⟨lane0, h0⟩ := fromVertices_total _ _ _ (hc.sameOwn i).1 (hc.sameOwn i).2
  refine ⟨i, lane0, hi, h0, prefix_of_get fun k a hk => ?_⟩
  obtain ⟨e1, e2⟩ := (fromVertices_ok _ _ _ _).mp h0
  obtain ⟨c, r, l, g1, g2, g3, g4⟩ := e2 k (by rw [← e1]; exact (List.getElem?_eq_some_iff.mp hk).1)
  rw [g4] at hk
  rw [← hk]
  exact hget k c r l (prefix_get (hc.center i m hmem) g1) (prefix_get (hc.right i m hmem) g2)
    (prefix_get (hc.left i m hmem) g3)

theorem laneLengths_prefix {lane0 lane : List CtrPoint} (hp : lane0 <+: lane) : laneLengths lane0 <+: laneLengths lane := by
  refine prefix_of_get fun i l hl => ?_
  have hi := (List.getElem?_eq_some_iff.mp hl).1
  rw [laneLengths_length] at hi
  have h1 := List.getElem?_eq_getElem (l := lane0) (i := i) (by omega)
  have h2 := List.getElem?_eq_getElem (l := lane0) (i := i + 1) (by omega)
  rw [laneLengths_get lane0 i _ _ h1 h2] at hl
  rw [laneLengths_get lane i _ _ (prefix_get hp h1) (prefix_get hp h2), hl]

/-- **C136.** A lane that is continued describes the first part as the lane alone: up to its end, the positions along
the lane, the poses of the center line and the half widths are the same. -/
theorem C136_alike {lane0 lane : List CtrPoint} (hp : lane0 <+: lane) (hne : lane0 ≠ []) (b : ℝ)
    (hb : b ≤ (lane0.length : ℝ) - 1) : Alike lane0 lane b := by
  have hlen := List.length_pos_iff.mpr hne
  have hne' : lane ≠ [] := by
    rintro rfl
    exact hne (List.prefix_nil.mp hp)
  have hpl := laneLengths_prefix hp
  have hpr : lane0.map (·.r) <+: lane.map (·.r) := hp.map _
  obtain ⟨f0, hf0, ef0⟩ := C53_along (laneLengths lane0)
  obtain ⟨f, hf, ef⟩ := C53_along (laneLengths lane)
  rw [len_eq hne] at ef0
  rw [len_eq hne'] at ef
  obtain ⟨g0, hg0, eg0⟩ := C55_center lane0 hne
  obtain ⟨g, hg, eg⟩ := C55_center lane hne'
  obtain ⟨k0, hk0, ek0⟩ := C55_radius (lane0.map (·.r)) (by simpa using hne)
  obtain ⟨k, hk, ek⟩ := C55_radius (lane.map (·.r)) (by simpa using hne')
  unfold Alike
  rw [ef0, ef, eg0, eg, ek0, ek]
  rcases le_or_gt b 0 with h0 | h0
  · obtain ⟨c, hc⟩ : ∃ c, lane0.head? = some c := ⟨_, List.head?_eq_some_head hne⟩
    have hc' : lane.head? = some c := by
      rw [List.head?_eq_getElem?] at hc ⊢
      exact prefix_get hp hc
    rw [hf0.before b h0, hf.before b h0, hg0.before c hc b h0, hg.before c hc' b h0,
      hk0.before c.r (by rw [List.head?_map, hc]; rfl) b h0, hk.before c.r (by rw [List.head?_map, hc']; rfl) b h0]
    exact ⟨rfl, rfl, rfl⟩
  · have hn2 : 2 ≤ lane0.length := by
      by_contra hlt
      have : lane0.length = 1 := by omega
      rw [this] at hb
      norm_num at hb
      linarith
    obtain ⟨i, a, hi, ha0, ha1, rfl⟩ : ∃ (i : Nat) (a : ℝ), i + 1 < lane0.length ∧ 0 ≤ a ∧ a ≤ 1 ∧ b = (i : ℝ) + a := by
      rcases Nat.lt_or_ge (⌊b⌋₊ + 1) lane0.length with hlt | hge
      · exact ⟨⌊b⌋₊, b - ⌊b⌋₊, hlt, by linarith [Nat.floor_le h0.le], by linarith [Nat.lt_floor_add_one b], by ring⟩
      · have h1 : ((lane0.length - 1 : Nat) : ℝ) ≤ ⌊b⌋₊ := by exact_mod_cast (by omega)
        have h2 := Nat.floor_le h0.le
        refine ⟨lane0.length - 2, 1, by omega, zero_le_one, le_rfl, ?_⟩
        rw [Nat.cast_sub (by omega)] at h1 ⊢
        push_cast at h1 ⊢
        linarith
    have h1 := List.getElem?_eq_getElem (l := lane0) (i := i) (by omega)
    have h2 := List.getElem?_eq_getElem (l := lane0) (i := i + 1) (by omega)
    have hl0 := laneLengths_get lane0 i _ _ h1 h2
    have htake : (laneLengths lane).take i = (laneLengths lane0).take i := by
      obtain ⟨t, ht⟩ := hpl
      rw [← ht, List.take_append_of_le_length (by rw [laneLengths_length]; omega)]
    rw [hf0.seg i _ hl0 _ (by linarith) (by linarith), hf.seg i _ (prefix_get hpl hl0) _ (by linarith) (by linarith), htake,
      hg0.seg i _ _ h1 h2 a ha0 ha1, hg.seg i _ _ (prefix_get hp h1) (prefix_get hp h2) a ha0 ha1,
      hk0.seg i lane0[i].r lane0[i + 1].r (by rw [List.getElem?_map, h1]; rfl) (by rw [List.getElem?_map, h2]; rfl) a ha0 ha1,
      hk.seg i lane0[i].r lane0[i + 1].r (by rw [List.getElem?_map, prefix_get hp h1]; rfl)
        (by rw [List.getElem?_map, prefix_get hp h2]; rfl) a ha0 ha1]
    exact ⟨rfl, rfl, rfl⟩

/-- **C136.** Conversely, a position along the lane that lies on the first part, apart from the snap at the ends, is
the same place: progress, pose and half width. Both lanes are as long as their parts, so that the continued lane is not
shorter. -/
theorem C136_places {lane0 lane : List CtrPoint} (hp : lane0 <+: lane) (h0 : GoodLane lane0) (hg : GoodLane lane) :
    laneLength lane0 ≤ laneLength lane ∧
    ∀ x, x ≤ laneLength lane0 → ¬ Snap (laneLengths lane0) x → ¬ Snap (laneLengths lane) x →
      ∃ b, betaFromAlong (laneLengths lane0) lane0.length x = .ok b ∧
        betaFromAlong (laneLengths lane) lane.length x = .ok b ∧ b ≤ (lane0.length : ℝ) - 1 ∧ Alike lane0 lane b := by
  constructor
  · obtain ⟨t, ht⟩ := laneLengths_prefix hp
    unfold laneLength
    rw [← ht, List.sum_append]
    have : 0 ≤ t.sum := List.sum_nonneg fun l hl =>
      laneLengths_nonneg lane l (by rw [← ht]; exact List.mem_append_right _ hl)
    linarith
  · intro x hx s0 s
    obtain ⟨-, tot, rest⟩ := C53_lane lane0 h0.ne
    obtain ⟨mono, -, inv⟩ := rest h0
    obtain ⟨b, hb⟩ := tot x
    have ha := inv x b hb s0
    have hend : alongFromBeta (laneLengths lane0) lane0.length ((lane0.length : ℝ) - 1) = .ok (laneLength lane0) := by
      unfold alongFromBeta
      have : (1 : ℝ) ≤ lane0.length := by exact_mod_cast List.length_pos_iff.mpr h0.ne
      rw [if_neg (by linarith), if_pos le_rfl]
      simp [laneLength]
    have hle : b ≤ (lane0.length : ℝ) - 1 := by
      by_contra hlt
      exact absurd (mono _ _ _ _ (not_le.mp hlt) hend ha) (not_lt.mpr hx)
    have halike := C136_alike hp h0.ne b hle
    refine ⟨b, hb, ?_, hle, halike⟩
    exact ((C53_lane lane hg.ne).2.2 hg).2.1 b x (by rw [← halike.1]; exact ha) s

/-! ## Example: a lanelet with two successors -/

/-- A straight lanelet from `a` to `b` of width 4. -/
noncomputable def straight (id : Nat) (xs : List ℝ) : Merged := ⟨id, xs.map (·, 2), xs.map (·, -2), xs.map (·, 0)⟩

/-- Lanelet 1 from 0 to 10, continued to 30 or to 20. -/
noncomputable def fork : Network where
  findByPosition p := if 0 ≤ p.1 ∧ p.1 ≤ 10 ∧ |p.2| ≤ 2 then [1] else []
  merged i := if i = 1 then [straight 12 [0, 10, 30], straight 13 [0, 10, 20]] else []

theorem fork_continues : Continues fork fun _ => straight 1 [0, 10] := by
  have hm : ∀ i, ∀ m ∈ fork.merged i, m = straight 12 [0, 10, 30] ∨ m = straight 13 [0, 10, 20] := by
    intro i m hm
    simp only [fork] at hm
    split at hm
    · simpa using hm
    · cases hm
  refine ⟨?_, ?_, ?_, ?_, fun i => ⟨rfl, rfl⟩⟩ <;> intro i m h <;> rcases hm i m h with rfl | rfl
  · exact ⟨rfl, rfl⟩
  · exact ⟨rfl, rfl⟩
  all_goals exact ⟨_, rfl⟩

example : ∃ lane lane0, laneOfPosition fork (3, 1) 0 1 = .ok lane ∧ fromLanelet (straight 1 [0, 10]) = .ok lane0 ∧
    lane0 <+: lane ∧ Alike lane0 lane (1 / 2) := by
  have hf : fork.findByPosition (3, 1) = [1] := by simp [fork]; norm_num
  obtain ⟨lane, h⟩ := (C136_exists fork fork_continues (3, 1) 0 1).2.2 1 (straight 13 [0, 10, 20]) (by rw [hf]; rfl) (by simp [fork])
  obtain ⟨i, lane0, hi, h0, hp⟩ := C136_starts fork fork_continues (3, 1) 0 1 lane h
  obtain ⟨hl, -⟩ := (fromVertices_ok _ _ _ _).mp h0
  have hl2 : lane0.length = 2 := hl
  refine ⟨lane, lane0, h, h0, hp, C136_alike hp (by rintro rfl; simp at hl2) _ (by rw [hl2]; norm_num)⟩

example : laneOfPosition fork (13, 1) 0 0 = .error .assertion :=
  (C136_exists fork fork_continues (13, 1) 0 0).1 (by simp [fork]; norm_num)

/-- 5 m along the lane is the same place on a lane of 10 m and on the one continued to 30 m. -/
example : ∃ b, betaFromAlong (laneLengths [⟨⟨0, 0, 0⟩, 2⟩, ⟨⟨10, 0, 0⟩, 2⟩]) 2 5 = .ok b ∧
    betaFromAlong (laneLengths [⟨⟨0, 0, 0⟩, 2⟩, ⟨⟨10, 0, 0⟩, 2⟩, ⟨⟨30, 0, 0⟩, 2⟩]) 3 5 = .ok b := by
  have hd : ∀ x y : ℝ, x ≤ y → distSE2 (Transform.asSE2 ⟨x, 0, 0⟩) (Transform.asSE2 ⟨y, 0, 0⟩) = y - x := by
    intro x y h
    rw [(C56_distance _ _ (asSE2_rigid ⟨x, 0, 0⟩) (asSE2_rigid ⟨y, 0, 0⟩)).2.2.2.2 rfl rfl]
    simp only [normBetween, Transform.asSE2, rigid, norm2, sub_self]
    rw [show (x - y) ^ 2 + 0 ^ 2 = (y - x) ^ 2 by ring, Real.sqrt_sq (by linarith)]
  have h1 : laneLengths [⟨⟨0, 0, 0⟩, 2⟩, ⟨⟨10, 0, 0⟩, 2⟩] = [10] := by
    simp only [laneLengths, List.tail_cons, List.zip_cons_cons, List.zip_nil_right, List.map_cons, List.map_nil]
    rw [hd _ _ (by norm_num)]
    norm_num
  have h2 : laneLengths [⟨⟨0, 0, 0⟩, 2⟩, ⟨⟨10, 0, 0⟩, 2⟩, ⟨⟨30, 0, 0⟩, 2⟩] = [10, 20] := by
    simp only [laneLengths, List.tail_cons, List.zip_cons_cons, List.zip_nil_right, List.map_cons, List.map_nil]
    rw [hd _ _ (by norm_num), hd _ _ (by norm_num)]
    norm_num
  have good : ∀ l : List CtrPoint, l ≠ [] → (∀ (i : Nat) (c d : CtrPoint), l[i]? = some c → l[i + 1]? = some d →
      c.q.x < d.q.x) → GoodLane l :=
    fun l hl h => ⟨hl, fun i c d hc hd he => (h i c d hc hd).ne he.1⟩
  obtain ⟨b, e1, e2, -⟩ := (C136_places (lane0 := [⟨⟨0, 0, 0⟩, 2⟩, ⟨⟨10, 0, 0⟩, 2⟩])
    (lane := [⟨⟨0, 0, 0⟩, 2⟩, ⟨⟨10, 0, 0⟩, 2⟩, ⟨⟨30, 0, 0⟩, 2⟩]) ⟨_, rfl⟩
    (good _ (by simp) (by
      intro i c d hc hd
      match i with
      | 0 => cases hc; cases hd; norm_num
      | i + 1 => simp at hd))
    (good _ (by simp) (by
      intro i c d hc hd
      match i with
      | 0 => cases hc; cases hd; norm_num
      | 1 => cases hc; cases hd; norm_num
      | i + 2 => simp at hd))).2 5 (by rw [laneLength, h1]; norm_num)
    (by rw [h1]; simp only [Snap, List.sum_cons, List.sum_nil]; norm_num)
    (by rw [h2]; simp only [Snap, List.sum_cons, List.sum_nil]; norm_num)
  exact ⟨b, e1, e2⟩

end Scen
end Verif
