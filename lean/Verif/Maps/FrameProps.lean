import Verif.Maps.Closest

/-!
# C152: lanes do not depend on the frame of the world

A lane and a pose are seen from another frame: every pose is composed with the same rigid motion. All lengths, progresses and
flags stay the same and all poses and points are moved along.
-/

namespace Verif
namespace Maps

open Mat3

/-! ## Specification -/

/-- Specification: two results agree: the same exception, or values in the relation. -/
def Agree {α β : Type} (R : α → β → Prop) : Except Err α → Except Err β → Prop
  | .ok a, .ok b => R a b
  | .error e, .error f => e = f
  | _, _ => False

/-- Specification: the second lane is the first one moved by `g`: as many control points, with the same radii and with moved
poses (headings may differ by full turns). -/
def MovedLane (g : Mat3 ℝ) (cps cps' : List CtrPoint) : Prop :=
  List.Forall₂ (fun c d => d.r = c.r ∧ d.q.asSE2 = g.mul c.q.asSE2) cps cps'

/-- Specification: two lane poses that differ only in the center pose, which is moved. -/
structure SamePlace (g : Mat3 ℝ) (p p' : LanePose) : Prop where
  flags : p'.flags = p.flags
  lateral : p'.lateral = p.lateral
  along : p'.along = p.along
  relHeading : p'.relHeading = p.relHeading
  correctDirection : p'.correctDirection = p.correctDirection
  lateralLeft : p'.lateralLeft = p.lateralLeft
  lateralRight : p'.lateralRight = p.lateralRight
  center : p'.center.asSE2 = g.mul p.center.asSE2

/-! ## Lemmas -/

theorem Agree.refl {α : Type} (R : α → α → Prop) (h : ∀ a, R a a) (x : Except Err α) : Agree R x x := by
  cases x with
  | ok a => exact h a
  | error e => rfl

theorem agree_get {α β : Type} {R : α → β → Prop} {xs : List α} {ys : List β} (h : List.Forall₂ R xs ys) (i : Int) :
    Agree R (pyGet xs i) (pyGet ys i) := by
  have hl := h.length_eq
  have hn : ∀ n : Nat, (xs[n]? = none ∧ ys[n]? = none) ∨ ∃ a b, xs[n]? = some a ∧ ys[n]? = some b ∧ R a b := by
    intro n
    by_cases hi : n < xs.length
    · exact Or.inr ⟨xs[n], ys[n]'(hl ▸ hi), List.getElem?_eq_getElem hi, List.getElem?_eq_getElem (hl ▸ hi), h.get hi (hl ▸ hi)⟩
    · exact Or.inl ⟨List.getElem?_eq_none (by omega), List.getElem?_eq_none (by omega)⟩
  unfold pyGet
  simp only [hl]
  by_cases hj : (if i < 0 then i + (ys.length : Int) else i) < 0
  · simp only [hj, if_true, Agree]
  · simp only [hj, if_false]
    rcases hn ((if i < 0 then i + (ys.length : Int) else i).toNat) with ⟨h1, h2⟩ | ⟨a, b, h1, h2, hr⟩
    · rw [h1, h2]; rfl
    · rw [h1, h2]; exact hr

variable {g : Mat3 ℝ} {cps cps' : List CtrPoint}

theorem rel_frame (hg : IsRigid g) (q0 q1 : Mat3 ℝ) (h0 : IsRigid q0) :
    (g.mul q0).cof.mul (g.mul q1) = q0.cof.mul q1 := by
  rw [cof_prod g q0 hg.det_ne h0.det_ne, mul_assoc', ← mul_assoc' g.cof, cof_mul g hg.det_ne, one_mul']

theorem interp_frame (hg : IsRigid g) (q0 q1 : Mat3 ℝ) (h0 : IsRigid q0) (a : ℝ) :
    interpSE2 (g.mul q0) (g.mul q1) a = g.mul (interpSE2 q0 q1 a) := by
  unfold interpSE2
  rw [rel_frame hg q0 q1 h0, mul_assoc']

theorem MovedLane.lengths (hg : IsRigid g) (h : MovedLane g cps cps') : laneLengths cps' = laneLengths cps := by
  unfold laneLengths
  induction h with
  | nil => rfl
  | @cons c d l l' hcd hll ih =>
    cases hll with
    | nil => rfl
    | @cons c2 d2 l2 l2' hcd2 hll2 =>
      simp only [List.tail_cons, List.zip_cons_cons, List.map_cons] at ih ⊢
      rw [ih, hcd.2, hcd2.2, (C56_distance_frame g _ _ hg (asSE2_rigid _) (asSE2_rigid _)).1]

theorem MovedLane.length (h : MovedLane g cps cps') : cps'.length = cps.length := (List.Forall₂.length_eq h).symm

theorem MovedLane.radii (h : MovedLane g cps cps') : cps'.map (·.r) = cps.map (·.r) := by
  induction h with
  | nil => rfl
  | cons hcd _ ih => simp only [List.map_cons, ih, hcd.1]

theorem ahead_frame {c d : CtrPoint} (h : d.q.asSE2 = g.mul c.q.asSE2) : ahead d.q = g.mul (ahead c.q) := by
  unfold ahead; rw [h, mul_assoc']

theorem MovedLane.center (hg : IsRigid g) (h : MovedLane g cps cps') (b : ℝ) :
    Agree (fun q q' => q' = g.mul q) (centerPoint cps b) (centerPoint cps' b) := by
  unfold centerPoint
  simp only [h.length]
  by_cases h1 : ⌊b⌋ < 0
  · simp only [h1, if_true]
    have := agree_get h 0
    revert this
    cases pyGet cps 0 <;> cases pyGet cps' 0 <;> simp only [Agree] <;> intro hr <;> try exact False.elim hr
    · exact hr
    · rw [ahead_frame hr.2, hr.2, interp_frame hg _ _ (asSE2_rigid _)]
  · simp only [h1, if_false]
    by_cases h2 : (cps.length : Int) - 1 ≤ ⌊b⌋
    · simp only [h2, if_true]
      have := agree_get h (-1)
      revert this
      cases pyGet cps (-1) <;> cases pyGet cps' (-1) <;> simp only [Agree] <;> intro hr <;> try exact False.elim hr
      · exact hr
      · rw [ahead_frame hr.2, hr.2, interp_frame hg _ _ (asSE2_rigid _)]
    · simp only [h2, if_false]
      have h3 := agree_get h ⌊b⌋
      revert h3
      cases pyGet cps ⌊b⌋ <;> cases pyGet cps' ⌊b⌋ <;> simp only [Agree] <;> intro hr <;> try exact False.elim hr
      · exact hr
      · have h4 := agree_get h (⌊b⌋ + 1)
        revert h4
        cases pyGet cps (⌊b⌋ + 1) <;> cases pyGet cps' (⌊b⌋ + 1) <;> simp only [Agree] <;> intro hs <;> try exact False.elim hs
        · exact hs
        · rw [hr.2, hs.2, interp_frame hg _ _ (asSE2_rigid _)]

theorem pos_of_asSE2 {t t' : Transform} (h : t'.asSE2 = g.mul t.asSE2) : (t'.x, t'.y) = applyT2 g (t.x, t.y) := by
  have e1 := congrArg Mat3.a02 h
  have e2 := congrArg Mat3.a12 h
  simp only [Transform.asSE2, rigid, Mat3.mul] at e1 e2
  rw [e1, e2]; rfl

theorem pos_of_ahead {t t' : Transform} (h : t'.asSE2 = g.mul t.asSE2) :
    ((Transform.fromSE2 (ahead t')).x, (Transform.fromSE2 (ahead t')).y) =
      applyT2 g ((Transform.fromSE2 (ahead t)).x, (Transform.fromSE2 (ahead t)).y) := by
  have e : ahead t' = g.mul (ahead t) := by unfold ahead; rw [h, mul_assoc']
  rw [e]
  simp only [Transform.fromSE2, ahead, Transform.asSE2, rigid, Mat3.mul, applyT2]
  ext <;> simp

theorem blend_frame (q0 q1 q0' q1' : Transform) (a : ℝ) (h0 : (q0'.x, q0'.y) = applyT2 g (q0.x, q0.y))
    (h1 : (q1'.x, q1'.y) = applyT2 g (q1.x, q1.y)) :
    ((blend q0' q1' a).x, (blend q0' q1' a).y) = applyT2 g ((blend q0 q1 a).x, (blend q0 q1 a).y) := by
  simp only [applyT2, Prod.mk.injEq] at h0 h1
  simp only [blend, applyT2, h0.1, h0.2, h1.1, h1.2, Prod.mk.injEq]
  constructor <;> ring

theorem MovedLane.fast (h : MovedLane g cps cps') (b : ℝ) :
    Agree (fun t t' => (t'.x, t'.y) = applyT2 g (t.x, t.y)) (centerFast cps b) (centerFast cps' b) := by
  unfold centerFast
  simp only [h.length]
  by_cases h1 : ⌊b⌋ < 0
  · simp only [h1, if_true]
    have := agree_get h 0
    revert this
    cases pyGet cps 0 <;> cases pyGet cps' 0 <;> simp only [Agree] <;> intro hr <;> try exact False.elim hr
    · exact hr
    · exact blend_frame _ _ _ _ _ (pos_of_asSE2 hr.2) (pos_of_ahead hr.2)
  · simp only [h1, if_false]
    by_cases h2 : (cps.length : Int) - 1 ≤ ⌊b⌋
    · simp only [h2, if_true]
      have := agree_get h (-1)
      revert this
      cases pyGet cps (-1) <;> cases pyGet cps' (-1) <;> simp only [Agree] <;> intro hr <;> try exact False.elim hr
      · exact hr
      · exact blend_frame _ _ _ _ _ (pos_of_asSE2 hr.2) (pos_of_ahead hr.2)
    · simp only [h2, if_false]
      have h3 := agree_get h ⌊b⌋
      revert h3
      cases pyGet cps ⌊b⌋ <;> cases pyGet cps' ⌊b⌋ <;> simp only [Agree] <;> intro hr <;> try exact False.elim hr
      · exact hr
      · have h4 := agree_get h (⌊b⌋ + 1)
        revert h4
        cases pyGet cps (⌊b⌋ + 1) <;> cases pyGet cps' (⌊b⌋ + 1) <;> simp only [Agree] <;> intro hs <;> try exact False.elim hs
        · exact hs
        · exact blend_frame _ _ _ _ _ (pos_of_asSE2 hr.2) (pos_of_asSE2 hs.2)

theorem norm_frame (hg : IsRigid g) (p q : ℝ × ℝ) :
    norm2 ((applyT2 g p).1 - (applyT2 g q).1) ((applyT2 g p).2 - (applyT2 g q).2) = norm2 (p.1 - q.1) (p.2 - q.2) := by
  obtain ⟨c, s, x, y, h, rfl⟩ := hg
  rw [← norm2_rot c s (p.1 - q.1) (p.2 - q.2) h]
  simp only [applyT2, rigid]
  congr 1 <;> ring

theorem mul_pos' (hg : IsRigid g) (q : Mat3 ℝ) (hq : IsRigid q) :
    ((g.mul q).a02, (g.mul q).a12) = applyT2 g (q.a02, q.a12) := by
  obtain ⟨c, s, x, y, h, rfl⟩ := hg
  obtain ⟨c', s', x', y', h', rfl⟩ := hq
  rfl

theorem centerPoint_rigid (cps : List CtrPoint) (b : ℝ) (q : Mat3 ℝ) (h : centerPoint cps b = .ok q) : IsRigid q := by
  have key : ∀ (t : Transform) (m : Mat3 ℝ) (a : ℝ), IsRigid (interpSE2 t.asSE2 m a) := fun t m a =>
    (asSE2_rigid t).mul (expSE2_rigid _)
  unfold centerPoint at h
  simp only at h
  split at h
  · split at h
    · cases h
    · injection h with h; rw [← h]; exact key _ _ _
  · split at h
    · split at h
      · cases h
      · injection h with h; rw [← h]; exact key _ _ _
    · split at h
      · cases h
      · split at h
        · cases h
        · injection h with h; rw [← h]; exact key _ _ _

theorem MovedLane.delta (hg : IsRigid g) (h : MovedLane g cps cps') (p : ℝ × ℝ) :
    delta cps' (applyT2 g p) = delta cps p := by
  funext b
  unfold Maps.delta
  have hc := h.center hg b
  have hr := centerPoint_rigid cps b
  revert hc hr
  cases centerPoint cps b <;> cases centerPoint cps' b <;> simp only [Agree] <;> intro hc hr <;> try exact False.elim hc
  · cases hc; trivial
  · rename_i q _
    subst hc
    have := mul_pos' hg q (hr q rfl)
    simp only [Prod.ext_iff] at this
    rw [this.1, this.2, norm_frame hg p (q.a02, q.a12)]

theorem MovedLane.deltaFast (hg : IsRigid g) (h : MovedLane g cps cps') (p : ℝ × ℝ) :
    deltaFast cps' (applyT2 g p) = deltaFast cps p := by
  funext b
  unfold Maps.deltaFast
  have hc := h.fast b
  revert hc
  cases centerFast cps b <;> cases centerFast cps' b <;> simp only [Agree] <;> intro hc <;> try exact False.elim hc
  · cases hc; trivial
  · rename_i q _
    simp only [Prod.ext_iff] at hc
    rw [hc.1, hc.2, norm_frame hg p (q.x, q.y)]

theorem fromSE2_frame (hg : IsRigid g) (q : Mat3 ℝ) (hq : IsRigid q) :
    (Transform.fromSE2 (g.mul q)).asSE2 = g.mul (Transform.fromSE2 q).asSE2 := by
  rw [(C56_convert q hq Transform.identity).1, (C56_convert (g.mul q) (hg.mul hq) Transform.identity).1]

/-! ## Results -/

/-- Specification: a control point in a frame moved by `t`. -/
noncomputable def shifted (t : Transform) (c : CtrPoint) : CtrPoint :=
  ⟨⟨(applyT2 t.asSE2 (c.q.x, c.q.y)).1, (applyT2 t.asSE2 (c.q.x, c.q.y)).2, t.theta + c.q.theta⟩, c.r⟩

/-- **C152.** Moving the control points of a lane one by one gives the moved lane. -/
theorem C152_shifted (t : Transform) (cps : List CtrPoint) : MovedLane t.asSE2 cps (cps.map (shifted t)) := by
  induction cps with
  | nil => exact List.Forall₂.nil
  | cons c l ih =>
    refine List.Forall₂.cons ⟨rfl, ?_⟩ ih
    simp only [shifted, Transform.asSE2, rigid, Mat3.mul, applyT2, Real.cos_add, Real.sin_add]
    ext <;> simp <;> ring

/-- **C152.** Moving a lane changes no segment length and no radius, and moves center points, bounds and the outline. -/
theorem C152_lane (hg : IsRigid g) (h : MovedLane g cps cps') :
    laneLengths cps' = laneLengths cps ∧ laneLength cps' = laneLength cps ∧
    (∀ b, radius (cps'.map (·.r)) b = radius (cps.map (·.r)) b) ∧
    (∀ b, Agree (fun q q' => q' = g.mul q) (centerPoint cps b) (centerPoint cps' b)) ∧
    (∀ b, Agree (fun t t' => (t'.x, t'.y) = applyT2 g (t.x, t.y)) (centerFast cps b) (centerFast cps' b)) ∧
    (∀ b, Agree (fun q q' => q' = (applyT2 g q.1, applyT2 g q.2)) (boundsAt cps b) (boundsAt cps' b)) := by
  refine ⟨h.lengths hg, by unfold laneLength; rw [h.lengths hg], fun b => by rw [h.radii], fun b => h.center hg b,
    fun b => h.fast b, fun b => ?_⟩
  unfold boundsAt
  rw [h.radii]
  have hc := h.center hg b
  have hr := centerPoint_rigid cps b
  revert hc hr
  cases centerPoint cps b <;> cases centerPoint cps' b <;> simp only [Agree] <;> intro hc hr <;> try exact False.elim hc
  · exact hc
  · rename_i q _
    subst hc
    cases radius (cps.map (·.r)) b with
    | error e => rfl
    | ok r =>
      obtain ⟨c', s', x', y', h', rfl⟩ := hr q rfl
      obtain ⟨c, s, x, y, h, rfl⟩ := hg
      simp only [applyT2, rigid, Mat3.mul, Prod.mk.injEq]
      refine ⟨⟨?_, ?_⟩, ?_, ?_⟩ <;> ring

/-- **C152.** The outline of a moved lane is the moved outline. -/
theorem C152_profile (hg : IsRigid g) (h : MovedLane g cps cps') (n : Nat) :
    Agree (fun ps ps' => ps' = ps.map (applyT2 g)) (laneProfile cps n) (laneProfile cps' n) := by
  have hb : ∀ bs, Agree (fun ps ps' => ps' = ps.map fun q => (applyT2 g q.1, applyT2 g q.2)) (boundsAll cps bs)
      (boundsAll cps' bs) := by
    intro bs
    induction bs with
    | nil => rfl
    | cons b bs ih =>
      simp only [boundsAll]
      have h1 := (C152_lane hg h).2.2.2.2.2 b
      revert h1
      cases boundsAt cps b <;> cases boundsAt cps' b <;> simp only [Agree] <;> intro h1 <;> try exact False.elim h1
      · exact h1
      · revert ih
        cases boundsAll cps bs <;> cases boundsAll cps' bs <;> simp only [Agree] <;> intro ih <;> try exact False.elim ih
        · exact ih
        · rw [ih, h1]; rfl
  have hnil : cps' = [] ↔ cps = [] := by rw [← List.length_eq_zero_iff, ← List.length_eq_zero_iff, h.length]
  unfold laneProfile
  simp only [hnil, h.length]
  by_cases hc : cps = [] ∧ 0 < n
  · simp only [hc, and_self, if_true, Agree]
  · simp only [hc, if_false]
    have h1 := hb (linspace ((cps.length - 1 : Nat) : ℝ) ((cps.length - 1) * n))
    revert h1
    generalize linspace ((cps.length - 1 : Nat) : ℝ) ((cps.length - 1) * n) = bs
    cases boundsAll cps bs <;> cases boundsAll cps' bs <;> simp only [Agree] <;> intro h1 <;> try exact False.elim h1
    · exact h1
    · subst h1
      simp only [List.map_append, List.map_map, List.map_reverse]
      rfl

/-- **C152.** The place on the lane found for a position is the same, whatever the search does with the distance function and
the bracket it is given, in both variants, and so is the distance along the lane. -/
theorem C152_closest (hg : IsRigid g) (h : MovedLane g cps cps') (search : Search) (p : ℝ × ℝ) (bracket : Option (ℝ × ℝ)) :
    closestBy search cps' (applyT2 g p) = closestBy search cps p ∧
    Agree (fun r r' => r'.1 = r.1 ∧ r'.2 = g.mul r.2) (findClosest search cps p bracket)
      (findClosest search cps' (applyT2 g p) bracket) ∧
    Agree (fun r r' => r'.1 = r.1 ∧ (r'.2.a02, r'.2.a12) = applyT2 g (r.2.a02, r.2.a12)) (findClosestFast search cps p bracket)
      (findClosestFast search cps' (applyT2 g p) bracket) ∧
    ∀ fast, alongOfPoint search cps' (applyT2 g p) bracket fast = alongOfPoint search cps p bracket fast := by
  have h1 : Agree (fun r r' => r'.1 = r.1 ∧ r'.2 = g.mul r.2) (findClosest search cps p bracket)
      (findClosest search cps' (applyT2 g p) bracket) := by
    unfold findClosest
    simp only [h.delta hg, h.length]
    generalize search (delta cps p) (bracket.getD (-1, cps.length)) = b
    have hc := h.center hg b
    revert hc
    cases centerPoint cps b <;> cases centerPoint cps' b <;> simp only [Agree] <;> intro hc <;> try exact False.elim hc
    · exact hc
    · exact ⟨trivial, hc⟩
  have h2 : Agree (fun r r' => r'.1 = r.1 ∧ (r'.2.a02, r'.2.a12) = applyT2 g (r.2.a02, r.2.a12))
      (findClosestFast search cps p bracket) (findClosestFast search cps' (applyT2 g p) bracket) := by
    unfold findClosestFast
    simp only [h.deltaFast hg, h.length]
    generalize search (deltaFast cps p) (bracket.getD (0, (cps.length : ℝ) - 1)) = b
    have hc := h.fast b
    revert hc
    cases centerFast cps b <;> cases centerFast cps' b <;> simp only [Agree] <;> intro hc <;> try exact False.elim hc
    · exact hc
    · exact ⟨trivial, hc⟩
  refine ⟨by unfold closestBy; rw [h.delta hg, h.length], h1, h2, fun fast => ?_⟩
  unfold alongOfPoint
  rw [h.lengths hg, h.length]
  cases fast
  · simp only [Bool.false_eq_true, if_false]
    revert h1
    cases findClosest search cps p bracket <;> cases findClosest search cps' (applyT2 g p) bracket <;> simp only [Agree] <;> intro h1 <;> try exact False.elim h1
    · rw [h1]
    · simp only [h1.1]
  · simp only [if_true]
    revert h2
    cases findClosestFast search cps p bracket <;> cases findClosestFast search cps' (applyT2 g p) bracket <;> simp only [Agree] <;> intro h2 <;> try exact False.elim h2
    · rw [h2]
    · simp only [h2.1]

theorem MovedLane.lanePose (hg : IsRigid g) (h : MovedLane g cps cps') (along rel lat : ℝ) :
    Agree (SamePlace g) (lanePose cps along rel lat) (lanePose cps' along rel lat) := by
  unfold Maps.lanePose
  rw [h.lengths hg, h.length, h.radii, (C152_lane hg h).2.1]
  cases betaFromAlong (laneLengths cps) cps.length along with
  | error e => rfl
  | ok b =>
    simp only
    have hc := h.center hg b
    have hr := centerPoint_rigid cps b
    revert hc hr
    cases centerPoint cps b <;> cases centerPoint cps' b <;> simp only [Agree] <;> intro hc hr <;> try exact False.elim hc
    · exact hc
    · cases radius (cps.map (·.r)) b with
      | error e => rfl
      | ok r =>
        refine ⟨rfl, rfl, rfl, rfl, rfl, rfl, rfl, ?_⟩
        simp only
        rw [hc, fromSE2_frame hg _ (hr _ rfl)]

/-- **C152.** The lane pose of a moved pose in the moved lane: the same place, with the center pose moved along. -/
theorem C152_pose (hg : IsRigid g) (h : MovedLane g cps cps') (search : Search) (q : Mat3 ℝ) (hq : IsRigid q) :
    Agree (SamePlace g) (lanePoseOf (closestBy search cps) cps q) (lanePoseOf (closestBy search cps') cps' (g.mul q)) := by
  unfold lanePoseOf
  rw [mul_pos' hg q hq, (C152_closest hg h search (q.a02, q.a12) none).1, h.lengths hg, h.length]
  simp only
  generalize closestBy search cps (q.a02, q.a12) = b
  have hc := h.center hg b
  revert hc
  cases centerPoint cps b <;> cases centerPoint cps' b <;> simp only [Agree] <;> intro hc <;> try exact False.elim hc
  · exact hc
  · subst hc
    cases alongFromBeta (laneLengths cps) cps.length b with
    | error e => rfl
    | ok a =>
      simp only
      rw [C56_frame g _ q hg.det_ne]
      rename_i q0
      cases relativePose q0 q with
      | error e => rfl
      | ok r => exact h.lanePose hg _ _ _

/-- **C152.** A moved position is inside the moved lane exactly when the position was inside the lane. -/
theorem C152_inside (hg : IsRigid g) (h : MovedLane g cps cps') (search : Search) (p : ℝ × ℝ) :
    isInside (closestBy search cps') cps' (applyT2 g p) = isInside (closestBy search cps) cps p := by
  unfold isInside
  rw [(C152_closest hg h search p none).1, h.radii]
  simp only
  generalize closestBy search cps p = b
  cases radius (cps.map (·.r)) b with
  | error e => rfl
  | ok r =>
    simp only
    have hc := h.fast b
    revert hc
    cases centerFast cps b <;> cases centerFast cps' b <;> simp only [Agree] <;> intro hc <;> try exact False.elim hc
    · rw [hc]
    · rename_i t t'
      simp only [Prod.ext_iff] at hc
      rw [hc.1, hc.2, norm_frame hg (t.x, t.y) p, h.length]

theorem ctrPoint_frame (hg : IsRigid g) (l r c : ℝ × ℝ) (hlr : l ≠ r) :
    (ctrPointOf (applyT2 g l) (applyT2 g r) (applyT2 g c)).r = (ctrPointOf l r c).r ∧
    (ctrPointOf (applyT2 g l) (applyT2 g r) (applyT2 g c)).q.asSE2 = g.mul (ctrPointOf l r c).q.asSE2 := by
  have hn : norm2 (r.1 - l.1) (r.2 - l.2) ≠ 0 := by
    intro h0
    obtain ⟨h1, h2⟩ := (norm2_eq_zero _ _).mp h0
    exact hlr (Prod.ext (by linarith) (by linarith))
  have key : ∀ x y : ℝ, norm2 x y ≠ 0 → Real.cos (atan2 x (-y)) = -y / norm2 x y ∧ Real.sin (atan2 x (-y)) = x / norm2 x y := by
    intro x y h
    have he : ‖(⟨-y, x⟩ : ℂ)‖ = norm2 x y := by rw [Complex.norm_def, Complex.normSq_mk, norm2]; congr 1; ring
    have hz : (⟨-y, x⟩ : ℂ) ≠ 0 := by intro h0; apply h; rw [← he, h0, norm_zero]
    exact ⟨by rw [atan2, Complex.cos_arg hz, he], by rw [atan2, Complex.sin_arg, he]⟩
  have hf := norm_frame hg r l
  constructor
  · simp only [ctrPointOf, hf]
  · obtain ⟨k1, k2⟩ := key _ _ hn
    obtain ⟨k3, k4⟩ := key ((applyT2 g r).1 - (applyT2 g l).1) ((applyT2 g r).2 - (applyT2 g l).2) (by rw [hf]; exact hn)
    simp only [ctrPointOf, Transform.asSE2]
    rw [k1, k2, k3, k4, hf]
    obtain ⟨cc, s, x, y, h, rfl⟩ := hg
    simp only [applyT2, rigid, Mat3.mul]
    ext <;> simp <;> field_simp <;> ring

/-- **C152.** Building a lane from moved vertices gives the moved lane (or the same exception), if the left and the right
vertex never coincide. -/
theorem C152_vertices_partial (hg : IsRigid g) (left right center : List (ℝ × ℝ))
    (hlr : ∀ (i : Nat) (l r : ℝ × ℝ), left[i]? = some l → right[i]? = some r → l ≠ r) :
    Agree (MovedLane g) (fromVertices left right center)
      (fromVertices (left.map (applyT2 g)) (right.map (applyT2 g)) (center.map (applyT2 g))) := by
  unfold fromVertices
  rw [List.length_map]
  generalize List.range center.length = is
  induction is with
  | nil => exact List.Forall₂.nil
  | cons i is ih =>
    simp only [List.mapM_cons, List.getElem?_map] at ih ⊢
    revert ih
    cases hc : center[i]? <;> cases hr : right[i]? <;> cases hl : left[i]? <;>
      simp only [Option.map_none, Option.map_some] <;> intro ih <;> try rfl
    rename_i c r l
    have hk := ctrPoint_frame hg l r c (hlr i _ _ hl hr)
    simp only [bind, Except.bind]
    revert ih
    generalize (List.mapM (m := Except Err) (fun i =>
        match center[i]?, right[i]?, left[i]? with
        | some c, some r, some l => Except.ok (ctrPointOf l r c)
        | _, _, _ => Except.error Err.index) is) = A
    generalize (List.mapM (m := Except Err) (fun i =>
        match Option.map (applyT2 g) center[i]?, Option.map (applyT2 g) right[i]?, Option.map (applyT2 g) left[i]? with
        | some c, some r, some l => Except.ok (ctrPointOf l r c)
        | _, _, _ => Except.error Err.index) is) = B
    intro ih
    cases A <;> cases B
    · exact ih
    · exact ih
    · exact ih
    · exact List.Forall₂.cons hk ih

/-- Two control points with headings of 45 degrees to the right and to the left. -/
noncomputable def bend : List CtrPoint := [⟨⟨0, 0, -(Real.pi / 4)⟩, 2⟩, ⟨⟨8, 0, Real.pi / 4⟩, 2⟩]

/-- The same control points after half a turn, with the headings in `(-π, π]`. -/
noncomputable def bendBack : List CtrPoint := [⟨⟨0, 0, 3 * Real.pi / 4⟩, 2⟩, ⟨⟨-8, 0, -(3 * Real.pi / 4)⟩, 2⟩]

theorem bend_moved : MovedLane (rigid (-1) 0 0 0) bend bendBack := by
  have e1 : Real.cos (3 * Real.pi / 4) = -Real.cos (Real.pi / 4) := by
    rw [show 3 * Real.pi / 4 = Real.pi - Real.pi / 4 by ring, Real.cos_pi_sub]
  have e2 : Real.sin (3 * Real.pi / 4) = Real.sin (Real.pi / 4) := by
    rw [show 3 * Real.pi / 4 = Real.pi - Real.pi / 4 by ring, Real.sin_pi_sub]
  refine List.Forall₂.cons ⟨rfl, ?_⟩ (List.Forall₂.cons ⟨rfl, ?_⟩ List.Forall₂.nil)
  · simp only [Transform.asSE2, rigid, Mat3.mul, Real.cos_neg, Real.sin_neg, e1, e2]
    ext <;> simp
  · simp only [Transform.asSE2, rigid, Mat3.mul, Real.cos_neg, Real.sin_neg, e1, e2]
    ext <;> simp

example : IsRigid (rigid (-1 : ℝ) 0 0 0) ∧ MovedLane (rigid (-1) 0 0 0) bend bendBack :=
  ⟨⟨-1, 0, 0, 0, by norm_num, rfl⟩, bend_moved⟩

example : ∀ (i : Nat) (l r : ℝ × ℝ), [((0, 2) : ℝ × ℝ), (9, 2)][i]? = some l → [((0, -1) : ℝ × ℝ), (9, -2)][i]? = some r →
    l ≠ r := by
  intro i l r h1 h2
  match i with
  | 0 => simp at h1 h2; subst h1 h2; simp; norm_num
  | 1 => simp at h1 h2; subst h1 h2; simp; norm_num
  | n + 2 => simp at h1

/-- **C152 does not hold for the heading of the fast center point** (lanes.py:301-303 blends the headings as numbers): half a
turn of the world turns the pose between two control points by a full turn. -/
theorem C152_false_heading : ∃ t t', centerFast bend (1 / 2) = .ok t ∧ centerFast bendBack (1 / 2) = .ok t' ∧
    t'.asSE2 ≠ (rigid (-1) 0 0 0).mul t.asSE2 := by
  have hfl : ⌊(1 / 2 : ℝ)⌋ = 0 := by norm_num
  refine ⟨⟨4, 0, 0⟩, ⟨-4, 0, 0⟩, ?_, ?_, ?_⟩
  · simp only [centerFast, hfl, bend, blend, pyGet]
    norm_num
  · simp only [centerFast, hfl, bendBack, blend, pyGet]
    norm_num
  · intro h
    have := congrArg Mat3.a00 h
    simp [Transform.asSE2, rigid, Mat3.mul] at this
    norm_num at this

/-- **C152 does not hold for coinciding vertices**: where the left and the right vertex are the same point, the control point
heads along the x axis of every frame. -/
theorem C152_false_vertices (p : ℝ × ℝ) : ∃ g, IsRigid g ∧ ∃ cps cps', fromVertices [p] [p] [p] = .ok cps ∧
    fromVertices [applyT2 g p] [applyT2 g p] [applyT2 g p] = .ok cps' ∧ ¬ MovedLane g cps cps' := by
  refine ⟨rigid 0 1 0 0, ⟨0, 1, 0, 0, by norm_num, rfl⟩, [ctrPointOf p p p], _, rfl, rfl, fun h => ?_⟩
  cases h with
  | cons h _ =>
    have := congrArg Mat3.a00 h.2
    have h0 : atan2 0 0 = 0 := by
      unfold atan2; exact Complex.arg_zero
    simp [ctrPointOf, Transform.asSE2, rigid, Mat3.mul, h0] at this

end Maps
end Verif
