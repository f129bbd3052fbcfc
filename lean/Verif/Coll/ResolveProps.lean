import Verif.Coll.ImpulseProps
import Verif.Coll.Resolve

/-!
# C37–C39: resolution of collisions and fault
-/

set_option linter.unusedSectionVars false

namespace Verif
namespace Coll

variable {N K : Type} [DecidableEq N] [Field K] [LinearOrder K] [IsStrictOrderedRing K]

/-! ## C39 -/

theorem faultLoop_get (F : Iface N K) (lanes : List F.Lane) (poses : Dict N F.Q)
    (hwf : Dict.Wf poses) : ∀ (acc : Dict N Bool) (n : N),
    Dict.get? (faultLoop F lanes poses acc) n =
      match Dict.get? poses n with
      | some q => if lanes.all (fun l => illegalPose (F.lanePose l q)) then some true
        else Dict.get? acc n
      | none => Dict.get? acc n := by
  induction poses with
  | nil => intro acc n; rfl
  | cons pq rest ih =>
    obtain ⟨p, q⟩ := pq
    intro acc n
    have hwf' : Dict.Wf rest := by
      unfold Dict.Wf at hwf ⊢; simp only [Dict.keys, List.map_cons, List.nodup_cons] at hwf ⊢
      exact hwf.2
    have hp : p ∉ Dict.keys rest := by
      unfold Dict.Wf at hwf; simp only [Dict.keys, List.map_cons, List.nodup_cons] at hwf
      exact hwf.1
    unfold faultLoop
    simp only
    rw [ih hwf']
    have hcond : (lanes.map (fun l => illegalPose (F.lanePose l q))).all id =
        lanes.all (fun l => illegalPose (F.lanePose l q)) := by
      rw [List.all_map]; rfl
    rw [hcond]
    by_cases hpn : p = n
    · subst hpn
      have hg : Dict.get? rest p = none := (Dict.get?_eq_none_iff _ _).mpr hp
      have hg2 : Dict.get? ((p, q) :: rest) p = some q := by simp [Dict.get?]
      rw [hg, hg2]
      simp only
      split
      · rw [Dict.get?_set_self]
      · rfl
    · have hg2 : Dict.get? ((p, q) :: rest) n = Dict.get? rest n := by simp [Dict.get?, hpn]
      rw [hg2]
      have hacc : Dict.get? (if (lanes.all fun l => illegalPose (F.lanePose l q)) = true then
          Dict.set acc p true else acc) n = Dict.get? acc n := by
        split
        · exact Dict.get?_set_ne _ hpn _
        · rfl
      rw [hacc]

theorem get?_false_map {α : Type} (poses : Dict N α) (n : N) :
    Dict.get? (poses.map (fun p => (p.1, false))) n = (Dict.get? poses n).map (fun _ => false) := by
  induction poses with
  | nil => rfl
  | cons pq rest ih =>
    obtain ⟨p, q⟩ := pq
    by_cases hpn : p = n
    · simp [Dict.get?, hpn]
    · simp only [List.map_cons]
      have h1 : Dict.get? ((p, q) :: rest) n = Dict.get? rest n := by simp [Dict.get?, hpn]
      have h2 : Dict.get? ((p, false) :: rest.map (fun p => (p.1, false))) n =
          Dict.get? (rest.map (fun p => (p.1, false))) n := by simp [Dict.get?, hpn]
      rw [h1, h2, ih]

/-- A pose is legal on a lane if it is inside and along its direction. -/
def Legal (F : Iface N K) (l : F.Lane) (q : F.Q) : Prop :=
  (F.lanePose l q).1 = true ∧ (F.lanePose l q).2 = true

theorem all_illegal_iff (F : Iface N K) (lanes : List F.Lane) (q : F.Q) :
    lanes.all (fun l => illegalPose (F.lanePose l q)) = true ↔ ∀ l ∈ lanes, ¬Legal F l q := by
  rw [List.all_eq_true]
  refine forall₂_congr fun l _ => ?_
  unfold illegalPose Legal
  cases (F.lanePose l q).1 <;> cases (F.lanePose l q).2 <;> simp

/-- **C39.** Every player asked about gets a verdict, nobody else; the verdict on a player is "at
fault" exactly if the pose of this player is illegal on every lane at the impact point. -/
theorem C39_fault (F : Iface N K) (poses : Dict N F.Q) (hwf : Dict.Wf poses) (point : K × K) (n : N) :
    (Dict.get? poses n = none → Dict.get? (atFault F poses point) n = none) ∧
    ∀ q, Dict.get? poses n = some q →
      ∃ v, Dict.get? (atFault F poses point) n = some v ∧
        (v = true ↔ ∀ l ∈ F.lanesAt point, ¬Legal F l q) := by
  unfold atFault
  rw [faultLoop_get F _ poses hwf, get?_false_map]
  refine ⟨fun h => by rw [h]; rfl, fun q h => ?_⟩
  rw [h]
  by_cases hall : (F.lanesAt point).all (fun l => illegalPose (F.lanePose l q)) = true
  · refine ⟨true, by simp only; rw [if_pos hall], ?_⟩
    simp only [true_iff]
    exact (all_illegal_iff F _ q).mp hall
  · refine ⟨false, by simp only; rw [if_neg hall]; rfl, ?_⟩
    simp only [Bool.false_eq_true, false_iff]
    exact fun h => hall ((all_illegal_iff F _ q).mpr h)

/-- **C39.** The verdict on a player depends only on the pose of this player: not on who else is
asked about, nor on the order. -/
theorem C39_independent (F : Iface N K) (d1 d2 : Dict N F.Q) (h1 : Dict.Wf d1) (h2 : Dict.Wf d2)
    (point : K × K) (n : N) (h : Dict.get? d1 n = Dict.get? d2 n) :
    Dict.get? (atFault F d1 point) n = Dict.get? (atFault F d2 point) n := by
  cases hq : Dict.get? d1 n with
  | none =>
    rw [(C39_fault F d1 h1 point n).1 hq, (C39_fault F d2 h2 point n).1 (h ▸ hq)]
  | some q =>
    obtain ⟨v1, hv1, e1⟩ := (C39_fault F d1 h1 point n).2 q hq
    obtain ⟨v2, hv2, e2⟩ := (C39_fault F d2 h2 point n).2 q (h ▸ hq)
    rw [hv1, hv2]
    congr 1
    rw [Bool.eq_iff_iff]
    exact e1.trans e2.symm

/-- **C39.** If no lane contains the impact point, everybody is at fault. -/
theorem C39_off_road (F : Iface N K) (poses : Dict N F.Q) (hwf : Dict.Wf poses) (point : K × K)
    (hl : F.lanesAt point = []) (n : N) (hn : n ∈ Dict.keys poses) :
    Dict.get? (atFault F poses point) n = some true := by
  obtain ⟨q, hq⟩ := (Dict.mem_keys_iff _ _).mp hn
  obtain ⟨v, hv, e⟩ := (C39_fault F poses hwf point n).2 q hq
  rw [hv, e.mpr (by rw [hl]; simp)]

/-! ## C37 -/

/-- Marking a model as collided changes only the mark. -/
structure MarkOk (F : Iface N K) : Prop where
  geom : ∀ m, F.geom (F.mark m) = F.geom m
  pose : ∀ m, F.pose (F.mark m) = F.pose m
  mesh : ∀ m, F.mesh (F.mark m) = F.mesh m

/-- The rigid body that a model represents. -/
def bodyOf (F : Iface N K) (m : F.M) (mass inertia : K) : Body K :=
  ⟨F.translation (F.pose m), (F.velocity m).1, (F.velocity m).2, mass, inertia⟩

/-- The parts of the mesh of a model that a shape hits. -/
def hitParts (F : Iface N K) (m : F.M) (s : F.S) : List (F.L × F.S) :=
  (F.mesh m).filter (fun l => F.intersects s l.2)

theorem dot_rel (F : Iface N K) (ma mb : F.M) (p n : K × K) (xa ia xb ib : K) :
    dot ((velocityOfP (F.velocity ma).1 (F.velocity ma).2 (armTo p (F.translation (F.pose ma)))).1 -
        (velocityOfP (F.velocity mb).1 (F.velocity mb).2 (armTo p (F.translation (F.pose mb)))).1,
      (velocityOfP (F.velocity ma).1 (F.velocity ma).2 (armTo p (F.translation (F.pose ma)))).2 -
        (velocityOfP (F.velocity mb).1 (F.velocity mb).2 (armTo p (F.translation (F.pose mb)))).2) n =
      approach (bodyOf F ma xa ia) (bodyOf F mb xb ib) p n := by
  simp only [dot, velocityOfP, armTo, approach, bodyOf, Body.velAt]; ring

/-- **C37.** If the geometry of the impact cannot be computed, the exception is passed on and the
models are untouched. If the bodies separate along the normal, nothing happens. -/
theorem C37_untouched (F : Iface N K) (sc : Bool) (t : K) (a b : N) (ma mb : F.M) :
    (∀ e, F.impactGeometry (F.footprint ma) (F.footprint mb) = .error e →
      resolve F sc t a ma b mb = ((ma, mb), .error e)) ∧
    (∀ n p xa ia xb ib, F.impactGeometry (F.footprint ma) (F.footprint mb) = .ok (n, p) →
      approach (bodyOf F ma xa ia) (bodyOf F mb xb ib) p n < 0 →
      resolve F sc t a ma b mb = ((ma, mb), .ok none)) := by
  constructor
  · intro e h
    unfold resolve
    simp only [h]
  · intro n p xa ia xb ib h happ
    unfold resolve
    simp only [h]
    rw [if_pos (by rw [dot_rel F ma mb p n xa ia xb ib]; exact happ)]

/-- **C37.** Otherwise both models are marked; if no part of one of the meshes is hit, a
`CollisionException` is raised and the velocities are left. -/
theorem C37_no_location (F : Iface N K) (hF : MarkOk F) (sc : Bool) (t : K) (a b : N) (ma mb : F.M)
    (n p : K × K) (xa ia xb ib : K)
    (hg : F.impactGeometry (F.footprint ma) (F.footprint mb) = .ok (n, p))
    (happ : 0 ≤ approach (bodyOf F ma xa ia) (bodyOf F mb xb ib) p n)
    (hl : hitParts F ma (F.footprint mb) = [] ∨ hitParts F mb (F.footprint ma) = []) :
    resolve F sc t a ma b mb = ((F.mark ma, F.mark mb), .error .collision) := by
  unfold resolve
  simp only [hg]
  rw [if_neg (by rw [dot_rel F ma mb p n xa ia xb ib]; exact not_lt.mpr happ)]
  have hloc : ∀ m s, impactLocations F (F.mark m) s =
      if (hitParts F m s).isEmpty then .error .collision else .ok (hitParts F m s) := by
    intro m s; unfold impactLocations hitParts; rw [hF.mesh]
  rw [hloc, hloc]
  rcases hl with hl | hl
  · rw [hl]; rfl
  · rw [hl]
    by_cases h : (hitParts F ma (F.footprint mb)).isEmpty = true
    · rw [if_pos h]
    · rw [if_neg h]; rfl

/-- What a report says about one of the players. -/
structure Tells (F : Iface N K) (r : CollisionReport N K F.L F.S) (n : N) (m : F.M) (other : F.S)
    (before after : Body K) (fault : Bool) : Prop where
  entry : ∃ rp, Dict.get? r.players n = some (some rp) ∧
    rp.velocity = (before.vel, before.omega) ∧ rp.velocityAfter = (after.vel, after.omega) ∧
    rp.footprint = F.footprint m ∧ rp.atFault = fault ∧
    rp.locations = hitParts F m other ∧
    rp.energyDelta = 1 / 2 * before.m * (after.vel.1 ^ 2 + after.vel.2 ^ 2) -
      1 / 2 * before.m * (before.vel.1 ^ 2 + before.vel.2 ^ 2)

/-- **C37.** Bodies that do not separate, with hit parts on both sides: both models are marked and get
the velocities of the impulse response; the report carries the time, the impact point and normal, and
names both players with their velocities before and after. Faults are assigned as in C39 if there is a
scenario, and to nobody otherwise. -/
theorem C37_resolved (F : Iface N K) (hF : MarkOk F) (sc : Bool) (t : K) (a b : N) (hab : a ≠ b)
    (ma mb : F.M) (n p : K × K) (xa ia ea xb ib eb : K)
    (hga : F.geom ma = ⟨some xa, some ia, ea⟩) (hgb : F.geom mb = ⟨some xb, some ib, eb⟩)
    (hg : F.impactGeometry (F.footprint ma) (F.footprint mb) = .ok (n, p))
    (happ : 0 ≤ approach (bodyOf F ma xa ia) (bodyOf F mb xb ib) p n)
    (hla : hitParts F ma (F.footprint mb) ≠ []) (hlb : hitParts F mb (F.footprint ma) ≠ []) :
    let A := bodyOf F ma xa ia
    let B := bodyOf F mb xb ib
    let A' := A.hit p n (impulseOf A B ea eb p n)
    let B' := B.hit p (-n.1, -n.2) (impulseOf A B ea eb p n)
    ∃ r fa fb, resolve F sc t a ma b mb =
        ((F.setVelocity (F.mark ma) A'.vel A'.omega, F.setVelocity (F.mark mb) B'.vel B'.omega),
          .ok (some r)) ∧
      r.atTime = t ∧ r.point = some p ∧ r.normal = some n ∧ Dict.keys r.players = [a, b] ∧
      Tells F r a ma (F.footprint mb) A A' fa ∧ Tells F r b mb (F.footprint ma) B B' fb ∧
      (fa = true ↔ sc = true ∧ ∀ l ∈ F.lanesAt p, ¬Legal F l (F.pose ma)) ∧
      (fb = true ↔ sc = true ∧ ∀ l ∈ F.lanesAt p, ¬Legal F l (F.pose mb)) := by
  intro A B A' B'
  have hloc : ∀ m s, impactLocations F (F.mark m) s =
      if (hitParts F m s).isEmpty then .error .collision else .ok (hitParts F m s) := by
    intro m s; unfold impactLocations hitParts; rw [hF.mesh]
  have hne : ∀ (m : F.M) (s : F.S), hitParts F m s ≠ [] → ¬(hitParts F m s).isEmpty = true := by
    intro m s h h'; exact h (List.isEmpty_iff.mp h')
  let poses : Dict N F.Q := Dict.set (Dict.set [] a (F.pose ma)) b (F.pose mb)
  have hwf : Dict.Wf poses := Dict.wf_set (Dict.wf_set Dict.wf_nil _ _) _ _
  have hpa : Dict.get? poses a = some (F.pose ma) := by
    simp only [poses]
    rw [Dict.get?_set_ne _ (Ne.symm hab), Dict.get?_set_self]
  have hpb : Dict.get? poses b = some (F.pose mb) := by
    simp only [poses]; rw [Dict.get?_set_self]
  obtain ⟨va, hva, hva'⟩ := (C39_fault F poses hwf p a).2 _ hpa
  obtain ⟨vb, hvb, hvb'⟩ := (C39_fault F poses hwf p b).2 _ hpb
  have hj : impulse n ((velocityOfP (F.velocity ma).1 (F.velocity ma).2 (armTo p (F.translation (F.pose ma)))).1 -
        (velocityOfP (F.velocity mb).1 (F.velocity mb).2 (armTo p (F.translation (F.pose mb)))).1,
      (velocityOfP (F.velocity ma).1 (F.velocity ma).2 (armTo p (F.translation (F.pose ma)))).2 -
        (velocityOfP (F.velocity mb).1 (F.velocity mb).2 (armTo p (F.translation (F.pose mb)))).2)
      (armTo p (F.translation (F.pose ma))) (armTo p (F.translation (F.pose mb)))
      ⟨some xa, some ia, ea⟩ ⟨some xb, some ib, eb⟩ = impulseOf A B ea eb p n := rfl
  have hfault : (if sc = true then (faultOf (atFault F poses p) a, faultOf (atFault F poses p) b)
      else (false, false)) = (sc && va, sc && vb) := by
    cases sc with
    | false => rfl
    | true => simp only [if_true, faultOf, hva, hvb, Option.getD_some, Bool.true_and]
  let ra : ReportPlayer K F.L F.S := ⟨hitParts F ma (F.footprint mb), sc && va, F.footprint ma,
    F.velocity ma, (A'.vel, A'.omega), kineticEnergy A'.vel (some xa) - kineticEnergy A.vel (some xa)⟩
  let rb : ReportPlayer K F.L F.S := ⟨hitParts F mb (F.footprint ma), sc && vb, F.footprint mb,
    F.velocity mb, (B'.vel, B'.omega), kineticEnergy B'.vel (some xb) - kineticEnergy B.vel (some xb)⟩
  have hkeys : ∀ (α : Type) (u v : α), Dict.set (Dict.set ([] : Dict N α) a u) b v =
      [(a, u), (b, v)] := by
    intro α u v; simp [Dict.set, hab]
  refine ⟨⟨Dict.set (Dict.set [] a (some ra)) b (some rb), some p, some n, t⟩, sc && va, sc && vb,
    ?_, rfl, rfl, rfl, ?_, ⟨ra, ?_, rfl, rfl, rfl, rfl, rfl, rfl⟩, ⟨rb, ?_, rfl, rfl, rfl, rfl, rfl, rfl⟩, ?_, ?_⟩
  · unfold resolve
    simp only [hg]
    rw [if_neg (by rw [dot_rel F ma mb p n xa ia xb ib]; exact not_lt.mpr happ)]
    rw [hloc, hloc, if_neg (hne _ _ hla), if_neg (hne _ _ hlb)]
    simp only [hF.geom, hga, hgb, hj, hF.pose]
    have hpos : (Dict.set (Dict.set [] a (F.pose ma)) b (F.pose mb) : Dict N F.Q) = poses := rfl
    rw [hpos, hfault]
    rfl
  · rw [hkeys]; rfl
  · rw [Dict.get?_set_ne _ (Ne.symm hab), Dict.get?_set_self]
  · rw [Dict.get?_set_self]
  · rw [Bool.and_eq_true, hva']
  · rw [Bool.and_eq_true, hvb']

/-- Models whose velocity can be set: reading gives what was written, and neither marking nor writing
moves the model. -/
structure VelOk (F : Iface N K) (m : F.M) : Prop where
  get_set : ∀ v w, F.velocity (F.setVelocity (F.mark m) v w) = (v, w)
  pose : ∀ v w, F.pose (F.setVelocity (F.mark m) v w) = F.pose m

/-- **C37.** With models whose velocity can be set, a resolved collision leaves the models with a
relative normal velocity at the impact point of `-e` times the one before, not more total kinetic
energy, and the same total momentum. -/
theorem C37_physics (F : Iface N K) (hF : MarkOk F) (sc : Bool) (t : K) (a b : N) (hab : a ≠ b)
    (ma mb : F.M) (hva : VelOk F ma) (hvb : VelOk F mb) (n p : K × K) (xa ia ea xb ib eb : K)
    (hga : F.geom ma = ⟨some xa, some ia, ea⟩) (hgb : F.geom mb = ⟨some xb, some ib, eb⟩)
    (hxa : 0 < xa) (hia : 0 < ia) (hxb : 0 < xb) (hib : 0 < ib) (hea : 0 ≤ ea ∧ ea ≤ 1)
    (heb : 0 ≤ eb ∧ eb ≤ 1) (hn : n.1 ^ 2 + n.2 ^ 2 = 1)
    (hg : F.impactGeometry (F.footprint ma) (F.footprint mb) = .ok (n, p))
    (ma' mb' : F.M) (r : CollisionReport N K F.L F.S)
    (h : resolve F sc t a ma b mb = ((ma', mb'), .ok (some r))) :
    let A := bodyOf F ma xa ia
    let B := bodyOf F mb xb ib
    let A' := bodyOf F ma' xa ia
    let B' := bodyOf F mb' xb ib
    0 ≤ approach A B p n ∧ approach A' B' p n = -(min ea eb) * approach A B p n ∧
      A'.energy + B'.energy ≤ A.energy + B.energy ∧
      A'.momentum.1 + B'.momentum.1 = A.momentum.1 + B.momentum.1 ∧
      A'.momentum.2 + B'.momentum.2 = A.momentum.2 + B.momentum.2 ∧
      ∀ o, A'.angular o + B'.angular o = A.angular o + B.angular o := by
  intro A B A' B'
  by_cases happ : approach A B p n < 0
  · rw [(C37_untouched F sc t a b ma mb).2 n p xa ia xb ib hg happ] at h
    simp at h
  have happ := not_lt.mp happ
  by_cases hl : hitParts F ma (F.footprint mb) = [] ∨ hitParts F mb (F.footprint ma) = []
  · rw [C37_no_location F hF sc t a b ma mb n p xa ia xb ib hg happ hl] at h
    simp at h
  obtain ⟨hla, hlb⟩ := not_or.mp hl
  obtain ⟨r', _, _, hr, _⟩ := C37_resolved F hF sc t a b hab ma mb n p xa ia ea xb ib eb hga hgb hg
    happ hla hlb
  rw [hr] at h
  simp only [Prod.mk.injEq] at h
  obtain ⟨⟨h1, h2⟩, _⟩ := h
  have hA : A' = A.hit p n (impulseOf A B ea eb p n) := by
    simp only [A', bodyOf]
    rw [← h1, hva.get_set, hva.pose]; rfl
  have hB : B' = B.hit p (-n.1, -n.2) (impulseOf A B ea eb p n) := by
    simp only [B', bodyOf]
    rw [← h2, hvb.get_set, hvb.pose]; rfl
  rw [hA, hB]
  obtain ⟨m1, m2, m3⟩ := C34_momentum A B p n (impulseOf A B ea eb p n) hxa.ne' hxb.ne' hia.ne' hib.ne'
  exact ⟨happ, C35_restitution A B ea eb p n hxa hxb hia hib hn,
    (C36_energy A B ea eb p n hxa hxb hia hib hn hea heb).1, m1, m2, m3⟩

/-! ## C38 -/

/-- Normal velocity of the material point of the body at `p`. -/
def normalVel (a : Body K) (p n : K × K) : K := (a.velAt p).1 * n.1 + (a.velAt p).2 * n.2

/-- The impulse computed for a body and an immovable obstacle with restitution coefficient `eb`. -/
def impulseEnvOf (a : Body K) (ea eb : K) (p n : K × K) : K :=
  impulse n (velocityOfP a.vel a.omega (a.arm p)) (a.arm p) (1, 1) (a.geom ea) ⟨none, none, eb⟩

/-- **C38.** Physics of a collision with an immovable obstacle: the normal velocity at the impact
point is multiplied by `-e`, and the kinetic energy does not grow for coefficients in [0, 1]. -/
theorem C38_physics (a : Body K) (ea eb : K) (p n : K × K) (ha : 0 < a.m) (hI : 0 < a.I)
    (hn : n.1 ^ 2 + n.2 ^ 2 = 1) :
    let a' := a.hit p n (impulseEnvOf a ea eb p n)
    normalVel a' p n = -(min ea eb) * normalVel a p n ∧
      ((0 ≤ ea ∧ ea ≤ 1) → (0 ≤ eb ∧ eb ≤ 1) → a'.energy ≤ a.energy) := by
  intro a'
  set D := 1 / a.m + cross (a.arm p) n ^ 2 * (1 / a.I) with hDdef
  have hD : 0 < D := by rw [hDdef]; positivity
  set j := impulseEnvOf a ea eb p n with hjdef
  have hj : j = -(1 + min ea eb) * normalVel a p n / D := by
    rw [hjdef, hDdef]
    unfold impulseEnvOf impulse normalVel
    simp only [velocityOfP, dot, Body.geom, Body.velAt, Body.arm, recip]
    congr 1 <;> ring
  have hnv : normalVel a' p n = normalVel a p n + j * D := by
    rw [hDdef]
    simp only [a', normalVel, Body.velAt, Body.hit, velocityAfter, omegaAfter, recip, cross, Body.arm]
    linear_combination (j * (1 / a.m)) * hn
  have hjD : j * D = -(1 + min ea eb) * normalVel a p n := by
    rw [hj, div_mul_cancel₀ _ hD.ne']
  refine ⟨by rw [hnv, hjD]; ring, fun hea heb => ?_⟩
  have hen : a'.energy = a.energy + (j * normalVel a p n + 1 / 2 * j ^ 2 * D) := by
    rw [hDdef]
    simp only [a', normalVel, Body.energy, Body.hit, velocityAfter, omegaAfter, recip, cross,
      Body.arm, Body.velAt]
    have h1 := ha.ne'
    have h2 := hI.ne'
    field_simp
    linear_combination (j ^ 2 * a.I) * hn
  have he0 : 0 ≤ min ea eb := le_min hea.1 heb.1
  have he1 : min ea eb ≤ 1 := le_trans (min_le_left _ _) hea.2
  have hle : j * normalVel a p n + 1 / 2 * j ^ 2 * D =
      -((1 - min ea eb ^ 2) * normalVel a p n ^ 2 / D) / 2 := by
    rw [hj]; field_simp; ring
  have hnn : 0 ≤ (1 - min ea eb ^ 2) * normalVel a p n ^ 2 / D := by
    apply div_nonneg _ hD.le
    apply mul_nonneg _ (sq_nonneg _)
    nlinarith
  rw [hen, hle]; linarith

theorem dot_env (F : Iface N K) (ma : F.M) (p n : K × K) (xa ia : K) :
    dot (velocityOfP (F.velocity ma).1 (F.velocity ma).2 (armTo p (F.translation (F.pose ma)))) n =
      normalVel (bodyOf F ma xa ia) p n := by
  simp only [dot, velocityOfP, armTo, normalVel, bodyOf, Body.velAt]; ring

/-- **C38.** Exceptions of the impact geometry and separation leave the model untouched; if no part
of the mesh is hit the model is only marked. -/
theorem C38_untouched (F : Iface N K) (hF : MarkOk F) (t : K) (a : N) (ma : F.M) (s : F.S)
    (gb : Geom K) :
    (∀ e, F.impactGeometry (F.footprint ma) s = .error e →
      resolveEnv F t a ma s gb = (ma, .error e)) ∧
    (∀ n p xa ia, F.impactGeometry (F.footprint ma) s = .ok (n, p) →
      (normalVel (bodyOf F ma xa ia) p n < 0 → resolveEnv F t a ma s gb = (ma, .ok none)) ∧
      (0 ≤ normalVel (bodyOf F ma xa ia) p n → hitParts F ma s = [] →
        resolveEnv F t a ma s gb = (F.mark ma, .error .collision))) := by
  refine ⟨fun e h => by unfold resolveEnv; simp only [h], fun n p xa ia h => ⟨fun happ => ?_, fun happ hl => ?_⟩⟩
  · unfold resolveEnv
    simp only [h]
    rw [if_pos (by rw [dot_env F ma p n xa ia]; exact happ)]
  · unfold resolveEnv
    simp only [h]
    rw [if_neg (by rw [dot_env F ma p n xa ia]; exact not_lt.mpr happ)]
    have hloc : impactLocations F (F.mark ma) s = .error .collision := by
      unfold impactLocations
      rw [hF.mesh]
      have : (F.mesh ma).filter (fun l => F.intersects s l.2) = [] := hl
      simp only [this]; rfl
    rw [hloc]

/-- **C38.** A player that runs into an immovable obstacle is marked and gets the velocity of the
impulse response; the report carries the time, names the player and the environment, blames the player
and only the player; the environment keeps velocity zero. -/
theorem C38_resolved (F : Iface N K) (hF : MarkOk F) (t : K) (a : N) (ha : a ≠ F.envPlayer)
    (ma : F.M) (s poly : F.S) (n p : K × K) (xa ia ea eb : K)
    (hga : F.geom ma = ⟨some xa, some ia, ea⟩)
    (hg : F.impactGeometry (F.footprint ma) s = .ok (n, p))
    (happ : 0 ≤ normalVel (bodyOf F ma xa ia) p n) (hl : hitParts F ma s ≠ [])
    (hs : F.toPolygon s = .ok poly) :
    let A := bodyOf F ma xa ia
    let A' := A.hit p n (impulseEnvOf A ea eb p n)
    ∃ r renv, resolveEnv F t a ma s ⟨none, none, eb⟩ =
        (F.setVelocity (F.mark ma) A'.vel A'.omega, .ok (some r)) ∧
      r.atTime = t ∧ r.point = some p ∧ r.normal = some n ∧
      Dict.keys r.players = [a, F.envPlayer] ∧ Tells F r a ma s A A' true ∧
      Dict.get? r.players F.envPlayer = some (some renv) ∧ renv.atFault = false ∧
      renv.velocity = ((0, 0), 0) ∧ renv.velocityAfter = ((0, 0), 0) ∧ renv.energyDelta = 0 := by
  intro A A'
  have hloc : impactLocations F (F.mark ma) s = .ok (hitParts F ma s) := by
    unfold impactLocations
    rw [hF.mesh]
    have h2 : (F.mesh ma).filter (fun l => F.intersects s l.2) = hitParts F ma s := rfl
    simp only [h2]
    rw [if_neg (fun h => hl (List.isEmpty_iff.mp h))]
  let ra : ReportPlayer K F.L F.S := ⟨hitParts F ma s, true, F.footprint ma,
    F.velocity ma, (A'.vel, A'.omega), kineticEnergy A'.vel (some xa) - kineticEnergy A.vel (some xa)⟩
  let re : ReportPlayer K F.L F.S :=
    ⟨[(F.everywhere, poly)], false, poly, ((0, 0), 0), ((0, 0), 0), 0⟩
  have hkeys : ∀ (α : Type) (u v : α), Dict.set (Dict.set ([] : Dict N α) a u) F.envPlayer v =
      [(a, u), (F.envPlayer, v)] := by
    intro α u v; simp [Dict.set, ha]
  refine ⟨⟨Dict.set (Dict.set [] a (some ra)) F.envPlayer (some re), some p, some n, t⟩, re,
    ?_, rfl, rfl, rfl, ?_, ⟨ra, ?_, rfl, rfl, rfl, rfl, rfl, rfl⟩, ?_, rfl, rfl, rfl, rfl⟩
  · unfold resolveEnv
    simp only [hg]
    rw [if_neg (by rw [dot_env F ma p n xa ia]; exact not_lt.mpr happ)]
    rw [hloc]
    simp only [hF.geom, hga, hs]
    rfl
  · rw [hkeys]; rfl
  · rw [Dict.get?_set_ne _ (Ne.symm ha), Dict.get?_set_self]
  · rw [Dict.get?_set_self]

/-! ## A concrete case -/

/-- Point-like cars on a line: a model is (position, velocity, mark); everything meets half way. One
lane, legal for positive positions only. -/
abbrev toyF : Iface Nat ℚ where
  M := ℚ × ((ℚ × ℚ) × ℚ) × Bool
  S := ℚ
  L := Nat
  Q := ℚ
  Lane := Nat
  footprint m := m.1
  pose m := m.1
  translation q := (q, 0)
  velocity m := m.2.1
  setVelocity m v w := (m.1, (v, w), m.2.2)
  geom _ := ⟨some 2, some 3, 1 / 2⟩
  hasCollided m := m.2.2
  mark m := (m.1, m.2.1, true)
  mesh m := [(0, m.1), (1, m.1 + 1)]
  intersects a b := decide (a - b ≤ 1 ∧ b - a ≤ 1)
  impactGeometry a b := .ok ((1, 0), ((a + b) / 2, 0))
  lanesAt _ := [0]
  lanePose _ q := (true, decide (0 < q))
  toPolygon s := .ok s
  everywhere := 5
  envPlayer := 99

theorem toyF_markOk : MarkOk toyF := ⟨fun _ => rfl, fun _ => rfl, fun _ => rfl⟩

theorem toyF_velOk (m : toyF.M) : VelOk toyF m := ⟨fun _ _ => rfl, fun _ _ => rfl⟩

/-- Car 1 at 0 with speed 4 meets car 2 at 1 with speed -2: hypotheses of `C37_resolved`. -/
example : approach (bodyOf toyF (0, ((4, 0), 0), false) 2 3) (bodyOf toyF (1, ((-2, 0), 0), false) 2 3) (1 / 2, 0) (1, 0) = 6
    ∧ hitParts toyF (0, ((4, 0), 0), false) (1 : ℚ) ≠ [] ∧ hitParts toyF (1, ((-2, 0), 0), false) (0 : ℚ) ≠ [] ∧
    (resolve toyF true 7 1 (0, ((4, 0), 0), false) 2 (1, ((-2, 0), 0), false)).1 =
      (((0 : ℚ), (((-1 / 2 : ℚ), (0 : ℚ)), (0 : ℚ)), true), ((1 : ℚ), (((5 / 2 : ℚ), (0 : ℚ)), (0 : ℚ)), true)) := by decide +kernel

/-- `C37_physics` applies to this collision. -/
example : ∃ ma' mb' r, resolve toyF true 7 1 ((0 : ℚ), (((4 : ℚ), (0 : ℚ)), (0 : ℚ)), false) 2
    ((1 : ℚ), (((-2 : ℚ), (0 : ℚ)), (0 : ℚ)), false) = ((ma', mb'), .ok (some r)) := by
  obtain ⟨r, _, _, h, _⟩ := C37_resolved toyF toyF_markOk true 7 1 2 (by decide)
    ((0 : ℚ), (((4 : ℚ), (0 : ℚ)), (0 : ℚ)), false) ((1 : ℚ), (((-2 : ℚ), (0 : ℚ)), (0 : ℚ)), false)
    (1, 0) (1 / 2, 0) 2 3 (1 / 2) 2 3 (1 / 2) rfl rfl (by decide +kernel) (by decide +kernel)
    (by decide +kernel) (by decide +kernel)
  exact ⟨_, _, r, h⟩

/-- In this collision car 1 is at fault and car 2 is not. -/
example : Dict.get? (atFault toyF [(1, (0 : ℚ)), (2, (1 : ℚ))] (1 / 2, 0)) 1 = some true ∧
    Dict.get? (atFault toyF [(1, (0 : ℚ)), (2, (1 : ℚ))] (1 / 2, 0)) 2 = some false := by
  decide +kernel

/-- Hypotheses of `C38_resolved`. -/
example : normalVel (bodyOf toyF (0, ((4, 0), 0), false) 2 3) (1 / 2, 0) (1, 0) = 4 ∧
    hitParts toyF (0, ((4, 0), 0), false) (1 : ℚ) ≠ [] ∧
    (resolveEnv toyF 7 1 (0, ((4, 0), 0), false) (1 : ℚ) ⟨none, none, 1⟩).1 =
      ((0 : ℚ), (((-2 : ℚ), (0 : ℚ)), (0 : ℚ)), true) := by decide +kernel

end Coll
end Verif
