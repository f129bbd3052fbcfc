import Verif.Coll.ResolveProps
import Verif.Coll.GeometryProps
import Mathlib.Analysis.SpecialFunctions.Trigonometric.Basic

/-!
# C151: collisions do not depend on the world frame
-/

namespace Verif
namespace Coll

section Spec
variable {K : Type} [Field K] [LinearOrder K]

/-- Specification: a congruence of the plane: a reflection in the first axis if `flip = -1`, a rotation with cosine `c` and
sine `s`, and a shift. -/
structure Congr (K : Type) [Field K] where
  c : K
  s : K
  x : K
  y : K
  flip : K
  unit : c ^ 2 + s ^ 2 = 1
  sign : flip = 1 ∨ flip = -1

/-- Specification: directions. -/
def Congr.turn (T : Congr K) (v : K × K) : K × K :=
  (T.c * v.1 - T.flip * T.s * v.2, T.s * v.1 + T.flip * T.c * v.2)

/-- Specification: points. -/
def Congr.app (T : Congr K) (p : K × K) : K × K := ((T.turn p).1 + T.x, (T.turn p).2 + T.y)

/-- Specification: velocity and rate of rotation; a reflection reverses rotations. -/
def Congr.twist (T : Congr K) (v : (K × K) × K) : (K × K) × K := (T.turn v.1, T.flip * v.2)

end Spec

section Lemmas
variable {K : Type} [Field K] [LinearOrder K] (T : Congr K)

theorem Congr.sq : T.flip * T.flip = 1 := by
  rcases T.sign with h | h <;> rw [h] <;> ring

theorem Congr.flip_ne : T.flip ≠ 0 := by
  intro h; have := T.sq; rw [h] at this; simp at this

theorem turn_dot (u v : K × K) : dot (T.turn u) (T.turn v) = dot u v := by
  simp only [dot, Congr.turn]
  linear_combination (u.1 * v.1 + T.flip * T.flip * (u.2 * v.2)) * T.unit + u.2 * v.2 * T.sq

theorem turn_cross (u v : K × K) : cross (T.turn u) (T.turn v) = T.flip * cross u v := by
  simp only [cross, Congr.turn]
  linear_combination (T.flip * (u.1 * v.2 - u.2 * v.1)) * T.unit

theorem turn_neg (u : K × K) : T.turn (-u.1, -u.2) = (-(T.turn u).1, -(T.turn u).2) := by
  simp only [Congr.turn, Prod.mk.injEq]
  constructor <;> ring

theorem turn_sub (u v : K × K) :
    T.turn (u.1 - v.1, u.2 - v.2) = ((T.turn u).1 - (T.turn v).1, (T.turn u).2 - (T.turn v).2) := by
  simp only [Congr.turn, Prod.mk.injEq]
  constructor <;> ring

theorem app_sub (p q : K × K) : armTo (T.app p) (T.app q) = T.turn (armTo p q) := by
  simp only [armTo, Congr.app, Congr.turn, Prod.mk.injEq]
  constructor <;> ring

theorem turn_velocityOfP (v : K × K) (w : K) (r : K × K) :
    velocityOfP (T.turn v) (T.flip * w) (T.turn r) = T.turn (velocityOfP v w r) := by
  simp only [velocityOfP, Congr.turn, Prod.mk.injEq]
  constructor
  · linear_combination (-w * T.c * r.2) * T.sq
  · linear_combination (-w * T.s * r.2) * T.sq

theorem turn_impulse (n v ra rb : K × K) (ga gb : Geom K) :
    impulse (T.turn n) (T.turn v) (T.turn ra) (T.turn rb) ga gb = impulse n v ra rb ga gb := by
  have h : ∀ z : K, (T.flip * z) ^ 2 = z ^ 2 := fun z => by linear_combination z ^ 2 * T.sq
  simp only [impulse, turn_dot, turn_cross, h]

theorem turn_velocityAfter (n v : K × K) (m : Option K) (j : K) :
    velocityAfter (T.turn n) (T.turn v) m j = T.turn (velocityAfter n v m j) := by
  simp only [velocityAfter, Congr.turn, Prod.mk.injEq]
  constructor <;> ring

theorem turn_omegaAfter (r n : K × K) (w : K) (Iz : Option K) (j : K) :
    omegaAfter (T.turn r) (T.turn n) (T.flip * w) Iz j = T.flip * omegaAfter r n w Iz j := by
  simp only [omegaAfter, cross, Congr.turn]
  linear_combination (T.flip * j * (r.1 * n.2 - r.2 * n.1) * recip Iz) * T.unit

theorem turn_energy (v : K × K) (m : Option K) : kineticEnergy (T.turn v) m = kineticEnergy v m := by
  cases m with
  | none => rfl
  | some m =>
    have := turn_dot T v v
    simp only [dot] at this
    simp only [kineticEnergy]
    linear_combination (1 / 2 * m) * this

end Lemmas

section Resolve
variable {N K : Type} [DecidableEq N] [Field K] [LinearOrder K]

/-- Specification: `F'` is the world of `F` seen from another frame. -/
structure Moved (T : Congr K) (F F' : Iface N K) where
  fm : F.M → F'.M
  fs : F.S → F'.S
  fl : F.L → F'.L
  fq : F.Q → F'.Q
  fn : F.Lane → F'.Lane
  footprint : ∀ m, F'.footprint (fm m) = fs (F.footprint m)
  pose : ∀ m, F'.pose (fm m) = fq (F.pose m)
  translation : ∀ q, F'.translation (fq q) = T.app (F.translation q)
  velocity : ∀ m, F'.velocity (fm m) = T.twist (F.velocity m)
  setVelocity : ∀ m v w, F'.setVelocity (fm m) (T.turn v) (T.flip * w) = fm (F.setVelocity m v w)
  geom : ∀ m, F'.geom (fm m) = F.geom m
  hasCollided : ∀ m, F'.hasCollided (fm m) = F.hasCollided m
  mark : ∀ m, F'.mark (fm m) = fm (F.mark m)
  mesh : ∀ m, F'.mesh (fm m) = (F.mesh m).map (Prod.map fl fs)
  intersects : ∀ s s', F'.intersects (fs s) (fs s') = F.intersects s s'
  impactGeometry : ∀ s s', F'.impactGeometry (fs s) (fs s') = (F.impactGeometry s s').map (Prod.map T.turn T.app)
  lanesAt : ∀ p, F'.lanesAt (T.app p) = (F.lanesAt p).map fn
  lanePose : ∀ l q, F'.lanePose (fn l) (fq q) = F.lanePose l q
  toPolygon : ∀ s, F'.toPolygon (fs s) = (F.toPolygon s).map fs
  everywhere : F'.everywhere = fl F.everywhere
  envPlayer : F'.envPlayer = F.envPlayer

variable {T : Congr K} {F F' : Iface N K}

/-- Specification: the part of a report about a player seen from another frame. -/
def Moved.player (h : Moved T F F') (r : ReportPlayer K F.L F.S) : ReportPlayer K F'.L F'.S :=
  ⟨r.locations.map (Prod.map h.fl h.fs), r.atFault, h.fs r.footprint, T.twist r.velocity, T.twist r.velocityAfter,
    r.energyDelta⟩

/-- Specification: a report seen from another frame. -/
def Moved.report (h : Moved T F F') (r : CollisionReport N K F.L F.S) : CollisionReport N K F'.L F'.S :=
  ⟨r.players.map (fun p => (p.1, p.2.map h.player)), r.point.map T.app, r.normal.map T.turn, r.atTime⟩

theorem moved_locations (h : Moved T F F') (m : F.M) (s : F.S) :
    impactLocations F' (h.fm m) (h.fs s) = (impactLocations F m s).map (List.map (Prod.map h.fl h.fs)) := by
  unfold impactLocations
  have e : (F'.mesh (h.fm m)).filter (fun l => F'.intersects (h.fs s) l.2) =
      ((F.mesh m).filter (fun l => F.intersects s l.2)).map (Prod.map h.fl h.fs) := by
    rw [h.mesh, List.filter_map]
    congr 1
    apply List.filter_congr
    intro l _
    simp only [Function.comp, Prod.map, h.intersects]
  simp only [e, List.isEmpty_map]
  split <;> rfl

theorem moved_faultLoop (h : Moved T F F') (lanes : List F.Lane) (poses : Dict N F.Q) : ∀ acc,
    faultLoop F' (lanes.map h.fn) (poses.map (fun p => (p.1, h.fq p.2))) acc = faultLoop F lanes poses acc := by
  induction poses with
  | nil => intro acc; rfl
  | cons p rest ih =>
    intro acc
    obtain ⟨n, q⟩ := p
    simp only [List.map_cons, faultLoop, List.map_map, Function.comp_def, h.lanePose, ih]

theorem moved_atFault (h : Moved T F F') (poses : Dict N F.Q) (p : K × K) :
    atFault F' (poses.map (fun p => (p.1, h.fq p.2))) (T.app p) = atFault F poses p := by
  unfold atFault
  rw [h.lanesAt, moved_faultLoop, List.map_map]
  rfl

theorem map_set {α β : Type} (f : α → β) (d : Dict N α) (n : N) (a : α) :
    (Dict.set d n a).map (fun p => (p.1, f p.2)) = Dict.set (d.map (fun p => (p.1, f p.2))) n (f a) := by
  induction d with
  | nil => rfl
  | cons p r ih =>
    obtain ⟨k, v⟩ := p
    simp only [List.map_cons, Dict.set]
    split
    · rfl
    · simp only [List.map_cons, ih]

theorem report_two (h : Moved T F F') (a b : N) (ra rb : ReportPlayer K F.L F.S) (p n : K × K) (t : K) :
    h.report ⟨Dict.set (Dict.set [] a (some ra)) b (some rb), some p, some n, t⟩ =
      ⟨Dict.set (Dict.set [] a (some (h.player ra))) b (some (h.player rb)), some (T.app p), some (T.turn n), t⟩ := by
  unfold Moved.report
  rw [map_set (Option.map h.player), map_set (Option.map h.player)]
  rfl

/-- **C151.** The collision of two players seen from another frame (shifted, turned, even reflected): the same decision, the
same exception, the same faults and energies, and the models, velocities, locations, impact point and normal as seen from
there. -/
theorem C151_resolve (h : Moved T F F') (sc : Bool) (t : K) (a : N) (ma : F.M) (b : N) (mb : F.M) :
    resolve F' sc t a (h.fm ma) b (h.fm mb) =
      (Prod.map h.fm h.fm (resolve F sc t a ma b mb).1, (resolve F sc t a ma b mb).2.map (Option.map h.report)) := by
  unfold resolve
  simp only [h.footprint, h.impactGeometry]
  cases F.impactGeometry (F.footprint ma) (F.footprint mb) with
  | error e => rfl
  | ok r =>
    obtain ⟨n, p⟩ := r
    simp only [Except.map, Prod.map, h.pose, h.translation, h.velocity, Congr.twist, app_sub, turn_velocityOfP, h.mark,
      h.geom, moved_locations]
    rw [← turn_sub, turn_dot]
    split
    · rfl
    · cases impactLocations F (F.mark ma) (F.footprint mb) with
      | error e => rfl
      | ok la =>
        cases impactLocations F (F.mark mb) (F.footprint ma) with
        | error e => rfl
        | ok lb =>
          simp only [Except.map, turn_impulse, turn_velocityAfter, turn_omegaAfter, ← turn_neg, turn_energy, h.setVelocity]
          have hf : atFault F' (Dict.set (Dict.set [] a (h.fq (F.pose (F.mark ma)))) b (h.fq (F.pose (F.mark mb)))) (T.app p) =
              atFault F (Dict.set (Dict.set [] a (F.pose (F.mark ma))) b (F.pose (F.mark mb))) p := by
            rw [← moved_atFault h, map_set, map_set]
            rfl
          simp only [hf, Option.map_some, report_two, Moved.player, Congr.twist]

/-- **C151.** The same for a collision with an obstacle that cannot be turned. -/
theorem C151_resolveEnv_partial (h : Moved T F F') (t : K) (a : N) (ma : F.M) (s : F.S) (gb : Geom K) (hI : gb.Iz = none) :
    resolveEnv F' t a (h.fm ma) (h.fs s) gb =
      (h.fm (resolveEnv F t a ma s gb).1, (resolveEnv F t a ma s gb).2.map (Option.map h.report)) := by
  have hj : ∀ (n v r : K × K) (ga : Geom K),
      impulse (T.turn n) (T.turn v) (T.turn r) (1, 1) ga gb = impulse n v r (1, 1) ga gb := by
    intro n v r ga
    rw [← turn_impulse T n v r (1, 1) ga gb]
    simp only [impulse, hI, recip, mul_zero]
  unfold resolveEnv
  simp only [h.footprint, h.impactGeometry]
  cases F.impactGeometry (F.footprint ma) s with
  | error e => rfl
  | ok r =>
    obtain ⟨n, p⟩ := r
    simp only [Except.map, Prod.map, h.pose, h.translation, h.velocity, Congr.twist, app_sub, turn_velocityOfP, h.mark,
      h.geom, moved_locations, turn_dot]
    split
    · rfl
    · cases impactLocations F (F.mark ma) s with
      | error e => rfl
      | ok la =>
        simp only [Except.map, hj, turn_velocityAfter, turn_omegaAfter, turn_energy, h.setVelocity, h.toPolygon]
        cases F.toPolygon s with
        | error e => rfl
        | ok poly =>
          have h0 : T.twist ((0, 0), 0) = ((0, 0), 0) := by simp [Congr.twist, Congr.turn]
          simp only [Except.map, Option.map_some, h.everywhere, h.envPlayer, report_two, Moved.player, h0]
          rfl

end Resolve

/-! ## The geometry of an impact -/

section Geometry

/-- Specification: the same list of points seen from another frame, possibly begun elsewhere or listed in the other
direction. -/
inductive SameShape (T : Congr ℝ) : IntShape → IntShape → Prop
  | polygon (c c') : (c.map T.app).Perm c' → SameShape T (.polygon c) (.polygon c')
  | line (c c') : (c.map T.app).Perm c' → SameShape T (.line c) (.line c')
  | rect (c c') : (c.map T.app).Perm c' → SameShape T (.multi (some c)) (.multi (some c'))
  | flat : SameShape T (.multi none) (.multi none)
  | other : SameShape T .other .other

/-- Specification: the geometry library in another frame. -/
structure MovedShapes (T : Congr ℝ) (G G' : ShapeOps) where
  fs : G.S → G'.S
  touches : ∀ a b, G'.touches (fs a) (fs b) = G.touches a b
  contains : ∀ a b, G'.contains (fs a) (fs b) = G.contains a b
  centroid : ∀ a, G'.centroid (fs a) = T.app (G.centroid a)
  inside : ∀ a p, G'.inside (fs a) (T.app p) = G.inside a p
  intersection : ∀ a b, SameShape T (G.intersection a b) (G'.intersection (fs a) (fs b))

variable {T : Congr ℝ} {G G' : ShapeOps}

theorem turn_norm (v : ℝ × ℝ) : norm2 (T.turn v) = norm2 v := by
  have := turn_dot T v v
  simp only [dot] at this
  unfold norm2
  congr 1
  linear_combination this

theorem norm_smul (k : ℝ) (hk : k = 1 ∨ k = -1) (v : ℝ × ℝ) : norm2 (k * v.1, k * v.2) = norm2 v := by
  unfold norm2
  congr 1
  rcases hk with rfl | rfl <;> ring

/-- Orientation removes the sign, unless the normal is perpendicular to the arm. -/
theorem orient_turn (r v n : ℝ × ℝ) (k : ℝ) (hk : k = 1 ∨ k = -1) (h : orient r (normalize v) = some n)
    (hpos : r.1 * n.1 + r.2 * n.2 ≠ 0) :
    orient (T.turn r) (normalize (k * (T.turn v).1, k * (T.turn v).2)) = some (T.turn n) := by
  have hn : norm2 (k * (T.turn v).1, k * (T.turn v).2) = norm2 v := by rw [norm_smul k hk, turn_norm]
  unfold normalize at h ⊢
  rw [hn]
  by_cases h0 : norm2 v = 0
  · rw [if_pos h0] at h; cases h
  · rw [if_neg h0] at h ⊢
    simp only [orient] at h ⊢
    have hd : (T.turn r).1 * (k * (T.turn v).1 / norm2 v) + (T.turn r).2 * (k * (T.turn v).2 / norm2 v) =
        k * (r.1 * (v.1 / norm2 v) + r.2 * (v.2 / norm2 v)) := by
      have := turn_dot T r v
      simp only [dot] at this
      field_simp
      linear_combination k * this
    rw [hd]
    have ht : ∀ u : ℝ × ℝ, T.turn u = (T.c * u.1 - T.flip * T.s * u.2, T.s * u.1 + T.flip * T.c * u.2) := fun _ => rfl
    by_cases hs : r.1 * (v.1 / norm2 v) + r.2 * (v.2 / norm2 v) < 0
    · rw [if_pos hs] at h
      injection h with h
      subst h
      rcases hk with rfl | rfl
      · rw [if_pos (by linarith)]
        simp only [ht, Option.some.injEq, Prod.mk.injEq]
        constructor <;> ring
      · rw [if_neg (by linarith)]
        simp only [ht, Option.some.injEq, Prod.mk.injEq]
        constructor <;> ring
    · rw [if_neg hs] at h
      injection h with h
      subst h
      simp only at hpos
      have hs' : 0 < r.1 * (v.1 / norm2 v) + r.2 * (v.2 / norm2 v) := lt_of_le_of_ne (not_lt.mp hs) (Ne.symm hpos)
      rcases hk with rfl | rfl
      · rw [if_neg (by linarith)]
        simp only [ht, Option.some.injEq, Prod.mk.injEq]
        constructor <;> ring
      · rw [if_pos (by linarith)]
        simp only [ht, Option.some.injEq, Prod.mk.injEq]
        constructor <;> ring

theorem moved_contact (h : MovedShapes T G G') (a b : G.S) (c c' : List (ℝ × ℝ)) (hc : (c.map T.app).Perm c') :
    ((c.filter (fun p => !(G.inside a p || G.inside b p))).map T.app).Perm
      (c'.filter (fun p => !(G'.inside (h.fs a) p || G'.inside (h.fs b) p))) := by
  refine List.Perm.trans ?_ (hc.filter _)
  rw [List.filter_map]
  apply List.Perm.of_eq
  congr 1
  apply List.filter_congr
  intro p _
  simp only [Function.comp, h.inside]

theorem moved_points (h : MovedShapes T G G') (a b : G.S) :
    (∃ e, findIntersectionPoints G a b = .error e ∧ findIntersectionPoints G' (h.fs a) (h.fs b) = .error e) ∨
      ∃ f s, findIntersectionPoints G a b = .ok [f, s] ∧
        (findIntersectionPoints G' (h.fs a) (h.fs b) = .ok [T.app f, T.app s] ∨
          findIntersectionPoints G' (h.fs a) (h.fs b) = .ok [T.app s, T.app f]) := by
  have key : ∀ c c' : List (ℝ × ℝ), (c.map T.app).Perm c' → candidates (G.intersection a b) = .ok c →
      candidates (G'.intersection (h.fs a) (h.fs b)) = .ok c' →
      (∃ e, findIntersectionPoints G a b = .error e ∧ findIntersectionPoints G' (h.fs a) (h.fs b) = .error e) ∨
      ∃ f s, findIntersectionPoints G a b = .ok [f, s] ∧
        (findIntersectionPoints G' (h.fs a) (h.fs b) = .ok [T.app f, T.app s] ∨
          findIntersectionPoints G' (h.fs a) (h.fs b) = .ok [T.app s, T.app f]) := by
    intro c c' hc h1 h2
    have hp := moved_contact h a b c c' hc
    unfold findIntersectionPoints
    rw [h1, h2]
    simp only
    have hl := hp.length_eq
    rw [List.length_map] at hl
    rw [← hl]
    by_cases h2 : (c.filter (fun p => !(G.inside a p || G.inside b p))).length = 2
    · right
      obtain ⟨f, s, hfs⟩ := List.length_eq_two.mp h2
      refine ⟨f, s, by rw [if_pos h2, hfs], ?_⟩
      rw [if_pos h2]
      rw [hfs] at hp
      rcases List.perm_pair.mp hp.symm with e | e
      · left; rw [e]
      · right; rw [e]
    · left
      exact ⟨.collision, by rw [if_neg h2], by rw [if_neg h2]⟩
  have := h.intersection a b
  cases h1 : G.intersection a b with
  | polygon c =>
    cases h2 : G'.intersection (h.fs a) (h.fs b) with
    | polygon c' =>
      rw [h1, h2] at this
      cases this with
      | polygon _ _ hp => exact key c c' hp (by rw [h1]; rfl) (by rw [h2]; rfl)
    | line c' => rw [h1, h2] at this; cases this
    | multi c' => rw [h1, h2] at this; cases this
    | other => rw [h1, h2] at this; cases this
  | line c =>
    cases h2 : G'.intersection (h.fs a) (h.fs b) with
    | polygon c' => rw [h1, h2] at this; cases this
    | line c' =>
      rw [h1, h2] at this
      cases this with
      | line _ _ hp => exact key c c' hp (by rw [h1]; rfl) (by rw [h2]; rfl)
    | multi c' => rw [h1, h2] at this; cases this
    | other => rw [h1, h2] at this; cases this
  | multi r =>
    cases h2 : G'.intersection (h.fs a) (h.fs b) with
    | polygon c' => rw [h1, h2] at this; cases this
    | line c' => rw [h1, h2] at this; cases this
    | multi r' =>
      rw [h1, h2] at this
      cases this with
      | rect c c' hp => exact key c c' hp (by rw [h1]; rfl) (by rw [h2]; rfl)
      | flat =>
        left
        refine ⟨.attribute, ?_, ?_⟩ <;> unfold findIntersectionPoints
        · rw [h1]; rfl
        · rw [h2]; rfl
    | other => rw [h1, h2] at this; cases this
  | other =>
    cases h2 : G'.intersection (h.fs a) (h.fs b) with
    | polygon c' => rw [h1, h2] at this; cases this
    | line c' => rw [h1, h2] at this; cases this
    | multi c' => rw [h1, h2] at this; cases this
    | other =>
      left
      refine ⟨.collision, ?_, ?_⟩ <;> unfold findIntersectionPoints
      · rw [h1]; rfl
      · rw [h2]; rfl

theorem app_mid (f s : ℝ × ℝ) :
    (((T.app f).1 + (T.app s).1) / 2, ((T.app f).2 + (T.app s).2) / 2) = T.app ((f.1 + s.1) / 2, (f.2 + s.2) / 2) := by
  simp only [Congr.app, Congr.turn, Prod.mk.injEq]
  constructor <;> ring

/-- **C151.** Impact point and normal seen from another frame, in which moreover the geometry library may list the corners of
the overlap in another order: the same exception, or the impact point and the normal as seen from there, provided that the
center of the first shape is not on the line through the two contact points. -/
theorem C151_geometry_partial (h : MovedShapes T G G') (a b : G.S) (n p : ℝ × ℝ)
    (hg : impactGeometry G a b = .ok (some n, p))
    (hr : (p.1 - (G.centroid a).1) * n.1 + (p.2 - (G.centroid a).2) * n.2 ≠ 0) :
    impactGeometry G' (h.fs a) (h.fs b) = .ok (some (T.turn n), T.app p) := by
  have hsub : ∀ p q : ℝ × ℝ, ((T.app p).1 - (T.app q).1, (T.app p).2 - (T.app q).2) = T.turn (p.1 - q.1, p.2 - q.2) := by
    intro p q
    simp only [Congr.app, Congr.turn, Prod.mk.injEq]
    constructor <;> ring
  unfold impactGeometry at hg ⊢
  rw [h.touches, h.contains]
  split at hg
  · cases hg
  · rename_i ht
    rw [if_neg ht]
    split at hg
    · rename_i hc
      rw [if_pos hc]
      simp only [Except.ok.injEq, Prod.mk.injEq] at hg ⊢
      obtain ⟨h1, rfl⟩ := hg
      rw [h.centroid, h.centroid, hsub]
      have := orient_turn (T := T) _ _ _ 1 (Or.inl rfl) h1 hr
      simp only [one_mul] at this
      exact ⟨this, rfl⟩
    · rename_i hc
      rw [if_neg hc]
      rcases moved_points h a b with ⟨e, h1, -⟩ | ⟨f, s, h1, h2⟩
      · rw [h1] at hg; cases hg
      · rw [h1] at hg
        simp only [Except.ok.injEq, Prod.mk.injEq] at hg
        obtain ⟨h3, rfl⟩ := hg
        have hperp : ∀ f s : ℝ × ℝ, (-((T.app s).2 - (T.app f).2), (T.app s).1 - (T.app f).1) =
            (T.flip * (T.turn (-(s.2 - f.2), s.1 - f.1)).1, T.flip * (T.turn (-(s.2 - f.2), s.1 - f.1)).2) := by
          intro f s
          simp only [Congr.app, Congr.turn, Prod.mk.injEq]
          constructor
          · linear_combination (T.s * (s.1 - f.1)) * T.sq
          · linear_combination (-T.c * (s.1 - f.1)) * T.sq
        have hm' : (((T.app s).1 + (T.app f).1) / 2, ((T.app s).2 + (T.app f).2) / 2) =
            T.app ((f.1 + s.1) / 2, (f.2 + s.2) / 2) := by
          rw [← app_mid]; simp only [add_comm]
        have hgoal : ∀ f' s' : ℝ × ℝ, ((f'.1 + s'.1) / 2, (f'.2 + s'.2) / 2) = T.app ((f.1 + s.1) / 2, (f.2 + s.2) / 2) →
            orient (T.turn ((f.1 + s.1) / 2 - (G.centroid a).1, (f.2 + s.2) / 2 - (G.centroid a).2))
              (normalize (-(s'.2 - f'.2), s'.1 - f'.1)) = some (T.turn n) →
            (orient (((f'.1 + s'.1) / 2, (f'.2 + s'.2) / 2).1 - (G'.centroid (h.fs a)).1,
              ((f'.1 + s'.1) / 2, (f'.2 + s'.2) / 2).2 - (G'.centroid (h.fs a)).2)
              (normalize (-(s'.1 - f'.1, s'.2 - f'.2).2, (s'.1 - f'.1, s'.2 - f'.2).1)),
              ((f'.1 + s'.1) / 2, (f'.2 + s'.2) / 2)) =
            (some (T.turn n), T.app ((f.1 + s.1) / 2, (f.2 + s.2) / 2)) := by
          intro f' s' e1 e2
          rw [e1, h.centroid, hsub]
          exact Prod.ext e2 rfl
        rcases h2 with h2 | h2
        · rw [h2]
          refine congrArg Except.ok (hgoal _ _ (app_mid f s) ?_)
          rw [hperp]
          exact orient_turn (T := T) _ _ _ T.flip T.sign h3 hr
        · rw [h2]
          refine congrArg Except.ok (hgoal _ _ hm' ?_)
          have e : (-((T.app f).2 - (T.app s).2), (T.app f).1 - (T.app s).1) =
              (-T.flip * (T.turn (-(s.2 - f.2), s.1 - f.1)).1, -T.flip * (T.turn (-(s.2 - f.2), s.1 - f.1)).2) := by
            have := hperp f s
            simp only [Prod.mk.injEq] at this ⊢
            exact ⟨by linear_combination -this.1, by linear_combination -this.2⟩
          rw [e]
          exact orient_turn (T := T) _ _ _ (-T.flip) (by rcases T.sign with e | e <;> rw [e] <;> simp) h3 hr

/-- **C151.** The geometry raises in the one frame exactly if it raises in the other, and the same. -/
theorem C151_errors (h : MovedShapes T G G') (a b : G.S) (e : Err) :
    impactGeometry G' (h.fs a) (h.fs b) = .error e ↔ impactGeometry G a b = .error e := by
  unfold impactGeometry
  rw [h.touches, h.contains]
  split
  · exact Iff.rfl
  · split
    · simp
    · rcases moved_points h a b with ⟨e', h1, h2⟩ | ⟨f, s, h1, h2⟩
      · rw [h1, h2]
      · rcases h2 with h2 | h2 <;> rw [h1, h2] <;> simp

/-- The same library twice, but the corners of the overlap of a unit square with a large one, whose edge goes through the
center of the former, are listed from different ends. -/
noncomputable def halved (first : Bool) : ShapeOps where
  S := Bool
  intersection _ _ := .polygon (if first then [(1 / 2, 0), (1, 0), (1, 1), (1 / 2, 1)]
    else [(1 / 2, 1), (1, 1), (1, 0), (1 / 2, 0)])
  touches _ _ := false
  contains _ _ := false
  centroid s := if s then (3, 1 / 2) else (1 / 2, 1 / 2)
  inside s p := open Classical in
    if s then decide (1 / 2 < p.1) else decide (0 < p.1 ∧ p.1 < 1 ∧ 0 < p.2 ∧ p.2 < 1)

/-- The identical frame. -/
def still (K : Type) [Field K] : Congr K := ⟨1, 0, 0, 0, 1, by ring, Or.inl rfl⟩

theorem halved_geometry (first : Bool) : impactGeometry (halved first) false true =
    .ok (some (if first then (-1, 0) else (1, 0)), (1 / 2, 1 / 2)) := by
  have hn1 : norm2 (-1, 0) = 1 := by unfold norm2; norm_num
  have hn2 : norm2 (1, 0) = 1 := by unfold norm2; norm_num
  have hf : findIntersectionPoints (halved first) false true =
      .ok (if first then [(1 / 2, 0), (1 / 2, 1)] else [(1 / 2, 1), (1 / 2, 0)]) := by
    cases first <;> simp only [findIntersectionPoints, halved, candidates] <;> norm_num
  unfold impactGeometry
  rw [hf]
  cases first
  · simp only [halved]
    norm_num [normalize, hn2, orient]
  · simp only [halved]
    norm_num [normalize, hn1, orient]

/-- **C151, the condition is needed.** If the center of the first shape is on the line through the contact points, the normal
can be reversed by another order of the corners. -/
theorem C151_false_order : ∃ (G G' : ShapeOps) (h : MovedShapes (still ℝ) G G') (a b : G.S) (n p : ℝ × ℝ),
    impactGeometry G a b = .ok (some n, p) ∧
      impactGeometry G' (h.fs a) (h.fs b) = .ok (some (-n.1, -n.2), (still ℝ).app p) := by
  have happ : ∀ p, (still ℝ).app p = p := by intro p; simp [still, Congr.app, Congr.turn]
  refine ⟨halved true, halved false, ⟨id, fun _ _ => rfl, fun _ _ => rfl, fun a => (happ _).symm,
    fun a p => by rw [happ]; rfl, fun a b => ?_⟩, false, true, (-1, 0), (1 / 2, 1 / 2), halved_geometry true, ?_⟩
  · refine SameShape.polygon _ _ ?_
    have : ([(1 / 2, 0), (1, 0), (1, 1), (1 / 2, 1)] : List (ℝ × ℝ)).map (still ℝ).app =
        [(1 / 2, 0), (1, 0), (1, 1), (1 / 2, 1)] := by simp [happ]
    rw [if_pos rfl, this]
    have h2 := (List.reverse_perm ([(1 / 2, 1), (1, 1), (1, 0), (1 / 2, 0)] : List (ℝ × ℝ)))
    simpa using h2
  · show impactGeometry (halved false) false true = _
    rw [halved_geometry]
    simp [happ]

end Geometry

/-! ## Discs -/

/-- Discs of radius one. The state of a model is its center, its velocity, its spin and whether it has collided. -/
abbrev discF : Iface Nat ℚ where
  M := (ℚ × ℚ) × ((ℚ × ℚ) × ℚ) × Bool
  S := ℚ × ℚ
  L := Unit
  Q := ℚ × ℚ
  Lane := Unit
  footprint m := m.1
  pose m := m.1
  translation q := q
  velocity m := m.2.1
  setVelocity m v w := (m.1, (v, w), m.2.2)
  geom _ := ⟨some 2, some 1, 1 / 2⟩
  hasCollided m := m.2.2
  mark m := (m.1, m.2.1, true)
  mesh m := [((), m.1)]
  intersects a b := decide ((a.1 - b.1) ^ 2 + (a.2 - b.2) ^ 2 ≤ 4)
  impactGeometry a b := .ok (((b.1 - a.1) / 2, (b.2 - a.2) / 2), ((a.1 + b.1) / 2, (a.2 + b.2) / 2))
  lanesAt _ := []
  lanePose _ _ := (true, true)
  toPolygon s := .ok s
  everywhere := ()
  envPlayer := 99

/-- The discs look alike from everywhere. -/
def discMoved (T : Congr ℚ) : Moved T discF discF where
  fm m := (T.app m.1, T.twist m.2.1, m.2.2)
  fs := T.app
  fl := id
  fq := T.app
  fn := id
  footprint _ := rfl
  pose _ := rfl
  translation _ := rfl
  velocity _ := rfl
  setVelocity _ _ _ := rfl
  geom _ := rfl
  hasCollided _ := rfl
  mark _ := rfl
  mesh _ := rfl
  intersects a b := by
    have : ((T.app a).1 - (T.app b).1) ^ 2 + ((T.app a).2 - (T.app b).2) ^ 2 = (a.1 - b.1) ^ 2 + (a.2 - b.2) ^ 2 := by
      have h := turn_dot T (armTo a b) (armTo a b)
      rw [← app_sub] at h
      simp only [dot, armTo] at h
      linear_combination h
    simp only [this]
  impactGeometry a b := by
    simp only [Except.map, Prod.map, Congr.app, Congr.turn, Except.ok.injEq, Prod.mk.injEq]
    refine ⟨⟨by ring, by ring⟩, by ring, by ring⟩
  lanesAt _ := rfl
  lanePose _ _ := rfl
  toPolygon _ := rfl
  everywhere := rfl
  envPlayer := rfl

/-- A reflection, a turn by the angle of the triangle with sides 3, 4 and 5, and a shift. -/
def triangle (k : ℚ) (h : k = 1 ∨ k = -1) : Congr ℚ := ⟨3 / 5, 4 / 5, 10, -7, k, by norm_num, h⟩

-- two discs that meet, seen from the other frame: a report, and the velocities are turned
example : let T := triangle (-1) (Or.inr rfl)
    let r := resolve discF true 0 0 ((0, 0), ((3, 1), 1), false) 1 ((2, 0), ((-1, 0), 0), false)
    let r' := resolve discF true 0 0 (T.app (0, 0), (T.turn (3, 1), -1), false) 1 (T.app (2, 0), (T.turn (-1, 0), 0), false)
    r.1.1.2.1.1 = (0, 1) ∧ r'.1.1.2.1.1 = T.turn (0, 1) ∧ r.1.1.2.2 = true ∧ r'.2.toOption.isSome = true := by
  decide +kernel

example : impactGeometry (halved true) false true ≠ impactGeometry (halved false) false true := by
  rw [halved_geometry, halved_geometry]
  norm_num

/-- **C151, the condition is needed.** For an obstacle with a finite moment of inertia the code measures its arm by (1, 1) in
the world frame, and the impulse changes with the frame. -/
theorem C151_false_env : ∃ (T : Congr ℚ) (h : Moved T discF discF) (m : discF.M) (s : discF.S) (gb : Geom ℚ),
    (resolveEnv discF 0 0 (h.fm m) (h.fs s) gb).1 ≠ h.fm (resolveEnv discF 0 0 m s gb).1 := by
  refine ⟨triangle 1 (Or.inl rfl), discMoved _, ((0, 0), ((3, 0), 0), false), (2, 0), ⟨none, some 1, 1 / 2⟩, ?_⟩
  decide +kernel

end Coll
end Verif
