import Verif.Coll.FrameProps

/-!
# C157: collisions do not depend on the units nor on a common velocity
-/

namespace Verif
namespace Coll
namespace Units

section Spec
variable {K : Type} [Field K] [LinearOrder K]

/-- Specification: other units of length, mass and time, and an observer who moves with velocity `-drift` (in the new
units). -/
structure System (K : Type) [Field K] [LinearOrder K] where
  len : K
  mass : K
  time : K
  drift : K × K
  len_pos : 0 < len
  mass_pos : 0 < mass
  time_pos : 0 < time

/-- Specification: the unit of speed. -/
def System.speed (U : System K) : K := U.len / U.time

/-- Specification: points. -/
def System.point (U : System K) (p : K × K) : K × K := (U.len * p.1, U.len * p.2)

/-- Specification: velocities. -/
def System.vel (U : System K) (v : K × K) : K × K := (U.speed * v.1 + U.drift.1, U.speed * v.2 + U.drift.2)

/-- Specification: velocity and rate of rotation. -/
def System.twist (U : System K) (v : (K × K) × K) : (K × K) × K := (U.vel v.1, v.2 / U.time)

/-- Specification: mass, moment of inertia and restitution. -/
def System.geom (U : System K) (g : Geom K) : Geom K :=
  ⟨g.m.map (U.mass * ·), g.Iz.map (U.mass * U.len ^ 2 * ·), g.e⟩

/-- Specification: a change of kinetic energy. The second part is the work that the moving observer sees in addition; it
vanishes without drift. -/
def System.energy (U : System K) (m : Option K) (v v' : K × K) (dE : K) : K :=
  U.mass * U.speed ^ 2 * dE +
    U.mass * U.speed * (m.getD 0 * (U.drift.1 * (v'.1 - v.1) + U.drift.2 * (v'.2 - v.2)))

end Spec

section Lemmas
variable {K : Type} [Field K] [LinearOrder K] (U : System K)

theorem recip_scale (k : K) (m : Option K) : recip (m.map (k * ·)) = recip m / k := by
  cases m with
  | none => simp [recip]
  | some m => simp only [Option.map_some, recip, div_div, mul_comm]

theorem arm (p q : K × K) : armTo (U.point p) (U.point q) = U.point (armTo p q) := by
  simp only [armTo, System.point, Prod.mk.injEq]
  constructor <;> ring

theorem ofP (v : K × K) (w : K) (r : K × K) :
    velocityOfP (U.vel v) (w / U.time) (U.point r) = U.vel (velocityOfP v w r) := by
  simp only [velocityOfP, System.vel, System.point, System.speed, Prod.mk.injEq]
  constructor <;> ring

theorem relative (u v : K × K) :
    ((U.vel u).1 - (U.vel v).1, (U.vel u).2 - (U.vel v).2) = (U.speed * (u.1 - v.1), U.speed * (u.2 - v.2)) := by
  simp only [System.vel, Prod.mk.injEq]
  constructor <;> ring

theorem dot_scale (k : K) (u v : K × K) : dot (k * u.1, k * u.2) v = k * dot u v := by
  simp only [dot]; ring

theorem cross_scale (u v : K × K) : cross (U.point u) v = U.len * cross u v := by
  simp only [cross, System.point]; ring

/-- Impulses are masses times speeds. -/
theorem impulse_scale (n v ra rb : K × K) (ga gb : Geom K) :
    impulse n (U.speed * v.1, U.speed * v.2) (U.point ra) (U.point rb) (U.geom ga) (U.geom gb) =
      U.mass * U.speed * impulse n v ra rb ga gb := by
  have hl := U.len_pos.ne'
  have hm := U.mass_pos.ne'
  have hz : ∀ x y : K, (U.len * x) ^ 2 * (y / (U.mass * U.len ^ 2)) = x ^ 2 * y / U.mass := by
    intro x y; field_simp
  simp only [impulse, System.geom, recip_scale, dot_scale, cross_scale, hz, ← add_div]
  rw [div_div_eq_mul_div, ← mul_div_assoc]
  congr 1
  ring

theorem impulse_scale_wall (n v ra rb : K × K) (ga gb : Geom K) (hI : gb.Iz = none) :
    impulse n (U.speed * v.1, U.speed * v.2) (U.point ra) rb (U.geom ga) (U.geom gb) =
      U.mass * U.speed * impulse n v ra rb ga gb := by
  rw [← impulse_scale]
  simp only [impulse, System.geom, hI, Option.map_none, recip, mul_zero]

theorem after_scale (n v : K × K) (m : Option K) (j : K) :
    velocityAfter n (U.vel v) (m.map (U.mass * ·)) (U.mass * U.speed * j) = U.vel (velocityAfter n v m j) := by
  have hm := U.mass_pos.ne'
  simp only [velocityAfter, System.vel, recip_scale, Prod.mk.injEq]
  constructor <;> field_simp <;> ring

theorem omega_scale (r n : K × K) (w : K) (Iz : Option K) (j : K) :
    omegaAfter (U.point r) n (w / U.time) (Iz.map (U.mass * U.len ^ 2 * ·)) (U.mass * U.speed * j) =
      omegaAfter r n w Iz j / U.time := by
  have hm := U.mass_pos.ne'
  have hl := U.len_pos.ne'
  have ht := U.time_pos.ne'
  simp only [omegaAfter, cross, System.point, recip_scale, System.speed]
  field_simp

theorem energy_scale [IsStrictOrderedRing K] (v v' : K × K) (m : Option K) :
    kineticEnergy (U.vel v') (m.map (U.mass * ·)) - kineticEnergy (U.vel v) (m.map (U.mass * ·)) =
      U.energy m v v' (kineticEnergy v' m - kineticEnergy v m) := by
  cases m with
  | none => simp [kineticEnergy, System.energy]
  | some m =>
    simp only [Option.map_some, kineticEnergy, System.energy, Option.getD_some, System.vel]
    field_simp
    ring

end Lemmas

section Resolve
variable {N K : Type} [DecidableEq N] [Field K] [LinearOrder K]

/-- Specification: `F'` is the world of `F` in other units and for a moving observer. Normals are unit vectors and do not
change. -/
structure Rescaled (U : System K) (F F' : Iface N K) where
  fm : F.M → F'.M
  fs : F.S → F'.S
  fl : F.L → F'.L
  fq : F.Q → F'.Q
  fn : F.Lane → F'.Lane
  footprint : ∀ m, F'.footprint (fm m) = fs (F.footprint m)
  pose : ∀ m, F'.pose (fm m) = fq (F.pose m)
  translation : ∀ q, F'.translation (fq q) = U.point (F.translation q)
  velocity : ∀ m, F'.velocity (fm m) = U.twist (F.velocity m)
  setVelocity : ∀ m v w, F'.setVelocity (fm m) (U.vel v) (w / U.time) = fm (F.setVelocity m v w)
  geom : ∀ m, F'.geom (fm m) = U.geom (F.geom m)
  hasCollided : ∀ m, F'.hasCollided (fm m) = F.hasCollided m
  mark : ∀ m, F'.mark (fm m) = fm (F.mark m)
  mesh : ∀ m, F'.mesh (fm m) = (F.mesh m).map (Prod.map fl fs)
  intersects : ∀ s s', F'.intersects (fs s) (fs s') = F.intersects s s'
  impactGeometry : ∀ s s', F'.impactGeometry (fs s) (fs s') = (F.impactGeometry s s').map (Prod.map id U.point)
  lanesAt : ∀ p, F'.lanesAt (U.point p) = (F.lanesAt p).map fn
  lanePose : ∀ l q, F'.lanePose (fn l) (fq q) = F.lanePose l q
  toPolygon : ∀ s, F'.toPolygon (fs s) = (F.toPolygon s).map fs
  everywhere : F'.everywhere = fl F.everywhere
  envPlayer : F'.envPlayer = F.envPlayer

variable {U : System K} {F F' : Iface N K}

/-- Specification: the part of a report about a player with mass `m`. -/
def Rescaled.player (h : Rescaled U F F') (m : Option K) (r : ReportPlayer K F.L F.S) : ReportPlayer K F'.L F'.S :=
  ⟨r.locations.map (Prod.map h.fl h.fs), r.atFault, h.fs r.footprint, U.twist r.velocity, U.twist r.velocityAfter,
    U.energy m r.velocity.1 r.velocityAfter.1 r.energyDelta⟩

/-- Specification: a report about players with the masses `m`. -/
def Rescaled.report (h : Rescaled U F F') (m : N → Option K) (r : CollisionReport N K F.L F.S) :
    CollisionReport N K F'.L F'.S :=
  ⟨r.players.map (fun p => (p.1, p.2.map (h.player (m p.1)))), r.point.map U.point, r.normal, U.time * r.atTime⟩

theorem locations_scale (h : Rescaled U F F') (m : F.M) (s : F.S) :
    impactLocations F' (h.fm m) (h.fs s) = (impactLocations F m s).map (List.map (Prod.map h.fl h.fs)) := by
  unfold impactLocations
  have e : (F'.mesh (h.fm m)).filter (fun l => F'.intersects (h.fs s) l.2) =
      ((F.mesh m).filter (fun l => F.intersects s l.2)).map (Prod.map h.fl h.fs) := by
    rw [h.mesh, List.filter_map]
    congr 1
    apply List.filter_congr
    intro l _
    simp only [Function.comp, Prod.map, h.intersects]
  simp only [e, List.isEmpty_map]
  split <;> rfl

theorem faultLoop_scale (h : Rescaled U F F') (lanes : List F.Lane) (poses : Dict N F.Q) : ∀ acc,
    faultLoop F' (lanes.map h.fn) (poses.map (fun p => (p.1, h.fq p.2))) acc = faultLoop F lanes poses acc := by
  induction poses with
  | nil => intro acc; rfl
  | cons p rest ih =>
    intro acc
    obtain ⟨n, q⟩ := p
    simp only [List.map_cons, faultLoop, List.map_map, Function.comp_def, h.lanePose, ih]

theorem atFault_scale (h : Rescaled U F F') (poses : Dict N F.Q) (p : K × K) :
    atFault F' (poses.map (fun p => (p.1, h.fq p.2))) (U.point p) = atFault F poses p := by
  unfold atFault
  rw [h.lanesAt, faultLoop_scale, List.map_map]
  rfl

theorem report_pair (h : Rescaled U F F') (a b : N) (m m' : Option K) (ra rb : ReportPlayer K F.L F.S) (p n : K × K) (t : K) :
    h.report (fun k => if k = b then m' else m) ⟨Dict.set (Dict.set [] a (some ra)) b (some rb), some p, some n, t⟩ =
      ⟨Dict.set (Dict.set [] a (some (h.player m ra))) b (some (h.player m' rb)), some (U.point p), some n, U.time * t⟩ := by
  by_cases hab : a = b
  · subst hab
    simp [Rescaled.report, Dict.set]
  · simp [Rescaled.report, Dict.set, hab]

variable [IsStrictOrderedRing K]

theorem System.speed_pos (U : System K) : 0 < U.speed := div_pos U.len_pos U.time_pos

theorem neg_scale (U : System K) (x : K) : U.speed * x < 0 ↔ x < 0 := by
  have := U.speed_pos
  constructor
  · intro h
    by_contra hx
    have := mul_nonneg this.le (not_lt.mp hx)
    linarith
  · intro h
    exact mul_neg_of_pos_of_neg this h

/-- **C157.** The collision of two players in other units and seen by a moving observer: the same decision, the same
exception, the same faults and normal, and the models, velocities, locations, impact point and energies in the new units. -/
theorem C157_resolve (h : Rescaled U F F') (sc : Bool) (t : K) (a : N) (ma : F.M) (b : N) (mb : F.M) :
    resolve F' sc (U.time * t) a (h.fm ma) b (h.fm mb) =
      (Prod.map h.fm h.fm (resolve F sc t a ma b mb).1,
        (resolve F sc t a ma b mb).2.map (Option.map (h.report (fun k =>
          if k = b then (F.geom (F.mark mb)).m else (F.geom (F.mark ma)).m)))) := by
  unfold resolve
  simp only [h.footprint, h.impactGeometry]
  cases F.impactGeometry (F.footprint ma) (F.footprint mb) with
  | error e => rfl
  | ok r =>
    obtain ⟨n, p⟩ := r
    simp only [Except.map, Prod.map, id, h.pose, h.translation, h.velocity, System.twist, arm, ofP, h.mark,
      h.geom, locations_scale, relative]
    have hd : ∀ u v : K × K, dot (U.speed * (u.1 - v.1), U.speed * (u.2 - v.2)) n = U.speed * dot (u.1 - v.1, u.2 - v.2) n := by
      intro u v; simp only [dot]; ring
    simp only [hd, neg_scale]
    split
    · rfl
    · cases impactLocations F (F.mark ma) (F.footprint mb) with
      | error e => rfl
      | ok la =>
        cases impactLocations F (F.mark mb) (F.footprint ma) with
        | error e => rfl
        | ok lb =>
          have hi : ∀ u v ra rb : K × K, ∀ ga gb : Geom K,
              impulse n (U.speed * (u.1 - v.1), U.speed * (u.2 - v.2)) (U.point ra) (U.point rb) (U.geom ga) (U.geom gb) =
                U.mass * U.speed * impulse n (u.1 - v.1, u.2 - v.2) ra rb ga gb :=
            fun u v ra rb ga gb => impulse_scale U n (u.1 - v.1, u.2 - v.2) ra rb ga gb
          have hgm : ∀ g : Geom K, (U.geom g).m = g.m.map (U.mass * ·) := fun _ => rfl
          have hgI : ∀ g : Geom K, (U.geom g).Iz = g.Iz.map (U.mass * U.len ^ 2 * ·) := fun _ => rfl
          simp only [Except.map, hi, hgm, hgI, after_scale, omega_scale, energy_scale, h.setVelocity]
          have hf : atFault F' (Dict.set (Dict.set [] a (h.fq (F.pose (F.mark ma)))) b (h.fq (F.pose (F.mark mb)))) (U.point p) =
              atFault F (Dict.set (Dict.set [] a (F.pose (F.mark ma))) b (F.pose (F.mark mb))) p := by
            rw [← atFault_scale h, map_set, map_set]
            rfl
          simp only [hf, Option.map_some, report_pair, Rescaled.player, System.twist]

/-- **C157.** The same for a collision with an obstacle that cannot be turned, if the observer does not move. -/
theorem C157_resolveEnv_partial (h : Rescaled U F F') (h0 : U.drift = (0, 0)) (t : K) (a : N) (ma : F.M) (s : F.S)
    (gb : Geom K) (hI : gb.Iz = none) :
    resolveEnv F' (U.time * t) a (h.fm ma) (h.fs s) (U.geom gb) =
      (h.fm (resolveEnv F t a ma s gb).1,
        (resolveEnv F t a ma s gb).2.map (Option.map (h.report (fun k =>
          if k = F.envPlayer then gb.m else (F.geom (F.mark ma)).m)))) := by
  unfold resolveEnv
  simp only [h.footprint, h.impactGeometry]
  cases F.impactGeometry (F.footprint ma) s with
  | error e => rfl
  | ok r =>
    obtain ⟨n, p⟩ := r
    have hv : ∀ v : K × K, U.vel v = (U.speed * v.1, U.speed * v.2) := by
      intro v; simp [System.vel, h0]
    have hdot : ∀ v : K × K, dot (U.vel v) n = U.speed * dot v n := by
      intro v; rw [hv, dot_scale]
    have hi : ∀ v r : K × K, ∀ ga : Geom K,
        impulse n (U.vel v) (U.point r) (1, 1) (U.geom ga) (U.geom gb) = U.mass * U.speed * impulse n v r (1, 1) ga gb := by
      intro v r ga; rw [hv, impulse_scale_wall U n v r (1, 1) ga gb hI]
    simp only [Except.map, Prod.map, id, h.pose, h.translation, h.velocity, System.twist, arm, ofP, h.mark,
      h.geom, locations_scale, hdot, neg_scale]
    split
    · rfl
    · cases impactLocations F (F.mark ma) s with
      | error e => rfl
      | ok la =>
        have hgm : ∀ g : Geom K, (U.geom g).m = g.m.map (U.mass * ·) := fun _ => rfl
        have hgI : ∀ g : Geom K, (U.geom g).Iz = g.Iz.map (U.mass * U.len ^ 2 * ·) := fun _ => rfl
        simp only [Except.map, hi, hgm, hgI, after_scale, omega_scale, energy_scale, h.setVelocity, h.toPolygon]
        cases F.toPolygon s with
        | error e => rfl
        | ok poly =>
          have hz : U.twist ((0, 0), 0) = ((0, 0), 0) := by simp [System.twist, hv]
          have he : U.energy gb.m (0, 0) (0, 0) 0 = 0 := by simp [System.energy]
          simp only [Except.map, Option.map_some, h.everywhere, h.envPlayer, report_pair, Rescaled.player, hz, he]
          rfl

/-- **C157.** The energy that two bodies lose in a collision does not depend on the motion of the observer, though the share
of each of them does. -/
theorem C157_energy (h : Rescaled U F F') (sc : Bool) (t : K) (a b : N) (hab : a ≠ b) (ma mb : F.M) (xa xb : K)
    (hma : (F.geom (F.mark ma)).m = some xa) (hmb : (F.geom (F.mark mb)).m = some xb) (ha : xa ≠ 0) (hb : xb ≠ 0)
    (r : CollisionReport N K F.L F.S) (hr : (resolve F sc t a ma b mb).2 = .ok (some r)) :
    ∃ r' pa pb pa' pb', (resolve F' sc (U.time * t) a (h.fm ma) b (h.fm mb)).2 = .ok (some r') ∧
      r.players = [(a, some pa), (b, some pb)] ∧ r'.players = [(a, some pa'), (b, some pb')] ∧
      pa'.energyDelta + pb'.energyDelta = U.mass * U.speed ^ 2 * (pa.energyDelta + pb.energyDelta) := by
  have hmain := C157_resolve h sc t a ma b mb
  rw [hmain, hr]
  have hset : ∀ (α : Type) (x y : α), Dict.set (Dict.set [] a x) b y = [(a, x), (b, y)] := by
    intro α x y; simp [Dict.set, hab]
  have hbody : ∃ pa pb : ReportPlayer K F.L F.S, r.players = [(a, some pa), (b, some pb)] ∧
      xa * (pa.velocityAfter.1.1 - pa.velocity.1.1) + xb * (pb.velocityAfter.1.1 - pb.velocity.1.1) = 0 ∧
      xa * (pa.velocityAfter.1.2 - pa.velocity.1.2) + xb * (pb.velocityAfter.1.2 - pb.velocity.1.2) = 0 := by
    simp only [resolve] at hr
    cases hg : F.impactGeometry (F.footprint ma) (F.footprint mb) with
    | error e => rw [hg] at hr; cases hr
    | ok q =>
      obtain ⟨n, p⟩ := q
      rw [hg] at hr
      simp only at hr
      split at hr
      · cases hr
      · cases hla : impactLocations F (F.mark ma) (F.footprint mb) with
        | error e => rw [hla] at hr; cases hr
        | ok la =>
          rw [hla] at hr
          cases hlb : impactLocations F (F.mark mb) (F.footprint ma) with
          | error e => rw [hlb] at hr; cases hr
          | ok lb =>
            rw [hlb] at hr
            simp only [Except.ok.injEq, Option.some.injEq] at hr
            subst hr
            refine ⟨_, _, hset _ _ _, ?_, ?_⟩
            · simp only [velocityAfter, hma, hmb, recip]
              field_simp
              ring
            · simp only [velocityAfter, hma, hmb, recip]
              field_simp
              ring
  obtain ⟨pa, pb, hp, h1, h2⟩ := hbody
  refine ⟨_, pa, pb, h.player (some xa) pa, h.player (some xb) pb, rfl, hp, ?_, ?_⟩
  · simp [Rescaled.report, hp, hma, hmb, hab]
  · simp only [Rescaled.player, System.energy, Option.getD_some]
    linear_combination (U.mass * U.speed * U.drift.1) * h1 + (U.mass * U.speed * U.drift.2) * h2

end Resolve

/-! ## The geometry of an impact -/

section Geometry

/-- Specification: an overlap in another unit of length. -/
noncomputable def shape (U : System ℝ) : IntShape → IntShape
  | .polygon c => .polygon (c.map U.point)
  | .line c => .line (c.map U.point)
  | .multi c => .multi (c.map (List.map U.point))
  | .other => .other

/-- Specification: the geometry library in another unit of length. The small radius of collision_utils.py:54-55 is a length,
too, and `inside` scales only if it does. -/
structure ScaledShapes (U : System ℝ) (G G' : ShapeOps) where
  fs : G.S → G'.S
  touches : ∀ a b, G'.touches (fs a) (fs b) = G.touches a b
  contains : ∀ a b, G'.contains (fs a) (fs b) = G.contains a b
  centroid : ∀ a, G'.centroid (fs a) = U.point (G.centroid a)
  inside : ∀ a p, G'.inside (fs a) (U.point p) = G.inside a p
  intersection : ∀ a b, G'.intersection (fs a) (fs b) = shape U (G.intersection a b)

variable {U : System ℝ} {G G' : ShapeOps}

theorem norm_point (U : System ℝ) (v : ℝ × ℝ) : norm2 (U.point v) = U.len * norm2 v := by
  unfold norm2
  rw [← Real.sqrt_sq U.len_pos.le, ← Real.sqrt_mul (sq_nonneg _)]
  congr 1
  simp only [System.point]
  ring

theorem normalize_point (U : System ℝ) (v : ℝ × ℝ) : normalize (U.point v) = normalize v := by
  have hl := U.len_pos.ne'
  unfold normalize
  rw [norm_point]
  by_cases h : norm2 v = 0
  · rw [if_pos h, if_pos (by rw [h, mul_zero])]
  · rw [if_neg h, if_neg (mul_ne_zero hl h)]
    simp only [System.point, mul_div_mul_left _ _ hl]

theorem orient_point (U : System ℝ) (r : ℝ × ℝ) (n : Option (ℝ × ℝ)) : orient (U.point r) n = orient r n := by
  cases n with
  | none => rfl
  | some n =>
    have h : (U.point r).1 * n.1 + (U.point r).2 * n.2 = U.len * (r.1 * n.1 + r.2 * n.2) := by
      simp only [System.point]; ring
    have hs : U.len * (r.1 * n.1 + r.2 * n.2) < 0 ↔ r.1 * n.1 + r.2 * n.2 < 0 := by
      constructor
      · intro h
        by_contra hx
        have := mul_nonneg U.len_pos.le (not_lt.mp hx)
        linarith
      · exact mul_neg_of_pos_of_neg U.len_pos
    unfold orient
    simp only [h, hs]

theorem points_scale (h : ScaledShapes U G G') (a b : G.S) :
    findIntersectionPoints G' (h.fs a) (h.fs b) = (findIntersectionPoints G a b).map (List.map U.point) := by
  have key : ∀ c : List (ℝ × ℝ), (c.map U.point).filter (fun p => !(G'.inside (h.fs a) p || G'.inside (h.fs b) p)) =
      (c.filter (fun p => !(G.inside a p || G.inside b p))).map U.point := by
    intro c
    rw [List.filter_map]
    congr 1
    apply List.filter_congr
    intro p _
    simp only [Function.comp, h.inside]
  have hc : candidates (shape U (G.intersection a b)) = (candidates (G.intersection a b)).map (List.map U.point) := by
    cases G.intersection a b with
    | polygon c => rfl
    | line c => rfl
    | multi c => cases c <;> rfl
    | other => rfl
  unfold findIntersectionPoints
  rw [h.intersection, hc]
  cases candidates (G.intersection a b) with
  | error e => rfl
  | ok c =>
    simp only [Except.map, key, List.length_map]
    split <;> rfl

/-- **C157.** Normal and impact point in another unit of length. -/
theorem C157_geometry (h : ScaledShapes U G G') (a b : G.S) :
    impactGeometry G' (h.fs a) (h.fs b) = (impactGeometry G a b).map (Prod.map id U.point) := by
  have hsub : ∀ p q : ℝ × ℝ, ((U.point p).1 - (U.point q).1, (U.point p).2 - (U.point q).2) =
      U.point (p.1 - q.1, p.2 - q.2) := by
    intro p q
    simp only [System.point, Prod.mk.injEq]
    constructor <;> ring
  unfold impactGeometry
  rw [h.touches, h.contains, points_scale]
  split
  · rfl
  · split
    · simp only [h.centroid, hsub, normalize_point, orient_point, Except.map, Prod.map, id]
    · cases findIntersectionPoints G a b with
      | error e => rfl
      | ok l =>
        match l with
        | [] => rfl
        | [_] => rfl
        | [f, s] =>
          have hm : (((U.point f).1 + (U.point s).1) / 2, ((U.point f).2 + (U.point s).2) / 2) =
              U.point ((f.1 + s.1) / 2, (f.2 + s.2) / 2) := by
            simp only [System.point, Prod.mk.injEq]; constructor <;> ring
          have hp : (-((U.point s).2 - (U.point f).2), (U.point s).1 - (U.point f).1) = U.point (-(s.2 - f.2), s.1 - f.1) := by
            simp only [System.point, Prod.mk.injEq]; constructor <;> ring
          have hr : (((U.point f).1 + (U.point s).1) / 2 - (U.point (G.centroid a)).1,
              ((U.point f).2 + (U.point s).2) / 2 - (U.point (G.centroid a)).2) =
              U.point ((f.1 + s.1) / 2 - (G.centroid a).1, (f.2 + s.2) / 2 - (G.centroid a).2) := by
            simp only [System.point, Prod.mk.injEq]; constructor <;> ring
          simp only [Except.map, List.map_cons, List.map_nil, hm, hp, hr, h.centroid, normalize_point, orient_point,
            Prod.map, id]
        | _ :: _ :: _ :: _ => rfl

/-- Every library in other units. -/
noncomputable def rescale (U : System ℝ) (G : ShapeOps) : ShapeOps where
  S := G.S
  intersection a b := shape U (G.intersection a b)
  touches := G.touches
  contains := G.contains
  centroid a := U.point (G.centroid a)
  inside a p := G.inside a (p.1 / U.len, p.2 / U.len)

/-- It meets the specification. -/
noncomputable def rescaled (U : System ℝ) (G : ShapeOps) : ScaledShapes U G (rescale U G) where
  fs := id
  touches _ _ := rfl
  contains _ _ := rfl
  centroid _ := rfl
  inside a p := by
    have hl := U.len_pos.ne'
    simp [rescale, System.point, hl]
  intersection _ _ := rfl

-- two squares, one of them cut in the middle by the edge of the other, in other units
example (U : System ℝ) : impactGeometry (rescale U (halved true)) false true =
    .ok (some (-1, 0), U.point (1 / 2, 1 / 2)) := by
  have := C157_geometry (rescaled U (halved true)) false true
  rw [halved_geometry] at this
  exact this

end Geometry

/-! ## Discs -/

/-- Discs of radius `R`, mass `2 k` and moment of inertia `k R ^ 2`. -/
abbrev discU (R k : ℚ) : Iface Nat ℚ where
  M := (ℚ × ℚ) × ((ℚ × ℚ) × ℚ) × Bool
  S := ℚ × ℚ
  L := Unit
  Q := ℚ × ℚ
  Lane := Unit
  footprint m := m.1
  pose m := m.1
  translation q := q
  velocity m := m.2.1
  setVelocity m v w := (m.1, (v, w), m.2.2)
  geom _ := ⟨some (k * 2), some (k * R ^ 2 * 1), 1 / 2⟩
  hasCollided m := m.2.2
  mark m := (m.1, m.2.1, true)
  mesh m := [((), m.1)]
  intersects a b := decide ((a.1 - b.1) ^ 2 + (a.2 - b.2) ^ 2 ≤ 4 * R ^ 2)
  impactGeometry a b := .ok (((b.1 - a.1) / (2 * R), (b.2 - a.2) / (2 * R)), ((a.1 + b.1) / 2, (a.2 + b.2) / 2))
  lanesAt _ := []
  lanePose _ _ := (true, true)
  toPolygon s := .ok s
  everywhere := ()
  envPlayer := 99

/-- Discs in other units are larger and heavier discs. -/
def discScaled (U : System ℚ) : Rescaled U (discU 1 1) (discU U.len U.mass) where
  fm m := (U.point m.1, U.twist m.2.1, m.2.2)
  fs := U.point
  fl := id
  fq := U.point
  fn := id
  footprint _ := rfl
  pose _ := rfl
  translation _ := rfl
  velocity _ := rfl
  setVelocity _ _ _ := rfl
  geom _ := by simp [System.geom]
  hasCollided _ := rfl
  mark _ := rfl
  mesh _ := rfl
  intersects a b := by
    have hl : 0 < U.len ^ 2 := by have := U.len_pos; positivity
    have : ((U.point a).1 - (U.point b).1) ^ 2 + ((U.point a).2 - (U.point b).2) ^ 2 =
        U.len ^ 2 * ((a.1 - b.1) ^ 2 + (a.2 - b.2) ^ 2) := by
      simp only [System.point]; ring
    simp only [this, mul_comm (4 : ℚ), mul_le_mul_iff_right₀ hl]
    simp
  impactGeometry a b := by
    have hl := U.len_pos.ne'
    simp only [Except.map, Prod.map, System.point, id, Except.ok.injEq, Prod.mk.injEq]
    refine ⟨⟨by field_simp, by field_simp⟩, by ring, by ring⟩
  lanesAt _ := rfl
  lanePose _ _ := rfl
  toPolygon _ := rfl
  everywhere := rfl
  envPlayer := rfl

/-- Feet instead of meters (about), pounds instead of kilograms (about), milliseconds, and a moving observer. -/
def imperial (d : ℚ × ℚ) : System ℚ := ⟨10 / 3, 11 / 5, 1000, d, by norm_num, by norm_num, by norm_num⟩

-- two discs that meet, in both systems
example : let U := imperial (5, -2)
    let r := resolve (discU 1 1) true 7 0 ((0, 0), ((3, 1), 1), false) 1 ((2, 0), ((-1, 0), 0), false)
    let r' := resolve (discU U.len U.mass) true 7000 0 (U.point (0, 0), U.twist ((3, 1), 1), false) 1
      (U.point (2, 0), U.twist ((-1, 0), 0), false)
    r.1.1.2.1.1 = (0, 1) ∧ r'.1.1.2.1.1 = U.vel (0, 1) ∧ r.1.1.2.2 = true ∧ r'.2.toOption.isSome = true := by
  decide +kernel

/-- Energy of a player in the report of a collision, zero without a report. -/
def deltaOf {L S : Type} (r : Except Err (Option (CollisionReport Nat ℚ L S))) (n : Nat) : ℚ :=
  match r with
  | .ok (some r) => match Dict.get? r.players n with
    | some (some p) => p.energyDelta
    | _ => 0
  | _ => 0

/-- **C157, the share of each player is not.** What a player loses depends on the observer: with both velocities increased
by the same one, in the same units, the energy lost by the first player is another one. -/
theorem C157_false_share : ∃ (U : System ℚ) (h : Rescaled U (discU 1 1) (discU 1 1)) (ma mb : (discU 1 1).M),
    U.len = 1 ∧ U.mass = 1 ∧ U.time = 1 ∧
      deltaOf (resolve (discU 1 1) false 0 0 ma 1 mb).2 0 < 0 ∧
      0 < deltaOf (resolve (discU 1 1) false 0 0 (h.fm ma) 1 (h.fm mb)).2 0 := by
  refine ⟨⟨1, 1, 1, (-5, 0), by norm_num, by norm_num, by norm_num⟩, discScaled _, ((0, 0), ((3, 0), 0), false),
    ((2, 0), ((-1, 0), 0), false), rfl, rfl, rfl, ?_, ?_⟩
  · decide +kernel
  · decide +kernel

/-- **C157, walls are at rest.** A collision with an obstacle depends on the observer. -/
theorem C157_false_wall : ∃ (U : System ℚ) (h : Rescaled U (discU 1 1) (discU 1 1)) (ma : (discU 1 1).M) (s : (discU 1 1).S)
    (gb : Geom ℚ), U.len = 1 ∧ U.mass = 1 ∧ U.time = 1 ∧ gb.m = none ∧ gb.Iz = none ∧
      (resolveEnv (discU 1 1) 0 0 (h.fm ma) (h.fs s) (U.geom gb)).1 ≠ h.fm (resolveEnv (discU 1 1) 0 0 ma s gb).1 := by
  refine ⟨⟨1, 1, 1, (-5, 0), by norm_num, by norm_num, by norm_num⟩, discScaled _, ((0, 0), ((3, 0), 0), false), (2, 0),
    ⟨none, none, 1⟩, rfl, rfl, rfl, rfl, rfl, ?_⟩
  decide +kernel

/-- **C157, the arm of an obstacle.** For an obstacle with a finite moment of inertia the code measures its arm by (1, 1)
whatever the unit of length is, and the response depends on this unit. -/
theorem C157_false_arm : ∃ (U : System ℚ) (h : Rescaled U (discU 1 1) (discU U.len U.mass)) (ma : (discU 1 1).M)
    (s : (discU 1 1).S) (gb : Geom ℚ), U.drift = (0, 0) ∧
      (resolveEnv (discU U.len U.mass) 0 0 (h.fm ma) (h.fs s) (U.geom gb)).1 ≠ h.fm (resolveEnv (discU 1 1) 0 0 ma s gb).1 := by
  refine ⟨imperial (0, 0), discScaled _, ((0, 0), ((3, 0), 0), false), (2, 0), ⟨some 3, some 1, 1⟩, rfl, ?_⟩
  decide +kernel

-- a wall hit in both systems
example : let U := imperial (0, 0)
    (resolveEnv (discU U.len U.mass) 0 0 (U.point (0, 0), U.twist ((3, 0), 0), false) (U.point (2, 0)) (U.geom ⟨none, none, 1⟩)).1.2.1.1
      = U.vel (-3 / 2, 0) ∧
    (resolveEnv (discU 1 1) 0 0 ((0, 0), ((3, 0), 0), false) (2, 0) ⟨none, none, 1⟩).1.2.1.1 = (-3 / 2, 0) := by
  decide +kernel

end Units
end Coll
end Verif
