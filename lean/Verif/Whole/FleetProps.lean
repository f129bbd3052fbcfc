import Verif.Whole.Fleet
import Verif.Whole.UnitProps

/-!
# C160: simulations of the models of the library depend neither on the world frame nor on the units
-/

namespace Verif
namespace Whole
namespace Fleet

open Phys Coll Sim

theorem calls_one {S U : Type} (f : Call U → S → Except Err S) (c : Call U) (x : S) : calls f [c] x = f c x := by
  unfold calls
  rw [List.foldlM_cons]
  cases f c x <;> rfl

variable {N : Type} {A : Allowed}

/-! ## Units -/

section Units
open Whole.Units

/-- Specification: a model with its parameters and its state in other units. -/
noncomputable def Machine.inUnits (Q : Phys.Units.System) : Machine A → Machine A
  | car wb lr p c s => car (Q.len * wb) (Q.len * lr) (Q.vparams p) c (Q.stV s)
  | dynamic ok g p f r c s => dynamic ok (Q.geomD g) (Q.vparams p) f r c (Q.stD s)
  | pedestrian ok p d s => pedestrian ok (Q.params p) (Q.rate * d) (Q.stP s)
  | drive wb R lo hi s => drive (Q.len * wb) (Q.len * R) (Q.rate * lo) (Q.rate * hi) (Q.stR s)
  | craft p lo hi a m iz s =>
    craft (Q.params p) (Q.rate * lo) (Q.rate * hi) (Q.len * a) (Q.mass * m) (Q.inertia * iz) (Q.stC s)
  | ship p s => ship (Q.tparams p) (Q.stS s)
  | rocket ok p s => rocket ok (Q.tparams p) (Q.stT s)
  | obstacle p lo hi s => obstacle (Q.params p) (Q.rate * lo) (Q.rate * hi) (Q.stO s)

/-- Specification: a state in other units. -/
noncomputable def AnyState.inUnits (Q : Phys.Units.System) : AnyState → AnyState
  | car s => car (Q.stV s)
  | dynamic s => dynamic (Q.stD s)
  | pedestrian s => pedestrian (Q.stP s)
  | drive s => drive (Q.stR s)
  | craft s => craft (Q.stC s)
  | ship s => ship (Q.stS s)
  | rocket s => rocket (Q.stT s)
  | obstacle s => obstacle (Q.stO s)

/-- Specification: commands in other units. -/
noncomputable def AnyCmd.inUnits (Q : Phys.Units.System) : AnyCmd → AnyCmd
  | car u => car (Q.cmdV u)
  | pedestrian u => pedestrian (Q.cmdP u)
  | drive u => drive (Q.cmdR u)
  | craft u => craft (Q.cmdC u)
  | ship u => ship (Q.cmdS u)
  | rocket u => rocket (Q.cmdT u)
  | obstacle u => obstacle (Q.cmdO u)

/-- Specification: a pose in other units; the heading has no unit. -/
def poseInUnits (Q : Phys.Units.System) (q : (ℝ × ℝ) × ℝ) : (ℝ × ℝ) × ℝ := ((Q.len * q.1.1, Q.len * q.1.2), q.2)

theorem pose_units (Q : Phys.Units.System) (m : Machine A) : (m.inUnits Q).pose = poseInUnits Q m.pose := by
  cases m <;> rfl

theorem state_units (Q : Phys.Units.System) (m : Machine A) : (m.inUnits Q).state = m.state.inUnits Q := by
  cases m <;> rfl

theorem velocity_units (Q : Phys.Units.System) (hp : A.pedestrian = false) (m : Machine A) :
    (m.inUnits Q).velocity = (rest Q).twist m.velocity := by
  cases m with
  | car wb lr p c s => exact (C159_vehicle Q wb lr).1 s false
  | dynamic ok g p f r c s => exact (C159_vehicleDyn Q).1 s false
  | pedestrian ok p d s => rw [hp] at ok; cases ok
  | drive wb R lo hi s => exact (C159_diffDrive Q).1 s false
  | craft p lo hi a m iz s => exact (C159_spacecraft Q).1 s false
  | ship p s => exact (C159_spaceship Q).1 s false
  | rocket ok p s => exact (C159_rocket Q).1 s false
  | obstacle p lo hi s => exact (C159_dynObstacle Q).1 s false

theorem setVelocity_units (Q : Phys.Units.System) (hp : A.pedestrian = false) (m : Machine A) (v : ℝ × ℝ) (w : ℝ) :
    (m.inUnits Q).setVelocity ((rest Q).vel v) (w / Q.time) = (m.setVelocity v w).inUnits Q := by
  cases m with
  | car wb lr p c s => exact congrArg (Machine.car _ _ _ _) ((C159_vehicle Q wb lr).2 s v w false)
  | dynamic ok g p f r c s => exact congrArg (Machine.dynamic _ _ _ _ _ _) ((C159_vehicleDyn Q).2 s v w false)
  | pedestrian ok p d s => rw [hp] at ok; cases ok
  | drive wb R lo hi s => exact congrArg (Machine.drive _ _ _ _) ((C159_diffDrive Q).2 s v w false)
  | craft p lo hi a m iz s => exact congrArg (Machine.craft _ _ _ _ _ _) ((C159_spacecraft Q).2 s v w false)
  | ship p s => exact congrArg (Machine.ship _) ((C159_spaceship Q).2 s v w false)
  | rocket ok p s => exact congrArg (Machine.rocket _ _) ((C159_rocket Q).2 s v w false)
  | obstacle p lo hi s => exact congrArg (Machine.obstacle _ _ _) ((C159_dynObstacle Q).2 s v w false)

theorem map_both {S X : Type} {r r' : Except Err S} {st : S → S} (h : r' = r.map st) (k k' : S → X) (g : X → X)
    (e : ∀ s, k' (st s) = g (k s)) : r'.map k' = (r.map k).map g := by
  subst h
  cases r with
  | error _ => rfl
  | ok s => exact congrArg Except.ok (e s)

theorem update_units (Q : Phys.Units.System) (hp : A.pedestrian = false) (hd : A.dynamic = false) (tab : Tableau ℝ)
    (b : Bool) (hs : List ℝ) (m : Machine A) (c : AnyCmd) :
    (m.inUnits Q).update tab b (hs.map (Q.time * ·)) (c.inUnits Q) = (m.update tab b hs c).map (Machine.inUnits Q) := by
  cases m with
  | car wb lr p k s =>
    cases c with
    | car u =>
      have h := Phys.Units.C158_vehicle Q wb lr p k tab [⟨u, b, hs⟩] s
      rw [calls_one, List.map_singleton, calls_one] at h
      exact map_both h _ _ _ (fun _ => rfl)
    | _ => rfl
  | dynamic ok g p f r k s => rw [hd] at ok; cases ok
  | pedestrian ok p d s => rw [hp] at ok; cases ok
  | drive wb R lo hi s =>
    cases c with
    | drive u =>
      have h := Phys.Units.C158_diffDrive Q wb R lo hi tab [⟨u, b, hs⟩] s
      rw [calls_one, List.map_singleton, calls_one] at h
      exact map_both h _ _ _ (fun _ => rfl)
    | _ => rfl
  | craft p lo hi a m iz s =>
    cases c with
    | craft u =>
      have h := Phys.Units.C158_spacecraft Q p lo hi a m iz tab [⟨u, b, hs⟩] s
      rw [calls_one, List.map_singleton, calls_one] at h
      exact map_both h _ _ _ (fun _ => rfl)
    | _ => rfl
  | ship p s =>
    cases c with
    | ship u =>
      have h := Phys.Units.C158_spaceship Q p tab [⟨u, b, hs⟩] s
      rw [calls_one, List.map_singleton, calls_one] at h
      exact map_both h _ _ _ (fun _ => rfl)
    | _ => rfl
  | rocket ok p s =>
    cases c with
    | rocket u =>
      have h := Phys.Units.C158_rocket Q p tab [⟨u, b, hs⟩] s
      rw [calls_one, List.map_singleton, calls_one] at h
      exact map_both h _ _ _ (fun _ => rfl)
    | _ => rfl
  | obstacle p lo hi s =>
    cases c with
    | obstacle u =>
      have h := Phys.Units.C158_dynObstacle Q p lo hi tab [⟨u, b, hs⟩] s
      rw [calls_one, List.map_singleton, calls_one] at h
      exact map_both h _ _ _ (fun _ => rfl)
    | _ => rfl

/-- Specification: shapes and lanes in other units. -/
structure ScaledSurroundings (Q : Phys.Units.System) (E E' : Surroundings N) where
  shapes : Coll.Units.ScaledShapes (rest Q) E.G E'.G
  fl : E.L → E'.L
  fn : E.Lane → E'.Lane
  place : ∀ s q, E'.place (shapes.fs s) (poseInUnits Q q) = shapes.fs (E.place s q)
  sides : ∀ s, E'.sides (shapes.fs s) = (E.sides s).map (Prod.map fl shapes.fs)
  intersects : ∀ s s', E'.intersects (shapes.fs s) (shapes.fs s') = E.intersects s s'
  lanesAt : ∀ p, E'.lanesAt ((rest Q).point p) = (E.lanesAt p).map fn
  lanePose : ∀ l q, E'.lanePose (fn l) (poseInUnits Q q) = E.lanePose l q
  toPolygon : ∀ s, E'.toPolygon (shapes.fs s) = (E.toPolygon s).map shapes.fs
  everywhere : E'.everywhere = fl E.everywhere
  envPlayer : E'.envPlayer = E.envPlayer

variable {Q : Phys.Units.System} {E E' : Surroundings N}

/-- Specification: a body in other units. -/
noncomputable def ScaledSurroundings.body (h : ScaledSurroundings Q E E') (m : Body A E.G.S) : Body A E'.G.S :=
  ⟨m.machine.inUnits Q, h.shapes.fs m.outline, (rest Q).geom m.geom, m.collided⟩

theorem sided_units (m : Machine A) : (m.inUnits Q).sided = m.sided := by cases m <;> rfl

theorem isObstacle_units (m : Machine A) : (m.inUnits Q).isObstacle = m.isObstacle := by cases m <;> rfl

theorem geometryOf_units {G G' : ShapeOps} (h : Coll.Units.ScaledShapes (rest Q) G G') (a b : G.S) :
    geometryOf G' (h.fs a) (h.fs b) = (geometryOf G a b).map (Prod.map id (rest Q).point) := by
  unfold geometryOf
  rw [Coll.Units.C157_geometry h]
  rcases impactGeometry G a b with e | ⟨_ | n, p⟩ <;> rfl

/-- The fleet in other units meets what C157 and C159 ask for. -/
noncomputable def ScaledSurroundings.rescaled (h : ScaledSurroundings Q E E') (hp : A.pedestrian = false) :
    Coll.Units.Rescaled (rest Q) (fleet E A) (fleet E' A) where
  fm := h.body
  fs := h.shapes.fs
  fl := h.fl
  fq := poseInUnits Q
  fn := h.fn
  footprint m := by
    change E'.place (h.shapes.fs m.outline) (m.machine.inUnits Q).pose = _
    rw [pose_units, h.place]
  pose m := pose_units Q m.machine
  translation _ := rfl
  velocity m := velocity_units Q hp m.machine
  setVelocity m v w := by
    change Body.mk ((m.machine.inUnits Q).setVelocity ((rest Q).vel v) (w / Q.time)) _ _ _ = _
    rw [setVelocity_units Q hp]
    rfl
  geom _ := rfl
  hasCollided _ := rfl
  mark _ := rfl
  mesh m := by
    change (if (m.machine.inUnits Q).sided = true then E'.sides (E'.place (h.shapes.fs m.outline) (m.machine.inUnits Q).pose)
      else [(E'.everywhere, E'.place (h.shapes.fs m.outline) (m.machine.inUnits Q).pose)]) =
      (if m.machine.sided = true then E.sides (E.place m.outline m.machine.pose)
        else [(E.everywhere, E.place m.outline m.machine.pose)]).map (Prod.map h.fl h.shapes.fs)
    rw [sided_units, pose_units, h.place, h.sides, h.everywhere]
    cases m.machine.sided <;> rfl
  intersects := h.intersects
  impactGeometry := geometryOf_units h.shapes
  lanesAt := h.lanesAt
  lanePose := h.lanePose
  toPolygon := h.toPolygon
  everywhere := h.everywhere
  envPlayer := h.envPlayer

/-- Specification: agents, sensors, goals and obstacles in other units; no obstacle can be turned. -/
structure ScaledCrew (h : ScaledSurroundings Q E E') (R : Crew N E.G.S) (R' : Crew N E'.G.S) where
  fa : R.A → R'.A
  fv : R.V → R'.V
  fi : R.I → R'.I
  fe : R.E → R'.E
  fg : R.G → R'.G
  onInit : ∀ a n, R'.onInit (fa a) n = (R.onInit a n).map fa
  sense : ∀ v n o, R'.sense (fv v) n (Scaled.obs Q.time (AnyState.inUnits Q) h.shapes.fs o) =
    (R.sense v n o).map (Prod.map fv (Scaled.obs Q.time (AnyState.inUnits Q) h.shapes.fs))
  ask : ∀ a o, R'.ask (fa a) (Scaled.obs Q.time (AnyState.inUnits Q) h.shapes.fs o) =
    (R.ask a o).map (Prod.map fa (Prod.map (AnyCmd.inUnits Q) fi))
  extra : ∀ a, R'.extra (fa a) = (R.extra a).map (Prod.map fa (Option.map fe))
  fulfilled : ∀ v n g x t, R'.fulfilled (fv v) n (fg g) (x.inUnits Q) (Q.time * t) =
    (R.fulfilled v n g x t).map (Prod.map fv id)
  envQuery : ∀ v s, R'.envQuery (fv v) (h.shapes.fs s) = (R.envQuery v s).map (Prod.map h.shapes.fs (rest Q).geom)
  heavy : ∀ v s, ∀ o ∈ R.envQuery v s, o.2.Iz = none

/-- Specification: the solver divides the time step alike. -/
def PaceScales (h : ScaledSurroundings Q E E') (pace : Pace A E.G.S) (pace' : Pace A E'.G.S) : Prop :=
  ∀ m c dt, pace' (h.body m) (c.inUnits Q) (Q.time * dt) = (pace m c dt).map (Q.time * ·)

variable {R : Crew N E.G.S} {R' : Crew N E'.G.S} {pace : Pace A E.G.S} {pace' : Pace A E'.G.S}

/-- The parts of the simulation in other units. -/
noncomputable def ScaledCrew.scaled {h : ScaledSurroundings Q E E'} (r : ScaledCrew h R R') (hp : A.pedestrian = false)
    (hd : A.dynamic = false) (hs : PaceScales h pace pace') (tab : Tableau ℝ) :
    RescaledParts (h.rescaled hp) (parts E A tab pace R) (parts E' A tab pace' R') where
  still := rfl
  fa := r.fa
  fv := r.fv
  fx := AnyState.inUnits Q
  fc := AnyCmd.inUnits Q
  fi := r.fi
  fe := r.fe
  fg := r.fg
  getState m := state_units Q m.machine
  isDyn m := isObstacle_units m.machine
  onInit := r.onInit
  sense := r.sense
  ask := r.ask
  extra := r.extra
  update v n m c dt := by
    have h1 := hs m c dt
    have h2 := update_units Q hp hd tab m.collided (pace m c dt) m.machine c
    rw [← h1] at h2
    change Except.map _ ((m.machine.inUnits Q).update tab m.collided (pace' (h.body m) (c.inUnits Q) (Q.time * dt)) _) =
      Except.map _ (Except.map _ (m.machine.update tab m.collided (pace m c dt) c))
    rw [h2]
    cases m.machine.update tab m.collided (pace m c dt) c <;> rfl
  fulfilled := r.fulfilled
  envQuery := r.envQuery
  heavy := r.heavy

variable [DecidableEq N]

/-- **C160.** A simulation of kinematic vehicles, differential drives, spacecraft, spaceships, rockets and moving obstacles in
other units of length, mass and time: the same run, ending or raising at the same step, with all times, parameters, states,
commands and reports in the new units. -/
theorem C160_units_partial (h : ScaledSurroundings Q E E') (r : ScaledCrew h R R') (hp : A.pedestrian = false)
    (hd : A.dynamic = false) (hs : PaceScales h pace pace') (tab : Tableau ℝ) (scenario : Bool)
    (cfg : Cfg (world (fleet E A) scenario (parts E A tab pace R))) (fuel : Nat)
    (s : St (world (fleet E A) scenario (parts E A tab pace R)))
    (log : Dict N (PlayerLog (world (fleet E A) scenario (parts E A tab pace R)))) :
    run (((r.scaled hp hd hs tab).conv scenario).cfg cfg) fuel (((r.scaled hp hd hs tab).conv scenario).st s)
        (mapD ((r.scaled hp hd hs tab).conv scenario).log log) =
      (run cfg fuel s log).map (Except.map
        (Prod.map ((r.scaled hp hd hs tab).conv scenario).st (mapD ((r.scaled hp hd hs tab).conv scenario).log))) :=
  C159_run_partial (r.scaled hp hd hs tab) scenario cfg fuel s log

/-- **C160.** In particular: the run ends at the same time with the same players, the collisions are those of the same players
at the same times, and the logs hold the same states and commands, all in the new units. -/
theorem C160_log_units_partial (h : ScaledSurroundings Q E E') (r : ScaledCrew h R R') (hp : A.pedestrian = false)
    (hd : A.dynamic = false) (hs : PaceScales h pace pace') (tab : Tableau ℝ) (scenario : Bool)
    (cfg : Cfg (world (fleet E A) scenario (parts E A tab pace R))) (fuel : Nat)
    (s s1 : St (world (fleet E A) scenario (parts E A tab pace R)))
    (l1 : Dict N (PlayerLog (world (fleet E A) scenario (parts E A tab pace R))))
    (hr : run cfg fuel s [] = some (.ok (s1, l1))) :
    ∃ s2 l2, run (((r.scaled hp hd hs tab).conv scenario).cfg cfg) fuel (((r.scaled hp hd hs tab).conv scenario).st s) [] =
        some (.ok (s2, l2)) ∧
      s2.time = Q.time * s1.time ∧ s2.players = s1.players ∧
      s2.reports.map (fun r => (r.players, r.atTime)) = s1.reports.map (fun r => (r.players, Q.time * r.atTime)) ∧
      ∀ n, (Dict.get? l2 n).map (fun l => (l.states.ts, l.states.vs, l.commands.ts, l.commands.vs)) =
        (Dict.get? l1 n).map (fun l => (l.states.ts.map (Q.time * ·), l.states.vs.map (AnyState.inUnits Q),
          l.commands.ts.map (Q.time * ·), l.commands.vs.map (AnyCmd.inUnits Q))) := by
  obtain ⟨s2, l2, h1, h2, h3, -, h4, h5⟩ := C159_log_partial (r.scaled hp hd hs tab) scenario cfg fuel s s1 l1 hr
  refine ⟨s2, l2, h1, h2, h3, ?_, h5⟩
  have := congrArg (List.map (fun z => (z.1, z.2.1))) h4
  simp only [List.map_map, Function.comp_def] at this
  exact this

end Units

/-! ## Frames -/

section Frames

/-- Specification: a model seen from another world frame; its parameters are its own. -/
noncomputable def Machine.seen (al : ℝ) (t : ℝ × ℝ) : Machine A → Machine A
  | car wb lr p c s => car wb lr p c (movedV al t s)
  | dynamic ok g p f r c s => dynamic ok g p f r c (movedD al t s)
  | pedestrian ok p d s => pedestrian ok p d (movedP al t s)
  | drive wb R lo hi s => drive wb R lo hi (movedR al t s)
  | craft p lo hi a m iz s => craft p lo hi a m iz (movedC al t s)
  | ship p s => ship p (movedS al t s)
  | rocket ok p s => rocket ok p (movedT al t s)
  | obstacle p lo hi s => obstacle p lo hi (movedO al t s)

/-- Specification: a state seen from another world frame. -/
noncomputable def AnyState.seen (al : ℝ) (t : ℝ × ℝ) : AnyState → AnyState
  | car s => car (movedV al t s)
  | dynamic s => dynamic (movedD al t s)
  | pedestrian s => pedestrian (movedP al t s)
  | drive s => drive (movedR al t s)
  | craft s => craft (movedC al t s)
  | ship s => ship (movedS al t s)
  | rocket s => rocket (movedT al t s)
  | obstacle s => obstacle (movedO al t s)

/-- Specification: a pose seen from another world frame. -/
noncomputable def poseSeen (al : ℝ) (t : ℝ × ℝ) (q : (ℝ × ℝ) × ℝ) : (ℝ × ℝ) × ℝ := (movePoint al t q.1, q.2 + al)

theorem app_turned (al : ℝ) (t p : ℝ × ℝ) : (turned al t).app p = movePoint al t p := by
  simp [turned, Congr.app, Congr.turn, movePoint]

theorem pose_seen (al : ℝ) (t : ℝ × ℝ) (m : Machine A) : (m.seen al t).pose = poseSeen al t m.pose := by
  cases m <;> rfl

theorem state_seen (al : ℝ) (t : ℝ × ℝ) (m : Machine A) : (m.seen al t).state = m.state.seen al t := by
  cases m <;> rfl

theorem sided_seen (al : ℝ) (t : ℝ × ℝ) (m : Machine A) : (m.seen al t).sided = m.sided := by cases m <;> rfl

theorem isObstacle_seen (al : ℝ) (t : ℝ × ℝ) (m : Machine A) : (m.seen al t).isObstacle = m.isObstacle := by
  cases m <;> rfl

theorem velocity_seen (al : ℝ) (t : ℝ × ℝ) (hr : A.rocket = false) (m : Machine A) :
    (m.seen al t).velocity = (turned al t).twist m.velocity := by
  cases m with
  | car wb lr p c s => exact (C151_vehicle wb lr al t).1 s
  | dynamic ok g p f r c s => exact (C151_vehicleDyn al t).1 s
  | pedestrian ok p d s => exact (C151_pedestrian al t).1 s
  | drive wb R lo hi s => exact (C151_diffDrive al t).1 s
  | craft p lo hi a m iz s => exact (C151_spacecraft al t).1 s
  | ship p s => exact (C151_spaceship al t).1 s
  | rocket ok p s => rw [hr] at ok; cases ok
  | obstacle p lo hi s => exact (C151_dynObstacle al t).1 s

theorem setVelocity_seen (al : ℝ) (t : ℝ × ℝ) (hr : A.rocket = false) (m : Machine A) (v : ℝ × ℝ) (w : ℝ) :
    (m.seen al t).setVelocity ((turned al t).turn v) ((turned al t).flip * w) = (m.setVelocity v w).seen al t := by
  cases m with
  | car wb lr p c s => exact congrArg (Machine.car _ _ _ _) ((C151_vehicle wb lr al t).2 s v w)
  | dynamic ok g p f r c s => exact congrArg (Machine.dynamic _ _ _ _ _ _) ((C151_vehicleDyn al t).2 s v w)
  | pedestrian ok p d s => exact congrArg (Machine.pedestrian _ _ _) ((C151_pedestrian al t).2 s v w)
  | drive wb R lo hi s => exact congrArg (Machine.drive _ _ _ _) ((C151_diffDrive al t).2 s v w)
  | craft p lo hi a m iz s => exact congrArg (Machine.craft _ _ _ _ _ _) ((C151_spacecraft al t).2 s v w)
  | ship p s => exact congrArg (Machine.ship _) ((C151_spaceship al t).2 s v w)
  | rocket ok p s => rw [hr] at ok; cases ok
  | obstacle p lo hi s => exact congrArg (Machine.obstacle _ _ _) ((C151_dynObstacle al t).2 s v w)

theorem update_seen (al : ℝ) (t : ℝ × ℝ) (tab : Tableau ℝ) (b : Bool) (hs : List ℝ) (m : Machine A) (c : AnyCmd) :
    (m.seen al t).update tab b hs c = (m.update tab b hs c).map (Machine.seen al t) := by
  cases m with
  | car wb lr p k s =>
    cases c with
    | car u =>
      have h := C149_vehicle wb lr p k al t tab [⟨u, b, hs⟩] s
      rw [calls_one, calls_one] at h
      exact map_both h _ _ _ (fun _ => rfl)
    | _ => rfl
  | dynamic ok g p f r k s =>
    cases c with
    | car u =>
      have h := C149_vehicleDyn g p f r k al t tab [⟨u, b, hs⟩] s
      rw [calls_one, calls_one] at h
      exact map_both h _ _ _ (fun _ => rfl)
    | _ => rfl
  | pedestrian ok p d s =>
    cases c with
    | pedestrian u =>
      have h := C149_pedestrian p d al t tab [⟨u, b, hs⟩] s
      rw [calls_one, calls_one] at h
      exact map_both h _ _ _ (fun _ => rfl)
    | _ => rfl
  | drive wb R lo hi s =>
    cases c with
    | drive u =>
      have h := C149_diffDrive wb R lo hi al t tab [⟨u, b, hs⟩] s
      rw [calls_one, calls_one] at h
      exact map_both h _ _ _ (fun _ => rfl)
    | _ => rfl
  | craft p lo hi a m iz s =>
    cases c with
    | craft u =>
      have h := C149_spacecraft p lo hi a m iz al t tab [⟨u, b, hs⟩] s
      rw [calls_one, calls_one] at h
      exact map_both h _ _ _ (fun _ => rfl)
    | _ => rfl
  | ship p s =>
    cases c with
    | ship u =>
      have h := C149_spaceship p al t tab [⟨u, b, hs⟩] s
      rw [calls_one, calls_one] at h
      exact map_both h _ _ _ (fun _ => rfl)
    | _ => rfl
  | rocket ok p s =>
    cases c with
    | rocket u =>
      have h := C149_rocket p al t tab [⟨u, b, hs⟩] s
      rw [calls_one, calls_one] at h
      exact map_both h _ _ _ (fun _ => rfl)
    | _ => rfl
  | obstacle p lo hi s =>
    cases c with
    | obstacle u =>
      have h := C149_dynObstacle p lo hi al t tab [⟨u, b, hs⟩] s
      rw [calls_one, calls_one] at h
      exact map_both h _ _ _ (fun _ => rfl)
    | _ => rfl

/-- Specification: an overlap seen from another frame. -/
noncomputable def overlapSeen (al : ℝ) (t : ℝ × ℝ) : IntShape → IntShape
  | .polygon c => .polygon (c.map (movePoint al t))
  | .line c => .line (c.map (movePoint al t))
  | .multi c => .multi (c.map (List.map (movePoint al t)))
  | .other => .other

/-- Specification: the geometry library in another frame, where it lists the corners of an overlap in the same order. -/
structure SeenShapes (al : ℝ) (t : ℝ × ℝ) (G G' : ShapeOps) where
  fs : G.S → G'.S
  touches : ∀ a b, G'.touches (fs a) (fs b) = G.touches a b
  contains : ∀ a b, G'.contains (fs a) (fs b) = G.contains a b
  centroid : ∀ a, G'.centroid (fs a) = movePoint al t (G.centroid a)
  inside : ∀ a p, G'.inside (fs a) (movePoint al t p) = G.inside a p
  intersection : ∀ a b, G'.intersection (fs a) (fs b) = overlapSeen al t (G.intersection a b)

variable {al : ℝ} {t : ℝ × ℝ}

theorem points_seen {G G' : ShapeOps} (h : SeenShapes al t G G') (a b : G.S) :
    findIntersectionPoints G' (h.fs a) (h.fs b) = (findIntersectionPoints G a b).map (List.map (movePoint al t)) := by
  have key : ∀ c : List (ℝ × ℝ), (c.map (movePoint al t)).filter (fun p => !(G'.inside (h.fs a) p || G'.inside (h.fs b) p)) =
      (c.filter (fun p => !(G.inside a p || G.inside b p))).map (movePoint al t) := by
    intro c
    rw [List.filter_map]
    congr 1
    apply List.filter_congr
    intro p _
    simp only [Function.comp, h.inside]
  have hc : candidates (overlapSeen al t (G.intersection a b)) =
      (candidates (G.intersection a b)).map (List.map (movePoint al t)) := by
    cases G.intersection a b with
    | polygon c => rfl
    | line c => rfl
    | multi c => cases c <;> rfl
    | other => rfl
  unfold findIntersectionPoints
  rw [h.intersection, hc]
  cases candidates (G.intersection a b) with
  | error e => rfl
  | ok c =>
    simp only [Except.map, key, List.length_map]
    split <;> rfl

theorem normalize_turned (v : ℝ × ℝ) : normalize ((turned al t).turn v) = (normalize v).map (turned al t).turn := by
  unfold Coll.normalize
  rw [turn_norm]
  split
  · rfl
  · simp only [Option.map, Option.some.injEq, Congr.turn, Prod.mk.injEq]
    constructor <;> ring

theorem orient_turned (r : ℝ × ℝ) (n : Option (ℝ × ℝ)) :
    orient ((turned al t).turn r) (n.map (turned al t).turn) = (orient r n).map (turned al t).turn := by
  cases n with
  | none => rfl
  | some n =>
    have h := turn_dot (turned al t) r n
    simp only [dot] at h
    simp only [orient, Option.map, h]
    split
    · simp only [Option.some.injEq, Congr.turn, Prod.mk.injEq]
      constructor <;> ring
    · rfl

theorem geometry_seen {G G' : ShapeOps} (h : SeenShapes al t G G') (a b : G.S) :
    impactGeometry G' (h.fs a) (h.fs b) =
      (impactGeometry G a b).map (Prod.map (Option.map (turned al t).turn) (movePoint al t)) := by
  have hsub : ∀ p q : ℝ × ℝ, ((movePoint al t p).1 - (movePoint al t q).1, (movePoint al t p).2 - (movePoint al t q).2) =
      (turned al t).turn (p.1 - q.1, p.2 - q.2) := by
    intro p q
    simp only [movePoint, turned, Congr.turn, Prod.mk.injEq]
    constructor <;> ring
  unfold impactGeometry
  rw [h.touches, h.contains, points_seen]
  split
  · rfl
  · split
    · simp only [h.centroid, hsub, normalize_turned, orient_turned, Except.map, Prod.map]
    · cases findIntersectionPoints G a b with
      | error e => rfl
      | ok l =>
        match l with
        | [] => rfl
        | [_] => rfl
        | [f, s] =>
          have hm : (((movePoint al t f).1 + (movePoint al t s).1) / 2, ((movePoint al t f).2 + (movePoint al t s).2) / 2) =
              movePoint al t ((f.1 + s.1) / 2, (f.2 + s.2) / 2) := by
            simp only [movePoint, Prod.mk.injEq]; constructor <;> ring
          have hp : (-((movePoint al t s).2 - (movePoint al t f).2), (movePoint al t s).1 - (movePoint al t f).1) =
              (turned al t).turn (-(s.2 - f.2), s.1 - f.1) := by
            simp only [movePoint, turned, Congr.turn, Prod.mk.injEq]; constructor <;> ring
          have hr : (((movePoint al t f).1 + (movePoint al t s).1) / 2 - (movePoint al t (G.centroid a)).1,
              ((movePoint al t f).2 + (movePoint al t s).2) / 2 - (movePoint al t (G.centroid a)).2) =
              (turned al t).turn ((f.1 + s.1) / 2 - (G.centroid a).1, (f.2 + s.2) / 2 - (G.centroid a).2) := by
            simp only [movePoint, turned, Congr.turn, Prod.mk.injEq]; constructor <;> ring
          simp only [Except.map, List.map_cons, List.map_nil, hm, hp, hr, h.centroid, normalize_turned, orient_turned,
            Prod.map]
        | _ :: _ :: _ :: _ => rfl

theorem geometryOf_seen {G G' : ShapeOps} (h : SeenShapes al t G G') (a b : G.S) :
    geometryOf G' (h.fs a) (h.fs b) = (geometryOf G a b).map (Prod.map (turned al t).turn (turned al t).app) := by
  have e : (turned al t).app = movePoint al t := funext (app_turned al t)
  unfold geometryOf
  rw [geometry_seen h, e]
  rcases impactGeometry G a b with e | ⟨_ | n, p⟩ <;> rfl

/-- Specification: shapes and lanes seen from another frame. -/
structure SeenSurroundings (al : ℝ) (t : ℝ × ℝ) (E E' : Surroundings N) where
  shapes : SeenShapes al t E.G E'.G
  /-- outlines are in the frame of the model and stay as they are -/
  own : E.G.S → E'.G.S
  fl : E.L → E'.L
  fn : E.Lane → E'.Lane
  place : ∀ s q, E'.place (own s) (poseSeen al t q) = shapes.fs (E.place s q)
  sides : ∀ s, E'.sides (shapes.fs s) = (E.sides s).map (Prod.map fl shapes.fs)
  intersects : ∀ s s', E'.intersects (shapes.fs s) (shapes.fs s') = E.intersects s s'
  lanesAt : ∀ p, E'.lanesAt (movePoint al t p) = (E.lanesAt p).map fn
  lanePose : ∀ l q, E'.lanePose (fn l) (poseSeen al t q) = E.lanePose l q
  toPolygon : ∀ s, E'.toPolygon (shapes.fs s) = (E.toPolygon s).map shapes.fs
  everywhere : E'.everywhere = fl E.everywhere
  envPlayer : E'.envPlayer = E.envPlayer

variable {E E' : Surroundings N}

/-- Specification: a body seen from another frame. -/
noncomputable def SeenSurroundings.body (h : SeenSurroundings al t E E') (m : Body A E.G.S) : Body A E'.G.S :=
  ⟨m.machine.seen al t, h.own m.outline, m.geom, m.collided⟩

/-- The fleet in another frame meets what C151 asks for. -/
noncomputable def SeenSurroundings.moved (h : SeenSurroundings al t E E') (hr : A.rocket = false) :
    Moved (turned al t) (fleet E A) (fleet E' A) where
  fm := h.body
  fs := h.shapes.fs
  fl := h.fl
  fq := poseSeen al t
  fn := h.fn
  footprint m := by
    change E'.place (h.own m.outline) (m.machine.seen al t).pose = _
    rw [pose_seen, h.place]
  pose m := pose_seen al t m.machine
  translation q := (app_turned al t q.1).symm
  velocity m := velocity_seen al t hr m.machine
  setVelocity m v w := by
    change Body.mk ((m.machine.seen al t).setVelocity ((turned al t).turn v) ((turned al t).flip * w)) _ _ _ = _
    rw [setVelocity_seen al t hr]
    rfl
  geom _ := rfl
  hasCollided _ := rfl
  mark _ := rfl
  mesh m := by
    change (if (m.machine.seen al t).sided = true then E'.sides (E'.place (h.own m.outline) (m.machine.seen al t).pose)
      else [(E'.everywhere, E'.place (h.own m.outline) (m.machine.seen al t).pose)]) =
      (if m.machine.sided = true then E.sides (E.place m.outline m.machine.pose)
        else [(E.everywhere, E.place m.outline m.machine.pose)]).map (Prod.map h.fl h.shapes.fs)
    rw [sided_seen, pose_seen, h.place, h.sides, h.everywhere]
    cases m.machine.sided <;> rfl
  intersects := h.intersects
  impactGeometry := geometryOf_seen h.shapes
  lanesAt p := by rw [app_turned]; exact h.lanesAt p
  lanePose := h.lanePose
  toPolygon := h.toPolygon
  everywhere := h.everywhere
  envPlayer := h.envPlayer

/-- Specification: agents, sensors, goals and obstacles in another frame; commands are in the frame of the model and stay as
they are; no obstacle can be turned. -/
structure SeenCrew (h : SeenSurroundings al t E E') (R : Crew N E.G.S) (R' : Crew N E'.G.S) where
  fa : R.A → R'.A
  fv : R.V → R'.V
  fi : R.I → R'.I
  fe : R.E → R'.E
  fg : R.G → R'.G
  onInit : ∀ a n, R'.onInit (fa a) n = (R.onInit a n).map fa
  sense : ∀ v n o, R'.sense (fv v) n (o.conv (AnyState.seen al t) h.shapes.fs) =
    (R.sense v n o).map (Prod.map fv (Obs.conv (AnyState.seen al t) h.shapes.fs))
  ask : ∀ a o, R'.ask (fa a) (o.conv (AnyState.seen al t) h.shapes.fs) = (R.ask a o).map (Prod.map fa (Prod.map id fi))
  extra : ∀ a, R'.extra (fa a) = (R.extra a).map (Prod.map fa (Option.map fe))
  fulfilled : ∀ v n g x s, R'.fulfilled (fv v) n (fg g) (x.seen al t) s = (R.fulfilled v n g x s).map (Prod.map fv id)
  envQuery : ∀ v s, R'.envQuery (fv v) (h.shapes.fs s) = (R.envQuery v s).map (Prod.map h.shapes.fs id)
  heavy : ∀ v s, ∀ o ∈ R.envQuery v s, o.2.Iz = none

/-- Specification: the solver divides the time step alike. -/
def PaceSame (h : SeenSurroundings al t E E') (pace : Pace A E.G.S) (pace' : Pace A E'.G.S) : Prop :=
  ∀ m c dt, pace' (h.body m) c dt = pace m c dt

variable {R : Crew N E.G.S} {R' : Crew N E'.G.S} {pace : Pace A E.G.S} {pace' : Pace A E'.G.S}

/-- The parts of the simulation in another frame. -/
noncomputable def SeenCrew.moved {h : SeenSurroundings al t E E'} (r : SeenCrew h R R') (hr : A.rocket = false)
    (hs : PaceSame h pace pace') (tab : Tableau ℝ) :
    MovedParts (h.moved hr) (parts E A tab pace R) (parts E' A tab pace' R') where
  fa := r.fa
  fv := r.fv
  fx := AnyState.seen al t
  fc := id
  fi := r.fi
  fe := r.fe
  fg := r.fg
  getState m := state_seen al t m.machine
  isDyn m := isObstacle_seen al t m.machine
  onInit := r.onInit
  sense := r.sense
  ask := r.ask
  extra := r.extra
  update v n m c dt := by
    have h2 := update_seen al t tab m.collided (pace m c dt) m.machine c
    rw [← hs m c dt] at h2
    change Except.map _ ((m.machine.seen al t).update tab m.collided (pace' (h.body m) c dt) c) =
      Except.map _ (Except.map _ (m.machine.update tab m.collided (pace m c dt) c))
    rw [h2, hs m c dt]
    cases m.machine.update tab m.collided (pace m c dt) c <;> rfl
  fulfilled := r.fulfilled
  envQuery := r.envQuery
  heavy := r.heavy

variable [DecidableEq N]

/-- **C160.** A simulation of any models of the library except rockets, seen from a world frame that is turned and shifted:
the same run, ending or raising at the same step, with all states, footprints, velocities, impact points and normals as seen
from there and the same commands and times. -/
theorem C160_frames_partial (h : SeenSurroundings al t E E') (r : SeenCrew h R R') (hr : A.rocket = false)
    (hs : PaceSame h pace pace') (tab : Tableau ℝ) (scenario : Bool)
    (cfg : Cfg (world (fleet E A) scenario (parts E A tab pace R))) (fuel : Nat)
    (s : St (world (fleet E A) scenario (parts E A tab pace R)))
    (log : Dict N (PlayerLog (world (fleet E A) scenario (parts E A tab pace R)))) :
    run (cfg.conv ((r.moved hr hs tab).hom scenario)) fuel (s.conv ((r.moved hr hs tab).hom scenario))
        (mapD (PlayerLog.conv ((r.moved hr hs tab).hom scenario)) log) =
      (run cfg fuel s log).map (Except.map (Prod.map (St.conv ((r.moved hr hs tab).hom scenario))
        (mapD (PlayerLog.conv ((r.moved hr hs tab).hom scenario))))) :=
  C151_run (r.moved hr hs tab) scenario cfg fuel s log

/-- **C160.** In particular: the run ends at the same time with the same players, the collisions are those of the same players
at the same times, and the logs hold at the same times the states as seen from there and the same commands. -/
theorem C160_log_frames_partial (h : SeenSurroundings al t E E') (r : SeenCrew h R R') (hr : A.rocket = false)
    (hs : PaceSame h pace pace') (tab : Tableau ℝ) (scenario : Bool)
    (cfg : Cfg (world (fleet E A) scenario (parts E A tab pace R))) (fuel : Nat)
    (s s1 : St (world (fleet E A) scenario (parts E A tab pace R)))
    (l1 : Dict N (PlayerLog (world (fleet E A) scenario (parts E A tab pace R))))
    (he : run cfg fuel s [] = some (.ok (s1, l1))) :
    ∃ s2 l2, run (cfg.conv ((r.moved hr hs tab).hom scenario)) fuel (s.conv ((r.moved hr hs tab).hom scenario)) [] =
        some (.ok (s2, l2)) ∧
      s2.time = s1.time ∧ s2.players = s1.players ∧
      s2.reports.map (fun r => (r.players, r.atTime)) = s1.reports.map (fun r => (r.players, r.atTime)) ∧
      ∀ n, (Dict.get? l2 n).map (fun l => (l.states.ts, l.states.vs, l.commands.ts, l.commands.vs)) =
        (Dict.get? l1 n).map (fun l => (l.states.ts, l.states.vs.map (AnyState.seen al t), l.commands.ts, l.commands.vs)) := by
  obtain ⟨s2, l2, h1, h2, h3, h4, h5⟩ := C151_log (r.moved hr hs tab) scenario cfg fuel s s1 l1 he
  refine ⟨s2, l2, h1, h2, h3, ?_, fun n => ?_⟩
  · have := congrArg (List.map (fun z => (z.1, z.2.1))) h4
    simp only [List.map_map, Function.comp_def] at this
    exact this
  · rw [h5 n]
    congr 1
    funext l
    simp [SeenCrew.moved]

end Frames

/-! ## An example -/

namespace Parked

/-- Shapes that are points and never touch. -/
noncomputable abbrev dots : Surroundings Nat where
  G := { S := ℝ × ℝ, intersection := fun _ _ => .other, touches := fun _ _ => false, contains := fun _ _ => false,
         centroid := id, inside := fun _ _ => false }
  L := Unit
  Lane := Unit
  place _ q := q.1
  sides s := [((), s)]
  intersects _ _ := false
  lanesAt _ := []
  lanePose _ _ := (true, true)
  toPolygon s := .ok s
  everywhere := ()
  envPlayer := 99

noncomputable def scaled (Q : Phys.Units.System) : ScaledSurroundings Q dots dots where
  shapes := { fs := (Whole.Units.rest Q).point, touches := fun _ _ => rfl, contains := fun _ _ => rfl, centroid := fun _ => rfl,
              inside := fun _ _ => rfl, intersection := fun _ _ => rfl }
  fl := id
  fn := id
  place _ _ := rfl
  sides _ := rfl
  intersects _ _ := rfl
  lanesAt _ := rfl
  lanePose _ _ := rfl
  toPolygon _ := rfl
  everywhere := rfl
  envPlayer := rfl

noncomputable def seen (al : ℝ) (t : ℝ × ℝ) : SeenSurroundings al t dots dots where
  shapes := { fs := movePoint al t, touches := fun _ _ => rfl, contains := fun _ _ => rfl, centroid := fun _ => rfl,
              inside := fun _ _ => rfl, intersection := fun _ _ => rfl }
  own := id
  fl := id
  fn := id
  place _ _ := rfl
  sides _ := rfl
  intersects _ _ := rfl
  lanesAt _ := rfl
  lanePose _ _ := rfl
  toPolygon _ := rfl
  everywhere := rfl
  envPlayer := rfl

/-- Agents with constant commands, goals that are never reached. -/
abbrev crew : Crew Nat (ℝ × ℝ) where
  A := AnyCmd
  V := Unit
  I := Unit
  E := Unit
  G := Unit
  onInit a _ := .ok a
  sense v _ o := .ok (v, o)
  ask a _ := .ok (a, a, ())
  extra a := .ok (a, none)
  fulfilled v _ _ _ _ := .ok (v, false)
  envQuery _ _ := []

noncomputable def scaledCrew (Q : Phys.Units.System) : ScaledCrew (scaled Q) crew crew where
  fa := AnyCmd.inUnits Q
  fv := id
  fi := id
  fe := id
  fg := id
  onInit _ _ := rfl
  sense _ _ _ := rfl
  ask _ _ := rfl
  extra _ := rfl
  fulfilled _ _ _ _ _ := rfl
  envQuery _ _ := rfl
  heavy _ _ _ h := by cases h

noncomputable def seenCrew (al : ℝ) (t : ℝ × ℝ) : SeenCrew (seen al t) crew crew where
  fa := id
  fv := id
  fi := id
  fe := id
  fg := id
  onInit _ _ := rfl
  sense _ _ _ := rfl
  ask _ _ := rfl
  extra _ := rfl
  fulfilled _ _ _ _ _ := rfl
  envQuery _ _ := rfl
  heavy _ _ _ h := by cases h

/-- Only the models that are always allowed. -/
def some6 : Allowed := ⟨false, false, false⟩

/-- The solver takes the time step at once. -/
def atOnce : Pace some6 (ℝ × ℝ) := fun _ _ dt => [dt]

noncomputable abbrev wd : World Nat ℝ := world (fleet dots some6) true (parts dots some6 dormandPrince atOnce crew)

noncomputable def limits : VehicleParams ℝ :=
  { vxMin := -1, vxMax := 10, accMin := -2, accMax := 2, deltaMax := 1, ddeltaMax := 1 }

/-- A parked car and a parked differential drive. -/
noncomputable def start : St wd where
  models := [(0, ⟨.car 3 1 limits true ⟨1, 2, 0, 0, 0⟩, (0, 0), ⟨some 2, some 3, 1 / 2⟩, false⟩),
    (1, ⟨.drive 1 1 (-1) 1 ⟨5, 6, 0⟩, (0, 0), ⟨some 2, some 3, 1 / 2⟩, false⟩)]
  players := [0, 1]
  w := (fun n => if n = 0 then .car { acc := 0, ddelta := 0 } else .drive ⟨0, 0⟩, ())
  time := 0
  terminated := false
  reports := []
  firstColl := none
  lastObs := ⟨[], 0⟩
  lastCmdTs := none
  lastCmds := []
  logger := []
  trace := []

noncomputable def cfg : Cfg wd := { dt := 3, dtCommands := 3, maxSimTime := 2, afterCollision := 4, missions := [] }

theorem parked : ∃ s1 l1, run cfg 5 start [] = some (.ok (s1, l1)) ∧ s1.players = [0, 1] ∧ s1.time = 3 := by
  have h23 : (2 : ℝ) < 3 := by norm_num
  have h1 : (Machine.car 3 1 limits true ⟨1, 2, 0, 0, 0⟩ : Machine some6).update dormandPrince false [3] (.car { acc := 0, ddelta := 0 }) =
      .ok (.car 3 1 limits true ⟨1, 2, 0, 0, 0⟩) := by
    have := C149_stand 3 1 limits (by norm_num [limits]) (by norm_num [limits]) true dormandPrince
      ⟨{ acc := 0, ddelta := 0 }, false, [3]⟩ ⟨1, 2, 0, 0, 0⟩ rfl (Or.inl ⟨rfl, rfl⟩)
    simp only [Machine.update, this, Except.map]
  have h2 : (Machine.drive 1 1 (-1) 1 ⟨5, 6, 0⟩ : Machine some6).update dormandPrince false [3] (.drive ⟨0, 0⟩) =
      .ok (.drive 1 1 (-1) 1 ⟨5, 6, 0⟩) := by
    have := C149_stand_diffDrive 1 1 (-1) 1 (by norm_num) dormandPrince ⟨⟨0, 0⟩, false, [3]⟩ ⟨5, 6, 0⟩ (Or.inl ⟨rfl, rfl⟩)
    simp only [Machine.update, this, Except.map]
  simp [run, initLoop, start, cfg, loop, step, preUpdate, need, observe, lookup, Dict.get?, liftU, Sim.update,
    updateLoop, updatePlayer, addLog, Builder.add, maybeAsk, askPlayer, addExtra, Dict.set, postUpdate,
    removeLoop, terminationCondition, collTimer, writeLog, Dict.keys, PlayerLogger.asSequence,
    Builder.asSequence, Seq.mk?, Seq.increasing, bind, Except.bind, pure, Except.pure, h23, atOnce, h1, h2, Except.map]

-- the parked car and the parked differential drive in other units
example (Q : Phys.Units.System) (hs : PaceScales (scaled Q) atOnce atOnce) :
    ∃ s2 l2, run ((((scaledCrew Q).scaled rfl rfl hs dormandPrince).conv true).cfg cfg) 5
        ((((scaledCrew Q).scaled rfl rfl hs dormandPrince).conv true).st start) [] = some (.ok (s2, l2)) ∧
      s2.time = Q.time * 3 ∧ s2.players = [0, 1] := by
  obtain ⟨s1, l1, h1, h2, h3⟩ := parked
  obtain ⟨s2, l2, h4, h5, h6, -⟩ :=
    C160_log_units_partial (scaled Q) (scaledCrew Q) rfl rfl hs dormandPrince true cfg 5 start s1 l1 h1
  exact ⟨s2, l2, h4, by rw [h5, h3], by rw [h6, h2]⟩

example (Q : Phys.Units.System) : PaceScales (scaled Q) atOnce atOnce := fun _ _ _ => rfl

-- and from another frame
example (al : ℝ) (t : ℝ × ℝ) (hs : PaceSame (seen al t) atOnce atOnce) :
    ∃ s2 l2, run (cfg.conv (((seenCrew al t).moved rfl hs dormandPrince).hom true)) 5
        (start.conv (((seenCrew al t).moved rfl hs dormandPrince).hom true)) [] = some (.ok (s2, l2)) ∧
      s2.time = 3 ∧ s2.players = [0, 1] := by
  obtain ⟨s1, l1, h1, h2, h3⟩ := parked
  obtain ⟨s2, l2, h4, h5, h6, -⟩ :=
    C160_log_frames_partial (seen al t) (seenCrew al t) rfl hs dormandPrince true cfg 5 start s1 l1 h1
  exact ⟨s2, l2, h4, by rw [h5, h3], by rw [h6, h2]⟩

example (al : ℝ) (t : ℝ × ℝ) : PaceSame (seen al t) atOnce atOnce := fun _ _ _ => rfl

end Parked

end Fleet
end Whole
end Verif
