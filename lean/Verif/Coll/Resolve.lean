import Verif.Dict
import Verif.Coll.Impulse

/-!
# Collision resolution and reports (src/dg_commons/sim/collision.py, collision_structures.py)

Models are abstract objects accessed through the methods of `SimModel`; shapes are abstract too.
Changing an object is returning the changed object, also when an exception is raised.
-/

namespace Verif
namespace Coll

/-- The methods of `SimModel` (simulator_structures.py:148-219) and the shapely, commonroad and
lane functions that the collision code calls. -/
structure Iface (N K : Type) where
  /-- models -/
  M : Type
  /-- shapes -/
  S : Type
  /-- impact locations -/
  L : Type
  /-- poses -/
  Q : Type
  /-- lanes -/
  Lane : Type
  footprint : M → S
  pose : M → Q
  /-- `translation_angle_from_SE2(pose)[0]` -/
  translation : Q → K × K
  /-- `get_velocity(in_model_frame=False)` -/
  velocity : M → (K × K) × K
  /-- `set_velocity(v, omega, in_model_frame=False)` -/
  setVelocity : M → K × K → K → M
  geom : M → Geom K
  hasCollided : M → Bool
  /-- `has_collided = True` -/
  mark : M → M
  mesh : M → List (L × S)
  intersects : S → S → Bool
  /-- `compute_impact_geometry`: normal and impact point -/
  impactGeometry : S → S → Except Err ((K × K) × (K × K))
  /-- the lanes of the scenario at a point, collision_utils.py:192-195 -/
  lanesAt : K × K → List Lane
  /-- `lane_pose_from_SE2_generic`, reduced to `correct_direction` and `inside` -/
  lanePose : Lane → Q → Bool × Bool
  /-- `not isinstance(b_shape, Polygon)`, then `Polygon(b_shape)`, collision.py:188-189 -/
  toPolygon : S → Except Err S
  /-- `IMPACT_EVERYWHERE` -/
  everywhere : L
  /-- `EnvPlayer`, collision.py:129 -/
  envPlayer : N

/-- `CollisionReportPlayer`, collision_structures.py:30-43. -/
structure ReportPlayer (K L S : Type) where
  locations : List (L × S)
  atFault : Bool
  footprint : S
  velocity : (K × K) × K
  velocityAfter : (K × K) × K
  energyDelta : K
  deriving DecidableEq

/-- `CollisionReport`, collision_structures.py:46-59. -/
structure CollisionReport (N K L S : Type) where
  players : Dict N (Option (ReportPlayer K L S))
  point : Option (K × K)
  normal : Option (K × K)
  atTime : K
  deriving DecidableEq

variable {N K : Type} [DecidableEq N] [Field K] [LinearOrder K]

/-- `CollisionReport.get_empty`, collision_structures.py:57-59. -/
def CollisionReport.empty {L S : Type} (players : Dict N (Option (ReportPlayer K L S))) (t : K) :
    CollisionReport N K L S := ⟨players, none, none, t⟩

/-- `impact_locations_from_polygons`, collision.py:25-37. -/
def impactLocations (F : Iface N K) (m : F.M) (shape : F.S) : Except Err (List (F.L × F.S)) :=
  let locs := (F.mesh m).filter (fun l => F.intersects shape l.2)
  if locs.isEmpty then .error .collision else .ok locs

/-- `_is_illegal_lanepose`, collision_utils.py:213-215; the pair is (correct_direction, inside). -/
def illegalPose (p : Bool × Bool) : Bool := !p.1 || !p.2

/-- The loop of `check_who_is_at_fault`, collision_utils.py:197-201. -/
def faultLoop (F : Iface N K) (lanes : List F.Lane) : Dict N F.Q → Dict N Bool → Dict N Bool
  | [], acc => acc
  | (p, q) :: rest, acc =>
    let illegal := lanes.map (fun l => illegalPose (F.lanePose l q))
    faultLoop F lanes rest (if illegal.all id then Dict.set acc p true else acc)

/-- `check_who_is_at_fault`, collision_utils.py:178-210. -/
def atFault (F : Iface N K) (poses : Dict N F.Q) (point : K × K) : Dict N Bool :=
  faultLoop F (F.lanesAt point) poses (poses.map (fun p => (p.1, false)))

/-- Point minus centre, collision.py:55-56. -/
def armTo (point cog : K × K) : K × K := (point.1 - cog.1, point.2 - cog.2)

/-- The two dictionary lookups of collision.py:82; missing keys are impossible there. -/
def faultOf (d : Dict N Bool) (n : N) : Bool := (Dict.get? d n).getD false

/-- `resolve_collision`, collision.py:40-126, for models `ma`, `mb` of the players `a`, `b` at time
`t`; `scenario` tells whether the context has a scenario. -/
def resolve (F : Iface N K) (scenario : Bool) (t : K) (a : N) (ma : F.M) (b : N) (mb : F.M) :
    (F.M × F.M) × Except Err (Option (CollisionReport N K F.L F.S)) :=
  let aShape := F.footprint ma
  let bShape := F.footprint mb
  match F.impactGeometry aShape bShape with
  | .error e => ((ma, mb), .error e)
  | .ok (n, p) =>
    let rA := armTo p (F.translation (F.pose ma))
    let rB := armTo p (F.translation (F.pose mb))
    let va := F.velocity ma
    let vb := F.velocity mb
    let vaP := velocityOfP va.1 va.2 rA
    let vbP := velocityOfP vb.1 vb.2 rB
    let rel := (vaP.1 - vbP.1, vaP.2 - vbP.2)
    if dot rel n < 0 then ((ma, mb), .ok none)
    else
      let ma1 := F.mark ma
      let mb1 := F.mark mb
      match impactLocations F ma1 bShape with
      | .error e => ((ma1, mb1), .error e)
      | .ok aLocs =>
        match impactLocations F mb1 aShape with
        | .error e => ((ma1, mb1), .error e)
        | .ok bLocs =>
          let faults : Bool × Bool :=
            if scenario then
              let d := atFault F (Dict.set (Dict.set [] a (F.pose ma1)) b (F.pose mb1)) p
              (faultOf d a, faultOf d b)
            else (false, false)
          let ga := F.geom ma1
          let gb := F.geom mb1
          let j := impulse n rel rA rB ga gb
          let va' := velocityAfter n va.1 ga.m j
          let vb' := velocityAfter (-n.1, -n.2) vb.1 gb.m j
          let wa' := omegaAfter rA n va.2 ga.Iz j
          let wb' := omegaAfter rB (-n.1, -n.2) vb.2 gb.Iz j
          let ma2 := F.setVelocity ma1 va' wa'
          let mb2 := F.setVelocity mb1 vb' wb'
          let ra : ReportPlayer K F.L F.S := ⟨aLocs, faults.1, aShape, va, (va', wa'),
            kineticEnergy va' ga.m - kineticEnergy va.1 ga.m⟩
          let rb : ReportPlayer K F.L F.S := ⟨bLocs, faults.2, bShape, vb, (vb', wb'),
            kineticEnergy vb' gb.m - kineticEnergy vb.1 gb.m⟩
          ((ma2, mb2), .ok (some
            ⟨Dict.set (Dict.set [] a (some ra)) b (some rb), some p, some n, t⟩))

/-- `resolve_collision_with_environment`, collision.py:133-210, for an obstacle with shape `bShape`
and geometry `gb`. -/
def resolveEnv (F : Iface N K) (t : K) (a : N) (ma : F.M) (bShape : F.S) (gb : Geom K) :
    F.M × Except Err (Option (CollisionReport N K F.L F.S)) :=
  let aShape := F.footprint ma
  match F.impactGeometry aShape bShape with
  | .error e => (ma, .error e)
  | .ok (n, p) =>
    let rA := armTo p (F.translation (F.pose ma))
    let va := F.velocity ma
    let rel := velocityOfP va.1 va.2 rA
    if dot rel n < 0 then (ma, .ok none)
    else
      let ma1 := F.mark ma
      match impactLocations F ma1 bShape with
      | .error e => (ma1, .error e)
      | .ok aLocs =>
        let ga := F.geom ma1
        let j := impulse n rel rA (1, 1) ga gb
        let va' := velocityAfter n va.1 ga.m j
        let wa' := omegaAfter rA n va.2 ga.Iz j
        let ma2 := F.setVelocity ma1 va' wa'
        let ra : ReportPlayer K F.L F.S := ⟨aLocs, true, aShape, va, (va', wa'),
          kineticEnergy va' ga.m - kineticEnergy va.1 ga.m⟩
        match F.toPolygon bShape with
        | .error e => (ma2, .error e)
        | .ok poly =>
          let env : ReportPlayer K F.L F.S :=
            ⟨[(F.everywhere, poly)], false, poly, ((0, 0), 0), ((0, 0), 0), 0⟩
          (ma2, .ok (some
            ⟨Dict.set (Dict.set [] a (some ra)) F.envPlayer (some env), some p, some n, t⟩))

section Reports
variable {L S : Type}

/-- `r1.players.keys() != r2.players.keys()`, collision_structures.py:67: dictionary key views are
compared as sets. -/
def sameKeys {α β : Type} (d1 : Dict N α) (d2 : Dict N β) : Bool :=
  (Dict.keys d1).all (fun k => decide (k ∈ Dict.keys d2)) &&
    (Dict.keys d2).all (fun k => decide (k ∈ Dict.keys d1))

/-- The body of the loop of `combine_collision_reports`, collision_structures.py:77-83. -/
def combinePlayer (r1 r2 : ReportPlayer K L S) : ReportPlayer K L S :=
  { r1 with
    locations := r1.locations ++ r2.locations
    velocityAfter := r2.velocityAfter
    energyDelta := r1.energyDelta + r2.energyDelta }

/-- The loop, collision_structures.py:75-83; `None` has no attribute `locations`. -/
def combineLoop (second : Dict N (Option (ReportPlayer K L S))) :
    Dict N (Option (ReportPlayer K L S)) → Except Err (Dict N (Option (ReportPlayer K L S)))
  | [] => .ok []
  | (p, r1) :: rest =>
    match Dict.get? second p with
    | none => .error .key
    | some r2 =>
      match r1, r2 with
      | some r1, some r2 =>
        match combineLoop second rest with
        | .error e => .error e
        | .ok d => .ok ((p, some (combinePlayer r1 r2)) :: d)
      | _, _ => .error .attribute

/-- `combine_collision_reports`, collision_structures.py:62-84. -/
def combine (r1 r2 : CollisionReport N K L S) : Except Err (CollisionReport N K L S) :=
  if sameKeys r1.players r2.players then
    let fs := if r1.atTime ≤ r2.atTime then (r1, r2) else (r2, r1)
    match combineLoop fs.2.players fs.1.players with
    | .error e => .error e
    | .ok d => .ok { fs.1 with players := d }
  else .error .zValue

/-- `who_collided`, sim/utils.py:16-18: the elements of the frozen set, in order of first insertion
(with repetitions). -/
def whoCollided (reports : List (CollisionReport N K L S)) : List N :=
  reports.flatMap (fun r => Dict.keys r.players)

/-- `has_collision`, eval/safety.py:20-27, the name `Ego` being `ego`: a set of players is
accumulated and searched. -/
def hasCollision (ego : N) (reports : List (CollisionReport N K L S)) : Bool :=
  decide (ego ∈ reports.foldl (fun acc r => acc ++ Dict.keys r.players) [])

end Reports

end Coll
end Verif
