import Verif.Coll.Mesh
import Verif.Phys.Update
import Verif.Dict
import Mathlib.Algebra.Order.Floor.Ring
import Mathlib.Analysis.SpecialFunctions.Trigonometric.Basic

/-!
# Drawing and animation (sim/simulator_visualisation.py, sim/simulator_animation.py)

Only what is drawn where, when, and which part of the plane is shown; nothing of matplotlib.
-/

namespace Verif
namespace Viz

open Maps Coll

/-! ## Outlines -/

/-- `affinity.scale(polygon, fx, fy)` for a polygon whose bounding box is centred at the origin. -/
def scaleRing (fx fy : ℝ) (ring : List (ℝ × ℝ)) : List (ℝ × ℝ) :=
  ring.map fun (p : ℝ × ℝ) => (fx * p.1, fy * p.2)

/-- `PedestrianGeometry.outline`, pedestrian.py:25-28. -/
noncomputable def pedestrianRing : List (ℝ × ℝ) := scaleRing 1 (3 / 2) (circleRing (1 / 2))

/-- The body in spaceship_structures.py:86-94 and, with `lb = l_f + l_m`, in rocket_structures.py:91-99. -/
def hullRing (lr lb w : ℝ) : List (ℝ × ℝ) := [(-lr, w), (lb, w), (lb, -w), (-lr, -w), (-lr, w)]

/-- The nose cone in spaceship_structures.py:95-102 and rocket_structures.py:100-107. -/
def coneRing (lb lc w : ℝ) : List (ℝ × ℝ) := [(lb, w), (lb + lc, 0), (lb, -w), (lb, w)]

/-- The set of points of `unary_union([body, header])`, spaceship_structures.py:103 and
rocket_structures.py:108. -/
def shipRegion (lr lb lc w : ℝ) : Set (ℝ × ℝ) := region (hullRing lr lb w) ∪ region (coneRing lb lc w)

/-- The rectangle in spacecraft_structures.py:68-76. -/
noncomputable def craftRect (lr w : ℝ) : List (ℝ × ℝ) :=
  [(-lr, w), (-lr, -w), (1 / 1000, -w), (1 / 1000, w), (-lr, w)]

/-- The set of points of `unary_union([ellipse, rect])`, spacecraft_structures.py:66-77. -/
noncomputable def craftRegion (lf lr w : ℝ) : Set (ℝ × ℝ) :=
  region (scaleRing (lf / w) 1 (circleRing w)) ∪ region (craftRect lr w)

/-- `SpacecraftGeometry.__post_init__`, spacecraft_structures.py:33-34. -/
noncomputable def craftInit (lf lr : ℝ) : Except Err Unit :=
  open Classical in if lf < lr then .ok () else .error .assertion

/-! ## Players -/

/-- `SE2_from_xytheta((state.x, state.y, state.psi))`, also `get_pose` of all models. -/
noncomputable def poseOf (x y psi : ℝ) : Mat3 ℝ := rigid (Real.cos psi) (Real.sin psi) x y

/-- The body of a player and the position of its name as drawn by `plot_vehicle`, `plot_pedestrian`,
`plot_spacecraft`, `plot_rocket`, `plot_spaceship` and `plot_diffdrive`
(simulator_visualisation.py:295-319, 368-385, 397-419, 438-462, 497-518, 599-621). -/
noncomputable def drawBody (outline : List (ℝ × ℝ)) (x y psi : ℝ) : Except Err (List (ℝ × ℝ) × (ℝ × ℝ)) := do
  let q := poseOf x y psi
  let at0 ← transformXY q [(0, 0)]
  let ring ← transformXY q outline
  match at0 with
  | [p] => .ok (ring, p)
  | _ => .error .index

/-- The body of a moving obstacle, simulator_visualisation.py:204-206. -/
noncomputable def drawObstacle (exterior : List (ℝ × ℝ)) (x y psi : ℝ) : List (ℝ × ℝ) :=
  let q := poseOf x y psi
  exterior.map (affine q.a00 q.a01 q.a10 q.a11 q.a02 q.a12)

/-! ## Engines -/

/-- What the drawing of engines uses of a geometry (rocket_structures.py:26-48,
spaceship_structures.py:23-42). -/
structure EngineGeo where
  /-- half length and half width of a nozzle, `l_t_half`, `w_t_half` -/
  lt : ℝ
  wt : ℝ
  /-- `F_max` -/
  fMax : ℝ
  /-- `w_half` -/
  w : ℝ
  /-- `l_m` (rocket) or `l_r` (spaceship) -/
  arm : ℝ

/-- `thruster_outline`, rocket_structures.py:120-133 and spaceship_structures.py:114-127. -/
def thrusterOutline (g : EngineGeo) : List (ℝ × ℝ) :=
  [(0, -g.wt), (0, g.wt), (g.lt, g.wt), (g.lt, -g.wt), (0, -g.wt)]

/-- `flame_outline`, rocket_structures.py:148-160 and spaceship_structures.py:141-153. -/
noncomputable def flameOutline (g : EngineGeo) (f : ℝ) : Except Err (List (ℝ × ℝ)) :=
  open Classical in if g.fMax = 0 then .error .zeroDiv
  else .ok [(g.lt, -g.wt), (f / g.fMax / 2 + g.lt, 0), (g.lt, g.wt), (g.lt, -g.wt)]

/-- `thrusters_position` and `flame_position` of the rocket, rocket_structures.py:135-141, 162-168. -/
noncomputable def rocketMounts (g : EngineGeo) (phi : ℝ) : List (Mat3 ℝ) :=
  [poseOf g.arm (-g.w / 10) (phi + Real.pi / 2), poseOf g.arm (g.w / 10) (-phi - Real.pi / 2)]

/-- The same of the spaceship, spaceship_structures.py:129-134, 155-160. -/
noncomputable def shipMounts (g : EngineGeo) (delta : ℝ) : List (Mat3 ℝ) :=
  [poseOf (-g.arm) 0 (delta + Real.pi)]

/-- `transform_xy(q, transform_xy(mount, outline))`. -/
noncomputable def drawAt (q mount : Mat3 ℝ) (outline : List (ℝ × ℝ)) : Except Err (List (ℝ × ℝ)) := do
  let b ← transformXY mount outline
  transformXY q b

/-- The flames of a rocket as drawn by `plot_rocket`, simulator_visualisation.py:470-483; `mv` is
`rp.m_v`. Without fuel the polygons have the single point `(0, 0)`. -/
noncomputable def rocketFlames (g : EngineGeo) (mv : ℝ) (s : RocketState ℝ) (u : RocketCommands ℝ) :
    Except Err (List (List (ℝ × ℝ))) :=
  open Classical in
  if mv < s.m then do
    let l ← flameOutline g u.F_left
    let r ← flameOutline g u.F_right
    ((rocketMounts g s.phi).zip [l, r]).mapM fun (mo : Mat3 ℝ × List (ℝ × ℝ)) =>
      drawAt (poseOf s.x s.y s.psi) mo.1 mo.2
  else .ok [[(0, 0)], [(0, 0)]]

/-- The flame of a spaceship as drawn by `plot_spaceship`, simulator_visualisation.py:522-527. -/
noncomputable def shipFlames (g : EngineGeo) (mv : ℝ) (s : SpaceshipState ℝ) (u : SpaceshipCommands ℝ) :
    Except Err (List (List (ℝ × ℝ))) :=
  open Classical in
  if mv < s.m then do
    let o ← flameOutline g u.thrust
    (shipMounts g s.delta).mapM fun (mo : Mat3 ℝ) => drawAt (poseOf s.x s.y s.psi) mo o
  else .ok [[(0, 0)]]

/-! ## The part of the plane that is shown -/

/-- `minmax[i]` of `approximate_bounding_box_players`; `none` stands for `inf` on the left and `-inf` on the
right. -/
abbrev MinMax := Option ℝ × Option ℝ

/-- The body of the inner loop, simulator_visualisation.py:639-642. -/
noncomputable def MinMax.add (m : MinMax) (v : ℝ) : MinMax :=
  open Classical in
  (match m.1 with
    | none => some v
    | some a => if v < a then some v else some a,
   match m.2 with
    | none => some v
    | some b => if b < v then some v else some b)

/-- The assertion and the margin, simulator_visualisation.py:645-647. -/
noncomputable def MinMax.widen (m : MinMax) : Except Err (ℝ × ℝ) :=
  match m with
  | (some a, some b) => open Classical in if a ≤ b then .ok (a - 10, b + 10) else .error .assertion
  | _ => .error .assertion

/-- `approximate_bounding_box_players`, simulator_visualisation.py:633-649: a list is never equal to a number,
so that the condition in line 643 always holds and `None` is never returned. -/
noncomputable def boundingBox (ps : List (ℝ × ℝ)) : Except Err ((ℝ × ℝ) × (ℝ × ℝ)) := do
  let mx := ps.foldl (fun (m : MinMax) (p : ℝ × ℝ) => m.add p.1) (none, none)
  let my := ps.foldl (fun (m : MinMax) (p : ℝ × ℝ) => m.add p.2) (none, none)
  let x ← mx.widen
  let y ← my.widen
  pure (x, y)

/-- What the camera uses of a state: position, heading, and `vx` if the state has one. -/
structure Seen where
  x : ℝ
  y : ℝ
  psi : ℝ
  vx : Option ℝ

/-- `plot_limits`. -/
inductive PlotLimits (N : Type) where
  | auto
  | follow (n : N)
  | fixed (x0 x1 y0 y1 : ℝ)

/-- `np.clip(v, -slack + buffer, slack - buffer)` with `slack = 35`, `buffer = slack / 3`. -/
noncomputable def clipShift (v : ℝ) : ℝ := min (max v (-35 + 35 / 3)) (35 - 35 / 3)

/-- `adjust_axes_limits`, simulator_animation.py:181-220: `xmin, xmax, ymin, ymax`. `ZValueError` without
players, `KeyError` for unknown names, `AttributeError` for states without `vx`. -/
noncomputable def axesLimits {N : Type} [DecidableEq N] (pl : PlotLimits N) (players : Dict N Seen) :
    Except Err ((ℝ × ℝ) × (ℝ × ℝ)) :=
  match pl with
  | .auto =>
    if players.isEmpty then .error .zValue
    else do
      let b ← boundingBox (players.map fun (p : N × Seen) => (p.2.x, p.2.y))
      pure ((b.1.1 - 5, b.1.2 + 5), (b.2.1 - 5, b.2.2 + 5))
  | .follow n =>
    match Dict.get? players n with
    | none => .error .key
    | some s =>
      match s.vx with
      | none => .error .attribute
      | some vx =>
        let xc := s.x + clipShift (3 / 2 * (vx * Real.cos s.psi))
        let yc := s.y + clipShift (3 / 2 * (vx * Real.sin s.psi))
        .ok ((xc - 35, xc + 35), (yc - 35, yc + 35))
  | .fixed x0 x1 y0 y1 => .ok ((x0, x1), (y0, y1))

/-! ## Frames -/

/-- The step between frames in seconds, simulator_animation.py:159. -/
noncomputable def frameStep (dt : ℝ) : ℝ := min 1000 dt / 1000

/-- `frame_count`, simulator_animation.py:52-53, 160, for a positive step. -/
noncomputable def frameCount (begin_ end_ dt : ℝ) : Except Err Nat :=
  open Classical in
  if ¬ begin_ < end_ then .error .value
  else if frameStep dt = 0 then .error .zeroDiv
  else .ok (⌊(end_ - begin_) / frameStep dt⌋.toNat)

/-- The times shown, simulator_animation.py:118. -/
noncomputable def frameTimes (n : Nat) (dt : ℝ) : List ℝ :=
  (List.range n).map fun (k : Nat) => k * min 1000 dt / 1000

/-- `fps`, simulator_animation.py:167. -/
noncomputable def fps (dt : ℝ) : ℤ := ⌈1000 / min 1000 dt⌉

/-! ## Trajectories of agents -/

/-- What is shown of the extra objects of the players: the artists `traj_lines[p]` with their last
trajectories; simulator_animation.py:94-101. `extra` of a player is its trajectories, `none` if there is none;
trajectories are taken to be well-formed. -/
def initExtra {N T : Type} [DecidableEq N] : Dict N (Option T) → Dict N T
  | [] => []
  | (p, some tr) :: rest => (p, tr) :: initExtra rest
  | (_, none) :: rest => initExtra rest

/-- simulator_animation.py:133-145, for one player: `traj_lines[pname]` raises `KeyError` if the player has no
artist yet, and the exception is swallowed. -/
def updateExtra1 {N T : Type} [DecidableEq N] (d : Dict N T) (p : N) (e : Option T) : Dict N T :=
  match e with
  | none => d
  | some tr => match Dict.get? d p with
    | none => d
    | some _ => Dict.set d p tr

/-- The loop over the players of a frame, simulator_animation.py:120; `entry` has the players of the first frame
only, as the code draws no others. -/
def updateExtra {N T : Type} [DecidableEq N] (d : Dict N T) (entry : Dict N (Option T)) : Dict N T :=
  entry.foldl (fun d pe => updateExtra1 d pe.1 pe.2) d

end Viz
end Verif
