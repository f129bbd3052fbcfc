import Verif.Viz.Model
import Verif.Phys.Outline
import Verif.Phys.Lights

/-!
# The players in the frames of an animation (sim/simulator_visualisation.py, sim/simulator_animation.py)

What is on the axes for each player: polygons, the position of its name, circles for its lights. Colours of polygons,
transparency, the order of drawing and the radius of the lights are left out. The animation asks for wheels and lights
(simulator_animation.py:63-64), so both are drawn here. Goals and trajectories are in `Viz/Moving`, the limits of the
axes in `Viz/Model`.
-/

namespace Verif
namespace Viz

open Maps

/-- The artists of a player in the list `model_poly`: the polygon of the body, the text, the further polygons. Moving
obstacles have no text. -/
structure Artists where
  body : List (ℝ × ℝ)
  name : Option (ℝ × ℝ)
  parts : List (List (ℝ × ℝ))

/-- A circle for a light. -/
structure Lamp where
  centre : ℝ × ℝ
  colour : Lights.Color

/-- The keys of `lights_position`, in its order (vehicle_structures.py:200-205). -/
inductive Corner where
  | backLeft
  | backRight
  | frontLeft
  | frontRight

/-- `asdict(lights_colors)[name]`. -/
def colourOf (c : Lights.Colors) : Corner → Lights.Color
  | .backLeft => c.backLeft
  | .backRight => c.backRight
  | .frontLeft => c.frontLeft
  | .frontRight => c.frontRight

/-- `for idx, box in enumerate(boxes): box.set_xy(outlines[idx])`, e.g. simulator_visualisation.py:324-326. -/
def setBoxes : List (List (ℝ × ℝ)) → List (List (ℝ × ℝ)) → Except Err (List (List (ℝ × ℝ)))
  | [], _ => .ok []
  | _ :: _, [] => .error .index
  | _ :: bs, o :: os => match setBoxes bs os with
    | .error e => .error e
    | .ok r => .ok (o :: r)

/-- The lights with their places and colours, simulator_visualisation.py:341-350; `asdict(None)` raises `TypeError`. -/
noncomputable def lampsAt (q : Mat3 ℝ) (g : Outline.Geometry ℝ) : Option Lights.Colors → Except Err (List Lamp)
  | none => .error .type
  | some c => match Outline.lights g with
    | .error e => .error e
    | .ok ps => .ok (([Corner.backLeft, .backRight, .frontLeft, .frontRight].zip ps).map
        fun (p : Corner × (ℝ × ℝ)) => ⟨applyT2 q p.2, colourOf c p.1⟩)

/-- The loop over the lights, simulator_visualisation.py:329-335: `lights_patches[i]` is moved and coloured. -/
def setLamps : List Lamp → List Lamp → Except Err (List Lamp)
  | ls, [] => .ok ls
  | [], _ :: _ => .error .index
  | _ :: ls, n :: ns => match setLamps ls ns with
    | .error e => .error e
    | .ok r => .ok (n :: r)

/-- `plot_vehicle`, simulator_visualisation.py:279-337; `old` are `vehicle_poly` and `lights_patches`. -/
noncomputable def plotVehicle (g : Outline.Geometry ℝ) (x y psi delta : ℝ) (colours : Option Lights.Colors)
    (old : Option (Artists × List Lamp)) : Except Err (Artists × List Lamp) := do
  let ring ← Outline.outline g
  let (body, name) ← drawBody ring x y psi
  let q := poseOf x y psi
  let (boxes, patches) ← match old with
    | some (a, ls) => .ok (a.parts, ls)
    | none => do
      let ls ← lampsAt q g colours
      pure (List.replicate (Outline.wheels g).length [], ls)
  let ws ← Outline.rotatedWheels g (Real.cos delta) (Real.sin delta)
  let parts ← setBoxes boxes (ws.map (List.map (applyT2 q)))
  let lamps ← lampsAt q g colours
  let patches ← setLamps patches lamps
  pure (⟨body, some name, parts⟩, patches)

/-- The common part of the other functions: the body, the name, and `n` further polygons with the given outlines. -/
noncomputable def plotNamed (outline : List (ℝ × ℝ)) (x y psi : ℝ) (n : Nat)
    (outlines : Except Err (List (List (ℝ × ℝ)))) (old : Option Artists) : Except Err Artists := do
  let (body, name) ← drawBody outline x y psi
  let boxes := match old with
    | some a => a.parts
    | none => List.replicate n []
  let os ← outlines
  let parts ← setBoxes boxes os
  pure ⟨body, some name, parts⟩

/-- `plot_pedestrian`, simulator_visualisation.py:360-386. -/
noncomputable def plotPedestrian (x y psi : ℝ) (old : Option Artists) : Except Err Artists :=
  plotNamed pedestrianRing x y psi 0 (.ok []) old

/-- `thrusters_outline_in_body_frame` of the spacecraft, spacecraft_structures.py:90-108, moved to the pose `q`
(simulator_visualisation.py:421). -/
noncomputable def craftThrusters (q : Mat3 ℝ) (lr w : ℝ) : Except Err (List (List (ℝ × ℝ))) :=
  let o : List (ℝ × ℝ) := [(1 / 2, -15 / 100), (-1 / 2, -15 / 100), (-1 / 2, 15 / 100), (1 / 2, 15 / 100), (1 / 2, -15 / 100)]
  [poseOf (-lr) (-w) 0, poseOf (-lr) w 0].mapM fun (m : Mat3 ℝ) => drawAt q m o

/-- `plot_spacecraft`, simulator_visualisation.py:389-425. -/
noncomputable def plotSpacecraft (outline : List (ℝ × ℝ)) (lr w x y psi : ℝ) (old : Option Artists) :
    Except Err Artists :=
  plotNamed outline x y psi 2 (craftThrusters (poseOf x y psi) lr w) old

/-- The nozzles of a rocket, simulator_visualisation.py:464-466 with rocket_structures.py:143-146. -/
noncomputable def rocketNozzles (g : EngineGeo) (s : RocketState ℝ) : Except Err (List (List (ℝ × ℝ))) :=
  (rocketMounts g s.phi).mapM fun (m : Mat3 ℝ) => drawAt (poseOf s.x s.y s.psi) m (thrusterOutline g)

/-- The nozzle of a spaceship, simulator_visualisation.py:520 with spaceship_structures.py:136-139. -/
noncomputable def shipNozzles (g : EngineGeo) (s : SpaceshipState ℝ) : Except Err (List (List (ℝ × ℝ))) :=
  (shipMounts g s.delta).mapM fun (m : Mat3 ℝ) => drawAt (poseOf s.x s.y s.psi) m (thrusterOutline g)

/-- `plot_rocket`, simulator_visualisation.py:428-484: two nozzles, then two flames. -/
noncomputable def plotRocket (outline : List (ℝ × ℝ)) (g : EngineGeo) (mv : ℝ) (s : RocketState ℝ)
    (u : RocketCommands ℝ) (old : Option Artists) : Except Err Artists :=
  plotNamed outline s.x s.y s.psi 4 (do
    let ns ← rocketNozzles g s
    let fs ← rocketFlames g mv s u
    pure (ns ++ fs)) old

/-- `plot_spaceship`, simulator_visualisation.py:487-528: a nozzle and a flame. -/
noncomputable def plotSpaceship (outline : List (ℝ × ℝ)) (g : EngineGeo) (mv : ℝ) (s : SpaceshipState ℝ)
    (u : SpaceshipCommands ℝ) (old : Option Artists) : Except Err Artists :=
  plotNamed outline s.x s.y s.psi 2 (do
    let ns ← shipNozzles g s
    let fs ← shipFlames g mv s u
    pure (ns ++ fs)) old

/-- `plot_diffdrive`, simulator_visualisation.py:586-630. -/
noncomputable def plotDiffDrive (outline : List (ℝ × ℝ)) (wheelbase wheelradius x y psi : ℝ) (old : Option Artists) :
    Except Err Artists :=
  plotNamed outline x y psi 2
    (.ok ((Outline.diffDriveWheels wheelbase wheelradius).map (List.map (applyT2 (poseOf x y psi))))) old

/-- What the drawing uses of a model: its geometry and parameters. The outlines of models that are united by shapely
are given. -/
inductive Look where
  | vehicle (g : Outline.Geometry ℝ)
  | pedestrian
  | spacecraft (outline : List (ℝ × ℝ)) (lr w : ℝ)
  | rocket (outline : List (ℝ × ℝ)) (g : EngineGeo) (mv : ℝ)
  | spaceship (outline : List (ℝ × ℝ)) (g : EngineGeo) (mv : ℝ)
  | obstacle (exterior : List (ℝ × ℝ))
  | diffDrive (outline : List (ℝ × ℝ)) (wheelbase wheelradius : ℝ)

/-- What the drawing uses of a state, and of the commands of rockets and spaceships. -/
inductive Moment where
  | vehicle (x y psi delta : ℝ)
  | pedestrian (x y psi : ℝ)
  | spacecraft (x y psi : ℝ)
  | rocket (s : RocketState ℝ) (u : RocketCommands ℝ)
  | spaceship (s : SpaceshipState ℝ) (u : SpaceshipCommands ℝ)
  | obstacle (x y psi : ℝ)
  | diffDrive (x y psi : ℝ)

/-- `SimRenderer.plot_player`, simulator_visualisation.py:123-221. The function is chosen by the state; that one which
does not fit the geometry ends in an `AttributeError` is a simplification. -/
noncomputable def plotPlayer (k : Look) (m : Moment) (colours : Option Lights.Colors)
    (old : Option (Artists × List Lamp)) : Except Err (Artists × List Lamp) :=
  let poly := old.map Prod.fst
  match k, m with
  | .vehicle g, .vehicle x y psi delta => plotVehicle g x y psi delta colours old
  | .pedestrian, .pedestrian x y psi => (plotPedestrian x y psi poly).map (·, [])
  | .spacecraft o lr w, .spacecraft x y psi => (plotSpacecraft o lr w x y psi poly).map (·, [])
  | .rocket o g mv, .rocket s u => (plotRocket o g mv s u poly).map (·, [])
  | .spaceship o g mv, .spaceship s u => (plotSpaceship o g mv s u poly).map (·, [])
  | .obstacle o, .obstacle x y psi => .ok (⟨drawObstacle o x y psi, none, []⟩, [])
  | .diffDrive o b r, .diffDrive x y psi => (plotDiffDrive o b r x y psi poly).map (·, [])
  | _, _ => .error .attribute

/-- What is used of a log entry: the state, and the lights and the acceleration of the commands, if these have lights. -/
structure Frame where
  moment : Moment
  lights : Option (Lights.Cmd × ℝ)

/-- `get_lights_colors_from_cmds`, simulator_animation.py:223-230: `None` without lights. The table of colours is
changed by it. -/
noncomputable def lightsOf (tb : Lights.Table) (f : Frame) (t : ℝ) : Except Err (Option Lights.Colors × Lights.Table) :=
  match f.lights with
  | none => .ok (none, tb)
  | some (c, acc) => match Lights.display tb c acc t with
    | .error e => .error e
    | .ok (o, tb') => .ok (some o, tb')

variable {N : Type} [DecidableEq N]

/-- The table of colours, and `states` and `actions` of the animation. -/
structure Canvas (N : Type) where
  table : Lights.Table
  shown : Dict N (Artists × List Lamp)

/-- The loop of `init_plot`, simulator_animation.py:81-93: the lights of time 0. -/
noncomputable def initPlayers (looks : Dict N Look) : Dict N Frame → Canvas N → Except Err (Canvas N)
  | [], s => .ok s
  | (p, f) :: rest, s => match lightsOf s.table f 0 with
    | .error e => .error e
    | .ok (c, tb) => match Dict.get? looks p with
      | none => .error .key
      | some k => match plotPlayer k f.moment c none with
        | .error e => .error e
        | .ok r => initPlayers looks rest ⟨tb, Dict.set s.shown p r⟩

/-- The loop of `update_plot` over the players of the first frame, simulator_animation.py:120-132. -/
noncomputable def updatePlayers (looks : Dict N Look) (t : ℝ) (entries : Dict N Frame) :
    Dict N (Artists × List Lamp) → Canvas N → Except Err (Canvas N)
  | [], s => .ok s
  | (p, old) :: rest, s => match Dict.get? entries p with
    | none => .error .key
    | some f => match lightsOf s.table f t with
      | .error e => .error e
      | .ok (c, tb) => match Dict.get? looks p with
        | none => .error .key
        | some k => match plotPlayer k f.moment c (some old) with
          | .error e => .error e
          | .ok r => updatePlayers looks t entries rest ⟨tb, Dict.set s.shown p r⟩

/-- The frames at the given times; `log t` is `sim_context.log.at_interp(t)`. -/
noncomputable def updateAll (looks : Dict N Look) (log : ℝ → Except Err (Dict N Frame)) :
    List ℝ → Canvas N → Except Err (Canvas N)
  | [], s => .ok s
  | t :: ts, s => match log t with
    | .error e => .error e
    | .ok es => match updatePlayers looks t es s.shown s with
      | .error e => .error e
      | .ok s' => updateAll looks log ts s'

/-- An animation from time `begin_` with the frames at the times `ts`, simulator_animation.py:78-156. -/
noncomputable def animate (looks : Dict N Look) (log : ℝ → Except Err (Dict N Frame)) (tb : Lights.Table) (begin_ : ℝ)
    (ts : List ℝ) : Except Err (Canvas N) :=
  match log begin_ with
  | .error e => .error e
  | .ok es => match initPlayers looks es ⟨tb, []⟩ with
    | .error e => .error e
    | .ok s => updateAll looks log ts s

end Viz
end Verif
