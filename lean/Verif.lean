import Verif.Basic
import Verif.Seq.Model
import Verif.Seq.Lemmas
import Verif.Seq.Props
import Verif.Seq.InterpLemmas
import Verif.Seq.MapLemmas
import Verif.Seq.InterpProps
import Verif.Seq.BuilderProps
import Verif.Seq.OpModel
import Verif.Seq.OpProps
import Verif.Dict
import Verif.Phys.States
import Verif.Phys.StateProps
import Verif.Phys.StateModule
import Verif.Plan.TrajModel
import Verif.Plan.UpsampleProps
import Verif.Plan.MergeProps
import Verif.Plan.GraphModel
import Verif.Plan.GraphProps
import Verif.Maps.Geo
import Verif.Maps.GeoProps
import Verif.Maps.Lanes
import Verif.Maps.LaneProps
import Verif.Maps.CenterProps
import Verif.Maps.LengthProps
import Verif.Maps.Shapes
import Verif.Plan.Primitives
import Verif.Plan.PrimitiveProps
import Verif.Misc.Combinations
import Verif.Misc.TimeFunction
import Verif.Num
import Verif.Control.Pid
import Verif.Control.Speed
import Verif.Sim.Model
import Verif.Sim.Lemmas
import Verif.Sim.StepLemmas
import Verif.Sim.Invariant
import Verif.Sim.RunProps
import Verif.Sim.EventProps
import Verif.Sim.OrderProps
import Verif.Sim.Toy
import Verif.Sim.FreshProps
import Verif.Sim.LogModel
import Verif.Sim.LogProps
import Verif.Perception.Filters
import Verif.Perception.FilterProps
import Verif.Perception.Sensor
import Verif.Perception.SensorProps
import Verif.Coll.Impulse
import Verif.Coll.ImpulseProps
import Verif.Coll.Resolve
import Verif.Coll.ResolveProps
import Verif.Coll.FrameProps
import Verif.Coll.ReportProps
import Verif.Coll.Geometry
import Verif.Coll.GeometryProps
import Verif.Phys.Limits
import Verif.Phys.LimitProps
import Verif.Phys.Models
import Verif.Phys.VelocityProps
import Verif.Phys.MotionProps
import Verif.Phys.TyreProps
import Verif.Phys.EnergyProps
import Verif.Phys.MirrorProps
import Verif.Phys.Update
import Verif.Phys.UpdateProps
import Verif.Phys.AfterProps
import Verif.Phys.Lights
import Verif.Phys.LightProps
import Verif.Phys.Outline
import Verif.Phys.OutlineProps
import Verif.Eval.Efficiency
import Verif.Eval.EfficiencyProps
import Verif.Eval.Safety
import Verif.Eval.SafetyProps
import Verif.Eval.TtcProps
import Verif.Eval.WholeLogProps
import Verif.Control.PurePursuit
import Verif.Control.PursuitProps
import Verif.Agents.Model
import Verif.Agents.ViewProps
import Verif.Agents.AgentProps
import Verif.Agents.Extract
import Verif.Scen.Model
import Verif.Scen.FactoryProps
import Verif.Scen.ConvertProps
import Verif.Scen.RoadBounds
import Verif.Scen.Goals
import Verif.Eval.Comfort
import Verif.Eval.FourierLemmas
import Verif.Eval.ComfortProps
import Verif.Coll.Mesh
import Verif.Coll.MeshProps
import Verif.Sim.Closed
import Verif.Whole.Model
import Verif.Whole.FrameProps
import Verif.Whole.Toy
import Verif.Whole.FlagProps
import Verif.Whole.ReportProps
import Verif.Whole.DrivenProps
import Verif.Whole.HistoryProps
import Verif.Whole.SensorProps
import Verif.Viz.Model
import Verif.Viz.OutlineProps
import Verif.Viz.EngineProps
import Verif.Viz.CameraProps
import Verif.Maps.Profile
import Verif.Maps.ProfileProps
import Verif.Whole.ReplayProps
import Verif.Viz.Shapes
import Verif.Viz.ShapeProps
import Verif.Viz.Collision
import Verif.Whole.PictureProps
import Verif.Viz.DiagramProps
import Verif.Plan.GraphAllProps
import Verif.Plan.MovedProps
import Verif.Sim.TotalProps
import Verif.Sim.ContextProps
import Verif.Misc.CacheProps
import Verif.Phys.IvpProps
import Verif.Phys.EulerProps
import Verif.Control.DriveProps
import Verif.Eval.ForeseeProps
import Verif.Agents.CruiseProps
import Verif.Control.KeepProps
import Verif.Control.RestProps
import Verif.Agents.RestProps
import Verif.Agents.FollowProps
import Verif.Agents.ClearProps
import Verif.Phys.Params
import Verif.Phys.ParamProps
import Verif.Whole.LifeProps
import Verif.Phys.CruiseMotion
import Verif.Whole.CruiseProps
import Verif.Scen.Load
import Verif.Agents.Extra
import Verif.Viz.Moving
import Verif.Maps.Closest
import Verif.Seq.Typed
import Verif.Whole.MissProps
import Verif.Coll.Shape
import Verif.Coll.ShapeProps
import Verif.Sim.Clock
import Verif.Sim.ClockProps
import Verif.Eval.Dist
import Verif.Eval.DistProps
import Verif.Eval.BodyProps
import Verif.Scen.LaneOf
import Verif.Scen.LaneOfProps
import Verif.Viz.Frame
import Verif.Viz.FrameProps
import Verif.Seq.Float
import Verif.Seq.FloatLemmas
import Verif.Seq.FloatProps
import Verif.Control.PidFloat
import Verif.Control.PidFloatProps
import Verif.Seq.OpFloat
import Verif.Seq.OpFloatProps
import Verif.Sim.ArriveProps
import Verif.Whole.ArriveProps
import Verif.Plan.UpsampleFloat
import Verif.Plan.UpsampleFloatProps
import Verif.Seq.FloatRel
import Verif.Phys.BicycleFloat
import Verif.Phys.BicycleFloatProps
import Verif.Coll.ImpulseFloat
import Verif.Coll.ImpulseFloatProps
import Verif.Sim.RenameProps
import Verif.Sim.HomProps
import Verif.Sim.PrefixProps
import Verif.Phys.Solver
import Verif.Phys.SolverProps
import Verif.Phys.ThrustSolver
import Verif.Phys.ThrustSolverProps
import Verif.Whole.SolverLogProps
import Verif.Phys.SolverAll
import Verif.Phys.SolverFrameProps
import Verif.Phys.SolverStraightProps
import Verif.Maps.FrameProps
import Verif.Agents.FrameProps
import Verif.Eval.FrameProps
import Verif.Perception.FrameProps
import Verif.Sim.ListingProps
import Verif.Agents.ListingProps
import Verif.Sim.ShiftProps
import Verif.Agents.ShiftProps
import Verif.Phys.SolverOrder
import Verif.Coll.UnitProps
import Verif.Phys.UnitProps
import Verif.Sim.ScaleProps
import Verif.Whole.UnitProps
import Verif.Whole.Fleet
import Verif.Whole.FleetProps
import Verif.Whole.FleetRunProps
import Verif.Whole.BudgetProps
import Verif.Eval.SimMetricProps
import Verif.Sim.CommandLogProps
import Verif.Whole.MotionProps
import Verif.Eval.ArrivalProps
import Verif.Eval.RideProps
import Verif.Sim.CausalProps
