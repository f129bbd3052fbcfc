import Verif.Whole.FrameProps
import Verif.Sim.ScaleProps
import Verif.Coll.UnitProps
import Verif.Phys.UnitProps

/-!
# C159: whole simulations do not depend on the units of length, mass and time
-/

namespace Verif
namespace Whole
namespace Units

open Sim Coll Coll.Units Sim.Scaled

section Spec
variable {N K : Type} [DecidableEq N] [Field K] [LinearOrder K] [IsStrictOrderedRing K]

/-- Specification: agents, sensors, models, goals and obstacles in other units. Every one of them gives for what it is told in
the new units the answer that it gives in the old ones, in the new units; no obstacle can be turned. -/
structure RescaledParts {U : System K} {F F' : Iface N K} (h : Rescaled U F F') (R : Parts N K F.M F.S)
    (R' : Parts N K F'.M F'.S) where
  still : U.drift = (0, 0)
  fa : R.A → R'.A
  fv : R.V → R'.V
  fx : R.X → R'.X
  fc : R.C → R'.C
  fi : R.I → R'.I
  fe : R.E → R'.E
  fg : R.G → R'.G
  getState : ∀ m, R'.getState (h.fm m) = fx (R.getState m)
  isDyn : ∀ m, R'.isDyn (h.fm m) = R.isDyn m
  onInit : ∀ a n, R'.onInit (fa a) n = (R.onInit a n).map fa
  sense : ∀ v n o, R'.sense (fv v) n (obs U.time fx h.fs o) = (R.sense v n o).map (Prod.map fv (obs U.time fx h.fs))
  ask : ∀ a o, R'.ask (fa a) (obs U.time fx h.fs o) = (R.ask a o).map (Prod.map fa (Prod.map fc fi))
  extra : ∀ a, R'.extra (fa a) = (R.extra a).map (Prod.map fa (Option.map fe))
  update : ∀ v n m c dt, R'.update (fv v) n (h.fm m) (fc c) (U.time * dt) = (R.update v n m c dt).map (Prod.map fv h.fm)
  fulfilled : ∀ v n g x t, R'.fulfilled (fv v) n (fg g) (fx x) (U.time * t) = (R.fulfilled v n g x t).map (Prod.map fv id)
  envQuery : ∀ v s, R'.envQuery (fv v) (h.fs s) = (R.envQuery v s).map (Prod.map h.fs U.geom)
  heavy : ∀ v s, ∀ o ∈ R.envQuery v s, o.2.Iz = none

variable {U : System K} {F F' : Iface N K} {h : Rescaled U F F'} {R : Parts N K F.M F.S} {R' : Parts N K F'.M F'.S}

/-- Specification: a report in other units for an observer at rest, where masses do not matter. -/
def inUnits (h : Rescaled U F F') (r : CollisionReport N K F.L F.S) : CollisionReport N K F'.L F'.S where
  players := r.players.map (fun p => (p.1, p.2.map (fun r => ⟨r.locations.map (Prod.map h.fl h.fs), r.atFault,
    h.fs r.footprint, U.twist r.velocity, U.twist r.velocityAfter, U.mass * U.speed ^ 2 * r.energyDelta⟩)))
  point := r.point.map U.point
  normal := r.normal
  atTime := U.time * r.atTime

theorem report_still (h : Rescaled U F F') (h0 : U.drift = (0, 0)) (m : N → Option K) : h.report m = inUnits h := by
  have e : ∀ k, h.player k = fun r => ⟨r.locations.map (Prod.map h.fl h.fs), r.atFault, h.fs r.footprint,
      U.twist r.velocity, U.twist r.velocityAfter, U.mass * U.speed ^ 2 * r.energyDelta⟩ := by
    intro k
    funext r
    simp only [Rescaled.player, System.energy, h0, zero_mul, add_zero, mul_zero]
  funext r
  simp only [Rescaled.report, inUnits, e]

/-- The simulation in other units. -/
def RescaledParts.conv (p : RescaledParts h R R') (scenario : Bool) : Conv (world F scenario R) (world F' scenario R') where
  time := U.time
  pos := U.time_pos
  fw w := (fun n => p.fa (w.1 n), p.fv w.2)
  fm := h.fm
  fx := p.fx
  fp := h.fs
  fc := p.fc
  fi := p.fi
  fe := p.fe
  fo := Prod.map h.fs U.geom
  fd := inUnits h
  fg := p.fg
  real o := o.2.Iz = none
  getState := p.getState
  footprint := h.footprint
  isDyn := p.isDyn
  onInit w n := by
    simp only [p.onInit]
    cases R.onInit (w.1 n) n with
    | error e => rfl
    | ok a => simp only [Except.map, update_fa]
  sense w n o := by
    simp only [p.sense]
    cases R.sense w.2 n o with
    | error e => rfl
    | ok a => rfl
  getCommands w n o := by
    simp only [p.ask]
    cases R.ask (w.1 n) o with
    | error e => rfl
    | ok a => simp only [Except.map, Prod.map, update_fa]
  getExtra w n := by
    simp only [p.extra]
    cases R.extra (w.1 n) with
    | error e => rfl
    | ok a => simp only [Except.map, Prod.map, update_fa]
  update w n m c dt := by
    simp only [p.update]
    cases R.update w.2 n m c dt with
    | error e => rfl
    | ok a => rfl
  fulfilled w n g x t := by
    simp only [p.fulfilled]
    cases R.fulfilled w.2 n g x t with
    | error e => rfl
    | ok a => rfl
  envQuery w s := p.envQuery w.2 s
  envReal w s := p.heavy w.2 s
  env := h.envPlayer
  resolveEnv w n m o t ho := by
    have := C157_resolveEnv_partial h p.still t n m o.1 o.2 ho
    rw [report_still h p.still] at this
    simp only [Prod.map, this]
  touch := h.intersects
  resolve w a m b m' t := by
    have := C157_resolve h scenario t a m b m'
    rw [report_still h p.still] at this
    simp only [this]
    rfl

/-- **C159.** A simulation in other units, with the time step, the time between commands, the longest duration and the time
after the first collision in the new unit of time: the run ends or not after the same number of steps, raises the same
exception, or returns the same players, reports and logs, with all times, models, states, commands, velocities, impact points
and energies in the new units. -/
theorem C159_run_partial (p : RescaledParts h R R') (scenario : Bool) (cfg : Cfg (world F scenario R)) (fuel : Nat)
    (s : St (world F scenario R)) (log : Dict N (PlayerLog (world F scenario R))) :
    run ((p.conv scenario).cfg cfg) fuel ((p.conv scenario).st s) (mapD (p.conv scenario).log log) =
      (run cfg fuel s log).map (Except.map (Prod.map (p.conv scenario).st (mapD (p.conv scenario).log))) :=
  conv_run (p.conv scenario) cfg fuel s log

/-- **C159.** In particular: the run ends at the same time with the same players, the reports are those of the same players
at the same times, and the logs hold the same states and commands at the same times, all in the new units. -/
theorem C159_log_partial (p : RescaledParts h R R') (scenario : Bool) (cfg : Cfg (world F scenario R)) (fuel : Nat)
    (s s1 : St (world F scenario R)) (l1 : Dict N (PlayerLog (world F scenario R)))
    (hr : run cfg fuel s [] = some (.ok (s1, l1))) :
    ∃ s2 l2, run ((p.conv scenario).cfg cfg) fuel ((p.conv scenario).st s) [] = some (.ok (s2, l2)) ∧
      s2.time = U.time * s1.time ∧ s2.players = s1.players ∧ s2.firstColl = s1.firstColl.map (U.time * ·) ∧
      s2.reports.map (fun r => (r.players, r.atTime, r.data)) =
        s1.reports.map (fun r => (r.players, U.time * r.atTime, r.data.map (inUnits h))) ∧
      ∀ n, (Dict.get? l2 n).map (fun l => (l.states.ts, l.states.vs, l.commands.ts, l.commands.vs)) =
        (Dict.get? l1 n).map (fun l => (l.states.ts.map (U.time * ·), l.states.vs.map p.fx,
          l.commands.ts.map (U.time * ·), l.commands.vs.map p.fc)) := by
  have h' := C159_run_partial p scenario cfg fuel s []
  rw [hr] at h'
  refine ⟨_, _, h', rfl, rfl, rfl, by
    simp only [Conv.st, Conv.report, List.map_map, Function.comp_def, Prod.map]; rfl, ?_⟩
  intro n
  rw [get?_mapD]
  cases Dict.get? l1 n <;> rfl

/-- **C159.** The energy that a report says a player has lost is lost in the new units of energy. -/
theorem C159_energy_partial (p : RescaledParts h R R') (scenario : Bool) (cfg : Cfg (world F scenario R)) (fuel : Nat)
    (s s1 : St (world F scenario R)) (l1 : Dict N (PlayerLog (world F scenario R)))
    (hr : run cfg fuel s [] = some (.ok (s1, l1))) :
    ∃ s2 l2, run ((p.conv scenario).cfg cfg) fuel ((p.conv scenario).st s) [] = some (.ok (s2, l2)) ∧
      s2.reports.map (fun r => r.data.map (fun d => d.players.map (fun q => (q.1, q.2.map (·.energyDelta))))) =
        s1.reports.map (fun r => r.data.map (fun d => d.players.map
          (fun q => (q.1, q.2.map (fun z => U.mass * (U.len / U.time) ^ 2 * z.energyDelta))))) := by
  obtain ⟨s2, l2, h1, -, -, -, h2, -⟩ := C159_log_partial p scenario cfg fuel s s1 l1 hr
  refine ⟨s2, l2, h1, ?_⟩
  have h3 := congrArg (List.map (fun z => z.2.2.map
    (fun d => d.players.map (fun q => (q.1, q.2.map (·.energyDelta)))))) h2
  simp only [List.map_map, Function.comp_def] at h3
  refine h3.trans ?_
  apply List.map_congr_left
  intro r _
  cases r.data with
  | none => rfl
  | some d =>
    simp only [Option.map, inUnits, List.map_map, Function.comp_def]
    congr 1
    apply List.map_congr_left
    intro q _
    cases q.2 <;> rfl

end Spec

/-! ## The models of the library

The laws that `Rescaled` and `RescaledParts` ask of models: `update` is C158; here are the velocities. -/

section Models
open Phys

/-- The units of C158 for an observer at rest. -/
def rest (Q : Phys.Units.System) : Coll.Units.System ℝ := ⟨Q.len, Q.mass, Q.time, (0, 0), Q.len_pos, Q.mass_pos, Q.time_pos⟩

/-- Specification: reading and setting velocities commutes with a change of the units, in the frame of the world and in that
of the model. -/
def VelocityScales {S : Type} (Q : Phys.Units.System) (st : S → S) (get : S → Bool → (ℝ × ℝ) × ℝ)
    (get' : S → Bool → (ℝ × ℝ) × ℝ) (set : S → ℝ × ℝ → ℝ → Bool → S) : Prop :=
  (∀ s f, get' (st s) f = (rest Q).twist (get s f)) ∧
    ∀ s v w f, set (st s) ((rest Q).vel v) (w / Q.time) f = st (set s v w f)

theorem out_scales (Q : Phys.Units.System) (psi : ℝ) (f : Bool) (v : ℝ × ℝ) :
    outFrame psi f (Q.vel * v.1, Q.vel * v.2) = (rest Q).vel (outFrame psi f v) := by
  cases f
  · simp only [outFrame, rotBy, rest, Coll.Units.System.vel, Coll.Units.System.speed, Phys.Units.System.vel,
      Bool.false_eq_true, if_false, Prod.mk.injEq, add_zero]
    constructor <;> ring
  · simp [outFrame, rest, Coll.Units.System.vel, Coll.Units.System.speed, Phys.Units.System.vel]

theorem in_scales (Q : Phys.Units.System) (psi : ℝ) (f : Bool) (v : ℝ × ℝ) :
    inFrame psi f ((rest Q).vel v) = (Q.vel * (inFrame psi f v).1, Q.vel * (inFrame psi f v).2) := by
  cases f
  · simp only [inFrame, rotBy, rest, Coll.Units.System.vel, Coll.Units.System.speed, Phys.Units.System.vel,
      Bool.false_eq_true, if_false, Prod.mk.injEq, add_zero]
    constructor <;> ring
  · simp [inFrame, rest, Coll.Units.System.vel, Coll.Units.System.speed, Phys.Units.System.vel]

theorem twist_scales (Q : Phys.Units.System) (psi : ℝ) (f : Bool) (v : ℝ × ℝ) (w : ℝ) :
    (rest Q).twist (outFrame psi f v, w) = (outFrame psi f (Q.vel * v.1, Q.vel * v.2), Q.rate * w) := by
  have e : w / (rest Q).time = Q.rate * w := by
    simp only [rest, Phys.Units.System.rate]; ring
  simp only [Coll.Units.System.twist, out_scales, e]

/-- **C159.** Kinematic vehicle. -/
theorem C159_vehicle (Q : Phys.Units.System) (wb lr : ℝ) : VelocityScales Q Q.stV
    (VehicleState.getVelocity wb lr) (VehicleState.getVelocity (Q.len * wb) (Q.len * lr)) VehicleState.setVelocity := by
  have hl := Q.len_pos.ne'
  refine ⟨fun s f => ?_, fun s v w f => ?_⟩
  · have h1 : Q.vel * s.vx * Real.tan s.delta / (Q.len * wb) = s.vx * Real.tan s.delta / wb / Q.time := by
      simp only [Phys.Units.System.vel, div_eq_mul_inv, mul_inv]
      generalize wb⁻¹ = w
      field_simp
    have h2 : s.vx * Real.tan s.delta / wb / Q.time * (Q.len * lr) = Q.vel * (s.vx * Real.tan s.delta / wb * lr) := by
      simp only [Phys.Units.System.vel]; ring
    simp only [VehicleState.getVelocity, Phys.Units.System.stV, LinearMap.coe_mk, AddHom.coe_mk, h1, h2,
      Coll.Units.System.twist, ← out_scales]
    rfl
  · simp only [VehicleState.setVelocity, Phys.Units.System.stV, LinearMap.coe_mk, AddHom.coe_mk, in_scales]

/-- **C159.** Dynamic vehicle. -/
theorem C159_vehicleDyn (Q : Phys.Units.System) : VelocityScales Q Q.stD
    VehicleStateDyn.getVelocity VehicleStateDyn.getVelocity VehicleStateDyn.setVelocity := by
  refine ⟨fun s f => ?_, fun s v w f => ?_⟩
  · simp only [VehicleStateDyn.getVelocity, Phys.Units.System.stD, twist_scales]
  · simp only [VehicleStateDyn.setVelocity, Phys.Units.System.stD, in_scales]

/-- **C159.** Spacecraft. -/
theorem C159_spacecraft (Q : Phys.Units.System) : VelocityScales Q Q.stC
    SpacecraftState.getVelocity SpacecraftState.getVelocity SpacecraftState.setVelocity := by
  refine ⟨fun s f => ?_, fun s v w f => ?_⟩
  · simp only [SpacecraftState.getVelocity, Phys.Units.System.stC, LinearMap.coe_mk, AddHom.coe_mk, twist_scales]
  · simp only [SpacecraftState.setVelocity, Phys.Units.System.stC, LinearMap.coe_mk, AddHom.coe_mk, in_scales,
      Phys.Units.System.rate, SpacecraftState.mk.injEq, true_and]
    ring

/-- **C159.** Spaceship. -/
theorem C159_spaceship (Q : Phys.Units.System) : VelocityScales Q Q.stS
    SpaceshipState.getVelocity SpaceshipState.getVelocity SpaceshipState.setVelocity := by
  refine ⟨fun s f => ?_, fun s v w f => ?_⟩
  · simp only [SpaceshipState.getVelocity, Phys.Units.System.stS, LinearMap.coe_mk, AddHom.coe_mk, twist_scales]
  · simp only [SpaceshipState.setVelocity, Phys.Units.System.stS, LinearMap.coe_mk, AddHom.coe_mk, in_scales,
      Phys.Units.System.rate, SpaceshipState.mk.injEq, true_and, and_true]
    ring

/-- **C159.** Rocket. -/
theorem C159_rocket (Q : Phys.Units.System) : VelocityScales Q Q.stT
    RocketState.getVelocity RocketState.getVelocity RocketState.setVelocity := by
  refine ⟨fun s f => ?_, fun s v w f => ?_⟩
  · simp only [RocketState.getVelocity, Phys.Units.System.stT, LinearMap.coe_mk, AddHom.coe_mk, twist_scales]
  · simp only [RocketState.setVelocity, Phys.Units.System.stT, LinearMap.coe_mk, AddHom.coe_mk, in_scales,
      Phys.Units.System.rate, RocketState.mk.injEq, true_and, and_true]
    ring

/-- **C159.** Moving obstacle. -/
theorem C159_dynObstacle (Q : Phys.Units.System) : VelocityScales Q Q.stO
    DynObstacleState.getVelocity DynObstacleState.getVelocity DynObstacleState.setVelocity := by
  refine ⟨fun s f => ?_, fun s v w f => ?_⟩
  · simp only [DynObstacleState.getVelocity, Phys.Units.System.stO, LinearMap.coe_mk, AddHom.coe_mk, twist_scales]
  · simp only [DynObstacleState.setVelocity, Phys.Units.System.stO, LinearMap.coe_mk, AddHom.coe_mk, in_scales,
      Phys.Units.System.rate, DynObstacleState.mk.injEq, true_and]
    ring

/-- **C159.** Differential drive, which always reports rest and ignores the impulse. -/
theorem C159_diffDrive (Q : Phys.Units.System) : VelocityScales Q Q.stR
    DiffDriveState.getVelocity DiffDriveState.getVelocity DiffDriveState.setVelocity := by
  refine ⟨fun s f => ?_, fun s v w f => rfl⟩
  simp [DiffDriveState.getVelocity, Coll.Units.System.twist, Coll.Units.System.vel, rest]

/-- **C159 is false for pedestrians.** `set_velocity` stores a rate of rotation as a speed: what a collision does to a
pedestrian depends on the unit of length, even with the same units of mass and time. -/
theorem C159_false_pedestrian : ∃ Q : Phys.Units.System, Q.mass = 1 ∧ Q.time = 1 ∧ ¬ VelocityScales Q Q.stP
    PedestrianState.getVelocity PedestrianState.getVelocity PedestrianState.setVelocity := by
  refine ⟨⟨100, 1, 1, by norm_num, by norm_num, by norm_num⟩, rfl, rfl, fun h => ?_⟩
  have h := congrArg PedestrianState.vx (h.2 ⟨0, 0, 0, 0, 0, 0⟩ (0, 0) 1 true)
  simp [PedestrianState.setVelocity, Phys.Units.System.stP, Phys.Units.System.vel] at h

end Models

/-! ## An example -/

namespace Discs
open Coll.Units

/-- The discs of C151 with their agents in other units: `R` is the radius, `g` the gain of the agents. -/
abbrev parts (R k g : ℚ) : Parts Nat ℚ (discU R k).M (discU R k).S where
  A := Nat × (ℚ × ℚ)
  V := List (ℚ × ℚ)
  X := (ℚ × ℚ) × ((ℚ × ℚ) × ℚ)
  C := ℚ × ℚ
  I := Unit
  E := Unit
  G := ℚ × ℚ
  getState m := (m.1, m.2.1)
  isDyn _ := false
  onInit a n := .ok (n, a.2)
  sense v _ o := .ok (v, o)
  ask a o := match Dict.get? o.players a.1 with
    | none => .error .key
    | some p => .ok (a, (g * (a.2.1 - p.1.1.1), g * (a.2.2 - p.1.1.2)), ())
  extra a := .ok (a, none)
  update v _ m c dt := .ok (v, (((m.1.1 + m.2.1.1.1 * dt, m.1.2 + m.2.1.1.2 * dt),
    ((m.2.1.1.1 + c.1 * dt, m.2.1.1.2 + c.2 * dt), m.2.1.2), m.2.2) : (ℚ × ℚ) × ((ℚ × ℚ) × ℚ) × Bool))
  fulfilled v _ g x _ := .ok (v, (discU R k).intersects g x.1)
  envQuery v s := (v.filter ((discU R k).intersects s)).map (fun o => (o, ⟨none, none, 1 / 2⟩))

/-- The discs with their agents, goals and obstacles in other units. -/
def scaled (U : System ℚ) (h0 : U.drift = (0, 0)) :
    RescaledParts (discScaled U) (parts 1 1 1) (parts U.len U.mass (U.time ^ 2)⁻¹) where
  still := h0
  fa a := (a.1, U.point a.2)
  fv := List.map U.point
  fx x := (U.point x.1, U.twist x.2)
  fc c := (U.len / U.time ^ 2 * c.1, U.len / U.time ^ 2 * c.2)
  fi := id
  fe := id
  fg := U.point
  getState _ := rfl
  isDyn _ := rfl
  onInit _ _ := rfl
  sense _ _ _ := rfl
  ask a o := by
    simp only [obs]
    rw [get?_mapD]
    cases Dict.get? o.players a.1 with
    | none => rfl
    | some p =>
      simp only [Option.map, Except.map, Prod.map, System.point, Except.ok.injEq, Prod.mk.injEq, true_and, id, and_true]
      constructor <;> ring
  extra _ := rfl
  update v n m c dt := by
    have ht := U.time_pos.ne'
    simp only [Except.map, Prod.map, discScaled, System.point, System.twist, System.vel, System.speed, h0, Except.ok.injEq,
      Prod.mk.injEq, true_and, and_true, add_zero]
    refine ⟨⟨?_, ?_⟩, ?_, ?_⟩ <;> field_simp
  fulfilled v n g x t := by
    have := (discScaled U).intersects g x.1
    exact congrArg (fun b => Except.ok (v.map U.point, b)) this
  envQuery v s := by
    simp only [List.filter_map, List.map_map]
    have e : v.filter ((discU U.len U.mass).intersects ((discScaled U).fs s) ∘ U.point) =
        v.filter ((discU 1 1).intersects s) := by
      apply List.filter_congr
      intro p _
      exact (discScaled U).intersects s p
    rw [e]
    rfl
  heavy v s o ho := by
    simp only [List.mem_map] at ho
    obtain ⟨_, _, rfl⟩ := ho
    rfl

abbrev wd : World Nat ℚ := world (discU 1 1) true (parts 1 1 1)

def cfg : Cfg wd where
  dt := 1 / 2
  dtCommands := 1
  maxSimTime := 3
  afterCollision := 4
  missions := [(1, (20, 20))]

/-- Two discs that want to exchange their places, and an obstacle between them. -/
def start : St wd where
  models := [(0, (((0 : ℚ), (0 : ℚ)), (((1 : ℚ), (0 : ℚ)), (0 : ℚ)), false)),
    (1, (((5 : ℚ), (0 : ℚ)), (((-1 : ℚ), (1 / 2 : ℚ)), (0 : ℚ)), false))]
  players := [0, 1]
  w := (fun n => (0, if n = 0 then (5, 0) else (0, 0)), [(1, 1)])
  time := 0
  terminated := false
  reports := []
  firstColl := none
  lastObs := ⟨[], 0⟩
  lastCmdTs := none
  lastCmds := []
  logger := []
  trace := []

/-- Both discs hit the obstacle, and each other. -/
theorem story : (match run cfg 20 start [] with
    | some (.ok (s, _)) => s.reports.map (fun r => (r.players, r.atTime))
    | _ => []) = [([0, 99], 1 / 2), ([1, 99], 1), ([0, 1], 1)] := by
  decide +kernel

-- the same in centimetres, grams and milliseconds
example : let U : System ℚ := ⟨100, 1000, 1000, (0, 0), by norm_num, by norm_num, by norm_num⟩
    ∃ s2 l2, run (((scaled U rfl).conv true).cfg cfg) 20 (((scaled U rfl).conv true).st start) [] = some (.ok (s2, l2)) ∧
    s2.reports.map (fun r => (r.players, r.atTime)) = [([0, 99], 500), ([1, 99], 1000), ([0, 1], 1000)] := by
  intro U
  have h := story
  cases hr : run cfg 20 start [] with
  | none => rw [hr] at h; cases h
  | some r =>
    cases r with
    | error e => rw [hr] at h; cases h
    | ok r =>
      obtain ⟨s1, l1⟩ := r
      rw [hr] at h
      obtain ⟨s2, l2, h2, -, -, -, h3, -⟩ := C159_log_partial (scaled U rfl) true cfg 20 start s1 l1 hr
      refine ⟨s2, l2, h2, ?_⟩
      have h4 := congrArg (List.map (fun z => (z.1, z.2.1))) h3
      have h5 := congrArg (List.map (fun z : List Nat × ℚ => (z.1, U.time * z.2))) h
      simp only [List.map_map, Function.comp_def] at h4 h5
      refine h4.trans (h5.trans ?_)
      norm_num [U]

end Discs

end Units
end Whole
end Verif
