import Verif.Whole.Model
import Verif.Sim.HomProps
import Verif.Coll.FrameProps
import Verif.Phys.SolverFrameProps

/-!
# C151: whole simulations do not depend on the world frame
-/

namespace Verif
namespace Whole

open Sim Coll

section Spec
variable {N K : Type} [DecidableEq N] [Field K] [LinearOrder K]

/-- Specification: agents, sensors, models, goals and obstacles as seen from another frame. Every one of them gives for what
it is told in the other frame the answer that it gives in the first one, as seen from the other; no obstacle can be turned. -/
structure MovedParts {T : Congr K} {F F' : Iface N K} (h : Moved T F F') (R : Parts N K F.M F.S) (R' : Parts N K F'.M F'.S)
    where
  fa : R.A → R'.A
  fv : R.V → R'.V
  fx : R.X → R'.X
  fc : R.C → R'.C
  fi : R.I → R'.I
  fe : R.E → R'.E
  fg : R.G → R'.G
  getState : ∀ m, R'.getState (h.fm m) = fx (R.getState m)
  isDyn : ∀ m, R'.isDyn (h.fm m) = R.isDyn m
  onInit : ∀ a n, R'.onInit (fa a) n = (R.onInit a n).map fa
  sense : ∀ v n o, R'.sense (fv v) n (o.conv fx h.fs) = (R.sense v n o).map (Prod.map fv (Obs.conv fx h.fs))
  ask : ∀ a o, R'.ask (fa a) (o.conv fx h.fs) = (R.ask a o).map (Prod.map fa (Prod.map fc fi))
  extra : ∀ a, R'.extra (fa a) = (R.extra a).map (Prod.map fa (Option.map fe))
  update : ∀ v n m c dt, R'.update (fv v) n (h.fm m) (fc c) dt = (R.update v n m c dt).map (Prod.map fv h.fm)
  fulfilled : ∀ v n g x t, R'.fulfilled (fv v) n (fg g) (fx x) t = (R.fulfilled v n g x t).map (Prod.map fv id)
  envQuery : ∀ v s, R'.envQuery (fv v) (h.fs s) = (R.envQuery v s).map (Prod.map h.fs id)
  heavy : ∀ v s, ∀ o ∈ R.envQuery v s, o.2.Iz = none

variable {T : Congr K} {F F' : Iface N K} {h : Moved T F F'} {R : Parts N K F.M F.S} {R' : Parts N K F'.M F'.S}

theorem update_fa {A A' : Type} (f : A → A') (w : N → A) (n : N) (a : A) :
    (fun k => f (Function.update w n a k)) = Function.update (fun k => f (w k)) n (f a) := by
  funext k
  by_cases hk : k = n
  · subst hk; simp
  · simp [Function.update_of_ne hk]

/-- The simulation in the other frame. -/
def MovedParts.hom (p : MovedParts h R R') (scenario : Bool) : Hom (world F scenario R) (world F' scenario R') where
  fw w := (fun n => p.fa (w.1 n), p.fv w.2)
  fm := h.fm
  fx := p.fx
  fp := h.fs
  fc := p.fc
  fi := p.fi
  fe := p.fe
  fo := Prod.map h.fs id
  fd := h.report
  fg := p.fg
  real o := o.2.Iz = none
  getState := p.getState
  footprint := h.footprint
  isDyn := p.isDyn
  onInit w n := by
    simp only [p.onInit]
    cases R.onInit (w.1 n) n with
    | error e => rfl
    | ok a => simp only [Except.map, update_fa]
  sense w n o := by
    simp only [p.sense]
    cases R.sense w.2 n o with
    | error e => rfl
    | ok a => rfl
  getCommands w n o := by
    simp only [p.ask]
    cases R.ask (w.1 n) o with
    | error e => rfl
    | ok a => simp only [Except.map, Prod.map, update_fa]
  getExtra w n := by
    simp only [p.extra]
    cases R.extra (w.1 n) with
    | error e => rfl
    | ok a => simp only [Except.map, Prod.map, update_fa]
  update w n m c dt := by
    simp only [p.update]
    cases R.update w.2 n m c dt with
    | error e => rfl
    | ok a => rfl
  fulfilled w n g x t := by
    simp only [p.fulfilled]
    cases R.fulfilled w.2 n g x t with
    | error e => rfl
    | ok a => rfl
  envQuery w s := p.envQuery w.2 s
  envReal w s := p.heavy w.2 s
  env := h.envPlayer
  resolveEnv w n m o t ho := by
    have := C151_resolveEnv_partial h t n m o.1 o.2 ho
    simp only [Prod.map, id, this]
  touch := h.intersects
  resolve w a m b m' t := by
    have := C151_resolve h scenario t a m b m'
    simp only [this]
    rfl

/-- **C151.** A simulation seen from another frame, in which everything is shifted, turned or reflected alike: the run ends
or not after the same number of steps, raises the same exception, or returns the same players, times, reports and logs, with
all models, states, commands, velocities, impact points and normals as seen from there. -/
theorem C151_run (p : MovedParts h R R') (scenario : Bool) (cfg : Cfg (world F scenario R)) (fuel : Nat)
    (s : St (world F scenario R)) (log : Dict N (PlayerLog (world F scenario R))) :
    run (cfg.conv (p.hom scenario)) fuel (s.conv (p.hom scenario)) (mapD (PlayerLog.conv (p.hom scenario)) log) =
      (run cfg fuel s log).map (Except.map
        (Prod.map (St.conv (p.hom scenario)) (mapD (PlayerLog.conv (p.hom scenario))))) :=
  conv_run (p.hom scenario) cfg fuel s log

/-- **C151.** In particular: the same times and players, the reports of the same players at the same times with the moved
content, and for every player the moved states and commands at the same times. -/
theorem C151_log (p : MovedParts h R R') (scenario : Bool) (cfg : Cfg (world F scenario R)) (fuel : Nat)
    (s s1 : St (world F scenario R)) (l1 : Dict N (PlayerLog (world F scenario R)))
    (hr : run cfg fuel s [] = some (.ok (s1, l1))) :
    ∃ s2 l2, run (cfg.conv (p.hom scenario)) fuel (s.conv (p.hom scenario)) [] = some (.ok (s2, l2)) ∧
      s2.time = s1.time ∧ s2.players = s1.players ∧
      s2.reports.map (fun r => (r.players, r.atTime, r.data)) =
        s1.reports.map (fun r => (r.players, r.atTime, r.data.map h.report)) ∧
      ∀ n, (Dict.get? l2 n).map (fun l => (l.states.ts, l.states.vs, l.commands.ts, l.commands.vs)) =
        (Dict.get? l1 n).map
          (fun l => (l.states.ts, l.states.vs.map p.fx, l.commands.ts, l.commands.vs.map p.fc)) := by
  have h' := C151_run p scenario cfg fuel s []
  rw [hr] at h'
  refine ⟨_, _, h', rfl, rfl, by
    simp only [St.conv, Report.conv, List.map_map, Function.comp_def, Prod.map]; rfl, ?_⟩
  intro n
  rw [get?_mapD]
  cases Dict.get? l1 n <;> rfl

end Spec

/-! ## The models of the library

The laws that `Moved` and `MovedParts` ask of models: `update` is C149; here are the velocities. -/

section Models
open Phys

/-- The change of frame of C149 as a congruence. -/
noncomputable def turned (al : ℝ) (t : ℝ × ℝ) : Congr ℝ :=
  ⟨Real.cos al, Real.sin al, t.1, t.2, 1, Real.cos_sq_add_sin_sq al, Or.inl rfl⟩

/-- Specification: reading and setting velocities in the world frame commutes with a change of the frame. -/
def VelocityMoves {S : Type} (moved : S → S) (T : Congr ℝ) (get : S → Bool → (ℝ × ℝ) × ℝ)
    (set : S → ℝ × ℝ → ℝ → Bool → S) : Prop :=
  (∀ s, get (moved s) false = T.twist (get s false)) ∧ ∀ s v w, set (moved s) (T.turn v) (T.flip * w) false = moved (set s v w false)

theorem out_moves (al : ℝ) (t : ℝ × ℝ) (psi : ℝ) (v : ℝ × ℝ) :
    outFrame (psi + al) false v = (turned al t).turn (outFrame psi false v) := by
  simp only [outFrame, rotBy, turned, Congr.turn, Real.cos_add, Real.sin_add, Bool.false_eq_true, if_false, Prod.mk.injEq]
  constructor <;> ring

theorem in_moves (al : ℝ) (t : ℝ × ℝ) (psi : ℝ) (v : ℝ × ℝ) :
    inFrame (psi + al) false ((turned al t).turn v) = inFrame psi false v := by
  have h := Real.cos_sq_add_sin_sq al
  simp only [inFrame, rotBy, turned, Congr.turn, Real.cos_neg, Real.sin_neg, Real.cos_add, Real.sin_add, Bool.false_eq_true,
    if_false, Prod.mk.injEq]
  constructor
  · linear_combination (Real.cos psi * v.1 + Real.sin psi * v.2) * h
  · linear_combination (Real.cos psi * v.2 - Real.sin psi * v.1) * h

/-- **C151.** Kinematic vehicle. -/
theorem C151_vehicle (wb lr al : ℝ) (t : ℝ × ℝ) : VelocityMoves (movedV al t) (turned al t)
    (VehicleState.getVelocity wb lr) VehicleState.setVelocity := by
  refine ⟨fun s => ?_, fun s v w => ?_⟩
  · simp only [VehicleState.getVelocity, movedV, out_moves al t, Congr.twist]
    simp [turned]
  · simp only [VehicleState.setVelocity, movedV, in_moves al t]

/-- **C151.** Dynamic vehicle. -/
theorem C151_vehicleDyn (al : ℝ) (t : ℝ × ℝ) : VelocityMoves (movedD al t) (turned al t)
    VehicleStateDyn.getVelocity VehicleStateDyn.setVelocity := by
  refine ⟨fun s => ?_, fun s v w => ?_⟩
  · simp only [VehicleStateDyn.getVelocity, movedD, out_moves al t, Congr.twist]
    simp [turned]
  · simp only [VehicleStateDyn.setVelocity, movedD, in_moves al t]

/-- **C151.** Pedestrian. -/
theorem C151_pedestrian (al : ℝ) (t : ℝ × ℝ) : VelocityMoves (movedP al t) (turned al t)
    PedestrianState.getVelocity PedestrianState.setVelocity := by
  refine ⟨fun s => ?_, fun s v w => ?_⟩
  · simp only [PedestrianState.getVelocity, movedP, out_moves al t, Congr.twist]
    simp [turned]
  · simp only [PedestrianState.setVelocity, movedP, in_moves al t]
    simp [turned]

/-- **C151.** Spacecraft. -/
theorem C151_spacecraft (al : ℝ) (t : ℝ × ℝ) : VelocityMoves (movedC al t) (turned al t)
    SpacecraftState.getVelocity SpacecraftState.setVelocity := by
  refine ⟨fun s => ?_, fun s v w => ?_⟩
  · simp only [SpacecraftState.getVelocity, movedC, out_moves al t, Congr.twist]
    simp [turned]
  · simp only [SpacecraftState.setVelocity, movedC, in_moves al t]
    simp [turned]

/-- **C151.** Spaceship. -/
theorem C151_spaceship (al : ℝ) (t : ℝ × ℝ) : VelocityMoves (movedS al t) (turned al t)
    SpaceshipState.getVelocity SpaceshipState.setVelocity := by
  refine ⟨fun s => ?_, fun s v w => ?_⟩
  · simp only [SpaceshipState.getVelocity, movedS, out_moves al t, Congr.twist]
    simp [turned]
  · simp only [SpaceshipState.setVelocity, movedS, in_moves al t]
    simp [turned]

/-- **C151.** Moving obstacle. -/
theorem C151_dynObstacle (al : ℝ) (t : ℝ × ℝ) : VelocityMoves (movedO al t) (turned al t)
    DynObstacleState.getVelocity DynObstacleState.setVelocity := by
  refine ⟨fun s => ?_, fun s v w => ?_⟩
  · simp only [DynObstacleState.getVelocity, movedO, out_moves al t, Congr.twist]
    simp [turned]
  · simp only [DynObstacleState.setVelocity, movedO, in_moves al t]
    simp [turned]

/-- **C151.** Differential drive, which always reports rest and ignores the impulse. -/
theorem C151_diffDrive (al : ℝ) (t : ℝ × ℝ) : VelocityMoves (movedR al t) (turned al t)
    DiffDriveState.getVelocity DiffDriveState.setVelocity := by
  refine ⟨fun s => ?_, fun s v w => rfl⟩
  simp [DiffDriveState.getVelocity, Congr.twist, Congr.turn]

/-- **C151 is false for rockets.** The dynamics keeps the velocity of a rocket in the world frame, `get_velocity` takes it
for one in the frame of the rocket and turns it: what a collision sees depends on the world frame. -/
theorem C151_false_rocket : ∃ al t, ¬ VelocityMoves (movedT al t) (turned al t)
    RocketState.getVelocity RocketState.setVelocity := by
  refine ⟨Real.pi / 2, (0, 0), fun h => ?_⟩
  have h := congrArg (fun z => z.1.2) (h.1 ⟨0, 0, 0, 1, 0, 0, 0, 0⟩)
  simp [RocketState.getVelocity, movedT, moveVec, movePoint, outFrame, rotBy, turned, Congr.twist, Congr.turn] at h

-- a car heading along the first axis at speed 5, seen from a frame turned by a quarter
example : (movedV (Real.pi / 2) (1, 2) ⟨3, 0, 0, 5, 0⟩).getVelocity 3 1 false = ((0, 5), 0) := by
  rw [(C151_vehicle 3 1 (Real.pi / 2) (1, 2)).1]
  simp [VehicleState.getVelocity, outFrame, rotBy, turned, Congr.twist, Congr.turn]

end Models

/-! ## An example -/

namespace Discs

/-- Agents of the discs know their name and where they want to go, and accelerate towards that point. -/
abbrev parts : Parts Nat ℚ discF.M discF.S where
  A := Nat × (ℚ × ℚ)
  V := List (ℚ × ℚ)
  X := (ℚ × ℚ) × ((ℚ × ℚ) × ℚ)
  C := ℚ × ℚ
  I := Unit
  E := Unit
  G := ℚ × ℚ
  getState m := (m.1, m.2.1)
  isDyn _ := false
  onInit a n := .ok (n, a.2)
  sense v _ o := .ok (v, o)
  ask a o := match Dict.get? o.players a.1 with
    | none => .error .key
    | some p => .ok (a, (a.2.1 - p.1.1.1, a.2.2 - p.1.1.2), ())
  extra a := .ok (a, none)
  update v _ m c dt := .ok (v, (((m.1.1 + m.2.1.1.1 * dt, m.1.2 + m.2.1.1.2 * dt),
    ((m.2.1.1.1 + c.1 * dt, m.2.1.1.2 + c.2 * dt), m.2.1.2), m.2.2) : (ℚ × ℚ) × ((ℚ × ℚ) × ℚ) × Bool))
  fulfilled v _ g x _ := .ok (v, discF.intersects g x.1)
  envQuery v s := (v.filter (discF.intersects s)).map (fun o => (o, ⟨none, none, 1 / 2⟩))

/-- The discs with their agents, goals and obstacles look alike from everywhere. -/
def moved (T : Congr ℚ) : MovedParts (discMoved T) parts parts where
  fa a := (a.1, T.app a.2)
  fv := List.map T.app
  fx x := (T.app x.1, T.twist x.2)
  fc := T.turn
  fi := id
  fe := id
  fg := T.app
  getState _ := rfl
  isDyn _ := rfl
  onInit _ _ := rfl
  sense _ _ _ := rfl
  ask a o := by
    simp only [Obs.conv]
    rw [get?_mapD]
    cases Dict.get? o.players a.1 with
    | none => rfl
    | some p =>
      have := app_sub T a.2 p.1.1
      simp only [armTo] at this
      simp only [Option.map, Except.map, Prod.map]
      rw [← this]
  extra _ := rfl
  update v n m c dt := by
    simp only [Except.map, Prod.map, discMoved, Congr.app, Congr.twist, Congr.turn, Except.ok.injEq, Prod.mk.injEq,
      true_and, and_true]
    refine ⟨⟨by ring, by ring⟩, by ring, by ring⟩
  fulfilled v n g x t := by
    have := (discMoved T).intersects g x.1
    exact congrArg (fun b => Except.ok (v.map T.app, b)) this
  envQuery v s := by
    simp only [List.filter_map, List.map_map]
    congr 1
    apply List.filter_congr
    intro p _
    exact (discMoved T).intersects s p
  heavy v s o ho := by
    simp only [List.mem_map] at ho
    obtain ⟨_, _, rfl⟩ := ho
    rfl

abbrev wd : World Nat ℚ := world discF true parts

def cfg : Cfg wd where
  dt := 1 / 2
  dtCommands := 1
  maxSimTime := 3
  afterCollision := 4
  missions := [(1, (20, 20))]

/-- Two discs that want to exchange their places, and an obstacle between them. -/
def start : St wd where
  models := [(0, (((0 : ℚ), (0 : ℚ)), (((1 : ℚ), (0 : ℚ)), (0 : ℚ)), false)),
    (1, (((5 : ℚ), (0 : ℚ)), (((-1 : ℚ), (1 / 2 : ℚ)), (0 : ℚ)), false))]
  players := [0, 1]
  w := (fun n => (0, if n = 0 then (5, 0) else (0, 0)), [(1, 1)])
  time := 0
  terminated := false
  reports := []
  firstColl := none
  lastObs := ⟨[], 0⟩
  lastCmdTs := none
  lastCmds := []
  logger := []
  trace := []

/-- Both discs hit the obstacle, and each other. -/
theorem story : (match run cfg 20 start [] with
    | some (.ok (s, _)) => s.reports.map (fun r => (r.players, r.atTime))
    | _ => []) = [([0, 99], 1 / 2), ([1, 99], 1), ([0, 1], 1)] := by
  decide +kernel

example : ∃ s2 l2, run (cfg.conv ((moved (triangle (-1) (Or.inr rfl))).hom true)) 20
      (start.conv ((moved (triangle (-1) (Or.inr rfl))).hom true)) [] = some (.ok (s2, l2)) ∧
    s2.reports.map (fun r => (r.players, r.atTime)) = [([0, 99], 1 / 2), ([1, 99], 1), ([0, 1], 1)] := by
  have h := story
  cases hr : run cfg 20 start [] with
  | none => rw [hr] at h; cases h
  | some r =>
    cases r with
    | error e => rw [hr] at h; cases h
    | ok r =>
      obtain ⟨s1, l1⟩ := r
      rw [hr] at h
      obtain ⟨s2, l2, h2, -, -, h3, -⟩ := C151_log (moved (triangle (-1) (Or.inr rfl))) true cfg 20 start s1 l1 hr
      refine ⟨s2, l2, h2, ?_⟩
      have h4 := congrArg (List.map (fun z => (z.1, z.2.1))) h3
      simp only [List.map_map, Function.comp_def] at h4
      exact h4.trans h

end Discs

end Whole
end Verif
