import Verif.Sim.Invariant
import Mathlib.Data.Rat.Floor

/-!
# A small concrete world, used in the examples beside the theorems about the simulator

Three cars on a line. A car is its position; its footprint is an interval of length one around it.
Every agent remembers how often it was asked. A collision is reported for the pair each time it is
examined while touching. There is a wall at 30.
-/

namespace Verif
namespace Sim
namespace Toy

/-- Speed commanded by each agent, slower after the third request. -/
def speed (n asked : Nat) : ℚ :=
  if n = 1 then -1 else if asked < 3 then 1 else 1 / 2

/-- The world: `W` counts the requests of each agent. -/
abbrev wd : World Nat ℚ where
  W := Nat → Nat
  M := ℚ
  X := ℚ
  P := ℚ
  C := ℚ
  I := Nat
  E := Nat
  O := ℚ
  D := ℚ
  G := ℚ
  getState m := m
  footprint m := m
  isDyn _ := false
  onInit w _ := .ok w
  sense w _ o := .ok (w, o)
  getCommands w n _ := .ok (Function.update w n (w n + 1), speed n (w n), w n)
  getExtra w n := .ok (w, if w n = 2 then some 7 else none)
  update w _ m c dt := .ok (w, m + c * dt)
  fulfilled w _ g x _ := .ok (w, decide (g ≤ x))
  envQuery _ p := if 30 ≤ p then [30] else []
  env := 99
  resolveEnv w _ m _ _ := ((w, m), .ok (some 1))
  touch a b := decide (a - b ≤ 1 ∧ b - a ≤ 1)
  resolve w _ m₁ _ m₂ _ := ((w, m₁, m₂), .ok (some (m₁ + m₂)))

/-- Steps of 1/2, requests every second, at most 6 seconds, one more second after a collision.
Cars 2 and 0 have missions. -/
def cfg : Cfg wd where
  dt := 1 / 2
  dtCommands := 1
  maxSimTime := 6
  afterCollision := 1
  missions := [(2, (21 : ℚ)), (0, (100 : ℚ))]

/-- Cars at 0, 5 and 20; the shared dictionaries contain leftovers. -/
def start : St wd where
  models := [(0, (0 : ℚ)), (1, (5 : ℚ)), (2, (20 : ℚ))]
  players := [0, 1, 2]
  w := fun _ => 0
  time := 0
  terminated := false
  reports := []
  firstColl := none
  lastObs := ⟨[(9, ((3 : ℚ), (3 : ℚ)))], 77⟩
  lastCmdTs := none
  lastCmds := [(1, (55 : ℚ))]
  logger := [(8, {})]
  trace := []

theorem fresh : Fresh start where
  time := rfl
  terminated := rfl
  reports := rfl
  firstColl := rfl
  lastCmdTs := rfl
  wfModels := by unfold Dict.Wf; decide
  players := by decide
  keys := by intro n; rfl
  trace := rfl

/-- The value of an outcome, or a default. -/
def orElse {α : Type} (d : α) : Except SimErr α → α
  | .ok a => a
  | .error _ => d

def isOk {α : Type} : Except SimErr α → Bool
  | .ok _ => true
  | .error _ => false

theorem eq_ok {α : Type} (d : α) {x : Except SimErr α} (h : isOk x = true) : x = .ok (orElse d x) := by
  cases x with
  | ok a => rfl
  | error e => cases h

/-- The states of the execution. -/
def σ : Nat → St wd
  | 0 => orElse start (initLoop start start.players)
  | j + 1 => orElse (σ j) (step cfg (σ j))

theorem ready : Ready (σ 0) := by
  have h : initLoop start start.players = .ok (σ 0) := eq_ok start (by decide +kernel)
  exact ((safe_initLoop_fresh start fresh).ok h).1

theorem exec : Exec cfg σ 7 := by
  intro i hi
  have h : ∀ i < 7, (σ i).terminated = false ∧ isOk (step cfg (σ i)) = true := by decide +kernel
  exact ⟨(h i hi).1, eq_ok (σ i) (h i hi).2⟩

theorem exec_le {j : Nat} (hj : j ≤ 7) : Exec cfg σ j := fun i hi => exec i (by omega)

theorem dt_pos : 0 < cfg.dt := by decide +kernel

theorem wf : Dict.Wf cfg.missions := by unfold Dict.Wf; decide

theorem period_eq : period cfg = 2 := by decide +kernel

/-- What happens: car 2 reaches its goal at time 1 and leaves; cars 0 and 1 touch from time 2 on;
the run ends at 3.5. -/
theorem story :
    (σ 1).players = [0, 1, 2] ∧ (σ 2).players = [0, 1] ∧ (σ 7).players = [0, 1] ∧
      (σ 3).reports.length = 0 ∧ (σ 4).reports.length = 1 ∧ (σ 6).reports.length = 3 ∧
      (σ 4).firstColl = some 2 ∧ (σ 6).terminated = false ∧ (σ 7).terminated = true ∧
      (σ 7).time = 7 / 2 := by
  decide +kernel

/-- The outcome of `run`. -/
def result : St wd × Dict Nat (PlayerLog wd) :=
  match run cfg 50 start [] with
  | some (.ok r) => r
  | _ => (start, [])

theorem run_eq : run cfg 50 start [] = some (.ok result) := by
  have h : (match run cfg 50 start [] with | some (.ok _) => true | _ => false) = true := by
    decide +kernel
  unfold result
  cases hr : run cfg 50 start [] with
  | none => rw [hr] at h; cases h
  | some x =>
    cases x with
    | ok r => rfl
    | error e => rw [hr] at h; cases h

end Toy
end Sim
end Verif
