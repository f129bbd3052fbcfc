import Verif.Whole.Model
import Verif.Sim.Toy

/-!
# A concrete whole: three cars on a line and a wall

Used to show that the hypotheses of the theorems of this folder hold for runs in which something happens.
-/

namespace Verif
namespace Whole
namespace Toy

open Sim Coll

/-- The agents count their requests and command an acceleration; models are those of `Coll.toyF`; there is a
wall at 30. -/
abbrev parts : Parts Nat ℚ toyF.M toyF.S where
  A := Nat
  V := Unit
  X := ℚ × ℚ
  C := ℚ
  I := Nat
  E := Nat
  G := ℚ
  getState m := (m.1, m.2.1.1.1)
  isDyn _ := false
  onInit _ n := .ok n
  sense v _ o := .ok (v, o)
  ask a o := .ok (a + 1, (if o.time < 1 then 1 else 0), a)
  extra a := .ok (a, if a = 2 then some 7 else none)
  update v _ m c dt := .ok (v, ((m.1 + m.2.1.1.1 * dt, ((m.2.1.1.1 + c * dt, m.2.1.1.2), m.2.1.2), m.2.2) :
    ℚ × ((ℚ × ℚ) × ℚ) × Bool))
  fulfilled v _ g x _ := .ok (v, decide (g ≤ x.1))
  envQuery _ s := if 29 ≤ s then [((30 : ℚ), ⟨none, none, 1 / 2⟩)] else []

abbrev wd : World Nat ℚ := world toyF true parts

/-- Steps of 1/2, requests every second, at most 6 seconds, four more seconds after a collision. -/
def cfg : Cfg wd where
  dt := 1 / 2
  dtCommands := 1
  maxSimTime := 6
  afterCollision := 4
  missions := []

/-- Cars at 0 and 6 towards each other, a car at 25 towards the wall. -/
def start : St wd where
  models := [(0, ((0 : ℚ), (((4 : ℚ), (0 : ℚ)), (0 : ℚ)), false)),
    (1, ((6 : ℚ), (((-2 : ℚ), (0 : ℚ)), (0 : ℚ)), false)),
    (2, ((25 : ℚ), (((2 : ℚ), (0 : ℚ)), (0 : ℚ)), false))]
  players := [0, 1, 2]
  w := (fun _ => (0 : Nat), ())
  time := 0
  terminated := false
  reports := []
  firstColl := none
  lastObs := ⟨[], 0⟩
  lastCmdTs := none
  lastCmds := []
  logger := []
  trace := []

theorem fresh : Fresh start where
  time := rfl
  terminated := rfl
  reports := rfl
  firstColl := rfl
  lastCmdTs := rfl
  wfModels := by unfold Dict.Wf; decide
  players := by decide
  keys := by intro n; rfl
  trace := rfl

/-- The states of the execution. -/
def σ : Nat → St wd
  | 0 => Sim.Toy.orElse start (initLoop start start.players)
  | j + 1 => Sim.Toy.orElse (σ j) (step cfg (σ j))

theorem ready : Ready (σ 0) := by
  have h : initLoop start start.players = .ok (σ 0) := Sim.Toy.eq_ok start (by decide +kernel)
  exact ((safe_initLoop_fresh start fresh).ok h).1

theorem exec : Exec cfg σ 6 := by
  intro i hi
  have h : ∀ i < 6, (σ i).terminated = false ∧ Sim.Toy.isOk (step cfg (σ i)) = true := by decide +kernel
  exact ⟨(h i hi).1, Sim.Toy.eq_ok (σ i) (h i hi).2⟩

theorem dt_pos : 0 < cfg.dt := by decide +kernel

theorem wf : Dict.Wf cfg.missions := by unfold Dict.Wf; decide

/-- What happens: cars 0 and 1 collide at time 1, car 2 hits the wall at time 2. -/
theorem story :
    (σ 6).reports.map (fun r => (r.players, r.atTime, r.data.isSome)) =
      [([0, 1], 1, true), ([2, 99], 2, true)] ∧ (σ 6).time = 3 ∧
    (σ 6).models = [(0, ((21 / 4 : ℚ), (((1 / 2 : ℚ), (0 : ℚ)), (0 : ℚ)), true)),
      (1, ((45 / 4 : ℚ), (((7 / 2 : ℚ), (0 : ℚ)), (0 : ℚ)), true)),
      (2, ((115 / 4 : ℚ), (((-3 / 2 : ℚ), (0 : ℚ)), (0 : ℚ)), true))] := by
  decide +kernel

theorem clean : ∀ n m, Dict.get? (σ 0).models n = some m → toyF.hasCollided m = false := by
  have h : (σ 0).models = start.models := by decide +kernel
  rw [h]
  intro n m hm
  simp only [start, Dict.get?] at hm
  split_ifs at hm <;> (injection hm with hm; subst hm; rfl)

theorem lawful (dt : ℚ) : Lawful toyF parts dt where
  marked _ := rfl
  setVelocity _ _ _ := rfl
  update v n m c v' m' h := by
    injection h with h
    injection h with _ h
    subst h
    rfl
  dynMark _ := rfl
  dynVelocity _ _ _ := rfl
  dynUpdate _ _ _ _ _ _ _ := rfl

end Toy
end Whole
end Verif
