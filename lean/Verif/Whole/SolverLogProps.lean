import Verif.Whole.DrivenProps
import Verif.Phys.SolverProps

/-!
# C147 in a simulation: logged states of vehicles with the solver of the code
-/

namespace Verif
namespace Whole

open Sim Coll

variable {N K : Type} [DecidableEq N] [Field K] [LinearOrder K] {sc : Bool}

/-- **C147.** Kinematic vehicles whose updates are made by the solver of the code, in whatever steps: every
logged state of a vehicle that starts within its limits and is named in no report exceeds them by at most
0.4654 of what its largest rates give in one period of the simulation. -/
theorem C147_log [IsStrictOrderedRing K] [FloorSemiring K] {F : Iface N K} {R : Parts N K F.M F.S}
    {cfg : Cfg (world F sc R)} (hL : Lawful F R cfg.dt) (hdt : 0 < cfg.dt) (hm : Dict.Wf cfg.missions) {fuel : Nat}
    {s s' : St (world F sc R)} {log log' : Dict N (PlayerLog (world F sc R))} (hf : Fresh s)
    (hrun : run cfg fuel s log = some (.ok (s', log'))) (n : N) (m0 : F.M)
    (hn : Dict.get? s.models n = some m0) (hdyn : R.isDyn m0 = false) (hnot : ¬ Named s'.reports n)
    (T : Phys.Trig K) (wb lr : K) (p : Phys.VehicleParams K) (hp : p.Valid) (look : R.X → VehicleState K)
    (hsolve : ∀ v m c v' m', R.update v n m c cfg.dt = .ok (v', m') →
      ∃ drops u hs, (∀ h ∈ hs, 0 < h) ∧ hs.sum = cfg.dt ∧ look (R.getState m') =
        Phys.vehicleSolve T wb lr p Phys.dormandPrince drops u hs (look (R.getState m)))
    (v1 : p.vxMin ≤ (look (R.getState m0)).vx) (v2 : (look (R.getState m0)).vx ≤ p.vxMax)
    (d : |(look (R.getState m0)).delta| ≤ p.deltaMax) :
    ∃ pl, Dict.get? log' n = some pl ∧ pl.states.vs ≠ [] ∧
      ∀ x ∈ pl.states.vs, p.vxMin - 4654 / 10000 * (max (-p.accMin) 0 * cfg.dt) ≤ (look x).vx ∧
        (look x).vx ≤ p.vxMax + 4654 / 10000 * (max p.accMax 0 * cfg.dt) ∧
        |(look x).delta| ≤ p.deltaMax + 4654 / 10000 * (p.ddeltaMax * cfg.dt) := by
  obtain ⟨pl, h1, h2, h3⟩ := C99_log hL hdt hm hf hrun n m0 hn hdyn hnot
    (fun m => Phys.NearLimits p cfg.dt (look (R.getState m))) (Phys.within_of_limits hp hdt.le v1 v2 d)
    (fun v m c v' m' hu hq => by
      obtain ⟨drops, u, hs, g1, g2, g3⟩ := hsolve v m c v' m' hu
      rw [g3]
      refine Phys.within_solve T wb lr hp hdt.le drops u hs (fun h hh => ⟨g1 h hh, ?_⟩) hq
      rw [← g2]
      exact List.single_le_sum (fun a ha => (g1 a ha).le) h hh)
  refine ⟨pl, h1, h2, fun x hx => ?_⟩
  obtain ⟨m, hq, rfl⟩ := h3 x hx
  exact ⟨hq.1.1, hq.1.2, abs_le.mpr ⟨by linarith [hq.2.1], hq.2.2⟩⟩

/-! ## A concrete case -/

section Racing

/-- A single vehicle (state, flag); there is nothing else. -/
abbrev raceF : Iface Nat ℚ where
  M := VehicleState ℚ × Bool
  S := Unit
  L := Unit
  Q := Unit
  Lane := Unit
  footprint _ := ()
  pose _ := ()
  translation _ := (0, 0)
  velocity m := ((m.1.vx, 0), 0)
  setVelocity m v _ := ({ m.1 with vx := v.1 }, m.2)
  geom _ := ⟨some 2, some 3, 1 / 2⟩
  hasCollided m := m.2
  mark m := (m.1, true)
  mesh _ := []
  intersects _ _ := false
  impactGeometry _ _ := .error .collision
  lanesAt _ := []
  lanePose _ _ := (true, true)
  toPolygon s := .ok s
  everywhere := ()
  envPlayer := 99

/-- Straight driving only needs these values. -/
def straight : Phys.Trig ℚ := ⟨fun _ => 0, fun _ => 1, fun _ => 0⟩

/-- The vehicle is the default car and always asked for full acceleration; every update is made in two
steps. -/
abbrev raceParts : Parts Nat ℚ raceF.M raceF.S where
  A := Unit
  V := Unit
  X := VehicleState ℚ
  C := ℚ × ℚ
  I := Unit
  E := Unit
  G := Unit
  getState m := m.1
  isDyn _ := false
  onInit a _ := .ok a
  sense v _ o := .ok (v, o)
  ask a _ := .ok (a, (5, 0), ())
  extra a := .ok (a, none)
  update v _ m c dt := .ok (v, (Phys.vehicleSolve straight 3 1 Phys.stdCar Phys.dormandPrince false c
    [dt / 2, dt / 2] m.1, m.2))
  fulfilled v _ _ _ _ := .ok (v, false)
  envQuery _ _ := []

abbrev raceCfg : Cfg (world raceF true raceParts) :=
  { dt := 1 / 10, dtCommands := 1 / 10, maxSimTime := 1 / 2, afterCollision := 4, missions := [] }

def raceStart : St (world raceF true raceParts) where
  models := [(1, ((⟨0, 0, 0, 36, 0⟩ : VehicleState ℚ), false))]
  players := [1]
  w := (fun _ => (), ())
  time := 0
  terminated := false
  reports := []
  firstColl := none
  lastObs := ⟨[], 0⟩
  lastCmdTs := none
  lastCmds := []
  logger := []
  trace := []

/-- The run ends without a report, and in it the car exceeds its top speed. -/
theorem race_run : (match run raceCfg 20 raceStart [] with
    | some (.ok (s', log')) => s'.reports.isEmpty &&
        (Dict.get? log' 1).any (fun pl => pl.states.vs.any fun x => decide (325 / 9 < x.vx))
    | _ => false) = true := by
  decide +kernel

/-- The hypotheses of `C147_log` are met. -/
example : ∃ (s' : St (world raceF true raceParts)) (log' : Dict Nat (PlayerLog (world raceF true raceParts))),
    run raceCfg 20 raceStart [] = some (.ok (s', log')) ∧ ∃ pl, Dict.get? log' 1 = some pl ∧
    pl.states.vs ≠ [] ∧ ∀ x ∈ pl.states.vs, x.vx ≤ 325 / 9 + 24 / 100 := by
  have h := race_run
  cases hr : run raceCfg 20 raceStart [] with
  | none => rw [hr] at h; cases h
  | some r =>
    cases r with
    | error e => rw [hr] at h; cases h
    | ok r =>
      obtain ⟨s', log'⟩ := r
      rw [hr] at h
      have hfresh : Fresh raceStart := ⟨rfl, rfl, rfl, rfl, rfl, by simp [Dict.Wf, raceStart, Dict.keys],
        by simp [raceStart], by simp [raceStart, Dict.keys], rfl⟩
      have hL : Lawful raceF raceParts raceCfg.dt := by
        refine ⟨fun _ => rfl, fun _ _ _ => rfl, fun v n m c v' m' h => ?_, fun _ => rfl, fun _ _ _ => rfl,
          fun _ _ _ _ _ _ _ => rfl⟩
        injection h with h
        injection h with _ h
        rw [← h]
      obtain ⟨pl, h1, h2, h3⟩ := C147_log hL (by norm_num) (by simp [Dict.Wf, Dict.keys]) hfresh hr 1
        ((⟨0, 0, 0, 36, 0⟩ : VehicleState ℚ), false) rfl rfl
        (by rw [List.isEmpty_iff.mp (Bool.and_eq_true_iff.mp h).1]; simp [Named]) straight 3 1 Phys.stdCar Phys.stdCar_valid
        (fun x => x) (fun v m c v' m' h => by
          injection h with h
          injection h with _ h
          refine ⟨false, c, [raceCfg.dt / 2, raceCfg.dt / 2], by simp, by norm_num, ?_⟩
          rw [← h])
        (by decide +kernel) (by decide +kernel) (by decide +kernel)
      refine ⟨s', log', rfl, pl, h1, h2, fun x hx => (h3 x hx).2.1.trans ?_⟩
      norm_num [Phys.stdCar]

end Racing

end Whole
end Verif
