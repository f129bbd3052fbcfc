import Verif.Phys.Update
import Verif.Phys.MotionProps
import Verif.Phys.StateProps

/-!
# C94: integrating packed arrays is integrating the model
-/

namespace Verif
namespace Phys

/-- Specification: a curve of arrays of length `n` that solves `y' = rhs y` exactly on `[0, T]`, with a
right-hand side that never raises on the way. -/
def Solves (rhs : List ℝ → Except Err (List ℝ)) (n : Nat) (T : ℝ) (y : ℝ → List ℝ) : Prop :=
  (∀ t ∈ Set.Icc 0 T, (y t).length = n) ∧
  ∀ t ∈ Set.Icc 0 T, ∃ d, rhs (y t) = .ok d ∧
    ∀ i, HasDerivWithinAt (fun τ => (y τ).getD i 0) (d.getD i 0) (Set.Icc 0 T) t

/-- Specification: a curve of states along which every field changes at the given rate on `[0, T]`. -/
def Motion {S : Type} (arr : S → List ℝ) (rate : S → Except Err S) (T : ℝ) (s : ℝ → S) : Prop :=
  ∀ t ∈ Set.Icc 0 T, ∃ d, rate (s t) = .ok d ∧
    ∀ i, HasDerivWithinAt (fun τ => (arr (s τ)).getD i 0) ((arr d).getD i 0) (Set.Icc 0 T) t

/-- Specification: states survive the packing, commands are read back as `act` of what was packed. -/
structure Faithful {S U : Type} (m : UpdateOf S U) (act : U → U) : Prop where
  state : Verif.RoundTrip ℝ S m.nS m.toS m.fromS
  cmds : ∀ u, (m.toU u).length = m.nU
  read : ∀ s u, m.read (m.toS s ++ m.toU u) = .ok (act u)

variable {S U : Type}

theorem Faithful.unpack {m : UpdateOf S U} {act : U → U} (hm : Faithful m act) (s : S) (u : U) :
    m.unpack (m.pack s u) = .ok (s, act u) := by
  have h1 : (m.toS s ++ m.toU u).take m.nS = m.toS s := by
    rw [← hm.state.length s, List.take_left]
  simp only [UpdateOf.unpack, UpdateOf.pack, h1, hm.state.from_to, hm.read, bind, Except.bind, pure,
    Except.pure]

theorem Faithful.rhs {m : UpdateOf S U} {act : U → U} (hm : Faithful m act) (s : S) (u : U) :
    m.rhs (m.pack s u) = (m.rate s (act u)).map (fun d => m.toS d ++ List.replicate m.nU 0) := by
  simp only [UpdateOf.rhs, hm.unpack, bind, Except.bind, pure, Except.pure]
  cases m.rate s (act u) <;> rfl

theorem rhs_shape {m : UpdateOf S U} {y d : List ℝ} (h : m.rhs y = .ok d) :
    ∃ dx, d = m.toS dx ++ List.replicate m.nU 0 := by
  unfold UpdateOf.rhs at h
  cases h1 : m.unpack y with
  | error e => simp [h1, bind, Except.bind] at h
  | ok su =>
    simp only [h1, bind, Except.bind] at h
    cases h2 : m.rate su.1 su.2 with
    | error e => simp [h2] at h
    | ok dx =>
      simp only [h2, pure, Except.pure, Except.ok.injEq] at h
      exact ⟨dx, h.symm⟩

theorem getD_zeros (a : List ℝ) (n i : Nat) (h : a.length ≤ i) :
    (a ++ List.replicate n (0 : ℝ)).getD i 0 = 0 := by
  rw [List.getD_eq_getElem?_getD, List.getElem?_append_right h, List.getElem?_replicate]
  split <;> rfl

/-- **C94.** Exact solutions of the packed initial value problem of `update` are exactly the motions of
the model from the given state, under the commands read back, with the packed commands constant; the
state unpacked at any time is the state of the motion. -/
theorem C94_refines (m : UpdateOf S U) (act : U → U) (hm : Faithful m act) (T : ℝ) (hT : 0 ≤ T) (x0 : S)
    (u : U) (y : ℝ → List ℝ) (h0 : y 0 = m.pack x0 u) :
    Solves m.rhs (m.nS + m.nU) T y ↔
      ∃ s : ℝ → S, s 0 = x0 ∧ Motion m.toS (fun x => m.rate x (act u)) T s ∧
        ∀ t ∈ Set.Icc 0 T, y t = m.pack (s t) u ∧ m.unpack (y t) = .ok (s t, act u) := by
  have h00 : (0 : ℝ) ∈ Set.Icc 0 T := ⟨le_rfl, hT⟩
  constructor
  · rintro ⟨hlen, hy⟩
    have hex : ∀ t, ∃ s, t ∈ Set.Icc 0 T → m.fromS ((y t).take m.nS) = .ok s ∧
        m.toS s = (y t).take m.nS := by
      intro t
      by_cases ht : t ∈ Set.Icc 0 T
      · obtain ⟨s, hs⟩ := hm.state.to_from ((y t).take m.nS) (by
          rw [List.length_take, hlen t ht]; omega)
        exact ⟨s, fun _ => hs⟩
      · exact ⟨x0, fun h => absurd h ht⟩
    choose s hs using hex
    have hdrop : ∀ t ∈ Set.Icc 0 T, (y t).drop m.nS = m.toU u := by
      intro t ht
      have hl1 : ((y t).drop m.nS).length = m.nU := by rw [List.length_drop, hlen t ht]; omega
      refine List.ext_getElem (by rw [hl1, hm.cmds]) ?_
      intro i hi1 hi2
      have hconst := affine_of_const_deriv (f := fun τ => (y τ).getD (m.nS + i) 0) (T := T) (c := 0)
        (fun τ hτ => by
          obtain ⟨d, hd, hder⟩ := hy τ hτ
          obtain ⟨dx, rfl⟩ := rhs_shape hd
          have := hder (m.nS + i)
          rwa [getD_zeros _ _ _ (by rw [hm.state.length]; omega)] at this) t ht
      simp only [zero_mul, add_zero] at hconst
      have hi3 : m.nS + i < (y t).length := by rw [hlen t ht]; omega
      rw [List.getD_eq_getElem?_getD, List.getElem?_eq_getElem hi3, Option.getD_some, h0, UpdateOf.pack, List.getD_eq_getElem?_getD,
        List.getElem?_append_right (by rw [hm.state.length]; omega), hm.state.length,
        Nat.add_sub_cancel_left, List.getElem?_eq_getElem hi2] at hconst
      rw [List.getElem_drop, hconst]
      rfl
    have hpack : ∀ t ∈ Set.Icc 0 T, y t = m.pack (s t) u := by
      intro t ht
      rw [UpdateOf.pack, (hs t ht).2, ← hdrop t ht, List.take_append_drop]
    refine ⟨s, ?_, ?_, fun t ht => ⟨hpack t ht, by rw [hpack t ht, hm.unpack]⟩⟩
    · have := (hs 0 h00).1
      rw [h0, UpdateOf.pack, ← hm.state.length x0, List.take_left, hm.state.from_to] at this
      exact (Except.ok.inj this).symm
    · intro t ht
      obtain ⟨d, hd, hder⟩ := hy t ht
      rw [hpack t ht, hm.rhs] at hd
      cases hr : m.rate (s t) (act u) with
      | error e => rw [hr] at hd; cases hd
      | ok dx =>
        rw [hr] at hd
        simp only [Except.map, Except.ok.injEq] at hd
        subst hd
        refine ⟨dx, hr, fun i => ?_⟩
        by_cases hi : i < m.nS
        · have h1 := hder i
          have e1 : (m.toS dx ++ List.replicate m.nU 0).getD i 0 = (m.toS dx).getD i 0 := by
            rw [List.getD_eq_getElem?_getD, List.getElem?_append_left (by rw [hm.state.length]; exact hi),
              ← List.getD_eq_getElem?_getD]
          rw [e1] at h1
          have e2 : ∀ τ ∈ Set.Icc 0 T, (m.toS (s τ)).getD i 0 = (y τ).getD i 0 := by
            intro τ hτ
            rw [hpack τ hτ, UpdateOf.pack, List.getD_eq_getElem?_getD (l := _ ++ _),
              List.getElem?_append_left (by rw [hm.state.length]; exact hi),
              ← List.getD_eq_getElem?_getD]
          exact h1.congr e2 (e2 t ht)
        · have e1 : ∀ x, (m.toS x).getD i 0 = 0 := by
            intro x
            rw [List.getD_eq_getElem?_getD, List.getElem?_eq_none (by rw [hm.state.length]; omega)]
            rfl
          simp only [e1]
          exact hasDerivWithinAt_const _ _ _
  · rintro ⟨s, hs0, hmot, hy⟩
    refine ⟨fun t ht => ?_, fun t ht => ?_⟩
    · rw [(hy t ht).1, UpdateOf.pack, List.length_append, hm.state.length, hm.cmds]
    · obtain ⟨d, hd, hder⟩ := hmot t ht
      refine ⟨m.toS d ++ List.replicate m.nU 0, ?_, fun i => ?_⟩
      · have hd : m.rate (s t) (act u) = .ok d := hd
        rw [(hy t ht).1, hm.rhs, hd]; rfl
      · by_cases hi : i < m.nS
        · have h1 := hder i
          have e1 : (m.toS d ++ List.replicate m.nU 0).getD i 0 = (m.toS d).getD i 0 := by
            rw [List.getD_eq_getElem?_getD, List.getElem?_append_left (by rw [hm.state.length]; exact hi),
              ← List.getD_eq_getElem?_getD]
          rw [e1]
          have e2 : ∀ τ ∈ Set.Icc 0 T, (y τ).getD i 0 = (m.toS (s τ)).getD i 0 := by
            intro τ hτ
            rw [(hy τ hτ).1, UpdateOf.pack, List.getD_eq_getElem?_getD (l := _ ++ _),
              List.getElem?_append_left (by rw [hm.state.length]; exact hi),
              ← List.getD_eq_getElem?_getD]
          exact h1.congr e2 (e2 t ht)
        · rw [getD_zeros _ _ _ (by rw [hm.state.length]; omega)]
          have e2 : ∀ τ ∈ Set.Icc 0 T, (y τ).getD i 0 = (m.toU u).getD (i - m.nS) 0 := by
            intro τ hτ
            rw [(hy τ hτ).1, UpdateOf.pack, List.getD_eq_getElem?_getD (l := _ ++ _),
              List.getElem?_append_right (by rw [hm.state.length]; omega), hm.state.length,
              ← List.getD_eq_getElem?_getD]
          exact (hasDerivWithinAt_const _ _ _).congr e2 (e2 t ht)

/-! The instances: every model reads back the packed commands, or none after a collision. -/

/-- **C94.** Kinematic vehicles: a collision takes the commands from all but cars. -/
theorem C94_vehicle (wb lr : ℝ) (p : VehicleParams ℝ) (hasCollided isCar : Bool) :
    Faithful (vehicleUpdate wb lr p hasCollided isCar) (fun u =>
      if hasCollided = true ∧ isCar = false then { acc := 0, ddelta := 0 }
      else { acc := u.acc, ddelta := u.ddelta }) where
  state := C46_VehicleState
  cmds _ := rfl
  read s u := by cases hasCollided <;> cases isCar <;> rfl

/-- **C94.** Dynamic vehicles: the same. -/
theorem C94_vehicleDyn (g : VehicleGeom) (p : VehicleParams ℝ) (front rear : Pacejka)
    (hasCollided isCar : Bool) (held : VehicleStateDyn ℝ) :
    Faithful (vehicleDynUpdate g p front rear hasCollided isCar held) (fun u =>
      if hasCollided = true ∧ isCar = false then { acc := 0, ddelta := 0 }
      else { acc := u.acc, ddelta := u.ddelta }) where
  state := C46_VehicleStateDyn
  cmds _ := rfl
  read s u := by cases hasCollided <;> cases isCar <;> rfl

/-- **C94.** Pedestrians. -/
theorem C94_pedestrian (p : ModelParams ℝ) (m : ℝ) (hasCollided : Bool) (held : PedestrianState ℝ) :
    Faithful (pedestrianUpdate p m hasCollided held) (fun u =>
      if hasCollided = true then { acc := 0, dpsi := 0 } else u) where
  state := C46_PedestrianState
  cmds _ := rfl
  read s u := by cases hasCollided <;> rfl

/-- **C94.** Differential drives. -/
theorem C94_diffDrive (wb R lo hi : ℝ) (hasCollided : Bool) :
    Faithful (diffDriveUpdate wb R lo hi hasCollided) (fun u =>
      if hasCollided = true then { omega_l := 0, omega_r := 0 } else u) where
  state := C46_DiffDriveState
  cmds _ := rfl
  read s u := by cases hasCollided <;> rfl

/-- **C94.** Spacecraft (although `SpacecraftCommands.from_array` fails, `C46_false_SpacecraftCommands`:
`update` does not use it). -/
theorem C94_spacecraft (p : ModelParams ℝ) (lo hi w m iz : ℝ) (hasCollided : Bool) :
    Faithful (spacecraftUpdate p lo hi w m iz hasCollided) (fun u =>
      if hasCollided = true then { acc_left := 0, acc_right := 0 } else u) where
  state := C46_SpacecraftState
  cmds _ := rfl
  read s u := by cases hasCollided <;> rfl

/-- **C94.** Spaceships. -/
theorem C94_spaceship (p : ThrustParams) (hasCollided : Bool) :
    Faithful (spaceshipUpdate p hasCollided) (fun u =>
      if hasCollided = true then { thrust := 0, ddelta := 0 } else u) where
  state := C46_SpaceshipState
  cmds _ := rfl
  read s u := by cases hasCollided <;> rfl

/-- **C94.** Rockets. -/
theorem C94_rocket (p : ThrustParams) (hasCollided : Bool) :
    Faithful (rocketUpdate p hasCollided) (fun u =>
      if hasCollided = true then { F_left := 0, F_right := 0, dphi := 0 } else u) where
  state := C46_RocketState
  cmds _ := rfl
  read s u := by cases hasCollided <;> rfl

/-- **C94.** Moving obstacles. -/
theorem C94_dynObstacle (p : ModelParams ℝ) (lo hi : ℝ) :
    Faithful (dynObstacleUpdate p lo hi) (fun u => u) where
  state := C46_DynObstacleState
  cmds _ := rfl
  read s u := rfl

/-- A packed solution: a differential drive with both wheels at one radian per second. -/
example : Solves (diffDriveUpdate 1 1 (-5) 5 false).rhs 5 2 (fun t => [t, 0, 0, 1, 1]) := by
  refine (C94_refines _ _ (C94_diffDrive 1 1 (-5) 5 false) 2 (by norm_num) ⟨0, 0, 0⟩ ⟨1, 1⟩ _ rfl).mpr
    ⟨fun t => ⟨t, 0, 0⟩, rfl, ?_, fun t _ => ⟨rfl, rfl⟩⟩
  intro t _
  refine ⟨⟨1, 0, 0⟩, ?_, ?_⟩
  · simp only [diffDriveUpdate, diffDriveRate, DiffDriveState.mul, clip, Real.cos_zero, Real.sin_zero]
    norm_num
  · intro i
    match i with
    | 0 => exact hasDerivWithinAt_id _ _
    | 1 => exact hasDerivWithinAt_const _ _ _
    | 2 => exact hasDerivWithinAt_const _ _ _
    | i + 3 => exact hasDerivWithinAt_const _ _ _

end Phys
end Verif
