import Verif.Phys.UpdateProps
import Verif.Phys.EnergyProps
import Mathlib.Logic.Relation

/-!
# C95: limits over any number of updates; C96: motion after a collision
-/

namespace Verif
namespace Phys

variable {S U : Type}

/-- Specification: `x'` is the state after one exact update from `x`, of some length up to `h`, under
some commands. `m c x` is the update of a model that has (`c`) or has not collided and is in state `x`. -/
def UpdateStep (m : Bool → S → UpdateOf S U) (h : ℝ) (x x' : S) : Prop :=
  ∃ (c : Bool) (u v : U) (T : ℝ) (y : ℝ → List ℝ), 0 ≤ T ∧ T ≤ h ∧ y 0 = (m c x).pack x u ∧
    Solves (m c x).rhs ((m c x).nS + (m c x).nU) T y ∧ (m c x).unpack (y T) = .ok (x', v)

/-- Specification: any number of updates, with any commands and with a collision recorded or not in each. -/
def Updates (m : Bool → S → UpdateOf S U) (h : ℝ) : S → S → Prop := Relation.ReflTransGen (UpdateStep m h)

/-- The motion behind an update. -/
theorem step_motion {m : Bool → S → UpdateOf S U} {act : Bool → U → U}
    (hm : ∀ c x, Faithful (m c x) (act c)) {h : ℝ} {x x' : S} (hs : UpdateStep m h x x') :
    ∃ (c : Bool) (u : U) (T : ℝ) (s : ℝ → S), 0 ≤ T ∧ T ≤ h ∧ s 0 = x ∧ s T = x' ∧
      Motion (m c x).toS (fun z => (m c x).rate z (act c u)) T s := by
  obtain ⟨c, u, v, T, y, hT, hTh, h0, hy, hx'⟩ := hs
  obtain ⟨s, hs0, hmot, hall⟩ := (C94_refines _ _ (hm c x) T hT x u y h0).mp hy
  refine ⟨c, u, T, s, hT, hTh, hs0, ?_, hmot⟩
  have := (hall T ⟨hT, le_rfl⟩).2
  rw [hx'] at this
  exact (congrArg Prod.fst (Except.ok.inj this)).symm

/-- What every motion from a state with the property keeps, every number of updates keeps. -/
theorem updates_invariant {m : Bool → S → UpdateOf S U} {act : Bool → U → U}
    (hm : ∀ c x, Faithful (m c x) (act c)) {h : ℝ} {P : S → Prop}
    (hP : ∀ c u T (s : ℝ → S), 0 ≤ T → T ≤ h → P (s 0) →
      Motion (m c (s 0)).toS (fun z => (m c (s 0)).rate z (act c u)) T s → P (s T))
    {x x' : S} (hr : Updates m h x x') (hx : P x) : P x' := by
  induction hr with
  | refl => exact hx
  | tail _ hstep ih =>
    obtain ⟨c, u, T, s, hT, hTh, h0, h1, hmot⟩ := step_motion hm hstep
    subst h0
    exact h1 ▸ hP c u T s hT hTh ih hmot

/-- A quantity whose rate never points out of a range it has reached stays in the range. -/
theorem range_of_guard {f f' : ℝ → ℝ} {T lo hi : ℝ}
    (hf : ∀ t ∈ Set.Icc 0 T, HasDerivWithinAt f (f' t) (Set.Icc 0 T) t)
    (h0 : lo ≤ f 0 ∧ f 0 ≤ hi) (hg : ∀ t ∈ Set.Icc 0 T, (hi ≤ f t → f' t ≤ 0) ∧ (f t ≤ lo → 0 ≤ f' t)) :
    ∀ t ∈ Set.Icc 0 T, lo ≤ f t ∧ f t ≤ hi := by
  intro t ht
  refine ⟨?_, le_of_deriv_guard hf h0.2 (fun s hs => (hg s hs).1) t ht⟩
  have := le_of_deriv_guard (f := fun s => -f s) (c := -lo) (T := T) (f' := fun s => -f' s)
    (fun s hs => (hf s hs).neg) (by linarith [h0.1])
    (fun s hs h => by have := (hg s hs).2 (by linarith); linarith) t ht
  linarith

/-- One field of a motion. -/
theorem Motion.field {arr : S → List ℝ} {rate : S → Except Err S} {T : ℝ} {s : ℝ → S}
    (h : Motion arr rate T s) (i : Nat) :
    ∃ d : ℝ → S, ∀ t ∈ Set.Icc 0 T, rate (s t) = .ok (d t) ∧
      HasDerivWithinAt (fun τ => (arr (s τ)).getD i 0) ((arr (d t)).getD i 0) (Set.Icc 0 T) t := by
  have : ∀ t, ∃ d, t ∈ Set.Icc 0 T → rate (s t) = .ok d ∧
      HasDerivWithinAt (fun τ => (arr (s τ)).getD i 0) ((arr d).getD i 0) (Set.Icc 0 T) t := by
    intro t
    by_cases ht : t ∈ Set.Icc 0 T
    · obtain ⟨d, hd, hder⟩ := h t ht
      exact ⟨d, fun _ => ⟨hd, hder i⟩⟩
    · exact ⟨s t, fun h => absurd h ht⟩
  choose d hd using this
  exact ⟨d, hd⟩

/-- A field guarded by the rate stays in its range over a motion. -/
theorem Motion.range {arr : S → List ℝ} {rate : S → Except Err S} {T : ℝ} {s : ℝ → S}
    (h : Motion arr rate T s) (i : Nat) {lo hi : ℝ} (hT : 0 ≤ T)
    (h0 : lo ≤ (arr (s 0)).getD i 0 ∧ (arr (s 0)).getD i 0 ≤ hi)
    (hg : ∀ x d, rate x = .ok d → (hi ≤ (arr x).getD i 0 → (arr d).getD i 0 ≤ 0) ∧
      ((arr x).getD i 0 ≤ lo → 0 ≤ (arr d).getD i 0)) :
    lo ≤ (arr (s T)).getD i 0 ∧ (arr (s T)).getD i 0 ≤ hi := by
  obtain ⟨d, hd⟩ := h.field i
  exact range_of_guard (fun t ht => (hd t ht).2) h0 (fun t ht => hg _ _ (hd t ht).1) T ⟨hT, le_rfl⟩

theorem fullAccelerationLimits_zero (p : ModelParams ℝ) (h1 : p.accMin ≤ 0) (h2 : 0 ≤ p.accMax) (v : ℝ) :
    fullAccelerationLimits p v 0 = 0 := by
  unfold fullAccelerationLimits accelerationLimits speedConstraint
  rw [if_neg (not_lt.mpr h1), if_neg (not_lt.mpr h2)]
  split <;> rfl

/-! ## C95 -/

/-- **C95.** Kinematic vehicles: speed and steering angle stay within their limits over any number of
updates, whatever the commands and whether or not there was a collision. -/
theorem C95_vehicle (wb lr : ℝ) (p : VehicleParams ℝ) (hp : p.Valid) (isCar : Bool) (h : ℝ)
    (x x' : VehicleState ℝ)
    (hr : Updates (fun c _ => vehicleUpdate wb lr p c isCar) h x x')
    (hx : (p.vxMin ≤ x.vx ∧ x.vx ≤ p.vxMax) ∧ (-p.deltaMax ≤ x.delta ∧ x.delta ≤ p.deltaMax)) :
    (p.vxMin ≤ x'.vx ∧ x'.vx ≤ p.vxMax) ∧ (-p.deltaMax ≤ x'.delta ∧ x'.delta ≤ p.deltaMax) := by
  refine updates_invariant (P := fun x => (p.vxMin ≤ x.vx ∧ x.vx ≤ p.vxMax) ∧
    (-p.deltaMax ≤ x.delta ∧ x.delta ≤ p.deltaMax))
    (fun c _ => C94_vehicle wb lr p c isCar) ?_ hr hx
  intro c u T s hT _ h0 hmot
  refine ⟨hmot.range 3 hT h0.1 ?_, hmot.range 4 hT h0.2 ?_⟩
  · rintro z d hd
    cases hd
    have := C44_continuous_rate realTrig wb lr p hp z
    exact ⟨fun hh => (this _).1 hh, fun hh => (this _).2.1 hh⟩
  · rintro z d hd
    cases hd
    have := C44_continuous_rate realTrig wb lr p hp z
    exact ⟨fun hh => (this _).2.2.1 hh, fun hh => (this _).2.2.2 hh⟩

/-- **C95.** Moving obstacles: both components of the velocity and the spin stay within their limits. -/
theorem C95_dynObstacle (p : ModelParams ℝ) (hp : p.Valid) (lo hi h : ℝ) (x x' : DynObstacleState ℝ)
    (hr : Updates (fun _ _ => dynObstacleUpdate p lo hi) h x x')
    (hx : (p.vxMin ≤ x.vx ∧ x.vx ≤ p.vxMax) ∧ (p.vxMin ≤ x.vy ∧ x.vy ≤ p.vxMax) ∧
      (lo ≤ x.dpsi ∧ x.dpsi ≤ hi)) :
    (p.vxMin ≤ x'.vx ∧ x'.vx ≤ p.vxMax) ∧ (p.vxMin ≤ x'.vy ∧ x'.vy ≤ p.vxMax) ∧
      (lo ≤ x'.dpsi ∧ x'.dpsi ≤ hi) := by
  refine updates_invariant (P := fun x => (p.vxMin ≤ x.vx ∧ x.vx ≤ p.vxMax) ∧
    (p.vxMin ≤ x.vy ∧ x.vy ≤ p.vxMax) ∧ (lo ≤ x.dpsi ∧ x.dpsi ≤ hi))
    (fun _ _ => C94_dynObstacle p lo hi) ?_ hr hx
  intro c u T s hT _ h0 hmot
  refine ⟨hmot.range 3 hT h0.1 ?_, hmot.range 4 hT h0.2.1 ?_, hmot.range 5 hT h0.2.2 ?_⟩
  · rintro z d hd
    cases hd
    have := C42_limits p hp z.vx (u.acc_x + z.dpsi * z.vy)
    exact ⟨this.2.1, this.2.2.1⟩
  · rintro z d hd
    cases hd
    have := C42_limits p hp z.vy (u.acc_y - z.dpsi * z.vx)
    exact ⟨this.2.1, this.2.2.1⟩
  · rintro z d hd
    cases hd
    have := speedConstraint_guarded lo hi z.dpsi u.acc_psi
    exact ⟨this.1, this.2.1⟩

/-- **C95.** Spacecraft: the spin stays within its limits. -/
theorem C95_spacecraft_partial (p : ModelParams ℝ) (lo hi w m iz h : ℝ) (x x' : SpacecraftState ℝ)
    (hr : Updates (fun c _ => spacecraftUpdate p lo hi w m iz c) h x x') (hx : lo ≤ x.dpsi ∧ x.dpsi ≤ hi) :
    lo ≤ x'.dpsi ∧ x'.dpsi ≤ hi := by
  refine updates_invariant (P := fun x => lo ≤ x.dpsi ∧ x.dpsi ≤ hi)
    (fun c _ => C94_spacecraft p lo hi w m iz c) ?_ hr hx
  intro c u T s hT _ h0 hmot
  refine hmot.range 5 hT h0 ?_
  rintro z d hd
  cases hd
  have := speedConstraint_guarded lo hi z.dpsi
  exact ⟨(this _).1, (this _).2.1⟩

/-- **C95.** Spaceships: the nozzle angle stays within its limits. -/
theorem C95_spaceship_partial (p : ThrustParams) (h : ℝ) (x x' : SpaceshipState ℝ)
    (hr : Updates (fun c _ => spaceshipUpdate p c) h x x') (hx : p.angMin ≤ x.delta ∧ x.delta ≤ p.angMax) :
    p.angMin ≤ x'.delta ∧ x'.delta ≤ p.angMax := by
  refine updates_invariant (P := fun x => p.angMin ≤ x.delta ∧ x.delta ≤ p.angMax)
    (fun c _ => C94_spaceship p c) ?_ hr hx
  intro c u T s hT _ h0 hmot
  refine hmot.range 6 hT h0 ?_
  rintro z d hd
  simp only [spaceshipUpdate, spaceshipRate] at hd
  split at hd
  · cases hd
  · cases hd
    have := speedConstraint_guarded p.angMin p.angMax z.delta
    exact ⟨(this _).1, (this _).2.1⟩

/-- **C95.** Rockets: the same. -/
theorem C95_rocket_partial (p : ThrustParams) (h : ℝ) (x x' : RocketState ℝ)
    (hr : Updates (fun c _ => rocketUpdate p c) h x x') (hx : p.angMin ≤ x.phi ∧ x.phi ≤ p.angMax) :
    p.angMin ≤ x'.phi ∧ x'.phi ≤ p.angMax := by
  refine updates_invariant (P := fun x => p.angMin ≤ x.phi ∧ x.phi ≤ p.angMax)
    (fun c _ => C94_rocket p c) ?_ hr hx
  intro c u T s hT _ h0 hmot
  refine hmot.range 6 hT h0 ?_
  rintro z d hd
  simp only [rocketUpdate, rocketRate] at hd
  split at hd
  · cases hd
  · cases hd
    have := speedConstraint_guarded p.angMin p.angMax z.phi
    exact ⟨(this _).1, (this _).2.1⟩

/-- **C95.** Dynamic vehicles: the steering angle stays within its limits. -/
theorem C95_vehicleDyn_partial (g : VehicleGeom) (p : VehicleParams ℝ) (hp : p.Valid) (front rear : Pacejka)
    (isCar : Bool) (h : ℝ) (x x' : VehicleStateDyn ℝ)
    (hr : Updates (fun c held => vehicleDynUpdate g p front rear c isCar held) h x x')
    (hx : -p.deltaMax ≤ x.delta ∧ x.delta ≤ p.deltaMax) :
    -p.deltaMax ≤ x'.delta ∧ x'.delta ≤ p.deltaMax := by
  refine updates_invariant (P := fun x => -p.deltaMax ≤ x.delta ∧ x.delta ≤ p.deltaMax)
    (fun c held => C94_vehicleDyn g p front rear c isCar held) ?_ hr hx
  intro c u T s hT _ h0 hmot
  refine hmot.range 6 hT h0 ?_
  rintro z d hd
  have key : ∀ w, steeringConstraint p.deltaMax p.ddeltaMax z.delta w = d.delta →
      (p.deltaMax ≤ z.delta → d.delta ≤ 0) ∧ (z.delta ≤ -p.deltaMax → 0 ≤ d.delta) := by
    rintro w hw
    have := C43_steering p hp z.delta w
    exact hw ▸ ⟨this.2.2.1, this.2.1⟩
  simp only [vehicleDynUpdate, vehicleDynRate] at hd
  split at hd
  · cases hd
    exact key _ rfl
  · generalize hF : tyreForces g front rear _ z = F at hd
    cases F with
    | error e => cases hd
    | ok f =>
      cases hd
      exact key _ rfl

/-- **C95.** Pedestrians: with zero in the limits and updates of at most half a second, the speed stays
within its limits, also after a collision. -/
theorem C95_pedestrian (p : ModelParams ℝ) (hp : p.Valid) (hv1 : p.vxMin ≤ 0) (hv2 : 0 ≤ p.vxMax)
    (ha1 : p.accMin ≤ 0) (ha2 : 0 ≤ p.accMax) (m : ℝ) (hm : 0 < m) (x x' : PedestrianState ℝ)
    (hr : Updates (fun c held => pedestrianUpdate p m c held) (1 / 2) x x')
    (hx : p.vxMin ≤ x.vx ∧ x.vx ≤ p.vxMax) : p.vxMin ≤ x'.vx ∧ x'.vx ≤ p.vxMax := by
  refine updates_invariant (P := fun x => p.vxMin ≤ x.vx ∧ x.vx ≤ p.vxMax)
    (fun c held => C94_pedestrian p m c held) ?_ hr hx
  intro c u T s hT hT2 h0 hmot
  cases c with
  | false =>
    refine hmot.range 3 hT h0 ?_
    rintro z d hd
    cases hd
    have := C42_limits p hp z.vx u.acc
    have e : (pedestrianRate p m false (s 0) z u).vx = fullAccelerationLimits p z.vx u.acc := by
      simp [pedestrianRate, collisionFriction]
    refine ⟨fun hh => ?_, fun hh => ?_⟩
    · have := this.2.1 hh
      rw [← e] at this
      exact this
    · have := this.2.2.1 hh
      rw [← e] at this
      exact this
  | true =>
    have hu : CollidedUpdate p m T s := by
      refine ⟨fun t ht => ?_, fun t ht => ?_, fun t ht => ?_, fun t ht => ?_⟩ <;>
        obtain ⟨d, hd, hder⟩ := hmot t ht <;> cases hd
      · exact hder 3
      · exact hder 4
      · exact hder 2
      · exact hder 5
    have := (C77_pedestrian p ha1 ha2 m hm T s hu T ⟨hT, le_rfl⟩).1
    rw [this]
    have hk1 : 0 ≤ 1 - 2 * T := by linarith
    have hk2 : 1 - 2 * T ≤ 1 := by linarith
    constructor <;> nlinarith [h0.1, h0.2]

/-- **C95 fails for the speed of a spacecraft**: one update of one second at full thrust takes the
default spacecraft (limits of 50 km/h, here 125/9 m/s, and 10 m/s² for each thruster) from rest to 20 m/s.
`vx_limits` is not used by the model. -/
theorem C95_false_spacecraft :
    let p : ModelParams ℝ := ⟨-125 / 9, 125 / 9, -10, 10⟩
    ∃ (x x' : SpacecraftState ℝ), p.Valid ∧ x.vx = 0 ∧ x.vy = 0 ∧ x.dpsi = 0 ∧
      Updates (fun c _ => spacecraftUpdate p (-6) 6 1 1 1 c) 1 x x' ∧ p.vxMax < x'.vx := by
  intro p
  refine ⟨⟨0, 0, 0, 0, 0, 0⟩, ⟨10, 0, 0, 20, 0, 0⟩, ⟨by norm_num [p], by norm_num [p]⟩, rfl, rfl, rfl,
    Relation.ReflTransGen.single ⟨false, ⟨10, 10⟩, ⟨10, 10⟩, 1,
      fun t => (spacecraftUpdate p (-6) 6 1 1 1 false).pack ⟨10 * t ^ 2, 0, 0, 20 * t, 0, 0⟩ ⟨10, 10⟩,
      by norm_num, le_rfl, ?_, ?_, ?_⟩, ?_⟩
  · simp [UpdateOf.pack, spacecraftUpdate, SpacecraftState.toArray]
  · refine (C94_refines _ _ (C94_spacecraft p (-6) 6 1 1 1 false) 1 (by norm_num) ⟨0, 0, 0, 0, 0, 0⟩
      ⟨10, 10⟩ _ ?_).mpr ⟨fun t => ⟨10 * t ^ 2, 0, 0, 20 * t, 0, 0⟩, by simp, ?_,
        fun t _ => ⟨rfl, Faithful.unpack (C94_spacecraft p (-6) 6 1 1 1 false) _ _⟩⟩
    · simp [UpdateOf.pack, spacecraftUpdate, SpacecraftState.toArray]
    · intro t _
      refine ⟨⟨20 * t, 0, 0, 20, 0, 0⟩, ?_, ?_⟩
      · simp only [spacecraftUpdate, spacecraftRate, accelerationLimits, speedConstraint, p, Real.cos_zero,
          Real.sin_zero]
        norm_num
      · intro i
        match i with
        | 0 =>
          show HasDerivWithinAt (fun τ : ℝ => 10 * τ ^ 2) (20 * t) (Set.Icc 0 1) t
          have := ((hasDerivWithinAt_id t (Set.Icc 0 1)).pow 2).const_mul (10 : ℝ)
          exact this.congr_deriv (by simp only [id_eq]; norm_num; ring)
        | 1 => exact hasDerivWithinAt_const _ _ _
        | 2 => exact hasDerivWithinAt_const _ _ _
        | 3 =>
          show HasDerivWithinAt (fun τ : ℝ => 20 * τ) 20 (Set.Icc 0 1) t
          have := (hasDerivWithinAt_id t (Set.Icc 0 1)).const_mul (20 : ℝ)
          exact this.congr_deriv (by norm_num)
        | 4 => exact hasDerivWithinAt_const _ _ _
        | 5 => exact hasDerivWithinAt_const _ _ _
        | i + 6 => exact hasDerivWithinAt_const _ _ _
  · have := Faithful.unpack (C94_spacecraft p (-6) 6 1 1 1 false) ⟨10 * 1 ^ 2, 0, 0, 20 * 1, 0, 0⟩ ⟨10, 10⟩
    rw [this]
    simp
  · norm_num [p]

/-- **C95 fails for the speed of spaceships and rockets**: `vx_limits` is not used by their models. At
any speed a spaceship with fuel and positive thrust goes faster. -/
theorem C95_false_spaceship (p : ThrustParams) (hmv : 0 ≤ p.mv) (h0 : p.fMin ≤ p.fMax) (h1 : 0 < p.fMax)
    (hi : p.iz ≠ 0) (V : ℝ) : ∃ (x r : SpaceshipState ℝ) (u : SpaceshipCommands ℝ), x.vx = V ∧
      p.fMin ≤ u.thrust ∧ u.thrust ≤ p.fMax ∧ spaceshipRate p x u = .ok r ∧ 0 < r.vx := by
  have key : ∃ r, spaceshipRate p ⟨0, 0, 0, V, 0, 0, 0, p.mv + 1⟩ ⟨p.fMax, 0⟩ = .ok r ∧ 0 < r.vx := by
    have hm : p.mv + 1 ≠ 0 := by linarith
    have hf : p.thrust (p.mv + 1) p.fMax = p.fMax := by
      unfold ThrustParams.thrust
      rw [if_neg (by linarith), (C42_force _ _ h0 _).2.2.1 h0 le_rfl]
    simp only [spaceshipRate, hm, hi, or_self, if_false, Except.ok.injEq, exists_eq_left', hf, Real.cos_zero]
    have : 0 < 1 / (p.mv + 1) * 1 * p.fMax := by positivity
    linarith
  obtain ⟨r, hr, hpos⟩ := key
  exact ⟨⟨0, 0, 0, V, 0, 0, 0, p.mv + 1⟩, r, ⟨p.fMax, 0⟩, rfl, h0, le_rfl, hr, hpos⟩

/-- **C95 fails for the speed of the dynamic vehicle**: the limits are applied to the demanded
acceleration only, so at the maximal speed a spinning vehicle without commands can still gain forward
speed from its sideways motion. -/
theorem C95_false_vehicleDyn (g : VehicleGeom) (hm : 0 < g.m) (p : VehicleParams ℝ)
    (h0 : p.accMin ≤ 0) (h1 : 0 ≤ p.accMax) (hv : 1 / 10 ≤ p.vxMax) (front rear : Pacejka)
    (held : VehicleStateDyn ℝ)
    (hdef : ∀ s, ∃ r, vehicleDynRate g p front rear false held s { acc := 0, ddelta := 0 } = .ok r) :
    ∃ s r, s.vx = p.vxMax ∧ s.delta = 0 ∧
      vehicleDynRate g p front rear false held s { acc := 0, ddelta := 0 } = .ok r ∧ 0 < r.vx := by
  -- bound on the longitudinal forces and the drag, the same for all states considered
  let d1 := (accelerationSplit (g.m * 0)).1 + g.cRrF * (g.loads 0).1
  let d2 := (accelerationSplit (g.m * 0)).2 + g.cRrR * (g.loads 0).2
  let dr := -(5 / 10) * p.vxMax * g.aDrag * g.cDrag * rhoAir ^ 2
  let k := (|d1| + |d2| + |dr|) / g.m + 1
  let s : VehicleStateDyn ℝ := { x := 0, y := 0, psi := 0, vx := p.vxMax, delta := 0, vy := 1, dpsi := k }
  obtain ⟨r, hr⟩ := hdef s
  refine ⟨s, r, rfl, rfl, hr, ?_⟩
  have bound : ∀ (t : Pacejka) (l d a : ℝ) (f : ℝ × ℝ), axleForces t l d a = .ok f → -|d| ≤ f.1 := by
    intro t l d a f h
    simp only [axleForces] at h
    split at h
    · cases h
    · split at h
      · cases h
      · injection h with h
        subst h
        have hq : Real.sqrt (1 - (t.evaluate a * l / (l * t.d)) ^ 2) ≤ 1 := by
          refine Real.sqrt_le_iff.mpr ⟨by norm_num, ?_⟩
          linarith [sq_nonneg (t.evaluate a * l / (l * t.d))]
        have hq0 := Real.sqrt_nonneg (1 - (t.evaluate a * l / (l * t.d)) ^ 2)
        have := neg_abs_le d
        have := abs_nonneg d
        simp only
        nlinarith
  simp only [vehicleDynRate, if_neg (not_lt.mpr (show 1 / 10 ≤ s.vx from hv)),
    fullAccelerationLimits_zero _ h0 h1] at hr
  cases hF : tyreForces g front rear 0 s with
  | error e => rw [hF] at hr; cases hr
  | ok F =>
    obtain ⟨a, b, f, -, -, hA, hB, hf⟩ := tyre_parts g front rear 0 s F hF
    have b1 : -|d1| ≤ F.1.1 := by
      have := bound _ _ _ _ _ hA
      rw [hf] at this
      simp only [along, s, Real.cos_zero, Real.sin_zero] at this
      linarith
    have b2 : -|d2| ≤ F.2.1 := bound _ _ _ _ _ hB
    have b3 : -|dr| ≤ dr := neg_abs_le dr
    simp only [hF, bind, Except.bind, pure, Except.pure, Except.ok.injEq, collisionFriction,
      Bool.false_eq_true, if_false] at hr
    subst hr
    show 0 < (F.1.1 + dr + F.2.1) / g.m + k * 1 + 0
    have : -((|d1| + |d2| + |dr|) / g.m) ≤ (F.1.1 + dr + F.2.1) / g.m := by
      rw [← neg_div, div_le_div_iff_of_pos_right hm]
      linarith
    have hk : k = (|d1| + |d2| + |dr|) / g.m + 1 := rfl
    linarith

/-! ## C96 -/

/-- **C96.** A collided car obeys its commands like before the collision. -/
theorem C96_car (wb lr : ℝ) (p : VehicleParams ℝ) :
    (vehicleUpdate wb lr p true true).rhs = (vehicleUpdate wb lr p false true).rhs := rfl

/-- **C96.** A collided dynamic vehicle moves under the commands that are left to it (`C94_vehicleDyn`: its own for
cars, none for others) as before, but for a friction of one, with two wheels of three, times each velocity at the start
of the update: this is what slows it down, spin and sideways motion included. -/
theorem C96_vehicleDyn (g : VehicleGeom) (p : VehicleParams ℝ) (front rear : Pacejka) (held x : VehicleStateDyn ℝ)
    (u : VehicleCommands ℝ) : ∃ mu : ℝ, (g.twoWheels = true → mu = 3) ∧ (g.twoWheels = false → mu = 1) ∧
      vehicleDynRate g p front rear true held x u = (vehicleDynRate g p front rear false held x u).map (fun d =>
        { d with vx := d.vx - mu * held.vx, vy := d.vy - mu * held.vy, dpsi := d.dpsi - mu * held.dpsi }) := by
  refine ⟨if g.twoWheels then 3 else 1, fun h => by simp [h], fun h => by simp [h], ?_⟩
  simp only [vehicleDynRate, collisionFriction, if_true]
  split
  · simp [Except.map, pure, Except.pure, sub_eq_add_neg]
  · cases tyreForces g front rear (fullAccelerationLimits p.toModelParams x.vx u.acc) x with
    | error e => rfl
    | ok f => simp [Except.map, bind, Except.bind, pure, Except.pure, sub_eq_add_neg]

theorem const_of_zero_deriv {f : ℝ → ℝ} {T : ℝ}
    (hf : ∀ t ∈ Set.Icc 0 T, HasDerivWithinAt f 0 (Set.Icc 0 T) t) : ∀ t ∈ Set.Icc 0 T, f t = f 0 := by
  intro t ht
  have := affine_of_const_deriv hf t ht
  linarith

theorem steeringConstraint_zero (dm ddm v : ℝ) (h : 0 < ddm) : steeringConstraint dm ddm v 0 = 0 := by
  unfold steeringConstraint
  rw [if_neg (by simp), if_neg (by linarith), if_neg (by linarith)]

/-- Specification: the states during one exact update of length `T`, under some commands. -/
def UpdateMotion (m : UpdateOf S U) (T : ℝ) (s : ℝ → S) : Prop :=
  ∃ (u : U) (y : ℝ → List ℝ), y 0 = m.pack (s 0) u ∧ Solves m.rhs (m.nS + m.nU) T y ∧
    ∀ t ∈ Set.Icc 0 T, m.fromS ((y t).take m.nS) = .ok (s t)

theorem UpdateMotion.motion {m : UpdateOf S U} {act : U → U} (hm : Faithful m act) {T : ℝ} (hT : 0 ≤ T)
    {s : ℝ → S} (h : UpdateMotion m T s) : ∃ u, Motion m.toS (fun x => m.rate x (act u)) T s := by
  obtain ⟨u, y, h0, hy, hst⟩ := h
  obtain ⟨s', hs0, hmot, hall⟩ := (C94_refines _ _ hm T hT (s 0) u y h0).mp hy
  have hss : ∀ t ∈ Set.Icc 0 T, s t = s' t := by
    intro t ht
    have h1 := hst t ht
    rw [(hall t ht).1, UpdateOf.pack, ← hm.state.length (s' t), List.take_left, hm.state.from_to] at h1
    exact (Except.ok.inj h1).symm
  refine ⟨u, fun t ht => ?_⟩
  obtain ⟨d, hd, hder⟩ := hmot t ht
  refine ⟨d, by rw [hss t ht]; exact hd, fun i => ?_⟩
  exact (hder i).congr (fun τ hτ => by rw [hss τ hτ]) (by rw [hss t ht])

/-- **C96.** Every other kinematic vehicle coasts after a collision, whatever its commands: speed and
steering angle stay as they are and it turns at a constant rate. There is no friction. -/
theorem C96_vehicle (wb lr : ℝ) (p : VehicleParams ℝ) (hp : p.Valid) (h1 : p.accMin ≤ 0)
    (h2 : 0 ≤ p.accMax) (T : ℝ) (hT : 0 ≤ T) (s : ℝ → VehicleState ℝ)
    (hs : UpdateMotion (vehicleUpdate wb lr p true false) T s) : ∀ t ∈ Set.Icc 0 T,
      (s t).vx = (s 0).vx ∧ (s t).delta = (s 0).delta ∧
      (s t).psi = (s 0).psi + (s 0).vx * Real.tan (s 0).delta / wb * t := by
  obtain ⟨u, hmot⟩ := hs.motion (C94_vehicle wb lr p true false) hT
  have hd : ∀ t ∈ Set.Icc 0 T, ∀ i, HasDerivWithinAt (fun τ => ((s τ).toArray).getD i 0)
      (((vehicleRate realTrig wb lr p (s t) (0, 0)).toArray).getD i 0) (Set.Icc 0 T) t := by
    intro t ht
    obtain ⟨d, hd, hder⟩ := hmot t ht
    cases hd
    exact hder
  have hvx : ∀ t ∈ Set.Icc 0 T, (s t).vx = (s 0).vx := const_of_zero_deriv (fun t ht => by
    have := hd t ht 3
    have e : ((vehicleRate realTrig wb lr p (s t) (0, 0)).toArray).getD 3 0 = 0 :=
      fullAccelerationLimits_zero _ h1 h2 _
    rw [e] at this
    exact this)
  have hde : ∀ t ∈ Set.Icc 0 T, (s t).delta = (s 0).delta := const_of_zero_deriv (fun t ht => by
    have := hd t ht 4
    have e : ((vehicleRate realTrig wb lr p (s t) (0, 0)).toArray).getD 4 0 = 0 :=
      steeringConstraint_zero _ _ _ hp.ddelta
    rw [e] at this
    exact this)
  have hps : ∀ t ∈ Set.Icc 0 T, (s t).psi = (s 0).psi + (s 0).vx * Real.tan (s 0).delta / wb * t :=
    affine_of_const_deriv (fun t ht => by
      have := hd t ht 2
      have e : ((vehicleRate realTrig wb lr p (s t) (0, 0)).toArray).getD 2 0 =
          (s 0).vx * Real.tan (s 0).delta / wb := by
        rw [← hvx t ht, ← hde t ht]
        rfl
      rw [e] at this
      exact this)
  intro t ht
  exact ⟨hvx t ht, hde t ht, hps t ht⟩

/-- **C96.** A collided differential drive whose wheels can stand still stands still. -/
theorem C96_diffDrive (wb R lo hi : ℝ) (h1 : lo ≤ 0) (h2 : 0 ≤ hi) (T : ℝ) (hT : 0 ≤ T) (s : ℝ → DiffDriveState ℝ)
    (hs : UpdateMotion (diffDriveUpdate wb R lo hi true) T s) : ∀ t ∈ Set.Icc 0 T, s t = s 0 := by
  obtain ⟨u, hmot⟩ := hs.motion (C94_diffDrive wb R lo hi true) hT
  have hz : ∀ x, diffDriveRate wb R lo hi x ⟨0, 0⟩ = (⟨0, 0, 0⟩ : DiffDriveState ℝ) := by
    intro x
    simp [diffDriveRate, clip, h1, h2, DiffDriveState.mul]
  have hd : ∀ t ∈ Set.Icc 0 T, ∀ i, HasDerivWithinAt (fun τ => ((s τ).toArray).getD i 0)
      (((⟨0, 0, 0⟩ : DiffDriveState ℝ).toArray).getD i 0) (Set.Icc 0 T) t := by
    intro t ht
    obtain ⟨d, hd, hder⟩ := hmot t ht
    cases hd
    simp only [if_true, hz] at hder
    exact hder
  intro t ht
  have e0 := const_of_zero_deriv (f := fun τ => (s τ).x) (fun τ hτ => hd τ hτ 0) t ht
  have e1 := const_of_zero_deriv (f := fun τ => (s τ).y) (fun τ hτ => hd τ hτ 1) t ht
  have e2 := const_of_zero_deriv (f := fun τ => (s τ).psi) (fun τ hτ => hd τ hτ 2) t ht
  cases h : s t
  cases h' : s 0
  simp_all

-- a collided robot with commands: a motion of its update, and by the theorem the only one from there
example : UpdateMotion (diffDriveUpdate 1 1 (-5) 5 true) 2 (fun _ => ⟨1, 2, 3⟩) := by
  let m := diffDriveUpdate 1 1 (-5) 5 true
  refine ⟨⟨4, 5⟩, fun _ => m.pack ⟨1, 2, 3⟩ ⟨4, 5⟩, rfl, ?_, fun t _ => rfl⟩
  refine (C94_refines _ _ (C94_diffDrive 1 1 (-5) 5 true) 2 (by norm_num) (⟨1, 2, 3⟩ : DiffDriveState ℝ) ⟨4, 5⟩ _
    rfl).mpr ⟨fun _ => ⟨1, 2, 3⟩, rfl, fun t _ => ⟨⟨0, 0, 0⟩, ?_, fun i => ?_⟩, fun t _ => ⟨rfl, rfl⟩⟩
  · simp [diffDriveUpdate, diffDriveRate, clip, DiffDriveState.mul]
  · match i with
    | 0 => exact hasDerivWithinAt_const _ _ _
    | 1 => exact hasDerivWithinAt_const _ _ _
    | 2 => exact hasDerivWithinAt_const _ _ _
    | i + 3 => exact hasDerivWithinAt_const _ _ _

/-- Constancy of the world velocity of a body whose body-frame velocity changes only by the turning of
the frame. -/
theorem world_const {psi vx vy w : ℝ → ℝ} {T : ℝ}
    (hp : ∀ t ∈ Set.Icc 0 T, HasDerivWithinAt psi (w t) (Set.Icc 0 T) t)
    (hx : ∀ t ∈ Set.Icc 0 T, HasDerivWithinAt vx (w t * vy t) (Set.Icc 0 T) t)
    (hy : ∀ t ∈ Set.Icc 0 T, HasDerivWithinAt vy (-(w t * vx t)) (Set.Icc 0 T) t) :
    (∀ t ∈ Set.Icc 0 T, vx t * Real.cos (psi t) - vy t * Real.sin (psi t) =
      vx 0 * Real.cos (psi 0) - vy 0 * Real.sin (psi 0)) ∧
    (∀ t ∈ Set.Icc 0 T, vx t * Real.sin (psi t) + vy t * Real.cos (psi t) =
      vx 0 * Real.sin (psi 0) + vy 0 * Real.cos (psi 0)) := by
  constructor
  · refine const_of_zero_deriv (f := fun t => vx t * Real.cos (psi t) - vy t * Real.sin (psi t)) ?_
    intro t ht
    have := ((hx t ht).mul (hp t ht).cos).sub ((hy t ht).mul (hp t ht).sin)
    exact this.congr_deriv (by ring)
  · refine const_of_zero_deriv (f := fun t => vx t * Real.sin (psi t) + vy t * Real.cos (psi t)) ?_
    intro t ht
    have := ((hx t ht).mul (hp t ht).sin).add ((hy t ht).mul (hp t ht).cos)
    exact this.congr_deriv (by ring)

/-- **C96.** A collided spacecraft floats: it keeps its spin and moves in a straight line at constant
speed in the world. -/
theorem C96_spacecraft (p : ModelParams ℝ) (h1 : p.accMin ≤ 0) (h2 : 0 ≤ p.accMax) (lo hi w m iz T : ℝ)
    (s : ℝ → SpacecraftState ℝ)
    (hT : 0 ≤ T) (hs : UpdateMotion (spacecraftUpdate p lo hi w m iz true) T s) :
    ∀ t ∈ Set.Icc 0 T, (s t).dpsi = (s 0).dpsi ∧ (s t).psi = (s 0).psi + (s 0).dpsi * t ∧
      (s t).x = (s 0).x + ((s 0).vx * Real.cos (s 0).psi - (s 0).vy * Real.sin (s 0).psi) * t ∧
      (s t).y = (s 0).y + ((s 0).vx * Real.sin (s 0).psi + (s 0).vy * Real.cos (s 0).psi) * t := by
  obtain ⟨u, hs⟩ := hs.motion (C94_spacecraft p lo hi w m iz true) hT
  have ha : accelerationLimits p.accMin p.accMax 0 = 0 := by
    unfold accelerationLimits
    rw [if_neg (not_lt.mpr h1), if_neg (not_lt.mpr h2)]
  have hd : ∀ t ∈ Set.Icc 0 T, ∀ i, HasDerivWithinAt (fun τ => ((s τ).toArray).getD i 0)
      (((spacecraftRate p lo hi w m iz (s t) ⟨0, 0⟩).toArray).getD i 0) (Set.Icc 0 T) t := by
    intro t ht
    obtain ⟨d, hd, hder⟩ := hs t ht
    cases hd
    exact hder
  have hdp : ∀ t ∈ Set.Icc 0 T, (s t).dpsi = (s 0).dpsi := const_of_zero_deriv (fun t ht => by
    have := hd t ht 5
    have e : ((spacecraftRate p lo hi w m iz (s t) ⟨0, 0⟩).toArray).getD 5 0 = 0 := by
      show speedConstraint lo hi (s t).dpsi _ = 0
      simp [ha, speedConstraint]
    rw [e] at this
    exact this)
  have hw := world_const (psi := fun t => (s t).psi) (vx := fun t => (s t).vx) (vy := fun t => (s t).vy)
    (w := fun t => (s t).dpsi) (T := T) (fun t ht => hd t ht 2)
    (fun t ht => by
      have := hd t ht 3
      have e : ((spacecraftRate p lo hi w m iz (s t) ⟨0, 0⟩).toArray).getD 3 0 = (s t).dpsi * (s t).vy := by
        show accelerationLimits p.accMin p.accMax 0 + accelerationLimits p.accMin p.accMax 0 + _ = _
        rw [ha]; ring
      rw [e] at this
      exact this)
    (fun t ht => by
      have := hd t ht 4
      have e : ((spacecraftRate p lo hi w m iz (s t) ⟨0, 0⟩).toArray).getD 4 0 =
          -((s t).dpsi * (s t).vx) := by
        show -(s t).vx * (s t).dpsi = _
        ring
      rw [e] at this
      exact this)
  intro t ht
  refine ⟨hdp t ht, ?_, ?_, ?_⟩
  · exact affine_of_const_deriv (f := fun τ => (s τ).psi) (fun τ hτ => by
      have := hd τ hτ 2
      have e : ((spacecraftRate p lo hi w m iz (s τ) ⟨0, 0⟩).toArray).getD 2 0 = (s 0).dpsi := hdp τ hτ
      rw [e] at this
      exact this) t ht
  · exact affine_of_const_deriv (f := fun τ => (s τ).x) (fun τ hτ => by
      have := hd τ hτ 0
      rw [← hw.1 τ hτ]
      exact this) t ht
  · exact affine_of_const_deriv (f := fun τ => (s τ).y) (fun τ hτ => by
      have := hd τ hτ 1
      rw [← hw.2 τ hτ]
      exact this) t ht

theorem thrust_zero (p : ThrustParams) (h1 : p.fMin ≤ 0) (h2 : 0 ≤ p.fMax) (m : ℝ) : p.thrust m 0 = 0 := by
  unfold ThrustParams.thrust
  split
  · rfl
  · exact (C42_force _ _ (by linarith) _).2.2.1 h1 h2

theorem fullAngVelLimits_zero (lo hi dlo dhi a : ℝ) (h1 : dlo < 0) (h2 : 0 < dhi) :
    fullAngVelLimits lo hi dlo dhi a 0 = 0 := by
  unfold fullAngVelLimits angVelLimits
  rw [if_neg (by linarith), if_neg (by linarith)]
  simp [speedConstraint]

/-- **C96.** A collided spaceship whose thrust can be zero keeps mass, nozzle angle and spin and moves in
a straight line at constant speed in the world. -/
theorem C96_spaceship_partial (p : ThrustParams) (h1 : p.fMin ≤ 0) (h2 : 0 ≤ p.fMax) (h3 : p.dangMin < 0)
    (h4 : 0 < p.dangMax) (T : ℝ) (s : ℝ → SpaceshipState ℝ)
    (hT : 0 ≤ T) (hs : UpdateMotion (spaceshipUpdate p true) T s) :
    ∀ t ∈ Set.Icc 0 T, (s t).m = (s 0).m ∧ (s t).delta = (s 0).delta ∧ (s t).dpsi = (s 0).dpsi ∧
      (s t).psi = (s 0).psi + (s 0).dpsi * t ∧
      (s t).x = (s 0).x + ((s 0).vx * Real.cos (s 0).psi - (s 0).vy * Real.sin (s 0).psi) * t ∧
      (s t).y = (s 0).y + ((s 0).vx * Real.sin (s 0).psi + (s 0).vy * Real.cos (s 0).psi) * t := by
  obtain ⟨u, hs⟩ := hs.motion (C94_spaceship p true) hT
  have hd : ∀ t ∈ Set.Icc 0 T, ∀ i, HasDerivWithinAt (fun τ => ((s τ).toArray).getD i 0)
      ((SpaceshipState.toArray ⟨(s t).vx * Real.cos (s t).psi - (s t).vy * Real.sin (s t).psi,
        (s t).vx * Real.sin (s t).psi + (s t).vy * Real.cos (s t).psi, (s t).dpsi,
        (s t).dpsi * (s t).vy, -((s t).dpsi * (s t).vx), 0, 0, 0⟩).getD i 0) (Set.Icc 0 T) t := by
    intro t ht
    obtain ⟨d, hd, hder⟩ := hs t ht
    simp only [spaceshipUpdate, spaceshipRate, if_true] at hd
    split at hd
    · cases hd
    · cases hd
      simp only [thrust_zero p h1 h2, fullAngVelLimits_zero _ _ _ _ _ h3 h4, mul_zero, zero_add, zero_sub]
        at hder
      exact hder
  have hw := world_const (psi := fun t => (s t).psi) (vx := fun t => (s t).vx) (vy := fun t => (s t).vy)
    (w := fun t => (s t).dpsi) (T := T) (fun t ht => hd t ht 2) (fun t ht => hd t ht 3)
    (fun t ht => hd t ht 4)
  have hdp : ∀ t ∈ Set.Icc 0 T, (s t).dpsi = (s 0).dpsi := const_of_zero_deriv (fun t ht => hd t ht 5)
  intro t ht
  refine ⟨const_of_zero_deriv (f := fun τ => (s τ).m) (fun t ht => hd t ht 7) t ht,
    const_of_zero_deriv (f := fun τ => (s τ).delta) (fun t ht => hd t ht 6) t ht, hdp t ht, ?_, ?_, ?_⟩
  · exact affine_of_const_deriv (f := fun τ => (s τ).psi) (fun τ hτ => by
      rw [← hdp τ hτ]
      exact hd τ hτ 2) t ht
  · exact affine_of_const_deriv (f := fun τ => (s τ).x) (fun τ hτ => by
      rw [← hw.1 τ hτ]
      exact hd τ hτ 0) t ht
  · exact affine_of_const_deriv (f := fun τ => (s τ).y) (fun τ hτ => by
      rw [← hw.2 τ hτ]
      exact hd τ hτ 1) t ht

/-- **C96.** A collided rocket whose nozzles can be off: the same, with its velocity kept in the world
frame. -/
theorem C96_rocket_partial (p : ThrustParams) (h1 : p.fMin ≤ 0) (h2 : 0 ≤ p.fMax) (h3 : p.dangMin < 0)
    (h4 : 0 < p.dangMax) (T : ℝ) (s : ℝ → RocketState ℝ)
    (hT : 0 ≤ T) (hs : UpdateMotion (rocketUpdate p true) T s) :
    ∀ t ∈ Set.Icc 0 T, (s t).m = (s 0).m ∧ (s t).phi = (s 0).phi ∧ (s t).dpsi = (s 0).dpsi ∧
      (s t).vx = (s 0).vx ∧ (s t).vy = (s 0).vy ∧
      (s t).psi = (s 0).psi + (s 0).dpsi * t ∧
      (s t).x = (s 0).x + (s 0).vx * t ∧ (s t).y = (s 0).y + (s 0).vy * t := by
  obtain ⟨u, hs⟩ := hs.motion (C94_rocket p true) hT
  have hd : ∀ t ∈ Set.Icc 0 T, ∀ i, HasDerivWithinAt (fun τ => ((s τ).toArray).getD i 0)
      ((RocketState.toArray ⟨(s t).vx, (s t).vy, (s t).dpsi, 0, 0, 0, 0, 0⟩).getD i 0)
      (Set.Icc 0 T) t := by
    intro t ht
    obtain ⟨d, hd, hder⟩ := hs t ht
    simp only [rocketUpdate, rocketRate, if_true] at hd
    split at hd
    · cases hd
    · cases hd
      simp only [thrust_zero p h1 h2, fullAngVelLimits_zero _ _ _ _ _ h3 h4, mul_zero, add_zero, sub_zero]
        at hder
      exact hder
  have hdp : ∀ t ∈ Set.Icc 0 T, (s t).dpsi = (s 0).dpsi := const_of_zero_deriv (fun t ht => hd t ht 5)
  have hvx : ∀ t ∈ Set.Icc 0 T, (s t).vx = (s 0).vx := const_of_zero_deriv (fun t ht => hd t ht 3)
  have hvy : ∀ t ∈ Set.Icc 0 T, (s t).vy = (s 0).vy := const_of_zero_deriv (fun t ht => hd t ht 4)
  intro t ht
  refine ⟨const_of_zero_deriv (f := fun τ => (s τ).m) (fun t ht => hd t ht 7) t ht,
    const_of_zero_deriv (f := fun τ => (s τ).phi) (fun t ht => hd t ht 6) t ht, hdp t ht, hvx t ht,
    hvy t ht, ?_, ?_, ?_⟩
  · exact affine_of_const_deriv (f := fun τ => (s τ).psi) (fun τ hτ => by
      rw [← hdp τ hτ]
      exact hd τ hτ 2) t ht
  · exact affine_of_const_deriv (f := fun τ => (s τ).x) (fun τ hτ => by
      rw [← hvx τ hτ]
      exact hd τ hτ 0) t ht
  · exact affine_of_const_deriv (f := fun τ => (s τ).y) (fun τ hτ => by
      rw [← hvy τ hτ]
      exact hd τ hτ 1) t ht

/-- **C96 needs a thrust range with zero**: limits are applied after the commands are dropped, so with a
positive minimal force a collided rocket with fuel goes on burning it. -/
theorem C96_false_idle (p : ThrustParams) (h1 : 0 < p.fMin) (h2 : p.fMin ≤ p.fMax) (hc : 0 < p.cT)
    (s r : RocketState ℝ) (hm : p.mv < s.m)
    (hr : (rocketUpdate p true).rate s { F_left := 0, F_right := 0, dphi := 0 } = .ok r) : r.m < 0 := by
  simp only [rocketUpdate, rocketRate] at hr
  split at hr
  · cases hr
  · cases hr
    have hf : p.thrust s.m 0 = p.fMin := by
      unfold ThrustParams.thrust
      rw [if_neg (not_le.mpr hm), (C42_force _ _ h2 _).2.2.2.1 h1]
    simp only [hf]
    nlinarith

/-- A collided bicycle coasting along the x axis in spite of its commands, and a collided spacecraft
floating: the hypotheses of `C96_vehicle`, `C96_spacecraft` (and of `C95_vehicle` for the former) are met. -/
theorem coasting : let p : VehicleParams ℝ := ⟨⟨-1, 10, -3, 3⟩, 1 / 2, 1⟩
    p.Valid ∧ UpdateMotion (vehicleUpdate 2 1 p true false) 3 (fun t => ⟨5 * t, 0, 0, 5, 0⟩) ∧
    UpdateStep (fun c _ => vehicleUpdate 2 1 p c false) 3 ⟨0, 0, 0, 5, 0⟩ ⟨15, 0, 0, 5, 0⟩ := by
  intro p
  have hp : p.Valid := ⟨⟨by norm_num [p], by norm_num [p]⟩, by norm_num [p], by norm_num [p]⟩
  let u : VehicleCommands ℝ := { acc := -3, ddelta := 1 }
  let m := vehicleUpdate 2 1 p true false
  let y : ℝ → List ℝ := fun t => m.pack (⟨5 * t, 0, 0, 5, 0⟩ : VehicleState ℝ) u
  have hy : Solves m.rhs (m.nS + m.nU) 3 y := by
    refine (C94_refines _ _ (C94_vehicle 2 1 p true false) 3 (by norm_num) (⟨0, 0, 0, 5, 0⟩ : VehicleState ℝ)
      u y ?_).mpr ⟨fun t => (⟨5 * t, 0, 0, 5, 0⟩ : VehicleState ℝ), by simp, ?_,
        fun t _ => ⟨rfl, Faithful.unpack (C94_vehicle 2 1 p true false) _ _⟩⟩
    · simp [y, m]
    · intro t _
      refine ⟨(⟨5, 0, 0, 0, 0⟩ : VehicleState ℝ), ?_, ?_⟩
      · have e1 := fullAccelerationLimits_zero p.toModelParams (by norm_num [p]) (by norm_num [p]) 5
        have e2 := steeringConstraint_zero p.deltaMax p.ddeltaMax 0 hp.ddelta
        simp only [vehicleUpdate, vehicleRate, bicycleRate, realTrig, if_true, and_self, e1, e2,
          Real.tan_zero, Real.cos_zero, Real.sin_zero]
        norm_num
      · intro i
        match i with
        | 0 =>
          show HasDerivWithinAt (fun τ : ℝ => 5 * τ) 5 (Set.Icc 0 3) t
          have := (hasDerivWithinAt_id t (Set.Icc 0 3)).const_mul (5 : ℝ)
          exact this.congr_deriv (by norm_num)
        | 1 => exact hasDerivWithinAt_const _ _ _
        | 2 => exact hasDerivWithinAt_const _ _ _
        | 3 => exact hasDerivWithinAt_const _ _ _
        | 4 => exact hasDerivWithinAt_const _ _ _
        | i + 5 => exact hasDerivWithinAt_const _ _ _
  refine ⟨hp, ⟨u, y, rfl, hy, fun t _ => rfl⟩, true, u, { acc := 0, ddelta := 0 }, 3, y, by norm_num, le_rfl, ?_, hy,
    ?_⟩
  · simp [y, m]
  · have : y 3 = m.pack (⟨15, 0, 0, 5, 0⟩ : VehicleState ℝ) u := by
      simp only [y]; norm_num
    rw [this]
    rfl

end Phys
end Verif
