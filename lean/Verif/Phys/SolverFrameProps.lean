import Verif.Phys.SolverAll
import Verif.Phys.UpdateProps
import Verif.Phys.MirrorProps
import Verif.Phys.ThrustSolverProps

/-!
# C149: what `update` computes with the solver of the code does not depend on the world frame
-/

namespace Verif
namespace Phys

section General
variable {K : Type} [Field K] [LinearOrder K] [IsStrictOrderedRing K]
variable {V W : Type} [AddCommGroup V] [Module K V] [AddCommGroup W] [Module K W]

/-- `f'` is `f` in the coordinates `A z + b`. -/
def Same (A : V →ₗ[K] W) (b : W) (f : V → Except Err V) (f' : W → Except Err W) : Prop :=
  ∀ z, f' (A z + b) = (f z).map A

theorem slopesE_affine {A : V →ₗ[K] W} {b : W} {f : V → Except Err V} {f' : W → Except Err W}
    (hf : Same A b f f') (y : V) (h : K) (rows : List (List K)) (ks : List V) :
    slopesE f' (A y + b) h rows (ks.map A) = (slopesE f y h rows ks).map (List.map A) := by
  induction rows generalizing ks with
  | nil => rfl
  | cons a rows ih =>
    have e : A y + b + h • weighted a (ks.map A) = A (y + h • weighted a ks) + b := by
      rw [map_add, map_smul, weighted_map]; abel
    simp only [slopesE]
    rw [e, hf]
    cases hk : f (y + h • weighted a ks) with
    | error e => rfl
    | ok k =>
      have := ih (ks ++ [k])
      rw [List.map_append] at this
      exact this

theorem rkStepE_affine {A : V →ₗ[K] W} {b : W} {f : V → Except Err V} {f' : W → Except Err W}
    (hf : Same A b f f') (m : Tableau K) (h : K) (y : V) :
    rkStepE f' m h (A y + b) = (rkStepE f m h y).map (fun z => A z + b) := by
  unfold rkStepE
  rw [hf]
  cases hk : f y with
  | error e => rfl
  | ok k =>
    have := slopesE_affine hf y h m.rows [k]
    rw [List.map_singleton] at this
    change (slopesE f' (A y + b) h m.rows [A k] >>= fun ks => pure (A y + b + h • weighted m.weights ks)) =
      (slopesE f y h m.rows [k] >>= fun ks => pure (y + h • weighted m.weights ks)).map _
    rw [this]
    cases slopesE f y h m.rows [k] with
    | error e => rfl
    | ok ks =>
      change Except.ok (A y + b + h • weighted m.weights (ks.map A)) = Except.ok (A (y + h • weighted m.weights ks) + b)
      rw [map_add, map_smul, weighted_map]
      congr 1
      abel

theorem rkRunE_affine {A : V →ₗ[K] W} {b : W} {f : V → Except Err V} {f' : W → Except Err W}
    (hf : Same A b f f') (m : Tableau K) (hs : List K) (y : V) :
    rkRunE f' m hs (A y + b) = (rkRunE f m hs y).map (fun z => A z + b) := by
  induction hs generalizing y with
  | nil => rfl
  | cons h hs ih =>
    unfold rkRunE at ih ⊢
    rw [List.foldlM_cons, List.foldlM_cons, rkStepE_affine hf]
    cases rkStepE f m h y with
    | error e => rfl
    | ok z => exact ih z

end General

noncomputable section

/-! ## On packed arrays as on states -/

variable {S U : Type}

/-- Specification: the array of a state is linear in the state. -/
def LinearArray [AddCommGroup S] [Module ℝ S] (toS : S → List ℝ) : Prop :=
  ∀ a b k, toS (a + k • b) = List.zipWith (fun x y => x + k * y) (toS a) (toS b)

theorem getD_zip (k : ℝ) (a b : List ℝ) (h : a.length = b.length) (i : Nat) :
    (List.zipWith (fun x y => x + k * y) a b).getD i 0 = a.getD i 0 + k * b.getD i 0 := by
  induction a generalizing b i with
  | nil =>
    cases b with
    | nil => simp
    | cons _ _ => simp at h
  | cons x a ih =>
    cases b with
    | nil => simp at h
    | cons y b =>
      cases i with
      | zero => simp
      | succ i => simpa using ih b (by simpa using h) i

theorem getD_append_zero (a : List ℝ) (n i : Nat) : (a ++ List.replicate n (0 : ℝ)).getD i 0 = a.getD i 0 := by
  by_cases h : i < a.length
  · rw [List.getD_eq_getElem?_getD, List.getElem?_append_left h, ← List.getD_eq_getElem?_getD]
  · rw [getD_zeros _ _ _ (by omega), List.getD_eq_getElem?_getD, List.getElem?_eq_none (by omega)]; rfl

/-- The array of a state, filled up with zeros, as a linear map. -/
def stateVec [AddCommGroup S] [Module ℝ S] (m : UpdateOf S U) (hl : LinearArray m.toS)
    (hn : ∀ s, (m.toS s).length = m.nS) : S →ₗ[ℝ] (Fin (m.nS + m.nU) → ℝ) where
  toFun s := toVec _ (m.toS s)
  map_add' a b := by
    funext i
    have := hl a b 1
    rw [one_smul] at this
    show (m.toS (a + b)).getD i 0 = (m.toS a).getD i 0 + (m.toS b).getD i 0
    rw [this, getD_zip _ _ _ (by rw [hn, hn]), one_mul]
  map_smul' k a := by
    funext i
    have h0 := hl 0 0 1
    rw [one_smul, add_zero] at h0
    have z : ∀ i, (m.toS 0).getD i 0 = 0 := by
      intro i
      have := congrArg (fun l => l.getD i 0) h0
      simp only [getD_zip _ _ _ rfl] at this
      linarith
    have := hl 0 a k
    rw [zero_add] at this
    show (m.toS (k • a)).getD i 0 = k * (m.toS a).getD i 0
    rw [this, getD_zip _ _ _ (by rw [hn, hn]), z, zero_add]

/-- The commands in the packed array. -/
def cmdVec (m : UpdateOf S U) (u : U) : Fin (m.nS + m.nU) → ℝ :=
  toVec _ (List.replicate m.nS 0 ++ m.toU u)

theorem pack_vec [AddCommGroup S] [Module ℝ S] (m : UpdateOf S U) (hl : LinearArray m.toS)
    (hn : ∀ s, (m.toS s).length = m.nS) (s : S) (u : U) :
    toVec (m.nS + m.nU) (m.pack s u) = stateVec m hl hn s + cmdVec m u := by
  funext i
  show (m.toS s ++ m.toU u).getD i 0 = (m.toS s).getD i 0 + (List.replicate m.nS 0 ++ m.toU u).getD i 0
  by_cases h : (i : Nat) < m.nS
  · rw [List.getD_eq_getElem?_getD, List.getElem?_append_left (by rw [hn]; exact h), ← List.getD_eq_getElem?_getD,
      List.getD_eq_getElem?_getD (l := List.replicate _ _ ++ _), List.getElem?_append_left (by simpa using h),
      List.getElem?_replicate]
    simp [h]
  · have e1 : (m.toS s).getD i 0 = 0 := by
      rw [List.getD_eq_getElem?_getD, List.getElem?_eq_none (by rw [hn]; omega)]; rfl
    rw [e1, zero_add, List.getD_eq_getElem?_getD, List.getElem?_append_right (by rw [hn]; omega), hn,
      List.getD_eq_getElem?_getD, List.getElem?_append_right (by simpa using h), List.length_replicate]

theorem ofFn_toVec (n : Nat) (y : List ℝ) (h : y.length = n) : List.ofFn (toVec n y) = y := by
  refine List.ext_getElem (by simpa using h.symm) fun i h1 h2 => ?_
  rw [List.getElem_ofFn]
  show y.getD i 0 = _
  rw [List.getD_eq_getElem?_getD, List.getElem?_eq_getElem h2]; rfl

/-- **C149.** The solver works on packed arrays, but computes what the same method computes on the states, with
the commands as the model reads them. -/
theorem C149_refines [AddCommGroup S] [Module ℝ S] (m : UpdateOf S U) (act : U → U) (hm : Faithful m act)
    (hl : LinearArray m.toS) (tab : Tableau ℝ) (u : U) (hs : List ℝ) (x : S) :
    m.solve tab u hs x = rkRunE (fun z => m.rate z (act u)) tab hs x := by
  have hlen : ∀ s, (m.pack s u).length = m.nS + m.nU := by
    intro s; rw [UpdateOf.pack, List.length_append, hm.state.length, hm.cmds]
  have hsame : Same (stateVec m hl hm.state.length) (cmdVec m u) (fun z => m.rate z (act u)) m.field := by
    intro z
    rw [← pack_vec, UpdateOf.field, ofFn_toVec _ _ (hlen z), hm.rhs]
    show _ = (m.rate z (act u)).map _
    cases m.rate z (act u) with
    | error e => rfl
    | ok d =>
      change Except.ok _ = Except.ok _
      congr 1
      funext i
      exact getD_append_zero _ _ _
  unfold UpdateOf.solve
  rw [pack_vec m hl hm.state.length, rkRunE_affine hsame]
  cases rkRunE (fun z => m.rate z (act u)) tab hs x with
  | error e => rfl
  | ok z =>
    change (m.unpack (List.ofFn (stateVec m hl hm.state.length z + cmdVec m u)) >>= fun su => pure su.1) = _
    rw [← pack_vec, ofFn_toVec _ _ (hlen z), hm.unpack]
    rfl

theorem vehicle_linear : LinearArray (VehicleState.toArray : VehicleState ℝ → List ℝ) := fun a b k => by
  simp [VehicleState.toArray, VehicleState.add_def, VehicleState.smul_def, VehicleState.add, VehicleState.mul, mul_comm]

theorem vehicleDyn_linear : LinearArray (VehicleStateDyn.toArray : VehicleStateDyn ℝ → List ℝ) := fun a b k => by
  simp [VehicleStateDyn.toArray, VehicleStateDyn.add_def, VehicleStateDyn.smul_def, VehicleStateDyn.add,
    VehicleStateDyn.mul, mul_comm]

theorem pedestrian_linear : LinearArray (PedestrianState.toArray : PedestrianState ℝ → List ℝ) := fun a b k => by
  simp [PedestrianState.toArray, PedestrianState.add_def, PedestrianState.smul_def, PedestrianState.add,
    PedestrianState.mul, mul_comm]

theorem diffDrive_linear : LinearArray (DiffDriveState.toArray : DiffDriveState ℝ → List ℝ) := fun a b k => by
  simp [DiffDriveState.toArray, DiffDriveState.add_def, DiffDriveState.smul_def, DiffDriveState.add,
    DiffDriveState.mul, mul_comm]

theorem spacecraft_linear : LinearArray (SpacecraftState.toArray : SpacecraftState ℝ → List ℝ) := fun a b k => by
  simp [SpacecraftState.toArray, SpacecraftState.add_def, SpacecraftState.smul_def, SpacecraftState.add,
    SpacecraftState.mul, mul_comm]

theorem spaceship_linear : LinearArray (SpaceshipState.toArray : SpaceshipState ℝ → List ℝ) := fun a b k => by
  simp [SpaceshipState.toArray, SpaceshipState.add_def, SpaceshipState.smul_def, SpaceshipState.add,
    SpaceshipState.mul, mul_comm]

theorem rocket_linear : LinearArray (RocketState.toArray : RocketState ℝ → List ℝ) := fun a b k => by
  simp [RocketState.toArray, RocketState.add_def, RocketState.smul_def, RocketState.add, RocketState.mul, mul_comm]

theorem dynObstacle_linear : LinearArray (DynObstacleState.toArray : DynObstacleState ℝ → List ℝ) := fun a b k => by
  simp [DynObstacleState.toArray, DynObstacleState.add_def, DynObstacleState.smul_def, DynObstacleState.add,
    DynObstacleState.mul, mul_comm]


theorem solve_affine [AddCommGroup S] [Module ℝ S] (m m' : UpdateOf S U) (act act' : U → U) (hm : Faithful m act)
    (hm' : Faithful m' act') (hl : LinearArray m.toS) (hl' : LinearArray m'.toS) (A : S →ₗ[ℝ] S) (b : S) (u u' : U)
    (h : ∀ z, m'.rate (A z + b) (act' u') = (m.rate z (act u)).map A) (tab : Tableau ℝ) (hs : List ℝ) (x : S) :
    m'.solve tab u' hs (A x + b) = (m.solve tab u hs x).map (fun z => A z + b) := by
  rw [C149_refines m act hm hl, C149_refines m' act' hm' hl']
  exact rkRunE_affine (f := fun z => m.rate z (act u)) (f' := fun z => m'.rate z (act' u')) h tab hs x

theorem calls_map (step step' : Call U → S → Except Err S) (g : Call U → Call U) (mv : S → S) (cs : List (Call U))
    (h : ∀ c x, step' (g c) (mv x) = (step c x).map mv) (x : S) :
    calls step' (cs.map g) (mv x) = (calls step cs x).map mv := by
  induction cs generalizing x with
  | nil => rfl
  | cons c cs ih =>
    unfold calls at ih ⊢
    rw [List.map_cons, List.foldlM_cons, List.foldlM_cons, h]
    cases step c x with
    | error e => rfl
    | ok z => exact ih z

/-! ## The world frame -/

/-- Specification: the same kinematic vehicle, seen from another world frame. -/
def movedV (al : ℝ) (t : ℝ × ℝ) (s : VehicleState ℝ) : VehicleState ℝ :=
  { s with x := (movePoint al t (s.x, s.y)).1, y := (movePoint al t (s.x, s.y)).2, psi := s.psi + al }

/-- Specification: the same dynamic vehicle, seen from another world frame. -/
def movedD (al : ℝ) (t : ℝ × ℝ) (s : VehicleStateDyn ℝ) : VehicleStateDyn ℝ :=
  { s with x := (movePoint al t (s.x, s.y)).1, y := (movePoint al t (s.x, s.y)).2, psi := s.psi + al }

/-- Specification: the same pedestrian, seen from another world frame. -/
def movedP (al : ℝ) (t : ℝ × ℝ) (s : PedestrianState ℝ) : PedestrianState ℝ :=
  { s with x := (movePoint al t (s.x, s.y)).1, y := (movePoint al t (s.x, s.y)).2, psi := s.psi + al }

/-- Specification: the same differential drive, seen from another world frame. -/
def movedR (al : ℝ) (t : ℝ × ℝ) (s : DiffDriveState ℝ) : DiffDriveState ℝ :=
  { s with x := (movePoint al t (s.x, s.y)).1, y := (movePoint al t (s.x, s.y)).2, psi := s.psi + al }

/-- Specification: the same spacecraft, seen from another world frame. -/
def movedC (al : ℝ) (t : ℝ × ℝ) (s : SpacecraftState ℝ) : SpacecraftState ℝ :=
  { s with x := (movePoint al t (s.x, s.y)).1, y := (movePoint al t (s.x, s.y)).2, psi := s.psi + al }

/-- Specification: the same spaceship, seen from another world frame. -/
def movedS (al : ℝ) (t : ℝ × ℝ) (s : SpaceshipState ℝ) : SpaceshipState ℝ :=
  { s with x := (movePoint al t (s.x, s.y)).1, y := (movePoint al t (s.x, s.y)).2, psi := s.psi + al }

/-- Specification: the same rocket, whose velocity is in the world frame, seen from another world frame. -/
def movedT (al : ℝ) (t : ℝ × ℝ) (s : RocketState ℝ) : RocketState ℝ :=
  { s with x := (movePoint al t (s.x, s.y)).1, y := (movePoint al t (s.x, s.y)).2, psi := s.psi + al, vx := (moveVec al (s.vx, s.vy)).1, vy := (moveVec al (s.vx, s.vy)).2 }

/-- Specification: the same moving obstacle, seen from another world frame. -/
def movedO (al : ℝ) (t : ℝ × ℝ) (s : DynObstacleState ℝ) : DynObstacleState ℝ :=
  { s with x := (movePoint al t (s.x, s.y)).1, y := (movePoint al t (s.x, s.y)).2, psi := s.psi + al }


def turnV (al : ℝ) : VehicleState ℝ →ₗ[ℝ] VehicleState ℝ where
  toFun s := { s with x := (moveVec al (s.x, s.y)).1, y := (moveVec al (s.x, s.y)).2 }
  map_add' a b := by
    simp only [VehicleState.add_def, VehicleState.add, moveVec, movePoint, VehicleState.mk.injEq]
    refine ⟨?_, ?_, ?_, ?_, ?_⟩ <;> first | trivial | ring
  map_smul' k a := by
    simp only [VehicleState.smul_def, VehicleState.mul, moveVec, movePoint, VehicleState.mk.injEq, RingHom.id_apply]
    refine ⟨?_, ?_, ?_, ?_, ?_⟩ <;> first | trivial | ring

theorem movedV_eq (al : ℝ) (t : ℝ × ℝ) (s : VehicleState ℝ) : movedV al t s = turnV al s + ⟨t.1, t.2, al, 0, 0⟩ := by
  show _ = VehicleState.add _ _
  simp only [movedV, turnV, LinearMap.coe_mk, AddHom.coe_mk, VehicleState.add, moveVec, movePoint, VehicleState.mk.injEq]
  refine ⟨?_, ?_, ?_, ?_, ?_⟩ <;> first | trivial | ring

/-- **C149.** Any sequence of updates of a kinematic vehicle, seen from another world frame, is the same
sequence of updates with all states moved; errors are the same. -/
theorem C149_vehicle (wb lr : ℝ) (p : VehicleParams ℝ) (isCar : Bool) (al : ℝ) (t : ℝ × ℝ) (tab : Tableau ℝ)
    (cs : List (Call (VehicleCommands ℝ))) (x : VehicleState ℝ) :
    calls (vehicleCall wb lr p isCar tab) cs (movedV al t x) =
      (calls (vehicleCall wb lr p isCar tab) cs x).map (movedV al t) := by
  have := calls_map (vehicleCall wb lr p isCar tab) (vehicleCall wb lr p isCar tab) id (movedV al t) cs (fun c x => by
    have h := solve_affine (vehicleUpdate wb lr p c.collided isCar) (vehicleUpdate wb lr p c.collided isCar) _ _ (C94_vehicle wb lr p c.collided isCar) (C94_vehicle wb lr p c.collided isCar) vehicle_linear vehicle_linear
      (turnV al) ⟨t.1, t.2, al, 0, 0⟩ c.cmd c.cmd (fun z => by
      rw [← movedV_eq]
      exact congrArg Except.ok (C75_vehicle wb lr al t p z _)) tab c.steps x
    rw [← movedV_eq] at h
    refine h.trans ?_
    simp only [← movedV_eq]
    rfl) x
  rwa [List.map_id] at this


def turnD (al : ℝ) : VehicleStateDyn ℝ →ₗ[ℝ] VehicleStateDyn ℝ where
  toFun s := { s with x := (moveVec al (s.x, s.y)).1, y := (moveVec al (s.x, s.y)).2 }
  map_add' a b := by
    simp only [VehicleStateDyn.add_def, VehicleStateDyn.add, moveVec, movePoint, VehicleStateDyn.mk.injEq]
    refine ⟨?_, ?_, ?_, ?_, ?_, ?_, ?_⟩ <;> first | trivial | ring
  map_smul' k a := by
    simp only [VehicleStateDyn.smul_def, VehicleStateDyn.mul, moveVec, movePoint, VehicleStateDyn.mk.injEq, RingHom.id_apply]
    refine ⟨?_, ?_, ?_, ?_, ?_, ?_, ?_⟩ <;> first | trivial | ring

theorem movedD_eq (al : ℝ) (t : ℝ × ℝ) (s : VehicleStateDyn ℝ) : movedD al t s = turnD al s + ⟨t.1, t.2, al, 0, 0, 0, 0⟩ := by
  show _ = VehicleStateDyn.add _ _
  simp only [movedD, turnD, LinearMap.coe_mk, AddHom.coe_mk, VehicleStateDyn.add, moveVec, movePoint, VehicleStateDyn.mk.injEq]
  refine ⟨?_, ?_, ?_, ?_, ?_, ?_, ?_⟩ <;> first | trivial | ring

/-- **C149.** Any sequence of updates of a dynamic vehicle, seen from another world frame, is the same
sequence of updates with all states moved; errors are the same. -/
theorem C149_vehicleDyn (g : VehicleGeom) (p : VehicleParams ℝ) (front rear : Pacejka) (isCar : Bool) (al : ℝ) (t : ℝ × ℝ) (tab : Tableau ℝ)
    (cs : List (Call (VehicleCommands ℝ))) (x : VehicleStateDyn ℝ) :
    calls (vehicleDynCall g p front rear isCar tab) cs (movedD al t x) =
      (calls (vehicleDynCall g p front rear isCar tab) cs x).map (movedD al t) := by
  have := calls_map (vehicleDynCall g p front rear isCar tab) (vehicleDynCall g p front rear isCar tab) id (movedD al t) cs (fun c x => by
    have h := solve_affine (vehicleDynUpdate g p front rear c.collided isCar x) (vehicleDynUpdate g p front rear c.collided isCar (movedD al t x)) _ _ (C94_vehicleDyn g p front rear c.collided isCar x) (C94_vehicleDyn g p front rear c.collided isCar (movedD al t x)) vehicleDyn_linear vehicleDyn_linear
      (turnD al) ⟨t.1, t.2, al, 0, 0, 0, 0⟩ c.cmd c.cmd (fun z => by
      rw [← movedD_eq]
      exact C75_vehicleDyn g p front rear c.collided al t x z _) tab c.steps x
    rw [← movedD_eq] at h
    refine h.trans ?_
    simp only [← movedD_eq]
    rfl) x
  rwa [List.map_id] at this


def turnP (al : ℝ) : PedestrianState ℝ →ₗ[ℝ] PedestrianState ℝ where
  toFun s := { s with x := (moveVec al (s.x, s.y)).1, y := (moveVec al (s.x, s.y)).2 }
  map_add' a b := by
    simp only [PedestrianState.add_def, PedestrianState.add, moveVec, movePoint, PedestrianState.mk.injEq]
    refine ⟨?_, ?_, ?_, ?_, ?_, ?_⟩ <;> first | trivial | ring
  map_smul' k a := by
    simp only [PedestrianState.smul_def, PedestrianState.mul, moveVec, movePoint, PedestrianState.mk.injEq, RingHom.id_apply]
    refine ⟨?_, ?_, ?_, ?_, ?_, ?_⟩ <;> first | trivial | ring

theorem movedP_eq (al : ℝ) (t : ℝ × ℝ) (s : PedestrianState ℝ) : movedP al t s = turnP al s + ⟨t.1, t.2, al, 0, 0, 0⟩ := by
  show _ = PedestrianState.add _ _
  simp only [movedP, turnP, LinearMap.coe_mk, AddHom.coe_mk, PedestrianState.add, moveVec, movePoint, PedestrianState.mk.injEq]
  refine ⟨?_, ?_, ?_, ?_, ?_, ?_⟩ <;> first | trivial | ring

/-- **C149.** Any sequence of updates of a pedestrian, seen from another world frame, is the same
sequence of updates with all states moved; errors are the same. -/
theorem C149_pedestrian (p : ModelParams ℝ) (dpsiMax : ℝ) (al : ℝ) (t : ℝ × ℝ) (tab : Tableau ℝ)
    (cs : List (Call (PedestrianCommands ℝ))) (x : PedestrianState ℝ) :
    calls (pedestrianCall p dpsiMax tab) cs (movedP al t x) =
      (calls (pedestrianCall p dpsiMax tab) cs x).map (movedP al t) := by
  have := calls_map (pedestrianCall p dpsiMax tab) (pedestrianCall p dpsiMax tab) id (movedP al t) cs (fun c x => by
    have h := solve_affine (pedestrianUpdate p dpsiMax c.collided x) (pedestrianUpdate p dpsiMax c.collided (movedP al t x)) _ _ (C94_pedestrian p dpsiMax c.collided x) (C94_pedestrian p dpsiMax c.collided (movedP al t x)) pedestrian_linear pedestrian_linear
      (turnP al) ⟨t.1, t.2, al, 0, 0, 0⟩ c.cmd c.cmd (fun z => by
      rw [← movedP_eq]
      exact congrArg Except.ok (C75_pedestrian dpsiMax al t c.collided p x z _)) tab c.steps x
    rw [← movedP_eq] at h
    refine h.trans ?_
    simp only [← movedP_eq]
    rfl) x
  rwa [List.map_id] at this


def turnR (al : ℝ) : DiffDriveState ℝ →ₗ[ℝ] DiffDriveState ℝ where
  toFun s := { s with x := (moveVec al (s.x, s.y)).1, y := (moveVec al (s.x, s.y)).2 }
  map_add' a b := by
    simp only [DiffDriveState.add_def, DiffDriveState.add, moveVec, movePoint, DiffDriveState.mk.injEq]
    refine ⟨?_, ?_, ?_⟩ <;> first | trivial | ring
  map_smul' k a := by
    simp only [DiffDriveState.smul_def, DiffDriveState.mul, moveVec, movePoint, DiffDriveState.mk.injEq, RingHom.id_apply]
    refine ⟨?_, ?_, ?_⟩ <;> first | trivial | ring

theorem movedR_eq (al : ℝ) (t : ℝ × ℝ) (s : DiffDriveState ℝ) : movedR al t s = turnR al s + ⟨t.1, t.2, al⟩ := by
  show _ = DiffDriveState.add _ _
  simp only [movedR, turnR, LinearMap.coe_mk, AddHom.coe_mk, DiffDriveState.add, moveVec, movePoint, DiffDriveState.mk.injEq]
  refine ⟨?_, ?_, ?_⟩ <;> first | trivial | ring

/-- **C149.** Any sequence of updates of a differential drive, seen from another world frame, is the same
sequence of updates with all states moved; errors are the same. -/
theorem C149_diffDrive (wb R lo hi : ℝ) (al : ℝ) (t : ℝ × ℝ) (tab : Tableau ℝ)
    (cs : List (Call (DiffDriveCommands ℝ))) (x : DiffDriveState ℝ) :
    calls (diffDriveCall wb R lo hi tab) cs (movedR al t x) =
      (calls (diffDriveCall wb R lo hi tab) cs x).map (movedR al t) := by
  have := calls_map (diffDriveCall wb R lo hi tab) (diffDriveCall wb R lo hi tab) id (movedR al t) cs (fun c x => by
    have h := solve_affine (diffDriveUpdate wb R lo hi c.collided) (diffDriveUpdate wb R lo hi c.collided) _ _ (C94_diffDrive wb R lo hi c.collided) (C94_diffDrive wb R lo hi c.collided) diffDrive_linear diffDrive_linear
      (turnR al) ⟨t.1, t.2, al⟩ c.cmd c.cmd (fun z => by
      rw [← movedR_eq]
      exact congrArg Except.ok (C75_diffDrive wb R lo hi al t z _)) tab c.steps x
    rw [← movedR_eq] at h
    refine h.trans ?_
    simp only [← movedR_eq]
    rfl) x
  rwa [List.map_id] at this


def turnC (al : ℝ) : SpacecraftState ℝ →ₗ[ℝ] SpacecraftState ℝ where
  toFun s := { s with x := (moveVec al (s.x, s.y)).1, y := (moveVec al (s.x, s.y)).2 }
  map_add' a b := by
    simp only [SpacecraftState.add_def, SpacecraftState.add, moveVec, movePoint, SpacecraftState.mk.injEq]
    refine ⟨?_, ?_, ?_, ?_, ?_, ?_⟩ <;> first | trivial | ring
  map_smul' k a := by
    simp only [SpacecraftState.smul_def, SpacecraftState.mul, moveVec, movePoint, SpacecraftState.mk.injEq, RingHom.id_apply]
    refine ⟨?_, ?_, ?_, ?_, ?_, ?_⟩ <;> first | trivial | ring

theorem movedC_eq (al : ℝ) (t : ℝ × ℝ) (s : SpacecraftState ℝ) : movedC al t s = turnC al s + ⟨t.1, t.2, al, 0, 0, 0⟩ := by
  show _ = SpacecraftState.add _ _
  simp only [movedC, turnC, LinearMap.coe_mk, AddHom.coe_mk, SpacecraftState.add, moveVec, movePoint, SpacecraftState.mk.injEq]
  refine ⟨?_, ?_, ?_, ?_, ?_, ?_⟩ <;> first | trivial | ring

/-- **C149.** Any sequence of updates of a spacecraft, seen from another world frame, is the same
sequence of updates with all states moved; errors are the same. -/
theorem C149_spacecraft (p : ModelParams ℝ) (lo hi w m iz : ℝ) (al : ℝ) (t : ℝ × ℝ) (tab : Tableau ℝ)
    (cs : List (Call (SpacecraftCommands ℝ))) (x : SpacecraftState ℝ) :
    calls (spacecraftCall p lo hi w m iz tab) cs (movedC al t x) =
      (calls (spacecraftCall p lo hi w m iz tab) cs x).map (movedC al t) := by
  have := calls_map (spacecraftCall p lo hi w m iz tab) (spacecraftCall p lo hi w m iz tab) id (movedC al t) cs (fun c x => by
    have h := solve_affine (spacecraftUpdate p lo hi w m iz c.collided) (spacecraftUpdate p lo hi w m iz c.collided) _ _ (C94_spacecraft p lo hi w m iz c.collided) (C94_spacecraft p lo hi w m iz c.collided) spacecraft_linear spacecraft_linear
      (turnC al) ⟨t.1, t.2, al, 0, 0, 0⟩ c.cmd c.cmd (fun z => by
      rw [← movedC_eq]
      exact congrArg Except.ok (C75_spacecraft lo hi w m iz al t p z _)) tab c.steps x
    rw [← movedC_eq] at h
    refine h.trans ?_
    simp only [← movedC_eq]
    rfl) x
  rwa [List.map_id] at this


def turnS (al : ℝ) : SpaceshipState ℝ →ₗ[ℝ] SpaceshipState ℝ where
  toFun s := { s with x := (moveVec al (s.x, s.y)).1, y := (moveVec al (s.x, s.y)).2 }
  map_add' a b := by
    simp only [SpaceshipState.add_def, SpaceshipState.add, moveVec, movePoint, SpaceshipState.mk.injEq]
    refine ⟨?_, ?_, ?_, ?_, ?_, ?_, ?_, ?_⟩ <;> first | trivial | ring
  map_smul' k a := by
    simp only [SpaceshipState.smul_def, SpaceshipState.mul, moveVec, movePoint, SpaceshipState.mk.injEq, RingHom.id_apply]
    refine ⟨?_, ?_, ?_, ?_, ?_, ?_, ?_, ?_⟩ <;> first | trivial | ring

theorem movedS_eq (al : ℝ) (t : ℝ × ℝ) (s : SpaceshipState ℝ) : movedS al t s = turnS al s + ⟨t.1, t.2, al, 0, 0, 0, 0, 0⟩ := by
  show _ = SpaceshipState.add _ _
  simp only [movedS, turnS, LinearMap.coe_mk, AddHom.coe_mk, SpaceshipState.add, moveVec, movePoint, SpaceshipState.mk.injEq]
  refine ⟨?_, ?_, ?_, ?_, ?_, ?_, ?_, ?_⟩ <;> first | trivial | ring

/-- **C149.** Any sequence of updates of a spaceship, seen from another world frame, is the same
sequence of updates with all states moved; errors are the same. -/
theorem C149_spaceship (p : ThrustParams) (al : ℝ) (t : ℝ × ℝ) (tab : Tableau ℝ)
    (cs : List (Call (SpaceshipCommands ℝ))) (x : SpaceshipState ℝ) :
    calls (spaceshipCall p tab) cs (movedS al t x) =
      (calls (spaceshipCall p tab) cs x).map (movedS al t) := by
  have := calls_map (spaceshipCall p tab) (spaceshipCall p tab) id (movedS al t) cs (fun c x => by
    have h := solve_affine (spaceshipUpdate p c.collided) (spaceshipUpdate p c.collided) _ _ (C94_spaceship p c.collided) (C94_spaceship p c.collided) spaceship_linear spaceship_linear
      (turnS al) ⟨t.1, t.2, al, 0, 0, 0, 0, 0⟩ c.cmd c.cmd (fun z => by
      rw [← movedS_eq]
      exact C75_spaceship p al t z _) tab c.steps x
    rw [← movedS_eq] at h
    refine h.trans ?_
    simp only [← movedS_eq]
    rfl) x
  rwa [List.map_id] at this


def turnT (al : ℝ) : RocketState ℝ →ₗ[ℝ] RocketState ℝ where
  toFun s := { s with x := (moveVec al (s.x, s.y)).1, y := (moveVec al (s.x, s.y)).2, vx := (moveVec al (s.vx, s.vy)).1, vy := (moveVec al (s.vx, s.vy)).2 }
  map_add' a b := by
    simp only [RocketState.add_def, RocketState.add, moveVec, movePoint, RocketState.mk.injEq]
    refine ⟨?_, ?_, ?_, ?_, ?_, ?_, ?_, ?_⟩ <;> first | trivial | ring
  map_smul' k a := by
    simp only [RocketState.smul_def, RocketState.mul, moveVec, movePoint, RocketState.mk.injEq, RingHom.id_apply]
    refine ⟨?_, ?_, ?_, ?_, ?_, ?_, ?_, ?_⟩ <;> first | trivial | ring

theorem movedT_eq (al : ℝ) (t : ℝ × ℝ) (s : RocketState ℝ) : movedT al t s = turnT al s + ⟨t.1, t.2, al, 0, 0, 0, 0, 0⟩ := by
  show _ = RocketState.add _ _
  simp only [movedT, turnT, LinearMap.coe_mk, AddHom.coe_mk, RocketState.add, moveVec, movePoint, RocketState.mk.injEq]
  refine ⟨?_, ?_, ?_, ?_, ?_, ?_, ?_, ?_⟩ <;> first | trivial | ring

/-- **C149.** Any sequence of updates of a rocket, whose velocity is in the world frame, seen from another world frame, is the same
sequence of updates with all states moved; errors are the same. -/
theorem C149_rocket (p : ThrustParams) (al : ℝ) (t : ℝ × ℝ) (tab : Tableau ℝ)
    (cs : List (Call (RocketCommands ℝ))) (x : RocketState ℝ) :
    calls (rocketCall p tab) cs (movedT al t x) =
      (calls (rocketCall p tab) cs x).map (movedT al t) := by
  have := calls_map (rocketCall p tab) (rocketCall p tab) id (movedT al t) cs (fun c x => by
    have h := solve_affine (rocketUpdate p c.collided) (rocketUpdate p c.collided) _ _ (C94_rocket p c.collided) (C94_rocket p c.collided) rocket_linear rocket_linear
      (turnT al) ⟨t.1, t.2, al, 0, 0, 0, 0, 0⟩ c.cmd c.cmd (fun z => by
      rw [← movedT_eq]
      exact C75_rocket p al t z _) tab c.steps x
    rw [← movedT_eq] at h
    refine h.trans ?_
    simp only [← movedT_eq]
    rfl) x
  rwa [List.map_id] at this


def turnO (al : ℝ) : DynObstacleState ℝ →ₗ[ℝ] DynObstacleState ℝ where
  toFun s := { s with x := (moveVec al (s.x, s.y)).1, y := (moveVec al (s.x, s.y)).2 }
  map_add' a b := by
    simp only [DynObstacleState.add_def, DynObstacleState.add, moveVec, movePoint, DynObstacleState.mk.injEq]
    refine ⟨?_, ?_, ?_, ?_, ?_, ?_⟩ <;> first | trivial | ring
  map_smul' k a := by
    simp only [DynObstacleState.smul_def, DynObstacleState.mul, moveVec, movePoint, DynObstacleState.mk.injEq, RingHom.id_apply]
    refine ⟨?_, ?_, ?_, ?_, ?_, ?_⟩ <;> first | trivial | ring

theorem movedO_eq (al : ℝ) (t : ℝ × ℝ) (s : DynObstacleState ℝ) : movedO al t s = turnO al s + ⟨t.1, t.2, al, 0, 0, 0⟩ := by
  show _ = DynObstacleState.add _ _
  simp only [movedO, turnO, LinearMap.coe_mk, AddHom.coe_mk, DynObstacleState.add, moveVec, movePoint, DynObstacleState.mk.injEq]
  refine ⟨?_, ?_, ?_, ?_, ?_, ?_⟩ <;> first | trivial | ring

/-- **C149.** Any sequence of updates of a moving obstacle, seen from another world frame, is the same
sequence of updates with all states moved; errors are the same. -/
theorem C149_dynObstacle (p : ModelParams ℝ) (lo hi : ℝ) (al : ℝ) (t : ℝ × ℝ) (tab : Tableau ℝ)
    (cs : List (Call (DynObstacleCommands ℝ))) (x : DynObstacleState ℝ) :
    calls (dynObstacleCall p lo hi tab) cs (movedO al t x) =
      (calls (dynObstacleCall p lo hi tab) cs x).map (movedO al t) := by
  have := calls_map (dynObstacleCall p lo hi tab) (dynObstacleCall p lo hi tab) id (movedO al t) cs (fun c x => by
    have h := solve_affine (dynObstacleUpdate p lo hi) (dynObstacleUpdate p lo hi) _ _ (C94_dynObstacle p lo hi) (C94_dynObstacle p lo hi) dynObstacle_linear dynObstacle_linear
      (turnO al) ⟨t.1, t.2, al, 0, 0, 0⟩ c.cmd c.cmd (fun z => by
      rw [← movedO_eq]
      exact congrArg Except.ok (C75_dynObstacle lo hi al t p z _)) tab c.steps x
    rw [← movedO_eq] at h
    refine h.trans ?_
    simp only [← movedO_eq]
    rfl) x
  rwa [List.map_id] at this

/-! ## Left and right -/

/-- Specification: mirrored commands. -/
def mirrorVCmd (u : VehicleCommands ℝ) : VehicleCommands ℝ := { u with ddelta := -u.ddelta }

/-- Specification: mirrored commands. -/
def mirrorPCmd (u : PedestrianCommands ℝ) : PedestrianCommands ℝ := ⟨u.acc, -u.dpsi⟩

/-- Specification: mirrored commands. -/
def mirrorRCmd (u : DiffDriveCommands ℝ) : DiffDriveCommands ℝ := ⟨u.omega_r, u.omega_l⟩

/-- Specification: mirrored commands. -/
def mirrorCCmd (u : SpacecraftCommands ℝ) : SpacecraftCommands ℝ := ⟨u.acc_right, u.acc_left⟩

/-- Specification: mirrored commands. -/
def mirrorSCmd (u : SpaceshipCommands ℝ) : SpaceshipCommands ℝ := ⟨u.thrust, -u.ddelta⟩

/-- Specification: mirrored commands. -/
def mirrorTCmd (u : RocketCommands ℝ) : RocketCommands ℝ := ⟨u.F_right, u.F_left, u.dphi⟩

/-- Specification: mirrored commands. -/
def mirrorOCmd (u : DynObstacleCommands ℝ) : DynObstacleCommands ℝ := ⟨u.acc_x, -u.acc_y, -u.acc_psi⟩


def flipV : VehicleState ℝ →ₗ[ℝ] VehicleState ℝ where
  toFun := mirrorV
  map_add' a b := by
    simp only [VehicleState.add_def, VehicleState.add, mirrorV, VehicleState.mk.injEq]
    refine ⟨?_, ?_, ?_, ?_, ?_⟩ <;> first | trivial | ring
  map_smul' k a := by
    simp only [VehicleState.smul_def, VehicleState.mul, mirrorV, VehicleState.mk.injEq, RingHom.id_apply]
    refine ⟨?_, ?_, ?_, ?_, ?_⟩ <;> first | trivial | ring

/-- **C149.** Updates of the mirror image of a kinematic vehicle under the mirrored commands lead to the mirror
image. -/
theorem C149_mirror_vehicle (wb lr : ℝ) (p : VehicleParams ℝ) (isCar : Bool) (hp : p.Valid) (tab : Tableau ℝ)
    (cs : List (Call (VehicleCommands ℝ))) (x : VehicleState ℝ) :
    calls (vehicleCall wb lr p isCar tab) (cs.map (fun c => { c with cmd := mirrorVCmd c.cmd })) (mirrorV x) =
      (calls (vehicleCall wb lr p isCar tab) cs x).map mirrorV := by
  refine calls_map (vehicleCall wb lr p isCar tab) (vehicleCall wb lr p isCar tab) _ mirrorV cs (fun c x => ?_) x
  have h := solve_affine (vehicleUpdate wb lr p c.collided isCar) (vehicleUpdate wb lr p c.collided isCar) _ _ (C94_vehicle wb lr p c.collided isCar) (C94_vehicle wb lr p c.collided isCar) vehicle_linear vehicle_linear
      flipV 0 c.cmd (mirrorVCmd c.cmd) (fun z => by
      rw [add_zero]
      have h0 := congrArg (Except.ok (ε := Err)) (C93_vehicle wb lr p hp z (0, 0))
      have hu := congrArg (Except.ok (ε := Err)) (C93_vehicle wb lr p hp z (c.cmd.acc, c.cmd.ddelta))
      simp only [neg_zero] at h0
      by_cases hd : c.collided = true ∧ isCar = false
      · simp only [if_pos hd]
        exact h0
      · simp only [if_neg hd]
        exact hu) tab c.steps x
  simp only [add_zero] at h
  exact h


def flipD : VehicleStateDyn ℝ →ₗ[ℝ] VehicleStateDyn ℝ where
  toFun := mirrorD
  map_add' a b := by
    simp only [VehicleStateDyn.add_def, VehicleStateDyn.add, mirrorD, VehicleStateDyn.mk.injEq]
    refine ⟨?_, ?_, ?_, ?_, ?_, ?_, ?_⟩ <;> first | trivial | ring
  map_smul' k a := by
    simp only [VehicleStateDyn.smul_def, VehicleStateDyn.mul, mirrorD, VehicleStateDyn.mk.injEq, RingHom.id_apply]
    refine ⟨?_, ?_, ?_, ?_, ?_, ?_, ?_⟩ <;> first | trivial | ring

/-- **C149.** Updates of the mirror image of a dynamic vehicle under the mirrored commands lead to the mirror
image. -/
theorem C149_mirror_vehicleDyn (g : VehicleGeom) (p : VehicleParams ℝ) (front rear : Pacejka) (isCar : Bool) (hp : p.Valid) (tab : Tableau ℝ)
    (cs : List (Call (VehicleCommands ℝ))) (x : VehicleStateDyn ℝ) :
    calls (vehicleDynCall g p front rear isCar tab) (cs.map (fun c => { c with cmd := mirrorVCmd c.cmd })) (mirrorD x) =
      (calls (vehicleDynCall g p front rear isCar tab) cs x).map mirrorD := by
  refine calls_map (vehicleDynCall g p front rear isCar tab) (vehicleDynCall g p front rear isCar tab) _ mirrorD cs (fun c x => ?_) x
  have h := solve_affine (vehicleDynUpdate g p front rear c.collided isCar x) (vehicleDynUpdate g p front rear c.collided isCar (mirrorD x)) _ _ (C94_vehicleDyn g p front rear c.collided isCar x) (C94_vehicleDyn g p front rear c.collided isCar (mirrorD x)) vehicleDyn_linear vehicleDyn_linear
      flipD 0 c.cmd (mirrorVCmd c.cmd) (fun z => by
      rw [add_zero]
      have h0 := C93_vehicleDyn g p hp front rear c.collided x z { acc := 0, ddelta := 0 }
      have hu := C93_vehicleDyn g p hp front rear c.collided x z { acc := c.cmd.acc, ddelta := c.cmd.ddelta }
      simp only [neg_zero] at h0
      by_cases hd : c.collided = true ∧ isCar = false
      · simp only [if_pos hd]
        exact h0
      · simp only [if_neg hd]
        exact hu) tab c.steps x
  simp only [add_zero] at h
  exact h


def flipP : PedestrianState ℝ →ₗ[ℝ] PedestrianState ℝ where
  toFun := mirrorP
  map_add' a b := by
    simp only [PedestrianState.add_def, PedestrianState.add, mirrorP, PedestrianState.mk.injEq]
    refine ⟨?_, ?_, ?_, ?_, ?_, ?_⟩ <;> first | trivial | ring
  map_smul' k a := by
    simp only [PedestrianState.smul_def, PedestrianState.mul, mirrorP, PedestrianState.mk.injEq, RingHom.id_apply]
    refine ⟨?_, ?_, ?_, ?_, ?_, ?_⟩ <;> first | trivial | ring

/-- **C149.** Updates of the mirror image of a pedestrian under the mirrored commands lead to the mirror
image. -/
theorem C149_mirror_pedestrian (p : ModelParams ℝ) (dpsiMax : ℝ) (hm : 0 ≤ dpsiMax) (tab : Tableau ℝ)
    (cs : List (Call (PedestrianCommands ℝ))) (x : PedestrianState ℝ) :
    calls (pedestrianCall p dpsiMax tab) (cs.map (fun c => { c with cmd := mirrorPCmd c.cmd })) (mirrorP x) =
      (calls (pedestrianCall p dpsiMax tab) cs x).map mirrorP := by
  refine calls_map (pedestrianCall p dpsiMax tab) (pedestrianCall p dpsiMax tab) _ mirrorP cs (fun c x => ?_) x
  have h := solve_affine (pedestrianUpdate p dpsiMax c.collided x) (pedestrianUpdate p dpsiMax c.collided (mirrorP x)) _ _ (C94_pedestrian p dpsiMax c.collided x) (C94_pedestrian p dpsiMax c.collided (mirrorP x)) pedestrian_linear pedestrian_linear
      flipP 0 c.cmd (mirrorPCmd c.cmd) (fun z => by
      rw [add_zero]
      have h0 := congrArg (Except.ok (ε := Err)) (C93_pedestrian p dpsiMax hm c.collided x z { acc := 0, dpsi := 0 })
      have hu := congrArg (Except.ok (ε := Err)) (C93_pedestrian p dpsiMax hm c.collided x z c.cmd)
      simp only [neg_zero] at h0
      by_cases hd : c.collided = true
      · simp only [if_pos hd]
        exact h0
      · simp only [if_neg hd]
        exact hu) tab c.steps x
  simp only [add_zero] at h
  exact h


def flipR : DiffDriveState ℝ →ₗ[ℝ] DiffDriveState ℝ where
  toFun := mirrorR
  map_add' a b := by
    simp only [DiffDriveState.add_def, DiffDriveState.add, mirrorR, DiffDriveState.mk.injEq]
    refine ⟨?_, ?_, ?_⟩ <;> first | trivial | ring
  map_smul' k a := by
    simp only [DiffDriveState.smul_def, DiffDriveState.mul, mirrorR, DiffDriveState.mk.injEq, RingHom.id_apply]
    refine ⟨?_, ?_, ?_⟩ <;> first | trivial | ring

/-- **C149.** Updates of the mirror image of a differential drive under the mirrored commands lead to the mirror
image. -/
theorem C149_mirror_diffDrive (wb R lo hi : ℝ) (tab : Tableau ℝ)
    (cs : List (Call (DiffDriveCommands ℝ))) (x : DiffDriveState ℝ) :
    calls (diffDriveCall wb R lo hi tab) (cs.map (fun c => { c with cmd := mirrorRCmd c.cmd })) (mirrorR x) =
      (calls (diffDriveCall wb R lo hi tab) cs x).map mirrorR := by
  refine calls_map (diffDriveCall wb R lo hi tab) (diffDriveCall wb R lo hi tab) _ mirrorR cs (fun c x => ?_) x
  have h := solve_affine (diffDriveUpdate wb R lo hi c.collided) (diffDriveUpdate wb R lo hi c.collided) _ _ (C94_diffDrive wb R lo hi c.collided) (C94_diffDrive wb R lo hi c.collided) diffDrive_linear diffDrive_linear
      flipR 0 c.cmd (mirrorRCmd c.cmd) (fun z => by
      rw [add_zero]
      have h0 := congrArg (Except.ok (ε := Err)) (C93_diffDrive wb R lo hi z ⟨0, 0⟩)
      have hu := congrArg (Except.ok (ε := Err)) (C93_diffDrive wb R lo hi z c.cmd)
      simp only [neg_zero] at h0
      by_cases hd : c.collided = true
      · simp only [if_pos hd]
        exact h0
      · simp only [if_neg hd]
        exact hu) tab c.steps x
  simp only [add_zero] at h
  exact h


def flipC : SpacecraftState ℝ →ₗ[ℝ] SpacecraftState ℝ where
  toFun := mirrorC
  map_add' a b := by
    simp only [SpacecraftState.add_def, SpacecraftState.add, mirrorC, SpacecraftState.mk.injEq]
    refine ⟨?_, ?_, ?_, ?_, ?_, ?_⟩ <;> first | trivial | ring
  map_smul' k a := by
    simp only [SpacecraftState.smul_def, SpacecraftState.mul, mirrorC, SpacecraftState.mk.injEq, RingHom.id_apply]
    refine ⟨?_, ?_, ?_, ?_, ?_, ?_⟩ <;> first | trivial | ring

/-- **C149.** Updates of the mirror image of a spacecraft under the mirrored commands lead to the mirror
image. -/
theorem C149_mirror_spacecraft (p : ModelParams ℝ) (hi w m iz : ℝ) (tab : Tableau ℝ)
    (cs : List (Call (SpacecraftCommands ℝ))) (x : SpacecraftState ℝ) :
    calls (spacecraftCall p (-hi) hi w m iz tab) (cs.map (fun c => { c with cmd := mirrorCCmd c.cmd })) (mirrorC x) =
      (calls (spacecraftCall p (-hi) hi w m iz tab) cs x).map mirrorC := by
  refine calls_map (spacecraftCall p (-hi) hi w m iz tab) (spacecraftCall p (-hi) hi w m iz tab) _ mirrorC cs (fun c x => ?_) x
  have h := solve_affine (spacecraftUpdate p (-hi) hi w m iz c.collided) (spacecraftUpdate p (-hi) hi w m iz c.collided) _ _ (C94_spacecraft p (-hi) hi w m iz c.collided) (C94_spacecraft p (-hi) hi w m iz c.collided) spacecraft_linear spacecraft_linear
      flipC 0 c.cmd (mirrorCCmd c.cmd) (fun z => by
      rw [add_zero]
      have h0 := congrArg (Except.ok (ε := Err)) (C93_spacecraft p hi w m iz z ⟨0, 0⟩)
      have hu := congrArg (Except.ok (ε := Err)) (C93_spacecraft p hi w m iz z c.cmd)
      simp only [neg_zero] at h0
      by_cases hd : c.collided = true
      · simp only [if_pos hd]
        exact h0
      · simp only [if_neg hd]
        exact hu) tab c.steps x
  simp only [add_zero] at h
  exact h


def flipS : SpaceshipState ℝ →ₗ[ℝ] SpaceshipState ℝ where
  toFun := mirrorS
  map_add' a b := by
    simp only [SpaceshipState.add_def, SpaceshipState.add, mirrorS, SpaceshipState.mk.injEq]
    refine ⟨?_, ?_, ?_, ?_, ?_, ?_, ?_, ?_⟩ <;> first | trivial | ring
  map_smul' k a := by
    simp only [SpaceshipState.smul_def, SpaceshipState.mul, mirrorS, SpaceshipState.mk.injEq, RingHom.id_apply]
    refine ⟨?_, ?_, ?_, ?_, ?_, ?_, ?_, ?_⟩ <;> first | trivial | ring

/-- **C149.** Updates of the mirror image of a spaceship under the mirrored commands lead to the mirror
image. -/
theorem C149_mirror_spaceship (p : ThrustParams) (h1 : p.angMin = -p.angMax) (h2 : p.dangMin = -p.dangMax) (h3 : 0 ≤ p.dangMax) (tab : Tableau ℝ)
    (cs : List (Call (SpaceshipCommands ℝ))) (x : SpaceshipState ℝ) :
    calls (spaceshipCall p tab) (cs.map (fun c => { c with cmd := mirrorSCmd c.cmd })) (mirrorS x) =
      (calls (spaceshipCall p tab) cs x).map mirrorS := by
  refine calls_map (spaceshipCall p tab) (spaceshipCall p tab) _ mirrorS cs (fun c x => ?_) x
  have h := solve_affine (spaceshipUpdate p c.collided) (spaceshipUpdate p c.collided) _ _ (C94_spaceship p c.collided) (C94_spaceship p c.collided) spaceship_linear spaceship_linear
      flipS 0 c.cmd (mirrorSCmd c.cmd) (fun z => by
      rw [add_zero]
      have h0 := C93_spaceship p h1 h2 h3 z ⟨0, 0⟩
      have hu := C93_spaceship p h1 h2 h3 z c.cmd
      simp only [neg_zero] at h0
      by_cases hd : c.collided = true
      · simp only [if_pos hd]
        exact h0
      · simp only [if_neg hd]
        exact hu) tab c.steps x
  simp only [add_zero] at h
  exact h


def flipT : RocketState ℝ →ₗ[ℝ] RocketState ℝ where
  toFun := mirrorT
  map_add' a b := by
    simp only [RocketState.add_def, RocketState.add, mirrorT, RocketState.mk.injEq]
    refine ⟨?_, ?_, ?_, ?_, ?_, ?_, ?_, ?_⟩ <;> first | trivial | ring
  map_smul' k a := by
    simp only [RocketState.smul_def, RocketState.mul, mirrorT, RocketState.mk.injEq, RingHom.id_apply]
    refine ⟨?_, ?_, ?_, ?_, ?_, ?_, ?_, ?_⟩ <;> first | trivial | ring

/-- **C149.** Updates of the mirror image of a rocket under the mirrored commands lead to the mirror
image. -/
theorem C149_mirror_rocket (p : ThrustParams) (tab : Tableau ℝ)
    (cs : List (Call (RocketCommands ℝ))) (x : RocketState ℝ) :
    calls (rocketCall p tab) (cs.map (fun c => { c with cmd := mirrorTCmd c.cmd })) (mirrorT x) =
      (calls (rocketCall p tab) cs x).map mirrorT := by
  refine calls_map (rocketCall p tab) (rocketCall p tab) _ mirrorT cs (fun c x => ?_) x
  have h := solve_affine (rocketUpdate p c.collided) (rocketUpdate p c.collided) _ _ (C94_rocket p c.collided) (C94_rocket p c.collided) rocket_linear rocket_linear
      flipT 0 c.cmd (mirrorTCmd c.cmd) (fun z => by
      rw [add_zero]
      have h0 := C93_rocket p z ⟨0, 0, 0⟩
      have hu := C93_rocket p z c.cmd
      simp only [neg_zero] at h0
      by_cases hd : c.collided = true
      · simp only [if_pos hd]
        exact h0
      · simp only [if_neg hd]
        exact hu) tab c.steps x
  simp only [add_zero] at h
  exact h


def flipO : DynObstacleState ℝ →ₗ[ℝ] DynObstacleState ℝ where
  toFun := mirrorO
  map_add' a b := by
    simp only [DynObstacleState.add_def, DynObstacleState.add, mirrorO, DynObstacleState.mk.injEq]
    refine ⟨?_, ?_, ?_, ?_, ?_, ?_⟩ <;> first | trivial | ring
  map_smul' k a := by
    simp only [DynObstacleState.smul_def, DynObstacleState.mul, mirrorO, DynObstacleState.mk.injEq, RingHom.id_apply]
    refine ⟨?_, ?_, ?_, ?_, ?_, ?_⟩ <;> first | trivial | ring

/-- **C149.** Updates of the mirror image of a moving obstacle under the mirrored commands lead to the mirror
image. The limits have to be symmetric, which those of moving obstacles need not be: `C93_false_dynObstacle`. -/
theorem C149_mirror_dynObstacle (p : ModelParams ℝ) (hi : ℝ) (h1 : p.vxMin = -p.vxMax) (h2 : p.accMin = -p.accMax) (h3 : 0 ≤ p.accMax) (tab : Tableau ℝ)
    (cs : List (Call (DynObstacleCommands ℝ))) (x : DynObstacleState ℝ) :
    calls (dynObstacleCall p (-hi) hi tab) (cs.map (fun c => { c with cmd := mirrorOCmd c.cmd })) (mirrorO x) =
      (calls (dynObstacleCall p (-hi) hi tab) cs x).map mirrorO := by
  refine calls_map (dynObstacleCall p (-hi) hi tab) (dynObstacleCall p (-hi) hi tab) _ mirrorO cs (fun c x => ?_) x
  have h := solve_affine (dynObstacleUpdate p (-hi) hi) (dynObstacleUpdate p (-hi) hi) _ _ (C94_dynObstacle p (-hi) hi) (C94_dynObstacle p (-hi) hi) dynObstacle_linear dynObstacle_linear
      flipO 0 c.cmd (mirrorOCmd c.cmd) (fun z => by
      rw [add_zero]
      exact congrArg Except.ok (C93_dynObstacle_partial p h1 h2 h3 hi z _)) tab c.steps x
  simp only [add_zero] at h
  exact h

/-! ## The same solver as in C147 and C148 -/

theorem slopesE_ok {K V : Type} [Field K] [LinearOrder K] [AddCommGroup V] [Module K V] (f : V → V) (y : V) (h : K)
    (rows : List (List K)) (ks : List V) :
    slopesE (fun z => .ok (f z)) y h rows ks = .ok (slopes f y h rows ks) := by
  induction rows generalizing ks with
  | nil => rfl
  | cons a rows ih => exact ih _

theorem rkRunE_ok {K V : Type} [Field K] [LinearOrder K] [AddCommGroup V] [Module K V] (f : V → V) (m : Tableau K)
    (hs : List K) (y : V) : rkRunE (fun z => .ok (f z)) m hs y = .ok (rkRun f m hs y) := by
  induction hs generalizing y with
  | nil => rfl
  | cons h hs ih =>
    have e : rkStepE (fun z => .ok (f z)) m h y = .ok (rkStep f m h y) := by
      change (slopesE (fun z => .ok (f z)) y h m.rows [f y] >>= fun ks => pure (y + h • weighted m.weights ks)) = _
      rw [slopesE_ok]
      rfl
    unfold rkRunE at ih ⊢
    rw [List.foldlM_cons, e]
    exact ih _

/-- **C149.** The update of vehicles in C147 is the one on packed arrays. -/
theorem C149_same_vehicle (wb lr : ℝ) (p : VehicleParams ℝ) (isCar : Bool) (tab : Tableau ℝ)
    (c : Call (VehicleCommands ℝ)) (x : VehicleState ℝ) :
    vehicleCall wb lr p isCar tab c x =
      .ok (vehicleSolve realTrig wb lr p tab (c.collided && !isCar) (c.cmd.acc, c.cmd.ddelta) c.steps x) := by
  have h1 := C149_refines (vehicleUpdate wb lr p c.collided isCar) _ (C94_vehicle wb lr p c.collided isCar)
    vehicle_linear tab c.cmd c.steps x
  have hsame : Same (LinearMap.inl ℝ (VehicleState ℝ) (ℝ × ℝ)) (0, (c.cmd.acc, c.cmd.ddelta))
      (fun z => (vehicleUpdate wb lr p c.collided isCar).rate z
        (if c.collided = true ∧ isCar = false then { acc := 0, ddelta := 0 }
          else { acc := c.cmd.acc, ddelta := c.cmd.ddelta }))
      (fun y => .ok (packedRate realTrig wb lr p (c.collided && !isCar) y)) := by
    intro z
    have e : (LinearMap.inl ℝ (VehicleState ℝ) (ℝ × ℝ)) z + (0, (c.cmd.acc, c.cmd.ddelta)) =
        (z, (c.cmd.acc, c.cmd.ddelta)) := by simp
    rw [e]
    cases c.collided <;> cases isCar <;> rfl
  have h2 := rkRunE_affine hsame tab c.steps x
  rw [rkRunE_ok] at h2
  have e : (LinearMap.inl ℝ (VehicleState ℝ) (ℝ × ℝ)) x + (0, (c.cmd.acc, c.cmd.ddelta)) =
      (x, (c.cmd.acc, c.cmd.ddelta)) := by simp
  rw [e] at h2
  unfold vehicleCall vehicleSolve
  rw [h1]
  cases hr : rkRunE (fun z => (vehicleUpdate wb lr p c.collided isCar).rate z
        (if c.collided = true ∧ isCar = false then { acc := 0, ddelta := 0 }
          else { acc := c.cmd.acc, ddelta := c.cmd.ddelta })) tab c.steps x with
  | error e => rw [hr] at h2; cases h2
  | ok z =>
    rw [hr] at h2
    injection h2 with h2
    rw [h2]
    simp

/-- **C149.** The update of rockets in C148 is the one on packed arrays. -/
theorem C149_same_rocket (p : ThrustParams) (tab : Tableau ℝ) (c : Call (RocketCommands ℝ)) (x : RocketState ℝ) :
    rocketCall p tab c x = rocketSolve p tab c.collided c.cmd c.steps x := by
  have h1 := C149_refines (rocketUpdate p c.collided) _ (C94_rocket p c.collided) rocket_linear tab c.cmd c.steps x
  have hsame : Same (LinearMap.inl ℝ (RocketState ℝ) (ℝ × ℝ × ℝ)) (0, (c.cmd.F_left, c.cmd.F_right, c.cmd.dphi))
      (fun z => (rocketUpdate p c.collided).rate z
        (if c.collided = true then { F_left := 0, F_right := 0, dphi := 0 } else c.cmd))
      (rocketPacked p c.collided) := by
    intro z
    have e : (LinearMap.inl ℝ (RocketState ℝ) (ℝ × ℝ × ℝ)) z + (0, (c.cmd.F_left, c.cmd.F_right, c.cmd.dphi)) =
        (z, (c.cmd.F_left, c.cmd.F_right, c.cmd.dphi)) := by simp
    rw [e]
    cases c.collided
    · show (rocketRate p z c.cmd >>= fun dx => pure (dx, (0, 0, 0))) = (rocketRate p z c.cmd).map _
      cases rocketRate p z c.cmd <;> rfl
    · show (rocketRate p z ⟨0, 0, 0⟩ >>= fun dx => pure (dx, (0, 0, 0))) = (rocketRate p z ⟨0, 0, 0⟩).map _
      cases rocketRate p z ⟨0, 0, 0⟩ <;> rfl
  have h2 := rkRunE_affine hsame tab c.steps x
  have e : (LinearMap.inl ℝ (RocketState ℝ) (ℝ × ℝ × ℝ)) x + (0, (c.cmd.F_left, c.cmd.F_right, c.cmd.dphi)) =
      (x, (c.cmd.F_left, c.cmd.F_right, c.cmd.dphi)) := by simp
  rw [e] at h2
  unfold rocketCall rocketSolve
  rw [h1, h2]
  cases rkRunE (fun z => (rocketUpdate p c.collided).rate z
        (if c.collided = true then { F_left := 0, F_right := 0, dphi := 0 } else c.cmd)) tab c.steps x with
  | error e => rfl
  | ok z => change _ = Except.ok _; simp

/-- **C149.** The update of spaceships in C148 is the one on packed arrays. -/
theorem C149_same_spaceship (p : ThrustParams) (tab : Tableau ℝ) (c : Call (SpaceshipCommands ℝ))
    (x : SpaceshipState ℝ) : spaceshipCall p tab c x = spaceshipSolve p tab c.collided c.cmd c.steps x := by
  have h1 := C149_refines (spaceshipUpdate p c.collided) _ (C94_spaceship p c.collided) spaceship_linear tab c.cmd
    c.steps x
  have hsame : Same (LinearMap.inl ℝ (SpaceshipState ℝ) (ℝ × ℝ)) (0, (c.cmd.thrust, c.cmd.ddelta))
      (fun z => (spaceshipUpdate p c.collided).rate z
        (if c.collided = true then { thrust := 0, ddelta := 0 } else c.cmd))
      (spaceshipPacked p c.collided) := by
    intro z
    have e : (LinearMap.inl ℝ (SpaceshipState ℝ) (ℝ × ℝ)) z + (0, (c.cmd.thrust, c.cmd.ddelta)) =
        (z, (c.cmd.thrust, c.cmd.ddelta)) := by simp
    rw [e]
    cases c.collided
    · show (spaceshipRate p z c.cmd >>= fun dx => pure (dx, (0, 0))) = (spaceshipRate p z c.cmd).map _
      cases spaceshipRate p z c.cmd <;> rfl
    · show (spaceshipRate p z ⟨0, 0⟩ >>= fun dx => pure (dx, (0, 0))) = (spaceshipRate p z ⟨0, 0⟩).map _
      cases spaceshipRate p z ⟨0, 0⟩ <;> rfl
  have h2 := rkRunE_affine hsame tab c.steps x
  have e : (LinearMap.inl ℝ (SpaceshipState ℝ) (ℝ × ℝ)) x + (0, (c.cmd.thrust, c.cmd.ddelta)) =
      (x, (c.cmd.thrust, c.cmd.ddelta)) := by simp
  rw [e] at h2
  unfold spaceshipCall spaceshipSolve
  rw [h1, h2]
  cases rkRunE (fun z => (spaceshipUpdate p c.collided).rate z
        (if c.collided = true then { thrust := 0, ddelta := 0 } else c.cmd)) tab c.steps x with
  | error e => rfl
  | ok z => change _ = Except.ok _; simp

/-! ## Rest -/

/-- **C149.** Where the rate is zero, every update stays, whatever the method and its steps. -/
theorem C149_rest [AddCommGroup S] [Module ℝ S] (m : UpdateOf S U) (act : U → U) (hm : Faithful m act)
    (hl : LinearArray m.toS) (tab : Tableau ℝ) (u : U) (hs : List ℝ) (x : S) (h : m.rate x (act u) = .ok 0) :
    m.solve tab u hs x = .ok x := by
  rw [C149_refines m act hm hl]
  have hsame : Same (0 : PUnit →ₗ[ℝ] S) x (fun _ => .ok 0) (fun z => m.rate z (act u)) := by
    intro z
    simp only [LinearMap.zero_apply, zero_add, h]
    rfl
  have := rkRunE_affine hsame tab hs 0
  simp only [LinearMap.zero_apply, zero_add] at this
  rw [this, rkRunE_ok]
  rfl

/-- **C149.** A standing vehicle that is not asked to accelerate or steer (or has lost its commands in a collision)
stands exactly still. -/
theorem C149_stand (wb lr : ℝ) (p : VehicleParams ℝ) (ha : p.accMin ≤ 0 ∧ 0 ≤ p.accMax) (hd : 0 ≤ p.ddeltaMax)
    (isCar : Bool) (tab : Tableau ℝ)
    (c : Call (VehicleCommands ℝ)) (x : VehicleState ℝ) (hx : x.vx = 0)
    (hc : (c.cmd.acc = 0 ∧ c.cmd.ddelta = 0) ∨ (c.collided = true ∧ isCar = false)) :
    vehicleCall wb lr p isCar tab c x = .ok x := by
  refine C149_rest _ _ (C94_vehicle wb lr p c.collided isCar) vehicle_linear tab c.cmd c.steps x ?_
  have e : (if c.collided = true ∧ isCar = false then ({ acc := 0, ddelta := 0 } : VehicleCommands ℝ)
      else { acc := c.cmd.acc, ddelta := c.cmd.ddelta }) = { acc := 0, ddelta := 0 } := by
    rcases hc with ⟨h1, h2⟩ | h
    · rw [h1, h2, ite_self]
    · rw [if_pos h]
  rw [e]
  show Except.ok _ = Except.ok (⟨0, 0, 0, 0, 0⟩ : VehicleState ℝ)
  have h1 : fullAccelerationLimits p.toModelParams 0 0 = 0 := by
    simp [fullAccelerationLimits, speedConstraint, accelerationLimits, not_lt.mpr ha.1, not_lt.mpr ha.2]
  have h2 : steeringConstraint p.deltaMax p.ddeltaMax x.delta 0 = 0 := by
    simp [steeringConstraint, not_lt.mpr hd, not_lt.mpr (neg_nonpos.mpr hd)]
  simp [vehicleRate, bicycleRate, hx, h1, h2]

/-- **C149.** A differential drive whose wheels stand, or that has collided, stands exactly still. -/
theorem C149_stand_diffDrive (wb R lo hi : ℝ) (h : lo ≤ 0 ∧ 0 ≤ hi) (tab : Tableau ℝ) (c : Call (DiffDriveCommands ℝ))
    (x : DiffDriveState ℝ) (hc : (c.cmd.omega_l = 0 ∧ c.cmd.omega_r = 0) ∨ c.collided = true) :
    diffDriveCall wb R lo hi tab c x = .ok x := by
  refine C149_rest _ _ (C94_diffDrive wb R lo hi c.collided) diffDrive_linear tab c.cmd c.steps x ?_
  have e : (if c.collided = true then ({ omega_l := 0, omega_r := 0 } : DiffDriveCommands ℝ) else c.cmd) = ⟨0, 0⟩ := by
    rcases hc with ⟨h1, h2⟩ | h
    · split
      · rfl
      · exact congrArg₂ DiffDriveCommands.mk h1 h2
    · rw [if_pos h]
  rw [e]
  show Except.ok _ = Except.ok (⟨0, 0, 0⟩ : DiffDriveState ℝ)
  have h0 : clip 0 lo hi = 0 := by rw [clip, max_eq_left h.1, min_eq_left h.2]
  simp [diffDriveRate, DiffDriveState.mul, h0]

/-! ## Examples -/

-- a quarter turn takes the point ahead of the origin to the left of it
example : movedR (Real.pi / 2) (1, 0) ⟨1, 0, 0⟩ = ⟨1, 1, Real.pi / 2⟩ := by
  simp [movedR, movePoint]

example (tab : Tableau ℝ) : vehicleCall 2 1 ⟨⟨-2, 30, -8, 5⟩, 1, 1 / 2⟩ true tab ⟨⟨0, 0, .none⟩, false, [1 / 10]⟩
    ⟨1, 2, 3, 0, 1 / 10⟩ = .ok ⟨1, 2, 3, 0, 1 / 10⟩ :=
  C149_stand 2 1 _ (by norm_num) (by norm_num) true tab _ _ rfl (.inl ⟨rfl, rfl⟩)

-- the limits the mirror images need
example : (⟨⟨-2, 30, -8, 5⟩, 1, 1 / 2⟩ : VehicleParams ℝ).Valid :=
  ⟨⟨by norm_num, by norm_num⟩, by norm_num, by norm_num⟩

end

end Phys
end Verif
