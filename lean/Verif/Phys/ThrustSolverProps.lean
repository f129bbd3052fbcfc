import Verif.Phys.ThrustSolver
import Verif.Phys.SolverProps
import Verif.Phys.MotionProps

/-!
# C148: fuel and free flight of rockets and spaceships with the solver of the code
-/

namespace Verif
namespace Phys

section General
variable {K : Type} [Field K] [LinearOrder K] [IsStrictOrderedRing K]
variable {V W Z : Type} [AddCommGroup V] [Module K V] [AddCommGroup W] [Module K W]
  [AddCommGroup Z] [Module K Z]

/-- `κ` is kept by the right-hand side wherever it has the value it has at `y`. -/
def Keeps (κ : V →ₗ[K] Z) (f : V → Except Err V) (y : V) : Prop :=
  ∀ z dz, κ z = κ y → f z = .ok dz → κ dz = 0

theorem slopesE_proj (L : V →ₗ[K] W) (κ : V →ₗ[K] Z) (f : V → Except Err V) (g : W → W) (y : V) (h : K)
    (hκ : Keeps κ f y) (hg : ∀ z dz, κ z = κ y → f z = .ok dz → L dz = g (L z)) (rows : List (List K))
    (ks ks' : List V) (hk : ∀ k ∈ ks, κ k = 0) (hs : slopesE f y h rows ks = .ok ks') :
    ks'.map L = slopes g (L y) h rows (ks.map L) ∧ ∀ k ∈ ks', κ k = 0 := by
  induction rows generalizing ks with
  | nil =>
    injection hs with hs
    subst hs
    exact ⟨rfl, hk⟩
  | cons a rows ih =>
    have hw : κ (y + h • weighted a ks) = κ y := by
      rw [map_add, map_smul, weighted_map, weighted_zero, smul_zero, add_zero]
      intro k hk'
      obtain ⟨k', h1, h2⟩ := List.mem_map.mp hk'
      rw [← h2]; exact hk k' h1
    simp only [slopesE] at hs
    cases hf : f (y + h • weighted a ks) with
    | error e => rw [hf] at hs; cases hs
    | ok k =>
      rw [hf] at hs
      have := ih (ks ++ [k]) (fun k' hk' => by
        rcases List.mem_append.mp hk' with h1 | h1
        · exact hk k' h1
        · rw [List.mem_singleton.mp h1]; exact hκ _ _ hw hf) hs
      refine ⟨?_, this.2⟩
      rw [this.1, slopes, List.map_append, List.map_singleton, hg _ _ hw hf, map_add, map_smul, weighted_map]

theorem rkStepE_proj (L : V →ₗ[K] W) (κ : V →ₗ[K] Z) (f : V → Except Err V) (g : W → W) (m : Tableau K) (y y' : V)
    (h : K) (hκ : Keeps κ f y) (hg : ∀ z dz, κ z = κ y → f z = .ok dz → L dz = g (L z))
    (hs : rkStepE f m h y = .ok y') : L y' = rkStep g m h (L y) ∧ κ y' = κ y := by
  unfold rkStepE at hs
  cases hf : f y with
  | error e => rw [hf] at hs; cases hs
  | ok k =>
    rw [hf] at hs
    change (slopesE f y h m.rows [k] >>= fun ks => pure (y + h • weighted m.weights ks)) = .ok y' at hs
    cases hk : slopesE f y h m.rows [k] with
    | error e => rw [hk] at hs; cases hs
    | ok ks =>
      rw [hk] at hs
      injection hs with hs
      subst hs
      obtain ⟨a, b⟩ := slopesE_proj L κ f g y h hκ hg _ _ _ (by simpa using hκ y k rfl hf) hk
      constructor
      · unfold rkStep
        rw [map_add, map_smul, weighted_map, a, List.map_singleton, hg y k rfl hf]
      · rw [map_add, map_smul, weighted_map, weighted_zero, smul_zero, add_zero]
        intro k' hk'
        obtain ⟨k'', h1, h2⟩ := List.mem_map.mp hk'
        rw [← h2]; exact b k'' h1

theorem rkRunE_cons (f : V → Except Err V) (m : Tableau K) (h : K) (hs : List K) (y y' : V)
    (hr : rkRunE f m (h :: hs) y = .ok y') : ∃ z, rkStepE f m h y = .ok z ∧ rkRunE f m hs z = .ok y' := by
  unfold rkRunE at hr
  rw [List.foldlM_cons] at hr
  cases hz : rkStepE f m h y with
  | error e => rw [hz] at hr; cases hr
  | ok z => rw [hz] at hr; exact ⟨z, rfl, hr⟩

theorem rkRunE_proj (L : V →ₗ[K] W) (κ : V →ₗ[K] Z) (f : V → Except Err V) (g : W → W) (m : Tableau K) (hs : List K)
    (y y' : V) (hκ : Keeps κ f y) (hg : ∀ z dz, κ z = κ y → f z = .ok dz → L dz = g (L z))
    (hr : rkRunE f m hs y = .ok y') : L y' = rkRun g m hs (L y) ∧ κ y' = κ y := by
  induction hs generalizing y with
  | nil => injection hr with hr; subst hr; exact ⟨rfl, rfl⟩
  | cons h hs ih =>
    obtain ⟨z, h1, h2⟩ := rkRunE_cons f m h hs y y' hr
    obtain ⟨a, b⟩ := rkStepE_proj L κ f g m y z h hκ hg h1
    have := ih z (fun w dw hw => hκ w dw (hw.trans b)) (fun w dw hw => hg w dw (hw.trans b)) h2
    rw [a, b] at this
    exact this

theorem weighted_same (as : List K) (ks : List V) (c : V) (h : ∀ k ∈ ks, k = c)
    (hl : as.length ≤ ks.length) : weighted as ks = as.sum • c := by
  induction as generalizing ks with
  | nil => simp [weighted_nil]
  | cons a as ih =>
    cases ks with
    | nil => simp at hl
    | cons k ks =>
      rw [weighted_cons, h k (by simp), ih ks (fun k hk => h k (by simp [hk])) (by simpa using hl)]
      simp [add_smul]

theorem rkRun_const {m : Tableau K} {reach : K} (hm : m.Ok reach) (c : V) (hs : List K) (x : V) :
    rkRun (fun _ => c) m hs x = x + hs.sum • c := by
  induction hs generalizing x with
  | nil => simp [rkRun]
  | cons h hs ih =>
    show rkRun _ m hs (rkStep _ m h x) = _
    have : rkStep (fun _ => c) m h x = x + h • c := by
      unfold rkStep
      rw [weighted_same _ _ c (slopes_mem (fun k => k = c) _ (fun _ => rfl) x h _ _ (by simp))
        (by rw [slopes_length]; simpa using hm.length), hm.sum, one_smul]
    rw [this, ih, List.sum_cons, add_smul, add_assoc]

/-- All stages of a step succeed if the right-hand side can fail only where a component `L` that is never
increased, and at most at rate `-c`, is not positive. -/
theorem rkStepE_total (L : V →ₗ[K] K) (κ : V →ₗ[K] Z) (f : V → Except Err V) {m : Tableau K} {reach : K}
    (hm : m.Ok reach) (y : V) {h c : K} (hh : 0 < h) (hc : 0 ≤ c) (hκ : Keeps κ f y)
    (hL : ∀ z dz, κ z = κ y → f z = .ok dz → -c ≤ L dz ∧ L dz ≤ 0)
    (hf : ∀ z, κ z = κ y → 0 < L z → ∃ dz, f z = .ok dz) (hy : 0 < L y - reach * c * h) :
    ∃ y', rkStepE f m h y = .ok y' := by
  have hr := hm.nonneg
  have key : ∀ (rows : List (List K)) (ks : List V), (∀ a ∈ rows, posSum a ≤ reach) →
      (∀ k ∈ ks, κ k = 0 ∧ -c ≤ L k ∧ L k ≤ 0) → ∃ ks', slopesE f y h rows ks = .ok ks' := by
    intro rows
    induction rows with
    | nil => exact fun ks _ _ => ⟨ks, rfl⟩
    | cons a rows ih =>
      intro ks ha hk
      have hw : κ (y + h • weighted a ks) = κ y := by
        rw [map_add, map_smul, weighted_map, weighted_zero, smul_zero, add_zero]
        intro k hk'
        obtain ⟨k', h1, h2⟩ := List.mem_map.mp hk'
        rw [← h2]; exact (hk k' h1).1
      have hp : 0 < L (y + h • weighted a ks) := by
        have e : -L (weighted a ks) = weighted a (ks.map fun k => -L k) := weighted_map (-L) a ks
        have w := (weighted_le a (ks.map fun k => -L k) c hc fun k hk' => by
          obtain ⟨k', h1, rfl⟩ := List.mem_map.mp hk'
          have := (hk k' h1).2
          exact ⟨by linarith, by linarith⟩).1
        rw [← e] at w
        have w2 := mul_le_mul_of_nonneg_right (ha a (by simp)) hc
        have w3 := mul_le_mul_of_nonneg_left (w.trans w2) hh.le
        rw [map_add, map_smul, smul_eq_mul]
        linarith
      obtain ⟨k, hk1⟩ := hf _ hw hp
      obtain ⟨ks', hks⟩ := ih (ks ++ [k]) (fun a h' => ha a (by simp [h'])) (fun k' hk' => by
        rcases List.mem_append.mp hk' with h1 | h1
        · exact hk k' h1
        · rw [List.mem_singleton.mp h1]; exact ⟨hκ _ _ hw hk1, hL _ _ hw hk1⟩)
      exact ⟨ks', by simp only [slopesE]; rw [hk1]; exact hks⟩
  have hp : 0 ≤ reach * c * h := by positivity
  obtain ⟨k, hk⟩ := hf y rfl (by linarith)
  obtain ⟨ks, hks⟩ := key m.rows [k] hm.rows (by simpa using ⟨hκ y k rfl hk, hL y k rfl hk⟩)
  refine ⟨y + h • weighted m.weights ks, ?_⟩
  unfold rkStepE
  rw [hk]
  show (slopesE f y h m.rows [k] >>= _) = _
  rw [hks]
  rfl

/-- The same for all steps of a call of `RK45`: `L` is guarded from below by `lo`. -/
theorem rk45_total (L : V →ₗ[K] K) (κ : V →ₗ[K] Z) (f : V → Except Err V) (lo hi : K) (hs : List K) (y : V)
    {H c B : K} (hh : ∀ h ∈ hs, 0 < h ∧ h ≤ H) (hc : 0 ≤ c) (hκ : Keeps κ f y)
    (hL : ∀ z dz, κ z = κ y → f z = .ok dz → L dz = guarded lo hi (-c) (L z))
    (hf : ∀ z, κ z = κ y → 0 < L z → ∃ dz, f z = .ok dz)
    (hlo : 83820 / 6561 * c * H < B) (hB : B ≤ lo - 4654 / 10000 * (c * H)) (hy : B ≤ L y) :
    ∃ y', rkRunE f dormandPrince hs y = .ok y' := by
  induction hs generalizing y with
  | nil => exact ⟨y, rfl⟩
  | cons h hs ih =>
    obtain ⟨h1, h2⟩ := hh h (by simp)
    have e : c * h ≤ c * H := mul_le_mul_of_nonneg_left h2 hc
    obtain ⟨z, hz⟩ := rkStepE_total L κ f dormandPrince_ok y h1 hc hκ (fun z dz hz hd => by
      rw [hL z dz hz hd]
      unfold guarded speedConstraint
      split <;> constructor <;> linarith) hf (by linarith)
    obtain ⟨a, b⟩ := rkStepE_proj L κ f _ _ y z h hκ hL hz
    have d := (rk45_down (lo := lo) (hi := hi) (x := L y) (neg_nonpos.mpr hc) h1).2
    rw [← a] at d
    obtain ⟨y', hy'⟩ := ih z (fun h' hh' => hh h' (by simp [hh'])) (fun w dw hw => hκ w dw (hw.trans b))
      (fun w dw hw => hL w dw (hw.trans b)) (fun w hw => hf w (hw.trans b)) (by
        rcases d with d | d
        · rw [d]; exact hy
        · linarith)
    refine ⟨y', ?_⟩
    unfold rkRunE
    rw [List.foldlM_cons, hz]
    exact hy'

end General

noncomputable section

/-! ## Rockets -/

/-- Mass, nozzle angle and other components in the packed array of the rocket. -/
def rocketMass : (RocketState ℝ × ℝ × ℝ × ℝ) →ₗ[ℝ] ℝ where
  toFun y := y.1.m
  map_add' _ _ := rfl
  map_smul' k y := by show y.1.m * k = k * y.1.m; ring

/-- The nozzle angle. -/
def rocketNozzle : (RocketState ℝ × ℝ × ℝ × ℝ) →ₗ[ℝ] ℝ where
  toFun y := y.1.phi
  map_add' _ _ := rfl
  map_smul' k y := by show y.1.phi * k = k * y.1.phi; ring

/-- The commands. -/
def rocketCmd : (RocketState ℝ × ℝ × ℝ × ℝ) →ₗ[ℝ] ℝ × ℝ × ℝ := LinearMap.snd ℝ _ _

/-- The commands, the mass and the velocities. -/
def rocketFree : (RocketState ℝ × ℝ × ℝ × ℝ) →ₗ[ℝ] (ℝ × ℝ × ℝ) × ℝ × ℝ × ℝ × ℝ where
  toFun y := (y.2, y.1.m, y.1.vx, y.1.vy, y.1.dpsi)
  map_add' _ _ := rfl
  map_smul' k y := by
    show (k • y.2, y.1.m * k, y.1.vx * k, y.1.vy * k, y.1.dpsi * k) =
      (k • y.2, k * y.1.m, k * y.1.vx, k * y.1.vy, k * y.1.dpsi)
    simp only [mul_comm]

/-- The position and the heading. -/
def rocketPose : (RocketState ℝ × ℝ × ℝ × ℝ) →ₗ[ℝ] ℝ × ℝ × ℝ where
  toFun y := (y.1.x, y.1.y, y.1.psi)
  map_add' _ _ := rfl
  map_smul' k y := by
    show (y.1.x * k, y.1.y * k, y.1.psi * k) = (k * y.1.x, k * y.1.y, k * y.1.psi)
    simp only [mul_comm]

theorem rocketPacked_ok {p : ThrustParams} {collided : Bool} {y dy : RocketState ℝ × ℝ × ℝ × ℝ}
    (h : rocketPacked p collided y = .ok dy) :
    rocketRate p y.1 (if collided then ⟨0, 0, 0⟩ else ⟨y.2.1, y.2.2.1, y.2.2.2⟩) = .ok dy.1 ∧ dy.2 = (0, 0, 0) := by
  unfold rocketPacked at h
  cases collided
  · simp only [Bool.false_eq_true, if_false] at h ⊢
    cases hr : rocketRate p y.1 ⟨y.2.1, y.2.2.1, y.2.2.2⟩ with
    | error e => rw [hr] at h; cases h
    | ok dx => rw [hr] at h; injection h with h; subst h; exact ⟨rfl, rfl⟩
  · simp only [if_true] at h ⊢
    cases hr : rocketRate p y.1 ⟨0, 0, 0⟩ with
    | error e => rw [hr] at h; cases h
    | ok dx => rw [hr] at h; injection h with h; subst h; exact ⟨rfl, rfl⟩

/-- The forces asked for, limited; nothing is asked for after a collision. -/
def rocketForce (p : ThrustParams) (collided : Bool) (u : RocketCommands ℝ) : ℝ :=
  if collided then 2 * forceLimits p.fMin p.fMax 0
  else forceLimits p.fMin p.fMax u.F_left + forceLimits p.fMin p.fMax u.F_right

theorem guarded_burn {mv hi c m : ℝ} (hc : 0 ≤ c) : (if m ≤ mv then 0 else -c) = guarded mv hi (-c) m := by
  unfold guarded speedConstraint
  rcases hc.eq_or_lt with h0 | h0
  · rw [← h0]; simp
  · by_cases h : m ≤ mv
    · rw [if_pos h, if_pos (Or.inl ⟨h, by linarith⟩)]
    · rw [if_neg h, if_neg]
      rintro (⟨h1, -⟩ | ⟨-, h1⟩)
      · exact h h1
      · linarith

theorem rocketSolve_ok {p : ThrustParams} {m : Tableau ℝ} {collided : Bool} {u : RocketCommands ℝ} {hs : List ℝ}
    {x x' : RocketState ℝ} (h : rocketSolve p m collided u hs x = .ok x') :
    ∃ y, rkRunE (rocketPacked p collided) m hs (x, (u.F_left, u.F_right, u.dphi)) = .ok y ∧ y.1 = x' := by
  unfold rocketSolve at h
  cases hy : rkRunE (rocketPacked p collided) m hs (x, (u.F_left, u.F_right, u.dphi)) with
  | error e => rw [hy] at h; cases h
  | ok y => rw [hy] at h; injection h with h; exact ⟨y, rfl, h⟩

theorem rocket_keeps (p : ThrustParams) (collided : Bool) (y : RocketState ℝ × ℝ × ℝ × ℝ) :
    Keeps rocketCmd (rocketPacked p collided) y := fun _ _ _ h => (rocketPacked_ok h).2

theorem rocketForce_nonneg (p : ThrustParams) (h0 : 0 ≤ p.fMin) (h1 : p.fMin ≤ p.fMax) (collided : Bool)
    (u : RocketCommands ℝ) : 0 ≤ rocketForce p collided u ∧ rocketForce p collided u ≤ 2 * p.fMax := by
  have k := fun f => C42_force p.fMin p.fMax h1 f
  unfold rocketForce
  split
  · have := k 0; exact ⟨by linarith [this.1], by linarith [this.2.1]⟩
  · have a := k u.F_left
    have b := k u.F_right
    exact ⟨by linarith [a.1, b.1], by linarith [a.2.1, b.2.1]⟩

theorem rocket_mass_rate (p : ThrustParams) (h0 : 0 ≤ p.fMin) (h1 : p.fMin ≤ p.fMax) (hc : 0 ≤ p.cT)
    (collided : Bool) (u : RocketCommands ℝ) (x : RocketState ℝ) (z dz : RocketState ℝ × ℝ × ℝ × ℝ)
    (hz : rocketCmd z = rocketCmd (x, (u.F_left, u.F_right, u.dphi))) (hd : rocketPacked p collided z = .ok dz) :
    rocketMass dz = guarded p.mv 0 (-(p.cT * rocketForce p collided u)) (rocketMass z) := by
  have hz' : z.2 = (u.F_left, u.F_right, u.dphi) := hz
  obtain ⟨hr, -⟩ := rocketPacked_ok hd
  rw [hz'] at hr
  rw [← guarded_burn (mul_nonneg hc (rocketForce_nonneg p h0 h1 collided u).1)]
  unfold rocketRate at hr
  simp only at hr
  split at hr
  · cases hr
  · injection hr with hr
    have : rocketMass dz = dz.1.m := rfl
    rw [this, ← hr]
    show -p.cT * (p.thrust z.1.m _ + p.thrust z.1.m _) = if z.1.m ≤ p.mv then _ else _
    unfold ThrustParams.thrust rocketForce
    by_cases h : z.1.m ≤ p.mv
    · simp [h]
    · cases collided <;> simp only [h, if_false, Bool.false_eq_true, if_true] <;> ring

theorem rocketSolve_mass (p : ThrustParams) (h0 : 0 ≤ p.fMin) (h1 : p.fMin ≤ p.fMax) (hc : 0 ≤ p.cT)
    (m : Tableau ℝ) (collided : Bool) (u : RocketCommands ℝ) (hs : List ℝ) (x x' : RocketState ℝ)
    (hr : rocketSolve p m collided u hs x = .ok x') :
    x'.m = rkRun (guarded p.mv 0 (-(p.cT * rocketForce p collided u))) m hs x.m := by
  obtain ⟨y, h1', rfl⟩ := rocketSolve_ok hr
  exact (rkRunE_proj rocketMass rocketCmd _ _ m hs _ y (rocket_keeps p collided _)
    (fun z dz hz hd => rocket_mass_rate p h0 h1 hc collided u x z dz hz hd) h1').1

/-- **C148.** With the solver of the code a rocket never becomes heavier, and over any number of updates it
loses no mass if it has no fuel, and otherwise ends at most 0.4654 of what full thrust burns in one solver
step below its mass without fuel. -/
theorem C148_rocket (p : ThrustParams) (h0 : 0 ≤ p.fMin) (h1 : p.fMin ≤ p.fMax) (hc : 0 ≤ p.cT) (H : ℝ) (hH : 0 ≤ H)
    (us : List (RocketCommands ℝ × Bool × List ℝ)) (hus : ∀ u ∈ us, ∀ h ∈ u.2.2, 0 < h ∧ h ≤ H)
    (x x' : RocketState ℝ) (hr : rocketSolves p dormandPrince us x = .ok x') :
    x'.m ≤ x.m ∧ (x.m ≤ p.mv → x'.m = x.m) ∧
    (p.mv ≤ x.m → p.mv - 4654 / 10000 * (p.cT * (2 * p.fMax) * H) ≤ x'.m) := by
  have hB : 0 ≤ p.cT * (2 * p.fMax) * H := mul_nonneg (mul_nonneg hc (by linarith)) hH
  have key : ∀ (us : List (RocketCommands ℝ × Bool × List ℝ)) (x : RocketState ℝ),
      (∀ u ∈ us, ∀ h ∈ u.2.2, 0 < h ∧ h ≤ H) → rocketSolves p dormandPrince us x = .ok x' →
      x'.m ≤ x.m ∧ (x.m ≤ p.mv → x'.m = x.m) ∧
      (p.mv - 4654 / 10000 * (p.cT * (2 * p.fMax) * H) ≤ x.m →
        p.mv - 4654 / 10000 * (p.cT * (2 * p.fMax) * H) ≤ x'.m) := by
    intro us
    induction us with
    | nil => intro x _ h; injection h with h; subst h; exact ⟨le_refl _, fun _ => rfl, id⟩
    | cons u us ih =>
      intro x hu h
      unfold rocketSolves at h
      rw [List.foldlM_cons] at h
      cases hz : rocketSolve p dormandPrince u.2.1 u.1 u.2.2 x with
      | error e => rw [hz] at h; cases h
      | ok z =>
        rw [hz] at h
        obtain ⟨a, b, c⟩ := ih z (fun u' h' => hu u' (by simp [h'])) h
        have e := rocketSolve_mass p h0 h1 hc dormandPrince u.2.1 u.1 u.2.2 x z hz
        obtain ⟨f1, f2⟩ := rocketForce_nonneg p h0 h1 u.2.1 u.1
        have hneg : -(p.cT * rocketForce p u.2.1 u.1) ≤ 0 := neg_nonpos.mpr (mul_nonneg hc f1)
        obtain ⟨d1, d2⟩ := rk45_run_down (lo := p.mv) (hi := 0) hneg u.2.2 (hu u (by simp)) x.m
        rw [← e] at d1 d2
        refine ⟨a.trans d1, fun hm => ?_, fun hm => c ?_⟩
        · have e2 : z.m = x.m := by
            rw [e]
            refine rkRun_still _ _ _ _ ?_
            rw [← guarded_burn (mul_nonneg hc f1), if_pos hm]
          rw [b (by rw [e2]; exact hm), e2]
        · rcases d2 with d2 | d2
          · rw [d2]; exact hm
          · have : p.cT * rocketForce p u.2.1 u.1 * H ≤ p.cT * (2 * p.fMax) * H :=
              mul_le_mul_of_nonneg_right (mul_le_mul_of_nonneg_left f2 hc) hH
            rw [neg_neg] at d2
            linarith
  obtain ⟨a, b, c⟩ := key us x hus hr
  exact ⟨a, b, fun hm => c (by linarith)⟩

/-- **C148.** While there is enough fuel for the stages of the solver to see no end of it, an update of a
rocket that has not collided burns exactly the thrust coefficient times the forces times the time. -/
theorem C148_burn (p : ThrustParams) (h0 : 0 ≤ p.fMin) (h1 : p.fMin ≤ p.fMax) (hc : 0 < p.cT) (H : ℝ)
    (u : RocketCommands ℝ) (hl : p.fMin ≤ u.F_left ∧ u.F_left ≤ p.fMax)
    (hr' : p.fMin ≤ u.F_right ∧ u.F_right ≤ p.fMax) (hpos : 0 < u.F_left + u.F_right)
    (hs : List ℝ) (hh : ∀ h ∈ hs, 0 < h ∧ h ≤ H) (x x' : RocketState ℝ)
    (hfuel : p.mv + p.cT * (u.F_left + u.F_right) * (hs.sum + 83820 / 6561 * H) < x.m)
    (hr : rocketSolve p dormandPrince false u hs x = .ok x') :
    x'.m = x.m - p.cT * (u.F_left + u.F_right) * hs.sum := by
  have e := rocketSolve_mass p h0 h1 hc.le dormandPrince false u hs x x' hr
  have f : rocketForce p false u = u.F_left + u.F_right := by
    unfold rocketForce
    rw [if_neg (by decide), (C42_force p.fMin p.fMax h1 _).2.2.1 hl.1 hl.2, (C42_force p.fMin p.fMax h1 _).2.2.1 hr'.1 hr'.2]
  rw [f] at e
  have hneg : -(p.cT * (u.F_left + u.F_right)) < 0 := neg_neg_of_pos (mul_pos hc hpos)
  rw [e, rkRun_free_neg dormandPrince_ok hs hneg hh x.m (by linarith)]
  ring

/-- **C148.** A rocket without fuel, and one that has collided, flies freely and exactly so: mass, velocity
and spin are kept, position and heading change by them times the time. -/
theorem C148_free (p : ThrustParams) (m : Tableau ℝ) (reach : ℝ) (hm : m.Ok reach) (collided : Bool)
    (u : RocketCommands ℝ) (hs : List ℝ) (x x' : RocketState ℝ)
    (hno : x.m ≤ p.mv ∨ (collided = true ∧ p.fMin ≤ 0 ∧ 0 ≤ p.fMax))
    (hr : rocketSolve p m collided u hs x = .ok x') :
    x'.m = x.m ∧ x'.vx = x.vx ∧ x'.vy = x.vy ∧ x'.dpsi = x.dpsi ∧
    x'.x = x.x + hs.sum * x.vx ∧ x'.y = x.y + hs.sum * x.vy ∧ x'.psi = x.psi + hs.sum * x.dpsi := by
  obtain ⟨y, h1, rfl⟩ := rocketSolve_ok hr
  have rate : ∀ z dz, rocketFree z = rocketFree (x, (u.F_left, u.F_right, u.dphi)) →
      rocketPacked p collided z = .ok dz → dz.2 = (0, 0, 0) ∧ dz.1.m = 0 ∧ dz.1.vx = 0 ∧ dz.1.vy = 0 ∧ dz.1.dpsi = 0 ∧
      dz.1.x = x.vx ∧ dz.1.y = x.vy ∧ dz.1.psi = x.dpsi := by
    intro z dz hz hd
    have hz' : (z.2, z.1.m, z.1.vx, z.1.vy, z.1.dpsi) = ((u.F_left, u.F_right, u.dphi), x.m, x.vx, x.vy, x.dpsi) := hz
    simp only [Prod.mk.injEq] at hz'
    obtain ⟨-, zm, zx, zy, zp⟩ := hz'
    obtain ⟨hr, h2⟩ := rocketPacked_ok hd
    refine ⟨h2, ?_⟩
    have th : ∀ f, (x.m ≤ p.mv ∨ f = 0 ∧ p.fMin ≤ 0 ∧ 0 ≤ p.fMax) → p.thrust z.1.m f = 0 := by
      intro f hf
      unfold ThrustParams.thrust
      rw [zm]
      rcases hf with hf | ⟨rfl, hf⟩
      · rw [if_pos hf]
      · split
        · rfl
        · exact (C42_force p.fMin p.fMax (hf.1.trans hf.2) 0).2.2.1 hf.1 hf.2
    have tl : p.thrust z.1.m (if collided then (⟨0, 0, 0⟩ : RocketCommands ℝ) else ⟨z.2.1, z.2.2.1, z.2.2.2⟩).F_left = 0 :=
      th _ (hno.imp id fun h => ⟨by rw [h.1]; rfl, h.2⟩)
    have tr : p.thrust z.1.m (if collided then (⟨0, 0, 0⟩ : RocketCommands ℝ) else ⟨z.2.1, z.2.2.1, z.2.2.2⟩).F_right = 0 :=
      th _ (hno.imp id fun h => ⟨by rw [h.1]; rfl, h.2⟩)
    unfold rocketRate at hr
    simp only [tl, tr] at hr
    split at hr
    · cases hr
    · injection hr with hr
      rw [← hr]
      simp [zx, zy, zp]
  have hκ : Keeps rocketFree (rocketPacked p collided) (x, (u.F_left, u.F_right, u.dphi)) := by
    intro z dz hz hd
    obtain ⟨a, b, c, d, e, -⟩ := rate z dz hz hd
    show (dz.2, dz.1.m, dz.1.vx, dz.1.vy, dz.1.dpsi) = _
    rw [a, b, c, d, e]; rfl
  obtain ⟨a, b⟩ := rkRunE_proj rocketPose rocketFree _ (fun _ => (x.vx, x.vy, x.dpsi)) m hs _ y hκ (by
    intro z dz hz hd
    obtain ⟨-, -, -, -, -, a, b, c⟩ := rate z dz hz hd
    show (dz.1.x, dz.1.y, dz.1.psi) = _
    rw [a, b, c]) h1
  rw [rkRun_const hm] at a
  have a' : (y.1.x, y.1.y, y.1.psi) = (x.x + hs.sum * x.vx, x.y + hs.sum * x.vy, x.psi + hs.sum * x.dpsi) := a
  have b' : (y.2, y.1.m, y.1.vx, y.1.vy, y.1.dpsi) = ((u.F_left, u.F_right, u.dphi), x.m, x.vx, x.vy, x.dpsi) := b
  simp only [Prod.mk.injEq] at a' b'
  exact ⟨b'.2.1, b'.2.2.1, b'.2.2.2.1, b'.2.2.2.2, a'⟩

/-- **C148.** No update fails if the rocket weighs without fuel more than full thrust burns in 13.3 solver
steps: the mass is positive wherever the solver looks. -/
theorem C148_total (p : ThrustParams) (h0 : 0 ≤ p.fMin) (h1 : p.fMin ≤ p.fMax) (hc : 0 ≤ p.cT) (hi : p.iz ≠ 0)
    (H : ℝ) (hH : 0 ≤ H) (hmv : 133 / 10 * (p.cT * (2 * p.fMax) * H) < p.mv)
    (us : List (RocketCommands ℝ × Bool × List ℝ)) (hus : ∀ u ∈ us, ∀ h ∈ u.2.2, 0 < h ∧ h ≤ H)
    (x : RocketState ℝ) (hx : p.mv ≤ x.m) : ∃ x', rocketSolves p dormandPrince us x = .ok x' := by
  have hB : 0 ≤ p.cT * (2 * p.fMax) * H := mul_nonneg (mul_nonneg hc (by linarith)) hH
  have key : ∀ (us : List (RocketCommands ℝ × Bool × List ℝ)) (x : RocketState ℝ),
      (∀ u ∈ us, ∀ h ∈ u.2.2, 0 < h ∧ h ≤ H) → p.mv - 4654 / 10000 * (p.cT * (2 * p.fMax) * H) ≤ x.m →
      ∃ x', rocketSolves p dormandPrince us x = .ok x' := by
    intro us
    induction us with
    | nil => exact fun x _ _ => ⟨x, rfl⟩
    | cons u us ih =>
      intro x hu hx
      obtain ⟨f1, f2⟩ := rocketForce_nonneg p h0 h1 u.2.1 u.1
      have fB : p.cT * rocketForce p u.2.1 u.1 * H ≤ p.cT * (2 * p.fMax) * H :=
        mul_le_mul_of_nonneg_right (mul_le_mul_of_nonneg_left f2 hc) hH
      have f0 : 0 ≤ p.cT * rocketForce p u.2.1 u.1 := mul_nonneg hc f1
      obtain ⟨y, hy⟩ : ∃ y, rkRunE (rocketPacked p u.2.1) dormandPrince u.2.2
          (x, (u.1.F_left, u.1.F_right, u.1.dphi)) = .ok y := by
        refine rk45_total (B := p.mv - 4654 / 10000 * (p.cT * (2 * p.fMax) * H)) rocketMass rocketCmd _ p.mv 0 u.2.2 _
          (hu u (by simp)) f0 (rocket_keeps p u.2.1 _)
          (fun z dz hz hd => rocket_mass_rate p h0 h1 hc u.2.1 u.1 x z dz hz hd) ?_ (by linarith) (by linarith) hx
        intro z _ hz
        have hz' : 0 < z.1.m := hz
        unfold rocketPacked rocketRate
        simp only
        rw [if_neg (by rintro (h | h); exacts [hz'.ne' h, hi h])]
        exact ⟨_, rfl⟩
      have hz : rocketSolve p dormandPrince u.2.1 u.1 u.2.2 x = .ok y.1 := by
        unfold rocketSolve; rw [hy]; rfl
      have e := rocketSolve_mass p h0 h1 hc dormandPrince u.2.1 u.1 u.2.2 x y.1 hz
      have d := (rk45_run_down (lo := p.mv) (hi := 0) (neg_nonpos.mpr f0) u.2.2 (hu u (by simp)) x.m).2
      rw [← e, neg_neg] at d
      obtain ⟨x', hx'⟩ := ih y.1 (fun u' h' => hu u' (by simp [h'])) (by rcases d with d | d <;> linarith)
      refine ⟨x', ?_⟩
      unfold rocketSolves
      rw [List.foldlM_cons, hz]
      exact hx'
  exact key us x hus (by linarith)

theorem angle_rate {lo hi : ℝ} (h : lo ≤ hi) (w : ℝ) :
    angVelLimits lo hi w ≤ max hi 0 ∧ -max (-lo) 0 ≤ angVelLimits lo hi w := by
  have := angVelLimits_clamp lo hi h w
  exact ⟨this.2.1.trans (le_max_left _ _), (neg_le.mpr (le_max_left _ _)).trans this.1⟩

/-- **C148.** Over any number of updates the nozzle angle of a rocket exceeds its limits by at most 0.4654 of
what its largest rates give in one solver step. -/
theorem C148_rocket_nozzle (p : ThrustParams) (ha : p.angMin ≤ p.angMax) (hd : p.dangMin ≤ p.dangMax) (H : ℝ)
    (hH : 0 ≤ H) (us : List (RocketCommands ℝ × Bool × List ℝ)) (hus : ∀ u ∈ us, ∀ h ∈ u.2.2, 0 < h ∧ h ≤ H)
    (x x' : RocketState ℝ) (hx : p.angMin ≤ x.phi ∧ x.phi ≤ p.angMax)
    (hr : rocketSolves p dormandPrince us x = .ok x') :
    p.angMin - 4654 / 10000 * (max (-p.dangMin) 0 * H) ≤ x'.phi ∧
    x'.phi ≤ p.angMax + 4654 / 10000 * (max p.dangMax 0 * H) := by
  have key : ∀ (us : List (RocketCommands ℝ × Bool × List ℝ)) (x : RocketState ℝ),
      (∀ u ∈ us, ∀ h ∈ u.2.2, 0 < h ∧ h ≤ H) → rocketSolves p dormandPrince us x = .ok x' →
      p.angMin - 4654 / 10000 * (max (-p.dangMin) 0 * H) ≤ x.phi →
      x.phi ≤ p.angMax + 4654 / 10000 * (max p.dangMax 0 * H) →
      p.angMin - 4654 / 10000 * (max (-p.dangMin) 0 * H) ≤ x'.phi ∧
      x'.phi ≤ p.angMax + 4654 / 10000 * (max p.dangMax 0 * H) := by
    intro us
    induction us with
    | nil => intro x _ h a b; injection h with h; subst h; exact ⟨a, b⟩
    | cons u us ih =>
      intro x hu h a b
      unfold rocketSolves at h
      rw [List.foldlM_cons] at h
      cases hz : rocketSolve p dormandPrince u.2.1 u.1 u.2.2 x with
      | error e => rw [hz] at h; cases h
      | ok z =>
        rw [hz] at h
        obtain ⟨y, h1, rfl⟩ := rocketSolve_ok hz
        have e := (rkRunE_proj rocketNozzle rocketCmd _
          (guarded p.angMin p.angMax (angVelLimits p.dangMin p.dangMax (if u.2.1 then 0 else u.1.dphi))) dormandPrince
          u.2.2 _ y (rocket_keeps p u.2.1 _) (by
            intro z dz hz hd
            have hz' : z.2 = (u.1.F_left, u.1.F_right, u.1.dphi) := hz
            obtain ⟨hr, -⟩ := rocketPacked_ok hd
            rw [hz'] at hr
            unfold rocketRate at hr
            simp only at hr
            split at hr
            · cases hr
            · injection hr with hr
              have : rocketNozzle dz = dz.1.phi := rfl
              rw [this, ← hr]
              cases u.2.1 <;> rfl) h1).1
        have c := angle_rate hd (if u.2.1 then 0 else u.1.dphi)
        obtain ⟨i1, i2⟩ := rk45_run_inv ha u.2.2 (hu u (by simp)) hH c.1 c.2 (le_max_right _ _) (le_max_right _ _)
          x.phi a b
        have e' : y.1.phi = rkRun (guarded p.angMin p.angMax
          (angVelLimits p.dangMin p.dangMax (if u.2.1 then 0 else u.1.dphi))) dormandPrince u.2.2 x.phi := e
        exact ih y.1 (fun u' h' => hu u' (by simp [h'])) h (by rw [e']; exact i1) (by rw [e']; exact i2)
  have q1 : 0 ≤ max (-p.dangMin) 0 * H := mul_nonneg (le_max_right _ _) hH
  have q2 : 0 ≤ max p.dangMax 0 * H := mul_nonneg (le_max_right _ _) hH
  exact key us x hus hr (by linarith [hx.1]) (by linarith [hx.2])

/-! ## Spaceships -/

/-- The mass in the packed array of the spaceship. -/
def shipMass : (SpaceshipState ℝ × ℝ × ℝ) →ₗ[ℝ] ℝ where
  toFun y := y.1.m
  map_add' _ _ := rfl
  map_smul' k y := by show y.1.m * k = k * y.1.m; ring

/-- The commands. -/
def shipCmd : (SpaceshipState ℝ × ℝ × ℝ) →ₗ[ℝ] ℝ × ℝ := LinearMap.snd ℝ _ _

/-- The commands, the mass and the spin. -/
def shipFree : (SpaceshipState ℝ × ℝ × ℝ) →ₗ[ℝ] (ℝ × ℝ) × ℝ × ℝ where
  toFun y := (y.2, y.1.m, y.1.dpsi)
  map_add' _ _ := rfl
  map_smul' k y := by
    show (k • y.2, y.1.m * k, y.1.dpsi * k) = (k • y.2, k * y.1.m, k * y.1.dpsi)
    simp only [mul_comm]

/-- The heading. -/
def shipHeading : (SpaceshipState ℝ × ℝ × ℝ) →ₗ[ℝ] ℝ where
  toFun y := y.1.psi
  map_add' _ _ := rfl
  map_smul' k y := by show y.1.psi * k = k * y.1.psi; ring

theorem spaceshipPacked_ok {p : ThrustParams} {collided : Bool} {y dy : SpaceshipState ℝ × ℝ × ℝ}
    (h : spaceshipPacked p collided y = .ok dy) :
    spaceshipRate p y.1 (if collided then ⟨0, 0⟩ else ⟨y.2.1, y.2.2⟩) = .ok dy.1 ∧ dy.2 = (0, 0) := by
  unfold spaceshipPacked at h
  cases collided
  · simp only [Bool.false_eq_true, if_false] at h ⊢
    cases hr : spaceshipRate p y.1 ⟨y.2.1, y.2.2⟩ with
    | error e => rw [hr] at h; cases h
    | ok dx => rw [hr] at h; injection h with h; subst h; exact ⟨rfl, rfl⟩
  · simp only [if_true] at h ⊢
    cases hr : spaceshipRate p y.1 ⟨0, 0⟩ with
    | error e => rw [hr] at h; cases h
    | ok dx => rw [hr] at h; injection h with h; subst h; exact ⟨rfl, rfl⟩

theorem spaceshipSolve_ok {p : ThrustParams} {m : Tableau ℝ} {collided : Bool} {u : SpaceshipCommands ℝ} {hs : List ℝ}
    {x x' : SpaceshipState ℝ} (h : spaceshipSolve p m collided u hs x = .ok x') :
    ∃ y, rkRunE (spaceshipPacked p collided) m hs (x, (u.thrust, u.ddelta)) = .ok y ∧ y.1 = x' := by
  unfold spaceshipSolve at h
  cases hy : rkRunE (spaceshipPacked p collided) m hs (x, (u.thrust, u.ddelta)) with
  | error e => rw [hy] at h; cases h
  | ok y => rw [hy] at h; injection h with h; exact ⟨y, rfl, h⟩

/-- The thrust asked for, limited. -/
def shipForce (p : ThrustParams) (collided : Bool) (u : SpaceshipCommands ℝ) : ℝ :=
  forceLimits p.fMin p.fMax (if collided then 0 else u.thrust)

theorem spaceshipSolve_mass (p : ThrustParams) (h0 : 0 ≤ p.fMin) (h1 : p.fMin ≤ p.fMax) (hc : 0 ≤ p.cT)
    (m : Tableau ℝ) (collided : Bool) (u : SpaceshipCommands ℝ) (hs : List ℝ) (x x' : SpaceshipState ℝ)
    (hr : spaceshipSolve p m collided u hs x = .ok x') :
    x'.m = rkRun (guarded p.mv 0 (-(p.cT * shipForce p collided u))) m hs x.m := by
  obtain ⟨y, h1', rfl⟩ := spaceshipSolve_ok hr
  have f0 : 0 ≤ shipForce p collided u := h0.trans (C42_force p.fMin p.fMax h1 _).1
  refine (rkRunE_proj shipMass shipCmd _ _ m hs _ y (fun _ _ _ h => (spaceshipPacked_ok h).2) ?_ h1').1
  intro z dz hz hd
  have hz' : z.2 = (u.thrust, u.ddelta) := hz
  obtain ⟨hr, -⟩ := spaceshipPacked_ok hd
  rw [hz'] at hr
  rw [← guarded_burn (mul_nonneg hc f0)]
  unfold spaceshipRate at hr
  simp only at hr
  split at hr
  · cases hr
  · injection hr with hr
    have : shipMass dz = dz.1.m := rfl
    rw [this, ← hr]
    show -p.cT * p.thrust z.1.m _ = if z.1.m ≤ p.mv then _ else _
    unfold ThrustParams.thrust shipForce
    by_cases h : z.1.m ≤ p.mv
    · simp [h]
    · cases collided <;> simp only [h, if_false, Bool.false_eq_true, if_true] <;> ring

/-- **C148.** Spaceships whose thrust limits are not negative: as `C148_rocket`, with one nozzle. -/
theorem C148_spaceship (p : ThrustParams) (h0 : 0 ≤ p.fMin) (h1 : p.fMin ≤ p.fMax) (hc : 0 ≤ p.cT) (H : ℝ)
    (hH : 0 ≤ H) (us : List (SpaceshipCommands ℝ × Bool × List ℝ)) (hus : ∀ u ∈ us, ∀ h ∈ u.2.2, 0 < h ∧ h ≤ H)
    (x x' : SpaceshipState ℝ) (hr : spaceshipSolves p dormandPrince us x = .ok x') :
    x'.m ≤ x.m ∧ (x.m ≤ p.mv → x'.m = x.m) ∧
    (p.mv ≤ x.m → p.mv - 4654 / 10000 * (p.cT * p.fMax * H) ≤ x'.m) := by
  have hB : 0 ≤ p.cT * p.fMax * H := mul_nonneg (mul_nonneg hc (by linarith)) hH
  have key : ∀ (us : List (SpaceshipCommands ℝ × Bool × List ℝ)) (x : SpaceshipState ℝ),
      (∀ u ∈ us, ∀ h ∈ u.2.2, 0 < h ∧ h ≤ H) → spaceshipSolves p dormandPrince us x = .ok x' →
      x'.m ≤ x.m ∧ (x.m ≤ p.mv → x'.m = x.m) ∧
      (p.mv - 4654 / 10000 * (p.cT * p.fMax * H) ≤ x.m → p.mv - 4654 / 10000 * (p.cT * p.fMax * H) ≤ x'.m) := by
    intro us
    induction us with
    | nil => intro x _ h; injection h with h; subst h; exact ⟨le_refl _, fun _ => rfl, id⟩
    | cons u us ih =>
      intro x hu h
      unfold spaceshipSolves at h
      rw [List.foldlM_cons] at h
      cases hz : spaceshipSolve p dormandPrince u.2.1 u.1 u.2.2 x with
      | error e => rw [hz] at h; cases h
      | ok z =>
        rw [hz] at h
        obtain ⟨a, b, c⟩ := ih z (fun u' h' => hu u' (by simp [h'])) h
        have e := spaceshipSolve_mass p h0 h1 hc dormandPrince u.2.1 u.1 u.2.2 x z hz
        have f1 : 0 ≤ shipForce p u.2.1 u.1 := h0.trans (C42_force p.fMin p.fMax h1 _).1
        have f2 : shipForce p u.2.1 u.1 ≤ p.fMax := (C42_force p.fMin p.fMax h1 _).2.1
        have hneg : -(p.cT * shipForce p u.2.1 u.1) ≤ 0 := neg_nonpos.mpr (mul_nonneg hc f1)
        obtain ⟨d1, d2⟩ := rk45_run_down (lo := p.mv) (hi := 0) hneg u.2.2 (hu u (by simp)) x.m
        rw [← e] at d1 d2
        refine ⟨a.trans d1, fun hm => ?_, fun hm => c ?_⟩
        · have e2 : z.m = x.m := by
            rw [e]
            refine rkRun_still _ _ _ _ ?_
            rw [← guarded_burn (mul_nonneg hc f1), if_pos hm]
          rw [b (by rw [e2]; exact hm), e2]
        · rcases d2 with d2 | d2
          · rw [d2]; exact hm
          · have : p.cT * shipForce p u.2.1 u.1 * H ≤ p.cT * p.fMax * H :=
              mul_le_mul_of_nonneg_right (mul_le_mul_of_nonneg_left f2 hc) hH
            rw [neg_neg] at d2
            linarith
  obtain ⟨a, b, c⟩ := key us x hus hr
  exact ⟨a, b, fun hm => c (by linarith)⟩

/-- **C148.** A spaceship without fuel, and one that has collided, keeps mass and spin, and its heading
changes exactly by the spin times the time. -/
theorem C148_spaceship_free (p : ThrustParams) (m : Tableau ℝ) (reach : ℝ) (hm : m.Ok reach) (collided : Bool)
    (u : SpaceshipCommands ℝ) (hs : List ℝ) (x x' : SpaceshipState ℝ)
    (hno : x.m ≤ p.mv ∨ (collided = true ∧ p.fMin ≤ 0 ∧ 0 ≤ p.fMax))
    (hr : spaceshipSolve p m collided u hs x = .ok x') :
    x'.m = x.m ∧ x'.dpsi = x.dpsi ∧ x'.psi = x.psi + hs.sum * x.dpsi := by
  obtain ⟨y, h1, rfl⟩ := spaceshipSolve_ok hr
  have rate : ∀ z dz, shipFree z = shipFree (x, (u.thrust, u.ddelta)) →
      spaceshipPacked p collided z = .ok dz → dz.2 = (0, 0) ∧ dz.1.m = 0 ∧ dz.1.dpsi = 0 ∧ dz.1.psi = x.dpsi := by
    intro z dz hz hd
    have hz' : (z.2, z.1.m, z.1.dpsi) = ((u.thrust, u.ddelta), x.m, x.dpsi) := hz
    simp only [Prod.mk.injEq] at hz'
    obtain ⟨-, zm, zp⟩ := hz'
    obtain ⟨hr, h2⟩ := spaceshipPacked_ok hd
    refine ⟨h2, ?_⟩
    have tl : p.thrust z.1.m (if collided then (⟨0, 0⟩ : SpaceshipCommands ℝ) else ⟨z.2.1, z.2.2⟩).thrust = 0 := by
      unfold ThrustParams.thrust
      rw [zm]
      rcases hno with hf | ⟨rfl, hf⟩
      · rw [if_pos hf]
      · split
        · rfl
        · exact (C42_force p.fMin p.fMax (hf.1.trans hf.2) 0).2.2.1 hf.1 hf.2
    unfold spaceshipRate at hr
    simp only [tl] at hr
    split at hr
    · cases hr
    · injection hr with hr
      rw [← hr]
      simp [zp]
  have hκ : Keeps shipFree (spaceshipPacked p collided) (x, (u.thrust, u.ddelta)) := by
    intro z dz hz hd
    obtain ⟨a, b, c, -⟩ := rate z dz hz hd
    show (dz.2, dz.1.m, dz.1.dpsi) = _
    rw [a, b, c]; rfl
  obtain ⟨a, b⟩ := rkRunE_proj shipHeading shipFree _ (fun _ => x.dpsi) m hs _ y hκ
    (fun z dz hz hd => (rate z dz hz hd).2.2.2) h1
  rw [rkRun_const hm] at a
  have b' : (y.2, y.1.m, y.1.dpsi) = ((u.thrust, u.ddelta), x.m, x.dpsi) := b
  simp only [Prod.mk.injEq] at b'
  exact ⟨b'.2.1, b'.2.2, a⟩

/-! ## Examples -/

/-- The default rocket; inertia and lever arm one. -/
def plainRocket : ThrustParams := ⟨2, 1 / 100, 0, 2, -1, 1, -1 / 3, 1 / 3, 1, 1⟩

/-- **The mass falls below the mass without fuel.** The default rocket with 0.4 g of fuel at full thrust
ends an update of a tenth of a second made in one step 1.7 g below it. -/
theorem C148_false : ∃ (x x' : RocketState ℝ), plainRocket.mv < x.m ∧
    rocketSolve plainRocket dormandPrince false ⟨2, 2, 0⟩ [1 / 10] x = .ok x' ∧
    x'.m < plainRocket.mv - 17 / 10000 := by
  let x : RocketState ℝ := ⟨0, 0, 0, 0, 0, 0, 0, 2 + 4 / 10000⟩
  obtain ⟨x', hx'⟩ := C148_total plainRocket (by norm_num [plainRocket]) (by norm_num [plainRocket])
    (by norm_num [plainRocket]) (by norm_num [plainRocket]) (1 / 10) (by norm_num) (by norm_num [plainRocket])
    [(⟨2, 2, 0⟩, false, [1 / 10])] (by simp) x (by norm_num [plainRocket, x])
  have hr : rocketSolve plainRocket dormandPrince false ⟨2, 2, 0⟩ [1 / 10] x = .ok x' := by
    unfold rocketSolves at hx'
    rw [List.foldlM_cons] at hx'
    cases hz : rocketSolve plainRocket dormandPrince false ⟨2, 2, 0⟩ [1 / 10] x with
    | error e => simp only [hz] at hx'; cases hx'
    | ok z => simp only [hz] at hx'; injection hx' with hx'; rw [hx']
  refine ⟨x, x', by norm_num [plainRocket, x], hr, ?_⟩
  have e := rocketSolve_mass plainRocket (by norm_num [plainRocket]) (by norm_num [plainRocket])
    (by norm_num [plainRocket]) dormandPrince false ⟨2, 2, 0⟩ [1 / 10] x x' hr
  have f : rocketForce plainRocket false ⟨2, 2, 0⟩ = 4 := by norm_num [rocketForce, plainRocket, forceLimits]
  rw [f] at e
  rw [e]
  norm_num [rkRun, rkStep, dormandPrince, slopes, weighted, guarded, speedConstraint, plainRocket, x]

/-- The hypotheses of `C148_rocket`, `C148_total` and `C148_rocket_nozzle` are met by the default rocket and
steps of at most a tenth of a second. -/
example (us : List (RocketCommands ℝ × Bool × List ℝ)) (hus : ∀ u ∈ us, ∀ h ∈ u.2.2, 0 < h ∧ h ≤ 1 / 10) :
    ∃ x', rocketSolves plainRocket dormandPrince us ⟨0, 0, 0, 0, 0, 0, 0, 3⟩ = .ok x' ∧ 1998 / 1000 ≤ x'.m ∧
      x'.phi ≤ 1 + 16 / 1000 := by
  obtain ⟨x', hx'⟩ := C148_total plainRocket (by norm_num [plainRocket]) (by norm_num [plainRocket])
    (by norm_num [plainRocket]) (by norm_num [plainRocket]) (1 / 10) (by norm_num) (by norm_num [plainRocket])
    us hus ⟨0, 0, 0, 0, 0, 0, 0, 3⟩ (by norm_num [plainRocket])
  have h := (C148_rocket plainRocket (by norm_num [plainRocket]) (by norm_num [plainRocket])
    (by norm_num [plainRocket]) (1 / 10) (by norm_num) us hus _ x' hx').2.2 (by norm_num [plainRocket])
  have n := (C148_rocket_nozzle plainRocket (by norm_num [plainRocket]) (by norm_num [plainRocket])
    (1 / 10) (by norm_num) us hus _ x' (by norm_num [plainRocket]) hx').2
  norm_num [plainRocket] at h n
  exact ⟨x', hx', by linarith, by linarith⟩

/-- `C148_burn`: one kilogram of fuel, half a second at full thrust. -/
example (x' : RocketState ℝ)
    (h : rocketSolve plainRocket dormandPrince false ⟨2, 2, 0⟩ [1 / 4, 1 / 4] ⟨0, 0, 0, 0, 0, 0, 0, 3⟩ = .ok x') :
    x'.m = 3 - 2 / 100 := by
  rw [C148_burn plainRocket (by norm_num [plainRocket]) (by norm_num [plainRocket]) (by norm_num [plainRocket])
    (1 / 4) ⟨2, 2, 0⟩ (by norm_num [plainRocket]) (by norm_num [plainRocket]) (by norm_num) [1 / 4, 1 / 4]
    (by norm_num) _ x' (by norm_num [plainRocket]) h]
  norm_num [plainRocket]

/-- `C148_free`: a collided rocket drifting at one metre per second. -/
example (x' : RocketState ℝ)
    (h : rocketSolve plainRocket dormandPrince true ⟨2, 2, 0⟩ [1 / 4, 1 / 4] ⟨5, 0, 0, 1, 0, 0, 0, 3⟩ = .ok x') :
    x'.x = 5 + 1 / 2 := by
  rw [(C148_free plainRocket dormandPrince _ dormandPrince_ok true _ _ _ x'
    (Or.inr ⟨rfl, by norm_num [plainRocket], by norm_num [plainRocket]⟩) h).2.2.2.2.1]
  norm_num

/-- The spaceship theorems: a spaceship with three kilograms, and one without fuel. -/
example (x' x'' : SpaceshipState ℝ)
    (h : spaceshipSolves plainRocket dormandPrince [(⟨2, 0⟩, false, [1 / 10])] ⟨0, 0, 0, 0, 0, 0, 0, 3⟩ = .ok x')
    (h' : spaceshipSolve plainRocket dormandPrince false ⟨2, 0⟩ [1 / 10] ⟨0, 0, 0, 0, 0, 1, 0, 2⟩ = .ok x'') :
    x'.m ≤ 3 ∧ x''.psi = 1 / 10 := by
  refine ⟨(C148_spaceship plainRocket (by norm_num [plainRocket]) (by norm_num [plainRocket])
    (by norm_num [plainRocket]) (1 / 10) (by norm_num) _ (by simp) _ x' h).1, ?_⟩
  rw [(C148_spaceship_free plainRocket dormandPrince _ dormandPrince_ok false _ _ _ x''
    (Or.inl (by norm_num [plainRocket])) h').2.2]
  norm_num

end

end Phys
end Verif
