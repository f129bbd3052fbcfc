import Verif.Control.LoopProps

/-!
# C119: cars under the controllers of speed and steering
-/

namespace Verif
namespace Loop

open Filter Topology

variable {p : PIDParam ℝ} {h : ℝ}

/-- The loop, computed: state of the controller and quantity after `k` requests. -/
noncomputable def loop (p : PIDParam ℝ) (h ref t0 : ℝ) (s0 : PIDState ℝ) (x0 : ℝ) : ℕ → PIDState ℝ × ℝ
  | 0 => (s0, x0)
  | k + 1 =>
    let q := loop p h ref t0 s0 x0 k
    let c := PIDState.getControl p ((q.1.updateMeasurement q.2).updateReference p ref) (t0 + k * h)
    (c.1, q.2 + h * (match c.2 with | .ok u => u | .error _ => 0))

/-- There is a loop from every state of the controller and every value of the quantity. -/
theorem exists_closed (p : PIDParam ℝ) (h ref t0 : ℝ) (s0 : PIDState ℝ) (x0 : ℝ) :
    ∃ t s x u, Closed p h ref t s x u ∧ s 0 = s0 ∧ x 0 = x0 ∧ t 0 = t0 := by
  refine ⟨fun k => t0 + k * h, fun k => (loop p h ref t0 s0 x0 k).1, fun k => (loop p h ref t0 s0 x0 k).2,
    fun k => match (PIDState.getControl p (((loop p h ref t0 s0 x0 k).1.updateMeasurement
      (loop p h ref t0 s0 x0 k).2).updateReference p ref) (t0 + k * h)).2 with | .ok u => u | .error _ => 0,
    ⟨fun k => ?_, fun k => ?_, fun k => rfl⟩, rfl, rfl, by simp⟩
  · push_cast; ring
  · obtain ⟨v, hv⟩ := getControl_out p (((loop p h ref t0 s0 x0 k).1.updateMeasurement
      (loop p h ref t0 s0 x0 k).2).updateReference p ref) (t0 + k * h)
    refine Prod.ext rfl ?_
    simp only [hv]

/-- **C119.** The speed controller of a car: stable if asked at least every 0.225 s, for all cars whose limits of
acceleration are not absurdly small or different. -/
theorem C119_speed {v : Phys.VehicleParams ℝ} {c : PIDParam ℝ} (hc : Agents.speedParam v = .ok c) (h : ℝ) (h0 : 0 < h)
    (h1 : h ≤ 9 / 40) (ha : v.accMin < 0 ∧ 0 < v.accMax)
    (hb : (2 + max (-v.accMin) v.accMax / 10) / 100 < 16 * min (-v.accMin) v.accMax) : Stable c h := by
  unfold Agents.speedParam PIDParam.mk? at hc
  split_ifs at hc
  injection hc with hc
  subst hc
  exact ⟨h0, by norm_num, by norm_num, by norm_num, by norm_num; linarith, by norm_num, ha, by norm_num, by
    norm_num; linarith⟩

/-- **C119.** The steering controller of a car: stable if asked at least every 0.2 s. -/
theorem C119_steer {v : Phys.VehicleParams ℝ} {c : PIDParam ℝ} (hc : Agents.steerParam v = .ok c) (h : ℝ) (h0 : 0 < h)
    (h1 : h ≤ 1 / 5) (hb : 1 / 300 ≤ v.ddeltaMax) : Stable c h := by
  unfold Agents.steerParam PIDParam.mk? at hc
  split_ifs at hc
  injection hc with hc
  subst hc
  exact ⟨h0, by norm_num, by norm_num, by norm_num, by norm_num; linarith, by norm_num,
    ⟨by simp; linarith, by simp; linarith⟩, by norm_num, by simp; norm_num; linarith⟩

/-- Specification: a car of the simulator that follows exact motions between requests, with both controllers asked
every `h` seconds for the same speed and steering angle. -/
structure Driven (wb lr : ℝ) (v : Phys.VehicleParams ℝ) (isCar : Bool) (cv cd : PIDParam ℝ) (h vref dref : ℝ)
    (t : ℕ → ℝ) (sv sd : ℕ → PIDState ℝ) (m : ℕ → ℝ → VehicleState ℝ) (u : ℕ → VehicleCommands ℝ) :
    Prop where
  time : ∀ k, t (k + 1) = t k + h
  speed : ∀ k, PIDState.getControl cv (((sv k).updateMeasurement (m k 0).vx).updateReference cv vref) (t k) =
    (sv (k + 1), .ok (u k).acc)
  steer : ∀ k, PIDState.getControl cd (((sd k).updateMeasurement (m k 0).delta).updateReference cd dref) (t k) =
    (sd (k + 1), .ok (u k).ddelta)
  motion : ∀ k, Phys.Motion VehicleState.toArray
    (fun x => (Phys.vehicleUpdate wb lr v false isCar).rate x (u k)) h (m k)
  next : ∀ k, m (k + 1) 0 = m k h

/-- **C119.** In the simulator: a car whose controllers are asked every `h` seconds, and which meets no limit of speed
or steering on the way, reaches the speed and the steering angle that it is told. -/
theorem C119_car {wb lr : ℝ} {v : Phys.VehicleParams ℝ} {isCar : Bool} {cv cd : PIDParam ℝ} {h vref dref : ℝ}
    {t : ℕ → ℝ} {sv sd : ℕ → PIDState ℝ} {m : ℕ → ℝ → VehicleState ℝ} {u : ℕ → VehicleCommands ℝ}
    (hcv : Agents.speedParam v = .ok cv) (hcd : Agents.steerParam v = .ok cd)
    (H : Driven wb lr v isCar cv cd h vref dref t sv sd m u) (h0 : 0 < h) (h1 : h ≤ 1 / 5)
    (ha : v.accMin < 0 ∧ 0 < v.accMax)
    (hb : (2 + max (-v.accMin) v.accMax / 10) / 100 < 16 * min (-v.accMin) v.accMax) (hd : 1 / 300 ≤ v.ddeltaMax)
    (hv : v.vxMin ≤ vref ∧ vref ≤ v.vxMax) (hdr : |dref| ≤ v.deltaMax)
    (hin : ∀ k, ∀ τ ∈ Set.Icc 0 h, (v.vxMin < (m k τ).vx ∧ (m k τ).vx < v.vxMax) ∧ |(m k τ).delta| < v.deltaMax) :
    Tendsto (fun k => (m k 0).vx) atTop (𝓝 vref) ∧ Tendsto (fun k => (m k 0).delta) atTop (𝓝 dref) := by
  have hsv := C119_speed hcv h h0 (by linarith) ha hb
  have hsd := C119_steer hcd h h0 h1 hd
  have hcv' : cv = ⟨4, 1 / 100, 1 / 10, (-2, 2), (v.vxMin, v.vxMax), (v.accMin, v.accMax)⟩ := by
    unfold Agents.speedParam PIDParam.mk? at hcv
    split_ifs at hcv
    injection hcv with hcv
    exact hcv.symm
  have hcd' : cd = ⟨4, 1 / 10, 2 / 10, (-5 / 10, 5 / 10), (-v.deltaMax, v.deltaMax),
      (-v.ddeltaMax, v.ddeltaMax)⟩ := by
    unfold Agents.steerParam PIDParam.mk? at hcd
    split_ifs at hcd
    injection hcd with hcd
    exact hcd.symm
  have hacc : ∀ k, v.accMin ≤ (u k).acc ∧ (u k).acc ≤ v.accMax := by
    intro k
    obtain ⟨x, hx⟩ := getControl_out cv (((sv k).updateMeasurement (m k 0).vx).updateReference cv vref) (t k)
    rw [H.speed k] at hx
    injection hx with hx
    rw [hx, hcv']
    exact ⟨le_npClip _ _ _ (by simp only; linarith [ha.1, ha.2]), npClip_le _ _ _⟩
  have hdd : ∀ k, |(u k).ddelta| ≤ v.ddeltaMax := by
    intro k
    obtain ⟨x, hx⟩ := getControl_out cd (((sd k).updateMeasurement (m k 0).delta).updateReference cd dref) (t k)
    rw [H.steer k] at hx
    injection hx with hx
    rw [hx, hcd']
    exact abs_le.mpr ⟨le_npClip _ _ _ (by simp only; linarith), npClip_le _ _ _⟩
  have hplant : ∀ k, (m (k + 1) 0).vx = (m k 0).vx + h * (u k).acc ∧
      (m (k + 1) 0).delta = (m k 0).delta + h * (u k).ddelta := by
    intro k
    have hm := (Phys.C118_simulator_partial v isCar (u k) (hacc k) (hdd k) (hin k)).mp (H.motion k)
    have := Phys.C118_inputs hm h ⟨h0.le, le_rfl⟩
    rw [H.next k]
    exact ⟨by rw [this.1]; ring, by rw [this.2]; ring⟩
  constructor
  · have hcl : Closed cv h vref t sv (fun k => (m k 0).vx) (fun k => (u k).acc) :=
      ⟨H.time, H.speed, fun k => (hplant k).1⟩
    have := (C119_converges_partial hcl hsv).1
    rw [npClip_of_mem _ _ _ (by rw [hcv']; exact hv.1) (by rw [hcv']; exact hv.2)] at this
    exact this
  · have hcl : Closed cd h dref t sd (fun k => (m k 0).delta) (fun k => (u k).ddelta) :=
      ⟨H.time, H.steer, fun k => (hplant k).2⟩
    have := (C119_converges_partial hcl hsd).1
    rw [npClip_of_mem _ _ _ (by rw [hcd']; exact (abs_le.mp hdr).1) (by rw [hcd']; exact (abs_le.mp hdr).2)] at this
    exact this

/-! ## A car that accelerates from 9 m/s to 10 m/s -/

/-- Controllers of `Phys.ivpParams`. -/
noncomputable def exSpeed : PIDParam ℝ := ⟨4, 1 / 100, 1 / 10, (-2, 2), (-5, 20), (-8, 5)⟩
/-- See `exSpeed`. -/
noncomputable def exSteer : PIDParam ℝ := ⟨4, 1 / 10, 2 / 10, (-5 / 10, 5 / 10), (-1, 1), (-1, 1)⟩

theorem exSpeed_ok : Agents.speedParam Phys.ivpParams = .ok exSpeed := by
  norm_num [Agents.speedParam, PIDParam.mk?, Phys.ivpParams, exSpeed]

theorem exSteer_ok : Agents.steerParam Phys.ivpParams = .ok exSteer := by
  norm_num [Agents.steerParam, PIDParam.mk?, Phys.ivpParams, exSteer]

theorem exSpeed_stable : Stable exSpeed (1 / 10) :=
  C119_speed exSpeed_ok _ (by norm_num) (by norm_num) (by norm_num [Phys.ivpParams]) (by norm_num [Phys.ivpParams])

-- from any state of the controller and any speed
example (s0 : PIDState ℝ) (v0 : ℝ) : ∃ t s x u, Closed exSpeed (1 / 10) 10 t s x u ∧ s 0 = s0 ∧ x 0 = v0 ∧
    Tendsto x atTop (𝓝 10) := by
  obtain ⟨t, s, x, u, H, h1, h2, -⟩ := exists_closed exSpeed (1 / 10) 10 0 s0 v0
  have := (C119_converges_partial H exSpeed_stable).1
  rw [npClip_of_mem _ _ _ (by norm_num [exSpeed]) (by norm_num [exSpeed])] at this
  exact ⟨t, s, x, u, H, h1, h2, this⟩

/-- Straight driving from `x`. -/
noncomputable def straightFrom (x v a : ℝ) (τ : ℝ) : VehicleState ℝ :=
  ⟨x + (v * τ + a * τ ^ 2 / 2), 0, 0, v + a * τ, 0⟩

theorem straightFrom_motion (wb lr x v a T : ℝ) : Phys.BicycleMotion wb lr a 0 T (straightFrom x v a) := by
  have h := Phys.straightOn_motion wb lr v a T
  exact ⟨fun t ht => (h.x t ht).const_add x, h.y, h.psi, h.vx, h.delta⟩

example : ∃ t sv sd m u, Driven 3 1 Phys.ivpParams true exSpeed exSteer (1 / 10) 10 0 t sv sd m u ∧
    (m 0 0).vx = 9 ∧ Tendsto (fun k => (m k 0).vx) atTop (𝓝 10) := by
  obtain ⟨t, s, v, a, H, hs0, hv0, ht0⟩ := exists_closed exSpeed (1 / 10) 10 0 PIDState.init 9
  have hclip : npClip (10 : ℝ) exSpeed.setpoint.1 exSpeed.setpoint.2 = 10 := by norm_num [npClip, exSpeed]
  have hv1 : v 1 = 9 + 1 / 10 * 4 := by
    have h1 := H.control 0
    rw [hs0, hv0, ht0] at h1
    norm_num [PIDState.getControl, PIDState.updateMeasurement, PIDState.updateReference, PIDState.init, hclip] at h1
    have h2 := h1.2
    norm_num [npClip, exSpeed] at h2
    rw [H.plant 0, hv0, ← h2]
  have hb : ∀ k, |v k - 10| ≤ 1 := by
    intro k
    cases k with
    | zero => rw [hv0]; norm_num
    | succ k =>
      have := C119_bounded H exSpeed_stable k
      rw [hclip, hv1] at this
      refine this.trans (max_le ?_ ?_)
      · norm_num
      · norm_num [exSpeed]
  have hacc : ∀ k, -8 ≤ a k ∧ a k ≤ 5 := by
    intro k
    obtain ⟨x, hx⟩ := getControl_out exSpeed (((s k).updateMeasurement (v k)).updateReference exSpeed 10) (t k)
    rw [H.control k] at hx
    injection hx with hx
    rw [hx]
    exact ⟨le_npClip _ _ _ (by norm_num [exSpeed]), npClip_le _ _ _⟩
  -- the steering controller does nothing
  have hsteer : ∀ (q : PIDState ℝ) (t : ℝ), q.lastIntegralError = 0 → q.lastProportionalError = 0 →
      PIDState.getControl exSteer ((q.updateMeasurement 0).updateReference exSteer 0) t =
        (⟨0, 0, some t, 0, 0⟩, .ok 0) := by
    intro q t h1 h2
    have h0 : npClip (0 : ℝ) (-1) 1 = 0 := by norm_num [npClip]
    have h0' : npClip (0 : ℝ) (-5 / 10) (5 / 10) = 0 := by norm_num [npClip]
    unfold PIDState.getControl
    simp only [PIDState.updateMeasurement, PIDState.updateReference, exSteer, h0, h1, h2, sub_zero, mul_zero, zero_mul,
      add_zero, h0', zero_div]
    split_ifs <;> simp [h0]
  let pos : ℕ → ℝ := fun k => Nat.rec 0 (fun k x => x + (v k * (1 / 10) + a k * (1 / 10) ^ 2 / 2)) k
  have hin : ∀ k, ∀ τ ∈ Set.Icc (0 : ℝ) (1 / 10),
      (Phys.ivpParams.vxMin < (straightFrom (pos k) (v k) (a k) τ).vx ∧
        (straightFrom (pos k) (v k) (a k) τ).vx < Phys.ivpParams.vxMax) ∧
      |(straightFrom (pos k) (v k) (a k) τ).delta| < Phys.ivpParams.deltaMax := by
    intro k τ hτ
    obtain ⟨h1, h2⟩ := abs_le.mp (hb k)
    obtain ⟨h3, h4⟩ := hacc k
    have h5 := hτ.1
    have h6 := hτ.2
    simp only [straightFrom, Phys.ivpParams]
    refine ⟨⟨?_, ?_⟩, by norm_num⟩
    · nlinarith
    · nlinarith
  have D : Driven 3 1 Phys.ivpParams true exSpeed exSteer (1 / 10) 10 0 t s
      (fun k => Nat.rec PIDState.init (fun k _ => ⟨0, 0, some (t k), 0, 0⟩) k)
      (fun k => straightFrom (pos k) (v k) (a k)) (fun k => ⟨a k, 0, .none⟩) := by
    refine ⟨H.time, fun k => ?_, fun k => ?_, fun k => ?_, fun k => ?_⟩
    · have := H.control k
      simp only [straightFrom, mul_zero, add_zero]
      exact this
    · cases k with
      | zero => exact hsteer _ _ rfl rfl
      | succ k => exact hsteer _ _ rfl rfl
    · refine (Phys.C118_simulator_partial Phys.ivpParams true ⟨a k, 0, .none⟩ ?_ ?_ (hin k)).mpr
        (straightFrom_motion 3 1 (pos k) (v k) (a k) (1 / 10))
      · exact hacc k
      · norm_num [Phys.ivpParams]
    · have h1 : pos (k + 1) = pos k + (v k * (1 / 10) + a k * (1 / 10) ^ 2 / 2) := rfl
      simp only [straightFrom, h1, H.plant k]
      congr 1 <;> ring
  refine ⟨t, s, _, _, _, D, ?_, ?_⟩
  · simp only [straightFrom, hv0]; ring
  · exact (C119_car exSpeed_ok exSteer_ok D (by norm_num) (by norm_num) (by norm_num [Phys.ivpParams])
      (by norm_num [Phys.ivpParams]) (by norm_num [Phys.ivpParams]) (by norm_num [Phys.ivpParams])
      (by norm_num [Phys.ivpParams]) hin).1

/-- **C119 fails if the controllers are asked too rarely.** Asked once a second, the steering controller with its
usual gains and a limit of 1 rad/s turns the wheels from -0.5 rad to 0.5 rad and back for ever, though it is told to
straighten them. -/
theorem C119_false_rare : Agents.steerParam Phys.ivpParams = .ok exSteer ∧
    ∃ t s x u, Closed exSteer 1 0 t s x u ∧ s 0 = PIDState.init ∧ (∀ k, |x k| = 1 / 2) ∧
      ¬ Tendsto x atTop (𝓝 0) := by
  refine ⟨exSteer_ok, ?_⟩
  obtain ⟨t, s, x, u, H, hs0, hx0, ht0⟩ := exists_closed exSteer 1 0 0 PIDState.init (-1 / 2)
  have hclip : npClip (0 : ℝ) (-1) 1 = 0 := by norm_num [npClip]
  have key : ∀ n : ℕ, x (2 * n) = -1 / 2 ∧ x (2 * n + 1) = 1 / 2 ∧
      s (2 * n + 1) = ⟨-1 / 2, 0, some (t (2 * n)), 0, 1 / 2⟩ := by
    intro n
    induction n with
    | zero =>
      have h1 := H.control 0
      rw [hs0, hx0] at h1
      norm_num [PIDState.getControl, PIDState.updateMeasurement, PIDState.updateReference, PIDState.init, exSteer,
        npClip] at h1
      obtain ⟨h2, h3⟩ := h1
      refine ⟨hx0, ?_, ?_⟩
      · have := H.plant 0
        rw [hx0, ← h3] at this
        rw [this]; norm_num
      · rw [← h2]; norm_num
    | succ n ih =>
      obtain ⟨h1, h2, h3⟩ := ih
      have e1 : t (2 * n + 1) - t (2 * n) = 1 := by rw [H.time]; ring
      have h4 := H.control (2 * n + 1)
      rw [h3, h2] at h4
      norm_num [PIDState.getControl, PIDState.updateMeasurement, PIDState.updateReference, exSteer, npClip, e1] at h4
      obtain ⟨h5, h6⟩ := h4
      have hx2 : x (2 * n + 2) = -1 / 2 := by
        rw [H.plant (2 * n + 1), h2, ← h6]; norm_num
      have e2 : t (2 * n + 2) - t (2 * n + 1) = 1 := by rw [H.time (2 * n + 1)]; ring
      have h7 := H.control (2 * n + 2)
      rw [← h5, hx2] at h7
      norm_num [PIDState.getControl, PIDState.updateMeasurement, PIDState.updateReference, exSteer, npClip, e2] at h7
      obtain ⟨h8, h9⟩ := h7
      refine ⟨by rw [show 2 * (n + 1) = 2 * n + 2 by ring]; exact hx2, ?_, ?_⟩
      · rw [show 2 * (n + 1) + 1 = 2 * n + 2 + 1 by ring, H.plant (2 * n + 2), hx2, ← h9]; norm_num
      · rw [show 2 * (n + 1) + 1 = 2 * n + 2 + 1 by ring, ← h8, show 2 * (n + 1) = 2 * n + 2 by ring]; norm_num
  have habs : ∀ k, |x k| = 1 / 2 := by
    intro k
    rcases Nat.even_or_odd' k with ⟨n, rfl | rfl⟩
    · rw [(key n).1]; norm_num
    · rw [(key n).2.1]; norm_num
  refine ⟨t, s, x, u, H, hs0, habs, fun hT => ?_⟩
  have h1 := hT.abs
  simp only [habs, abs_zero] at h1
  have := tendsto_nhds_unique h1 tendsto_const_nhds
  norm_num at this

end Loop
end Verif
