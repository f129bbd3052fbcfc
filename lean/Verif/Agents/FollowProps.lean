import Verif.Agents.RestProps

/-!
# C124: a lane follower behind a slow vehicle
-/

namespace Verif
namespace Agents

open Maps Filter Topology

variable {N : Type} [DecidableEq N] {L : Type}

/-- Specification: `o` is straight ahead of `my` at the distance `g` between the positions, with the same heading. -/
def StraightAhead (my o : ObsState) (g : ℝ) : Prop :=
  o.psi = my.psi ∧ o.x = my.x + g * Real.cos my.psi ∧ o.y = my.y + g * Real.sin my.psi

theorem StraightAhead.view {my o : ObsState} {g : ℝ} (h : StraightAhead my o g) :
    viewOf my o = .ok ⟨g, 0, 0, |g|, o.vx⟩ := by
  obtain ⟨px, py, th, h1, -, h3⟩ := C20_view my o
  obtain ⟨e1, e2, e3⟩ := h3 g 0 0 ⟨by
    obtain ⟨g1, g2, g3⟩ := h
    ext <;> simp [ObsState.pose, rigid, Mat3.mul, g1, g2, g3] <;> ring, by linarith [Real.pi_pos], Real.pi_pos.le⟩
  rw [h1, ← e1, ← e2, ← e3]
  have : norm2 g 0 = |g| := by rw [norm2]; simp [Real.sqrt_sq_eq_abs]
  rw [this]

theorem anyOther_false {K : Type*} (me : N) (test : AgentView K → Bool) (vs : Dict N (AgentView K))
    (h : ∀ n a, n ≠ me → (n, a) ∈ vs → test a = false) : anyOther me test vs = false := by
  induction vs with
  | nil => rfl
  | cons q rest ih =>
    obtain ⟨n, a⟩ := q
    have ih' := ih (fun n a hn ha => h n a hn (List.mem_cons_of_mem _ ha))
    simp only [anyOther]
    split_ifs with h1 h2
    · exact ih'
    · rw [h n a h1 (by simp)] at h2; cases h2
    · exact ih'

theorem cruise_same (pi : ℝ) (prm : SpeedBehaviorParam ℝ) (me : N) (myvel y : ℝ) (vs : Dict N (AgentView ℝ))
    (h : ∀ n a, n ≠ me → (n, a) ∈ vs → cruiseCandidate pi prm myvel a = y) :
    ∀ z ∈ cruiseCandidates pi prm me myvel vs, z = y := by
  induction vs with
  | nil => intro z hz; cases hz
  | cons q rest ih =>
    obtain ⟨n, a⟩ := q
    have ih' := ih (fun n a hn ha => h n a hn (List.mem_cons_of_mem _ ha))
    simp only [cruiseCandidates]
    split_ifs with h1
    · exact ih'
    · intro z hz
      rcases List.mem_cons.mp hz with rfl | hz
      · exact h n a h1 (by simp)
      · exact ih' z hz

theorem minList_same (y z : ℝ) : ∀ (l : List ℝ), (∀ v ∈ l, v = y) → l ≠ [] → minList z l = min z y := by
  intro l
  induction l generalizing z with
  | nil => intro _ hl; exact absurd rfl hl
  | cons q rest ih =>
    intro h _
    have hq : q = y := h q (by simp)
    rcases rest with _ | ⟨q', rest⟩
    · simp [minList, hq]
    · have := ih (z := min z q) (fun v hv => h v (List.mem_cons_of_mem _ hv)) (by simp)
      simp only [minList, List.foldl_cons] at this ⊢
      rw [this, hq, min_assoc, min_self]

theorem cruise_ne_nil (pi : ℝ) (prm : SpeedBehaviorParam ℝ) (me : N) (myvel : ℝ) (vs : Dict N (AgentView ℝ)) (n : N)
    (a : AgentView ℝ) (hn : n ≠ me) (h : (n, a) ∈ vs) : cruiseCandidates pi prm me myvel vs ≠ [] := by
  induction vs with
  | nil => cases h
  | cons q rest ih =>
    obtain ⟨n', a'⟩ := q
    simp only [cruiseCandidates]
    split_ifs with h1
    · rcases List.mem_cons.mp h with e | e
      · simp only [Prod.mk.injEq] at e
        exact absurd (e.1.trans h1) hn
      · exact ih e
    · simp

/-- What the speed behaviour makes of vehicles straight ahead. -/
theorem ahead_ref (prm : SpeedBehaviorParam ℝ) (me : N) (players : Dict N ObsState) (my : ObsState) (g w : ℝ)
    (hme : Dict.get? players me = some my)
    (ho : ∀ n o, n ≠ me → (n, o) ∈ players → StraightAhead my o g ∧ o.vx = w) :
    ∃ l, speedRef prm me players = .ok (minList prm.nominalSpeed l, false) ∧
      (∀ z ∈ l, z = cruiseCandidate Real.pi prm my.vx ⟨g, 0, 0, |g|, w⟩) ∧
      ((∃ n o, n ≠ me ∧ (n, o) ∈ players) → l ≠ []) := by
  obtain ⟨vs, h1, h2⟩ := viewsOf_spec my players
  obtain ⟨m, hm, hmv⟩ := get?_views my players vs h2 me my hme
  have hmx : m.vx = my.vx := by
    obtain ⟨px, py, th, hv, -⟩ := C20_view my my
    rw [hv] at hmv
    injection hmv with hmv
    rw [← hmv]
  have hall : ∀ n a, n ≠ me → (n, a) ∈ vs → a = ⟨g, 0, 0, |g|, w⟩ := by
    intro n a hn ha
    obtain ⟨k, hk, hkv⟩ := List.getElem_of_mem ha
    have hk' : k < players.length := by rw [h2.length_eq]; exact hk
    obtain ⟨e1, e2⟩ := h2.get hk' hk
    simp only [List.get_eq_getElem, hkv] at e1 e2
    obtain ⟨s1, s2⟩ := ho n players[k].2 hn (by rw [e1]; exact List.getElem_mem hk')
    rw [s1.view, s2] at e2
    injection e2 with e2
    exact e2.symm
  have hpi := Real.pi_pos
  have hy : anyOther me (yieldTest Real.pi prm) vs = false := anyOther_false me _ vs (fun n a hn ha => by
    rw [hall n a hn ha, yieldTest]
    have : ¬ Real.pi / 4 ≤ 0 := by linarith
    simp [this])
  have he : anyOther me (emergencyTest Real.pi prm m.vx) vs = false := anyOther_false me _ vs (fun n a hn ha => by
    rw [hall n a hn ha, emergencyTest]
    have h3 : ¬ (0 : ℝ) ≤ -Real.pi / 4 := by linarith
    have h4 : ¬ 3 * Real.pi / 4 ≤ 0 := by linarith
    simp [h3, h4])
  refine ⟨cruiseCandidates Real.pi prm me m.vx vs, ?_, ?_, ?_⟩
  · unfold speedRef getSpeedRef
    simp only [hme, h1, hm, hy, he]
    rfl
  · exact cruise_same Real.pi prm me m.vx _ vs (fun n a hn ha => by rw [hall n a hn ha, hmx])
  · rintro ⟨n, o, hn, ho'⟩
    obtain ⟨k, hk, hkv⟩ := List.getElem_of_mem ho'
    have hk' : k < vs.length := by rw [← h2.length_eq]; exact hk
    obtain ⟨e1, e2⟩ := h2.get hk hk'
    simp only [List.get_eq_getElem, hkv] at e1 e2
    exact cruise_ne_nil _ _ _ _ vs n vs[k].2 hn (by rw [← e1]; exact List.getElem_mem hk')

/-- **C124.** What the speed behaviour makes of vehicles straight ahead: no emergency, and the nominal speed as long as
the distance is not less than what is covered in the safety time plus the closing speed times one second. -/
theorem C124_ahead_partial (prm : SpeedBehaviorParam ℝ) (me : N) (players : Dict N ObsState) (my : ObsState) (g w : ℝ)
    (hme : Dict.get? players me = some my)
    (ho : ∀ n o, n ≠ me → (n, o) ∈ players → StraightAhead my o g ∧ o.vx = w) :
    ∃ r, speedRef prm me players = .ok (r, false) ∧ r ≤ prm.nominalSpeed ∧
      (prm.safetyTimeBraking * my.vx + max (my.vx - w) 0 ≤ g → r = prm.nominalSpeed) := by
  obtain ⟨l, h1, h2, -⟩ := ahead_ref prm me players my g w hme ho
  refine ⟨_, h1, (minList_le _ _).1, fun hfar => ?_⟩
  have hc : cruiseCandidate Real.pi prm my.vx ⟨g, 0, 0, |g|, w⟩ = prm.nominalSpeed := by
    rw [cruiseCandidate, if_neg]
    rintro ⟨-, h3⟩
    have := le_abs_self g
    simp only at h3
    linarith
  rw [hc] at h2
  rcases eq_or_ne l [] with rfl | hl
  · rfl
  · rw [minList_same _ _ l h2 hl, min_self]

/-- **C124.** Nearer than that, it aims at the speed of the vehicle ahead, less the closing speed; that is the least it
ever aims at. -/
theorem C124_reference (prm : SpeedBehaviorParam ℝ) (me : N) (players : Dict N ObsState) (my : ObsState) (g w : ℝ)
    (hme : Dict.get? players me = some my) (h1 : ∃ n o, n ≠ me ∧ (n, o) ∈ players)
    (ho : ∀ n o, n ≠ me → (n, o) ∈ players → StraightAhead my o g ∧ o.vx = w)
    (hw : 0 ≤ w ∧ w ≤ prm.nominalSpeed ∧ w ≤ kmh2ms 130) :
    ∃ r, speedRef prm me players = .ok (r, false) ∧ r ≤ prm.nominalSpeed ∧ max (w - max (my.vx - w) 0) 0 ≤ r ∧
      (1 / 2 < g → g < prm.safetyTimeBraking * my.vx + max (my.vx - w) 0 → r = max (w - max (my.vx - w) 0) 0) := by
  obtain ⟨l, e1, e2, e3⟩ := ahead_ref prm me players my g w hme ho
  obtain ⟨w0, w1, w2⟩ := hw
  have hcl : npClip (w - max (my.vx - w) 0) 0 (kmh2ms 130) = max (w - max (my.vx - w) 0) 0 := by
    simp only [npClip]
    have := le_max_right (my.vx - w) 0
    exact min_eq_left (max_le (by linarith) (by linarith))
  have hle : max (w - max (my.vx - w) 0) 0 ≤ prm.nominalSpeed := by
    have := le_max_right (my.vx - w) 0
    exact max_le (by linarith) (by linarith)
  refine ⟨_, e1, (minList_le _ _).1, ?_, ?_⟩
  · rw [minList_same _ _ l e2 (e3 h1)]
    refine le_min hle ?_
    rw [cruiseCandidate]
    split_ifs
    · rw [hcl]
    · exact hle
  · intro q1 q2
    rw [minList_same _ _ l e2 (e3 h1)]
    have hc : cruiseCandidate Real.pi prm my.vx ⟨g, 0, 0, |g|, w⟩ = max (w - max (my.vx - w) 0) 0 := by
      have hpi := Real.pi_pos
      rw [cruiseCandidate, if_pos]
      · exact hcl
      · refine ⟨?_, by simpa [mul_comm, abs_of_pos (lt_trans one_half_pos q1)] using q2⟩
        have : (0 : ℝ) < Real.pi / 6 := by linarith
        simp only [abs_zero, Bool.and_eq_true, decide_eq_true_eq]
        exact ⟨⟨q1, by norm_num⟩, this⟩
    rw [hc, min_eq_right hle]

variable {c : Conf L} {h : ℝ} {t : ℕ → ℝ} {a : ℕ → LF N} {ps : ℕ → Dict N ObsState} {u : ℕ → Cmd L} {x : ℕ → ℝ}

/-- Specification: the lane follower `me` drives straight behind a vehicle with the constant speed `w`; `g` is the
distance of the positions. -/
structure Behind (h : ℝ) (a : ℕ → LF N) (ps : ℕ → Dict N ObsState) (x : ℕ → ℝ) (me : N) (w : ℝ) (g : ℕ → ℝ) :
    Prop where
  name : (a 0).myName = some me
  calm : (a 0).emergency = false
  sees : ∀ k, ∃ my n o, Dict.get? (ps k) me = some my ∧ n ≠ me ∧ (n, o) ∈ ps k ∧
    (∀ n' o', n' ≠ me → (n', o') ∈ ps k → o' = o) ∧ StraightAhead my o (g k) ∧ o.vx = w
  moves : ∀ k, g (k + 1) = g k + h * w - h * ((x k + x (k + 1)) / 2)

/-- **C124 fails.** A lane follower does not keep clear of a slow vehicle ahead: it gets nearer than any distance `d`
larger than what the other covers in the safety time, whatever the distance at the beginning. -/
theorem C124_false_near {lane : List CtrPoint} {p : Phys.VehicleParams ℝ} {wb lr : ℝ} {b : SpeedBehaviorParam ℝ}
    {lights : List L} {cl : ℝ × ℝ → ℝ} {mi : (ℝ → Except Err ℝ) → ℝ → ℝ → Except Err ℝ}
    (hc : Conf.mk? lane p wb lr b lights cl mi = .ok c) (H : Follows c h t a ps u x) (h0 : 0 < h) {me : N} {w : ℝ}
    {g : ℕ → ℝ} (hB : Behind h a ps x me w g) (ha : p.accMin < 0 ∧ 0 < p.accMax)
    (hn : p.vxMin ≤ b.nominalSpeed ∧ b.nominalSpeed ≤ p.vxMax) (hτ : 0 ≤ b.safetyTimeBraking) (d v : ℝ)
    (hv : d = b.safetyTimeBraking * v + (v - w)) (hvw : w < v + h * p.accMin)
    (hvn : p.accMax + p.accMax / 10 + 2 ≤ 4 * (b.nominalSpeed - v)) : ∃ k, g k < d := by
  by_contra hno
  push Not at hno
  obtain ⟨-, -, -, -, -, -, -, -, -, hbe⟩ := conf_limits hc
  have hsp : c.speedP = ⟨4, 1 / 100, 1 / 10, (-2, 2), (p.vxMin, p.vxMax), (p.accMin, p.accMax)⟩ := by
    have := conf_speed hc
    unfold speedParam PIDParam.mk? at this
    split_ifs at this
    injection this with this
    exact this.symm
  have hname : ∀ k, (a k).myName = some me := by
    intro k
    induction k with
    | zero => exact hB.name
    | succ k ih =>
      obtain ⟨_, _, _, _, _, _, -, e, -⟩ := getCommands_speed c _ _ _ _ _ (H.ask k)
      rw [e, ih]
  have href : ∀ k, ∃ r, speedRef b me (ps k) = .ok (r, false) ∧ r ≤ b.nominalSpeed ∧
      (b.safetyTimeBraking * x k + max (x k - w) 0 ≤ g k → r = b.nominalSpeed) := by
    intro k
    obtain ⟨my, n, o, e1, -, -, e4, e5, e6⟩ := hB.sees k
    have := C124_ahead_partial b me (ps k) my (g k) w e1 (fun n' o' hn' ho' => by
      rw [e4 n' o' hn' ho']; exact ⟨e5, e6⟩)
    rwa [H.own k me my (hname k) e1] at this
  choose r hr1 hr2 hr3 using href
  have hcalm : ∀ k, (a k).emergency = false := by
    intro k
    induction k with
    | zero => exact hB.calm
    | succ k ih =>
      obtain ⟨me', my, lp, r', em, hd', he, -⟩ := getCommands_speed c _ _ _ _ _ (H.ask k)
      have e1 : me' = me := by have := hd'.1; rw [hname k] at this; injection this with this; exact this.symm
      subst e1
      have := hd'.2.2.2
      rw [hbe, hr1 k] at this
      simp only [Except.ok.injEq, Prod.mk.injEq] at this
      rw [he, ih, ← this.2]
      rfl
  have hT := H.tracks r (fun k => ⟨me, r k, false, hname k, by rw [hbe]; exact hr1 k, by simp [hcalm k]⟩)
  have hout : c.speedP.output = (p.accMin, p.accMax) := by rw [hsp]
  have hlim : ∀ k, p.accMin ≤ (u k).acc ∧ (u k).acc ≤ p.accMax := by
    intro k
    obtain ⟨i, q, e⟩ := Loop.getControl_any c.speedP
      ((((a k).speedPid).updateMeasurement (x k)).updateReference c.speedP (r k)) (t k)
    have := (Prod.ext_iff.mp ((hT.control k).symm.trans e)).2
    simp only [Except.ok.injEq] at this
    rw [this, hout]
    exact ⟨le_npClip _ _ _ (ha.1.le.trans ha.2.le), npClip_le _ _ _⟩
  -- when slow it accelerates as much as it can
  have hslow : ∀ k, x (k + 1) ≤ v → (u (k + 1)).acc = p.accMax := by
    intro k hk
    have hfar : r (k + 1) = b.nominalSpeed := hr3 (k + 1) (by
      refine le_trans ?_ (hno (k + 1))
      rw [hv]
      have e1 := mul_le_mul_of_nonneg_left hk hτ
      have e2 : max (x (k + 1) - w) 0 ≤ v - w := by
        have : h * p.accMin < 0 := mul_neg_of_pos_of_neg h0 ha.1
        exact max_le (by linarith) (by linarith)
      linarith)
    obtain ⟨e1, e2⟩ := hT.next h0 k
    rw [e2, hout, hfar]
    have hI : -2 ≤ (a (k + 2)).speedPid.lastIntegralError := by
      rw [e1, hsp]
      exact le_npClip _ _ _ (by norm_num)
    have hcl : ∀ y, y ≤ b.nominalSpeed → npClip y c.speedP.setpoint.1 c.speedP.setpoint.2 ≤ b.nominalSpeed := by
      intro y hy
      rw [hsp]
      simp only [npClip]
      exact (min_le_left _ _).trans (max_le hy hn.1)
    have hcn : npClip b.nominalSpeed c.speedP.setpoint.1 c.speedP.setpoint.2 = b.nominalSpeed := by
      rw [hsp]; exact npClip_of_mem _ _ _ hn.1 hn.2
    have hD : -p.accMax ≤ (b.nominalSpeed - x (k + 1) - (npClip (r k) c.speedP.setpoint.1 c.speedP.setpoint.2 - x k)) / h := by
      rw [le_div_iff₀ h0]
      have e3 := hcl (r k) (hr2 k)
      have e4 := mul_le_mul_of_nonneg_left (hlim k).2 h0.le
      have e5 := H.plant k
      linarith
    rw [hcn]
    have hk4 : c.speedP.kP = 4 := by rw [hsp]
    have hk5 : c.speedP.kD = 1 / 10 := by rw [hsp]
    rw [hk4, hk5]
    have hbig : p.accMax ≤ 4 * (b.nominalSpeed - x (k + 1)) + (a (k + 2)).speedPid.lastIntegralError +
        1 / 10 * ((b.nominalSpeed - x (k + 1) - (npClip (r k) c.speedP.setpoint.1 c.speedP.setpoint.2 - x k)) / h) := by
      linarith
    generalize 4 * (b.nominalSpeed - x (k + 1)) + (a (k + 2)).speedPid.lastIntegralError +
        1 / 10 * ((b.nominalSpeed - x (k + 1) - (npClip (r k) c.speedP.setpoint.1 c.speedP.setpoint.2 - x k)) / h) = y
      at hbig
    simp only [npClip]
    rw [max_eq_left (by linarith [ha.1, ha.2]), min_eq_right hbig]
  -- in the end it is faster than the other
  set v1 := v + h * p.accMin with hv1
  have hkeep : ∀ k, v1 ≤ x (k + 1) → v1 ≤ x (k + 2) := by
    intro k hk
    rw [H.plant (k + 1)]
    rcases le_total (x (k + 1)) v with q | q
    · rw [hslow k q]
      have := mul_pos h0 ha.2
      linarith
    · have := mul_le_mul_of_nonneg_left (hlim (k + 1)).1 h0.le
      linarith
  have hreach : ∃ K, v1 ≤ x (K + 1) := by
    by_contra hn'
    push Not at hn'
    have hlow : ∀ k, x (k + 1) = x 1 + k * (h * p.accMax) := by
      intro k
      induction k with
      | zero => simp
      | succ k ih =>
        have : h * p.accMin < 0 := mul_neg_of_pos_of_neg h0 ha.1
        rw [H.plant (k + 1), hslow k (by linarith [hn' k]), ih]
        push_cast
        ring
    obtain ⟨K, hK⟩ := exists_nat_gt ((v1 - x 1) / (h * p.accMax))
    rw [div_lt_iff₀ (mul_pos h0 ha.2)] at hK
    have := hn' K
    rw [hlow K] at this
    linarith
  obtain ⟨K, hK⟩ := hreach
  have hfast : ∀ j, v1 ≤ x (K + 1 + j) := by
    intro j
    induction j with
    | zero => exact hK
    | succ j ih =>
      have := hkeep (K + j) (by rw [show K + j + 1 = K + 1 + j by ring]; exact ih)
      rwa [show K + j + 2 = K + 1 + (j + 1) by ring] at this
  have hgap : ∀ j : ℕ, g (K + 1 + j) ≤ g (K + 1) - j * (h * (v1 - w)) := by
    intro j
    induction j with
    | zero => simp
    | succ j ih =>
      rw [← Nat.add_assoc, hB.moves]
      have e1 := mul_le_mul_of_nonneg_left (hfast j) h0.le
      have e2 := mul_le_mul_of_nonneg_left (hfast (j + 1)) h0.le
      rw [← Nat.add_assoc] at e2
      push_cast
      linarith
  obtain ⟨J, hJ⟩ := exists_nat_gt ((g (K + 1) - d) / (h * (v1 - w)))
  rw [div_lt_iff₀ (mul_pos h0 (by linarith))] at hJ
  have e1 := hgap J
  have e2 := hno (K + 1 + J)
  linarith

namespace Straight

/-- The agent 0 and a standing vehicle straight ahead. -/
noncomputable def queue (v g : ℝ) : Dict Nat ObsState := [(0, ⟨0, 0, 0, v, 0⟩), (1, ⟨g, 0, 0, 0, 0⟩)]

-- from 100 m behind a standing vehicle, at its nominal speed, it comes nearer than 4 m
example : ∃ (t : ℕ → ℝ) (a : ℕ → LF Nat) (ps : ℕ → Dict Nat ObsState) (u : ℕ → Cmd Nat) (x g : ℕ → ℝ),
    Follows (dotConf [0, 1, 2, 3, 4]) (1 / 10) t a ps u x ∧ Behind (1 / 10) a ps x 0 0 g ∧ x 0 = 11 ∧ g 0 = 100 ∧
    ∃ k, g k < 4 := by
  obtain ⟨t, a, ps, u, x, g, H, h1, h2, h3, h4, h5⟩ := drive_obs (fun _ v g => queue v g)
    (fun g v v' => g + 1 / 10 * 0 - 1 / 10 * ((v + v') / 2)) (fun k v _ => rfl)
    (LF.run (dotConf [0, 1, 2, 3, 4]) LF.init [Call.init 0]).1 rfl rfl 11 100
  have hB : Behind (1 / 10) a ps x 0 0 g := by
    refine ⟨(h4 0).2, by rw [h1]; rfl, fun k => ?_, h5⟩
    rw [(h4 k).1]
    refine ⟨⟨0, 0, 0, x k, 0⟩, 1, ⟨g k, 0, 0, 0, 0⟩, rfl, by norm_num, by simp [queue], ?_, ?_, rfl⟩
    · intro n' o' hn' ho'
      simp only [queue, List.mem_cons, Prod.mk.injEq, List.not_mem_nil, or_false] at ho'
      rcases ho' with ⟨e, -⟩ | ⟨-, e⟩
      · exact absurd e hn'
      · exact e
    · simp [StraightAhead]
  obtain ⟨k, hk⟩ := C124_false_near dotConf_mk H (by norm_num) hB (by norm_num [params]) (by norm_num [params])
    (by norm_num) 4 (8 / 5) (by norm_num) (by norm_num [params]) (by norm_num [params])
  exact ⟨t, a, ps, u, x, g, H, hB, h2, h3, k, hk⟩

end Straight
end Agents
end Verif
