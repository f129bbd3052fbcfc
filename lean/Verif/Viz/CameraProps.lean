import Verif.Viz.Model
import Mathlib.Tactic.Linarith
import Mathlib.Tactic.Ring
import Mathlib.Tactic.FieldSimp
import Mathlib.Tactic.NormNum

/-!
# The camera and the frames of an animation (C104, C105, C106)
-/

namespace Verif
namespace Viz

/-! ## Bounding boxes -/

/-- The least and the greatest of the values. -/
def IsRange (vs : List ℝ) (a b : ℝ) : Prop := a ∈ vs ∧ b ∈ vs ∧ ∀ v ∈ vs, a ≤ v ∧ v ≤ b

theorem add_range {vs : List ℝ} {a b : ℝ} (h : IsRange vs a b) (v : ℝ) :
    ∃ a' b', MinMax.add (some a, some b) v = (some a', some b') ∧ IsRange (vs ++ [v]) a' b' := by
  obtain ⟨ha, hb, hall⟩ := h
  have hab := hall a ha
  unfold MinMax.add
  dsimp only
  refine ⟨if v < a then v else a, if b < v then v else b, ?_, ?_⟩
  · split <;> split <;> rfl
  · refine ⟨?_, ?_, ?_⟩
    · split <;> simp [ha]
    · split <;> simp [hb]
    · intro w hw
      rw [List.mem_append, List.mem_singleton] at hw
      rcases hw with hw | rfl
      · have := hall w hw
        constructor
        · split <;> linarith
        · split <;> linarith
      · constructor
        · split <;> linarith
        · split <;> linarith

theorem fold_range (f : ℝ × ℝ → ℝ) (ps : List (ℝ × ℝ)) (hne : ps ≠ []) :
    ∃ a b, ps.foldl (fun (m : MinMax) p => m.add (f p)) (none, none) = (some a, some b) ∧
      IsRange (ps.map f) a b := by
  induction ps using List.reverseRecOn with
  | nil => exact absurd rfl hne
  | append_singleton ps p ih =>
    rw [List.foldl_append, List.map_append]
    by_cases h0 : ps = []
    · subst h0
      exact ⟨f p, f p, rfl, by simp [IsRange]⟩
    · obtain ⟨a, b, h1, h2⟩ := ih h0
      rw [h1]
      exact add_range h2 (f p)

/-- **C104.** The bounding box of a non-empty list of players is 10 m larger than the least box that contains
them, on each side. -/
theorem C104_box (ps : List (ℝ × ℝ)) (hne : ps ≠ []) :
    ∃ a b c d, IsRange (ps.map Prod.fst) a b ∧ IsRange (ps.map Prod.snd) c d ∧
      boundingBox ps = .ok ((a - 10, b + 10), (c - 10, d + 10)) := by
  obtain ⟨a, b, h1, h2⟩ := fold_range Prod.fst ps hne
  obtain ⟨c, d, h3, h4⟩ := fold_range Prod.snd ps hne
  refine ⟨a, b, c, d, h2, h4, ?_⟩
  unfold boundingBox
  dsimp only
  rw [h1, h3]
  have e1 : a ≤ b := (h2.2.2 a h2.1).2
  have e2 : c ≤ d := (h4.2.2 c h4.1).2
  simp [MinMax.widen, e1, e2, bind, Except.bind, pure, Except.pure]

/-- **C104.** Without players there is no bounding box: the code means to return `None` but raises. -/
theorem C104_empty : boundingBox [] = .error .assertion := rfl

variable {N : Type} [DecidableEq N]

/-- The point is inside of the limits, at least `margin` from the edge. -/
def Inside (lim : (ℝ × ℝ) × (ℝ × ℝ)) (margin : ℝ) (p : ℝ × ℝ) : Prop :=
  lim.1.1 + margin ≤ p.1 ∧ p.1 ≤ lim.1.2 - margin ∧ lim.2.1 + margin ≤ p.2 ∧ p.2 ≤ lim.2.2 - margin

/-- **C104.** With automatic limits every player is in view, at least 15 m from the edge, and no more is shown
than that takes. -/
theorem C104_auto (players : Dict N Seen) (hne : players ≠ []) :
    ∃ lim, axesLimits (.auto : PlotLimits N) players = .ok lim ∧
      (∀ p ∈ players, Inside lim 15 (p.2.x, p.2.y)) ∧
      (∃ p ∈ players, p.2.x = lim.1.1 + 15) ∧ (∃ p ∈ players, p.2.x = lim.1.2 - 15) ∧
      (∃ p ∈ players, p.2.y = lim.2.1 + 15) ∧ ∃ p ∈ players, p.2.y = lim.2.2 - 15 := by
  obtain ⟨a, b, c, d, hx, hy, h⟩ := C104_box (players.map fun (p : N × Seen) => (p.2.x, p.2.y)) (by simpa using hne)
  rw [List.map_map] at hx hy
  refine ⟨((a - 10 - 5, b + 10 + 5), (c - 10 - 5, d + 10 + 5)), ?_, ?_, ?_, ?_, ?_, ?_⟩
  · unfold axesLimits
    dsimp only
    rw [if_neg (by simpa using hne), h]
    rfl
  · intro p hp
    have h1 := hx.2.2 p.2.x (List.mem_map.mpr ⟨p, hp, rfl⟩)
    have h2 := hy.2.2 p.2.y (List.mem_map.mpr ⟨p, hp, rfl⟩)
    refine ⟨?_, ?_, ?_, ?_⟩ <;> dsimp only <;> linarith
  · obtain ⟨p, hp, e⟩ := List.mem_map.mp hx.1
    have e : p.2.x = a := e
    exact ⟨p, hp, by rw [e]; ring⟩
  · obtain ⟨p, hp, e⟩ := List.mem_map.mp hx.2.1
    have e : p.2.x = b := e
    exact ⟨p, hp, by rw [e]; ring⟩
  · obtain ⟨p, hp, e⟩ := List.mem_map.mp hy.1
    have e : p.2.y = c := e
    exact ⟨p, hp, by rw [e]; ring⟩
  · obtain ⟨p, hp, e⟩ := List.mem_map.mp hy.2.1
    have e : p.2.y = d := e
    exact ⟨p, hp, by rw [e]; ring⟩

theorem clipShift_bounds (v : ℝ) : -(70 / 3) ≤ clipShift v ∧ clipShift v ≤ 70 / 3 := by
  unfold clipShift
  constructor
  · refine le_min ?_ (by norm_num)
    exact le_trans (by norm_num) (le_max_right _ _)
  · exact le_trans (min_le_right _ _) (by norm_num)

theorem clipShift_small (v : ℝ) (h : |v| ≤ 70 / 3) : clipShift v = v := by
  rw [abs_le] at h
  unfold clipShift
  rw [max_eq_left (by linarith), min_eq_left (by linarith)]

theorem clipShift_sign (v : ℝ) : (0 ≤ v → 0 ≤ clipShift v ∧ clipShift v ≤ v) ∧ (v ≤ 0 → v ≤ clipShift v ∧ clipShift v ≤ 0) := by
  unfold clipShift
  constructor
  · intro h
    rw [max_eq_left (by linarith)]
    exact ⟨le_min h (by norm_num), min_le_left _ _⟩
  · intro h
    have : max v (-35 + 35 / 3) ≤ 35 - 35 / 3 := max_le (by linarith) (by norm_num)
    rw [min_eq_left this]
    exact ⟨le_max_left _ _, max_le h (by norm_num)⟩

/-- **C104.** A followed player that has a speed is always in view, at least 35/3 m from the edge of a square of
70 m, whatever its speed; the view leads in the direction in which it moves, by 1.5 s of its motion along each
axis as long as that is at most 70/3 m. -/
theorem C104_follow_partial (players : Dict N Seen) (n : N) (s : Seen) (vx : ℝ) (hs : Dict.get? players n = some s)
    (hv : s.vx = some vx) :
    ∃ lim cx cy, axesLimits (.follow n) players = .ok lim ∧ lim = ((cx - 35, cx + 35), (cy - 35, cy + 35)) ∧
      Inside lim (35 / 3) (s.x, s.y) ∧
      0 ≤ (cx - s.x) * (vx * Real.cos s.psi) ∧ 0 ≤ (cy - s.y) * (vx * Real.sin s.psi) ∧
      (|3 / 2 * (vx * Real.cos s.psi)| ≤ 70 / 3 → cx = s.x + 3 / 2 * (vx * Real.cos s.psi)) ∧
      (|3 / 2 * (vx * Real.sin s.psi)| ≤ 70 / 3 → cy = s.y + 3 / 2 * (vx * Real.sin s.psi)) := by
  have sgn : ∀ v : ℝ, 0 ≤ clipShift (3 / 2 * v) * v := by
    intro v
    rcases le_total 0 v with h | h
    · exact mul_nonneg ((clipShift_sign _).1 (by linarith)).1 h
    · exact mul_nonneg_of_nonpos_of_nonpos ((clipShift_sign _).2 (by linarith)).2 h
  refine ⟨_, s.x + clipShift (3 / 2 * (vx * Real.cos s.psi)), s.y + clipShift (3 / 2 * (vx * Real.sin s.psi)), ?_, rfl,
    ?_, ?_, ?_, ?_, ?_⟩
  · simp only [axesLimits, hs, hv]
  · obtain ⟨b1, b2⟩ := clipShift_bounds (3 / 2 * (vx * Real.cos s.psi))
    obtain ⟨b3, b4⟩ := clipShift_bounds (3 / 2 * (vx * Real.sin s.psi))
    refine ⟨?_, ?_, ?_, ?_⟩ <;> dsimp only <;> linarith
  · rw [add_sub_cancel_left]; exact sgn _
  · rw [add_sub_cancel_left]; exact sgn _
  · intro h; rw [clipShift_small _ h]
  · intro h; rw [clipShift_small _ h]

/-- **C104 is false for differential drives**, whose states have no `vx`: following one raises. -/
theorem C104_false_robot (players : Dict N Seen) (n : N) (s : Seen) (hs : Dict.get? players n = some s)
    (hv : s.vx = none) : axesLimits (.follow n) players = .error .attribute := by
  simp only [axesLimits, hs, hv]

/-- **C104 is false for unknown names**: the code means to fall back to matplotlib's limits, but catches another
exception than the one that is raised. -/
theorem C104_false_unknown (players : Dict N Seen) (n : N) (hs : Dict.get? players n = none) :
    axesLimits (.follow n) players = .error .key := by
  simp only [axesLimits, hs]

/-- **C104.** Limits that are given are the rectangle in view. -/
theorem C104_fixed (players : Dict N Seen) (x0 x1 y0 y1 : ℝ) :
    ∃ lim, axesLimits (.fixed x0 x1 y0 y1) players = .ok lim ∧
      ∀ p, Inside lim 0 p ↔ (x0 ≤ p.1 ∧ p.1 ≤ x1) ∧ y0 ≤ p.2 ∧ p.2 ≤ y1 :=
  ⟨_, rfl, fun p => by simp [Inside, and_assoc]⟩

example : ∃ lim, axesLimits (.auto : PlotLimits Nat) [(1, ⟨0, 0, 0, none⟩), (2, ⟨30, -5, 1, some 3⟩)] = .ok lim ∧
    Inside lim 15 (30, -5) := by
  obtain ⟨lim, h, hall, -⟩ := C104_auto [(1, (⟨0, 0, 0, none⟩ : Seen)), (2, ⟨30, -5, 1, some 3⟩)] (by simp)
  exact ⟨lim, h, hall (2, ⟨30, -5, 1, some 3⟩) (by simp)⟩

/-- A player at 10 m/s along the first axis is 15 m behind the middle of the view. -/
example : axesLimits (.follow 2) [(1, (⟨0, 0, 0, none⟩ : Seen)), (2, ⟨30, -5, 0, some 10⟩)] =
    .ok ((10, 80), (-40, 30)) := by
  obtain ⟨lim, cx, cy, h, e, -, -, -, h1, h2⟩ :=
    C104_follow_partial [(1, (⟨0, 0, 0, none⟩ : Seen)), (2, ⟨30, -5, 0, some 10⟩)] 2 ⟨30, -5, 0, some 10⟩ 10 rfl rfl
  have e1 := h1 (by norm_num [abs_le])
  have e2 := h2 (by norm_num [abs_le])
  rw [h, e, e1, e2]
  norm_num

example : axesLimits (.follow 1) [(1, (⟨0, 0, 0, none⟩ : Seen))] = .error .attribute :=
  C104_false_robot _ 1 ⟨0, 0, 0, none⟩ rfl rfl

/-! ## Frames -/

/-- **C105.** The frames of a run that begins at 0 and lasts for `T`, with a step of `dt` milliseconds, are at
even times within the run: the first at 0, the k-th at k steps, all but the last step of the run is covered and
nothing beyond it. -/
theorem C105_frames_partial (T dt : ℝ) (hT : 0 < T) (hdt : 0 < dt) :
    ∃ n, frameCount 0 T dt = .ok n ∧ (frameTimes n dt).length = n ∧
      (∀ k < n, (frameTimes n dt)[k]? = some (k * frameStep dt)) ∧
      (∀ t ∈ frameTimes n dt, 0 ≤ t ∧ t + frameStep dt ≤ T) ∧ T < n * frameStep dt + frameStep dt ∧
      frameStep dt ≤ 1 := by
  have hs : 0 < frameStep dt := by
    unfold frameStep
    have : 0 < min (1000 : ℝ) dt := lt_min (by norm_num) hdt
    positivity
  have hn : 0 ≤ ⌊T / frameStep dt⌋ := Int.floor_nonneg.mpr (div_nonneg hT.le hs.le)
  have hcast : ((⌊T / frameStep dt⌋.toNat : ℕ) : ℝ) = (⌊T / frameStep dt⌋ : ℝ) := by
    have : ((⌊T / frameStep dt⌋.toNat : ℕ) : ℤ) = ⌊T / frameStep dt⌋ := Int.toNat_of_nonneg hn
    exact_mod_cast this
  have h1 : (⌊T / frameStep dt⌋ : ℝ) * frameStep dt ≤ T := by
    have := Int.floor_le (T / frameStep dt)
    rwa [le_div_iff₀ hs] at this
  have h2 : T < (⌊T / frameStep dt⌋ : ℝ) * frameStep dt + frameStep dt := by
    have := Int.lt_floor_add_one (T / frameStep dt)
    rw [div_lt_iff₀ hs] at this
    linarith
  refine ⟨⌊T / frameStep dt⌋.toNat, ?_, ?_, ?_, ?_, ?_, ?_⟩
  · unfold frameCount
    rw [if_neg (by simpa using hT), if_neg hs.ne', sub_zero]
  · simp [frameTimes]
  · intro k hk
    have e : (k : ℝ) * min 1000 dt / 1000 = k * frameStep dt := by unfold frameStep; ring
    rw [← e, frameTimes, List.getElem?_map, List.getElem?_range hk]
    rfl
  · intro t ht
    obtain ⟨k, hk, rfl⟩ := List.mem_map.mp ht
    have hk := List.mem_range.mp hk
    have hk' : (k : ℝ) + 1 ≤ (⌊T / frameStep dt⌋ : ℝ) := by rw [← hcast]; exact_mod_cast hk
    have e : (k : ℝ) * min 1000 dt / 1000 = k * frameStep dt := by unfold frameStep; ring
    rw [e]
    refine ⟨by positivity, ?_⟩
    nlinarith
  · rw [hcast]; exact h2
  · unfold frameStep
    have := min_le_left (1000 : ℝ) dt
    linarith

/-- **C105.** The state at the end of the run is in no frame. -/
theorem C105_false_end (T dt : ℝ) (hT : 0 < T) (hdt : 0 < dt) (n : Nat) (h : frameCount 0 T dt = .ok n) :
    ∀ t ∈ frameTimes n dt, t < T := by
  obtain ⟨n', h', -, -, h1, -, -⟩ := C105_frames_partial T dt hT hdt
  rw [h, Except.ok.injEq] at h'
  subst h'
  intro t ht
  have hs : 0 < frameStep dt := by
    unfold frameStep
    have : 0 < min (1000 : ℝ) dt := lt_min (by norm_num) hdt
    positivity
  linarith [(h1 t ht).2]

/-- **C105.** The film is never slower than the run, and it runs at the speed of the run if and only if a whole
number of frames fits into a second. -/
theorem C105_speed (dt : ℝ) (hdt : 0 < dt) :
    1 ≤ fps dt ∧ 1 / (fps dt : ℝ) ≤ frameStep dt ∧
      (1 / (fps dt : ℝ) = frameStep dt ↔ ∃ k : ℤ, (k : ℝ) * frameStep dt = 1) := by
  have hm : 0 < min (1000 : ℝ) dt := lt_min (by norm_num) hdt
  have hs : 0 < frameStep dt := by unfold frameStep; positivity
  have e : 1000 / min (1000 : ℝ) dt = 1 / frameStep dt := by unfold frameStep; field_simp
  have h1 : 1 ≤ fps dt := by
    unfold fps
    rw [Int.one_le_ceil_iff, e]
    positivity
  have hp : (0 : ℝ) < fps dt := by exact_mod_cast (show (0 : ℤ) < fps dt by omega)
  have h2 : 1 / frameStep dt ≤ fps dt := by
    rw [← e]
    exact Int.le_ceil _
  refine ⟨h1, ?_, ?_, ?_⟩
  · rw [div_le_iff₀ hp]
    rw [div_le_iff₀ hs] at h2
    linarith
  · intro h
    refine ⟨fps dt, ?_⟩
    rw [← h]
    field_simp
  · rintro ⟨k, hk⟩
    have : fps dt = k := by
      unfold fps
      rw [e, ← hk, mul_div_cancel_right₀ _ hs.ne']
      exact Int.ceil_intCast k
    rw [this]
    have hk0 : (k : ℝ) ≠ 0 := by
      intro h0
      rw [h0, zero_mul] at hk
      norm_num at hk
    field_simp
    linarith

/-- **C105 is false for the default step** of 30 ms: 34 frames are shown per second, so that the film is two
percent faster than the run. -/
theorem C105_false_realtime : fps 30 = 34 ∧ frameStep 30 * fps 30 = 102 / 100 := by
  have h : fps 30 = 34 := by
    unfold fps
    rw [min_eq_right (by norm_num), Int.ceil_eq_iff]
    norm_num
  refine ⟨h, ?_⟩
  rw [h]
  unfold frameStep
  rw [min_eq_right (by norm_num)]
  norm_num

/-- **C105 is false for logs that begin later**: the first frame is at time 0, not where the log begins. -/
theorem C105_false_begin : ∃ n, frameCount 5 7 500 = .ok n ∧ ∀ t ∈ frameTimes n 500, t < 5 := by
  have hs : frameStep 500 = 1 / 2 := by unfold frameStep; norm_num
  refine ⟨4, ?_, ?_⟩
  · unfold frameCount
    rw [if_neg (by norm_num), hs, if_neg (by norm_num)]
    have : ⌊((7 : ℝ) - 5) / (1 / 2)⌋ = 4 := by rw [Int.floor_eq_iff]; norm_num
    rw [this]
    rfl
  · intro t ht
    obtain ⟨k, hk, rfl⟩ := List.mem_map.mp ht
    have hk := List.mem_range.mp hk
    have hk' : (k : ℝ) ≤ 3 := by exact_mod_cast (show k ≤ 3 by omega)
    rw [min_eq_right (by norm_num)]
    linarith

/-- Ten seconds at 100 ms: 100 frames, shown in ten seconds. -/
example : ∃ n, frameCount 0 10 100 = .ok n ∧ n = 100 ∧ fps 100 = 10 := by
  have hs : frameStep 100 = 1 / 10 := by unfold frameStep; norm_num
  obtain ⟨n, h, -, -, -, -, -⟩ := C105_frames_partial 10 100 (by norm_num) (by norm_num)
  refine ⟨n, h, ?_, ?_⟩
  · unfold frameCount at h
    rw [if_neg (by norm_num), hs, if_neg (by norm_num), Except.ok.injEq] at h
    rw [← h]
    have : ⌊((10 : ℝ) - 0) / (1 / 10)⌋ = 100 := by rw [Int.floor_eq_iff]; norm_num
    rw [this]
    rfl
  · unfold fps
    rw [min_eq_right (by norm_num), Int.ceil_eq_iff]
    norm_num

/-! ## Trajectories of agents -/

section Extra
variable {T : Type}

theorem get?_initExtra {e : Dict N (Option T)} (he : Dict.Wf e) (p : N) :
    Dict.get? (initExtra e) p = (Dict.get? e p).join := by
  induction e with
  | nil => rfl
  | cons a rest ih =>
    obtain ⟨q, o⟩ := a
    have hq : q ∉ Dict.keys rest := (List.nodup_cons.mp he).1
    have ih := ih (List.nodup_cons.mp he).2
    have hr := (Dict.get?_eq_none_iff rest q).mpr hq
    cases o with
    | none =>
      simp only [initExtra, Dict.get?]
      split
      · rename_i h; subst h; rw [ih, hr]; rfl
      · exact ih
    | some tr =>
      simp only [initExtra, Dict.get?]
      split
      · rfl
      · exact ih

theorem get?_updateExtra1 (d : Dict N T) (p q : N) (e : Option T) :
    Dict.get? (updateExtra1 d q e) p =
      if q = p then (Dict.get? d p).map fun (old : T) => e.getD old else Dict.get? d p := by
  unfold updateExtra1
  cases e with
  | none =>
    dsimp only
    split <;> simp
  | some tr =>
    dsimp only
    cases h : Dict.get? d q with
    | none =>
      dsimp only
      split
      · rename_i e; subst e; rw [h]; rfl
      · rfl
    | some old =>
      dsimp only
      rw [Dict.get?_set]
      by_cases hq : q = p
      · subst hq; simp [h]
      · simp [hq]

theorem get?_updateExtra {entry : Dict N (Option T)} (he : Dict.Wf entry) (d : Dict N T) (p : N) :
    Dict.get? (updateExtra d entry) p =
      (Dict.get? d p).map fun (old : T) => ((Dict.get? entry p).join).getD old := by
  unfold updateExtra
  induction entry generalizing d with
  | nil => simp [Dict.get?]
  | cons a rest ih =>
    obtain ⟨q, o⟩ := a
    have hq : q ∉ Dict.keys rest := (List.nodup_cons.mp he).1
    rw [List.foldl_cons, ih (List.nodup_cons.mp he).2, get?_updateExtra1]
    simp only [Dict.get?]
    by_cases h : q = p
    · subst h
      rw [if_pos rfl, if_pos rfl, (Dict.get?_eq_none_iff rest q).mpr hq]
      cases Dict.get? d q <;> simp
    · rw [if_neg h, if_neg h]

/-- What is shown after a number of frames. -/
def shown (first : Dict N (Option T)) (frames : List (Dict N (Option T))) : Dict N T :=
  frames.foldl updateExtra (initExtra first)

/-- **C106.** A player that has trajectories in the first entry of the log is shown with the trajectories of the
last frame that has some for it, and with those of the first entry until there are others. -/
theorem C106_latest_partial (first : Dict N (Option T)) (frames : List (Dict N (Option T))) (hf : Dict.Wf first)
    (hs : ∀ e ∈ frames, Dict.Wf e) (p : N) (tr : T) (h0 : Dict.get? first p = some (some tr)) :
    Dict.get? (shown first frames) p =
      some (((frames.reverse.filterMap fun (e : Dict N (Option T)) => (Dict.get? e p).join).head?).getD tr) := by
  induction frames using List.reverseRecOn with
  | nil => simp [shown, get?_initExtra hf, h0]
  | append_singleton frames e ih =>
    have ih := ih (fun e he => hs e (List.mem_append_left _ he))
    have : shown first (frames ++ [e]) = updateExtra (shown first frames) e := by
      simp [shown, List.foldl_append]
    rw [this, get?_updateExtra (hs e (by simp)), ih, List.reverse_append]
    cases h : (Dict.get? e p).join with
    | none => simp [h]
    | some t' => simp [h]

/-- **C106 is false for players without trajectories at first**: whatever their agents log later, it is never
shown. -/
theorem C106_false_late (first : Dict N (Option T)) (frames : List (Dict N (Option T))) (hf : Dict.Wf first)
    (hs : ∀ e ∈ frames, Dict.Wf e) (p : N) (h0 : Dict.get? first p = some none) :
    Dict.get? (shown first frames) p = none := by
  induction frames using List.reverseRecOn with
  | nil => simp [shown, get?_initExtra hf, h0]
  | append_singleton frames e ih =>
    have ih := ih (fun e he => hs e (List.mem_append_left _ he))
    have : shown first (frames ++ [e]) = updateExtra (shown first frames) e := by
      simp [shown, List.foldl_append]
    rw [this, get?_updateExtra (hs e (by simp)), ih]
    rfl

/-- Trajectories stay in view when the agent no longer has any: in the last frame below player 1 has none, and
those of the frame before are shown; those of player 2, which come later, are not. -/
example : Dict.get? (shown [(1, some "a"), (2, none)]
      [[(1, some "b"), (2, none)], [(1, none), (2, some "c")]]) 1 = some "b" ∧
    Dict.get? (shown [(1, some "a"), (2, none)]
      [[(1, some "b"), (2, none)], [(1, none), (2, some "c")]]) 2 = none := by
  have w : ∀ e ∈ [[(1, some "b"), (2, none)], [(1, none), (2, some "c")]], Dict.Wf e := by
    intro e he
    simp only [List.mem_cons, List.not_mem_nil, or_false] at he
    rcases he with rfl | rfl <;> simp [Dict.Wf, Dict.keys]
  refine ⟨?_, C106_false_late _ _ (by simp [Dict.Wf, Dict.keys]) w 2 rfl⟩
  rw [C106_latest_partial _ _ (by simp [Dict.Wf, Dict.keys]) w 1 "a" rfl]
  rfl

end Extra

end Viz
end Verif
