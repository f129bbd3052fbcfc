import Verif.Maps.ProfileProps
import Mathlib.Topology.Order.LocalExtr
import Mathlib.Topology.MetricSpace.Pseudo.Defs
import Mathlib.Topology.Instances.Real.Lemmas

/-!
# The place on a lane that belongs to a position (lanes.py:143-171, 312-319): model and C130

`scipy.optimize.minimize_scalar` is a parameter: a function of the squared distance and of the bracket. What is
assumed of its result is said in the theorems: it is a local minimum of the squared distance, exactly or up to a tolerance.
-/

namespace Verif
namespace Maps

open Mat3 Topology

/-- `get_delta` of `find_along_lane_closest_point`, lanes.py:146-150. A lane without control points raises; this is left to
the functions that use it. -/
noncomputable def delta (cps : List CtrPoint) (p : ℝ × ℝ) (beta : ℝ) : ℝ :=
  match centerPoint cps beta with
  | .ok q => norm2 (p.1 - q.a02) (p.2 - q.a12) ^ 2
  | .error _ => 0

/-- `get_delta` of `find_along_lane_closest_point_fast`, lanes.py:161-165. -/
noncomputable def deltaFast (cps : List CtrPoint) (p : ℝ × ℝ) (beta : ℝ) : ℝ :=
  match centerFast cps beta with
  | .ok q => norm2 (p.1 - q.x) (p.2 - q.y) ^ 2
  | .error _ => 0

/-- `minimize_scalar(f, bracket=bracket, tol=tol).x`. -/
abbrev Search := (ℝ → ℝ) → ℝ × ℝ → ℝ

/-- `find_along_lane_closest_point`, lanes.py:143-156. -/
noncomputable def findClosest (search : Search) (cps : List CtrPoint) (p : ℝ × ℝ) (bracket : Option (ℝ × ℝ)) :
    Except Err (ℝ × Mat3 ℝ) :=
  let beta := search (delta cps p) (bracket.getD (-1, cps.length))
  match centerPoint cps beta with
  | .error e => .error e
  | .ok q => .ok (beta, q)

/-- `find_along_lane_closest_point_fast`, lanes.py:158-171. -/
noncomputable def findClosestFast (search : Search) (cps : List CtrPoint) (p : ℝ × ℝ) (bracket : Option (ℝ × ℝ)) :
    Except Err (ℝ × Mat3 ℝ) :=
  let beta := search (deltaFast cps p) (bracket.getD (0, (cps.length : ℝ) - 1))
  match centerFast cps beta with
  | .error e => .error e
  | .ok q => .ok (beta, q.asSE2)

/-- `along_lane_from_T2value`, lanes.py:312-319. -/
noncomputable def alongOfPoint (search : Search) (cps : List CtrPoint) (p : ℝ × ℝ) (bracket : Option (ℝ × ℝ))
    (fast : Bool) : Except Err ℝ :=
  match if fast then findClosestFast search cps p bracket else findClosest search cps p bracket with
  | .error e => .error e
  | .ok (beta, _) => alongFromBeta (laneLengths cps) cps.length beta

/-- The progress that `lane_pose_from_SE2_generic` and `is_inside_from_T2value` use (lanes.py:134, 306). -/
noncomputable def closestBy (search : Search) (cps : List CtrPoint) (p : ℝ × ℝ) : ℝ :=
  search (delta cps p) (-1, cps.length)

/-! ## Specification -/

/-- Specification: a straight lane. The control points have the heading `θ` and lie, in order, on the line through
`(x0, y0)` in this direction, the first one in `(x0, y0)`; `s` are their distances to it. -/
structure Straight (cps : List CtrPoint) (x0 y0 θ : ℝ) (s : List ℝ) : Prop where
  points : cps.map (·.q) = s.map fun u => ⟨x0 + u * Real.cos θ, y0 + u * Real.sin θ, θ⟩
  first : s.head? = some 0
  order : s.Pairwise (· < ·)

/-- Specification: how far a position is along the line of the lane. -/
noncomputable def lonOf (x0 y0 θ : ℝ) (p : ℝ × ℝ) : ℝ := (p.1 - x0) * Real.cos θ + (p.2 - y0) * Real.sin θ

/-- Specification: how far a position is to the left of the line of the lane. -/
noncomputable def latOf (x0 y0 θ : ℝ) (p : ℝ × ℝ) : ℝ := (p.2 - y0) * Real.cos θ - (p.1 - x0) * Real.sin θ

/-- Specification: what is reported as the position along a lane of length `l` for a position `lon` along its line: ten times
the distance to the lane beyond its ends. -/
noncomputable def stretched (l lon : ℝ) : ℝ := if lon < 0 then 10 * lon else if lon ≤ l then lon else l + 10 * (lon - l)

/-! ## Straight lanes -/

theorem interp_parallel (x y x' y' θ a : ℝ) :
    interpSE2 (Transform.asSE2 ⟨x, y, θ⟩) (Transform.asSE2 ⟨x', y', θ⟩) a =
      Transform.asSE2 ⟨x + a * (x' - x), y + a * (y' - y), θ⟩ := by
  have hcs := Real.cos_sq_add_sin_sq θ
  have hrel : (Transform.asSE2 ⟨x, y, θ⟩).cof.mul (Transform.asSE2 ⟨x', y', θ⟩) =
      rigid 1 0 (Real.cos θ * (x' - x) + Real.sin θ * (y' - y)) (Real.cos θ * (y' - y) - Real.sin θ * (x' - x)) := by
    simp only [Transform.asSE2]
    rw [rigid_cof _ _ _ _ hcs]
    simp only [rigid, Mat3.mul, Mat3.mk.injEq]
    refine ⟨?_, ?_, ?_, ?_, ?_, ?_, ?_, ?_, ?_⟩ <;> first | ring1 | linear_combination hcs
  have h0 : atan2 (0 : ℝ) 1 = 0 := by
    have := atan2_cos_sin 0 (by linarith [Real.pi_pos]) Real.pi_pos.le
    simpa using this
  unfold interpSE2
  rw [hrel, log_of_zero _ _ _ _ h0, exp_of_zero _ (by simp [Twist.smul])]
  simp only [Twist.smul, Transform.asSE2, rigid, Mat3.mul, Mat3.mk.injEq]
  refine ⟨?_, ?_, ?_, ?_, ?_, ?_, ?_, ?_, ?_⟩ <;> first | ring1 | skip
  · linear_combination a * (x' - x) * hcs
  · linear_combination a * (y' - y) * hcs

theorem dist_parallel (x y θ u v : ℝ) (h : u ≤ v) :
    distSE2 (Transform.asSE2 ⟨x + u * Real.cos θ, y + u * Real.sin θ, θ⟩)
      (Transform.asSE2 ⟨x + v * Real.cos θ, y + v * Real.sin θ, θ⟩) = v - u := by
  rw [(C56_distance (Transform.asSE2 ⟨x + u * Real.cos θ, y + u * Real.sin θ, θ⟩)
    (Transform.asSE2 ⟨x + v * Real.cos θ, y + v * Real.sin θ, θ⟩) (asSE2_rigid _) (asSE2_rigid _)).2.2.2.2 rfl rfl]
  simp only [normBetween, Transform.asSE2, rigid, norm2]
  have : (x + u * Real.cos θ - (x + v * Real.cos θ)) ^ 2 + (y + u * Real.sin θ - (y + v * Real.sin θ)) ^ 2 = (v - u) ^ 2 := by
    have := Real.cos_sq_add_sin_sq θ
    linear_combination (v - u) ^ 2 * this
  rw [this, Real.sqrt_sq (by linarith)]

/-- The position along the line of the center point with progress `b`, for a position `a` along the lane. -/
noncomputable def shrunk (l a : ℝ) : ℝ := if a < 0 then a / 10 else if a ≤ l then a else l + (a - l) / 10

theorem shrunk_strict (l : ℝ) (hl : 0 ≤ l) : StrictMono (shrunk l) := by
  intro a b hab
  unfold shrunk
  split_ifs <;> linarith

theorem shrunk_stretched (l x : ℝ) (hl : 0 ≤ l) : shrunk l (stretched l x) = x := by
  unfold shrunk stretched
  split_ifs <;> linarith

/-- The position along the lane takes all values. -/
theorem along_surj (lengths : List ℝ) (hpos : ∀ l ∈ lengths, 0 < l) (g : ℝ → ℝ) (hg : IsAlong lengths g) (a : ℝ) :
    ∃ b, g b = a := by
  rcases lt_or_ge a 0 with h | h
  · exact ⟨a, hg.before a h.le⟩
  · rcases lt_or_ge a lengths.sum with h' | h'
    · obtain ⟨i, l, hl, h1, h2⟩ := exists_segment lengths a h h'
      have hp := hpos l (List.mem_of_getElem? hl)
      rw [pre_succ lengths i l hl] at h2
      refine ⟨i + (a - pre lengths i) / l, ?_⟩
      have e1 : 0 ≤ (a - pre lengths i) / l := div_nonneg (by linarith) hp.le
      have e2 : (a - pre lengths i) / l ≤ 1 := by rw [div_le_one hp]; linarith
      rw [hg.seg i l hl _ (by linarith) (by linarith)]
      unfold pre
      unfold pre at e1 e2
      field_simp
      ring
    · refine ⟨lengths.length + (a - lengths.sum), ?_⟩
      rw [hg.after _ (by linarith)]
      ring

section
variable {cps : List CtrPoint} {x0 y0 θ : ℝ} {s : List ℝ}

theorem Straight.get (h : Straight cps x0 y0 θ s) (i : Nat) (c : CtrPoint) (hc : cps[i]? = some c) :
    ∃ u, s[i]? = some u ∧ c.q = ⟨x0 + u * Real.cos θ, y0 + u * Real.sin θ, θ⟩ := by
  have := congrArg (·[i]?) h.points
  simp only [List.getElem?_map, hc, Option.map_some] at this
  cases hs : s[i]? with
  | none => rw [hs] at this; simp at this
  | some u =>
    rw [hs] at this
    simp only [Option.map_some, Option.some.injEq] at this
    exact ⟨u, rfl, this⟩

theorem Straight.length (h : Straight cps x0 y0 θ s) : cps.length = s.length := by
  simpa using congrArg List.length h.points

theorem Straight.ne (h : Straight cps x0 y0 θ s) : cps ≠ [] := by
  intro h0
  have := h.length
  have h1 := h.first
  cases s with
  | nil => simp at h1
  | cons a t => rw [h0] at this; simp at this

theorem Straight.lt (h : Straight cps x0 y0 θ s) {i j : Nat} {u v : ℝ} (hij : i < j) (hu : s[i]? = some u)
    (hv : s[j]? = some v) : u < v := by
  obtain ⟨hi, rfl⟩ := List.getElem?_eq_some_iff.mp hu
  obtain ⟨hj, rfl⟩ := List.getElem?_eq_some_iff.mp hv
  exact List.pairwise_iff_getElem.mp h.order i j hi hj hij

theorem Straight.lengths (h : Straight cps x0 y0 θ s) (i : Nat) (l : ℝ) (hl : (laneLengths cps)[i]? = some l) :
    ∃ u v, s[i]? = some u ∧ s[i + 1]? = some v ∧ l = v - u ∧ 0 < l := by
  have hi : i < cps.length - 1 := by
    rw [← laneLengths_length]; exact (List.getElem?_eq_some_iff.mp hl).1
  have hc : cps[i]? = some cps[i] := List.getElem?_eq_getElem (by omega)
  have hd : cps[i + 1]? = some cps[i + 1] := List.getElem?_eq_getElem (by omega)
  obtain ⟨u, hu, eu⟩ := h.get i _ hc
  obtain ⟨v, hv, ev⟩ := h.get (i + 1) _ hd
  have huv := h.lt (Nat.lt_succ_self i) hu hv
  have := laneLengths_get cps i _ _ hc hd
  rw [hl, eu, ev, dist_parallel _ _ _ _ _ huv.le] at this
  injection this with this
  exact ⟨u, v, hu, hv, this, by rw [this]; linarith⟩

theorem Straight.pos (h : Straight cps x0 y0 θ s) : ∀ l ∈ laneLengths cps, 0 < l := by
  intro l hl
  obtain ⟨i, hi⟩ := List.mem_iff_getElem?.mp hl
  obtain ⟨-, -, -, -, -, hp⟩ := h.lengths i l hi
  exact hp

theorem Straight.pre (h : Straight cps x0 y0 θ s) (i : Nat) (u : ℝ) (hu : s[i]? = some u) :
    pre (laneLengths cps) i = u := by
  induction i generalizing u with
  | zero =>
    have := h.first
    rw [List.head?_eq_getElem?, hu] at this
    injection this with this
    rw [pre_zero, this]
  | succ i ih =>
    have hi : i + 1 < s.length := (List.getElem?_eq_some_iff.mp hu).1
    have hl : i < (laneLengths cps).length := by rw [laneLengths_length, h.length]; omega
    obtain ⟨a, b, ha, hb, e, -⟩ := h.lengths i _ (List.getElem?_eq_getElem hl)
    rw [hu] at hb
    injection hb with hb
    rw [pre_succ _ i _ (List.getElem?_eq_getElem hl), ih a ha, e, hb]
    ring

theorem Straight.last (h : Straight cps x0 y0 θ s) (c : CtrPoint) (hc : cps.getLast? = some c) :
    c.q = ⟨x0 + laneLength cps * Real.cos θ, y0 + laneLength cps * Real.sin θ, θ⟩ := by
  rw [List.getLast?_eq_getElem?] at hc
  obtain ⟨u, hu, e⟩ := h.get _ c hc
  have := h.pre _ u hu
  rw [show cps.length - 1 = (laneLengths cps).length by rw [laneLengths_length], pre_len] at this
  rw [e, ← this]
  rfl

/-- The center line of a straight lane. -/
theorem Straight.center (h : Straight cps x0 y0 θ s) (g : ℝ → ℝ) (hg : IsAlong (laneLengths cps) g) (b : ℝ) :
    centerPoint cps b = .ok (Transform.asSE2 ⟨x0 + shrunk (laneLength cps) (g b) * Real.cos θ,
      y0 + shrunk (laneLength cps) (g b) * Real.sin θ, θ⟩) ∧
    ∃ f, centerFast cps b = .ok f ∧ f.x = x0 + shrunk (laneLength cps) (g b) * Real.cos θ ∧
      f.y = y0 + shrunk (laneLength cps) (g b) * Real.sin θ := by
  obtain ⟨f, hf, hc⟩ := C55_center cps h.ne
  obtain ⟨f', hc', -, hseg, hbef, haft⟩ := C55_fast cps h.ne
  have hL : 0 ≤ laneLength cps := List.sum_nonneg (laneLengths_nonneg cps)
  obtain ⟨⟨c, hc0⟩, ⟨cl, hcl⟩⟩ := head_last cps h.ne
  have hh : cps.head? = some c := by rw [List.head?_eq_getElem?]; exact hc0
  have hmul : ∀ (x y r : ℝ), (Transform.asSE2 ⟨x, y, θ⟩).mul (rigid 1 0 r 0) =
      Transform.asSE2 ⟨x + r * Real.cos θ, y + r * Real.sin θ, θ⟩ := by
    intro x y r
    simp only [Transform.asSE2, rigid, Mat3.mul, Mat3.mk.injEq]
    refine ⟨?_, ?_, ?_, ?_, ?_, ?_, ?_, ?_, ?_⟩ <;> ring
  have hlen : (laneLengths cps).length + 1 = cps.length := len_eq h.ne
  have hlK : ((laneLengths cps).length : ℝ) = (cps.length : ℝ) - 1 := by
    rw [← hlen]; push_cast; ring
  rw [hc b, hc' b]
  suffices hk : f b = Transform.asSE2 ⟨x0 + shrunk (laneLength cps) (g b) * Real.cos θ,
      y0 + shrunk (laneLength cps) (g b) * Real.sin θ, θ⟩ ∧ (f' b).x = x0 + shrunk (laneLength cps) (g b) * Real.cos θ ∧
      (f' b).y = y0 + shrunk (laneLength cps) (g b) * Real.sin θ by
    exact ⟨by rw [hk.1], f' b, rfl, hk.2⟩
  rcases lt_or_ge b 0 with hb | hb
  · obtain ⟨u, hu, e⟩ := h.get 0 c hc0
    have hu0 : u = 0 := by
      have := h.first
      rw [List.head?_eq_getElem?, hu] at this
      injection this
    subst hu0
    have hs : shrunk (laneLength cps) (g b) = b / 10 := by
      rw [hg.before b hb.le]; unfold shrunk; rw [if_pos hb]
    rw [hs]
    refine ⟨?_, ?_, ?_⟩
    · rw [hf.before c hh b hb.le, e, hmul]
      simp
    · rw [(hbef c hh b hb.le).1, e]; simp
    · rw [(hbef c hh b hb.le).2, e]; simp
  · rcases lt_or_ge b ((laneLengths cps).length : ℝ) with hb' | hb'
    · obtain ⟨i, l, hl, h1, h2, eg, e1, e2⟩ := hg.bounds h.pos b hb hb'
      obtain ⟨u, v, hu, hv, elv, hlp⟩ := h.lengths i l hl
      have hi : i + 1 < cps.length := by
        have := (List.getElem?_eq_some_iff.mp hl).1
        omega
      have k1 : cps[i]? = some cps[i] := List.getElem?_eq_getElem (by omega)
      have k2 : cps[i + 1]? = some cps[i + 1] := List.getElem?_eq_getElem hi
      obtain ⟨u', hu', eu⟩ := h.get i _ k1
      obtain ⟨v', hv', ev⟩ := h.get (i + 1) _ k2
      rw [hu] at hu'; injection hu' with hu'; subst hu'
      rw [hv] at hv'; injection hv' with hv'; subst hv'
      rw [h.pre i u hu] at eg e1
      have hge : 0 ≤ g b := by
        have := (pre_mono (laneLengths cps) (laneLengths_nonneg cps) (Nat.zero_le i))
        rw [pre_zero, h.pre i u hu] at this
        linarith
      have hgL : g b ≤ laneLength cps := by
        have hil : i + 1 ≤ (laneLengths cps).length := by omega
        have := pre_mono (laneLengths cps) (laneLengths_nonneg cps) hil
        rw [pre_len] at this
        unfold laneLength
        linarith
      have hs : shrunk (laneLength cps) (g b) = u + (b - i) * (v - u) := by
        unfold shrunk
        rw [if_neg (by linarith), if_pos hgL, eg, elv]
        ring
      have hbi : (i : ℝ) + (b - i) = b := by ring
      have g1 := hf.seg i _ _ k1 k2 (b - i) (by linarith) (by linarith)
      have g2 := hseg i _ _ k1 k2 (b - i) (by linarith) (by linarith)
      rw [hbi, eu, ev] at g1 g2
      rw [hs]
      refine ⟨?_, ?_, ?_⟩
      · rw [g1, interp_parallel]
        congr 2 <;> ring
      · rw [g2.1]; ring
      · rw [g2.2]; ring
    · have hbe : (cps.length : ℝ) - 1 + (b - ((cps.length : ℝ) - 1)) = b := by ring
      have g1 := hf.after cl hcl (b - ((cps.length : ℝ) - 1)) (by linarith)
      have g2 := haft cl hcl (b - ((cps.length : ℝ) - 1)) (by linarith)
      rw [hbe, h.last cl hcl] at g1 g2
      have hs : shrunk (laneLength cps) (g b) = laneLength cps + (b - ((cps.length : ℝ) - 1)) / 10 := by
        rw [hg.after b hb']
        unfold shrunk laneLength
        have : 0 ≤ (laneLengths cps).sum := hL
        split_ifs with h1 h2
        · linarith
        · have : b = (laneLengths cps).length := by linarith
          rw [this, hlK]; ring
        · rw [hlK]; ring
      rw [hs]
      refine ⟨?_, ?_, ?_⟩
      · rw [g1, hmul]
        congr 2 <;> ring
      · rw [g2.1]; ring
      · rw [g2.2]; ring

theorem dist_line (x0 y0 θ : ℝ) (p : ℝ × ℝ) (u : ℝ) :
    norm2 (p.1 - (x0 + u * Real.cos θ)) (p.2 - (y0 + u * Real.sin θ)) ^ 2 =
      (u - lonOf x0 y0 θ p) ^ 2 + latOf x0 y0 θ p ^ 2 := by
  rw [norm2_sq]
  unfold lonOf latOf
  have := Real.cos_sq_add_sin_sq θ
  linear_combination (u ^ 2 - (p.1 - x0) ^ 2 - (p.2 - y0) ^ 2) * this

theorem Straight.delta (h : Straight cps x0 y0 θ s) (g : ℝ → ℝ) (hg : IsAlong (laneLengths cps) g) (p : ℝ × ℝ) (b : ℝ) :
    delta cps p b = (shrunk (laneLength cps) (g b) - lonOf x0 y0 θ p) ^ 2 + latOf x0 y0 θ p ^ 2 ∧
    deltaFast cps p b = (shrunk (laneLength cps) (g b) - lonOf x0 y0 θ p) ^ 2 + latOf x0 y0 θ p ^ 2 := by
  obtain ⟨h1, f, h2, h3, h4⟩ := h.center g hg b
  unfold Maps.delta deltaFast
  rw [h1, h2]
  simp only [h3, h4]
  refine ⟨?_, dist_line x0 y0 θ p _⟩
  rw [← dist_line x0 y0 θ p]
  rfl

/-- A function `(σ - x)² + y²` with `σ` strictly increasing has a local minimum only where `σ` is `x`, if it takes this value. -/
theorem local_min_unique {σ : ℝ → ℝ} (hσ : StrictMono σ) (x y t b : ℝ) (ht : σ t = x)
    (hb : IsLocalMin (fun u => (σ u - x) ^ 2 + y ^ 2) b) : b = t := by
  rcases lt_trichotomy b t with h | h | h
  · exfalso
    have hev := hb.filter_mono (nhdsWithin_le_nhds (s := Set.Ioi b))
    obtain ⟨u, hu1, hu2⟩ := ((hev.and (Ioo_mem_nhdsGT h))).exists
    have e1 := hσ hu2.1
    have e2 := hσ hu2.2
    rw [ht] at e2
    simp only at hu1
    nlinarith
  · exact h
  · exfalso
    have hev := hb.filter_mono (nhdsWithin_le_nhds (s := Set.Iio b))
    obtain ⟨u, hu1, hu2⟩ := ((hev.and (Ioo_mem_nhdsLT h))).exists
    have e1 := hσ hu2.2
    have e2 := hσ hu2.1
    rw [ht] at e2
    simp only at hu1
    nlinarith

theorem Straight.along (h : Straight cps x0 y0 θ s) (p : ℝ × ℝ) (b : ℝ)
    (hb : IsLocalMin (Maps.delta cps p) b ∨ IsLocalMin (deltaFast cps p) b) :
    ∃ g, IsAlong (laneLengths cps) g ∧ (∀ b, alongFromBeta (laneLengths cps) cps.length b = .ok (g b)) ∧
      g b = stretched (laneLength cps) (lonOf x0 y0 θ p) ∧ shrunk (laneLength cps) (g b) = lonOf x0 y0 θ p := by
  obtain ⟨g, hg, he⟩ := C53_along (laneLengths cps)
  rw [len_eq h.ne] at he
  have hL : 0 ≤ laneLength cps := List.sum_nonneg (laneLengths_nonneg cps)
  obtain ⟨t, ht⟩ := along_surj _ h.pos g hg (stretched (laneLength cps) (lonOf x0 y0 θ p))
  have hmono : StrictMono fun b => shrunk (laneLength cps) (g b) :=
    (shrunk_strict _ hL).comp (C53_along_strict _ h.pos g hg)
  have hts : shrunk (laneLength cps) (g t) = lonOf x0 y0 θ p := by rw [ht, shrunk_stretched _ _ hL]
  have hbt : b = t := by
    rcases hb with hb | hb
    · rw [show Maps.delta cps p = _ from funext fun b => (h.delta g hg p b).1] at hb
      exact local_min_unique hmono _ _ t b hts hb
    · rw [show deltaFast cps p = _ from funext fun b => (h.delta g hg p b).2] at hb
      exact local_min_unique hmono _ _ t b hts hb
  rw [hbt]
  exact ⟨g, hg, he, ht, hts⟩

/-- **C130.** On a straight lane the place found for a position is the nearest point of the center line, continued beyond its
ends, if the search returns any local minimum of the distance; the position along the lane is the distance to its beginning,
except that beyond the ends of the lane ten metres are counted for each. -/
theorem C130_straight_partial (h : Straight cps x0 y0 θ s) (search : Search) (p : ℝ × ℝ) (bracket : Option (ℝ × ℝ)) :
    (IsLocalMin (Maps.delta cps p) (search (Maps.delta cps p) (bracket.getD (-1, cps.length))) →
      ∃ b q, findClosest search cps p bracket = .ok (b, q) ∧
        q = Transform.asSE2 ⟨x0 + lonOf x0 y0 θ p * Real.cos θ, y0 + lonOf x0 y0 θ p * Real.sin θ, θ⟩ ∧
        (∀ b' q', centerPoint cps b' = .ok q' →
          norm2 (p.1 - q.a02) (p.2 - q.a12) ≤ norm2 (p.1 - q'.a02) (p.2 - q'.a12)) ∧
        norm2 (p.1 - q.a02) (p.2 - q.a12) = |latOf x0 y0 θ p| ∧
        alongOfPoint search cps p bracket false = .ok (stretched (laneLength cps) (lonOf x0 y0 θ p))) ∧
    (IsLocalMin (deltaFast cps p) (search (deltaFast cps p) (bracket.getD (0, (cps.length : ℝ) - 1))) →
      ∃ b q, findClosestFast search cps p bracket = .ok (b, q) ∧
        q.a02 = x0 + lonOf x0 y0 θ p * Real.cos θ ∧ q.a12 = y0 + lonOf x0 y0 θ p * Real.sin θ ∧
        alongOfPoint search cps p bracket true = .ok (stretched (laneLength cps) (lonOf x0 y0 θ p))) := by
  constructor
  · intro hb
    set b := search (Maps.delta cps p) (bracket.getD (-1, cps.length)) with hbd
    obtain ⟨g, hg, he, e1, e2⟩ := h.along p b (Or.inl hb)
    have hc := (h.center g hg b).1
    rw [e2] at hc
    have hfind : findClosest search cps p bracket = .ok (b, Transform.asSE2
        ⟨x0 + lonOf x0 y0 θ p * Real.cos θ, y0 + lonOf x0 y0 θ p * Real.sin θ, θ⟩) := by
      unfold findClosest
      simp only [← hbd, hc]
    refine ⟨b, _, hfind, rfl, ?_, ?_, ?_⟩
    · intro b' q' hq'
      rw [(h.center g hg b').1] at hq'
      injection hq' with hq'
      subst hq'
      simp only [Transform.asSE2, rigid]
      rw [← sq_le_sq₀ (norm2_nonneg _ _) (norm2_nonneg _ _)]
      rw [dist_line, dist_line]
      nlinarith [sq_nonneg (shrunk (laneLength cps) (g b') - lonOf x0 y0 θ p)]
    · simp only [Transform.asSE2, rigid]
      rw [← abs_of_nonneg (norm2_nonneg _ _), ← sq_eq_sq_iff_abs_eq_abs, dist_line]
      ring
    · unfold alongOfPoint
      simp only [Bool.false_eq_true, if_false, hfind, he, e1]
  · intro hb
    set b := search (deltaFast cps p) (bracket.getD (0, (cps.length : ℝ) - 1)) with hbd
    obtain ⟨g, hg, he, e1, e2⟩ := h.along p b (Or.inr hb)
    obtain ⟨f, hc, h3, h4⟩ := (h.center g hg b).2
    rw [e2] at h3 h4
    have hfind : findClosestFast search cps p bracket = .ok (b, f.asSE2) := by
      unfold findClosestFast
      simp only [← hbd, hc]
    refine ⟨b, _, hfind, h3, h4, ?_⟩
    unfold alongOfPoint
    simp only [if_true, hfind, he, e1]

theorem Straight.pose (h : Straight cps x0 y0 θ s) (hr : ∀ c ∈ cps, 0 ≤ c.r) (closest : ℝ × ℝ → ℝ) (x y ψ : ℝ) (g : ℝ → ℝ)
    (hg : IsAlong (laneLengths cps) g) (he : ∀ b, alongFromBeta (laneLengths cps) cps.length b = .ok (g b)) :
    ∃ lp, lanePoseOf closest cps (rigid (Real.cos ψ) (Real.sin ψ) x y) = .ok lp ∧
      lp.lateral = latOf x0 y0 θ (x, y) ∧ lp.along = g (closest (x, y)) ∧
      Real.cos lp.relHeading = Real.cos (ψ - θ) ∧ Real.sin lp.relHeading = Real.sin (ψ - θ) := by
  have hc := (h.center g hg (closest (x, y))).1
  set u := shrunk (laneLength cps) (g (closest (x, y)))
  have hq : IsRigid (rigid (Real.cos ψ) (Real.sin ψ) x y) := ⟨_, _, _, _, Real.cos_sq_add_sin_sq ψ, rfl⟩
  obtain ⟨rel, hrel, -, hmul⟩ := (C56_relative _ _).2
    (asSE2_rigid ⟨x0 + u * Real.cos θ, y0 + u * Real.sin θ, θ⟩) hq
  have hcs := Real.cos_sq_add_sin_sq θ
  have hrel' : rel = rigid (Real.cos (ψ - θ)) (Real.sin (ψ - θ)) (lonOf x0 y0 θ (x, y) - u) (latOf x0 y0 θ (x, y)) := by
    have : rel = (Transform.asSE2 ⟨x0 + u * Real.cos θ, y0 + u * Real.sin θ, θ⟩).cof.mul
        (rigid (Real.cos ψ) (Real.sin ψ) x y) := by
      rw [← hmul, ← mul_assoc', cof_mul _ (asSE2_rigid _).det_ne, one_mul']
    rw [this]
    simp only [Transform.asSE2]
    rw [rigid_cof _ _ _ _ hcs]
    simp only [rigid, Mat3.mul, Mat3.mk.injEq, Real.cos_sub, Real.sin_sub, lonOf, latOf]
    refine ⟨?_, ?_, ?_, ?_, ?_, ?_, ?_, ?_, ?_⟩ <;> first | ring1 | skip
    · linear_combination (-u) * hcs
  obtain ⟨lp, r, b, h1, -, -, -, -, -, -, -, h2, h3, h4, -⟩ := C54_lane cps h.ne hr
    (g (closest (x, y))) (atan2 rel.a10 rel.a00) rel.a12
  refine ⟨lp, ?_, ?_, h2, ?_⟩
  · unfold lanePoseOf
    simp only [rigid] at hc hrel ⊢
    simp only [hc, he, hrel]
    exact h1
  · rw [h3, hrel']; rfl
  · rw [h4, hrel']
    simp only [rigid]
    have := atan2_spec (Real.cos (ψ - θ)) (Real.sin (ψ - θ)) (Real.cos_sq_add_sin_sq _)
    exact ⟨this.1, this.2.1⟩

/-- **C130.** The lane pose on a straight lane: the distance to the left of the center line and the heading relative to it. -/
theorem C130_pose_partial (h : Straight cps x0 y0 θ s) (hr : ∀ c ∈ cps, 0 ≤ c.r) (search : Search) (x y ψ : ℝ)
    (hmin : IsLocalMin (Maps.delta cps (x, y)) (search (Maps.delta cps (x, y)) (-1, cps.length))) :
    ∃ lp, lanePoseOf (closestBy search cps) cps (rigid (Real.cos ψ) (Real.sin ψ) x y) = .ok lp ∧
      lp.lateral = latOf x0 y0 θ (x, y) ∧ lp.along = stretched (laneLength cps) (lonOf x0 y0 θ (x, y)) ∧
      Real.cos lp.relHeading = Real.cos (ψ - θ) ∧ Real.sin lp.relHeading = Real.sin (ψ - θ) := by
  obtain ⟨g, hg, he, e1, -⟩ := h.along (x, y) _ (Or.inl hmin)
  obtain ⟨lp, h1, h2, h3, h4⟩ := h.pose hr (closestBy search cps) x y ψ g hg he
  exact ⟨lp, h1, h2, by rw [h3]; exact e1, h4⟩

/-- The position along a lane grows at most by the length of the longest segment per unit of progress. -/
theorem along_lipschitz (lengths : List ℝ) (hpos : ∀ l ∈ lengths, 0 < l) (g : ℝ → ℝ) (hg : IsAlong lengths g) (M : ℝ)
    (h1 : 1 ≤ M) (hM : ∀ l ∈ lengths, l ≤ M) (b c : ℝ) (hbc : b ≤ c) : g c - g b ≤ M * (c - b) := by
  have hpre : ∀ i j : Nat, i ≤ j → j ≤ lengths.length → pre lengths j - pre lengths i ≤ M * ((j : ℝ) - i) := by
    intro i j hij hj
    induction j, hij using Nat.le_induction with
    | base => simp
    | succ j hij ih =>
      have hl : lengths[j]? = some lengths[j] := List.getElem?_eq_getElem (by omega)
      rw [pre_succ _ j _ hl]
      have e1 := ih (by omega)
      have e2 := hM _ (List.mem_of_getElem? hl)
      push_cast
      linarith
  have hn0 : (0 : ℝ) ≤ lengths.length := Nat.cast_nonneg _
  -- from the beginning of the lane on
  have key : ∀ b c : ℝ, 0 ≤ b → b ≤ c → c ≤ lengths.length → g c - g b ≤ M * (c - b) := by
    intro b c hb hbc hc
    have hseg : ∀ b : ℝ, 0 ≤ b → b < lengths.length → ∃ (i : Nat) (l : ℝ), lengths[i]? = some l ∧ (i : ℝ) ≤ b ∧
        b < (i : ℝ) + 1 ∧ g b = pre lengths i + l * (b - i) ∧ 0 < l ∧ l ≤ M := by
      intro b h0 h1
      obtain ⟨i, l, hl, a1, a2, a3, -⟩ := hg.bounds hpos b h0 h1
      exact ⟨i, l, hl, a1, a2, a3, hpos l (List.mem_of_getElem? hl), hM l (List.mem_of_getElem? hl)⟩
    rcases lt_or_eq_of_le hc with hc | hc
    · obtain ⟨i, l, hl, i1, i2, ei, p1, p2⟩ := hseg b hb (by linarith)
      obtain ⟨j, l', hl', j1, j2, ej, p1', p2'⟩ := hseg c (by linarith) hc
      have hil := (List.getElem?_eq_some_iff.mp hl).1
      have hjl := (List.getElem?_eq_some_iff.mp hl').1
      have hij : i ≤ j := by
        have : (i : ℝ) < (j : ℝ) + 1 := by linarith
        have : i < j + 1 := by exact_mod_cast this
        omega
      rcases Nat.lt_or_ge i j with h | h
      · have e := hpre (i + 1) j h hjl.le
        rw [pre_succ _ i l hl] at e
        push_cast at e
        rw [ei, ej]
        nlinarith
      · obtain rfl : i = j := by omega
        rw [hl] at hl'
        injection hl' with hl'
        subst hl'
        rw [ei, ej]
        nlinarith
    · have eg : g c = lengths.sum := by rw [hg.after c hc.ge, hc]; ring
      rcases lt_or_ge b (lengths.length : ℝ) with hb' | hb'
      · obtain ⟨i, l, hl, i1, i2, ei, p1, p2⟩ := hseg b hb hb'
        have hil := (List.getElem?_eq_some_iff.mp hl).1
        have e := hpre (i + 1) lengths.length hil le_rfl
        rw [pre_succ _ i l hl, pre_len] at e
        push_cast at e
        rw [ei, eg, hc]
        nlinarith
      · rw [show b = c by linarith]; simp
  have g0 : g 0 = 0 := hg.before 0 le_rfl
  have gn : g lengths.length = lengths.sum := by rw [hg.after _ le_rfl]; ring
  rcases lt_or_ge b 0 with hb | hb
  · rw [hg.before b hb.le]
    rcases lt_or_ge c 0 with hc | hc
    · rw [hg.before c hc.le]; nlinarith
    · rcases lt_or_ge c (lengths.length : ℝ) with hc' | hc'
      · have := key 0 c le_rfl hc hc'.le
        rw [g0] at this; nlinarith
      · have := key 0 lengths.length le_rfl hn0 le_rfl
        rw [g0, gn] at this
        rw [hg.after c hc']; nlinarith
  · rcases lt_or_ge b (lengths.length : ℝ) with hb' | hb'
    · rcases lt_or_ge c (lengths.length : ℝ) with hc' | hc'
      · exact key b c hb hbc hc'.le
      · have := key b lengths.length hb hb'.le le_rfl
        rw [gn] at this
        rw [hg.after c hc']; nlinarith
    · rw [hg.after b hb', hg.after c (by linarith)]; nlinarith

/-- **C130.** A search that ends within a tolerance of a local minimum: the lateral position on a straight lane is still
exact, the position along the lane is off by at most the tolerance times the longest distance of control points (or times a
metre, if this is more). -/
theorem C130_tolerance_partial (h : Straight cps x0 y0 θ s) (hr : ∀ c ∈ cps, 0 ≤ c.r) (search : Search) (x y ψ b ε M : ℝ)
    (hmin : IsLocalMin (Maps.delta cps (x, y)) b) (hε : |closestBy search cps (x, y) - b| ≤ ε) (h1 : 1 ≤ M)
    (hM : ∀ l ∈ laneLengths cps, l ≤ M) :
    ∃ lp, lanePoseOf (closestBy search cps) cps (rigid (Real.cos ψ) (Real.sin ψ) x y) = .ok lp ∧
      lp.lateral = latOf x0 y0 θ (x, y) ∧
      |lp.along - stretched (laneLength cps) (lonOf x0 y0 θ (x, y))| ≤ M * ε := by
  obtain ⟨g, hg, he, e1, -⟩ := h.along (x, y) b (Or.inl hmin)
  obtain ⟨lp, k1, k2, k3, -⟩ := h.pose hr (closestBy search cps) x y ψ g hg he
  refine ⟨lp, k1, k2, ?_⟩
  rw [k3, ← e1]
  have hmono := (C53_along_strict _ h.pos g hg).monotone
  set c := closestBy search cps (x, y)
  rcases le_total b c with hbc | hbc
  · have := along_lipschitz _ h.pos g hg M h1 hM b c hbc
    rw [abs_of_nonneg (by linarith)] at hε
    rw [abs_of_nonneg (by linarith [hmono hbc])]
    nlinarith
  · have := along_lipschitz _ h.pos g hg M h1 hM c b hbc
    rw [abs_of_nonpos (by linarith)] at hε
    rw [abs_of_nonpos (by linarith [hmono hbc])]
    nlinarith

/-- **C130.** On a straight lane of constant width exactly the points between its beginning and its end that are at most half
the width beside the center line are inside. -/
theorem C130_inside_partial (h : Straight cps x0 y0 θ s) (ρ : ℝ) (hr : ∀ c ∈ cps, c.r = ρ) (search : Search) (p : ℝ × ℝ)
    (hmin : IsLocalMin (Maps.delta cps p) (search (Maps.delta cps p) (-1, cps.length))) :
    ∃ P : Prop, isInside (closestBy search cps) cps p = .ok P ∧
      (P ↔ 0 ≤ lonOf x0 y0 θ p ∧ lonOf x0 y0 θ p ≤ laneLength cps ∧ |latOf x0 y0 θ p| ≤ ρ) := by
  obtain ⟨g, hg, he, e1, e2⟩ := h.along p _ (Or.inl hmin)
  have e2' : shrunk (laneLength cps) (g (closestBy search cps p)) = lonOf x0 y0 θ p := e2
  have e1' : g (closestBy search cps p) = stretched (laneLength cps) (lonOf x0 y0 θ p) := e1
  have hL : 0 ≤ laneLength cps := List.sum_nonneg (laneLengths_nonneg cps)
  have hmono := C53_along_strict _ h.pos g hg
  obtain ⟨f, hc, h3, h4⟩ := (h.center g hg (closestBy search cps p)).2
  rw [e2'] at h3 h4
  obtain ⟨r, hrp, hre⟩ := C55_radius (cps.map (·.r)) (by simpa using h.ne)
  have hrb : r (closestBy search cps p) = ρ := by
    have := (C55_bounds _ r hrp).2 ρ ρ (by
      intro v hv
      obtain ⟨c, hc, rfl⟩ := List.mem_map.mp hv
      rw [hr c hc]; exact ⟨le_rfl, le_rfl⟩) (by simpa using h.ne) (closestBy search cps p)
    exact le_antisymm this.2 this.1
  have hlK : ((laneLengths cps).length : ℝ) = (cps.length : ℝ) - 1 := by
    rw [← len_eq h.ne]; push_cast; ring
  have g0 : g 0 = 0 := hg.before 0 le_rfl
  have gn : g ((cps.length : ℝ) - 1) = laneLength cps := by
    rw [← hlK, hg.after _ le_rfl]; unfold laneLength; ring
  have k0 : 0 ≤ closestBy search cps p ↔ 0 ≤ lonOf x0 y0 θ p := by
    rw [← hmono.le_iff_le, g0, e1']
    unfold stretched
    split_ifs <;> constructor <;> intro <;> linarith
  have kn : closestBy search cps p ≤ (cps.length : ℝ) - 1 ↔ lonOf x0 y0 θ p ≤ laneLength cps := by
    rw [← hmono.le_iff_le, gn, e1']
    unfold stretched
    split_ifs <;> constructor <;> intro <;> linarith
  have kd : norm2 (f.x - p.1) (f.y - p.2) = |latOf x0 y0 θ p| := by
    rw [← abs_of_nonneg (norm2_nonneg _ _), ← sq_eq_sq_iff_abs_eq_abs, h3, h4]
    have := dist_line x0 y0 θ p (lonOf x0 y0 θ p)
    rw [sub_self] at this
    rw [norm2_sq] at this ⊢
    linarith
  refine ⟨_, by unfold isInside; simp only [hre, hc]; rfl, ?_⟩
  rw [hrb, kd, k0, kn]
  tauto

end

/-- A step that is small enough in three ways and gains more than it loses. -/
theorem small_step (r a b D V : ℝ) (hr : 0 < r) (ha : 0 < a) (hb : 0 < b) (hD : D ≠ 0) (hV : 0 ≤ V) :
    ∃ k : ℝ, 0 < k ∧ k * |D| < r ∧ k * |D| < a ∧ k * |D| < b ∧ k * V ≤ 1 := by
  have hDp : 0 < |D| := abs_pos.mpr hD
  set m := min r (min a b) with hm
  have hm0 : 0 < m := by positivity
  have m1 : m ≤ r := min_le_left _ _
  have m2 : m ≤ a := (min_le_right _ _).trans (min_le_left _ _)
  have m3 : m ≤ b := (min_le_right _ _).trans (min_le_right _ _)
  have hk1 : min (m / (2 * |D|)) (1 / (V + 1)) * |D| < m := by
    have h1 := mul_le_mul_of_nonneg_right (min_le_left (m / (2 * |D|)) (1 / (V + 1))) hDp.le
    have e : m / (2 * |D|) * |D| = m / 2 := by field_simp
    linarith
  refine ⟨min (m / (2 * |D|)) (1 / (V + 1)), by positivity, by linarith, by linarith, by linarith, ?_⟩
  have h1 := mul_le_mul_of_nonneg_right (min_le_right (m / (2 * |D|)) (1 / (V + 1))) hV
  have e : 1 / (V + 1) * V ≤ 1 := by rw [div_mul_eq_mul_div, div_le_one (by linarith)]; linarith
  linarith

/-- **C130.** On any lane: if the fast search ends strictly between two control points in a local minimum, the position lies
beside the point found, at a right angle to the line between these control points; no other point of this line is nearer. -/
theorem C130_perpendicular (cps : List CtrPoint) (p : ℝ × ℝ) (i : Nat) (c d : CtrPoint) (hc : cps[i]? = some c)
    (hd : cps[i + 1]? = some d) (a : ℝ) (h0 : 0 < a) (h1 : a < 1) (hmin : IsLocalMin (deltaFast cps p) ((i : ℝ) + a)) :
    (p.1 - (c.q.x + a * (d.q.x - c.q.x))) * (d.q.x - c.q.x) + (p.2 - (c.q.y + a * (d.q.y - c.q.y))) * (d.q.y - c.q.y) = 0 ∧
    ∀ u, norm2 (p.1 - (c.q.x + a * (d.q.x - c.q.x))) (p.2 - (c.q.y + a * (d.q.y - c.q.y))) ≤
      norm2 (p.1 - (c.q.x + u * (d.q.x - c.q.x))) (p.2 - (c.q.y + u * (d.q.y - c.q.y))) := by
  have hval : ∀ e, 0 ≤ e → e < 1 → deltaFast cps p ((i : ℝ) + e) =
      (p.1 - (c.q.x + e * (d.q.x - c.q.x))) ^ 2 + (p.2 - (c.q.y + e * (d.q.y - c.q.y))) ^ 2 := by
    intro e he0 he1
    unfold deltaFast
    rw [(center_seg cps i c d hc hd e he0 he1).2]
    simp only [blend]
    rw [norm2_sq]
    ring
  set vx := d.q.x - c.q.x
  set vy := d.q.y - c.q.y
  have hdot : (p.1 - (c.q.x + a * vx)) * vx + (p.2 - (c.q.y + a * vy)) * vy = 0 := by
    obtain ⟨r, hr, hball⟩ := Metric.eventually_nhds_iff.mp hmin
    by_contra hne
    set D := (p.1 - (c.q.x + a * vx)) * vx + (p.2 - (c.q.y + a * vy)) * vy with hD
    obtain ⟨V, hV⟩ : ∃ V, V = vx ^ 2 + vy ^ 2 := ⟨_, rfl⟩
    have hV0 : 0 ≤ V := by rw [hV]; positivity
    obtain ⟨k, hk, k1, k2, k3, k4⟩ := small_step r a (1 - a) D V hr h0 (by linarith) hne hV0
    have habs := abs_le.mp (le_of_eq (abs_mul k D))
    rw [abs_of_pos hk] at habs
    have hin := hball (y := (i : ℝ) + (a + k * D)) (by
      rw [Real.dist_eq, show (i : ℝ) + (a + k * D) - (i + a) = k * D by ring, abs_mul, abs_of_pos hk]
      exact k1)
    rw [hval a h0.le h1, hval (a + k * D) (by linarith) (by linarith)] at hin
    have hexp : (p.1 - (c.q.x + (a + k * D) * vx)) ^ 2 + (p.2 - (c.q.y + (a + k * D) * vy)) ^ 2 =
        (p.1 - (c.q.x + a * vx)) ^ 2 + (p.2 - (c.q.y + a * vy)) ^ 2 - 2 * k * D ^ 2 + (k * D) ^ 2 * V := by
      rw [hV]
      linear_combination (2 * k * D) * hD
    rw [hexp] at hin
    have hD2 : 0 < D ^ 2 := by positivity
    have h5 := mul_le_mul_of_nonneg_left k4 (mul_pos hk hD2).le
    have h6 : (k * D) ^ 2 * V = k * D ^ 2 * (k * V) := by ring
    have h7 := mul_pos hk hD2
    linarith
  refine ⟨hdot, fun u => ?_⟩
  rw [← sq_le_sq₀ (norm2_nonneg _ _) (norm2_nonneg _ _), norm2_sq, norm2_sq]
  have e : (p.1 - (c.q.x + u * vx)) ^ 2 + (p.2 - (c.q.y + u * vy)) ^ 2 =
      (p.1 - (c.q.x + a * vx)) ^ 2 + (p.2 - (c.q.y + a * vy)) ^ 2 + ((u - a) * vx) ^ 2 + ((u - a) * vy) ^ 2 := by
    linear_combination (-2 * (u - a)) * hdot
  rw [e]
  linarith [sq_nonneg ((u - a) * vx), sq_nonneg ((u - a) * vy)]

/-! ## What does not hold -/

/-- **C130 fails** beyond the ends of a lane: a position `d` metres before the beginning of a straight lane is reported `10 d`
metres before it, and one `d` metres behind the end `10 d` metres behind it. -/
theorem C130_false_beyond {cps : List CtrPoint} {x0 y0 θ : ℝ} {s : List ℝ} (h : Straight cps x0 y0 θ s) (search : Search)
    (p : ℝ × ℝ) (d : ℝ) (hd : 0 < d)
    (hmin : IsLocalMin (delta cps p) (search (delta cps p) (-1, cps.length))) :
    (lonOf x0 y0 θ p = -d → alongOfPoint search cps p none false = .ok (-(10 * d))) ∧
    (lonOf x0 y0 θ p = laneLength cps + d → alongOfPoint search cps p none false = .ok (laneLength cps + 10 * d)) := by
  have hL : 0 ≤ laneLength cps := List.sum_nonneg (laneLengths_nonneg cps)
  obtain ⟨-, -, -, -, -, -, e⟩ := (C130_straight_partial h search p none).1 hmin
  constructor <;> intro hl <;> rw [e, hl] <;> unfold stretched
  · rw [if_pos (by linarith)]; congr 1; ring
  · rw [if_neg (by linarith), if_neg (by linarith)]; congr 1; ring

/-- A lane that turns around: ten metres forth, a half circle, ten metres back. -/
noncomputable def uTurn : List CtrPoint :=
  [⟨⟨0, 0, 0⟩, 1⟩, ⟨⟨10, 0, 0⟩, 1⟩, ⟨⟨10, 2, Real.pi⟩, 1⟩, ⟨⟨0, 2, Real.pi⟩, 1⟩]

/-- **C130 fails** for lanes that are not straight: a local minimum need not be the nearest point. At `(5, 9/10)`, inside the
lane, the search may return the point of the way back, `11/10` metres away, although the center line is `9/10` metres away on
the way forth; then the vehicle is reported outside of the lane. Both searches are affected. -/
theorem C130_false_local :
    IsLocalMin (delta uTurn (5, 9 / 10)) (5 / 2) ∧ IsLocalMin (deltaFast uTurn (5, 9 / 10)) (5 / 2) ∧
    delta uTurn (5, 9 / 10) (1 / 2) < delta uTurn (5, 9 / 10) (5 / 2) ∧
    (∃ P : Prop, isInside (fun _ => 5 / 2) uTurn (5, 9 / 10) = .ok P ∧ ¬ P) ∧
    ∃ P : Prop, isInside (fun _ => 1 / 2) uTurn (5, 9 / 10) = .ok P ∧ P := by
  have hback : ∀ b : ℝ, 2 < b → b < 3 → delta uTurn (5, 9 / 10) b = (5 - (10 - 10 * (b - 2))) ^ 2 + (11 / 10) ^ 2 ∧
      deltaFast uTurn (5, 9 / 10) b = (5 - (10 - 10 * (b - 2))) ^ 2 + (11 / 10) ^ 2 := by
    intro b h1 h2
    have := center_seg uTurn 2 ⟨⟨10, 2, Real.pi⟩, 1⟩ ⟨⟨0, 2, Real.pi⟩, 1⟩ rfl rfl (b - 2) (by linarith) (by linarith)
    rw [show ((2 : Nat) : ℝ) + (b - 2) = b by push_cast; ring] at this
    unfold delta deltaFast
    rw [this.1, this.2, interp_parallel]
    simp only [Transform.asSE2, rigid, blend]
    rw [norm2_sq, norm2_sq]
    constructor <;> ring
  have hforth : delta uTurn (5, 9 / 10) (1 / 2) = (9 / 10) ^ 2 := by
    have := center_seg uTurn 0 ⟨⟨0, 0, 0⟩, 1⟩ ⟨⟨10, 0, 0⟩, 1⟩ rfl rfl (1 / 2) (by norm_num) (by norm_num)
    rw [show ((0 : Nat) : ℝ) + 1 / 2 = 1 / 2 by push_cast; ring] at this
    unfold delta
    rw [this.1, interp_parallel]
    simp only [Transform.asSE2, rigid]
    rw [norm2_sq]
    norm_num
  have hnear : ∀ᶠ b in 𝓝 (5 / 2 : ℝ), 2 < b ∧ b < 3 := Ioo_mem_nhds (by norm_num) (by norm_num)
  refine ⟨?_, ?_, ?_, ?_, ?_⟩
  · filter_upwards [hnear] with b hb
    rw [(hback b hb.1 hb.2).1, (hback (5 / 2) (by norm_num) (by norm_num)).1]
    nlinarith [sq_nonneg (5 - (10 - 10 * (b - 2)))]
  · filter_upwards [hnear] with b hb
    rw [(hback b hb.1 hb.2).2, (hback (5 / 2) (by norm_num) (by norm_num)).2]
    nlinarith [sq_nonneg (5 - (10 - 10 * (b - 2)))]
  · rw [hforth, (hback (5 / 2) (by norm_num) (by norm_num)).1]
    norm_num
  · obtain ⟨P, h1, h2⟩ := C54_inside (fun _ => 5 / 2) uTurn (by simp [uTurn]) (5, 9 / 10)
    refine ⟨P, h1, ?_⟩
    rw [h2]
    rintro ⟨i, c, d, a, hc, hd, h0, h1, hb, hn⟩
    have hi : i = 2 := by
      have e1 : (i : ℝ) < 3 := by linarith
      have e2 : (1 : ℝ) < i := by linarith
      have e1' : i < 3 := by exact_mod_cast e1
      have e2' : 1 < i := by exact_mod_cast e2
      omega
    subst hi
    simp only [uTurn, List.getElem?_cons_succ, List.getElem?_cons_zero, Option.some.injEq] at hc hd
    subst hc hd
    have ha : a = 1 / 2 := by push_cast at hb; linarith
    subst ha
    simp only at hn
    have := norm2_sq (10 + 1 / 2 * (0 - 10) - 5 : ℝ) (2 + 1 / 2 * (2 - 2) - 9 / 10)
    have h3 := norm2_nonneg (10 + 1 / 2 * (0 - 10) - 5 : ℝ) (2 + 1 / 2 * (2 - 2) - 9 / 10)
    nlinarith
  · obtain ⟨P, h1, h2⟩ := C54_inside (fun _ => 1 / 2) uTurn (by simp [uTurn]) (5, 9 / 10)
    refine ⟨P, h1, h2.mpr ⟨0, ⟨⟨0, 0, 0⟩, 1⟩, ⟨⟨10, 0, 0⟩, 1⟩, 1 / 2, rfl, rfl, by norm_num, by norm_num, by norm_num, ?_⟩⟩
    simp only
    have := norm2_sq (0 + 1 / 2 * (10 - 0) - 5 : ℝ) (0 + 1 / 2 * (0 - 0) - 9 / 10)
    have h3 := norm2_nonneg (0 + 1 / 2 * (10 - 0) - 5 : ℝ) (0 + 1 / 2 * (0 - 0) - 9 / 10)
    nlinarith

/-! ## Example -/

/-- A straight lane of twelve metres to the north with three control points. -/
noncomputable def north : List CtrPoint :=
  [⟨⟨3, 1, Real.pi / 2⟩, 2⟩, ⟨⟨3, 6, Real.pi / 2⟩, 2⟩, ⟨⟨3, 13, Real.pi / 2⟩, 2⟩]

theorem north_straight : Straight north 3 1 (Real.pi / 2) [0, 5, 12] := by
  refine ⟨?_, rfl, by norm_num⟩
  simp only [north, List.map_cons, List.map_nil, Real.cos_pi_div_two, Real.sin_pi_div_two]
  norm_num

/-- The point one metre to the left of the lane, three and a half metres behind the second control point: its place is half
of the segment there, which is a local minimum. -/
example : lonOf 3 1 (Real.pi / 2) (2, 19 / 2) = 17 / 2 ∧ latOf 3 1 (Real.pi / 2) (2, 19 / 2) = 1 ∧
    IsLocalMin (delta north (2, 19 / 2)) (3 / 2) := by
  refine ⟨?_, ?_, ?_⟩
  · norm_num [lonOf, Real.cos_pi_div_two, Real.sin_pi_div_two]
  · norm_num [latOf, Real.cos_pi_div_two, Real.sin_pi_div_two]
  · have hval : ∀ b : ℝ, 1 < b → b < 2 → delta north (2, 19 / 2) b = 1 + (19 / 2 - (6 + 7 * (b - 1))) ^ 2 := by
      intro b h1 h2
      have := center_seg north 1 ⟨⟨3, 6, Real.pi / 2⟩, 2⟩ ⟨⟨3, 13, Real.pi / 2⟩, 2⟩ rfl rfl (b - 1) (by linarith) (by linarith)
      rw [show ((1 : Nat) : ℝ) + (b - 1) = b by push_cast; ring] at this
      unfold delta
      rw [this.1, interp_parallel]
      simp only [Transform.asSE2, rigid]
      rw [norm2_sq]
      ring
    have hnear : ∀ᶠ b in 𝓝 (3 / 2 : ℝ), 1 < b ∧ b < 2 := Ioo_mem_nhds (by norm_num) (by norm_num)
    filter_upwards [hnear] with b hb
    rw [hval b hb.1 hb.2, hval (3 / 2) (by norm_num) (by norm_num)]
    nlinarith [sq_nonneg (19 / 2 - (6 + 7 * (b - 1)))]

end Maps
end Verif
