import Verif.Perception.Sensor
import Mathlib.Tactic.Linarith
import Mathlib.Tactic.Ring
import Mathlib.Tactic.FieldSimp
import Mathlib.Algebra.Order.Floor.Ring

/-!
# C33: the polygon of a range sensor
-/

set_option linter.unusedSectionVars false

namespace Verif
namespace Perception

/-- The point with the given coordinates. -/
def pt' (q : ℝ × ℝ) : ℂ := ⟨q.1, q.2⟩

theorem sqDist_eq (s : Sensor) (q : ℝ × ℝ) : s.sqDist q = dist (pt' q) (pt' s.p) ^ 2 := by
  rw [Complex.dist_eq_re_im, Real.sq_sqrt (by positivity)]; rfl

theorem rayEnd_dist (s : Sensor) (hr : 0 ≤ s.range) (a : ℝ) :
    dist (pt' (s.rayEnd a)) (pt' s.p) = s.range := by
  rw [Complex.dist_eq_re_im]
  have : ((pt' (s.rayEnd a)).re - (pt' s.p).re) ^ 2 + ((pt' (s.rayEnd a)).im - (pt' s.p).im) ^ 2 =
      s.range ^ 2 := by
    simp only [pt', Sensor.rayEnd]
    have := Real.sin_sq_add_cos_sq a
    linear_combination s.range ^ 2 * this
  rw [this, Real.sqrt_sq hr]

/-- All entry and exit points of the hits. -/
def hitPoints (hits : List ((ℝ × ℝ) × (ℝ × ℝ))) : List (ℝ × ℝ) := hits.flatMap (fun h => [h.1, h.2])

theorem closer_spec (s : Sensor) (hits : List ((ℝ × ℝ) × (ℝ × ℝ))) : ∀ acc : (ℝ × ℝ) × ℝ,
    let r := hits.foldl s.closer acc
    r.2 ≤ acc.2 ∧ (∀ q ∈ hitPoints hits, r.2 ≤ s.sqDist q) ∧
      (r = acc ∨ (r.1 ∈ hitPoints hits ∧ r.2 = s.sqDist r.1 ∧ r.2 < acc.2)) := by
  induction hits with
  | nil => intro acc; simp [hitPoints]
  | cons h hits ih =>
    intro acc
    simp only [List.foldl_cons]
    obtain ⟨i1, i2, i3⟩ := ih (s.closer acc h)
    have hc : (s.closer acc h).2 ≤ acc.2 ∧ (s.closer acc h).2 ≤ s.sqDist h.1 ∧
        (s.closer acc h).2 ≤ s.sqDist h.2 ∧ (s.closer acc h = acc ∨
          ((s.closer acc h).1 ∈ [h.1, h.2] ∧ (s.closer acc h).2 = s.sqDist (s.closer acc h).1 ∧
            (s.closer acc h).2 < acc.2)) := by
      unfold Sensor.closer
      by_cases h1 : s.sqDist h.1 < acc.2
      · simp only [h1, if_true]
        by_cases h2 : s.sqDist h.2 < s.sqDist h.1
        · simp only [h2, if_true]
          exact ⟨by linarith, by linarith, le_refl _, Or.inr ⟨by simp, trivial, by linarith⟩⟩
        · simp only [h2, if_false]
          exact ⟨by linarith, le_refl _, not_lt.mp h2, Or.inr ⟨by simp, trivial, h1⟩⟩
      · simp only [h1, if_false]
        by_cases h2 : s.sqDist h.2 < acc.2
        · simp only [h2, if_true]
          exact ⟨by linarith, by linarith [not_lt.mp h1], le_refl _, Or.inr ⟨by simp, trivial, trivial⟩⟩
        · simp only [h2, if_false]
          exact ⟨le_refl _, not_lt.mp h1, not_lt.mp h2, by simp⟩
    obtain ⟨c1, c2, c3, c4⟩ := hc
    refine ⟨le_trans i1 c1, ?_, ?_⟩
    · intro q hq
      simp only [hitPoints, List.flatMap_cons, List.mem_append] at hq
      rcases hq with hq | hq
      · simp only [List.mem_cons, List.not_mem_nil, or_false] at hq
        rcases hq with rfl | rfl
        · exact le_trans i1 c2
        · exact le_trans i1 c3
      · exact i2 q hq
    · have hsub : ∀ q, q ∈ hitPoints hits → q ∈ hitPoints (h :: hits) := by
        intro q hq; simp only [hitPoints, List.flatMap_cons, List.mem_append]; exact Or.inr hq
      have hsub2 : ∀ q, q ∈ [h.1, h.2] → q ∈ hitPoints (h :: hits) := by
        intro q hq; simp only [hitPoints, List.flatMap_cons, List.mem_append]; exact Or.inl hq
      rcases i3 with i3 | ⟨j1, j2, j3⟩
      · rw [i3]
        rcases c4 with c4 | ⟨d1, d2, d3⟩
        · exact Or.inl c4
        · exact Or.inr ⟨hsub2 _ d1, d2, d3⟩
      · exact Or.inr ⟨hsub _ j1, j2, lt_of_lt_of_le j3 c1⟩

/-- **C33.** The vertex of a ray: if a recorded hit point lies strictly within the range, it is a
closest recorded hit point; otherwise it is the point at full range. -/
theorem C33_ray (s : Sensor) (hr : 0 ≤ s.range)
    (raytrace : ℝ × ℝ → ℝ × ℝ → List ((ℝ × ℝ) × (ℝ × ℝ))) (a : ℝ) :
    let pts := hitPoints (raytrace s.p (s.rayEnd a))
    let v := s.rayVertex raytrace a
    ((∃ q ∈ pts, dist (pt' q) (pt' s.p) < s.range) →
      v ∈ pts ∧ dist (pt' v) (pt' s.p) < s.range ∧
        ∀ q ∈ pts, dist (pt' v) (pt' s.p) ≤ dist (pt' q) (pt' s.p)) ∧
    ((∀ q ∈ pts, s.range ≤ dist (pt' q) (pt' s.p)) → v = s.rayEnd a) := by
  intro pts v
  obtain ⟨h1, h2, h3⟩ := closer_spec s (raytrace s.p (s.rayEnd a)) (s.rayEnd a, s.range ^ 2)
  by_cases he : (raytrace s.p (s.rayEnd a)).isEmpty = true
  · have hv : v = s.rayEnd a := by simp only [v, Sensor.rayVertex, he, if_true]
    have hp : pts = [] := by simp only [pts, List.isEmpty_iff.mp he]; rfl
    refine ⟨?_, fun _ => hv⟩
    rintro ⟨q, hq, _⟩; rw [hp] at hq; simp at hq
  · have hv : v = ((raytrace s.p (s.rayEnd a)).foldl s.closer (s.rayEnd a, s.range ^ 2)).1 := by
      have he' : (raytrace s.p (s.rayEnd a)).isEmpty = false := by simpa using he
      simp only [v, Sensor.rayVertex, he', Bool.false_eq_true, if_false]
    have hsq : ∀ q, s.sqDist q < s.range ^ 2 ↔ dist (pt' q) (pt' s.p) < s.range := by
      intro q
      rw [sqDist_eq, sq_lt_sq₀ dist_nonneg hr]
    constructor
    · rintro ⟨q, hq, hlt⟩
      rcases h3 with h3 | ⟨j1, j2, j3⟩
      · exfalso
        have := h2 q hq
        rw [h3] at this
        exact absurd ((hsq q).mpr hlt) (not_lt.mpr this)
      · rw [← hv] at j1 j2
        refine ⟨j1, ?_, ?_⟩
        · rw [← hsq, ← j2]; exact j3
        · intro q hq
          have := h2 q hq
          rw [j2, sqDist_eq, sqDist_eq] at this
          exact (sq_le_sq₀ dist_nonneg dist_nonneg).mp this
    · intro hall
      rcases h3 with h3 | ⟨j1, j2, j3⟩
      · rw [hv, h3]
      · exfalso
        rw [← hv] at j1 j2
        rw [j2] at j3
        exact absurd ((hsq v).mp j3) (not_lt.mpr (hall v j1))

theorem rayVertex_range (s : Sensor) (hr : 0 ≤ s.range)
    (raytrace : ℝ × ℝ → ℝ × ℝ → List ((ℝ × ℝ) × (ℝ × ℝ))) (a : ℝ) :
    dist (pt' (s.rayVertex raytrace a)) (pt' s.p) ≤ s.range := by
  obtain ⟨h1, h2⟩ := C33_ray s hr raytrace a
  by_cases h : ∃ q ∈ hitPoints (raytrace s.p (s.rayEnd a)), dist (pt' q) (pt' s.p) < s.range
  · exact le_of_lt (h1 h).2.1
  · push Not at h
    rw [h2 h, rayEnd_dist s hr]

theorem visRange_eq (s : Sensor) (raytrace : ℝ × ℝ → ℝ × ℝ → List ((ℝ × ℝ) × (ℝ × ℝ)))
    (vs : List (ℝ × ℝ)) (h : s.visRange raytrace = .ok vs) :
    ∃ angles v rest, s.rayAngles = .ok angles ∧ vs = v :: rest ++ [v] ∧
      v :: rest = (if s.isOmni then [] else [s.p]) ++ angles.map (s.rayVertex raytrace) := by
  unfold Sensor.visRange at h
  cases ha : s.rayAngles with
  | error e => rw [ha] at h; cases h
  | ok angles =>
    rw [ha] at h
    simp only at h
    split at h
    · cases h
    · rename_i v rest hv
      injection h with h
      exact ⟨angles, v, rest, rfl, h.symm, hv.symm⟩

/-- **C33.** Every vertex is within the range of the sensor. -/
theorem C33_within_range (s : Sensor) (hr : 0 ≤ s.range)
    (raytrace : ℝ × ℝ → ℝ × ℝ → List ((ℝ × ℝ) × (ℝ × ℝ))) (vs : List (ℝ × ℝ))
    (h : s.visRange raytrace = .ok vs) : ∀ v ∈ vs, dist (pt' v) (pt' s.p) ≤ s.range := by
  obtain ⟨angles, v, rest, _, rfl, he⟩ := visRange_eq s raytrace vs h
  have hall : ∀ q ∈ v :: rest, dist (pt' q) (pt' s.p) ≤ s.range := by
    intro q hq
    rw [he] at hq
    rcases List.mem_append.mp hq with hq | hq
    · split at hq
      · simp at hq
      · simp only [List.mem_singleton] at hq
        rw [hq, dist_self]; exact hr
    · obtain ⟨a, _, rfl⟩ := List.mem_map.mp hq
      exact rayVertex_range s hr raytrace a
  intro q hq
  rcases List.mem_append.mp hq with hq | hq
  · exact hall q hq
  · simp only [List.mem_singleton] at hq
    subst hq
    exact hall q (by simp)

/-- **C33.** The outline is closed: the last vertex is the first. Between them come, in the order of
the angles, one vertex per ray, preceded by the position of the sensor unless it sees all around. -/
theorem C33_outline (s : Sensor) (raytrace : ℝ × ℝ → ℝ × ℝ → List ((ℝ × ℝ) × (ℝ × ℝ)))
    (vs : List (ℝ × ℝ)) (h : s.visRange raytrace = .ok vs) :
    vs.head? = vs.getLast? ∧ ∃ angles, s.rayAngles = .ok angles ∧
      vs.dropLast = (if 2 * Real.pi - s.res < s.fov then [] else [s.p]) ++
        angles.map (s.rayVertex raytrace) := by
  obtain ⟨angles, v, rest, ha, rfl, he⟩ := visRange_eq s raytrace vs h
  refine ⟨by simp [List.getLast?_cons, List.getLast?_append], angles, ha, ?_⟩
  rw [List.dropLast_concat, he]
  congr 1
  unfold Sensor.isOmni
  by_cases hh : 2 * Real.pi - s.res < s.fov <;> simp [hh]

/-- **C33.** For a sensor with a field of view of at least one angular resolution the rays start at
one end of the field of view, end at the other, are symmetric about the heading, and neighbouring
rays are less than twice the resolution (but not less than the resolution) apart. -/
theorem C33_rays (s : Sensor) (hres : 0 < s.res) (hfov : s.res ≤ s.fov) :
    ∃ (n : Nat) (angles : List ℝ), s.rayAngles = .ok angles ∧ angles.length = n + 1 ∧ 0 < n ∧
      angles[0]? = some (s.theta - s.fov / 2) ∧ angles[n]? = some (s.theta + s.fov / 2) ∧
      (∀ (i : Nat) (a b : ℝ), i ≤ n → angles[i]? = some a → angles[n - i]? = some b →
        a + b = 2 * s.theta) ∧
      (∀ (i : Nat) (a b : ℝ), angles[i]? = some a → angles[i + 1]? = some b →
        s.res ≤ b - a ∧ b - a < 2 * s.res) := by
  have hq : 1 ≤ s.fov / s.res := by rw [le_div_iff₀ hres]; linarith
  have hfl : (1 : Int) ≤ ⌊s.fov / s.res⌋ := by rw [Int.le_floor]; exact_mod_cast hq
  obtain ⟨n, hn⟩ : ∃ n : Nat, ⌊s.fov / s.res⌋ = (n : Int) := ⟨⌊s.fov / s.res⌋.toNat, by omega⟩
  have hn1 : 0 < n := by omega
  have hnR : (0 : ℝ) < (n : ℝ) := by exact_mod_cast hn1
  have htr : truncR (s.fov / s.res) + 1 = (n : Int) + 1 := by
    unfold truncR
    rw [if_pos (by linarith), hn]
  set step := (s.fov / 2 - -s.fov / 2) / (((n : Int) + 1 : Int) - 1 : ℝ) with hstep
  have hstep' : step = s.fov / n := by
    rw [hstep]; push_cast; ring_nf
  have hang : s.rayAngles = .ok ((List.range (n + 1)).map
      (fun i : Nat => s.theta + (-s.fov / 2 + (i : ℝ) * (s.fov / n)))) := by
    unfold Sensor.rayAngles linspace
    rw [htr, if_neg (by omega), if_neg (by omega)]
    simp only [List.map_map]
    have ht : ((n : Int) + 1).toNat = n + 1 := by omega
    rw [ht]
    congr 1
    apply List.map_congr_left
    intro i _
    simp only [Function.comp]
    rw [← hstep', hstep]
  have hget : ∀ (i : Nat) (a : ℝ), ((List.range (n + 1)).map
      (fun i : Nat => s.theta + (-s.fov / 2 + (i : ℝ) * (s.fov / n))))[i]? = some a →
      i < n + 1 ∧ a = s.theta + (-s.fov / 2 + (i : ℝ) * (s.fov / n)) := by
    intro i a h
    obtain ⟨hi, h⟩ := List.getElem?_eq_some_iff.mp h
    simp only [List.getElem_map, List.getElem_range] at h
    exact ⟨by simpa using hi, h.symm⟩
  refine ⟨n, _, hang, by simp, hn1, ?_, ?_, ?_, ?_⟩
  · rw [List.getElem?_eq_getElem (by simp)]
    simp only [List.getElem_map, List.getElem_range]
    congr 1; push_cast; ring
  · rw [List.getElem?_eq_getElem (by simp)]
    simp only [List.getElem_map, List.getElem_range]
    congr 1; field_simp; ring
  · intro i a b hi ha hb
    obtain ⟨_, rfl⟩ := hget i a ha
    obtain ⟨_, rfl⟩ := hget _ b hb
    rw [Nat.cast_sub hi]
    field_simp; ring
  · intro i a b ha hb
    obtain ⟨_, rfl⟩ := hget i a ha
    obtain ⟨_, rfl⟩ := hget _ b hb
    have e : s.theta + (-s.fov / 2 + ((i + 1 : Nat) : ℝ) * (s.fov / n)) -
        (s.theta + (-s.fov / 2 + (i : ℝ) * (s.fov / n))) = s.fov / n := by push_cast; ring
    rw [e]
    have h1 : (n : ℝ) ≤ s.fov / s.res := by
      have := Int.floor_le (s.fov / s.res); rw [hn] at this; exact_mod_cast this
    have h2 : s.fov / s.res < (n : ℝ) + 1 := by
      have := Int.lt_floor_add_one (s.fov / s.res); rw [hn] at this; exact_mod_cast this
    rw [le_div_iff₀ hres] at h1
    rw [div_lt_iff₀ hres] at h2
    constructor
    · rw [le_div_iff₀ hnR]; linarith
    · rw [div_lt_iff₀ hnR]
      have : (1 : ℝ) ≤ n := by exact_mod_cast hn1
      nlinarith

/-- **C33.** With a positive resolution and a field of view of at least one resolution the outline
exists, whatever the ray tracing answers. -/
theorem C33_exists (s : Sensor) (hres : 0 < s.res) (hfov : s.res ≤ s.fov)
    (raytrace : ℝ × ℝ → ℝ × ℝ → List ((ℝ × ℝ) × (ℝ × ℝ))) :
    ∃ vs, s.visRange raytrace = .ok vs := by
  obtain ⟨n, angles, ha, hl, _⟩ := C33_rays s hres hfov
  unfold Sensor.visRange
  rw [ha]
  cases angles with
  | nil => simp at hl
  | cons a as =>
    simp only
    split
    · rename_i h; simp at h
    · exact ⟨_, rfl⟩

/-- With a field of view smaller than the resolution there is a single ray, at one edge of the field
of view instead of its middle. -/
theorem C33_narrow_counterexample (s : Sensor) (hres : 0 < s.res) (h0 : 0 < s.fov)
    (hfov : s.fov < s.res) : s.rayAngles = .ok [s.theta - s.fov / 2] := by
  have hq : s.fov / s.res < 1 := by rw [div_lt_one hres]; exact hfov
  have hq0 : 0 ≤ s.fov / s.res := by positivity
  have hfl : ⌊s.fov / s.res⌋ = 0 := by rw [Int.floor_eq_zero_iff]; exact ⟨hq0, hq⟩
  unfold Sensor.rayAngles linspace truncR
  rw [if_pos hq0, hfl]
  simp
  ring

/-- **C33.** A sensor constructed with a positive range has a positive resolution below a right
angle; range zero raises `ZeroDivisionError`. -/
theorem C33_make (p : ℝ × ℝ) (theta range fov : ℝ) (s : Sensor)
    (h : Sensor.make p theta range fov = .ok s) :
    0 < s.range ∧ s.range = range ∧ s.fov = fov ∧ fov ≤ 2 * Real.pi ∧ s.p = p ∧ s.theta = theta ∧
      0 < s.res ∧ s.res < Real.pi / 2 := by
  unfold Sensor.make at h
  split at h
  · cases h
  · rename_i h0
    split at h
    · rename_i h1
      split at h
      · rename_i h2
        injection h with h; subst h
        have hpos : 0 < range := lt_of_le_of_ne h2 (Ne.symm h0)
        exact ⟨hpos, rfl, rfl, h1, rfl, rfl, Real.arctan_pos.mpr (by positivity),
          Real.arctan_lt_pi_div_two _⟩
      · cases h
    · cases h

/-- **C33.** A ray at angle `a` ends at distance `range` from the sensor in direction `a`. -/
theorem C33_ray_end (s : Sensor) (a : ℝ) :
    pt' (s.rayEnd a) = pt' s.p + s.range * Complex.exp (a * Complex.I) := by
  rw [Complex.exp_mul_I, ← Complex.ofReal_cos, ← Complex.ofReal_sin]
  apply Complex.ext <;> simp [pt', Sensor.rayEnd, -Complex.ofReal_cos, -Complex.ofReal_sin]

/-- **C33.** If the ray tracing answers with points of the ray, then the vertex of every ray lies on the
ray, in its direction from the sensor and within the range. -/
theorem C33_direction (s : Sensor) (raytrace : ℝ × ℝ → ℝ × ℝ → List ((ℝ × ℝ) × (ℝ × ℝ)))
    (hr : 0 ≤ s.range)
    (hon : ∀ e, ∀ q ∈ hitPoints (raytrace s.p e), ∃ t : ℝ, 0 ≤ t ∧ t ≤ 1 ∧
      pt' q = pt' s.p + t * (pt' e - pt' s.p)) (a : ℝ) :
    ∃ d : ℝ, 0 ≤ d ∧ d ≤ s.range ∧
      pt' (s.rayVertex raytrace a) = pt' s.p + d * Complex.exp (a * Complex.I) := by
  have hcase : s.rayVertex raytrace a = s.rayEnd a ∨
      s.rayVertex raytrace a ∈ hitPoints (raytrace s.p (s.rayEnd a)) := by
    by_cases h : ∃ q ∈ hitPoints (raytrace s.p (s.rayEnd a)), dist (pt' q) (pt' s.p) < s.range
    · exact Or.inr ((C33_ray s hr raytrace a).1 h).1
    · push Not at h
      exact Or.inl ((C33_ray s hr raytrace a).2 h)
  rcases hcase with h | h
  · exact ⟨s.range, hr, le_refl _, by rw [h]; exact C33_ray_end s a⟩
  · obtain ⟨t, h0, h1, h2⟩ := hon _ _ h
    refine ⟨t * s.range, mul_nonneg h0 hr, mul_le_of_le_one_left hr h1, ?_⟩
    rw [h2, C33_ray_end]
    push_cast
    ring

/-- A wall three metres ahead of the sensor, hit by the ray straight ahead. -/
example : ∀ e, ∀ q ∈ hitPoints ((fun p e : ℝ × ℝ =>
      if e = (20, 0) then [((3, 0), (4, 0))] else ([] : List ((ℝ × ℝ) × (ℝ × ℝ)))) (0, 0) e),
    ∃ t : ℝ, 0 ≤ t ∧ t ≤ 1 ∧ pt' q = pt' (0, 0) + t * (pt' e - pt' (0, 0)) := by
  intro e q hq
  by_cases he : e = (20, 0)
  · subst he
    simp only [if_true, hitPoints, List.flatMap_cons, List.flatMap_nil, List.append_nil, List.mem_cons,
      List.not_mem_nil, or_false] at hq
    rcases hq with rfl | rfl
    · exact ⟨3 / 20, by norm_num, by norm_num, by apply Complex.ext <;> simp [pt']⟩
    · exact ⟨1 / 5, by norm_num, by norm_num, by apply Complex.ext <;> simp [pt']; norm_num⟩
  · simp [he, hitPoints] at hq

/-- **C33.** At the resolution of a sensor, neighbouring rays are one metre apart at full range, measured
at a right angle to one of them. -/
theorem C33_resolution (p : ℝ × ℝ) (theta range fov : ℝ) (s : Sensor)
    (h : Sensor.make p theta range fov = .ok s) : range * Real.tan s.res = 1 := by
  have h0 := (C33_make p theta range fov s h).2.1 ▸ (C33_make p theta range fov s h).1
  unfold Sensor.make at h
  rw [if_neg h0.ne'] at h
  split at h
  · split at h
    · injection h with h; subst h
      simp only [Real.tan_arctan]
      field_simp
    · cases h
  · cases h

/-- A sensor of range 20 at the origin with a field of view of 120 degrees; a wall ahead. -/
example : ∃ s, Sensor.make (0, 0) 0 20 (2 * Real.pi / 3) = .ok s ∧ 0 < s.res ∧ s.res ≤ s.fov := by
  refine ⟨⟨(0, 0), 0, 20, 2 * Real.pi / 3, Real.arctan (1 / 20)⟩, ?_, ?_, ?_⟩
  · unfold Sensor.make
    rw [if_neg (by norm_num), if_pos (by linarith [Real.pi_pos]), if_pos (by norm_num)]
  · exact Real.arctan_pos.mpr (by norm_num)
  · have := Real.arctan_lt_pi_div_two (1 / 20)
    simp only
    linarith [Real.pi_pos]

/-- The hypotheses of `C33_within_range` and `C33_outline` are met. -/
example : ∃ s vs, Sensor.make (0, 0) 0 20 (2 * Real.pi / 3) = .ok s ∧ 0 ≤ s.range ∧
    s.visRange (fun _ _ => [((7, 0), (8, 0))]) = .ok vs := by
  refine ⟨⟨(0, 0), 0, 20, 2 * Real.pi / 3, Real.arctan (1 / 20)⟩, ?_⟩
  obtain ⟨vs, h⟩ := C33_exists ⟨(0, 0), 0, 20, 2 * Real.pi / 3, Real.arctan (1 / 20)⟩
    (Real.arctan_pos.mpr (by norm_num))
    (by
      have := Real.arctan_lt_pi_div_two (1 / 20)
      simp only
      linarith [Real.pi_pos]) (fun _ _ => [((7, 0), (8, 0))])
  refine ⟨vs, ?_, by norm_num, h⟩
  unfold Sensor.make
  rw [if_neg (by norm_num), if_pos (by linarith [Real.pi_pos]), if_pos (by norm_num)]

/-- **C33.** `FullRangeSensor` answers exactly if its field of view is a full turn up to the resolution, and then with the
circle around the sensor. -/
theorem C33_full (s : Sensor) :
    (2 * Real.pi - s.res < s.fov → s.fullRange = .ok (s.p, s.range)) ∧
    (s.fov ≤ 2 * Real.pi - s.res → s.fullRange = .error .notImplemented) := by
  unfold Sensor.fullRange Sensor.isOmni
  constructor
  · intro h; rw [if_pos (by simpa using h)]
  · intro h; rw [if_neg (by simpa using h)]

example : (⟨(1, 2), 0, 20, 2 * Real.pi, 1 / 20⟩ : Sensor).fullRange = .ok ((1, 2), 20) :=
  (C33_full _).1 (by norm_num)

/-- Two hits on the ray ahead, the closer one is the vertex. -/
example : let s : Sensor := ⟨(0, 0), 0, 20, 2, 1⟩
    let rt : ℝ × ℝ → ℝ × ℝ → List ((ℝ × ℝ) × (ℝ × ℝ)) := fun _ _ => [((7, 0), (8, 0)), ((3, 0), (4, 0))]
    s.rayVertex rt 0 = (3, 0) := by
  simp [Sensor.rayVertex, Sensor.closer, Sensor.sqDist, Sensor.rayEnd]
  norm_num

end Perception
end Verif
