import Verif.Basic
import Verif.Num
import Mathlib.Analysis.SpecialFunctions.Complex.Arg
import Mathlib.Analysis.SpecialFunctions.Complex.Circle
import Mathlib.Algebra.Order.Floor.Ring
import Mathlib.Tactic.Linarith
import Mathlib.Tactic.IntervalCases
import Mathlib.Tactic.Ring
import Mathlib.Tactic.FieldSimp
import Mathlib.Tactic.Positivity
import Mathlib.Tactic.LinearCombination

/-!
# Shape generators (src/dg_commons/maps/shapes_generator.py) and property C90

The draws of `random` are parameters: `unif i` in `[0, 1]` for the `i`-th `random.uniform(a, b)`, which
is `a + (b - a) * unif i`, and an arbitrary number `gauss i` for the `i`-th `random.gauss`.
-/

namespace Verif
namespace Maps

/-- `create_star_polygon`, shapes_generator.py:10-26. -/
def starPolygon {K : Type*} [Ring K] (x y p t : K) : List (K × K) :=
  [-1, 1].flatMap fun i : K =>
    [(x, y + i * p), (x + i * t, y + i * t), (x + i * p, y), (x + i * t, y - i * t)]

/-- `int` of a float: rounding towards zero. -/
noncomputable def truncInt (x : ℝ) : ℤ := if 0 ≤ x then ⌊x⌋ else ⌈x⌉

/-- The draws `random.uniform(lower, upper)`, shapes_generator.py:48-56; `irr` is the clipped
irregularity. -/
noncomputable def rawSteps (irr : ℝ) (n : Nat) (unif : Nat → ℝ) : List ℝ :=
  let lower := 2 * Real.pi / n - irr * 2 * Real.pi / n
  let upper := 2 * Real.pi / n + irr * 2 * Real.pi / n
  (List.range n).map fun i : Nat => lower + (upper - lower) * unif i

/-- The normalised steps, shapes_generator.py:59-61. -/
noncomputable def angleSteps (irr : ℝ) (n : Nat) (unif : Nat → ℝ) : List ℝ :=
  (rawSteps irr n unif).map fun s => s / ((rawSteps irr n unif).sum / (2 * Real.pi))

/-- The loop of shapes_generator.py:66-71: unrounded vertices, from the radii and steps. -/
noncomputable def walk (cx cy : ℝ) : ℝ → List (ℝ × ℝ) → List (ℝ × ℝ)
  | _, [] => []
  | angle, (r, s) :: rest =>
    (cx + r * Real.cos angle, cy + r * Real.sin angle) :: walk cx cy (angle + s) rest

/-- The radii, shapes_generator.py:67. `gauss i` is the draw with mean `avg` and the given deviation. -/
noncomputable def radii (avg : ℝ) (n : Nat) (gauss : Nat → ℝ) : List ℝ :=
  (List.range n).map fun i : Nat => npClip (gauss i) 0 (2 * avg)

/-- `create_random_starshaped_polygon`, shapes_generator.py:29-73. `n = 0` raises
`ZeroDivisionError` in line 50; a negative `n` gives no points. If all draws are zero (possible for
irregularity 1 only), the normalised steps are not-a-number, and `int` raises `ValueError` at the
second vertex. The draws `gauss` depend on `spikiness` in a way that is not modelled. -/
noncomputable def randomStar (cx cy avg irregularity : ℝ) (n : Int) (unif : Nat → ℝ) (start : ℝ)
    (gauss : Nat → ℝ) : Except Err (List (ℤ × ℤ)) :=
  if n = 0 then .error .zeroDiv
  else
    let irr := npClip irregularity 0 1
    if (rawSteps irr n.toNat unif).sum = 0 ∧ 2 ≤ n then .error .value
    else .ok ((walk cx cy (0 + (2 * Real.pi - 0) * start)
      ((radii avg n.toNat gauss).zip (angleSteps irr n.toNat unif))).map
        fun q => (truncInt q.1, truncInt q.2))

/-! ## C90 -/

/-- Twice the signed area of the triangle from the centre `c` to `a` and `b`. -/
def cross2 {K : Type*} [Ring K] (c a b : K × K) : K :=
  (a.1 - c.1) * (b.2 - c.2) - (a.2 - c.2) * (b.1 - c.1)

/-- **C90.** The star has eight vertices; all triangles from the centre to two neighbouring vertices have
the same signed area `- p t / 2`: the polygon winds once clockwise around its centre, sees every vertex
from there, and has the area `4 p t`. -/
theorem C90_star {K : Type*} [Field K] (x y p t : K) :
    (starPolygon x y p t).length = 8 ∧
    ∀ (i : Nat) (a b : K × K), (starPolygon x y p t)[i]? = some a →
      ((starPolygon x y p t) ++ [(x, y - p)])[i + 1]? = some b → cross2 (x, y) a b = -(p * t) := by
  refine ⟨rfl, ?_⟩
  intro i a b ha hb
  have hi : i < 8 := by
    by_contra h
    rw [List.getElem?_eq_none (by show 8 ≤ i; omega)] at ha
    cases ha
  interval_cases i <;>
    (simp [starPolygon] at ha hb; subst ha; subst hb; simp only [cross2]; ring)

/-- **C90.** The star is closed by its first vertex, and contains the points at distance `p` on the axes and the
points `t` away in both coordinates on the diagonals. -/
theorem C90_star_points {K : Type*} [Field K] (x y p t : K) :
    (starPolygon x y p t).head? = some (x, y - p) ∧
    ∀ q, q ∈ starPolygon x y p t ↔
      q = (x, y - p) ∨ q = (x, y + p) ∨ q = (x - p, y) ∨ q = (x + p, y) ∨
      q = (x - t, y - t) ∨ q = (x - t, y + t) ∨ q = (x + t, y - t) ∨ q = (x + t, y + t) := by
  constructor
  · simp [starPolygon, sub_eq_add_neg]
  · intro q
    simp only [starPolygon, List.flatMap_cons, List.flatMap_nil, List.append_nil, List.cons_append,
      List.nil_append, List.mem_cons, List.not_mem_nil, or_false, neg_mul, one_mul, ← sub_eq_add_neg,
      sub_neg_eq_add]
    tauto

theorem rawSteps_length (irr : ℝ) (n : Nat) (u : Nat → ℝ) : (rawSteps irr n u).length = n := by
  simp [rawSteps]

theorem angleSteps_length (irr : ℝ) (n : Nat) (u : Nat → ℝ) : (angleSteps irr n u).length = n := by
  simp [angleSteps, rawSteps_length]

theorem rawSteps_nonneg (irr : ℝ) (hi : 0 ≤ irr) (hi1 : irr ≤ 1) (n : Nat) (u : Nat → ℝ)
    (hu : ∀ i, 0 ≤ u i ∧ u i ≤ 1) : ∀ s ∈ rawSteps irr n u, 0 ≤ s := by
  intro s hs
  simp only [rawSteps, List.mem_map] at hs
  obtain ⟨i, _, rfl⟩ := hs
  have hp := Real.pi_pos
  have e : 2 * Real.pi / (n : ℝ) - irr * 2 * Real.pi / n = (1 - irr) * (2 * Real.pi / n) := by ring
  have e2 : (2 * Real.pi / (n : ℝ) + irr * 2 * Real.pi / n - (2 * Real.pi / n - irr * 2 * Real.pi / n)) =
      2 * irr * (2 * Real.pi / n) := by ring
  rw [e2, e]
  have h1 : 0 ≤ 2 * Real.pi / (n : ℝ) := by positivity
  have h2 := (hu i).1
  have h3 : 0 ≤ 1 - irr := by linarith
  positivity

theorem sum_map_div (l : List ℝ) (k : ℝ) : (l.map fun s => s / k).sum = l.sum / k := by
  induction l with
  | nil => simp
  | cons a l ih => simp only [List.map_cons, List.sum_cons, ih]; ring

/-- **C90.** The steps between the directions of neighbouring vertices are not negative and add up to a full
turn. -/
theorem C90_full_turn (irr : ℝ) (n : Nat) (u : Nat → ℝ) (hu : ∀ i, 0 ≤ u i ∧ u i ≤ 1)
    (hs : (rawSteps (npClip irr 0 1) n u).sum ≠ 0) :
    (∀ s ∈ angleSteps (npClip irr 0 1) n u, 0 ≤ s) ∧
    (angleSteps (npClip irr 0 1) n u).sum = 2 * Real.pi := by
  have hn := rawSteps_nonneg (npClip irr 0 1) (le_npClip _ _ _ (by norm_num)) (npClip_le _ _ _) n u hu
  have hsum : 0 ≤ (rawSteps (npClip irr 0 1) n u).sum := List.sum_nonneg hn
  have hp := Real.pi_pos
  constructor
  · intro s h
    simp only [angleSteps, List.mem_map] at h
    obtain ⟨r, hr, rfl⟩ := h
    exact div_nonneg (hn r hr) (by positivity)
  · unfold angleSteps
    rw [sum_map_div]
    field_simp

theorem walk_length (cx cy a : ℝ) (l : List (ℝ × ℝ)) : (walk cx cy a l).length = l.length := by
  induction l generalizing a with
  | nil => rfl
  | cons q l ih => obtain ⟨r, s⟩ := q; simp [walk, ih]

theorem walk_get (cx cy : ℝ) (l : List (ℝ × ℝ)) : ∀ (a : ℝ) (i : Nat) (r s : ℝ), l[i]? = some (r, s) →
    (walk cx cy a l)[i]? = some (cx + r * Real.cos (a + ((l.take i).map Prod.snd).sum),
      cy + r * Real.sin (a + ((l.take i).map Prod.snd).sum)) := by
  induction l with
  | nil => intro a i r s h; simp at h
  | cons q l ih =>
    intro a i r s h
    obtain ⟨r0, s0⟩ := q
    cases i with
    | zero =>
      simp only [List.getElem?_cons_zero, Option.some.injEq, Prod.mk.injEq] at h
      simp [walk, h.1]
    | succ i =>
      simp only [List.getElem?_cons_succ] at h
      simp only [walk, List.getElem?_cons_succ, ih (a + s0) i r s h, List.take_succ_cons, List.map_cons,
        List.sum_cons, add_assoc]

theorem truncInt_near (x : ℝ) : |(truncInt x : ℝ) - x| < 1 := by
  unfold truncInt
  rw [abs_lt]
  split
  · have h1 := Int.floor_le x
    have h2 := Int.lt_floor_add_one x
    constructor <;> linarith
  · have h1 := Int.le_ceil x
    have h2 := Int.ceil_lt_add_one x
    constructor <;> linarith

/-- **C90.** A positive number `n` of vertices gives exactly `n` points. The `i`-th is the rounding (by less
than one in each coordinate) of a point in direction `θ i` at a distance between 0 and twice the average
radius from the centre; the directions never decrease and stay within one full turn. -/
theorem C90_random_partial (cx cy avg irr : ℝ) (havg : 0 ≤ avg) (n : Nat) (hn : 0 < n) (u : Nat → ℝ)
    (hu : ∀ i, 0 ≤ u i ∧ u i ≤ 1) (start : ℝ) (g : Nat → ℝ)
    (hs : (rawSteps (npClip irr 0 1) n u).sum ≠ 0) :
    ∃ (ps : List (ℤ × ℤ)) (θ r : Nat → ℝ), randomStar cx cy avg irr n u start g = .ok ps ∧
      ps.length = n ∧ Monotone θ ∧ (∀ i, θ i ≤ θ 0 + 2 * Real.pi) ∧
      θ n = θ 0 + 2 * Real.pi ∧
      ∀ i (p : ℤ × ℤ), ps[i]? = some p → 0 ≤ r i ∧ r i ≤ 2 * avg ∧
        |(p.1 : ℝ) - (cx + r i * Real.cos (θ i))| < 1 ∧
        |(p.2 : ℝ) - (cy + r i * Real.sin (θ i))| < 1 := by
  obtain ⟨hstep, hsum⟩ := C90_full_turn irr n u hu hs
  set st := angleSteps (npClip irr 0 1) n u with hst
  have hlen : st.length = n := angleSteps_length _ _ _
  have hmono : Monotone fun i : Nat => (st.take i).sum := by
    apply monotone_nat_of_le_succ
    intro i
    rw [List.take_add_one, List.sum_append]
    cases h : st[i]? with
    | none => simp
    | some s =>
      have := hstep s (List.mem_of_getElem? h)
      simp; exact this
  refine ⟨(walk cx cy (0 + (2 * Real.pi - 0) * start) ((radii avg n g).zip st)).map
      fun q => (truncInt q.1, truncInt q.2), fun i => 0 + (2 * Real.pi - 0) * start + (st.take i).sum, fun i => npClip (g i) 0 (2 * avg),
    ?_, ?_, ?_, ?_, ?_, ?_⟩
  · unfold randomStar
    rw [if_neg (by omega)]
    simp only [Int.toNat_natCast]
    rw [if_neg (fun h => hs h.1)]
  · simp [walk_length, radii, hlen]
  · intro i j hij
    have := hmono hij
    simp only at this ⊢
    linarith
  · intro i
    have h1 : (st.take i).sum ≤ st.sum := by
      rcases Nat.le_total i n with h | h
      · have := hmono h
        simp only at this
        rwa [List.take_of_length_le (by omega : st.length ≤ n)] at this
      · rw [List.take_of_length_le (by omega)]
    simp only [List.take_zero, List.sum_nil]
    linarith
  · simp only [List.take_zero, List.sum_nil]
    rw [List.take_of_length_le (by omega), hsum]; ring
  · intro i p hp
    have hi : i < n := by
      by_contra h
      rw [List.getElem?_eq_none (by simp [walk_length, radii, hlen]; omega)] at hp
      cases hp
    refine ⟨le_npClip _ _ _ (by linarith), npClip_le _ _ _, ?_⟩
    have hz : ((radii avg n g).zip st)[i]? = some (npClip (g i) 0 (2 * avg), st[i]'(by omega)) := by
      rw [List.getElem?_eq_getElem (by simp [radii, hlen, hi])]
      simp [radii]
    have hw := walk_get cx cy _ (0 + (2 * Real.pi - 0) * start) i _ _ hz
    have htake : (((radii avg n g).zip st).take i).map Prod.snd = st.take i := by
      rw [List.map_take, List.map_snd_zip (by simp [radii, hlen])]
    rw [htake] at hw
    rw [List.getElem?_map, hw] at hp
    simp only [Option.map_some, Option.some.injEq] at hp
    subst hp
    exact ⟨truncInt_near _, truncInt_near _⟩

/-- **C90.** No vertices raise `ZeroDivisionError`; a negative number gives an empty polygon. -/
theorem C90_no_vertices (cx cy avg irr : ℝ) (u : Nat → ℝ) (start : ℝ) (g : Nat → ℝ) :
    randomStar cx cy avg irr 0 u start g = .error .zeroDiv ∧
    ∀ n : Int, n < 0 → randomStar cx cy avg irr n u start g = .ok [] := by
  constructor
  · simp [randomStar]
  · intro n hn
    unfold randomStar
    rw [if_neg (by omega)]
    simp only
    rw [if_neg (by omega), show n.toNat = 0 by omega]
    simp [radii, walk]

/-- **C90.** The steps can be normalised for every draw if the irregularity is below one. -/
theorem C90_defined (irr : ℝ) (h : irr < 1) (n : Nat) (hn : 0 < n) (u : Nat → ℝ)
    (hu : ∀ i, 0 ≤ u i ∧ u i ≤ 1) : (rawSteps (npClip irr 0 1) n u).sum ≠ 0 := by
  have hc0 : 0 ≤ npClip irr 0 1 := le_npClip _ _ _ (by norm_num)
  have hc1 : npClip irr 0 1 < 1 := by
    simp only [npClip]
    exact lt_of_le_of_lt (min_le_left _ _) (max_lt h (by norm_num))
  have hp := Real.pi_pos
  have hn' : (0 : ℝ) < n := by exact_mod_cast hn
  have hpos : ∀ s ∈ rawSteps (npClip irr 0 1) n u, 0 < s := by
    intro s hs
    simp only [rawSteps, List.mem_map] at hs
    obtain ⟨i, _, rfl⟩ := hs
    have e : 2 * Real.pi / (n : ℝ) - npClip irr 0 1 * 2 * Real.pi / n =
        (1 - npClip irr 0 1) * (2 * Real.pi / n) := by ring
    have e2 : (2 * Real.pi / (n : ℝ) + npClip irr 0 1 * 2 * Real.pi / n -
        (2 * Real.pi / n - npClip irr 0 1 * 2 * Real.pi / n)) =
        2 * npClip irr 0 1 * (2 * Real.pi / n) := by ring
    rw [e2, e]
    have h1 : 0 < 2 * Real.pi / (n : ℝ) := by positivity
    have h2 := (hu i).1
    have h3 : 0 < 1 - npClip irr 0 1 := by linarith
    positivity
  have hlen := rawSteps_length (npClip irr 0 1) n u
  exact (List.sum_pos _ hpos (by intro he; rw [he] at hlen; simp at hlen; omega)).ne'

/-- **C90.** If all draws are zero, which needs irregularity one, two or more vertices raise `ValueError`. -/
theorem C90_degenerate (cx cy avg irr : ℝ) (n : Nat) (hn : 2 ≤ n) (u : Nat → ℝ) (start : ℝ)
    (g : Nat → ℝ) (hs : (rawSteps (npClip irr 0 1) n u).sum = 0) :
    randomStar cx cy avg irr n u start g = .error .value := by
  unfold randomStar
  rw [if_neg (by omega)]
  simp only [Int.toNat_natCast]
  rw [if_pos ⟨hs, by exact_mod_cast hn⟩]

/-- Irregularity one and the smallest draws. -/
example : (rawSteps (npClip 1 0 1) 3 (fun _ => 0)).sum = 0 := by
  have : npClip (1 : ℝ) 0 1 = 1 := npClip_of_mem _ _ _ (by norm_num) (by norm_num)
  rw [this]
  simp [rawSteps, List.range_succ]

/-- **C90 is false** for the polygon returned: the points are rounded to integers, so that a polygon of
average radius below one half collapses, whatever is drawn. -/
theorem C90_false_small (avg irr : ℝ) (h0 : 0 ≤ avg) (h1 : avg < 1 / 2) (n : Nat) (hn : 0 < n)
    (u : Nat → ℝ) (hu : ∀ i, 0 ≤ u i ∧ u i ≤ 1) (start : ℝ) (g : Nat → ℝ)
    (hs : (rawSteps (npClip irr 0 1) n u).sum ≠ 0) :
    randomStar 0 0 avg irr n u start g = .ok (List.replicate n (0, 0)) := by
  have key : ∀ x : ℝ, |x| < 1 → truncInt x = 0 := by
    intro x hx
    rw [abs_lt] at hx
    unfold truncInt
    split
    · rename_i h; rw [Int.floor_eq_zero_iff]; exact ⟨h, hx.2⟩
    · rename_i h; rw [Int.ceil_eq_zero_iff]; push Not at h; exact ⟨hx.1, h.le⟩
  have hw : ∀ (l : List (ℝ × ℝ)) (a : ℝ), (∀ q ∈ l, |q.1| < 1) →
      ((walk 0 0 a l).map fun q => (truncInt q.1, truncInt q.2)) = List.replicate l.length (0, 0) := by
    intro l
    induction l with
    | nil => intro a _; rfl
    | cons q l ih =>
      intro a h
      obtain ⟨r, s⟩ := q
      have hr : |r| < 1 := h (r, s) (by simp)
      have e1 : |0 + r * Real.cos a| < 1 := by
        rw [zero_add, abs_mul]
        exact lt_of_le_of_lt (mul_le_of_le_one_right (abs_nonneg _) (Real.abs_cos_le_one a)) hr
      have e2 : |0 + r * Real.sin a| < 1 := by
        rw [zero_add, abs_mul]
        exact lt_of_le_of_lt (mul_le_of_le_one_right (abs_nonneg _) (Real.abs_sin_le_one a)) hr
      simp only [walk, List.map_cons, List.length_cons, List.replicate_succ, key _ e1, key _ e2,
        ih _ (fun q hq => h q (by simp [hq]))]
  unfold randomStar
  rw [if_neg (by omega)]
  simp only [Int.toNat_natCast]
  rw [if_neg (fun h => hs h.1), hw]
  · simp [radii, angleSteps_length]
  · intro q hq
    have hq1 := (List.of_mem_zip (a := q.1) (b := q.2) hq).1
    simp only [radii, List.mem_map] at hq1
    obtain ⟨i, _, hi⟩ := hq1
    have a1 := le_npClip (g i) 0 (2 * avg) (by linarith)
    have a2 := npClip_le (g i) 0 (2 * avg)
    rw [← hi, abs_lt]
    constructor <;> linarith

/-- Regular draws meet the hypotheses. -/
example : (rawSteps (npClip (1 / 2) 0 1) 3 (fun _ => 1 / 2)).sum ≠ 0 := by
  have : npClip (1 / 2 : ℝ) 0 1 = 1 / 2 := npClip_of_mem _ _ _ (by norm_num) (by norm_num)
  rw [this]
  simp only [rawSteps, List.range_succ, List.range_zero, List.nil_append, List.cons_append, List.map_cons,
    List.map_nil, List.sum_cons, List.sum_nil]
  have := Real.pi_pos
  have e : (0 : ℝ) < 2 * Real.pi / (3 : ℕ) := by positivity
  intro h
  push_cast at h e
  nlinarith

end Maps
end Verif
