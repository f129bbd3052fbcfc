import Verif.Coll.Shape
import Verif.Coll.MeshProps
import Verif.Phys.OutlineProps
import Mathlib.Analysis.LocallyConvex.Separation
import Mathlib.Analysis.SpecialFunctions.Trigonometric.Bounds
import Mathlib.Analysis.Convex.Topology
import Mathlib.Analysis.SpecialFunctions.Complex.Arg

/-!
# C133: sizes and shapes of the outlines of rockets, spaceships, spacecraft, pedestrians and differential drives
-/

namespace Verif
namespace Coll

/-- Specification: the smallest axis-aligned box around the set. -/
structure Extent (S : Set (ℝ × ℝ)) (x0 x1 y0 y1 : ℝ) : Prop where
  within : ∀ p ∈ S, x0 ≤ p.1 ∧ p.1 ≤ x1 ∧ y0 ≤ p.2 ∧ p.2 ≤ y1
  left : ∃ p ∈ S, p.1 = x0
  right : ∃ p ∈ S, p.1 = x1
  bottom : ∃ p ∈ S, p.2 = y0
  top : ∃ p ∈ S, p.2 = y1

/-- Specification: the set is its own mirror image in the `x` axis. -/
def Mirrored (S : Set (ℝ × ℝ)) : Prop := ∀ p, p ∈ S ↔ (p.1, -p.2) ∈ S

/-- Specification: the set contains a neighbourhood of the reference point. -/
def Surrounds (S : Set (ℝ × ℝ)) : Prop := ∃ d > 0, ∀ p : ℝ × ℝ, |p.1| ≤ d → |p.2| ≤ d → p ∈ S

/-! ## Regions -/

theorem mem_region {ring : List (ℝ × ℝ)} {p : ℝ × ℝ} (h : p ∈ ring) : p ∈ region ring :=
  subset_convexHull ℝ _ h

theorem region_convex (ring : List (ℝ × ℝ)) : Convex ℝ (region ring) := convex_convexHull ℝ _

theorem region_halfplane {ring : List (ℝ × ℝ)} {a b c : ℝ} (h : ∀ p ∈ ring, a * p.1 + b * p.2 ≤ c) :
    ∀ p ∈ region ring, a * p.1 + b * p.2 ≤ c := by
  have hl : IsLinearMap ℝ (fun p : ℝ × ℝ => a * p.1 + b * p.2) :=
    ⟨fun p q => by simp only [Prod.fst_add, Prod.snd_add]; ring,
     fun k p => by simp only [Prod.smul_fst, Prod.smul_snd, smul_eq_mul]; ring⟩
  exact fun p hp => convexHull_min (fun q hq => h q hq) (convex_halfSpace_le hl c) hp

/-- Points of a convex set on a segment with parameter `t`. -/
theorem convex_at {S : Set (ℝ × ℝ)} (hS : Convex ℝ S) {p q : ℝ × ℝ} (hp : p ∈ S) (hq : q ∈ S) {t : ℝ}
    (h0 : 0 ≤ t) (h1 : t ≤ 1) : ((1 - t) * p.1 + t * q.1, (1 - t) * p.2 + t * q.2) ∈ S := by
  have := hS hp hq (sub_nonneg.mpr h1) h0 (by ring)
  exact this

theorem convex_x {S : Set (ℝ × ℝ)} (hS : Convex ℝ S) {x0 x1 y x : ℝ} (hp : (x0, y) ∈ S) (hq : (x1, y) ∈ S)
    (h0 : x0 ≤ x) (h1 : x ≤ x1) : (x, y) ∈ S := by
  rcases eq_or_lt_of_le (h0.trans h1) with e | hlt
  · have : x = x0 := le_antisymm (by rw [e]; exact h1) h0
    rw [this]; exact hp
  · have hd : 0 < x1 - x0 := sub_pos.mpr hlt
    have := convex_at hS hp hq (t := (x - x0) / (x1 - x0)) (div_nonneg (by linarith) hd.le)
      ((div_le_one hd).mpr (by linarith))
    convert this using 2
    · field_simp; ring
    · ring

theorem convex_y {S : Set (ℝ × ℝ)} (hS : Convex ℝ S) {x y0 y1 y : ℝ} (hp : (x, y0) ∈ S) (hq : (x, y1) ∈ S)
    (h0 : y0 ≤ y) (h1 : y ≤ y1) : (x, y) ∈ S := by
  rcases eq_or_lt_of_le (h0.trans h1) with e | hlt
  · have : y = y0 := le_antisymm (by rw [e]; exact h1) h0
    rw [this]; exact hp
  · have hd : 0 < y1 - y0 := sub_pos.mpr hlt
    have := convex_at hS hp hq (t := (y - y0) / (y1 - y0)) (div_nonneg (by linarith) hd.le)
      ((div_le_one hd).mpr (by linarith))
    convert this using 2
    · ring
    · field_simp; ring

theorem region_rect {ring : List (ℝ × ℝ)} {x0 x1 w : ℝ}
    (hring : ∀ p, p ∈ ring ↔ (p.1 = x0 ∨ p.1 = x1) ∧ (p.2 = w ∨ p.2 = -w)) (hx : x0 ≤ x1) (hw : 0 ≤ w)
    (p : ℝ × ℝ) : p ∈ region ring ↔ x0 ≤ p.1 ∧ p.1 ≤ x1 ∧ |p.2| ≤ w := by
  constructor
  · intro h
    have h1 := region_halfplane (a := 1) (b := 0) (c := x1) (fun q hq => by
      rcases ((hring q).mp hq).1 with e | e <;> rw [e] <;> linarith) p h
    have h2 := region_halfplane (a := -1) (b := 0) (c := -x0) (fun q hq => by
      rcases ((hring q).mp hq).1 with e | e <;> rw [e] <;> linarith) p h
    have h3 := region_halfplane (a := 0) (b := 1) (c := w) (fun q hq => by
      rcases ((hring q).mp hq).2 with e | e <;> rw [e] <;> linarith) p h
    have h4 := region_halfplane (a := 0) (b := -1) (c := w) (fun q hq => by
      rcases ((hring q).mp hq).2 with e | e <;> rw [e] <;> linarith) p h
    exact ⟨by linarith, by linarith, abs_le.mpr ⟨by linarith, by linarith⟩⟩
  · rintro ⟨h1, h2, h3⟩
    obtain ⟨h3, h4⟩ := abs_le.mp h3
    have hc := region_convex ring
    have m : ∀ x y, (x = x0 ∨ x = x1) → (y = w ∨ y = -w) → (x, y) ∈ region ring :=
      fun x y hx hy => mem_region ((hring (x, y)).mpr ⟨hx, hy⟩)
    have ht := convex_x hc (m x0 w (Or.inl rfl) (Or.inl rfl)) (m x1 w (Or.inr rfl) (Or.inl rfl)) h1 h2
    have hb := convex_x hc (m x0 (-w) (Or.inl rfl) (Or.inr rfl)) (m x1 (-w) (Or.inr rfl) (Or.inr rfl)) h1 h2
    exact convex_y hc hb ht h3 h4

theorem region_nose {ring : List (ℝ × ℝ)} {f c w : ℝ}
    (hring : ∀ p, p ∈ ring ↔ p = (f, w) ∨ p = (f + c, 0) ∨ p = (f, -w)) (hc : 0 < c) (hw : 0 < w)
    (p : ℝ × ℝ) : p ∈ region ring ↔ f ≤ p.1 ∧ |p.2| * c ≤ w * (f + c - p.1) := by
  constructor
  · intro h
    have h1 := region_halfplane (a := -1) (b := 0) (c := -f) (fun q hq => by
      rcases (hring q).mp hq with rfl | rfl | rfl <;> simp <;> linarith) p h
    have h2 := region_halfplane (a := w) (b := c) (c := w * (f + c)) (fun q hq => by
      rcases (hring q).mp hq with rfl | rfl | rfl <;> simp <;> nlinarith) p h
    have h3 := region_halfplane (a := w) (b := -c) (c := w * (f + c)) (fun q hq => by
      rcases (hring q).mp hq with rfl | rfl | rfl <;> simp <;> nlinarith) p h
    refine ⟨by linarith, ?_⟩
    rcases abs_cases p.2 with ⟨e, -⟩ | ⟨e, -⟩ <;> rw [e] <;> linarith
  · rintro ⟨h1, h2⟩
    have hcv := region_convex ring
    have ma : (f, w) ∈ region ring := mem_region ((hring _).mpr (Or.inl rfl))
    have mb : (f + c, (0 : ℝ)) ∈ region ring := mem_region ((hring _).mpr (Or.inr (Or.inl rfl)))
    have mc : (f, -w) ∈ region ring := mem_region ((hring _).mpr (Or.inr (Or.inr rfl)))
    have hx : p.1 ≤ f + c := by
      by_contra hn
      have h4 : w * (f + c - p.1) < 0 := mul_neg_of_pos_of_neg hw (by linarith [not_le.mp hn])
      have := mul_nonneg (abs_nonneg p.2) hc.le
      linarith
    have ht0 : 0 ≤ (p.1 - f) / c := div_nonneg (by linarith) hc.le
    have ht1 : (p.1 - f) / c ≤ 1 := (div_le_one hc).mpr (by linarith)
    have hu := convex_at hcv ma mb ht0 ht1
    have hd := convex_at hcv mc mb ht0 ht1
    have ex : (1 - (p.1 - f) / c) * f + (p.1 - f) / c * (f + c) = p.1 := by field_simp; ring
    simp only [ex, mul_zero, add_zero] at hu hd
    have hb : |p.2| ≤ (1 - (p.1 - f) / c) * w := by
      rw [← mul_le_mul_iff_left₀ hc]
      calc |p.2| * c ≤ w * (f + c - p.1) := h2
        _ = (1 - (p.1 - f) / c) * w * c := by field_simp; ring
    obtain ⟨h5, h6⟩ := abs_le.mp hb
    exact convex_y hcv hd hu (by linarith) h6

/-! ## Rockets and spaceships -/

/-- Specification: a box from `-r` to `f` of half width `w` with a triangular nose of length `c`. -/
def Bullet (r f c w : ℝ) : Set (ℝ × ℝ) := {p | -r ≤ p.1 ∧ |p.2| ≤ w ∧ |p.2| * c ≤ w * (f + c - p.1)}

theorem union_bullet {body header : List (ℝ × ℝ)} {r f c w : ℝ}
    (hb : ∀ p, p ∈ body ↔ (p.1 = -r ∨ p.1 = f) ∧ (p.2 = w ∨ p.2 = -w))
    (hh : ∀ p, p ∈ header ↔ p = (f, w) ∨ p = (f + c, 0) ∨ p = (f, -w)) (hr : -r ≤ f) (hc : 0 < c) (hw : 0 < w) :
    region body ∪ region header = Bullet r f c w := by
  ext p
  rw [Set.mem_union, region_rect hb hr hw.le, region_nose hh hc hw]
  simp only [Bullet, Set.mem_setOf_eq]
  constructor
  · rintro (⟨h1, h2, h3⟩ | ⟨h1, h2⟩)
    · refine ⟨h1, h3, ?_⟩
      have := mul_le_mul_of_nonneg_right h3 hc.le
      have h4 : w * c ≤ w * (f + c - p.1) := mul_le_mul_of_nonneg_left (by linarith) hw.le
      linarith
    · refine ⟨by linarith, ?_, h2⟩
      by_contra hn
      have h3 := mul_lt_mul_of_pos_right (not_le.mp hn) hc
      have h4 : w * (f + c - p.1) ≤ w * c := mul_le_mul_of_nonneg_left (by linarith) hw.le
      linarith
  · rintro ⟨h1, h2, h3⟩
    rcases le_total p.1 f with h | h
    · exact Or.inl ⟨h1, h, h2⟩
    · exact Or.inr ⟨h, h3⟩

/-- What is said about outlines with a nose. -/
structure IsBullet (S : Set (ℝ × ℝ)) (r f c w : ℝ) : Prop where
  shape : S = Bullet r f c w
  convex : Convex ℝ S
  mirrored : Mirrored S
  extent : Extent S (-r) (f + c) (-w) w
  surrounds : Surrounds S
  tip : ∀ p ∈ S, p.1 = f + c → p.2 = 0

theorem isBullet {r f c w : ℝ} (hr : 0 < r) (hf : 0 < f) (hc : 0 < c) (hw : 0 < w) :
    IsBullet (Bullet r f c w) r f c w where
  shape := rfl
  convex := by
    intro p hp q hq a b ha hb hab
    obtain ⟨p1, p2, p3⟩ := hp
    obtain ⟨q1, q2, q3⟩ := hq
    have habs : |a * p.2 + b * q.2| ≤ a * |p.2| + b * |q.2| := by
      refine (abs_add_le _ _).trans ?_
      rw [abs_mul, abs_mul, abs_of_nonneg ha, abs_of_nonneg hb]
    have e1 : (a • p + b • q).1 = a * p.1 + b * q.1 := rfl
    have e2 : (a • p + b • q).2 = a * p.2 + b * q.2 := rfl
    have hb' : b = 1 - a := by linarith
    refine ⟨?_, ?_, ?_⟩
    · rw [e1]
      have := mul_le_mul_of_nonneg_left p1 ha
      have := mul_le_mul_of_nonneg_left q1 hb
      subst hb'
      linarith
    · rw [e2]
      have := mul_le_mul_of_nonneg_left p2 ha
      have := mul_le_mul_of_nonneg_left q2 hb
      subst hb'
      linarith
    · rw [e1, e2]
      have h1 := mul_le_mul_of_nonneg_left p3 ha
      have h2 := mul_le_mul_of_nonneg_left q3 hb
      have h3 := mul_le_mul_of_nonneg_right habs hc.le
      subst hb'
      linarith
  mirrored p := by simp only [Bullet, Set.mem_setOf_eq, abs_neg]
  extent := by
    refine ⟨?_, ⟨(-r, 0), ?_, rfl⟩, ⟨(f + c, 0), ?_, rfl⟩, ⟨(0, -w), ?_, rfl⟩, ⟨(0, w), ?_, rfl⟩⟩
    · rintro p ⟨h1, h2, h3⟩
      obtain ⟨h4, h5⟩ := abs_le.mp h2
      refine ⟨h1, ?_, h4, h5⟩
      by_contra hn
      have := mul_neg_of_pos_of_neg hw (show f + c - p.1 < 0 by linarith [not_le.mp hn])
      have := mul_nonneg (abs_nonneg p.2) hc.le
      linarith
    · exact ⟨le_refl _, by simpa using hw.le, by
        have := mul_pos hw (show 0 < f + c - -r by linarith)
        simpa using this.le⟩
    · exact ⟨by show -r ≤ f + c; linarith, by simpa using hw.le, by simp⟩
    · refine ⟨by show -r ≤ 0; linarith, by simp [abs_of_pos hw], ?_⟩
      show |-w| * c ≤ w * (f + c - 0)
      rw [abs_neg, abs_of_pos hw]
      exact mul_le_mul_of_nonneg_left (by linarith) hw.le
    · refine ⟨by show -r ≤ 0; linarith, by simp [abs_of_pos hw], ?_⟩
      show |w| * c ≤ w * (f + c - 0)
      rw [abs_of_pos hw]
      exact mul_le_mul_of_nonneg_left (by linarith) hw.le
  surrounds := by
    refine ⟨min r (min f w), lt_min hr (lt_min hf hw), fun p h1 h2 => ?_⟩
    have a1 := min_le_left r (min f w)
    have a2 := (min_le_right r (min f w)).trans (min_le_left f w)
    have a3 := (min_le_right r (min f w)).trans (min_le_right f w)
    obtain ⟨h3, h4⟩ := abs_le.mp h1
    refine ⟨by linarith, by linarith, ?_⟩
    have h5 := mul_le_mul_of_nonneg_right (h2.trans a3) hc.le
    have h6 : w * c ≤ w * (f + c - p.1) := mul_le_mul_of_nonneg_left (by linarith) hw.le
    linarith
  tip := by
    rintro p ⟨-, -, h⟩ e
    rw [e, sub_self, mul_zero] at h
    by_contra hn
    have := mul_pos (abs_pos.mpr hn) hc
    linarith

/-- **C133.** The outline of a rocket with positive dimensions is a box with a triangular nose: convex,
symmetric to its axis, around the centre of gravity, from `l_r` behind it to `l_m + l_f + l_c` before it and
as wide as `width` says. -/
theorem C133_rocket (g : RocketGeom) (hw : 0 < g.wHalf) (hc : 0 < g.lc) (hf : 0 < g.lf + g.lm) (hr : 0 < g.lr) :
    IsBullet g.shape g.lr (g.lf + g.lm) g.lc g.wHalf ∧ g.width = g.wHalf - -g.wHalf := by
  have e : g.shape = Bullet g.lr (g.lf + g.lm) g.lc g.wHalf := by
    refine union_bullet ?_ ?_ (by linarith) hc hw
    · rintro ⟨x, y⟩
      simp only [RocketGeom.body, List.mem_cons, Prod.mk.injEq, List.not_mem_nil]
      tauto
    · rintro ⟨x, y⟩
      simp only [RocketGeom.header, List.mem_cons, Prod.mk.injEq, List.not_mem_nil]
      tauto
  refine ⟨?_, by simp only [RocketGeom.width]; ring⟩
  rw [e]
  exact isBullet hr hf hc hw

/-- **C133.** The same for spaceships, whose length is `l`. -/
theorem C133_spaceship (g : SpaceshipGeom) (hw : 0 < g.wHalf) (hc : 0 < g.lc) (hf : 0 < g.lf) (hr : 0 < g.lr) :
    IsBullet g.shape g.lr g.lf g.lc g.wHalf ∧ g.width = g.wHalf - -g.wHalf ∧ g.l = g.lf + g.lc - -g.lr := by
  have e : g.shape = Bullet g.lr g.lf g.lc g.wHalf := by
    refine union_bullet ?_ ?_ (by linarith) hc hw
    · rintro ⟨x, y⟩
      simp only [SpaceshipGeom.body, List.mem_cons, Prod.mk.injEq, List.not_mem_nil]
      tauto
    · rintro ⟨x, y⟩
      simp only [SpaceshipGeom.header, List.mem_cons, Prod.mk.injEq, List.not_mem_nil]
      tauto
  refine ⟨?_, by simp only [SpaceshipGeom.width]; ring, by simp only [SpaceshipGeom.l]; ring⟩
  rw [e]
  exact isBullet hr hf hc hw

/-- **C133.** The length of a rocket made by `default` is the one of its outline, whatever length is asked for. -/
theorem C133_length (w c f m r l lt wt fm : ℝ) (hw : 0 < w) (hc : 0 < c) (hf : 0 < f + m) (hr : 0 < r) :
    ∃ x0 x1 y0 y1, Extent (RocketGeom.default w c f m r l lt wt fm).shape x0 x1 y0 y1 ∧
      (RocketGeom.default w c f m r l lt wt fm).l = x1 - x0 := by
  refine ⟨_, _, _, _, (C133_rocket (RocketGeom.default w c f m r l lt wt fm) hw hc hf hr).1.extent, ?_⟩
  simp only [RocketGeom.default]
  ring

/-- **C133, negative.** `default` ignores the length that it is given. -/
theorem C133_false_length : ∃ w c f m r l lt wt fm : ℝ,
    0 < w ∧ 0 < c ∧ 0 < f ∧ 0 < m ∧ 0 < r ∧ 0 < l ∧ (RocketGeom.default w c f m r l lt wt fm).l ≠ l := by
  refine ⟨1 / 5, 3 / 10, 1 / 20, 1 / 4, 3 / 10, 2, 1 / 5, 1 / 100, 2, ?_⟩
  simp only [RocketGeom.default]
  norm_num

/-- **C133.** The default rocket reaches from 0.3 m behind its centre of gravity to 0.6 m before it and is 0.4 m wide, as long as
its default length says; the default spaceship from 1 m behind to 1.3 m before it and 0.8 m wide. -/
theorem C133_defaults : Extent defaultRocket.shape (-(3 / 10)) (3 / 5) (-(1 / 5)) (1 / 5) ∧ defaultRocket.l = 9 / 10 ∧
    Extent defaultSpaceship.shape (-1) (13 / 10) (-(2 / 5)) (2 / 5) ∧ defaultSpaceship.l = 23 / 10 := by
  have h1 := (C133_rocket defaultRocket (by norm_num [defaultRocket, RocketGeom.default])
    (by norm_num [defaultRocket, RocketGeom.default]) (by norm_num [defaultRocket, RocketGeom.default])
    (by norm_num [defaultRocket, RocketGeom.default])).1.extent
  have h2 := (C133_spaceship defaultSpaceship (by norm_num [defaultSpaceship]) (by norm_num [defaultSpaceship])
    (by norm_num [defaultSpaceship]) (by norm_num [defaultSpaceship])).1.extent
  refine ⟨?_, by norm_num [defaultRocket, RocketGeom.default], ?_, by norm_num [defaultSpaceship, SpaceshipGeom.l]⟩
  · have e : defaultRocket.lf + defaultRocket.lm + defaultRocket.lc = 3 / 5 := by
      norm_num [defaultRocket, RocketGeom.default]
    rw [e] at h1
    exact h1
  · have e : defaultSpaceship.lf + defaultSpaceship.lc = 13 / 10 := by norm_num [defaultSpaceship]
    rw [e] at h2
    exact h2

/-- The default rocket and spaceship. -/
example := C133_rocket defaultRocket (by norm_num [defaultRocket, RocketGeom.default])
  (by norm_num [defaultRocket, RocketGeom.default]) (by norm_num [defaultRocket, RocketGeom.default])
  (by norm_num [defaultRocket, RocketGeom.default])
example := C133_spaceship defaultSpaceship (by norm_num [defaultSpaceship]) (by norm_num [defaultSpaceship])
  (by norm_num [defaultSpaceship]) (by norm_num [defaultSpaceship])
example := C133_length (1 / 5) (3 / 10) (1 / 20) (1 / 4) (3 / 10) 2 (1 / 5) (1 / 100) 2 (by norm_num) (by norm_num)
  (by norm_num) (by norm_num)

/-! ## Ellipses -/

theorem mem_ring {a b r : ℝ} {p : ℝ × ℝ} : p ∈ scaleRing a b (circleRing r) ↔
    ∃ k < 65, p = (a * (corner r k).1, b * (corner r k).2) := by
  simp only [scaleRing, circleRing, List.mem_map, List.mem_range, corner]
  constructor
  · rintro ⟨_, ⟨k, hk, rfl⟩, rfl⟩
    exact ⟨k, hk, rfl⟩
  · rintro ⟨k, hk, rfl⟩
    exact ⟨_, ⟨k, hk, rfl⟩, rfl⟩

theorem mirrored_region {ring : List (ℝ × ℝ)} (h : ∀ p ∈ ring, (p.1, -p.2) ∈ ring) : Mirrored (region ring) := by
  have hl : IsLinearMap ℝ (fun p : ℝ × ℝ => ((p.1, -p.2) : ℝ × ℝ)) :=
    ⟨fun p q => by ext <;> simp [add_comm], fun k p => by ext <;> simp⟩
  have hm : ∀ p ∈ region ring, (p.1, -p.2) ∈ region ring := fun p hp =>
    convexHull_min (t := (fun p : ℝ × ℝ => ((p.1, -p.2) : ℝ × ℝ)) ⁻¹' region ring)
      (fun q hq => mem_region (h q hq)) ((region_convex ring).is_linear_preimage hl) hp
  intro p
  refine ⟨hm p, fun hp => ?_⟩
  have := hm _ hp
  simpa using this

theorem mirrored_union {S T : Set (ℝ × ℝ)} (hS : Mirrored S) (hT : Mirrored T) : Mirrored (S ∪ T) :=
  fun p => or_congr (hS p) (hT p)

theorem corner_mirror (r : ℝ) (k : Nat) (hk : k < 65) : corner r (64 - k) = ((corner r k).1, -(corner r k).2) := by
  have e : ((64 - k : Nat) : ℝ) * (Real.pi / 32) = 2 * Real.pi - k * (Real.pi / 32) := by
    rw [Nat.cast_sub (by omega)]
    push_cast
    ring
  simp only [corner, e, Real.cos_two_pi_sub, Real.sin_two_pi_sub]
  ext <;> ring

theorem corner_quarter (r : ℝ) : corner r 0 = (r, 0) ∧ corner r 16 = (0, -r) ∧ corner r 32 = (-r, 0) ∧
    corner r 48 = (0, r) := by
  have e1 : ((16 : Nat) : ℝ) * (Real.pi / 32) = Real.pi / 2 := by push_cast; ring
  have e2 : ((32 : Nat) : ℝ) * (Real.pi / 32) = Real.pi := by push_cast; ring
  have e3 : ((48 : Nat) : ℝ) * (Real.pi / 32) = Real.pi + Real.pi / 2 := by push_cast; ring
  refine ⟨?_, ?_, ?_, ?_⟩
  · simp [corner]
  · simp only [corner, e1, Real.cos_pi_div_two, Real.sin_pi_div_two, mul_zero, mul_one]
  · simp only [corner, e2, Real.cos_pi, Real.sin_pi]
    ext <;> simp
  · simp only [corner, e3, Real.cos_add, Real.sin_add, Real.cos_pi, Real.sin_pi, Real.cos_pi_div_two,
      Real.sin_pi_div_two]
    ext <;> simp

/-- Specification: the polygon lies in the ellipse with half axes `A` and `B` and covers the one that is smaller
by the factor `cos (π / 64)`. -/
def NearEllipse (S : Set (ℝ × ℝ)) (A B : ℝ) : Prop :=
  (∀ p ∈ S, (p.1 / A) ^ 2 + (p.2 / B) ^ 2 ≤ 1) ∧
    ∀ p : ℝ × ℝ, (p.1 / A) ^ 2 + (p.2 / B) ^ 2 ≤ Real.cos (Real.pi / 64) ^ 2 → p ∈ S

/-- What is said about round outlines. -/
structure IsRound (S : Set (ℝ × ℝ)) (A B : ℝ) : Prop where
  convex : Convex ℝ S
  mirrored : Mirrored S
  extent : Extent S (-A) A (-B) B
  surrounds : Surrounds S
  near : NearEllipse S A B

theorem near_corner (u v : ℝ) : ∃ k : Nat, k < 65 ∧
    Real.cos (Real.pi / 64) * Real.sqrt (u ^ 2 + v ^ 2) ≤
      u * Real.cos (k * (Real.pi / 32)) + v * -Real.sin (k * (Real.pi / 32)) := by
  have hpi := Real.pi_pos
  obtain ⟨th, hth⟩ : ∃ th : ℝ, u = Real.sqrt (u ^ 2 + v ^ 2) * Real.cos th ∧
      v = Real.sqrt (u ^ 2 + v ^ 2) * Real.sin th := by
    refine ⟨Complex.arg ⟨u, v⟩, ?_, ?_⟩
    · have := Complex.norm_mul_cos_arg ⟨u, v⟩
      rw [Complex.norm_eq_sqrt_sq_add_sq] at this
      exact this.symm
    · have := Complex.norm_mul_sin_arg ⟨u, v⟩
      rw [Complex.norm_eq_sqrt_sq_add_sq] at this
      exact this.symm
  obtain ⟨R, hR⟩ : ∃ R, R = Real.sqrt (u ^ 2 + v ^ 2) := ⟨_, rfl⟩
  have hR0 : 0 ≤ R := by rw [hR]; exact Real.sqrt_nonneg _
  rw [← hR] at hth ⊢
  obtain ⟨n, hn⟩ : ∃ n : ℤ, n = round (-th / (Real.pi / 32)) := ⟨_, rfl⟩
  have hr := abs_sub_round (-th / (Real.pi / 32))
  rw [← hn] at hr
  have hd : |th + n * (Real.pi / 32)| ≤ Real.pi / 64 := by
    have e : th + n * (Real.pi / 32) = -(-th / (Real.pi / 32) - n) * (Real.pi / 32) := by
      field_simp
      ring
    rw [e, abs_mul, abs_neg, abs_of_pos (show 0 < Real.pi / 32 by positivity)]
    have := mul_le_mul_of_nonneg_right hr (show 0 ≤ Real.pi / 32 by positivity)
    linarith
  have hc : Real.cos (Real.pi / 64) ≤ Real.cos (th + n * (Real.pi / 32)) := by
    rw [← Real.cos_abs (th + n * (Real.pi / 32))]
    exact Real.cos_le_cos_of_nonneg_of_le_pi (abs_nonneg _) (by linarith) hd
  have h0 : 0 ≤ n % 64 := Int.emod_nonneg _ (by norm_num)
  have h1 : n % 64 < 64 := Int.emod_lt_of_pos _ (by norm_num)
  refine ⟨(n % 64).toNat, by omega, ?_⟩
  have ek : (((n % 64).toNat : Nat) : ℝ) * (Real.pi / 32) = n * (Real.pi / 32) - (n / 64 : ℤ) * (2 * Real.pi) := by
    have e1 : (((n % 64).toNat : Nat) : ℝ) = ((n % 64 : ℤ) : ℝ) := by
      exact_mod_cast congrArg (fun z : ℤ => (z : ℝ)) (Int.toNat_of_nonneg h0)
    have e2 : (n : ℝ) = ((n % 64 : ℤ) : ℝ) + 64 * ((n / 64 : ℤ) : ℝ) := by
      exact_mod_cast (Int.emod_add_mul_ediv n 64).symm
    rw [e1, e2]
    have e3 : ((n % 64 : ℤ) : ℝ) + 64 * ((n / 64 : ℤ) : ℝ) = (n : ℝ) := e2.symm
    ring
  rw [ek, Real.cos_sub_int_mul_two_pi, Real.sin_sub_int_mul_two_pi]
  have : u * Real.cos (n * (Real.pi / 32)) + v * -Real.sin (n * (Real.pi / 32)) =
      R * Real.cos (th + n * (Real.pi / 32)) := by
    rw [Real.cos_add]
    conv_lhs => rw [hth.1, hth.2]
    ring
  rw [this, mul_comm]
  exact mul_le_mul_of_nonneg_left hc hR0

theorem cancel_sq {D u : ℝ} (h : D ≠ 0) : u / D * (u * D) = u ^ 2 := by
  field_simp

theorem isRound {a b r : ℝ} (ha : 0 < a * r) (hb : 0 < b * r) :
    IsRound (region (scaleRing a b (circleRing r))) (a * r) (b * r) := by
  have hin : ∀ k < 65, (a * (corner r k).1, b * (corner r k).2) ∈ region (scaleRing a b (circleRing r)) :=
    fun k hk => mem_region (mem_ring.mpr ⟨k, hk, rfl⟩)
  obtain ⟨c0, c16, c32, c48⟩ := corner_quarter r
  have i0 := hin 0 (by norm_num)
  have i16 := hin 16 (by norm_num)
  have i32 := hin 32 (by norm_num)
  have i48 := hin 48 (by norm_num)
  rw [c0] at i0
  rw [c16] at i16
  rw [c32] at i32
  rw [c48] at i48
  obtain ⟨S, hS⟩ : ∃ S, S = region (scaleRing a b (circleRing r)) := ⟨_, rfl⟩
  have hcv : Convex ℝ S := by rw [hS]; exact region_convex _
  have hhalf : ∀ x y c : ℝ, (∀ k < 65, x * (a * (corner r k).1) + y * (b * (corner r k).2) ≤ c) →
      ∀ p ∈ S, x * p.1 + y * p.2 ≤ c := by
    intro x y c h p hp
    rw [hS] at hp
    refine region_halfplane (fun q hq => ?_) p hp
    obtain ⟨k, hk, rfl⟩ := mem_ring.mp hq
    exact h k hk
  rw [← hS] at i0 i16 i32 i48 hin ⊢
  refine ⟨hcv, ?_, ?_, ?_, ?_, ?_⟩
  · rw [hS]
    refine mirrored_region fun p hp => ?_
    obtain ⟨k, hk, rfl⟩ := mem_ring.mp hp
    refine mem_ring.mpr ⟨64 - k, by omega, ?_⟩
    rw [corner_mirror r k hk]
    ext <;> simp
  · refine ⟨fun p hp => ?_, ⟨_, i32, by simp⟩, ⟨_, i0, rfl⟩, ⟨_, i16, by simp⟩, ⟨_, i48, rfl⟩⟩
    have q1 := hhalf 1 0 (a * r) (fun k _ => by
      have := mul_le_mul_of_nonneg_left (Real.cos_le_one (k * (Real.pi / 32))) ha.le
      simp only [corner]; linarith) p hp
    have q2 := hhalf (-1) 0 (a * r) (fun k _ => by
      have := mul_le_mul_of_nonneg_left (Real.neg_one_le_cos (k * (Real.pi / 32))) ha.le
      simp only [corner]; linarith) p hp
    have q3 := hhalf 0 1 (b * r) (fun k _ => by
      have := mul_le_mul_of_nonneg_left (Real.neg_one_le_sin (k * (Real.pi / 32))) hb.le
      simp only [corner]; linarith) p hp
    have q4 := hhalf 0 (-1) (b * r) (fun k _ => by
      have := mul_le_mul_of_nonneg_left (Real.sin_le_one (k * (Real.pi / 32))) hb.le
      simp only [corner]; linarith) p hp
    exact ⟨by linarith, by linarith, by linarith, by linarith⟩
  · have m1 := convex_at hcv i0 i48 (t := 1 / 2) (by norm_num) (by norm_num)
    have m2 := convex_at hcv i0 i16 (t := 1 / 2) (by norm_num) (by norm_num)
    have m3 := convex_at hcv i32 i48 (t := 1 / 2) (by norm_num) (by norm_num)
    have m4 := convex_at hcv i32 i16 (t := 1 / 2) (by norm_num) (by norm_num)
    refine ⟨min (a * r) (b * r) / 2, by have := lt_min ha hb; linarith, fun p h1 h2 => ?_⟩
    have l1 := min_le_left (a * r) (b * r)
    have l2 := min_le_right (a * r) (b * r)
    obtain ⟨h3, h4⟩ := abs_le.mp h1
    obtain ⟨h5, h6⟩ := abs_le.mp h2
    have n1 : (a * r / 2, b * r / 2) ∈ S := by convert m1 using 2 <;> ring
    have n2 : (a * r / 2, -(b * r) / 2) ∈ S := by convert m2 using 2 <;> ring
    have n3 : (-(a * r) / 2, b * r / 2) ∈ S := by convert m3 using 2 <;> ring
    have n4 : (-(a * r) / 2, -(b * r) / 2) ∈ S := by convert m4 using 2 <;> ring
    have t1 := convex_x hcv n3 n1 (x := p.1) (by linarith) (by linarith)
    have t2 := convex_x hcv n4 n2 (x := p.1) (by linarith) (by linarith)
    exact convex_y hcv t2 t1 (by linarith) (by linarith)
  · intro p hp
    obtain ⟨u, hu⟩ : ∃ u, u = p.1 / (a * r) := ⟨_, rfl⟩
    obtain ⟨v, hv⟩ : ∃ v, v = p.2 / (b * r) := ⟨_, rfl⟩
    have e1 : p.1 = u * (a * r) := by rw [hu, div_mul_cancel₀ _ ha.ne']
    have e2 : p.2 = v * (b * r) := by rw [hv, div_mul_cancel₀ _ hb.ne']
    rw [← hu, ← hv]
    have := hhalf (u / (a * r)) (v / (b * r)) ((1 + (u ^ 2 + v ^ 2)) / 2) (fun k _ => by
      have f1 : u / (a * r) * (a * (corner r k).1) = u * Real.cos (k * (Real.pi / 32)) := by
        simp only [corner]
        rw [show a * (r * Real.cos (k * (Real.pi / 32))) = a * r * Real.cos (k * (Real.pi / 32)) by ring,
          ← mul_assoc, div_mul_cancel₀ _ ha.ne']
      have f2 : v / (b * r) * (b * (corner r k).2) = -(v * Real.sin (k * (Real.pi / 32))) := by
        simp only [corner]
        rw [show b * -(r * Real.sin (k * (Real.pi / 32))) = b * r * -Real.sin (k * (Real.pi / 32)) by ring,
          ← mul_assoc, div_mul_cancel₀ _ hb.ne']
        ring
      rw [f1, f2]
      have := Real.sin_sq_add_cos_sq (k * (Real.pi / 32))
      nlinarith [sq_nonneg (u - Real.cos (k * (Real.pi / 32))), sq_nonneg (v + Real.sin (k * (Real.pi / 32)))])
      p hp
    rw [e1, e2] at this
    have g1 : u / (a * r) * (u * (a * r)) = u ^ 2 := cancel_sq ha.ne'
    have g2 : v / (b * r) * (v * (b * r)) = v ^ 2 := cancel_sq hb.ne'
    rw [g1, g2] at this
    linarith
  · intro p hp
    by_contra hn
    have hcl : IsClosed S := by
      rw [hS]
      exact Set.Finite.isClosed_convexHull _ (List.finite_toSet _)
    obtain ⟨f, c, h1, h2⟩ := geometric_hahn_banach_closed_point hcv hcl hn
    have hf : ∀ q : ℝ × ℝ, f q = f (1, 0) * q.1 + f (0, 1) * q.2 := by
      intro q
      have : q = q.1 • ((1, 0) : ℝ × ℝ) + q.2 • ((0, 1) : ℝ × ℝ) := by ext <;> simp
      conv_lhs => rw [this]
      rw [map_add, map_smul, map_smul]
      simp [mul_comm]
    obtain ⟨k, hk, hmax⟩ := near_corner (f (1, 0) * (a * r)) (f (0, 1) * (b * r))
    have h3 := h1 _ (hin k hk)
    rw [hf] at h2 h3
    obtain ⟨u, hu⟩ : ∃ u, u = p.1 / (a * r) := ⟨_, rfl⟩
    obtain ⟨v, hv⟩ : ∃ v, v = p.2 / (b * r) := ⟨_, rfl⟩
    have e1 : p.1 = u * (a * r) := by rw [hu, div_mul_cancel₀ _ ha.ne']
    have e2 : p.2 = v * (b * r) := by rw [hv, div_mul_cancel₀ _ hb.ne']
    rw [← hu, ← hv] at hp
    rw [e1, e2] at h2
    simp only [corner] at h3
    obtain ⟨X, hX⟩ : ∃ X, X = f (1, 0) * (a * r) := ⟨_, rfl⟩
    obtain ⟨Y, hY⟩ : ∃ Y, Y = f (0, 1) * (b * r) := ⟨_, rfl⟩
    rw [← hX, ← hY] at hmax
    have hcos : 0 ≤ Real.cos (Real.pi / 64) :=
      Real.cos_nonneg_of_mem_Icc ⟨by have := Real.pi_pos; linarith, by have := Real.pi_pos; linarith⟩
    have hcs : X * u + Y * v ≤ Real.cos (Real.pi / 64) * Real.sqrt (X ^ 2 + Y ^ 2) := by
      refine le_trans (Real.le_sqrt_of_sq_le (y := (X ^ 2 + Y ^ 2) * (u ^ 2 + v ^ 2)) ?_) ?_
      · nlinarith [sq_nonneg (X * v - Y * u)]
      · rw [Real.sqrt_mul (by positivity), mul_comm]
        exact mul_le_mul_of_nonneg_right (by rw [Real.sqrt_le_left hcos]; exact hp) (Real.sqrt_nonneg _)
    have k1 : f (1, 0) * (u * (a * r)) + f (0, 1) * (v * (b * r)) = X * u + Y * v := by rw [hX, hY]; ring
    have k2 : f (1, 0) * (a * (r * Real.cos (k * (Real.pi / 32)))) +
        f (0, 1) * (b * -(r * Real.sin (k * (Real.pi / 32)))) =
        X * Real.cos (k * (Real.pi / 32)) + Y * -Real.sin (k * (Real.pi / 32)) := by rw [hX, hY]; ring
    rw [k1] at h2
    rw [k2] at h3
    linarith

/-- **C133.** Pedestrians are ellipses with half axes 0.5 m along and 0.75 m across their direction. -/
theorem C133_pedestrian : IsRound (region pedestrianRing) (1 / 2) (3 / 4) := by
  have := isRound (a := 1) (b := 3 / 2) (r := 1 / 2) (by norm_num) (by norm_num)
  norm_num at this
  exact this

/-- **C133.** Differential drives are circles with the diameter `width`. -/
theorem C133_diff_drive (r : ℝ) (hr : 0 < r) :
    IsRound (region (circleRing r)) r r ∧ diffDriveWidth r = r - -r := by
  refine ⟨?_, by simp only [diffDriveWidth]; ring⟩
  have e : scaleRing 1 1 (circleRing r) = circleRing r := by
    simp [scaleRing]
  have := isRound (a := 1) (b := 1) (r := r) (by linarith) (by linarith)
  rwa [e, one_mul] at this

example := C133_diff_drive (3 / 5) (by norm_num)

/-- **C133.** Whether the wheels of a differential drive stay within its outline: they do when the farthest corner
of a tyre is nearer than `cos (π / 64)` radii, and not when it is farther than the radius. -/
theorem C133_wheels (r base wheel : ℝ) (hr : 0 < r) (hb : 0 ≤ base) (hw : 0 ≤ wheel) :
    (wheel ^ 2 + (base / 2 + wheel / 3) ^ 2 ≤ (r * Real.cos (Real.pi / 64)) ^ 2 →
      ∀ w ∈ Outline.diffDriveWheels base wheel, ∀ p ∈ w, p ∈ region (circleRing r)) ∧
    (r ^ 2 < wheel ^ 2 + (base / 2 + wheel / 3) ^ 2 →
      ∃ w ∈ Outline.diffDriveWheels base wheel, ∃ p ∈ w, p ∉ region (circleRing r)) := by
  obtain ⟨h1, h2⟩ := (C133_diff_drive r hr).1.near
  have hr2 : 0 < r ^ 2 := by positivity
  have key : ∀ x y : ℝ, (x / r) ^ 2 + (y / r) ^ 2 = (x ^ 2 + y ^ 2) / r ^ 2 := by
    intro x y
    field_simp
  constructor
  · intro h w hw' p hp
    have hp' : p.1 ^ 2 + p.2 ^ 2 ≤ wheel ^ 2 + (base / 2 + wheel / 3) ^ 2 := by
      simp only [Outline.diffDriveWheels, Outline.placeWheels, Outline.wheelRect, List.mem_cons, List.not_mem_nil,
        or_false, List.map_cons, List.map_nil] at hw'
      have hbw := mul_nonneg hb hw
      norm_num at hw'
      rcases hw' with rfl | rfl <;>
      · simp only [List.mem_cons, List.not_mem_nil, or_false, Outline.place] at hp
        rcases hp with rfl | rfl | rfl | rfl | rfl <;> (simp only []; nlinarith)
    refine h2 p ?_
    rw [key, div_le_iff₀ hr2]
    refine hp'.trans (h.trans (le_of_eq (by ring)))
  · intro h
    refine ⟨(Outline.wheelRect (wheel / 3) wheel).map (Outline.place 1 0 (0, base / 2)), ?_,
      (wheel, base / 2 + wheel / 3), ?_, fun hm => ?_⟩
    · simp [Outline.diffDriveWheels, Outline.placeWheels]
    · simp only [Outline.wheelRect, Outline.place, List.map_cons, List.map_nil, List.mem_cons]
      right; right; right; left
      ext <;> simp; ring
    · have := h1 _ hm
      rw [key, div_le_one hr2] at this
      exact absurd this (not_le.mpr h)

/-- **C133, negative.** The tyres of the default differential drive (wheels of radius 0.2 m, 1 m apart, in a circle of
radius 0.6 m) stick out of its outline. -/
theorem C133_false_wheels :
    ∃ w ∈ Outline.diffDriveWheels (1 : ℝ) (1 / 5), ∃ p ∈ w, p ∉ region (circleRing (3 / 5)) :=
  (C133_wheels (3 / 5) 1 (1 / 5) (by norm_num) (by norm_num) (by norm_num)).2 (by norm_num)

/-- A smaller drive within the same circle. -/
example : ∀ w ∈ Outline.diffDriveWheels (1 / 5 : ℝ) (1 / 10), ∀ p ∈ w, p ∈ region (circleRing (3 / 5)) := by
  refine (C133_wheels (3 / 5) (1 / 5) (1 / 10) (by norm_num) (by norm_num) (by norm_num)).1 ?_
  have h1 : Real.cos (Real.pi / 3) ≤ Real.cos (Real.pi / 64) :=
    Real.cos_le_cos_of_nonneg_of_le_pi (by have := Real.pi_pos; positivity) (by have := Real.pi_pos; linarith)
      (by have := Real.pi_pos; linarith)
  rw [Real.cos_pi_div_three] at h1
  nlinarith

/-! ## Spacecraft -/

theorem rect_region (g : SpacecraftGeom) (hw : 0 < g.wHalf) (hr : 0 < g.lr) (p : ℝ × ℝ) :
    p ∈ region g.rect ↔ -g.lr ≤ p.1 ∧ p.1 ≤ 1 / 1000 ∧ |p.2| ≤ g.wHalf := by
  refine region_rect (x0 := -g.lr) (x1 := 1 / 1000) ?_ (by linarith) hw.le p
  rintro ⟨x, y⟩
  simp only [SpacecraftGeom.rect, List.mem_cons, Prod.mk.injEq, List.not_mem_nil]
  tauto

/-- **C133.** The outline of a spacecraft whose nose is longer than a millimetre: a box behind the centre of
gravity and half an ellipse before it; symmetric to its axis, around the centre of gravity, from `lr` behind it to
`lf` before it and as wide as `width` says. -/
theorem C133_spacecraft (g : SpacecraftGeom) (hw : 0 < g.wHalf) (hf : 1 / 1000 ≤ g.lf) (h : g.lf < g.lr) :
    ∃ S E R, g.shape = .ok S ∧ S = E ∪ R ∧ IsRound E g.lf g.wHalf ∧
      (∀ p, p ∈ R ↔ -g.lr ≤ p.1 ∧ p.1 ≤ 1 / 1000 ∧ |p.2| ≤ g.wHalf) ∧ Mirrored S ∧
      Extent S (-g.lr) g.lf (-g.wHalf) g.wHalf ∧ Surrounds S ∧ g.width = g.wHalf - -g.wHalf := by
  have hE : IsRound (region g.ellipse) g.lf g.wHalf := by
    have := isRound (a := g.lf / g.wHalf) (b := 1) (r := g.wHalf)
      (by rw [div_mul_cancel₀ _ hw.ne']; linarith) (by linarith)
    rw [div_mul_cancel₀ _ hw.ne', one_mul] at this
    exact this
  have hR := rect_region g hw (by linarith)
  refine ⟨_, region g.ellipse, region g.rect, ?_, rfl, hE, hR, ?_, ?_, ?_, ?_⟩
  · simp only [SpacecraftGeom.shape, if_neg hw.ne']
  · refine mirrored_union hE.mirrored fun p => ?_
    rw [hR, hR]
    simp only [abs_neg]
  · obtain ⟨e1, e2, ⟨q, hq, e3⟩, ⟨q', hq', e4⟩, ⟨q'', hq'', e5⟩⟩ := hE.extent
    refine ⟨?_, ⟨(-g.lr, 0), Or.inr ((hR _).mpr ⟨le_refl _, ?_, ?_⟩), rfl⟩, ⟨q, Or.inl hq, e3⟩,
      ⟨q', Or.inl hq', e4⟩, ⟨q'', Or.inl hq'', e5⟩⟩
    · rintro p (hp | hp)
      · obtain ⟨h1, h2, h3, h4⟩ := e1 p hp
        exact ⟨by linarith, h2, h3, h4⟩
      · obtain ⟨h1, h2, h3⟩ := (hR p).mp hp
        obtain ⟨h4, h5⟩ := abs_le.mp h3
        exact ⟨h1, by linarith, h4, h5⟩
    · show -g.lr ≤ 1 / 1000
      linarith
    · simpa using hw.le
  · obtain ⟨d, hd, hs⟩ := hE.surrounds
    exact ⟨d, hd, fun p h1 h2 => Or.inl (hs p h1 h2)⟩
  · simp only [SpacecraftGeom.width]
    ring

/-- **C133.** A spacecraft is made exactly when its front part is shorter than its rear part; the outline of one
without width raises. -/
theorem C133_spacecraft_errors (w lf lr : ℝ) :
    ((∃ g, SpacecraftGeom.mk? w lf lr = .ok g) ↔ lf < lr) ∧
      (∀ g, SpacecraftGeom.mk? w lf lr = .ok g → g.wHalf = w ∧ g.lf = lf ∧ g.lr = lr) ∧
      (¬ lf < lr → SpacecraftGeom.mk? w lf lr = .error .assertion) ∧
      ((⟨0, lf, lr⟩ : SpacecraftGeom).shape = .error .zeroDiv) := by
  refine ⟨?_, ?_, fun h => if_neg h, if_pos rfl⟩
  · constructor
    · rintro ⟨g, hg⟩
      by_contra hn
      rw [SpacecraftGeom.mk?, if_neg hn] at hg
      cases hg
    · exact fun h => ⟨_, if_pos h⟩
  · intro g hg
    by_cases h : lf < lr
    · rw [SpacecraftGeom.mk?, if_pos h] at hg
      cases hg
      exact ⟨rfl, rfl, rfl⟩
    · rw [SpacecraftGeom.mk?, if_neg h] at hg
      cases hg

theorem cos_odd (m : Nat) (hm : m % 2 = 1) (h : m < 192) : Real.cos (m * (Real.pi / 64)) ≤ Real.cos (Real.pi / 64) := by
  have hpi := Real.pi_pos
  rcases le_or_gt m 64 with h1 | h1
  · refine Real.cos_le_cos_of_nonneg_of_le_pi (by positivity) ?_ ?_
    · have : (m : ℝ) ≤ 64 := by exact_mod_cast h1
      have := mul_le_mul_of_nonneg_right this (show 0 ≤ Real.pi / 64 by positivity)
      linarith
    · have : (1 : ℝ) ≤ m := by exact_mod_cast (by omega : 1 ≤ m)
      have := mul_le_mul_of_nonneg_right this (show 0 ≤ Real.pi / 64 by positivity)
      linarith
  · rw [← Real.cos_abs, ← Real.cos_sub_two_pi, ← Real.cos_abs (Real.pi / 64)]
    rw [← Real.cos_abs (|↑m * (Real.pi / 64)| - 2 * Real.pi)]
    have hnn : 0 ≤ (m : ℝ) * (Real.pi / 64) := by positivity
    rw [abs_of_nonneg hnn]
    have e : (m : ℝ) * (Real.pi / 64) - 2 * Real.pi = ((m : ℝ) - 128) * (Real.pi / 64) := by ring
    rw [e, abs_mul, abs_of_pos (show 0 < Real.pi / 64 by positivity)]
    have ha : |(m : ℝ) - 128| ≤ 64 := by
      have a1 : (m : ℝ) < 192 := by exact_mod_cast h
      have a2 : (64 : ℝ) < m := by exact_mod_cast h1
      exact abs_le.mpr ⟨by linarith, by linarith⟩
    have hb : 1 ≤ |(m : ℝ) - 128| := by
      rcases lt_or_ge m 128 with h2 | h2
      · have : (m : ℝ) ≤ 127 := by exact_mod_cast (by omega : m ≤ 127)
        rw [abs_of_neg (by linarith)]
        linarith
      · have : (129 : ℝ) ≤ m := by exact_mod_cast (by omega : 129 ≤ m)
        rw [abs_of_nonneg (by linarith)]
        linarith
    refine Real.cos_le_cos_of_nonneg_of_le_pi (by positivity) ?_ ?_
    · have := mul_le_mul_of_nonneg_right ha (show 0 ≤ Real.pi / 64 by positivity)
      linarith
    · have := mul_le_mul_of_nonneg_right hb (show 0 ≤ Real.pi / 64 by positivity)
      linarith

/-- **C133, negative.** The outline of a spacecraft is not convex when its nose is longer than `0.001 / sin (π / 32)`,
about a centimetre: the box reaches a millimetre into the half with the ellipse. -/
theorem C133_false_convex (g : SpacecraftGeom) (hw : 0 < g.wHalf) (hf : 1 / 1000 < g.lf * Real.sin (Real.pi / 32))
    (hf0 : 0 < g.lf) (hr : 0 < g.lr) : ∃ S, g.shape = .ok S ∧ ¬ Convex ℝ S := by
  refine ⟨region g.ellipse ∪ region g.rect, by simp only [SpacecraftGeom.shape, if_neg hw.ne'], fun hcv => ?_⟩
  have hpi := Real.pi_pos
  have hR := rect_region g hw hr
  obtain ⟨s, hs⟩ : ∃ s, s = Real.sin (Real.pi / 32) := ⟨_, rfl⟩
  obtain ⟨c, hc⟩ : ∃ c, c = Real.cos (Real.pi / 32) := ⟨_, rfl⟩
  have hP : ((1 / 1000 : ℝ), g.wHalf) ∈ region g.ellipse ∪ region g.rect :=
    Or.inr ((hR _).mpr ⟨by show -g.lr ≤ 1 / 1000; linarith, le_refl _, (abs_of_pos hw).le⟩)
  have hQ : (g.lf * s, g.wHalf * c) ∈ region g.ellipse ∪ region g.rect := by
    refine Or.inl (mem_region (mem_ring.mpr ⟨49, by norm_num, ?_⟩))
    have e : ((49 : Nat) : ℝ) * (Real.pi / 32) = Real.pi + (Real.pi / 32 + Real.pi / 2) := by push_cast; ring
    simp only [corner, e]
    rw [Real.cos_add Real.pi, Real.sin_add Real.pi, Real.cos_pi, Real.sin_pi, Real.cos_add_pi_div_two,
      Real.sin_add_pi_div_two, ← hs, ← hc]
    ext
    · simp only []
      field_simp
      ring
    · simp only []
      ring
  have hM := convex_at hcv hP hQ (t := 1 / 2) (by norm_num) (by norm_num)
  rcases hM with hM | hM
  · obtain ⟨C, hC⟩ : ∃ C, C = Real.cos (31 * (Real.pi / 64)) := ⟨_, rfl⟩
    obtain ⟨D, hD⟩ : ∃ D, D = Real.sin (31 * (Real.pi / 64)) := ⟨_, rfl⟩
    have hD' : D = Real.cos (Real.pi / 64) := by
      rw [hD, ← Real.cos_pi_div_two_sub]
      congr 1
      ring
    have hC0 : 0 < C := by
      rw [hC]
      exact Real.cos_pos_of_mem_Ioo ⟨by linarith, by linarith⟩
    have := region_halfplane (a := C / g.lf) (b := D / g.wHalf) (c := D) (fun q hq => ?_) _ hM
    · simp only [] at this
      have q1 : C / g.lf * ((1 - 1 / 2) * (1 / 1000) + 1 / 2 * (g.lf * s)) =
          C / g.lf * (1 / 2000) + 1 / 2 * (C * s) := by
        field_simp
        ring
      have q2 : D / g.wHalf * ((1 - 1 / 2) * g.wHalf + 1 / 2 * (g.wHalf * c)) = 1 / 2 * D + 1 / 2 * (D * c) := by
        field_simp
        ring
      have q3 : C * s + D * c = D := by
        rw [hD']
        have : Real.cos (31 * (Real.pi / 64) - 15 * (Real.pi / 32)) = Real.cos (Real.pi / 64) := by
          congr 1
          ring
        rw [Real.cos_sub, ← hC, ← hD, hD'] at this
        have e1 : Real.cos (15 * (Real.pi / 32)) = s := by
          rw [hs, ← Real.cos_pi_div_two_sub]
          congr 1
          ring
        have e2 : Real.sin (15 * (Real.pi / 32)) = c := by
          rw [hc, ← Real.sin_pi_div_two_sub]
          congr 1
          ring
        rw [e1, e2] at this
        exact this
      rw [q1, q2] at this
      have : 0 < C / g.lf * (1 / 2000) := by positivity
      linarith
    · obtain ⟨k, hk, rfl⟩ := mem_ring.mp hq
      have e1 : C / g.lf * (g.lf / g.wHalf * (corner g.wHalf k).1) = C * Real.cos (k * (Real.pi / 32)) := by
        simp only [corner]
        field_simp
      have e2 : D / g.wHalf * (1 * (corner g.wHalf k).2) = -(D * Real.sin (k * (Real.pi / 32))) := by
        simp only [corner]
        field_simp
      have e3 := cos_odd (2 * k + 31) (by omega) (by omega)
      have e4 : ((2 * k + 31 : Nat) : ℝ) * (Real.pi / 64) = 31 * (Real.pi / 64) + k * (Real.pi / 32) := by
        push_cast
        ring
      rw [e4, Real.cos_add, ← hC, ← hD, ← hD'] at e3
      simp only [] at e1 e2 ⊢
      rw [e1, e2]
      linarith
  · have := ((hR _).mp hM).2.1
    simp only [] at this
    rw [← hs] at hf
    linarith

/-- **C133.** The default spacecraft is accepted, reaches from 3 m behind its centre of gravity to 2 m before it and is 2 m wide. -/
theorem C133_default_spacecraft :
    SpacecraftGeom.mk? defaultSpacecraft.wHalf defaultSpacecraft.lf defaultSpacecraft.lr = .ok defaultSpacecraft ∧
      ∃ S, defaultSpacecraft.shape = .ok S ∧ Extent S (-3) 2 (-1) 1 ∧ defaultSpacecraft.width = 2 := by
  refine ⟨if_pos (by norm_num [defaultSpacecraft]), ?_⟩
  obtain ⟨S, E, R, h1, -, -, -, -, h2, -, -⟩ := C133_spacecraft defaultSpacecraft (by norm_num [defaultSpacecraft])
    (by norm_num [defaultSpacecraft]) (by norm_num [defaultSpacecraft])
  exact ⟨S, h1, h2, by norm_num [defaultSpacecraft, SpacecraftGeom.width]⟩

example := C133_spacecraft defaultSpacecraft (by norm_num [defaultSpacecraft]) (by norm_num [defaultSpacecraft])
  (by norm_num [defaultSpacecraft])
example : ∃ S, defaultSpacecraft.shape = .ok S ∧ ¬ Convex ℝ S := by
  refine C133_false_convex _ (by norm_num [defaultSpacecraft]) ?_ (by norm_num [defaultSpacecraft])
    (by norm_num [defaultSpacecraft])
  have hpi := Real.pi_pos
  have h := Real.mul_le_sin (x := Real.pi / 32) (by positivity) (by linarith)
  have e : 2 / Real.pi * (Real.pi / 32) = 1 / 16 := by field_simp; norm_num
  rw [e] at h
  simp only [defaultSpacecraft]
  linarith

end Coll
end Verif
