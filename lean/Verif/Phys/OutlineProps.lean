import Verif.Phys.Outline
import Mathlib.Tactic.Linarith
import Mathlib.Tactic.Ring
import Mathlib.Tactic.NormNum
import Mathlib.Tactic.FieldSimp

/-!
# C59: vehicle outlines
-/

namespace Verif
namespace Outline

set_option linter.unusedSectionVars false

variable {K : Type} [Field K] [LinearOrder K] [IsStrictOrderedRing K]

/-- A box given by its lower and upper corner. -/
structure Box (K : Type) where
  x0 : K
  y0 : K
  x1 : K
  y1 : K

/-- The point lies in the box. -/
def Box.Mem (b : Box K) (p : K × K) : Prop := b.x0 ≤ p.1 ∧ p.1 ≤ b.x1 ∧ b.y0 ≤ p.2 ∧ p.2 ≤ b.y1

/-- The polyline goes once round the box and ends where it starts. -/
def Box.IsBoundary (b : Box K) (pts : List (K × K)) : Prop :=
  b.x0 < b.x1 ∧ b.y0 < b.y1 ∧
    pts = [(b.x0, b.y0), (b.x0, b.y1), (b.x1, b.y1), (b.x1, b.y0), (b.x0, b.y0)]

/-- The vehicle types of vehicle_structures.py. -/
def IsVehicle : ModelType → Prop
  | .car | .truck | .motorcycle | .bicycle => True
  | _ => False

/-- Tyre half width and radius by vehicle type. -/
def Tyre (k : ModelType) (hw r : K) : Prop :=
  (k = .car ∧ hw = 1 / 10 ∧ r = 3 / 10) ∨ (k = .truck ∧ hw = 1 / 5 ∧ r = 2 / 5) ∨
    ((k = .motorcycle ∨ k = .bicycle) ∧ hw = 1 / 20 ∧ r = 3 / 10)

theorem tyre_pos {k : ModelType} {hw r : K} (h : Tyre k hw r) : 0 < hw ∧ hw ≤ r ∧ hw < r ∧ 0 < r := by
  rcases h with ⟨_, rfl, rfl⟩ | ⟨_, rfl, rfl⟩ | ⟨_, rfl, rfl⟩ <;> norm_num

theorem tyre_shape {g : Geometry K} {hw r : K} (h : Tyre g.kind hw r) :
    wheelShape g = .ok (hw, r) := by
  unfold wheelShape
  rcases h with ⟨e, rfl, rfl⟩ | ⟨e, rfl, rfl⟩ | ⟨e | e, rfl, rfl⟩ <;> rw [e]

theorem tyre_exists (k : ModelType) (h : IsVehicle k) : ∃ hw r : K, Tyre k hw r := by
  cases k <;> first
    | exact ⟨_, _, Or.inl ⟨rfl, rfl, rfl⟩⟩
    | exact ⟨_, _, Or.inr (Or.inl ⟨rfl, rfl, rfl⟩)⟩
    | exact ⟨_, _, Or.inr (Or.inr ⟨Or.inl rfl, rfl, rfl⟩)⟩
    | exact ⟨_, _, Or.inr (Or.inr ⟨Or.inr rfl, rfl, rfl⟩)⟩
    | exact h.elim

/-- The front bumper. -/
def front (g : Geometry K) (r : K) : K := if fourWheels g.kind then g.lf / 2 else r

theorem bumpers_eq {g : Geometry K} {hw r : K} (h : Tyre g.kind hw r) :
    bumpers g = .ok (front g r, r * 2) := by
  unfold bumpers
  rw [tyre_shape h]
  rfl

theorem front_pos {g : Geometry K} {hw r : K} (h : Tyre g.kind hw r) (hlf : 0 < g.lf) :
    0 < front g r := by
  unfold front
  split
  · linarith
  · exact (tyre_pos h).2.2.2

theorem outline_eq {g : Geometry K} {hw r : K} (h : Tyre g.kind hw r) :
    outline g = .ok [(-g.lr - r * 2, -g.wHalf - hw), (-g.lr - r * 2, g.wHalf + hw),
      (g.lf + front g r, g.wHalf + hw), (g.lf + front g r, -g.wHalf - hw),
      (-g.lr - r * 2, -g.wHalf - hw)] := by
  unfold outline
  rw [tyre_shape h, bumpers_eq h]
  rfl

/-- **C59.** For all positive dimensions the outline of a vehicle is the boundary of a box around the
wheel axles; the box contains the centers of all wheels (in its interior) and all lights, its length is
the `length` property and its width the `width` property plus a tyre. -/
theorem C59_outline (g : Geometry K) (hk : IsVehicle g.kind) (hw : 0 < g.wHalf) (hf : 0 < g.lf)
    (hr : 0 < g.lr) :
    ∃ (b : Box K) (pts ls : List (K × K)) (tyre r : K),
      Tyre g.kind tyre r ∧ outline g = .ok pts ∧ b.IsBoundary pts ∧
      length g = .ok (b.x1 - b.x0) ∧ b.y1 - b.y0 = width g + 2 * tyre ∧
      (∀ p ∈ wheels g, b.x0 < p.1 ∧ p.1 < b.x1 ∧ b.y0 < p.2 ∧ p.2 < b.y1) ∧
      lights g = .ok ls ∧ ls.length = 4 ∧ (tyre ≤ 2 * g.wHalf → ∀ p ∈ ls, b.Mem p) ∧
      (∀ p ∈ ls, p.1 = b.x0 ∨ p.1 = b.x1) := by
  obtain ⟨tyre, r, ht⟩ := tyre_exists (K := K) g.kind hk
  obtain ⟨t1, t2, t3, t4⟩ := tyre_pos ht
  have hfp := front_pos ht hf
  refine ⟨⟨-g.lr - r * 2, -g.wHalf - tyre, g.lf + front g r, g.wHalf + tyre⟩, _,
    [(-g.lr - r * 2, g.wHalf - tyre), (-g.lr - r * 2, -g.wHalf + tyre), (g.lf + front g r, g.wHalf - tyre),
      (g.lf + front g r, -g.wHalf + tyre)], tyre, r, ht, outline_eq ht,
    ⟨by dsimp only; linarith, by dsimp only; linarith, rfl⟩, ?_, ?_, ?_, ?_, rfl, ?_, ?_⟩
  · unfold length wheelbase
    rw [bumpers_eq ht]
    simp only [bind, Except.bind, pure, Except.pure]
    congr 1
    ring
  · simp only [width]; ring
  · intro p hp
    unfold wheels at hp
    split at hp <;> simp only [List.mem_cons, List.not_mem_nil, or_false] at hp
    · rcases hp with rfl | rfl | rfl | rfl <;> dsimp only <;>
        exact ⟨by linarith, by linarith, by linarith, by linarith⟩
    · rcases hp with rfl | rfl <;> dsimp only <;>
        exact ⟨by linarith, by linarith, by linarith, by linarith⟩
  · unfold lights
    rw [tyre_shape ht, bumpers_eq ht]
    rfl
  · intro h2 p hp
    simp only [List.mem_cons, List.not_mem_nil, or_false] at hp
    rcases hp with rfl | rfl | rfl | rfl <;> unfold Box.Mem <;> dsimp only <;>
      exact ⟨by linarith, by linarith, by linarith, by linarith⟩
  · intro p hp
    simp only [List.mem_cons, List.not_mem_nil, or_false] at hp
    rcases hp with rfl | rfl | rfl | rfl <;> simp

/-- **C59.** Types that are not vehicles are rejected. -/
theorem C59_rejected (g : Geometry K) (hk : ¬ IsVehicle g.kind) :
    outline g = .error .zValue ∧ length g = .error .zValue ∧ lights g = .error .zValue ∧
    ∀ c s, rotatedWheels g c s = .error .zValue := by
  obtain ⟨k, w, f, r⟩ := g
  cases k <;> first
    | exact absurd trivial hk
    | exact ⟨rfl, rfl, rfl, fun _ _ => rfl⟩

example : ¬ IsVehicle .pedestrian ∧ IsVehicle defaultCar.kind ∧ 0 < defaultCar.wHalf ∧
    0 < defaultCar.lf ∧ 0 < defaultCar.lr ∧ (1 / 10 : ℚ) ≤ 2 * defaultCar.wHalf := by
  refine ⟨fun h => h, trivial, ?_, ?_, ?_, ?_⟩ <;> decide +kernel

/-- The corners of a tyre at `pos` turned by an angle with cosine `c` and sine `s`. -/
def IsTyreAt (hw r c s : K) (pos : K × K) (pts : List (K × K)) : Prop :=
  ∃ p1 p2 p3 p4, pts = [p1, p2, p3, p4, p1] ∧
    p1 = (pos.1 + (c * r + s * hw), pos.2 + (s * r - c * hw)) ∧
    p2 = (pos.1 - (c * r - s * hw), pos.2 - (s * r + c * hw)) ∧
    p3 = (pos.1 - (c * r + s * hw), pos.2 - (s * r - c * hw)) ∧
    p4 = (pos.1 + (c * r - s * hw), pos.2 + (s * r + c * hw))

theorem isTyreAt_place (hw r c s : K) (pos : K × K) :
    IsTyreAt hw r c s pos ((wheelRect hw r).map (place c s pos)) := by
  refine ⟨_, _, _, _, rfl, ?_, ?_, ?_, ?_⟩ <;>
    exact Prod.ext (by simp only [place]; ring) (by simp only [place]; ring)

/-- **C59.** The wheel centers: a four-wheeled vehicle has one at each end of either axle, the axles
`lf` ahead of and `lr` behind the reference point and each as wide as the outline less the tyres; a
two-wheeler has one in the middle of either axle. -/
theorem C59_centers (g : Geometry K) (q : K × K) :
    q ∈ wheels g ↔ (q.1 = g.lf ∨ q.1 = -g.lr) ∧
      if fourWheels g.kind = true then (q.2 = g.wHalf ∨ q.2 = -g.wHalf) else q.2 = 0 := by
  obtain ⟨a, b⟩ := q
  unfold wheels
  split
  · simp only [List.mem_cons, List.not_mem_nil, or_false, Prod.mk.injEq]
    tauto
  · simp only [List.mem_cons, List.not_mem_nil, or_false, Prod.mk.injEq]
    tauto

/-- **C59.** Cars and trucks have four wheels, motorcycles and bicycles two. -/
theorem C59_number (g : Geometry K) :
    (g.kind = .car ∨ g.kind = .truck → (wheels g).length = 4) ∧
      (g.kind = .motorcycle ∨ g.kind = .bicycle → (wheels g).length = 2) := by
  constructor <;> rintro (h | h) <;> simp [wheels, h, fourWheels]

example : defaultCar.kind = .car := rfl

/-- **C59.** The sizes of the default vehicles: wheelbase, width without tyres and length. -/
theorem C59_default_sizes :
    (wheelbase defaultCar = 12 / 5 ∧ width defaultCar = 8 / 5 ∧ length defaultCar = .ok (18 / 5)) ∧
    (wheelbase defaultBicycle = 2 ∧ width defaultBicycle = 1 / 2 ∧ length defaultBicycle = .ok (29 / 10)) ∧
    (wheelbase defaultTruck = 8 ∧ width defaultTruck = 12 / 5 ∧ length defaultTruck = .ok (54 / 5)) ∧
    defaultCar.lf = defaultCar.lr ∧ defaultBicycle.lf = defaultBicycle.lr ∧
    defaultTruck.lf = defaultTruck.lr := by
  refine ⟨⟨?_, ?_, ?_⟩, ⟨?_, ?_, ?_⟩, ⟨?_, ?_, ?_⟩, ?_, ?_, ?_⟩ <;> decide +kernel

/-- **C59.** The wheels drawn are one tyre for each wheel center, in order; the front ones, the first
half, are turned by the steering angle and the rear ones are not. -/
theorem C59_wheels (g : Geometry K) (c s hw r : K) (ht : Tyre g.kind hw r) :
    ∃ ws, rotatedWheels g c s = .ok ws ∧ ws.length = (wheels g).length ∧
      ∀ i pos w, (wheels g)[i]? = some pos → ws[i]? = some w →
        ((pos.1 = g.lf ∧ 2 * i < (wheels g).length ∧ IsTyreAt hw r c s pos w) ∨
         (pos.1 = -g.lr ∧ (wheels g).length ≤ 2 * i ∧ IsTyreAt hw r 1 0 pos w)) := by
  unfold rotatedWheels
  rw [tyre_shape ht]
  unfold wheels
  cases hfw : fourWheels g.kind
  · refine ⟨_, rfl, rfl, ?_⟩
    intro i pos w h1 h2
    match i with
    | 0 =>
      cases h1
      cases h2
      exact Or.inl ⟨rfl, by simp, isTyreAt_place _ _ _ _ _⟩
    | 1 =>
      cases h1
      cases h2
      exact Or.inr ⟨rfl, by simp, isTyreAt_place _ _ _ _ _⟩
    | i + 2 => cases h1
  · refine ⟨_, rfl, rfl, ?_⟩
    intro i pos w h1 h2
    match i with
    | 0 => cases h1; cases h2; exact Or.inl ⟨rfl, by simp, isTyreAt_place _ _ _ _ _⟩
    | 1 => cases h1; cases h2; exact Or.inl ⟨rfl, by simp, isTyreAt_place _ _ _ _ _⟩
    | 2 => cases h1; cases h2; exact Or.inr ⟨rfl, by simp, isTyreAt_place _ _ _ _ _⟩
    | 3 => cases h1; cases h2; exact Or.inr ⟨rfl, by simp, isTyreAt_place _ _ _ _ _⟩
    | i + 4 => cases h1

/-- **C59.** With the wheels straight, all tyres lie within the outline exactly when the front bumper is
at least the tyre radius, which is always so for two-wheelers. -/
theorem C59_straight (g : Geometry K) (hk : IsVehicle g.kind) (hw : 0 < g.wHalf) (hf : 0 < g.lf)
    (hr : 0 < g.lr) (tyre r : K) (ht : Tyre g.kind tyre r) :
    ∃ (b : Box K) (pts : List (K × K)) (ws : List (List (K × K))),
      outline g = .ok pts ∧ b.IsBoundary pts ∧ rotatedWheels g 1 0 = .ok ws ∧
      ((∀ w ∈ ws, ∀ p ∈ w, b.Mem p) ↔ (fourWheels g.kind = true → 2 * r ≤ g.lf)) := by
  obtain ⟨t1, t2, t3, t4⟩ := tyre_pos ht
  have hfp := front_pos ht hf
  obtain ⟨ws, hws, -, -⟩ := C59_wheels g 1 0 tyre r ht
  refine ⟨⟨-g.lr - r * 2, -g.wHalf - tyre, g.lf + front g r, g.wHalf + tyre⟩, _, ws, outline_eq ht,
    ⟨by dsimp only; linarith, by dsimp only; linarith, rfl⟩, hws, ?_⟩
  unfold rotatedWheels at hws
  rw [tyre_shape ht] at hws
  unfold wheels at hws
  cases hfw : fourWheels g.kind
  · rw [hfw] at hws
    cases hws
    simp only [Bool.false_eq_true, false_implies, iff_true]
    have hfr : front g r = r := by unfold front; rw [hfw]; rfl
    intro w hw' p hp
    simp only [placeWheels, List.length_cons, List.length_nil, wheelRect, List.map_cons, List.map_nil,
      List.mem_cons, List.not_mem_nil, or_false, Bool.false_eq_true, if_false] at hw'
    rcases hw' with rfl | rfl <;> simp [place] at hp <;>
      rcases hp with rfl | rfl | rfl | rfl | rfl <;> simp only [Box.Mem, hfr] <;>
      exact ⟨by linarith, by linarith, by linarith, by linarith⟩
  · rw [hfw] at hws
    cases hws
    have hfr : front g r = g.lf / 2 := by unfold front; rw [hfw]; rfl
    constructor
    · intro h _
      have := (h _ (List.mem_cons_self ..) _ (List.mem_cons_self ..)).2.1
      simp only [place, hfr] at this
      linarith
    · intro h w hw' p hp
      have h := h rfl
      simp only [placeWheels, List.length_cons, List.length_nil, wheelRect, List.map_cons, List.map_nil,
        List.mem_cons, List.not_mem_nil, or_false, if_true] at hw'
      rcases hw' with rfl | rfl | rfl | rfl <;> simp [place] at hp <;>
        rcases hp with rfl | rfl | rfl | rfl | rfl <;> simp only [Box.Mem, hfr] <;>
        exact ⟨by linarith, by linarith, by linarith, by linarith⟩

/-- **C59 does not extend to steered wheels**: at every steering angle strictly between 0 and a quarter
turn to the left, a front tyre of a four-wheeled vehicle sticks out of the outline sideways. -/
theorem C59_steered_counterexample (g : Geometry K) (h4 : fourWheels g.kind = true) (c s : K)
    (hc : 0 < c) (hs : 0 < s) (hcs : c * c + s * s = 1) (b : Box K) (pts : List (K × K))
    (ho : outline g = .ok pts) (hb : b.IsBoundary pts) :
    ∃ ws, rotatedWheels g c s = .ok ws ∧ ∃ w ∈ ws, ∃ p ∈ w, ¬ b.Mem p := by
  have hk : IsVehicle g.kind := by
    cases hg : g.kind <;> first
      | trivial
      | (rw [hg] at h4; cases h4)
  obtain ⟨tyre, r, ht⟩ := tyre_exists (K := K) g.kind hk
  obtain ⟨t1, t2, t3, t4⟩ := tyre_pos ht
  obtain ⟨ws, hws, -, hall⟩ := C59_wheels g c s tyre r ht
  refine ⟨ws, hws, ?_⟩
  rw [outline_eq ht] at ho
  injection ho with ho
  have hy : b.y1 = g.wHalf + tyre := by
    have h2 := hb.2.2
    rw [← ho] at h2
    injection h2 with _ h2
    injection h2 with h2 _
    exact (congrArg Prod.snd h2).symm
  unfold rotatedWheels at hws
  rw [tyre_shape ht] at hws
  unfold wheels at hws
  rw [h4] at hws
  cases hws
  refine ⟨_, List.mem_cons_self .., place c s (g.lf, g.wHalf) (r, tyre), ?_, ?_⟩
  · simp [wheelRect]
  · intro hm
    have := hm.2.2.2
    simp only [place, hy] at this
    have hc1 : c < 1 := by nlinarith
    have hs1 : s < 1 := by nlinarith
    have hsum : 1 < c + s := by nlinarith
    nlinarith

example : fourWheels defaultCar.kind = true ∧ (0 : ℚ) < 4 / 5 ∧ (0 : ℚ) < 3 / 5 ∧
    (4 / 5 : ℚ) * (4 / 5) + 3 / 5 * (3 / 5) = 1 := by decide +kernel

/-- **C59.** The wheels of a differential drive are two straight tyres, symmetric to its axis. -/
theorem C59_diff_drive (wheelbase wheelradius : K) :
    ∃ w1 w2, diffDriveWheels wheelbase wheelradius = [w1, w2] ∧
      IsTyreAt (wheelradius / 3) wheelradius 1 0 (0, -wheelbase / 2) w1 ∧
      IsTyreAt (wheelradius / 3) wheelradius 1 0 (0, wheelbase / 2) w2 ∧
      ∀ p, p ∈ w1 ↔ (p.1, -p.2) ∈ w2 := by
  refine ⟨(wheelRect (wheelradius / 3) wheelradius).map (place 1 0 (0, -wheelbase / 2)),
    (wheelRect (wheelradius / 3) wheelradius).map (place 1 0 (0, wheelbase / 2)),
    rfl, isTyreAt_place _ _ _ _ _, isTyreAt_place _ _ _ _ _, ?_⟩
  rintro ⟨x, y⟩
  simp only [wheelRect, place, List.map_cons, List.map_nil, List.mem_cons, List.not_mem_nil, or_false,
    Prod.mk.injEq]
  constructor
  · rintro (⟨hx, hy⟩ | ⟨hx, hy⟩ | ⟨hx, hy⟩ | ⟨hx, hy⟩ | ⟨hx, hy⟩)
    · right; right; right; left; exact ⟨by linarith, by linarith⟩
    · right; right; left; exact ⟨by linarith, by linarith⟩
    · right; left; exact ⟨by linarith, by linarith⟩
    · left; exact ⟨by linarith, by linarith⟩
    · right; right; right; left; exact ⟨by linarith, by linarith⟩
  · rintro (⟨hx, hy⟩ | ⟨hx, hy⟩ | ⟨hx, hy⟩ | ⟨hx, hy⟩ | ⟨hx, hy⟩)
    · right; right; right; left; exact ⟨by linarith, by linarith⟩
    · right; right; left; exact ⟨by linarith, by linarith⟩
    · right; left; exact ⟨by linarith, by linarith⟩
    · left; exact ⟨by linarith, by linarith⟩
    · right; right; right; left; exact ⟨by linarith, by linarith⟩

end Outline
end Verif
