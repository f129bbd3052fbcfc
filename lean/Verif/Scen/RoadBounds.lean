import Verif.Scen.Model
import Mathlib.Data.Set.Basic

/-!
# Road boundaries (src/dg_commons/maps/road_bounds.py)

The shapely operations are parameters: regions `G`, line pieces `R`.
-/

namespace Verif
namespace Scen

/-- What is read of a CommonRoad lanelet (road_bounds.py:22-31). -/
structure RLanelet (G : Type) where
  polygon : G
  successors : Nat
  predecessors : Nat
  left : List (ℝ × ℝ)
  right : List (ℝ × ℝ)

/-- The result of shapely's `difference` of a line: one line, without the attribute `geoms`, or a collection. -/
inductive Lines (R : Type) where
  | one (r : R)
  | many (rs : List R)

/-- The shapely operations used: `buffer` of a polygon, the buffered gate between two points, `unary_union` as
the list of exterior and interiors of its parts, and `difference`. -/
structure RoadOps (G R : Type) where
  buffer : G → ℝ → G
  gate : ℝ × ℝ → ℝ × ℝ → ℝ → G
  union : List G → List (R × List R)
  diff : Lines R → G → Lines R

variable {G R : Type}

/-- `pt1 = right_vertices[k]`, `pt2 = left_vertices[k]` and the gate between them, road_bounds.py:24-31. -/
def gateAt (ops : RoadOps G R) (l : RLanelet G) (k : Int) (b : ℝ) : Except Err G :=
  match pyGet l.right k, pyGet l.left k with
  | .ok p1, .ok p2 => .ok (ops.gate p1 p2 (b * 2))
  | .error e, _ => .error e
  | _, .error e => .error e

/-- The gates of one lanelet. -/
def gatesOf (ops : RoadOps G R) (b : ℝ) (l : RLanelet G) : Except Err (List G) :=
  match (if l.successors = 0 then (gateAt ops l (-1) b).map ([·]) else .ok []) with
  | .error e => .error e
  | .ok a => match (if l.predecessors = 0 then (gateAt ops l 0 b).map ([·]) else .ok []) with
    | .error e => .error e
    | .ok c => .ok (a ++ c)

/-- The loop of road_bounds.py:20-31: the gates. -/
def allGates (ops : RoadOps G R) (b : ℝ) : List (RLanelet G) → Except Err (List G)
  | [] => .ok []
  | l :: ls => match gatesOf ops b l with
    | .error e => .error e
    | .ok a => match allGates ops b ls with
      | .error e => .error e
      | .ok c => .ok (a ++ c)

/-- `ext_bounds.geoms`: only collections have it. -/
def Lines.geoms : Lines R → Except Err (List R)
  | .one _ => .error .attribute
  | .many rs => .ok rs

/-- The loop of road_bounds.py:42-48 over the parts of the union. -/
def boundsOf (ops : RoadOps G R) (gates : List G) : List (R × List R) → Except Err (List R)
  | [] => .ok []
  | (ext, ints) :: parts =>
    match (gates.foldl ops.diff (.one ext)).geoms with
    | .error e => .error e
    | .ok ls => match boundsOf ops gates parts with
      | .error e => .error e
      | .ok rest => .ok (ints ++ ls ++ rest)

/-- `build_road_boundary_obstacle`, road_bounds.py:7-49. -/
def roadBounds (ops : RoadOps G R) (lanelets : List (RLanelet G)) (b : ℝ) : Except Err (List R × List G) :=
  match allGates ops b lanelets with
  | .error e => .error e
  | .ok gates =>
    match boundsOf ops gates (ops.union (lanelets.map fun l => ops.buffer l.polygon b)) with
    | .error e => .error e
    | .ok rs => .ok (rs, gates)

/-! ## C88 -/

/-- The points of a result of `difference`. -/
def Lines.points (pts : R → Set (ℝ × ℝ)) : Lines R → Set (ℝ × ℝ)
  | .one r => pts r
  | .many rs => {p | ∃ r ∈ rs, p ∈ pts r}

/-- `difference` removes the points of a region (up to the finitely many end points of the pieces, which are
left out of `pts`). -/
def DiffLaw (ops : RoadOps G R) (pts : R → Set (ℝ × ℝ)) (reg : G → Set (ℝ × ℝ)) : Prop :=
  ∀ l g, (ops.diff l g).points pts = l.points pts \ reg g

theorem foldl_diff (ops : RoadOps G R) (pts : R → Set (ℝ × ℝ)) (reg : G → Set (ℝ × ℝ))
    (hd : DiffLaw ops pts reg) : ∀ (gates : List G) (l : Lines R) (p : ℝ × ℝ),
    p ∈ (gates.foldl ops.diff l).points pts ↔ p ∈ l.points pts ∧ ∀ g ∈ gates, p ∉ reg g
  | [], l, p => by simp
  | g :: gates, l, p => by
    rw [List.foldl_cons, foldl_diff ops pts reg hd gates, hd l g]
    simp [and_assoc]

theorem boundsOf_iff (ops : RoadOps G R) (pts : R → Set (ℝ × ℝ)) (reg : G → Set (ℝ × ℝ))
    (hd : DiffLaw ops pts reg) (gates : List G) : ∀ (parts : List (R × List R)) (rs : List R),
    boundsOf ops gates parts = .ok rs → ∀ p, (∃ r ∈ rs, p ∈ pts r) ↔
      ∃ part ∈ parts, (∃ r ∈ part.2, p ∈ pts r) ∨ (p ∈ pts part.1 ∧ ∀ g ∈ gates, p ∉ reg g)
  | [], rs, h => by
    injection h with h
    subst h
    simp
  | (ext, ints) :: parts, rs, h => by
    intro p
    unfold boundsOf at h
    have hf := foldl_diff ops pts reg hd gates (.one ext) p
    cases hl : gates.foldl ops.diff (.one ext) with
    | one r => rw [hl] at h; cases h
    | many ls =>
      rw [hl] at h hf
      simp only [Lines.geoms] at h
      cases h2 : boundsOf ops gates parts with
      | error e => rw [h2] at h; cases h
      | ok rest =>
        simp only [h2] at h
        injection h with h
        subst h
        have ih := boundsOf_iff ops pts reg hd gates parts rest h2 p
        simp only [Lines.points, Set.mem_setOf_eq] at hf
        simp only [List.mem_append, or_and_right, exists_or, List.mem_cons, exists_eq_left, ih, hf]

/-- **C88.** The road boundaries consist of the inner boundaries of the road surface and of those points of the
outer boundary that lie in no gate. -/
theorem C88_bounds_partial (ops : RoadOps G R) (pts : R → Set (ℝ × ℝ)) (reg : G → Set (ℝ × ℝ))
    (hd : DiffLaw ops pts reg) (lanelets : List (RLanelet G)) (b : ℝ) (rs : List R) (gates : List G)
    (h : roadBounds ops lanelets b = .ok (rs, gates)) (p : ℝ × ℝ) :
    (∃ r ∈ rs, p ∈ pts r) ↔ ∃ part ∈ ops.union (lanelets.map fun l => ops.buffer l.polygon b),
      (∃ r ∈ part.2, p ∈ pts r) ∨ (p ∈ pts part.1 ∧ ∀ g ∈ gates, p ∉ reg g) := by
  unfold roadBounds at h
  cases h1 : allGates ops b lanelets with
  | error e => rw [h1] at h; cases h
  | ok gs =>
    simp only [h1] at h
    cases h2 : boundsOf ops gs (ops.union (lanelets.map fun l => ops.buffer l.polygon b)) with
    | error e => rw [h2] at h; cases h
    | ok ls =>
      simp only [h2] at h
      injection h with h
      injection h with e1 e2
      subst e1 e2
      exact boundsOf_iff ops pts reg hd gs _ ls h2 p

theorem gates_iff (ops : RoadOps G R) (b : ℝ) : ∀ (lanelets : List (RLanelet G)) (gates : List G),
    allGates ops b lanelets = .ok gates → ∀ g, g ∈ gates ↔ ∃ l ∈ lanelets,
      (l.successors = 0 ∧ gateAt ops l (-1) b = .ok g) ∨ (l.predecessors = 0 ∧ gateAt ops l 0 b = .ok g)
  | [], gates, h => by
    injection h with h
    subst h
    simp
  | l :: ls, gates, h => by
    intro g
    unfold allGates at h
    cases h1 : gatesOf ops b l with
    | error e => rw [h1] at h; cases h
    | ok a =>
      simp only [h1] at h
      cases h2 : allGates ops b ls with
      | error e => rw [h2] at h; cases h
      | ok c =>
        simp only [h2] at h
        injection h with h
        subst h
        have ih := gates_iff ops b ls c h2 g
        have ha : g ∈ a ↔ (l.successors = 0 ∧ gateAt ops l (-1) b = .ok g) ∨
            (l.predecessors = 0 ∧ gateAt ops l 0 b = .ok g) := by
          unfold gatesOf at h1
          by_cases hs : l.successors = 0 <;> by_cases hp : l.predecessors = 0 <;>
            simp only [hs, hp, if_true, if_false] at h1 ⊢ <;>
            cases hg1 : gateAt ops l (-1) b <;> cases hg2 : gateAt ops l 0 b <;>
            simp_all [Except.map] <;> (try subst h1) <;> simp [eq_comm]
        rw [List.mem_append, ih, ha]
        simp

/-- Specification: `g` is the gate, twice as wide as the buffer, from the last right to the last left vertex. -/
def EndGate (ops : RoadOps G R) (b : ℝ) (l : RLanelet G) (g : G) : Prop :=
  ∃ p q, l.right.getLast? = some p ∧ l.left.getLast? = some q ∧ g = ops.gate p q (b * 2)

/-- Specification: `g` is the gate, twice as wide as the buffer, from the first right to the first left vertex. -/
def StartGate (ops : RoadOps G R) (b : ℝ) (l : RLanelet G) (g : G) : Prop :=
  ∃ p q, l.right.head? = some p ∧ l.left.head? = some q ∧ g = ops.gate p q (b * 2)

theorem pyGet_last {α : Type} (l : List α) (x : α) : pyGet l (-1) = .ok x ↔ l.getLast? = some x := by
  cases h : l.getLast? with
  | none =>
    rw [List.getLast?_eq_none_iff] at h
    subst h
    simp [pyGet]
  | some y =>
    have hne : l ≠ [] := by rintro rfl; cases h
    have hpos : 0 < l.length := List.length_pos_iff.mpr hne
    rw [List.getLast?_eq_getElem?] at h
    have hl : ((-1 : Int) + l.length).toNat = l.length - 1 := by omega
    simp only [pyGet, show (-1 : Int) < 0 by decide, if_true, hl, h]
    rw [if_neg (by omega)]
    simp

theorem pyGet_head {α : Type} (l : List α) (x : α) : pyGet l 0 = .ok x ↔ l.head? = some x := by
  cases l <;> simp [pyGet]

theorem gateAt_end (ops : RoadOps G R) (b : ℝ) (l : RLanelet G) (g : G) :
    gateAt ops l (-1) b = .ok g ↔ EndGate ops b l g := by
  unfold gateAt EndGate
  simp only [← pyGet_last]
  cases h1 : pyGet l.right (-1) <;> cases h2 : pyGet l.left (-1) <;> simp [eq_comm]

theorem gateAt_start (ops : RoadOps G R) (b : ℝ) (l : RLanelet G) (g : G) :
    gateAt ops l 0 b = .ok g ↔ StartGate ops b l g := by
  unfold gateAt StartGate
  simp only [← pyGet_head]
  cases h1 : pyGet l.right 0 <;> cases h2 : pyGet l.left 0 <;> simp [eq_comm]

/-- **C88.** The gates: across the end of each lanelet without successor and across the start of each lanelet
without predecessor, twice as wide as the buffer. -/
theorem C88_gates (ops : RoadOps G R) (b : ℝ) (lanelets : List (RLanelet G)) (rs : List R) (gates : List G)
    (h : roadBounds ops lanelets b = .ok (rs, gates)) (g : G) : g ∈ gates ↔ ∃ l ∈ lanelets,
      (l.successors = 0 ∧ EndGate ops b l g) ∨ (l.predecessors = 0 ∧ StartGate ops b l g) := by
  unfold roadBounds at h
  cases h1 : allGates ops b lanelets with
  | error e => rw [h1] at h; cases h
  | ok gs =>
    simp only [h1] at h
    cases h2 : boundsOf ops gs (ops.union (lanelets.map fun l => ops.buffer l.polygon b)) with
    | error e => rw [h2] at h; cases h
    | ok ls =>
      simp only [h2] at h
      injection h with h
      injection h with e1 e2
      subst e1 e2
      rw [gates_iff ops b lanelets gs h1 g]
      simp only [gateAt_end, gateAt_start]

/-- **C88 is false** for closed roads: without any gate, as on a roundabout that nobody enters, the outer boundary
is a ring and not a collection, and the function raises. -/
theorem C88_false_closed (ops : RoadOps G R) (lanelets : List (RLanelet G)) (b : ℝ)
    (hc : ∀ l ∈ lanelets, l.successors ≠ 0 ∧ l.predecessors ≠ 0)
    (hu : ops.union (lanelets.map fun l => ops.buffer l.polygon b) ≠ []) :
    roadBounds ops lanelets b = .error .attribute := by
  have hg : ∀ ls : List (RLanelet G), (∀ l ∈ ls, l.successors ≠ 0 ∧ l.predecessors ≠ 0) →
      allGates ops b ls = .ok [] := by
    intro ls
    induction ls with
    | nil => intro _; rfl
    | cons l ls ih =>
      intro h
      obtain ⟨h1, h2⟩ := h l (by simp)
      have hl : gatesOf ops b l = .ok [] := by simp [gatesOf, h1, h2]
      simp only [allGates, hl, ih fun l' hl' => h l' (by simp [hl']), List.append_nil]
  unfold roadBounds
  simp only [hg lanelets hc]
  cases hp : ops.union (lanelets.map fun l => ops.buffer l.polygon b) with
  | nil => exact absurd hp hu
  | cons part parts => rfl

/-! ### An example on a line: regions and lines are sets of points -/

namespace Strip

/-- One road piece with boundary `x = 0 … 10`, regions as sets. -/
noncomputable def ops : RoadOps (Set (ℝ × ℝ)) (Set (ℝ × ℝ)) where
  buffer := fun g _ => g
  gate := fun p _ b => {q | |q.1 - p.1| ≤ b}
  union := fun gs => gs.map fun g => (g, [])
  diff := fun l g => .many [l.points id \ g]

theorem law : DiffLaw ops id id := by
  intro l g
  ext p
  simp [ops, Lines.points]

noncomputable def lanelet : RLanelet (Set (ℝ × ℝ)) := ⟨{p | 0 ≤ p.1 ∧ p.1 ≤ 10}, 0, 1, [(0, 1), (10, 1)], [(0, 0), (10, 0)]⟩

example : ∃ rs gates, roadBounds ops [lanelet] (1 / 10) = .ok (rs, gates) ∧
    ((5, 0) : ℝ × ℝ) ∈ {p | ∃ r ∈ rs, p ∈ r} ∧ ((10, 0) : ℝ × ℝ) ∉ {p | ∃ r ∈ rs, p ∈ r} := by
  refine ⟨[({p | 0 ≤ p.1 ∧ p.1 ≤ 10} : Set (ℝ × ℝ)) \ {q | |q.1 - 10| ≤ 1 / 10 * 2}],
    [{q | |q.1 - 10| ≤ 1 / 10 * 2}], ?_, ?_, ?_⟩
  · simp [roadBounds, allGates, gatesOf, gateAt, lanelet, pyGet, Except.map, boundsOf, ops, Lines.geoms, Lines.points]
  · norm_num
  · norm_num

end Strip

end Scen
end Verif
