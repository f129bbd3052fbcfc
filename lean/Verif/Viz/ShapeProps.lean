import Verif.Viz.Shapes
import Verif.Coll.Mesh

/-!
# What is seen of shapes and of the arena (C110)
-/

namespace Verif
namespace Viz

variable {Pt C : Type}

/-- The points of a shape that have area: those in an exterior ring and in no hole of it; `fill` gives the points
inside a ring. -/
def Geom.covers (fill : List Pt → Set Pt) : Geom Pt → Pt → Prop
  | .polygon ext holes, p => p ∈ fill ext ∧ ∀ h ∈ holes, p ∉ fill h
  | .multiPolygon parts, p => ∃ q ∈ parts, p ∈ fill q.1 ∧ ∀ h ∈ q.2, p ∉ fill h
  | _, _ => False

open Classical in
/-- What is seen at a point after one more artist: artists of the same or a higher `zorder` cover earlier ones. -/
noncomputable def paint (fill : List Pt → Set Pt) (p : Pt) (seen : Option (Option C × Nat)) :
    Artist Pt C → Option (Option C × Nat)
  | .fill r c z => if p ∈ fill r ∧ (∀ s ∈ seen, s.2 ≤ z) then some (c, z) else seen
  | _ => seen

open Classical in
theorem paint_fill (fill : List Pt → Set Pt) (p : Pt) (seen : Option (Option C × Nat)) (r : List Pt) (c : Option C)
    (z : Nat) : paint fill p seen (.fill r c z) =
      if p ∈ fill r ∧ (∀ s ∈ seen, s.2 ≤ z) then some (c, z) else seen := rfl

/-- The colour seen at a point: `none` if nothing was drawn there, `some none` for the background. -/
noncomputable def seenAt (fill : List Pt → Set Pt) (as : List (Artist Pt C)) (p : Pt) : Option (Option C) :=
  (as.foldl (paint fill p) none).map Prod.fst

/-- A closed ring. -/
def Ring (r : List Pt) : Prop := 2 ≤ r.length ∧ r.head? = r.getLast?

/-- matplotlib closes the rings it fills. -/
def Closing (fill : List Pt → Set Pt) : Prop := fill [] = ∅ ∧ ∀ r : List Pt, Ring r → fill r.dropLast = fill r

theorem paint_holes (fill : List Pt → Set Pt) (p : Pt) (c : C) (z : Nat) (hs : List (List Pt)) (hz : 1 < z) :
    (hs.map fun (h : List Pt) => (Artist.fill h none 1 : Artist Pt C)).foldl (paint fill p) (some (some c, z)) =
      some (some c, z) := by
  induction hs with
  | nil => rfl
  | cons h hs ih =>
    rw [List.map_cons, List.foldl_cons]
    have e : paint fill p (some (some c, z)) (Artist.fill h none 1 : Artist Pt C) = some (some c, z) := by
      rw [paint_fill]
      rw [if_neg]
      rintro ⟨-, h⟩
      have := h (some c, z) rfl
      simp only at this
      omega
    rw [e, ih]

theorem paint_holes_low (fill : List Pt → Set Pt) (p : Pt) (s : Option (Option C × Nat)) (hs : List (List Pt))
    (hz : ∀ x ∈ s, x.2 ≤ 1) :
    (hs.map fun (h : List Pt) => (Artist.fill h none 1 : Artist Pt C)).foldl (paint fill p) s =
      open Classical in if ∃ h ∈ hs, p ∈ fill h then some (none, 1) else s := by
  induction hs generalizing s with
  | nil => simp
  | cons h hs ih =>
    rw [List.map_cons, List.foldl_cons]
    by_cases hp : p ∈ fill h
    · have e : paint fill p s (Artist.fill h none 1 : Artist Pt C) = some (none, 1) := by
        rw [paint_fill]
        rw [if_pos ⟨hp, hz⟩]
      rw [e, ih _ (by simp), if_pos (⟨h, by simp, hp⟩ : ∃ h' ∈ h :: hs, p ∈ fill h')]
      split <;> rfl
    · have e : paint fill p s (Artist.fill h none 1 : Artist Pt C) = s := by
        rw [paint_fill]
        rw [if_neg (fun q => hp q.1)]
      rw [e, ih s hz]
      have : (∃ h' ∈ hs, p ∈ fill h') ↔ ∃ h' ∈ h :: hs, p ∈ fill h' := by
        constructor
        · rintro ⟨x, hx, hpx⟩
          exact ⟨x, by simp [hx], hpx⟩
        · rintro ⟨x, hx, hpx⟩
          rcases List.mem_cons.mp hx with rfl | hx
          · exact absurd hpx hp
          · exact ⟨x, hx, hpx⟩
      by_cases hc : ∃ h' ∈ hs, p ∈ fill h'
      · rw [if_pos hc, if_pos (this.mp hc)]
      · rw [if_neg hc, if_neg (fun q => hc (this.mpr q))]

/-- **C110.** A single polygon, with any holes, drawn with a `zorder` of at most 1 is seen exactly where it is. -/
theorem C110_low (fill : List Pt → Set Pt) (hf : Closing fill) (c : C) (z : Nat) (hz : z ≤ 1) (ext : List Pt)
    (holes : List (List Pt)) (he : Ring ext) (hh : ∀ h ∈ holes, Ring h)
    (p : Pt) : ∃ as, addShape c z (.polygon ext holes) = .ok as ∧
      (seenAt fill as p = some (some c) ↔ (Geom.polygon ext holes).covers fill p) := by
  have hholes : (∃ h ∈ holes.map List.dropLast, p ∈ fill h) ↔ ∃ h ∈ holes, p ∈ fill h := by
    simp only [List.mem_map]
    constructor
    · rintro ⟨h, ⟨h', hm, rfl⟩, hp⟩
      exact ⟨h', hm, by rwa [hf.2 _ (hh h' hm)] at hp⟩
    · rintro ⟨h, hm, hp⟩
      exact ⟨_, ⟨h, hm, rfl⟩, by rwa [hf.2 _ (hh h hm)]⟩
  by_cases hemp : ext = []
  · subst hemp
    refine ⟨[], by simp [addShape, Geom.isEmpty], ?_⟩
    simp [seenAt, Geom.covers, hf.1]
  · refine ⟨plotRings c z (polyRings (ext, holes)), ?_, ?_⟩
    · unfold addShape Geom.isEmpty
      rw [if_neg (by simpa using hemp)]
    · simp only [plotRings, polyRings, seenAt, List.foldl_cons]
      rw [paint_holes_low fill p _ _ (by
        intro x hx
        rw [paint_fill] at hx
        split at hx
        · injection hx with hx
          rw [← hx]
          exact hz
        · cases hx)]
      by_cases hc : ∃ h ∈ holes, p ∈ fill h
      · rw [if_pos (hholes.mpr hc)]
        simp only [Option.map_some, Option.some.injEq, reduceCtorEq, false_iff]
        rintro ⟨-, h⟩
        obtain ⟨x, hx, hpx⟩ := hc
        exact h x hx hpx
      · rw [if_neg (fun q => hc (hholes.mp q))]
        rw [paint_fill]
        rw [hf.2 ext he]
        by_cases hp : p ∈ fill ext
        · rw [if_pos ⟨hp, by simp⟩]
          simp only [Option.map_some, true_iff]
          exact ⟨hp, fun h hm hph => hc ⟨h, hm, hph⟩⟩
        · rw [if_neg (fun q => hp q.1)]
          simp only [Option.map_none, reduceCtorEq, false_iff]
          exact fun h => hp h.1

/-- **C110 fails for holes as the simulator draws them**: with a `zorder` above 1 the holes are hidden by the
polygon they are in. -/
theorem C110_false_holes (fill : List Pt → Set Pt) (hf : Closing fill) (c : C) (z : Nat) (hz : 1 < z) (ext : List Pt)
    (holes : List (List Pt)) (he : Ring ext) (p : Pt) (hp : p ∈ fill ext) :
    ∃ as, addShape c z (.polygon ext holes) = .ok as ∧ seenAt fill as p = some (some c) := by
  have hemp : ext ≠ [] := by
    rintro rfl
    rw [hf.1] at hp
    exact hp
  refine ⟨plotRings c z (polyRings (ext, holes)), ?_, ?_⟩
  · unfold addShape Geom.isEmpty
    rw [if_neg (by simpa using hemp)]
  · simp only [plotRings, polyRings, seenAt, List.foldl_cons]
    have e : paint fill p none (Artist.fill ext.dropLast (some c) z) = some (some c, z) := by
      rw [paint_fill]
      rw [hf.2 ext he, if_pos ⟨hp, by simp⟩]
    rw [e, paint_holes fill p c z _ hz]
    rfl

/-- **C110 fails for shapes of several polygons**: all but the first are drawn in the colour of the background. -/
theorem C110_false_multi (fill : List Pt → Set Pt) (hf : Closing fill) (c : C) (z : Nat)
    (a b : List Pt) (ha : Ring a) (hb : Ring b) (p : Pt) (hpa : p ∉ fill a)
    (hpb : p ∈ fill b) :
    ∃ as, addShape c z (.multiPolygon [(a, []), (b, [])]) = .ok as ∧ seenAt fill as p = some none := by
  refine ⟨_, rfl, ?_⟩
  simp only [polyRings, List.flatMap_cons, List.flatMap_nil, List.map_nil, List.append_nil, List.cons_append,
    List.nil_append, plotRings, List.map_cons, seenAt, List.foldl_cons, List.foldl_nil]
  have e : paint fill p none (Artist.fill a.dropLast (some c) z) = none := by
    rw [paint_fill]
    rw [hf.2 a ha, if_neg (fun q => hpa q.1)]
  rw [e]
  rw [paint_fill]
  rw [hf.2 b hb, if_pos ⟨hpb, by simp⟩]
  rfl

/-- **C110 fails for other shapes with parts and for pose goals**: they raise a `TypeError`, so that a run with such
an obstacle or goal cannot be animated. -/
theorem C110_false_raises (c : C) (p : Pt) (ps : List Pt) (l : List Pt) (ls : List (List Pt))
    (rest : List (Geom Pt × C)) (goals : List (PlotGoal Pt × C)) :
    plotArena ((.multiPoint (p :: ps), c) :: rest) goals = .error .type ∧
    plotArena ((.multiLine (l :: ls), c) :: rest) goals = .error .type ∧
    plotArena ((.collection false, c) :: rest) goals = .error .type ∧
    plotArena (Pt := Pt) [] ((.pose, c) :: goals) = .error .type :=
  ⟨rfl, rfl, rfl, rfl⟩

/-- Shapes that are drawn right: polygons without holes, and lines. -/
def Geom.Plain : Geom Pt → Prop
  | .polygon ext holes => holes = [] ∧ (ext = [] ∨ Ring ext)
  | .line _ => True
  | _ => False

theorem addShape_plain (fill : List Pt → Set Pt) (hf : Closing fill) (c : C) (z : Nat) (g : Geom Pt) (hg : g.Plain) :
    ∃ as, addShape c z g = .ok as ∧ ∀ p s, as.foldl (paint fill p) s =
      open Classical in if g.covers fill p ∧ (∀ x ∈ s, x.2 ≤ z) then some (some c, z) else s := by
  unfold Geom.Plain at hg
  split at hg
  · rename_i ext holes
    obtain ⟨rfl, he⟩ := hg
    by_cases hemp : ext = []
    · subst hemp
      refine ⟨[], by simp [addShape, Geom.isEmpty], fun p s => ?_⟩
      simp [Geom.covers, hf.1]
    · refine ⟨[.fill ext.dropLast (some c) z], ?_, fun p s => ?_⟩
      · unfold addShape Geom.isEmpty
        rw [if_neg (by simpa using hemp)]
        rfl
      · rw [List.foldl_cons, List.foldl_nil, paint_fill]
        have e : (p ∈ fill ext.dropLast ∧ ∀ x ∈ s, x.2 ≤ z) ↔
            (Geom.polygon ext []).covers fill p ∧ ∀ x ∈ s, x.2 ≤ z := by
          rw [hf.2 ext (he.resolve_left hemp)]
          simp [Geom.covers]
        by_cases hc : p ∈ fill ext.dropLast ∧ ∀ x ∈ s, x.2 ≤ z
        · rw [if_pos hc, if_pos (e.mp hc)]
        · rw [if_neg hc, if_neg (fun q => hc (e.mpr q))]
  · rename_i ps
    by_cases hemp : ps = []
    · subst hemp
      exact ⟨[], by simp [addShape, Geom.isEmpty], fun p s => by simp [Geom.covers]⟩
    · refine ⟨[.line ps c z], ?_, fun p s => ?_⟩
      · unfold addShape Geom.isEmpty
        rw [if_neg (by simpa using hemp)]
      · simp [paint, Geom.covers]
  · exact hg.elim

open Classical in
/-- The colour of the last shape of a list that covers the point. -/
noncomputable def lastCovering (fill : List Pt → Set Pt) (p : Pt) : List (Geom Pt × C) → Option C
  | [] => none
  | (g, c) :: rest => match lastCovering fill p rest with
    | some d => some d
    | none => if g.covers fill p then some c else none

theorem obstacles_seen (fill : List Pt → Set Pt) (hf : Closing fill) : ∀ (l : List (Geom Pt × C)),
    (∀ o ∈ l, o.1.Plain) → ∃ as, plotObstacles l = .ok as ∧ ∀ (p : Pt) (s : Option (Option C × Nat)),
      (∀ x ∈ s, x.2 = 32) → as.foldl (paint fill p) s =
        match lastCovering fill p l with
        | some c => some (some c, 32)
        | none => s
  | [], _ => ⟨[], rfl, fun _ _ _ => rfl⟩
  | (g, c) :: l, h => by
    obtain ⟨as, h1, h2⟩ := obstacles_seen fill hf l (fun o ho => h o (List.mem_cons_of_mem _ ho))
    obtain ⟨a, h3, h4⟩ := addShape_plain fill hf c 32 g (h (g, c) List.mem_cons_self)
    refine ⟨a ++ as, by simp only [plotObstacles, h3, h1], fun p s hs => ?_⟩
    rw [List.foldl_append, h4]
    by_cases hc : g.covers fill p
    · rw [if_pos ⟨hc, fun x hx => (hs x hx).le⟩, h2 p _ (by simp)]
      simp only [lastCovering]
      cases lastCovering fill p l with
      | none => simp only [if_pos hc]
      | some d => rfl
    · rw [if_neg (fun q => hc q.1), h2 p s hs]
      simp only [lastCovering]
      cases lastCovering fill p l with
      | none => simp only [if_neg hc]
      | some d => rfl

/-- Goals that are drawn right. -/
def PlotGoal.Plain : PlotGoal Pt → Prop
  | .shape g => g.Plain
  | .pose => False
  | _ => True

/-- The shapes of the goals that have one. -/
def goalShapes : List (PlotGoal Pt × C) → List (Geom Pt × C)
  | [] => []
  | (.shape g, c) :: rest => (g, c) :: goalShapes rest
  | _ :: rest => goalShapes rest

theorem goals_seen (fill : List Pt → Set Pt) (hf : Closing fill) : ∀ (l : List (PlotGoal Pt × C)),
    (∀ o ∈ l, o.1.Plain) → ∃ as, plotGoals l = .ok as ∧ ∀ (p : Pt) (s : Option (Option C × Nat)),
      ((∃ c, s = some (c, 32)) → as.foldl (paint fill p) s = s) ∧
      ((∀ x ∈ s, x.2 = 30) → as.foldl (paint fill p) s =
        match lastCovering fill p (goalShapes l) with
        | some c => some (some c, 30)
        | none => s)
  | [], _ => ⟨[], rfl, fun _ _ => ⟨fun _ => rfl, fun _ => rfl⟩⟩
  | (g, c) :: l, h => by
    obtain ⟨as, h1, h2⟩ := goals_seen fill hf l (fun o ho => h o (List.mem_cons_of_mem _ ho))
    have hg := h (g, c) List.mem_cons_self
    cases g with
    | moving => exact ⟨as, by simp only [plotGoals, plotGoal, h1, List.nil_append], h2⟩
    | notImplemented =>
      exact ⟨as, by simp only [plotGoals, plotGoal, PlotGoal.geometry, h1, List.nil_append], h2⟩
    | pose => exact hg.elim
    | shape g =>
      obtain ⟨a, h3, h4⟩ := addShape_plain fill hf c 30 g hg
      refine ⟨a ++ as, by simp only [plotGoals, plotGoal, PlotGoal.geometry, h3, h1], fun p s => ⟨?_, fun hs => ?_⟩⟩
      · rintro ⟨d, rfl⟩
        rw [List.foldl_append, h4, if_neg (by
          rintro ⟨-, h⟩
          have := h (d, 32) rfl
          simp at this)]
        exact (h2 p _).1 ⟨d, rfl⟩
      · rw [List.foldl_append, h4]
        by_cases hc : g.covers fill p
        · rw [if_pos ⟨hc, fun x hx => (hs x hx).le⟩, (h2 p _).2 (by simp)]
          simp only [goalShapes, lastCovering]
          cases lastCovering fill p (goalShapes l) with
          | none => simp only [if_pos hc]
          | some d => rfl
        · rw [if_neg (fun q => hc q.1), (h2 p s).2 hs]
          simp only [goalShapes, lastCovering]
          cases lastCovering fill p (goalShapes l) with
          | none => simp only [if_neg hc]
          | some d => rfl

/-- **C110.** If obstacles and goals are polygons without holes or lines, then at every point the last obstacle of
the list that covers it is seen, and if there is none the last such goal, and nothing else. What is missing: holes,
shapes with several parts and pose goals, for which this is false. -/
theorem C110_arena_partial (fill : List Pt → Set Pt) (hf : Closing fill) (obstacles : List (Geom Pt × C))
    (goals : List (PlotGoal Pt × C)) (ho : ∀ o ∈ obstacles, o.1.Plain) (hg : ∀ g ∈ goals, g.1.Plain) :
    ∃ as, plotArena obstacles goals = .ok as ∧ ∀ p, seenAt fill as p =
      match lastCovering fill p obstacles with
      | some c => some (some c)
      | none => (lastCovering fill p (goalShapes goals)).map some := by
  obtain ⟨a, h1, h2⟩ := obstacles_seen fill hf obstacles ho
  obtain ⟨b, h3, h4⟩ := goals_seen fill hf goals hg
  refine ⟨a ++ b, by simp only [plotArena, h1, h3], fun p => ?_⟩
  unfold seenAt
  rw [List.foldl_append, h2 p none (by simp)]
  cases lastCovering fill p obstacles with
  | some c => simp only [(h4 p _).1 ⟨some c, rfl⟩, Option.map_some]
  | none =>
    simp only [(h4 p none).2 (by simp)]
    cases lastCovering fill p (goalShapes goals) with
    | some c => rfl
    | none => rfl

/-- Specification: the points or the line that a shape without area consists of. -/
def Geom.curve : Geom Pt → Option (List Pt)
  | .point (some p) => some [p]
  | .line (p :: ps) => some (p :: ps)
  | _ => none

/-- The lines and points in a picture. -/
def curves : List (Artist Pt C) → List (List Pt × C × Nat)
  | [] => []
  | .fill _ _ _ :: rest => curves rest
  | .line ps c z :: rest => (ps, c, z) :: curves rest
  | .circle p c z :: rest => ([p], c, z) :: curves rest

/-- The lines and points among shapes, to be drawn with this `zorder`. -/
def curvesOf (z : Nat) (l : List (Geom Pt × C)) : List (List Pt × C × Nat) :=
  l.filterMap fun (o : Geom Pt × C) => o.1.curve.map fun ps => (ps, o.2, z)

theorem curves_append (a b : List (Artist Pt C)) : curves (a ++ b) = curves a ++ curves b := by
  induction a with
  | nil => rfl
  | cons x a ih => cases x <;> simp [curves, ih]

theorem curves_rings (c : C) (z : Nat) (rs : List (List Pt)) : curves (plotRings c z rs) = [] := by
  cases rs with
  | nil => rfl
  | cons r rs =>
    simp only [plotRings, curves]
    induction rs with
    | nil => rfl
    | cons r rs ih => simpa [curves] using ih

theorem addShape_curves (c : C) (z : Nat) (g : Geom Pt) (as : List (Artist Pt C)) (h : addShape c z g = .ok as) :
    curves as = curvesOf z [(g, c)] := by
  unfold addShape at h
  split at h
  · rename_i he
    injection h with h
    subst h
    cases g with
    | point p => cases p <;> first | rfl | cases he
    | line ps => cases ps <;> first | rfl | cases he
    | _ => rfl
  · rename_i he
    cases g with
    | point p => cases p <;> (injection h with h; subst h; rfl)
    | line ps =>
      cases ps with
      | nil => exact absurd rfl he
      | cons q qs => injection h with h; subst h; rfl
    | polygon ext holes => injection h with h; subst h; exact curves_rings _ _ _
    | multiPolygon parts => injection h with h; subst h; exact curves_rings _ _ _
    | _ => cases h

theorem plotObstacles_curves : ∀ (l : List (Geom Pt × C)) (as : List (Artist Pt C)), plotObstacles l = .ok as →
    curves as = curvesOf 32 l
  | [], as, h => by injection h with h; subst h; rfl
  | (g, c) :: rest, as, h => by
    unfold plotObstacles at h
    split at h
    · cases h
    · rename_i a ha
      split at h
      · cases h
      · rename_i b hb
        injection h with h
        subst h
        rw [curves_append, addShape_curves c 32 g a ha, plotObstacles_curves rest b hb, curvesOf, curvesOf, curvesOf,
          ← List.filterMap_append]
        rfl

theorem plotGoals_curves : ∀ (l : List (PlotGoal Pt × C)) (as : List (Artist Pt C)), plotGoals l = .ok as →
    curves as = curvesOf 30 (goalShapes l)
  | [], as, h => by injection h with h; subst h; rfl
  | (g, c) :: rest, as, h => by
    unfold plotGoals at h
    split at h
    · cases h
    · rename_i a ha
      split at h
      · cases h
      · rename_i b hb
        injection h with h
        subst h
        rw [curves_append, plotGoals_curves rest b hb]
        cases g with
        | moving => injection ha with ha; subst ha; rfl
        | pose => cases ha
        | notImplemented => injection ha with ha; subst ha; rfl
        | shape s =>
          have e : curves a = curvesOf 30 [(s, c)] := by
            simp only [plotGoal, PlotGoal.geometry] at ha
            split at ha
            · rename_i he
              injection ha with ha
              subst ha
              cases s with
              | other => rfl
              | point p => cases p <;> cases he
              | line p => cases p <;> cases he
              | multiPoint p => rfl
              | multiLine p => rfl
              | polygon p => rfl
              | multiPolygon p => rfl
              | collection p => rfl
            · cases ha
            · rename_i he
              injection ha with ha
              subst ha
              exact addShape_curves c 30 s _ he
          rw [e, goalShapes, curvesOf, curvesOf, curvesOf, ← List.filterMap_append]
          rfl

/-- **C110.** If the arena can be drawn, then all lines and points among its obstacles and goals are drawn, whole
and in their colours, and no others; those of obstacles above those of goals. -/
theorem C110_lines (obstacles : List (Geom Pt × C)) (goals : List (PlotGoal Pt × C)) (as : List (Artist Pt C))
    (h : plotArena obstacles goals = .ok as) :
    curves as = curvesOf 32 obstacles ++ curvesOf 30 (goalShapes goals) := by
  unfold plotArena at h
  split at h
  · cases h
  · rename_i a ha
    split at h
    · cases h
    · rename_i b hb
      injection h with h
      subst h
      rw [curves_append, plotObstacles_curves _ _ ha, plotGoals_curves _ _ hb]

/-- A point, a wall, and a line to be reached. -/
example : ∃ as, plotArena [(.point (some 1), 'a'), (.line [1, 2, 3], 'b')] [(.moving, 'c'), (.shape (.line [4, 5]), 'd')] =
      .ok as ∧
    curves as = [([1], 'a', 32), ([1, 2, 3], 'b', 32), ([4, 5], 'd', 30)] :=
  ⟨_, rfl, C110_lines [(.point (some 1), 'a'), (.line [1, 2, 3], 'b')]
    [(.moving, 'c'), (.shape (.line [4, 5]), 'd')] _ rfl⟩

/-- Filling convex rings. -/
theorem closing_region : Closing Coll.region := by
  refine ⟨by simp [Coll.region], fun r h => ?_⟩
  obtain ⟨hl, he⟩ := h
  unfold Coll.region
  congr 1
  ext p
  simp only [Set.mem_ofPred_eq]
  refine ⟨fun h => List.mem_of_mem_dropLast h, fun h => ?_⟩
  match r, hl with
  | a :: b :: l, _ =>
    rw [← List.dropLast_append_getLast (l := a :: b :: l) (by simp)] at h
    rcases List.mem_append.mp h with h | h
    · exact h
    · have hp := List.mem_singleton.mp h
      rw [List.getLast?_eq_some_getLast (by simp), List.head?_cons, Option.some.injEq, ← hp] at he
      subst he
      simp

/-- Two squares and a hole. -/
def square (x r : ℝ) : List (ℝ × ℝ) := [(x - r, -r), (x + r, -r), (x + r, r), (x - r, r), (x - r, -r)]

theorem ring_square (x r : ℝ) : Ring (square x r) := ⟨by simp [square], by simp [square]⟩

theorem center_mem (x r : ℝ) : (x, 0) ∈ Coll.region (square x r) := by
  have h := (convex_convexHull ℝ {p | p ∈ square x r}) (subset_convexHull ℝ _ (show (x - r, -r) ∈ {p | p ∈ square x r} by simp [square]))
    (subset_convexHull ℝ _ (show (x + r, r) ∈ {p | p ∈ square x r} by simp [square]))
    (show (0 : ℝ) ≤ 1 / 2 by norm_num) (show (0 : ℝ) ≤ 1 / 2 by norm_num) (by norm_num)
  have e : (1 / 2 : ℝ) • (x - r, -r) + (1 / 2 : ℝ) • (x + r, r) = (x, 0) := by
    ext <;> simp <;> ring
  rw [e] at h
  exact h

theorem left_of (x r : ℝ) (hr : 0 ≤ r) (p : ℝ × ℝ) (h : p ∈ Coll.region (square x r)) : x - r ≤ p.1 ∧ p.1 ≤ x + r := by
  have hc : Convex ℝ {p : ℝ × ℝ | x - r ≤ p.1 ∧ p.1 ≤ x + r} := by
    intro a ha b hb s t hs ht hst
    simp only [Set.mem_ofPred_eq, Prod.fst_add, Prod.smul_fst, smul_eq_mul] at *
    have : t = 1 - s := by linarith
    subst this
    constructor <;> nlinarith [ha.1, ha.2, hb.1, hb.2]
  refine convexHull_min ?_ hc h
  intro q hq
  simp only [square, Set.mem_ofPred_eq, List.mem_cons, List.not_mem_nil, or_false] at hq
  rcases hq with rfl | rfl | rfl | rfl | rfl <;> simp <;> linarith

example := C110_low Coll.region closing_region "red" 1 le_rfl (square 0 4) [square 1 1, square (-2) 1]
  (ring_square 0 4) (by intro h hh; simp only [List.mem_cons, List.not_mem_nil, or_false] at hh; rcases hh with rfl | rfl <;> exact ring_square _ _) (1, 0)

/-- The centre of an obstacle with a hole in the middle is drawn as part of it. -/
example : ∃ as, addShape "red" 32 (.polygon (square 0 4) [square 0 1]) = .ok as ∧
    seenAt Coll.region as (0, 0) = some (some "red") ∧
    ¬ (Geom.polygon (square 0 4) [square 0 1]).covers Coll.region (0, 0) := by
  obtain ⟨as, h1, h2⟩ := C110_false_holes Coll.region closing_region "red" 32 (by norm_num) (square 0 4) [square 0 1]
    (ring_square 0 4) (0, 0) (center_mem 0 4)
  exact ⟨as, h1, h2, fun h => h.2 _ (by simp) (center_mem 0 1)⟩

example := C110_false_multi Coll.region closing_region "red" 32 (square 0 1) (square 5 1) (ring_square 0 1)
  (ring_square 5 1) (5, 0) (fun h => by have := (left_of 0 1 (by norm_num) _ h).2; norm_num at this) (center_mem 5 1)

/-- Where they overlap, an obstacle is seen and not the goal. -/
example : ∃ as, plotArena [(.polygon (square 0 1) [], "grey")] [(.shape (.polygon (square 0 4) []), "red"), (.moving, "blue")] =
    .ok as ∧ seenAt Coll.region as (0, 0) = some (some "grey") := by
  obtain ⟨as, h1, h2⟩ := C110_arena_partial Coll.region closing_region [(.polygon (square 0 1) [], "grey")]
    [(.shape (.polygon (square 0 4) []), "red"), (.moving, "blue")]
    (by intro o ho; rw [List.mem_singleton.mp ho]; exact ⟨rfl, .inr (ring_square 0 1)⟩)
    (by
      intro o ho
      simp only [List.mem_cons, List.not_mem_nil, or_false] at ho
      rcases ho with rfl | rfl
      · exact ⟨rfl, .inr (ring_square 0 4)⟩
      · trivial)
  refine ⟨as, h1, ?_⟩
  have hc : (Geom.polygon (square 0 1) []).covers Coll.region (0, 0) := ⟨center_mem 0 1, by simp⟩
  rw [h2]
  simp only [lastCovering, if_pos hc]

end Viz
end Verif
