import Verif.Viz.Shapes
import Verif.Dict
import Mathlib.Data.Real.Basic

/-!
# C129: trajectories and moving goals in the animation (sim/simulator_visualisation.py:107-121, 223-276)

The axes are the patches or collections that have been added to them; a handle is a position in this list. Widths,
transparency and the invisible markers of the points (`alpha=0`) are left out.
-/

namespace Verif
namespace Viz

variable {Pt C N : Type} [DecidableEq N]

/-! ## Moving goals -/

/-- What is used of a goal: `is_static` and `get_plottable_geometry(t)`. -/
structure MovingGoal (Pt : Type) where
  static : Bool
  geometry : ℝ → Except Err (Geom Pt)

/-- `plot_timevarying_goals`, simulator_visualisation.py:107-121: the patches on the axes and the handle. Only polygons have
an `exterior`. If an exception is raised the animation ends; that a patch may have been added before is left out. -/
def plotMoving (g : MovingGoal Pt) (colour : C) (t : ℝ) (axes : List (List Pt × C)) (box : Option Nat) :
    Except Err (List (List Pt × C) × Option Nat) :=
  if g.static then .ok (axes, none)
  else match g.geometry t with
    | .error e => .error e
    | .ok s =>
      let (axes1, i) := match box with
        | none => (axes ++ [([], colour)], axes.length)
        | some i => (axes, i)
      match s with
      | .polygon ext _ => .ok (axes1.modify i (fun q => (ext, q.2)), some i)
      | _ => .error .attribute

/-- The part of `update_plot` for the goals, simulator_animation.py:120 and 147-149; `goals` are the handles. -/
def frameGoals (missions : Dict N (MovingGoal Pt × C)) (t : ℝ) :
    List N → List (List Pt × C) × Dict N (Option Nat) → Except Err (List (List Pt × C) × Dict N (Option Nat))
  | [], s => .ok s
  | p :: ps, s => match Dict.get? missions p with
    | none => frameGoals missions t ps s
    | some (g, c) => match plotMoving g c t s.1 ((Dict.get? s.2 p).getD none) with
      | .error e => .error e
      | .ok (axes, h) => frameGoals missions t ps (axes, Dict.set s.2 p h)

/-- The frames at the given times; `players` are those of the first frame (simulator_animation.py:120). -/
def framesGoals (missions : Dict N (MovingGoal Pt × C)) (players : List N) :
    List ℝ → List (List Pt × C) × Dict N (Option Nat) → Except Err (List (List Pt × C) × Dict N (Option Nat))
  | [], s => .ok s
  | t :: ts, s => match frameGoals missions t players s with
    | .error e => .error e
    | .ok s' => framesGoals missions players ts s'

/-! ## Trajectories -/

/-- What is read of a state of a trajectory; the states of differential drive robots have no `vx`. -/
structure TrajState (Pt : Type) where
  xy : Pt
  vx : Option ℝ

/-- `np.vstack([[x.x, x.y, x.vx] for x in traj.values])`: `AttributeError` without `vx`, and `ValueError` for no state. -/
def segmentOf (tr : List (TrajState Pt)) : Except Err (List Pt) :=
  if tr.any (·.vx.isNone) then .error .attribute
  else if tr.isEmpty then .error .value
  else .ok (tr.map (·.xy))

/-- The loop of simulator_visualisation.py:255-258. -/
def segmentsOf : List (List (TrajState Pt)) → Except Err (List (List Pt))
  | [] => .ok []
  | tr :: rest => match segmentOf tr with
    | .error e => .error e
    | .ok s => match segmentsOf rest with
      | .error e => .error e
      | .ok ss => .ok (s :: ss)

/-- A collection of lines with their colours. -/
structure Lines (Pt C : Type) where
  segments : List (List Pt)
  colours : List C

/-- `SimRenderer.plot_trajectories` and `plot_trajectories` with a list of colours, simulator_visualisation.py:223-276: the
collections on the axes and the handle. The order of the errors: the assertion, the trajectories, `np.concatenate` of no
segment (`ValueError`). -/
def plotTrajectories (trs : List (List (TrajState Pt))) (colours : List C) (axes : List (Lines Pt C))
    (handle : Option Nat) : Except Err (List (Lines Pt C) × Nat) :=
  if colours.length ≠ trs.length then .error .assertion
  else match segmentsOf trs with
    | .error e => .error e
    | .ok segs =>
      let (axes1, i) := match handle with
        | none => (axes ++ [({ segments := [], colours := colours } : Lines Pt C)], axes.length)
        | some i => (axes, i)
      if segs.isEmpty then .error .value
      else .ok (axes1.modify i (fun _ => { segments := segs, colours := colours }), i)

/-! ## Proofs -/

/-- Specification: each patch is the box of exactly one player. -/
structure Boxes (axes : List (List Pt × C)) (goals : Dict N (Option Nat)) : Prop where
  valid : ∀ p i, Dict.get? goals p = some (some i) → i < axes.length
  inj : ∀ p q i, Dict.get? goals p = some (some i) → Dict.get? goals q = some (some i) → p = q
  surj : ∀ i < axes.length, ∃ p, Dict.get? goals p = some (some i)

theorem getD_none {x : Option (Option Nat)} : x.getD none = none ↔ ∀ i, x ≠ some (some i) := by
  rcases x with _ | _ | x <;> simp

/-- One player. -/
theorem plotMoving_ok {g : MovingGoal Pt} {c : C} {t : ℝ} (ext : List Pt) (holes : List (List Pt)) (hs : g.static = false)
    (hg : g.geometry t = .ok (.polygon ext holes)) {axes : List (List Pt × C)} {goals : Dict N (Option Nat)}
    (B : Boxes axes goals) (p : N) (hcol : ∀ i, Dict.get? goals p = some (some i) → ∃ e, axes[i]? = some (e, c)) :
    ∃ axes' i, plotMoving g c t axes ((Dict.get? goals p).getD none) = .ok (axes', some i) ∧
      Boxes axes' (Dict.set goals p (some i)) ∧ axes'[i]? = some (ext, c) ∧
      ∀ q j, q ≠ p → Dict.get? goals q = some (some j) → axes'[j]? = axes[j]? := by
  unfold plotMoving
  rw [if_neg (by simp [hs]), hg]
  cases hb : (Dict.get? goals p).getD none with
  | none =>
    rw [getD_none] at hb
    refine ⟨_, axes.length, rfl, ⟨?_, ?_, ?_⟩, ?_, ?_⟩
    · intro q i hq
      simp only [List.length_modify, List.length_append, List.length_singleton]
      by_cases h : q = p
      · subst h
        rw [Dict.get?_set_self] at hq
        simp only [Option.some.injEq] at hq
        omega
      · rw [Dict.get?_set_ne _ (Ne.symm h)] at hq
        have := B.valid q i hq
        omega
    · intro q r i hq hr
      by_cases h1 : q = p <;> by_cases h2 : r = p
      · rw [h1, h2]
      · subst h1
        rw [Dict.get?_set_self] at hq
        rw [Dict.get?_set_ne _ (Ne.symm h2)] at hr
        simp only [Option.some.injEq] at hq
        have := B.valid r i hr
        omega
      · subst h2
        rw [Dict.get?_set_self] at hr
        rw [Dict.get?_set_ne _ (Ne.symm h1)] at hq
        simp only [Option.some.injEq] at hr
        have := B.valid q i hq
        omega
      · rw [Dict.get?_set_ne _ (Ne.symm h1)] at hq
        rw [Dict.get?_set_ne _ (Ne.symm h2)] at hr
        exact B.inj q r i hq hr
    · intro i hi
      simp only [List.length_modify, List.length_append, List.length_singleton] at hi
      rcases Nat.lt_or_ge i axes.length with h | h
      · obtain ⟨q, hq⟩ := B.surj i h
        refine ⟨q, ?_⟩
        rw [Dict.get?_set_ne]
        · exact hq
        · rintro rfl
          exact hb i hq
      · refine ⟨p, ?_⟩
        rw [Dict.get?_set_self, show i = axes.length by omega]
    · simp
    · intro q j hne hq
      have := B.valid q j hq
      have h2 : axes.length ≠ j := by omega
      simp [List.getElem?_modify, h2, List.getElem?_append_left this]
  | some i =>
    have hpi : Dict.get? goals p = some (some i) := by
      rcases h : Dict.get? goals p with _ | _ | j
      · rw [h] at hb; cases hb
      · rw [h] at hb; cases hb
      · rw [h] at hb; simpa using hb
    have hi := B.valid p i hpi
    refine ⟨_, i, rfl, ⟨?_, ?_, ?_⟩, ?_, ?_⟩
    · intro q j hq
      rw [List.length_modify]
      by_cases h : q = p
      · subst h
        rw [Dict.get?_set_self] at hq
        simp only [Option.some.injEq] at hq
        omega
      · rw [Dict.get?_set_ne _ (Ne.symm h)] at hq
        exact B.valid q j hq
    · intro q r j hq hr
      have e : ∀ q, Dict.get? (Dict.set goals p (some i)) q = Dict.get? goals q := by
        intro q
        by_cases h : q = p
        · subst h; rw [Dict.get?_set_self, hpi]
        · rw [Dict.get?_set_ne _ (Ne.symm h)]
      rw [e] at hq hr
      exact B.inj q r j hq hr
    · intro j hj
      rw [List.length_modify] at hj
      obtain ⟨q, hq⟩ := B.surj j hj
      refine ⟨q, ?_⟩
      by_cases h : q = p
      · subst h
        rw [hpi] at hq
        rw [Dict.get?_set_self, ← hq]
      · rw [Dict.get?_set_ne _ (Ne.symm h), hq]
    · obtain ⟨e, he⟩ := hcol i hpi
      simp [List.getElem?_modify, he]
    · intro q j hne hq
      have h2 : i ≠ j := by
        rintro rfl
        exact hne (B.inj q p i hq hpi)
      simp [List.getElem?_modify, h2]

/-- Specification: each player of `ps` with a moving goal has a box with the outline and in the colour of its goal at time
`t`. -/
def Drawn (missions : Dict N (MovingGoal Pt × C)) (ps : List N) (t : ℝ) (axes : List (List Pt × C))
    (goals : Dict N (Option Nat)) : Prop :=
  ∀ p ∈ ps, ∀ g c, Dict.get? missions p = some (g, c) → g.static = false →
    ∃ i ext holes, Dict.get? goals p = some (some i) ∧ g.geometry t = .ok (.polygon ext holes) ∧ axes[i]? = some (ext, c)

/-- The colours of the boxes are those of their players, and only moving goals have boxes. -/
def Coloured (missions : Dict N (MovingGoal Pt × C)) (axes : List (List Pt × C)) (goals : Dict N (Option Nat)) : Prop :=
  ∀ p i, Dict.get? goals p = some (some i) → ∃ g c e, Dict.get? missions p = some (g, c) ∧ g.static = false ∧
    axes[i]? = some (e, c)

theorem frameGoals_ok {missions : Dict N (MovingGoal Pt × C)} {t : ℝ} (ps : List N) (hnd : ps.Nodup)
    (hpoly : ∀ p ∈ ps, ∀ g c, Dict.get? missions p = some (g, c) → g.static = false →
      ∃ ext holes, g.geometry t = .ok (.polygon ext holes))
    (axes : List (List Pt × C)) (goals : Dict N (Option Nat)) (B : Boxes axes goals) (hc : Coloured missions axes goals) :
    ∃ axes' goals', frameGoals missions t ps (axes, goals) = .ok (axes', goals') ∧ Boxes axes' goals' ∧
      Coloured missions axes' goals' ∧ Drawn missions ps t axes' goals' ∧
      (∀ q, q ∉ ps → Dict.get? goals' q = Dict.get? goals q ∧
        ∀ j, Dict.get? goals q = some (some j) → axes'[j]? = axes[j]?) ∧
      ∀ q j, Dict.get? goals q = some (some j) → Dict.get? goals' q = some (some j) := by
  induction ps generalizing axes goals with
  | nil => exact ⟨axes, goals, rfl, B, hc, (fun p hp => by cases hp), fun q _ => ⟨rfl, fun _ _ => rfl⟩, fun _ _ h => h⟩
  | cons p ps ih =>
    obtain ⟨hp, hnd⟩ := List.nodup_cons.mp hnd
    have hpoly' := fun q hq => hpoly q (List.mem_cons_of_mem _ hq)
    simp only [frameGoals]
    cases hm : Dict.get? missions p with
    | none =>
      obtain ⟨axes', goals', h1, h2, h3, h4, h5, h6⟩ := ih hnd hpoly' axes goals B hc
      refine ⟨axes', goals', h1, h2, h3, ?_, fun q hq => h5 q fun h => hq (List.mem_cons_of_mem _ h), h6⟩
      intro q hq g c hg
      rcases List.mem_cons.mp hq with rfl | hq
      · rw [hm] at hg; cases hg
      · exact h4 q hq g c hg
    | some gc =>
      obtain ⟨g, c⟩ := gc
      simp only
      by_cases hs : g.static = true
      · -- a static goal has no box
        have hno : ∀ i, Dict.get? goals p ≠ some (some i) := by
          intro i hi
          obtain ⟨g', c', e, k1, k2, -⟩ := hc p i hi
          rw [hm] at k1
          injection k1 with k1
          injection k1 with k1
          rw [k1] at hs
          rw [hs] at k2
          cases k2
        have hsame : ∀ q i, Dict.get? (Dict.set goals p none) q = some (some i) ↔ Dict.get? goals q = some (some i) := by
          intro q i
          by_cases h : q = p
          · subst h
            rw [Dict.get?_set_self]
            exact ⟨fun h => by simp at h, fun h => absurd h (hno i)⟩
          · rw [Dict.get?_set_ne _ (Ne.symm h)]
        have hp1 : plotMoving g c t axes ((Dict.get? goals p).getD none) = .ok (axes, none) := by
          unfold plotMoving; rw [if_pos hs]
        rw [hp1]
        simp only
        obtain ⟨axes', goals', h1, h2, h3, h4, h5, h6⟩ := ih hnd hpoly' axes (Dict.set goals p none)
          ⟨fun q i h => B.valid q i ((hsame q i).mp h), fun q r i h h' => B.inj q r i ((hsame q i).mp h) ((hsame r i).mp h'),
            fun i hi => (B.surj i hi).imp fun q h => (hsame q i).mpr h⟩ (fun q i h => hc q i ((hsame q i).mp h))
        refine ⟨axes', goals', h1, h2, h3, ?_, ?_, fun q j h => h6 q j ((hsame q j).mpr h)⟩
        · intro q hq g' c' hg hst
          rcases List.mem_cons.mp hq with rfl | hq
          · rw [hm] at hg
            injection hg with hg
            injection hg with hg
            rw [hg] at hs
            rw [hs] at hst
            cases hst
          · exact h4 q hq g' c' hg hst
        · intro q hq
          have hne : q ≠ p := fun h => hq (by rw [h]; exact List.mem_cons_self)
          obtain ⟨k1, k2⟩ := h5 q fun h => hq (List.mem_cons_of_mem _ h)
          rw [Dict.get?_set_ne _ (Ne.symm hne)] at k1
          exact ⟨k1, fun j hj => k2 j ((hsame q j).mpr hj)⟩
      · have hs : g.static = false := by simpa using hs
        obtain ⟨ext, holes, hg⟩ := hpoly p List.mem_cons_self g c hm hs
        obtain ⟨axes1, i, k1, k2, k3, k4⟩ := plotMoving_ok ext holes hs hg B p (fun i hi => by
          obtain ⟨g', c', e, l1, -, l2⟩ := hc p i hi
          rw [hm] at l1
          injection l1 with l1
          injection l1 with _ l1
          exact ⟨e, l1 ▸ l2⟩)
        rw [k1]
        simp only
        have hc1 : Coloured missions axes1 (Dict.set goals p (some i)) := by
          intro q j hq
          by_cases h : q = p
          · subst h
            rw [Dict.get?_set_self] at hq
            injection hq with hq
            injection hq with hq
            rw [← hq]
            exact ⟨g, c, ext, hm, hs, k3⟩
          · rw [Dict.get?_set_ne _ (Ne.symm h)] at hq
            obtain ⟨g', c', e, l1, l2, l3⟩ := hc q j hq
            exact ⟨g', c', e, l1, l2, by rw [k4 q j h hq]; exact l3⟩
        obtain ⟨axes', goals', h1, h2, h3, h4, h5, h6⟩ := ih hnd hpoly' axes1 _ k2 hc1
        refine ⟨axes', goals', h1, h2, h3, ?_, ?_, ?_⟩
        · intro q hq g' c' hg' hst
          rcases List.mem_cons.mp hq with rfl | hq
          · rw [hm] at hg'
            injection hg' with hg'
            injection hg' with e1 e2
            subst e1 e2
            obtain ⟨l1, l2⟩ := h5 q hp
            rw [Dict.get?_set_self] at l1
            exact ⟨i, ext, holes, l1, hg, by rw [l2 i (Dict.get?_set_self ..)]; exact k3⟩
          · exact h4 q hq g' c' hg' hst
        · intro q hq
          have hne : q ≠ p := fun h => hq (by rw [h]; exact List.mem_cons_self)
          obtain ⟨l1, l2⟩ := h5 q fun h => hq (List.mem_cons_of_mem _ h)
          rw [Dict.get?_set_ne _ (Ne.symm hne)] at l1 l2
          exact ⟨l1, fun j hj => by rw [l2 j hj, k4 q j hne hj]⟩
        · intro q j hq
          by_cases h : q = p
          · subst h
            apply h6
            rw [Dict.get?_set_self]
            -- the handle is kept
            unfold plotMoving at k1
            rw [if_neg (by simp [hs]), hg, hq] at k1
            simp only [Option.getD_some, Except.ok.injEq, Prod.mk.injEq] at k1
            rw [← k1.2]
          · exact h6 q j (by rw [Dict.get?_set_ne _ (Ne.symm h)]; exact hq)

/-- **C129.** After the frames at the times `ts ++ [t]` each player with a moving goal has one patch on the axes, and no
other patch is there: the outline of its goal at time `t` in its colour, provided the goals are polygons at the times of
the frames. -/
theorem C129_goals_partial (missions : Dict N (MovingGoal Pt × C)) (ps : List N) (hnd : ps.Nodup) (ts : List ℝ) (t : ℝ)
    (hpoly : ∀ τ ∈ ts ++ [t], ∀ p ∈ ps, ∀ g c, Dict.get? missions p = some (g, c) → g.static = false →
      ∃ ext holes, g.geometry τ = .ok (.polygon ext holes)) :
    ∃ axes goals, framesGoals missions ps (ts ++ [t]) ([], []) = .ok (axes, goals) ∧ Boxes axes goals ∧
      Coloured missions axes goals ∧ Drawn missions ps t axes goals := by
  have key : ∀ (axes : List (List Pt × C)) (goals : Dict N (Option Nat)), Boxes axes goals → Coloured missions axes goals →
      ∃ axes' goals', framesGoals missions ps (ts ++ [t]) (axes, goals) = .ok (axes', goals') ∧ Boxes axes' goals' ∧
      Coloured missions axes' goals' ∧ Drawn missions ps t axes' goals' := by
    induction ts with
    | nil =>
      intro axes goals B hc
      obtain ⟨axes', goals', h1, h2, h3, h4, -⟩ := frameGoals_ok ps hnd (hpoly t (by simp)) axes goals B hc
      exact ⟨axes', goals', by simp [framesGoals, h1], h2, h3, h4⟩
    | cons τ ts ih =>
      intro axes goals B hc
      obtain ⟨axes', goals', h1, h2, h3, -⟩ := frameGoals_ok ps hnd (hpoly τ (by simp)) axes goals B hc
      obtain ⟨axes2, goals2, k1, k2⟩ := ih (fun σ hσ => hpoly σ (by
        simp only [List.cons_append]
        exact List.mem_cons_of_mem _ hσ)) axes' goals' h2 h3
      exact ⟨axes2, goals2, by simp [framesGoals, h1, k1], k2⟩
  exact key [] [] ⟨fun p i h => (by cases h), fun p q i h => (by cases h), fun i h => (by simp at h)⟩ fun p i h => (by cases h)

/-- **C129 fails.** A moving goal without a geometry, or with one that is no polygon, ends the animation; `plot_arena`
leaves out static goals without a geometry (C110). -/
theorem C129_false_kind (missions : Dict N (MovingGoal Pt × C)) (p : N) (ps : List N) (g : MovingGoal Pt) (c : C)
    (t : ℝ) (ts : List ℝ) (s : List (List Pt × C) × Dict N (Option Nat)) (hp : Dict.get? missions p = some (g, c))
    (hs : g.static = false) (hg : ∀ ext holes, g.geometry t ≠ .ok (.polygon ext holes)) :
    ∃ e, framesGoals missions (p :: ps) (t :: ts) s = .error e := by
  have : ∃ e, plotMoving g c t s.1 ((Dict.get? s.2 p).getD none) = .error e := by
    unfold plotMoving
    rw [if_neg (by simp [hs])]
    cases h : g.geometry t with
    | error e => exact ⟨e, rfl⟩
    | ok x =>
      cases x with
      | polygon ext holes => exact absurd h (hg ext holes)
      | _ => exact ⟨_, rfl⟩
  obtain ⟨e, he⟩ := this
  exact ⟨e, by simp [framesGoals, frameGoals, hp, he]⟩

theorem segmentsOf_ok (trs : List (List (TrajState Pt))) (h : ∀ tr ∈ trs, tr ≠ [] ∧ ∀ x ∈ tr, x.vx.isSome) :
    segmentsOf trs = .ok (trs.map (List.map (·.xy))) := by
  induction trs with
  | nil => rfl
  | cons tr trs ih =>
    obtain ⟨h1, h2⟩ := h tr List.mem_cons_self
    have e : segmentOf tr = .ok (tr.map (·.xy)) := by
      unfold segmentOf
      rw [if_neg, if_neg]
      · simpa using h1
      · simp only [List.any_eq_true, not_exists, not_and]
        intro x hx hn
        have := h2 x hx
        cases hv : x.vx <;> simp_all
    simp only [segmentsOf, e, ih fun tr' h' => h tr' (List.mem_cons_of_mem _ h'), List.map_cons]

/-- **C129.** Trajectories are drawn as the lines through the positions of their states, each in its colour, and nothing
of what was drawn before with the same handle is left; the first call adds one collection, later ones none. -/
theorem C129_lines_partial (trs : List (List (TrajState Pt))) (colours : List C) (hl : colours.length = trs.length)
    (hne : trs ≠ []) (h : ∀ tr ∈ trs, tr ≠ [] ∧ ∀ x ∈ tr, x.vx.isSome) (axes : List (Lines Pt C)) :
    (∃ axes', plotTrajectories trs colours axes none = .ok (axes', axes.length) ∧
      axes' = axes ++ [⟨trs.map (List.map (·.xy)), colours⟩]) ∧
    ∀ i, i < axes.length → plotTrajectories trs colours axes (some i) =
      .ok (axes.set i ⟨trs.map (List.map (·.xy)), colours⟩, i) := by
  constructor
  · refine ⟨_, ?_, rfl⟩
    simp only [plotTrajectories, hl, ne_eq, not_true_eq_false, if_false, segmentsOf_ok trs h]
    rw [if_neg (by simpa using hne)]
    congr 2
    apply List.ext_getElem?
    intro j
    by_cases hj : axes.length = j
    · subst hj; simp
    · rcases Nat.lt_or_ge j axes.length with h' | h'
      · simp [List.getElem?_modify, hj, List.getElem?_append_left h']
      · rw [List.getElem?_eq_none (by simp; omega), List.getElem?_eq_none (by simp; omega)]
  · intro i hi
    simp only [plotTrajectories, hl, ne_eq, not_true_eq_false, if_false, segmentsOf_ok trs h]
    rw [if_neg (by simpa using hne)]
    congr 2
    apply List.ext_getElem?
    intro j
    by_cases hj : i = j
    · subst hj; simp [List.getElem?_modify, hi]
    · simp [List.getElem?_modify, hj, List.getElem?_set]

/-- **C129 fails.** The trajectory of a differential drive robot is not drawn, although only positions are drawn. -/
theorem C129_false_robot (trs : List (List (TrajState Pt))) (colours : List C) (axes : List (Lines Pt C))
    (i : Option Nat) (tr : List (TrajState Pt)) (x : TrajState Pt) (htr : tr ∈ trs) (hx : x ∈ tr) (hv : x.vx = none) :
    ∃ e, plotTrajectories trs colours axes i = .error e := by
  have : ∃ e, segmentsOf trs = .error e := by
    induction trs with
    | nil => cases htr
    | cons a trs ih =>
      rcases List.mem_cons.mp htr with rfl | htr
      · refine ⟨.attribute, ?_⟩
        have : segmentOf tr = .error .attribute := by
          unfold segmentOf
          rw [if_pos]
          exact List.any_eq_true.mpr ⟨x, hx, by simp [hv]⟩
        simp [segmentsOf, this]
      · obtain ⟨e, he⟩ := ih htr
        simp only [segmentsOf, he]
        cases segmentOf a with
        | error e' => exact ⟨e', rfl⟩
        | ok _ => exact ⟨e, rfl⟩
  obtain ⟨e, he⟩ := this
  unfold plotTrajectories
  split
  · exact ⟨_, rfl⟩
  · rw [he]; exact ⟨e, rfl⟩

/-- **C129.** When trajectories are drawn at all: exactly if there is one, there is one colour for each, and each has at least
one state and no state of a differential drive robot. -/
theorem C129_drawn_iff (trs : List (List (TrajState Pt))) (colours : List C) (axes : List (Lines Pt C)) (i : Option Nat) :
    (∃ r, plotTrajectories trs colours axes i = .ok r) ↔
      colours.length = trs.length ∧ trs ≠ [] ∧ ∀ tr ∈ trs, tr ≠ [] ∧ ∀ x ∈ tr, x.vx.isSome := by
  constructor
  · rintro ⟨r, hr⟩
    have hs : ∀ (trs : List (List (TrajState Pt))) ss, segmentsOf trs = .ok ss →
        ss.length = trs.length ∧ ∀ tr ∈ trs, tr ≠ [] ∧ ∀ x ∈ tr, x.vx.isSome := by
      intro trs
      induction trs with
      | nil => rintro ss hss; cases hss; exact ⟨rfl, by simp⟩
      | cons a trs ih =>
        intro ss hss
        simp only [segmentsOf] at hss
        cases ha : segmentOf a with
        | error e => rw [ha] at hss; cases hss
        | ok s =>
          rw [ha] at hss
          cases hq : segmentsOf trs with
          | error e => rw [hq] at hss; cases hss
          | ok q =>
            rw [hq] at hss
            cases hss
            obtain ⟨h1, h2⟩ := ih q hq
            refine ⟨by simp [h1], fun tr htr => ?_⟩
            rcases List.mem_cons.mp htr with rfl | htr
            · unfold segmentOf at ha
              split at ha
              · cases ha
              · rename_i hn
                split at ha
                · cases ha
                · rename_i hne
                  refine ⟨by simpa using hne, fun x hx => ?_⟩
                  rw [List.any_eq_true] at hn
                  cases hv : x.vx with
                  | some v => rfl
                  | none => exact absurd ⟨x, hx, by simp [hv]⟩ hn
            · exact h2 tr htr
    unfold plotTrajectories at hr
    split at hr
    · cases hr
    · rename_i hl
      cases hq : segmentsOf trs with
      | error e => rw [hq] at hr; cases hr
      | ok q =>
        obtain ⟨h1, h2⟩ := hs trs q hq
        refine ⟨by simpa using hl, ?_, h2⟩
        rintro rfl
        rw [hq] at hr
        have : q = [] := List.eq_nil_of_length_eq_zero h1
        subst this
        simp at hr
  · rintro ⟨hl, hne, h⟩
    unfold plotTrajectories
    rw [if_neg (by simp [hl]), segmentsOf_ok trs h]
    refine ⟨_, if_neg ?_⟩
    simpa using hne

/-! ## Examples -/

example : ¬ ∃ r, plotTrajectories [[⟨(0, 0), some 1⟩], []] ["red", "blue"] ([] : List (Lines (ℝ × ℝ) String)) none = .ok r :=
  fun h => by simpa using ((C129_drawn_iff _ _ _ _).mp h).2.2 [] (by simp)

/-- A goal that moves along the `x` axis. -/
noncomputable def movingBox : MovingGoal (ℝ × ℝ) := ⟨false, fun t => .ok (.polygon [(t, 0), (t + 1, 0), (t, 1), (t, 0)] [])⟩

example : ∃ axes goals, framesGoals [(0, (movingBox, "red")), (1, (⟨true, fun _ => .error .type⟩, "blue"))] [0, 1, 2]
      ([0, 1] ++ [2]) ([], []) = .ok (axes, goals) ∧ axes = [([(2, 0), (2 + 1, 0), (2, 1), (2, 0)], "red")] ∧
      Dict.get? goals 0 = some (some 0) ∧ Dict.get? goals 1 = some none ∧ Dict.get? goals 2 = none :=
  ⟨_, _, rfl, rfl, rfl, rfl, rfl⟩

example : ∀ τ ∈ [0, 1] ++ [2], ∀ p ∈ [0, 1, 2], ∀ g c,
    Dict.get? [(0, (movingBox, "red")), (1, (⟨true, fun _ => .error .type⟩, "blue"))] p = some (g, c) → g.static = false →
      ∃ ext holes, g.geometry τ = .ok (.polygon ext holes) := by
  intro τ _ p hp g c hg hs
  simp only [List.mem_cons, List.not_mem_nil, or_false] at hp
  rcases hp with rfl | rfl | rfl
  · injection hg with hg
    injection hg with hg
    subst hg
    exact ⟨_, _, rfl⟩
  · injection hg with hg
    injection hg with hg
    subst hg
    cases hs
  · cases hg

example : plotTrajectories [[⟨(0, 0), some 1⟩, ⟨(1, 0), some 1⟩]] ["gold"] [⟨[[(5, 5)]], ["red"]⟩] (some 0) =
    .ok ([⟨[[((0, 0) : ℝ × ℝ), (1, 0)]], ["gold"]⟩], 0) := rfl

end Viz
end Verif
