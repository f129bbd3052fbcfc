import Verif.Sim.ListingProps
import Verif.Agents.AgentProps
import Verif.Agents.ViewProps
import Verif.Eval.SafetyProps

/-!
# C155: lane followers and distances do not depend on the order in which players are listed
-/

set_option linter.unusedSectionVars false

namespace Verif
namespace Agents

open Sim

section speed
variable {N K : Type} [DecidableEq N] [Field K] [LinearOrder K] [IsStrictOrderedRing K]

theorem anyOther_perm (me : N) (test : AgentView K → Bool) {d e : Dict N (AgentView K)} (h : List.Perm d e) :
    anyOther me test d = anyOther me test e := by
  rw [Bool.eq_iff_iff, anyOther_iff, anyOther_iff]
  constructor <;> rintro ⟨n, a, h1, h2, h3⟩
  · exact ⟨n, a, h1, h.mem_iff.mp h2, h3⟩
  · exact ⟨n, a, h1, h.mem_iff.mpr h2, h3⟩

theorem cruiseCandidates_perm (pi : K) (prm : SpeedBehaviorParam K) (me : N) (v : K) {d e : Dict N (AgentView K)}
    (h : List.Perm d e) : (cruiseCandidates pi prm me v d).Perm (cruiseCandidates pi prm me v e) := by
  induction h with
  | nil => exact List.Perm.refl _
  | cons x _ ih =>
    obtain ⟨n, a⟩ := x
    simp only [cruiseCandidates]
    split
    · exact ih
    · exact ih.cons _
  | swap x y l =>
    obtain ⟨n, a⟩ := x
    obtain ⟨m, b⟩ := y
    simp only [cruiseCandidates]
    split_ifs
    · exact List.Perm.refl _
    · exact List.Perm.refl _
    · exact List.Perm.refl _
    · exact List.Perm.swap _ _ _
  | trans _ _ ih1 ih2 => exact ih1.trans ih2

theorem getSpeedRef_perm (pi : K) (prm : SpeedBehaviorParam K) (me : N) {d e : Dict N (AgentView K)}
    (hd : Dict.Wf d) (h : List.Perm d e) : getSpeedRef pi prm me d = getSpeedRef pi prm me e := by
  unfold getSpeedRef
  rw [← get_of_perm hd h me]
  cases Dict.get? d me with
  | none => rfl
  | some my =>
    simp only [anyOther_perm me _ h]
    have : minList prm.nominalSpeed (cruiseCandidates pi prm me my.vx d) =
        minList prm.nominalSpeed (cruiseCandidates pi prm me my.vx e) :=
      (cruiseCandidates_perm pi prm me my.vx h).foldl_eq' (fun a _ b _ c => by
        rw [min_assoc, min_comm a b, ← min_assoc]) _
    rw [this]

end speed

section follower
variable {N : Type} [DecidableEq N]

theorem viewsOf_keys (my : ObsState) : ∀ (ps : Dict N ObsState) vs, viewsOf my ps = .ok vs → Dict.keys vs = Dict.keys ps := by
  intro ps
  induction ps with
  | nil => intro vs h; unfold viewsOf at h; injection h with h; subst h; rfl
  | cons p ps ih =>
    obtain ⟨n, o⟩ := p
    intro vs h
    simp only [viewsOf] at h
    cases hv : viewOf my o with
    | error e => rw [hv] at h; cases h
    | ok v =>
      rw [hv] at h
      simp only at h
      cases hr : viewsOf my ps with
      | error e => rw [hr] at h; cases h
      | ok r =>
        rw [hr] at h
        injection h with h
        subst h
        show n :: Dict.keys r = n :: Dict.keys ps
        rw [ih r hr]

theorem viewsOf_perm (my : ObsState) {ps ps' : Dict N ObsState} (h : List.Perm ps ps') :
    ∀ vs, viewsOf my ps = .ok vs → ∃ vs', viewsOf my ps' = .ok vs' ∧ List.Perm vs vs' := by
  induction h with
  | nil => exact fun vs h => ⟨vs, h, List.Perm.refl _⟩
  | cons p _ ih =>
    obtain ⟨n, o⟩ := p
    intro vs h
    simp only [viewsOf] at h ⊢
    cases hv : viewOf my o with
    | error e => rw [hv] at h; cases h
    | ok v =>
      rw [hv] at h
      simp only at h ⊢
      rename_i l1 l2 _
      cases hr : viewsOf my l1 with
      | error e => rw [hr] at h; cases h
      | ok r =>
        rw [hr] at h
        injection h with h
        subst h
        obtain ⟨r', h1, h2⟩ := ih r hr
        rw [h1]
        exact ⟨_, rfl, h2.cons _⟩
  | swap p q l =>
    obtain ⟨n, o⟩ := p
    obtain ⟨m, o'⟩ := q
    intro vs h
    simp only [viewsOf] at h ⊢
    cases hv : viewOf my o' with
    | error e => rw [hv] at h; cases h
    | ok v =>
      cases hv' : viewOf my o with
      | error e => rw [hv, hv'] at h; cases h
      | ok v' =>
        rw [hv, hv'] at h
        simp only at h ⊢
        cases hr : viewsOf my l with
        | error e => rw [hr] at h; cases h
        | ok r =>
          rw [hr] at h
          injection h with h
          subst h
          exact ⟨_, rfl, List.Perm.swap _ _ _⟩
  | trans _ _ ih1 ih2 =>
    intro vs h
    obtain ⟨v1, h1, p1⟩ := ih1 vs h
    obtain ⟨v2, h2, p2⟩ := ih2 v1 h1
    exact ⟨v2, h2, p1.trans p2⟩

theorem speedRef_perm (prm : SpeedBehaviorParam ℝ) (me : N) {ps ps' : Dict N ObsState} (hw : Dict.Wf ps)
    (h : List.Perm ps ps') : speedRef prm me ps = speedRef prm me ps' := by
  unfold speedRef
  rw [← get_of_perm hw h me]
  cases Dict.get? ps me with
  | none => rfl
  | some my =>
    simp only
    obtain ⟨vs, h1, -⟩ := viewsOf_spec my ps
    obtain ⟨vs', h2, h3⟩ := viewsOf_perm my h vs h1
    rw [h1, h2]
    have hwv : Dict.Wf vs := by
      unfold Dict.Wf; rw [viewsOf_keys my ps vs h1]; exact hw
    exact getSpeedRef_perm _ prm me hwv h3

/-- **C155.** A lane follower does the same whatever the order in which it observes the players. -/
theorem C155_lane_follower {L : Type} (c : Conf L) (a : LF N) (ps ps' : Dict N ObsState) (t : ℝ) (hw : Dict.Wf ps)
    (h : List.Perm ps ps') : a.getCommands c ps t = a.getCommands c ps' t := by
  unfold LF.getCommands
  cases a.myName with
  | none => rfl
  | some me => simp only [get_of_perm hw h me, speedRef_perm c.behavior me hw h]

/-- The same calls, with the players in other orders. -/
inductive SameCalls : List (Call N) → List (Call N) → Prop
  | nil : SameCalls [] []
  | init (n : N) {l l' : List (Call N)} : SameCalls l l' → SameCalls (.init n :: l) (.init n :: l')
  | ask {ps ps' : Dict N ObsState} (t : ℝ) {l l' : List (Call N)} : Dict.Wf ps → List.Perm ps ps' → SameCalls l l' →
      SameCalls (.ask ps t :: l) (.ask ps' t :: l')

/-- **C155.** The same for a whole life of a lane follower: the same answers and the same agent at the end. -/
theorem C155_lane_follower_life {L : Type} (c : Conf L) {l l' : List (Call N)} (h : SameCalls l l') :
    ∀ a : LF N, a.run c l = a.run c l' := by
  induction h with
  | nil => exact fun _ => rfl
  | init n _ ih => intro a; simp only [LF.run, LF.step, ih]
  | ask t hw hp _ ih => intro a; simp only [LF.run, LF.step, ih, C155_lane_follower c a _ _ t hw hp]

/-- Three cars, one of them close ahead of the agent. -/
noncomputable def platoon : Dict Nat ObsState :=
  [(0, ⟨0, 0, 0, 10, 0⟩), (1, ⟨12, 0, 0, 4, 0⟩), (2, ⟨0, 30, 1, 5, 0⟩)]

/-- The same cars in another order. -/
noncomputable def platoon' : Dict Nat ObsState :=
  [(2, ⟨0, 30, 1, 5, 0⟩), (0, ⟨0, 0, 0, 10, 0⟩), (1, ⟨12, 0, 0, 4, 0⟩)]

theorem platoon_perm : List.Perm platoon platoon' :=
  (List.Perm.cons _ (List.Perm.swap _ _ _)).trans (List.Perm.swap _ _ _)

example := C155_lane_follower_life (Straight.conf [0, 1, 2, 3, 4]) (l := [.init 0, .ask platoon 0, .ask platoon' 1])
  (.init 0 (.ask 0 (by unfold Dict.Wf platoon; decide) platoon_perm (.ask 1 (by unfold Dict.Wf platoon'; decide)
    platoon_perm.symm .nil))) LF.init

end follower

end Agents

namespace Eval

open Sim

variable {N K : Type} [DecidableEq N] [Field K] [LinearOrder K] [IsStrictOrderedRing K]

theorem isFirstMin_perm {l l' : List (N × K)} {r r' : Option K × Option N} (h : l.Perm l') (hr : IsFirstMin l r)
    (hr' : IsFirstMin l' r') : r.1 = r'.1 := by
  have key : ∀ {l : List (N × K)} {r : Option K × Option N}, IsFirstMin l r →
      (l = [] ∧ r.1 = none) ∨ ∃ d, r.1 = some d ∧ (∃ x ∈ l, x.2 = d) ∧ ∀ x ∈ l, d ≤ x.2 := by
    rintro l r (⟨h1, h2⟩ | ⟨pre, n, d, post, h1, h2, h3, h4⟩)
    · exact Or.inl ⟨h1, by rw [h2]⟩
    · refine Or.inr ⟨d, by rw [h2], ⟨(n, d), by simp [h1], rfl⟩, fun x hx => ?_⟩
      rw [h1] at hx
      rcases List.mem_append.mp hx with hx | hx
      · exact (h3 x hx).le
      · rcases List.mem_cons.mp hx with rfl | hx
        · exact le_rfl
        · exact h4 x hx
  rcases key hr with ⟨h1, h2⟩ | ⟨d, h1, ⟨x, hx, hxd⟩, h2⟩ <;> rcases key hr' with ⟨h1', h2'⟩ | ⟨d', h1', ⟨y, hy, hyd⟩, h2'⟩
  · rw [h2, h2']
  · subst h1; have := h.symm.eq_nil; subst this; cases hy
  · subst h1'; have := h.eq_nil; subst this; cases hx
  · rw [h1, h1']
    congr 1
    exact le_antisymm (hyd ▸ h2 y (h.mem_iff.mpr hy)) (hxd ▸ h2' x (h.mem_iff.mp hx))

/-- **C155.** The smallest distance at one time does not depend on the order in which the players are listed. -/
theorem C155_min_distance_partial {X M G : Type} (dist : X → X → M → M → K) (D : G → X → Bool) (models : Dict N M)
    (missions : Dict N G) (mo : N → M) (go : N → G) (ego : N) (states states' : Dict N X)
    (hm : ∀ e ∈ states, Dict.get? models e.1 = some (mo e.1))
    (hg : ∀ e ∈ states, Dict.get? missions e.1 = some (go e.1)) (hw : Dict.Wf states) (hp : List.Perm states states') :
    ∃ r r', minDistAt dist (fun g x => .ok (D g x)) models missions ego states = .ok r ∧
      minDistAt dist (fun g x => .ok (D g x)) models missions ego states' = .ok r' ∧ r.1 = r'.1 := by
  have hw' : Dict.Wf states' := (hp.map Prod.fst).nodup_iff.mp hw
  obtain ⟨r, h1, h2, h3⟩ := C65_at_t dist D models missions mo go ego states hm hg hw
  obtain ⟨r', h1', h2', h3'⟩ := C65_at_t dist D models missions mo go ego states'
    (fun e he => hm e (hp.mem_iff.mpr he)) (fun e he => hg e (hp.mem_iff.mpr he)) hw'
  refine ⟨r, r', h1, h1', ?_⟩
  by_cases hall : ∀ x, (ego, x) ∈ states → D (go ego) x = true
  · rw [h2 hall, h2' fun x hx => hall x (hp.mem_iff.mpr hx)]
  · push Not at hall
    obtain ⟨x, hx, hD⟩ := hall
    have hD : D (go ego) x = false := by simpa using hD
    refine isFirstMin_perm ?_ (h3 x hx hD) (h3' x (hp.mem_iff.mp hx) hD)
    unfold distances active
    exact ((hp.filter _).filter _).map _

/-- **C155, negative.** With two players at the same distance, the order decides which of them is named. -/
theorem C155_false_nearest : ∃ (states states' : Dict Nat ℚ), Dict.Wf states ∧ List.Perm states states' ∧
    (minDistAt (fun a b (_ _ : Unit) => |a - b|) (fun (_ : Unit) _ => .ok false) [(0, ()), (1, ()), (2, ())]
      [(0, ()), (1, ()), (2, ())] 0 states).toOption ≠
    (minDistAt (fun a b (_ _ : Unit) => |a - b|) (fun (_ : Unit) _ => .ok false) [(0, ()), (1, ()), (2, ())]
      [(0, ()), (1, ()), (2, ())] 0 states').toOption :=
  ⟨[(0, 5), (1, 3), (2, 7)], [(0, 5), (2, 7), (1, 3)], by unfold Dict.Wf; decide, by decide, by decide +kernel⟩

example := C155_min_distance_partial (fun a b (_ _ : Unit) => |a - b|) (fun (_ : Unit) (x : ℚ) => decide (10 < x))
  [(0, ()), (1, ()), (2, ())] [(0, ()), (1, ()), (2, ())] (fun _ => ()) (fun _ => ()) 0 [(0, 5), (1, 3), (2, 7)]
  [(0, 5), (2, 7), (1, 3)] (by decide) (by decide) (by unfold Dict.Wf; decide) (by decide)

end Eval
end Verif
