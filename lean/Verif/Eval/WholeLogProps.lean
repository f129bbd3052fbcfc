import Verif.Eval.TtcProps
import Verif.Eval.DistProps

/-!
# C65, C81: safety metrics in terms of the logs

`C65_min_dist` and `C81_whole` speak of the states that are read from the log. Here the same is said of the
logs themselves: when they can be read and which states count.
-/

namespace Verif
namespace Eval

open Sim

set_option linter.unusedSectionVars false

variable {N K : Type} [DecidableEq N] [Field K] [LinearOrder K] [IsStrictOrderedRing K]
  {Wd : World N K} [AddCommGroup Wd.X] [Module K Wd.X]

/-- The log of a player is in order and has a state, and a command and info at or before `t`. -/
def Begun (l : PlayerLog Wd) (t : K) : Prop :=
  l.Valid ∧ l.states.ts ≠ [] ∧ (∃ u ∈ l.commands.ts, u ≤ t) ∧ ∃ u ∈ l.info.ts, u ≤ t

theorem begun_reads (l : PlayerLog Wd) (t : K) (h : Begun l t) : ∃ e, l.atInterp t = .ok e := by
  obtain ⟨hv, h1, ⟨u, hu, h2⟩, w, hw, h3⟩ := h
  cases he : l.atInterp t with
  | ok e => exact ⟨e, rfl⟩
  | error e =>
    rcases (C29_player_error_iff l hv t).mp ⟨e, he⟩ with a | a | a
    · exact absurd a h1
    · exact absurd (a u hu) (not_lt.mpr h2)
    · exact absurd (a w hw) (not_lt.mpr h3)

theorem begun_snapshot (logs : Dict N (PlayerLog Wd)) (t : K) (h : ∀ e ∈ logs, Begun e.2 t) :
    ∃ st, statesAt logs t = .ok st := by
  have : ∃ r, SimLog.atInterp logs t = .ok r := by
    induction logs with
    | nil => exact ⟨[], rfl⟩
    | cons e logs ih =>
      obtain ⟨x, hx⟩ := begun_reads e.2 t (h e (by simp))
      obtain ⟨r, hr⟩ := ih fun e he => h e (by simp [he])
      exact ⟨(e.1, x) :: r, by simp only [SimLog.atInterp, hx, hr, bind, Except.bind, pure, Except.pure]⟩
  obtain ⟨r, hr⟩ := this
  exact ⟨r.map fun e => (e.1, e.2.state), by simp only [statesAt, hr, bind, Except.bind, pure, Except.pure]⟩

theorem snapshot_keys (logs : Dict N (PlayerLog Wd)) (t : K) (st : Dict N Wd.X)
    (h : statesAt logs t = .ok st) : Dict.keys st = Dict.keys logs := by
  have := C65_snapshot logs t st h
  clear h
  induction this with
  | nil => rfl
  | cons a _ ih => simp only [Dict.keys, List.map_cons] at ih ⊢; rw [ih, a.1]

/-- A player is read with a state exactly if it is the interpolation of the player's own states. -/
theorem snapshot_mem (logs : Dict N (PlayerLog Wd)) (hwf : Dict.Wf logs) (t : K)
    (hb : ∀ e ∈ logs, Begun e.2 t) (st : Dict N Wd.X) (h : statesAt logs t = .ok st) (n : N) (x : Wd.X) :
    (n, x) ∈ st ↔ ∃ l, Dict.get? logs n = some l ∧ IsInterp l.states.samples t x := by
  have hf := C65_snapshot logs t st h
  constructor
  · intro hm
    obtain ⟨e, he, h1, h2⟩ : ∃ e ∈ logs, n = e.1 ∧ e.2.states.atInterp t = .ok x := by
      clear h hb hwf
      induction hf with
      | nil => cases hm
      | cons a _ ih =>
        rcases List.mem_cons.mp hm with rfl | hm
        · exact ⟨_, by simp, a⟩
        · obtain ⟨e, he, r⟩ := ih hm
          exact ⟨e, by simp [he], r⟩
    subst h1
    exact ⟨e.2, Dict.get?_of_mem hwf he, (atInterp_ok_iff _ (hb e he).1.1 t x).mp h2⟩
  · rintro ⟨l, hl, hi⟩
    have hm := Dict.get?_eq_some_mem hl
    have hx := (atInterp_ok_iff _ (hb _ hm).1.1 t x).mpr hi
    clear h hb hwf hl hi
    induction hf with
    | nil => cases hm
    | @cons a b _ _ r _ ih =>
      rcases List.mem_cons.mp hm with e | hm
      · subst e
        have : b.2 = x := by have := r.2; rw [hx] at this; injection this with this; exact this.symm
        exact List.mem_cons.mpr (Or.inl (Prod.ext r.1.symm this.symm))
      · exact List.mem_cons_of_mem _ (ih hm)

/-- `d` is the distance between the ego and another player `n` at the ego's logged time `t` in the range,
both being at the interpolations of their logged states and neither having reached its goal. -/
def Apart {M G : Type} (dist : Wd.X → Wd.X → M → M → K) (D : G → Wd.X → Bool) (mo : N → M) (go : N → G)
    (logs : Dict N (PlayerLog Wd)) (ego : N) (lo hi : Option K) (t : K) (n : N) (d : K) : Prop :=
  ∃ le l xe x, Dict.get? logs ego = some le ∧ Dict.get? logs n = some l ∧ n ≠ ego ∧
    t ∈ le.states.ts ∧ InRange lo hi t ∧ IsInterp le.states.samples t xe ∧ IsInterp l.states.samples t x ∧
    D (go ego) xe = false ∧ D (go n) x = false ∧ d = dist xe x (mo ego) (mo n)

/-- **C65.** For logs in order in which every player has begun at the ego's logged times in the range, and
with models and missions for all players, the result is the smallest of the distances, with a player at
this distance and the first time at which it is attained; without any it is infinity, without player and time. -/
theorem C65_logs {M G : Type} (dist : Wd.X → Wd.X → M → M → K) (D : G → Wd.X → Bool)
    (logs : Dict N (PlayerLog Wd)) (hwf : Dict.Wf logs) (models : Dict N M) (missions : Dict N G) (mo : N → M)
    (go : N → G) (ego : N) (lo hi : Option K) (le : PlayerLog Wd) (hl : Dict.get? logs ego = some le)
    (hv : le.states.Valid)
    (hb : ∀ t ∈ le.states.ts, InRange lo hi t → ∀ e ∈ logs, Begun e.2 t)
    (hm : ∀ n ∈ Dict.keys logs, Dict.get? models n = some (mo n))
    (hg : ∀ n ∈ Dict.keys logs, Dict.get? missions n = some (go n)) :
    let S := Apart dist D mo go logs ego lo hi
    ∃ r, getMinDist dist (fun g x => .ok (D g x)) logs models missions ego lo hi = .ok r ∧
      ((r = (none, none, none) ∧ ∀ t n d, ¬ S t n d) ∨
       ∃ t n d, r = (some d, some n, some t) ∧ S t n d ∧ ∀ t' n' d', S t' n' d' →
        d ≤ d' ∧ (t' < t → d < d')) := by
  intro S
  let snap : K → Dict N Wd.X := fun t => match statesAt logs t with | .ok st => st | .error _ => []
  have hsnap : ∀ t ∈ le.states.ts, InRange lo hi t → statesAt logs t = .ok (snap t) := by
    intro t ht hr
    obtain ⟨st, hst⟩ := begun_snapshot logs t (hb t ht hr)
    simp only [snap, hst]
  have hkeys : ∀ t, Dict.keys (snap t) = Dict.keys logs ∨ snap t = [] := by
    intro t
    cases hst : statesAt logs t with
    | ok st => left; simp only [snap, hst]; exact snapshot_keys logs t st hst
    | error e => right; simp only [snap, hst]
  have hin : ∀ t, ∀ e ∈ snap t, e.1 ∈ Dict.keys logs := by
    intro t e he
    rcases hkeys t with h | h
    · rw [← h]; exact List.mem_map_of_mem (f := Prod.fst) he
    · rw [h] at he; cases he
  have hS : IsDist (Wd := Wd) dist D mo go le.states.ts snap ego lo hi = S := by
    funext t n d
    apply propext
    constructor
    · rintro ⟨h1, h2, xe, x, h3, h4, h5, h6, h7, h8⟩
      obtain ⟨l1, a1, a2⟩ := (snapshot_mem logs hwf t (hb t h1 h2) _ (hsnap t h1 h2) _ _).mp h3
      obtain ⟨l2, b1, b2⟩ := (snapshot_mem logs hwf t (hb t h1 h2) _ (hsnap t h1 h2) _ _).mp h4
      rw [hl] at a1; injection a1 with a1; subst a1
      exact ⟨le, l2, xe, x, hl, b1, h5, h1, h2, a2, b2, h6, h7, h8⟩
    · rintro ⟨l1, l2, xe, x, a1, b1, h5, h1, h2, a2, b2, h6, h7, h8⟩
      rw [hl] at a1; injection a1 with a1; subst a1
      exact ⟨h1, h2, xe, x, (snapshot_mem logs hwf t (hb t h1 h2) _ (hsnap t h1 h2) _ _).mpr ⟨le, hl, a2⟩,
        (snapshot_mem logs hwf t (hb t h1 h2) _ (hsnap t h1 h2) _ _).mpr ⟨l2, b1, b2⟩, h5, h6, h7, h8⟩
  have := C65_min_dist (Wd := Wd) dist D logs models missions mo go ego lo hi le hl hv snap hsnap
    (by
      intro t
      rcases hkeys t with h | h
      · unfold Dict.Wf; rw [h]; exact hwf
      · rw [h]; exact List.nodup_nil)
    (fun t e he => hm _ (hin t e he)) (fun t e he => hg _ (hin t e he))
  rw [hS] at this
  exact this

-- the two cars on a line, between 0.2 s and 0.9 s
example : Dict.Wf [(0, Toy.log0), (1, Toy.log1)] ∧ (∀ t ∈ Toy.log0.states.ts, InRange (some (1 / 5)) (some (9 / 10)) t →
    ∀ e ∈ [(0, Toy.log0), (1, Toy.log1)], Begun e.2 t) := by
  refine ⟨by simp [Dict.Wf, Dict.keys], fun t _ hr e he => ?_⟩
  have h0 : (0 : ℚ) ≤ t := le_trans (by norm_num) (hr.1 _ rfl)
  simp only [List.mem_cons, List.not_mem_nil, or_false] at he
  rcases he with rfl | rfl
  · exact ⟨Toy.log0_valid, by simp [Toy.log0], ⟨0, by simp [Toy.log0], h0⟩, 0, by simp [Toy.log0], h0⟩
  · refine ⟨⟨⟨rfl, ?_⟩, ⟨rfl, ?_⟩, ⟨rfl, ?_⟩, ⟨rfl, ?_⟩⟩, by simp [Toy.log1], ⟨0, by simp [Toy.log1], h0⟩, 0,
      by simp [Toy.log1], h0⟩ <;> decide +kernel

section
variable {N : Type} [DecidableEq N] {Wd : World N ℝ} [AddCommGroup Wd.X] [Module ℝ Wd.X]

theorem min_over (ts : List ℝ) (hp : ts.Pairwise (· < ·)) (f : ℝ → EReal) (v : EReal) (t? : Option ℝ)
    (h : IsMinOf (ts.map fun t => (t, f t)) v t?) : (∀ t ∈ ts, v ≤ f t) ∧ ((v = ⊤ ∧ t? = none) ∨
      ∃ t ∈ ts, t? = some t ∧ v = f t ∧ v < ⊤ ∧ ∀ t' ∈ ts, t' < t → v < f t') := by
  rcases h with ⟨rfl, h1, h2⟩ | ⟨pre, n, post, h1, h2, h3, h4, h5⟩
  · exact ⟨fun t ht => (h2 (t, f t) (List.mem_map_of_mem ht)).ge, Or.inl ⟨rfl, h1⟩⟩
  · obtain ⟨l1, l2, rfl, e1, e2⟩ := List.map_eq_append_iff.mp h1
    obtain ⟨t, l3, rfl, e3, e4⟩ := List.map_eq_cons_iff.mp e2
    injection e3 with e3 e5
    subst e3 e1 e4
    have a1 : ∀ u ∈ l1, v < f u := fun u hu => h4 (u, f u) (List.mem_map_of_mem hu)
    have a2 : ∀ u ∈ l3, v ≤ f u := fun u hu => h5 (u, f u) (List.mem_map_of_mem hu)
    refine ⟨fun u hu => ?_, Or.inr ⟨t, by simp, h2, e5.symm, h3, fun u hu hlt => ?_⟩⟩
    · rcases List.mem_append.mp hu with hu | hu
      · exact (a1 u hu).le
      · rcases List.mem_cons.mp hu with rfl | hu
        · exact e5.ge
        · exact a2 u hu
    · rcases List.mem_append.mp hu with hu | hu
      · exact a1 u hu
      · rcases List.mem_cons.mp hu with rfl | hu
        · exact absurd hlt (lt_irrefl _)
        · exact absurd (List.rel_of_pairwise_cons (List.pairwise_append.mp hp).2.1 hu) (not_lt.mpr hlt.le)

theorem min_in {A : Type} (l : List A) (k : A → N) (g : A → EReal) (v : EReal) (a : Option N)
    (h : IsMinOf (l.map fun e => (k e, g e)) v a) :
    (∀ e ∈ l, v ≤ g e) ∧ (v < ⊤ → ∃ e ∈ l, a = some (k e) ∧ v = g e) := by
  rcases h with ⟨rfl, h1, h2⟩ | ⟨pre, n, post, h1, h2, h3, h4, h5⟩
  · exact ⟨fun e he => (h2 (k e, g e) (List.mem_map_of_mem he)).ge, fun h => absurd h (lt_irrefl _)⟩
  · obtain ⟨l1, l2, rfl, e1, e2⟩ := List.map_eq_append_iff.mp h1
    obtain ⟨t, l3, rfl, e3, e4⟩ := List.map_eq_cons_iff.mp e2
    injection e3 with e3 e5
    subst e3 e1 e4
    refine ⟨fun u hu => ?_, fun _ => ⟨t, by simp, h2, e5.symm⟩⟩
    rcases List.mem_append.mp hu with hu | hu
    · exact (h4 (k u, g u) (List.mem_map_of_mem hu)).le
    · rcases List.mem_cons.mp hu with rfl | hu
      · exact e5.ge
      · exact h5 (k u, g u) (List.mem_map_of_mem hu)

theorem max_over (ts : List ℝ) (hp : ts.Pairwise (· < ·)) (f : ℝ → EReal) (v : EReal) (t? : Option ℝ)
    (h : IsMaxOf (ts.map fun t => (t, f t)) v t?) : (∀ t ∈ ts, f t ≤ v) ∧ ((v = ⊥ ∧ t? = none) ∨
      ∃ t ∈ ts, t? = some t ∧ v = f t ∧ ⊥ < v ∧ ∀ t' ∈ ts, t' < t → f t' < v) := by
  rcases h with ⟨rfl, h1, h2⟩ | ⟨pre, n, post, h1, h2, h3, h4, h5⟩
  · exact ⟨fun t ht => (h2 (t, f t) (List.mem_map_of_mem ht)).le, Or.inl ⟨rfl, h1⟩⟩
  · obtain ⟨l1, l2, rfl, e1, e2⟩ := List.map_eq_append_iff.mp h1
    obtain ⟨t, l3, rfl, e3, e4⟩ := List.map_eq_cons_iff.mp e2
    injection e3 with e3 e5
    subst e3 e1 e4
    have a1 : ∀ u ∈ l1, f u < v := fun u hu => h4 (u, f u) (List.mem_map_of_mem hu)
    have a2 : ∀ u ∈ l3, f u ≤ v := fun u hu => h5 (u, f u) (List.mem_map_of_mem hu)
    refine ⟨fun u hu => ?_, Or.inr ⟨t, by simp, h2, e5.symm, h3, fun u hu hlt => ?_⟩⟩
    · rcases List.mem_append.mp hu with hu | hu
      · exact (a1 u hu).le
      · rcases List.mem_cons.mp hu with rfl | hu
        · exact e5.le
        · exact a2 u hu
    · rcases List.mem_append.mp hu with hu | hu
      · exact a1 u hu
      · rcases List.mem_cons.mp hu with rfl | hu
        · exact absurd hlt (lt_irrefl _)
        · exact absurd (List.rel_of_pairwise_cons (List.pairwise_append.mp hp).2.1 hu) (not_lt.mpr hlt.le)

theorem max_in {A : Type} (l : List A) (k : A → N) (g : A → EReal) (v : EReal) (a : Option N)
    (h : IsMaxOf (l.map fun e => (k e, g e)) v a) :
    (∀ e ∈ l, g e ≤ v) ∧ (⊥ < v → ∃ e ∈ l, a = some (k e) ∧ v = g e) := by
  rcases h with ⟨rfl, h1, h2⟩ | ⟨pre, n, post, h1, h2, h3, h4, h5⟩
  · exact ⟨fun e he => (h2 (k e, g e) (List.mem_map_of_mem he)).le, fun h => absurd h (lt_irrefl _)⟩
  · obtain ⟨l1, l2, rfl, e1, e2⟩ := List.map_eq_append_iff.mp h1
    obtain ⟨t, l3, rfl, e3, e4⟩ := List.map_eq_cons_iff.mp e2
    injection e3 with e3 e5
    subst e3 e1 e4
    refine ⟨fun u hu => ?_, fun _ => ⟨t, by simp, h2, e5.symm⟩⟩
    rcases List.mem_append.mp hu with hu | hu
    · exact (h4 (k u, g u) (List.mem_map_of_mem hu)).le
    · rcases List.mem_cons.mp hu with rfl | hu
      · exact e5.le
      · exact h5 (k u, g u) (List.mem_map_of_mem hu)

/-- At the ego's logged time `t` in the range the ego is in `xe` and another player `n` in `x`, by their own
logs, neither has reached its goal, and their centers coincide or come closer at a rate that would close
the distance within five seconds. -/
def Seen {G : Type} (kin : Wd.X → Kin) (D : G → Wd.X → Bool) (go : N → G) (logs : Dict N (PlayerLog Wd))
    (ego : N) (lo hi : Option ℝ) (t : ℝ) (n : N) (xe x : Wd.X) : Prop :=
  ∃ le l, Dict.get? logs ego = some le ∧ Dict.get? logs n = some l ∧ n ≠ ego ∧
    t ∈ le.states.ts ∧ InRange lo hi t ∧ IsInterp le.states.samples t xe ∧ IsInterp l.states.samples t x ∧
    D (go ego) xe = false ∧ D (go n) x = false ∧
    (((kin xe).x = (kin x).x ∧ (kin xe).y = (kin x).y) ∨
      ∃ rate, HasDerivAt (distAfter (kin xe) (kin x)) rate 0 ∧ 0 < distAfter (kin xe) (kin x) 0 ∧ rate < 0 ∧
        distAfter (kin xe) (kin x) 0 ≤ 5 * (-rate))

/-- **C81.** For logs in order in which every player has begun at the ego's logged times in the range, and
with models and missions for all players: the time to collision is the least one over all times and players
seen, with such a player and the first time, infinity without both if none is finite; the deceleration rate
is the greatest one, with such a player and the first time. -/
theorem C81_logs {M G : Type} (kin : Wd.X → Kin) (ttc : Wd.X → Wd.X → M → M → Option (ℝ × ℝ × ℝ))
    (D : G → Wd.X → Bool) (logs : Dict N (PlayerLog Wd)) (hwf : Dict.Wf logs) (models : Dict N M)
    (missions : Dict N G) (mo : N → M) (go : N → G) (ego : N) (lo hi : Option ℝ) (le : PlayerLog Wd)
    (hl : Dict.get? logs ego = some le) (hv : le.states.ts.Pairwise (· < ·))
    (hb : ∀ t ∈ le.states.ts, InRange lo hi t → ∀ e ∈ logs, Begun e.2 t)
    (hm : ∀ n ∈ Dict.keys logs, Dict.get? models n = some (mo n))
    (hg : ∀ n ∈ Dict.keys logs, Dict.get? missions n = some (go n)) :
    let S := Seen kin D go logs ego lo hi
    let T := fun n xe x => ttcVal (ttc xe x (mo ego) (mo n))
    let R := fun n xe x => drac (kin xe).vx ((ttc xe x (mo ego) (mo n)).map (·.2.1))
    ∃ v a t? w b u?, getMinTtcMaxDrac kin ttc (fun g x => .ok (D g x)) logs models missions ego lo hi =
        .ok ((v, a, t?), (w, b, u?)) ∧
      (∀ t n xe x, S t n xe x → v ≤ T n xe x ∧ R n xe x ≤ w) ∧
      ((v = ⊤ ∧ a = none ∧ t? = none) ∨ ∃ t n xe x, S t n xe x ∧ v = T n xe x ∧ v < ⊤ ∧ a = some n ∧ t? = some t ∧
        ∀ t' n' xe' x', S t' n' xe' x' → t' < t → v < T n' xe' x') ∧
      ((w = ⊥ ∧ b = none ∧ u? = none) ∨ ∃ t n xe x, S t n xe x ∧ w = R n xe x ∧ ⊥ < w ∧ b = some n ∧ u? = some t ∧
        ∀ t' n' xe' x', S t' n' xe' x' → t' < t → R n' xe' x' < w) := by
  classical
  intro S T R
  let snap : ℝ → Dict N Wd.X := fun t => match statesAt logs t with | .ok st => st | .error _ => []
  have hsnap : ∀ t ∈ le.states.ts, InRange lo hi t → statesAt logs t = .ok (snap t) := by
    intro t ht hr
    obtain ⟨st, hst⟩ := begun_snapshot logs t (hb t ht hr)
    simp only [snap, hst]
  have hkeys : ∀ t, Dict.keys (snap t) = Dict.keys logs ∨ snap t = [] := by
    intro t
    cases hst : statesAt logs t with
    | ok st => left; simp only [snap, hst]; exact snapshot_keys logs t st hst
    | error e => right; simp only [snap, hst]
  have hin : ∀ t, ∀ e ∈ snap t, e.1 ∈ Dict.keys logs := by
    intro t e he
    rcases hkeys t with h | h
    · rw [← h]; exact List.mem_map_of_mem (f := Prod.fst) he
    · rw [h] at he; cases he
  have hw : ∀ t, Dict.Wf (snap t) := by
    intro t
    rcases hkeys t with h | h
    · unfold Dict.Wf; rw [h]; exact hwf
    · rw [h]; exact List.nodup_nil
  have hat := fun t => C81_at_t kin ttc D models missions mo go ego (snap t)
    (fun e he => hm _ (hin t e he)) (fun e he => hg _ (hin t e he)) (hw t)
  choose res hres hno hyes using hat
  have hmem : ∀ t ∈ le.states.ts, InRange lo hi t → ∀ n x, (n, x) ∈ snap t ↔
      ∃ l, Dict.get? logs n = some l ∧ IsInterp l.states.samples t x := fun t h1 h2 n x =>
    snapshot_mem logs hwf t (hb t h1 h2) _ (hsnap t h1 h2) n x
  -- what is seen at a time are the players looked at
  have hseen : ∀ t n xe x, S t n xe x ↔ t ∈ le.states.ts ∧ InRange lo hi t ∧ (ego, xe) ∈ snap t ∧
      D (go ego) xe = false ∧ (n, x) ∈ approaching kin ego xe (active D go (snap t)) := by
    intro t n xe x
    constructor
    · rintro ⟨l1, l2, a1, b1, h5, h1, h2, a2, b2, h6, h7, h8⟩
      rw [hl] at a1; injection a1 with a1; subst a1
      refine ⟨h1, h2, (hmem t h1 h2 _ _).mpr ⟨le, hl, a2⟩, h6, List.mem_filter.mpr ⟨List.mem_filter.mpr
        ⟨(hmem t h1 h2 _ _).mpr ⟨l2, b1, b2⟩, by simp [h7]⟩, ?_⟩⟩
      simp [h5, (C81_near (kin xe) (kin x)).mpr h8]
    · rintro ⟨h1, h2, h3, h4, h5⟩
      obtain ⟨h5, h6⟩ := List.mem_filter.mp h5
      obtain ⟨h5, h7⟩ := List.mem_filter.mp h5
      obtain ⟨l1, a1, a2⟩ := (hmem t h1 h2 _ _).mp h3
      obtain ⟨l2, b1, b2⟩ := (hmem t h1 h2 _ _).mp h5
      rw [hl] at a1; injection a1 with a1; subst a1
      simp only [Bool.and_eq_true, decide_eq_true_eq, Bool.not_eq_true'] at h6 h7
      exact ⟨le, l2, hl, b1, h6.1, h1, h2, a2, b2, h4, h7, (C81_near _ _).mp h6.2⟩
  -- without active ego nothing is found
  have hidle : ∀ t, (¬ ∃ xe, (ego, xe) ∈ snap t ∧ D (go ego) xe = false) → (res t).ttc = ⊤ ∧ (res t).drac = ⊥ := by
    intro t h
    have := hno t fun x hx => by
      cases hD : D (go ego) x with
      | true => rfl
      | false => exact absurd ⟨x, hx, hD⟩ h
    exact ⟨this.1, this.2.2.1⟩
  have hlow : ∀ t n xe x, S t n xe x → (res t).ttc ≤ T n xe x ∧ R n xe x ≤ (res t).drac := by
    intro t n xe x h
    obtain ⟨-, -, h3, h4, h5⟩ := (hseen t n xe x).mp h
    have := hyes t xe h3 h4
    exact ⟨(min_in _ (fun e : N × Wd.X => e.1) _ _ _ this.1).1 (n, x) h5,
      (max_in _ (fun e : N × Wd.X => e.1) _ _ _ this.2).1 (n, x) h5⟩
  obtain ⟨v, a, t?, w, b, u?, h0, h1, h2, h3, h4, h5, h6⟩ :=
    (C81_whole kin ttc (fun g x => .ok (D g x)) logs models missions ego lo hi).2 le hl hv snap res
      fun t ht hr => ⟨hsnap t ht hr, hres t⟩
  have hp : (le.states.ts.filter fun t => decide (InRange lo hi t)).Pairwise (· < ·) := hv.filter _
  have hf : ∀ t, t ∈ (le.states.ts.filter fun t => decide (InRange lo hi t)) ↔ t ∈ le.states.ts ∧ InRange lo hi t := by
    intro t; simp
  obtain ⟨m1, m2⟩ := min_over _ hp (fun t => (res t).ttc) v t? h1
  obtain ⟨n1, n2⟩ := max_over _ hp (fun t => (res t).drac) w u? h2
  have hof : ∀ t n xe x, S t n xe x → t ∈ (le.states.ts.filter fun t => decide (InRange lo hi t)) :=
    fun t n xe x h => (hf t).mpr ⟨((hseen t n xe x).mp h).1, ((hseen t n xe x).mp h).2.1⟩
  refine ⟨v, a, t?, w, b, u?, h0, fun t n xe x h => ⟨(m1 t (hof _ _ _ _ h)).trans (hlow _ _ _ _ h).1,
    (hlow _ _ _ _ h).2.trans (n1 t (hof _ _ _ _ h))⟩, ?_, ?_⟩
  · rcases m2 with ⟨rfl, rfl⟩ | ⟨t, ht, rfl, e, hlt, hfirst⟩
    · exact Or.inl ⟨rfl, h4 rfl, rfl⟩
    · right
      obtain ⟨ht1, ht2⟩ := (hf t).mp ht
      by_cases hx : ∃ xe, (ego, xe) ∈ snap t ∧ D (go ego) xe = false
      · obtain ⟨xe, hx1, hx2⟩ := hx
        obtain ⟨q, hq, e1, e2⟩ := (min_in _ (fun e : N × Wd.X => e.1) _ _ _ (hyes t xe hx1 hx2).1).2 (e ▸ hlt)
        exact ⟨t, q.1, xe, q.2, (hseen _ _ _ _).mpr ⟨ht1, ht2, hx1, hx2, hq⟩, e.trans e2, hlt,
          (h3 t rfl).trans e1, rfl, fun t' n' xe' x' h' hlt' =>
          lt_of_lt_of_le (hfirst t' (hof _ _ _ _ h') hlt') (hlow _ _ _ _ h').1⟩
      · exact absurd (e.trans (hidle t hx).1) hlt.ne
  · rcases n2 with ⟨rfl, rfl⟩ | ⟨t, ht, rfl, e, hlt, hfirst⟩
    · exact Or.inl ⟨rfl, h6 rfl, rfl⟩
    · right
      obtain ⟨ht1, ht2⟩ := (hf t).mp ht
      by_cases hx : ∃ xe, (ego, xe) ∈ snap t ∧ D (go ego) xe = false
      · obtain ⟨xe, hx1, hx2⟩ := hx
        obtain ⟨q, hq, e1, e2⟩ := (max_in _ (fun e : N × Wd.X => e.1) _ _ _ (hyes t xe hx1 hx2).2).2 (e ▸ hlt)
        exact ⟨t, q.1, xe, q.2, (hseen _ _ _ _).mpr ⟨ht1, ht2, hx1, hx2, hq⟩, e.trans e2, hlt,
          (h5 t rfl).trans e1, rfl, fun t' n' xe' x' h' hlt' =>
          lt_of_le_of_lt (hlow _ _ _ _ h').2 (hfirst t' (hof _ _ _ _ h') hlt')⟩
      · exact absurd (e.trans (hidle t hx).2) hlt.ne'

-- a car that drives towards another one, which stands ten meters ahead of its first state
example : let logs : Dict Nat (PlayerLog lineWd) := [(0, lineLog 0 5), (1, lineLog 10 10)]
    Dict.Wf logs ∧ (∀ t ∈ (lineLog 0 5).states.ts, InRange none none t → ∀ e ∈ logs, Begun e.2 t) ∧
    Seen (Wd := lineWd) (G := Unit) (fun (x : ℝ) => ⟨x, 0, 0, 10 - x⟩) (fun _ _ => false) (fun _ => ()) logs 0 none none
      0 1 (0 : ℝ) (10 : ℝ) := by
  intro logs
  refine ⟨by simp [logs, Dict.Wf, Dict.keys], fun t ht _ e he => ?_, lineLog 0 5, lineLog 10 10, rfl, rfl, by decide,
    by simp [lineLog], ⟨by simp, by simp⟩, ?_, ?_, rfl, rfl, ?_⟩
  · have h0 : (0 : ℝ) ≤ t := by
      simp only [lineLog, List.mem_cons, List.not_mem_nil, or_false] at ht
      rcases ht with rfl | rfl <;> norm_num
    simp only [logs, List.mem_cons, List.not_mem_nil, or_false] at he
    rcases he with rfl | rfl <;>
      exact ⟨lineLog_valid _ _, by simp [lineLog], ⟨0, by simp [lineLog], h0⟩, 0, by simp [lineLog], h0⟩
  · exact (lineLog_at 0 5 0 le_rfl zero_le_one 0 (by norm_num)).state
  · exact (lineLog_at 10 10 0 le_rfl zero_le_one 10 (by norm_num)).state
  · refine (C81_near _ _).mp ?_
    have hn : Maps.norm2 10 0 = 10 := by
      unfold Maps.norm2
      rw [show ((10 : ℝ) ^ 2 + 0 ^ 2) = 10 ^ 2 by norm_num, Real.sqrt_sq (by norm_num)]
    unfold skipAgent closing
    simp only [sub_zero, hn, Real.cos_zero, Real.sin_zero]
    norm_num

end

end Eval
end Verif
