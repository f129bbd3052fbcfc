import Verif.Plan.Primitives
import Verif.Plan.UpsampleProps
import Verif.Phys.LimitProps
import Mathlib.Tactic.FieldSimp

/-!
# C51, C52: motion primitives and the commands sampler
-/

namespace Verif
namespace Plan

open Phys

set_option linter.unusedSectionVars false

variable {K : Type} [Field K] [LinearOrder K] [IsStrictOrderedRing K]

/-- Specification of the sample grids: `n` evenly spaced values from `lo` to `hi`. -/
def IsGrid (lo hi : K) (n : Nat) (l : List K) : Prop :=
  l.length = n ∧ ∀ i : Nat, i < n → l[i]? = some (lo + (i : K) * ((hi - lo) / ((n : K) - 1)))

theorem linspace_grid (lo hi : K) (n : Nat) :
    ∃ l, linspace (lo, hi, (n : Int)) = .ok l ∧ IsGrid lo hi n l := by
  unfold linspace
  simp only
  rw [if_neg (by omega), Int.toNat_natCast]
  refine ⟨_, rfl, ?_⟩
  match n with
  | 0 => exact ⟨rfl, fun i h => by omega⟩
  | 1 =>
    refine ⟨rfl, fun i h => ?_⟩
    obtain rfl : i = 0 := by omega
    simp
  | m + 2 =>
    refine ⟨by simp, fun i h => ?_⟩
    simp only [List.getElem?_map, List.getElem?_range h, Option.map_some, Option.some.injEq]
    have hc : ((m + 2 : Nat) : K) - 1 = (m : K) + 1 := by push_cast; ring
    rw [hc]
    have hp : (0 : K) < (m : K) + 1 := by positivity
    split
    · rename_i hi'
      subst hi'
      push_cast
      field_simp
      ring
    · rfl

/-- **C52.** The samples: as many as asked for, evenly spaced, within the limits and (from two samples
on) including both ends; a negative number is rejected. -/
theorem C52_samples (lo hi : K) (h : lo ≤ hi) (n : Int) :
    (n < 0 → linspace (lo, hi, n) = .error .value) ∧
    (0 ≤ n → ∃ l, linspace (lo, hi, n) = .ok l ∧ IsGrid lo hi n.toNat l ∧
      (∀ x ∈ l, lo ≤ x ∧ x ≤ hi) ∧ (1 ≤ n → lo ∈ l) ∧ (2 ≤ n → hi ∈ l)) := by
  constructor
  · intro hn
    unfold linspace
    rw [if_pos hn]
  · intro hn
    obtain ⟨m, rfl⟩ := Int.eq_ofNat_of_zero_le hn
    obtain ⟨l, hl, hg⟩ := linspace_grid lo hi m
    refine ⟨l, hl, hg, fun x hx => ?_, fun h1 => ?_, fun h2 => ?_⟩
    · obtain ⟨i, hi'⟩ := List.mem_iff_getElem?.mp hx
      have hlt : i < m := by
        have := (List.getElem?_eq_some_iff.mp hi').1
        rw [hg.1] at this; exact this
      have hxi := hg.2 i hlt
      rw [hi'] at hxi
      injection hxi with hxi
      rcases Nat.lt_or_ge 1 m with hm | hm
      · have hd : (0 : K) < (m : K) - 1 := by
          have : (1 : K) < (m : K) := by exact_mod_cast hm
          linarith
        have hi1 : (i : K) ≤ (m : K) - 1 := by
          have : (i : K) + 1 ≤ (m : K) := by exact_mod_cast hlt
          linarith
        have hi0 : (0 : K) ≤ (i : K) := Nat.cast_nonneg i
        rw [hxi, ← mul_div_assoc]
        constructor
        · have : 0 ≤ (i : K) * (hi - lo) / ((m : K) - 1) :=
            div_nonneg (mul_nonneg hi0 (by linarith)) hd.le
          linarith
        · have : (i : K) * (hi - lo) / ((m : K) - 1) ≤ hi - lo := by
            rw [div_le_iff₀ hd, mul_comm (hi - lo)]
            exact mul_le_mul_of_nonneg_right hi1 (by linarith)
          linarith
      · obtain rfl : i = 0 := by omega
        rw [hxi]
        simp [h]
    · have h0 : 0 < m := by omega
      have := hg.2 0 h0
      simp only [Nat.cast_zero, zero_mul, add_zero] at this
      exact List.mem_of_getElem? this
    · have h0 : m - 1 < m := by omega
      have := hg.2 (m - 1) h0
      have hd : (m : K) - 1 ≠ 0 := by
        have : (2 : K) ≤ (m : K) := by exact_mod_cast h2
        intro h; linarith
      have hc : ((m - 1 : Nat) : K) = (m : K) - 1 := by
        rw [Nat.cast_sub (by omega)]; simp
      rw [hc, mul_div_cancel₀ _ hd] at this
      rw [add_sub_cancel] at this
      exact List.mem_of_getElem? this

example : linspace ((0 : ℚ), 1, 5) = .ok [0, 1 / 4, 1 / 2, 3 / 4, 1] := by decide +kernel

/-- Specification of a primitive: `n + 1` samples at the times `k dt`, the first state is the given one
and every other state results from the previous one by the dynamics under the one command. -/
structure IsPrimitive (dyn : Dyn K) (dt : K) (n : Nat) (x : VehicleState K) (cmd : K × K) (t : Traj K) :
    Prop where
  lenT : t.ts.length = n + 1
  lenV : t.vs.length = n + 1
  grid : ∀ k : Nat, k ≤ n → t.ts[k]? = some ((k : K) * dt)
  start : t.vs[0]? = some x
  step : ∀ k : Nat, k < n → ∃ a b, t.vs[k]? = some a ∧ t.vs[k + 1]? = some b ∧ dyn a cmd dt = .ok b
  valid : t.ts.Pairwise (· < ·)

theorem rollStates_spec (dyn : Dyn K) (cmd : K × K) (dt : K) (hdyn : ∀ x, ∃ y, dyn x cmd dt = .ok y)
    (n : Nat) : ∀ x, ∃ ys, rollStates dyn cmd dt n x = .ok ys ∧ ys.length = n ∧
      ∀ k : Nat, k < n → ∃ a b, (x :: ys)[k]? = some a ∧ (x :: ys)[k + 1]? = some b ∧
        dyn a cmd dt = .ok b := by
  induction n with
  | zero => intro x; exact ⟨[], rfl, rfl, fun k h => by omega⟩
  | succ n ih =>
    intro x
    obtain ⟨y, hy⟩ := hdyn x
    obtain ⟨ys, hys, hl, hs⟩ := ih y
    refine ⟨y :: ys, ?_, by simp [hl], ?_⟩
    · simp only [rollStates, hy, hys]
    · intro k hk
      cases k with
      | zero => exact ⟨x, y, rfl, rfl, hy⟩
      | succ k =>
        obtain ⟨a, b, h1, h2, h3⟩ := hs k (by omega)
        exact ⟨a, b, by simpa using h1, by simpa using h2, h3⟩

theorem grid_get (dt : K) (n k : Nat) (hk : k ≤ n) :
    (0 :: (List.range n).map (fun j : Nat => ((j : K) + 1) * dt))[k]? = some ((k : K) * dt) := by
  cases k with
  | zero => simp
  | succ k =>
    rw [List.getElem?_cons_succ, List.getElem?_map, List.getElem?_range (by omega)]
    simp

theorem grid_sorted (dt : K) (hdt : 0 < dt) (n : Nat) :
    (0 :: (List.range n).map (fun j : Nat => ((j : K) + 1) * dt)).Pairwise (· < ·) := by
  rw [List.pairwise_iff_getElem]
  intro i j hi hj hij
  have hlen : (0 :: (List.range n).map (fun j : Nat => ((j : K) + 1) * dt)).length = n + 1 := by simp
  rw [hlen] at hi hj
  have h1 := grid_get dt n i (by omega)
  have h2 := grid_get dt n j (by omega)
  rw [List.getElem?_eq_getElem (by rw [hlen]; exact hi)] at h1
  rw [List.getElem?_eq_getElem (by rw [hlen]; exact hj)] at h2
  injection h1 with h1
  injection h2 with h2
  rw [h1, h2]
  have : (i : K) < (j : K) := by exact_mod_cast hij
  exact mul_lt_mul_of_pos_right this hdt

theorem primitive_spec (dyn : Dyn K) (par : MPGParam K) (hdt : 0 < par.dt)
    (cmd : K × K) (hdyn : ∀ x, ∃ y, dyn x cmd par.dt = .ok y) (x : VehicleState K) :
    ∃ t, primitive dyn par x cmd = .ok t ∧ IsPrimitive dyn par.dt par.nSteps.toNat x cmd t := by
  obtain ⟨ys, hys, hl, hs⟩ := rollStates_spec dyn cmd par.dt hdyn par.nSteps.toNat x
  refine ⟨⟨0 :: (List.range par.nSteps.toNat).map (fun j : Nat => ((j : K) + 1) * par.dt), x :: ys⟩,
    ?_, ?_⟩
  · unfold primitive
    simp only [hys]
    rw [Seq.mk?_of_valid _ _ (by simp [hl]) (grid_sorted par.dt hdt _)]
  · exact ⟨by simp, by simp [hl], fun k hk => grid_get _ _ k hk, rfl, hs, grid_sorted _ hdt _⟩

theorem isPrimitive_unique (dyn : Dyn K) (dt : K) (n : Nat) (x : VehicleState K) (cmd : K × K)
    (t t' : Traj K) (h : IsPrimitive dyn dt n x cmd t) (h' : IsPrimitive dyn dt n x cmd t') : t = t' := by
  have hts : t.ts = t'.ts := by
    apply List.ext_getElem?
    intro k
    rcases Nat.lt_or_ge n k with hk | hk
    · rw [List.getElem?_eq_none (by rw [h.lenT]; omega), List.getElem?_eq_none (by rw [h'.lenT]; omega)]
    · rw [h.grid k hk, h'.grid k hk]
  have hvs : ∀ k : Nat, k ≤ n → t.vs[k]? = t'.vs[k]? := by
    intro k
    induction k with
    | zero => intro _; rw [h.start, h'.start]
    | succ k ih =>
      intro hk
      obtain ⟨a, b, h1, h2, h3⟩ := h.step k (by omega)
      obtain ⟨a', b', h1', h2', h3'⟩ := h'.step k (by omega)
      have := ih (by omega)
      rw [h1, h1'] at this
      injection this with this
      subst this
      rw [h3] at h3'
      injection h3' with h3'
      rw [h2, h2', h3']
  cases t with
  | mk ts vs =>
    cases t' with
    | mk ts' vs' =>
      simp only at hts hvs
      have : vs = vs' := by
        apply List.ext_getElem?
        intro k
        rcases Nat.lt_or_ge n k with hk | hk
        · have e1 : vs.length = n + 1 := h.lenV
          have e2 : vs'.length = n + 1 := h'.lenV
          rw [List.getElem?_eq_none (by omega), List.getElem?_eq_none (by omega)]
        · exact hvs k hk
      rw [hts, this]

theorem mem_combos (vi si v s : List K) (q : (K × K) × (K × K)) :
    q ∈ combos vi si v s ↔ q.1.1 ∈ vi ∧ q.1.2 ∈ si ∧ q.2.1 ∈ v ∧ q.2.2 ∈ s := by
  obtain ⟨⟨a, b⟩, ⟨c, d⟩⟩ := q
  simp only [combos, List.mem_flatMap, List.mem_map, Prod.exists, List.pair_mem_product, Prod.mk.injEq]
  constructor
  · rintro ⟨a', b', ⟨h1, h2⟩, c', d', ⟨h3, h4⟩, ⟨rfl, rfl⟩, rfl, rfl⟩
    exact ⟨h1, h2, h3, h4⟩
  · rintro ⟨h1, h2, h3, h4⟩
    exact ⟨a, b, ⟨h1, h2⟩, c, d, ⟨h3, h4⟩, ⟨rfl, rfl⟩, rfl, rfl⟩

/-- Specification: the commanded change from the start to the end values over the horizon is admissible
for the vehicle. -/
def Feasible (vp : VehicleParams K) (horizon v0 v1 s0 s1 : K) (cmd : K × K) : Prop :=
  cmd.1 * horizon = v1 - v0 ∧ cmd.2 * horizon = s1 - s0 ∧
  vp.accMin ≤ cmd.1 ∧ cmd.1 ≤ vp.accMax ∧ |cmd.2| ≤ vp.ddeltaMax

theorem checkInput_iff (par : MPGParam K) (vp : VehicleParams K) (h : par.dt * (par.nSteps : K) ≠ 0)
    (v0 v1 s0 s1 : K) (cmd : K × K) :
    checkInput par vp v0 v1 s0 s1 = some cmd ↔
      Feasible vp (par.dt * (par.nSteps : K)) v0 v1 s0 s1 cmd := by
  unfold checkInput Feasible
  simp only
  rw [if_neg h]
  generalize par.dt * (par.nSteps : K) = H at *
  constructor
  · intro hc
    split at hc
    · cases hc
    · rename_i hn
      push Not at hn
      injection hc with hc
      subst hc
      exact ⟨div_mul_cancel₀ _ h, div_mul_cancel₀ _ h, hn.2.1, hn.2.2, abs_le.mpr hn.1⟩
  · rintro ⟨h1, h2, h3, h4, h5⟩
    have e1 : (v1 - v0) / H = cmd.1 := by rw [← h1]; exact mul_div_cancel_right₀ _ h
    have e2 : (s1 - s0) / H = cmd.2 := by rw [← h2]; exact mul_div_cancel_right₀ _ h
    rw [e1, e2, if_neg]
    push Not
    exact ⟨abs_le.mp h5, h3, h4⟩

/-- **C51.** Soundness and completeness of the generator, for positive step and number of steps and
dynamics that do not raise: the trajectories generated are exactly the primitives, from the given state
or from the origin with a sampled speed and steering angle, whose constant command is admissible and
produces the change to a sampled end speed and end steering angle over the horizon. -/
theorem C51_generate (dyn : Dyn K) (par : MPGParam K) (vp : VehicleParams K)
    (x0 : Option (VehicleState K)) (hdt : 0 < par.dt) (hn : 1 ≤ par.nSteps)
    (nv ns : Nat) (hv : par.velocity.2.2 = nv) (hs : par.steering.2.2 = ns)
    (hdyn : ∀ x u, ∃ y, dyn x u par.dt = .ok y) :
    ∃ V S out, IsGrid par.velocity.1 par.velocity.2.1 nv V ∧
      IsGrid par.steering.1 par.steering.2.1 ns S ∧
      generate dyn par vp x0 = .ok out ∧
      ∀ t, t ∈ out ↔ ∃ x v1 s1 cmd,
        (match x0 with
          | some x' => x = x'
          | none => ∃ v0 ∈ V, ∃ s0 ∈ S, x = ⟨0, 0, 0, v0, s0⟩) ∧
        v1 ∈ V ∧ s1 ∈ S ∧
        Feasible vp (par.dt * (par.nSteps : K)) x.vx v1 x.delta s1 cmd ∧
        IsPrimitive dyn par.dt par.nSteps.toNat x cmd t := by
  obtain ⟨V, hV, gV⟩ := linspace_grid par.velocity.1 par.velocity.2.1 nv
  obtain ⟨S, hS, gS⟩ := linspace_grid par.steering.1 par.steering.2.1 ns
  rw [← hv] at hV
  rw [← hs] at hS
  have hH : par.dt * (par.nSteps : K) ≠ 0 := by
    have : (1 : K) ≤ (par.nSteps : K) := by exact_mod_cast hn
    have : (0 : K) < par.nSteps := by linarith
    positivity
  -- each pass of the loop succeeds
  have hone : ∀ q, ∃ l, generateOne dyn par vp x0 q = .ok l ∧ ∀ t, t ∈ l ↔ ∃ cmd,
      checkInput par vp q.1.1 q.2.1 q.1.2 q.2.2 = some cmd ∧
      IsPrimitive dyn par.dt par.nSteps.toNat (x0.getD ⟨0, 0, 0, q.1.1, q.1.2⟩) cmd t := by
    intro q
    unfold generateOne
    cases hc : checkInput par vp q.1.1 q.2.1 q.1.2 q.2.2 with
    | none => exact ⟨[], rfl, fun t => by simp⟩
    | some cmd =>
      obtain ⟨t, ht, hp⟩ := primitive_spec dyn par hdt cmd (fun x => hdyn x cmd)
        (x0.getD ⟨0, 0, 0, q.1.1, q.1.2⟩)
      simp only [ht]
      refine ⟨[t], rfl, fun t' => ?_⟩
      simp only [List.mem_singleton, Option.some.injEq]
      constructor
      · rintro rfl; exact ⟨cmd, rfl, hp⟩
      · rintro ⟨_, rfl, h⟩; exact isPrimitive_unique _ _ _ _ _ _ _ h hp
  choose g hg hmem using hone
  refine ⟨V, S, ((combos (match x0 with | some x => [x.vx] | none => V)
    (match x0 with | some x => [x.delta] | none => S) V S).map g).flatten, gV, gS, ?_, ?_⟩
  · unfold generate
    rw [show linspace par.velocity = .ok V from hV, show linspace par.steering = .ok S from hS]
    simp only
    rw [mapE_eq_ok _ g _ (fun q _ => hg q)]
    cases x0 <;> rfl
  · intro t
    simp only [List.mem_flatten, List.mem_map]
    constructor
    · rintro ⟨l, ⟨q, hq, rfl⟩, ht⟩
      rw [mem_combos] at hq
      obtain ⟨cmd, hc, hp⟩ := (hmem q t).mp ht
      rw [checkInput_iff par vp hH] at hc
      cases x0 with
      | none => exact ⟨_, q.2.1, q.2.2, cmd, ⟨_, hq.1, _, hq.2.1, rfl⟩, hq.2.2.1, hq.2.2.2, hc, hp⟩
      | some x =>
        have e1 : q.1.1 = x.vx := by simpa using hq.1
        have e2 : q.1.2 = x.delta := by simpa using hq.2.1
        rw [e1, e2] at hc
        exact ⟨x, q.2.1, q.2.2, cmd, rfl, hq.2.2.1, hq.2.2.2, hc, hp⟩
    · rintro ⟨x, v1, s1, cmd, hx, h1, h2, hf, hp⟩
      refine ⟨g ((x.vx, x.delta), (v1, s1)), ⟨_, ?_, rfl⟩, ?_⟩
      · rw [mem_combos]
        cases x0 with
        | none =>
          obtain ⟨v0, hv0, s0, hs0, rfl⟩ := hx
          exact ⟨hv0, hs0, h1, h2⟩
        | some x' =>
          obtain rfl : x = x' := hx
          exact ⟨by simp, by simp, h1, h2⟩
      · rw [hmem]
        refine ⟨cmd, (checkInput_iff par vp hH _ _ _ _ _).mpr hf, ?_⟩
        cases x0 with
        | none =>
          obtain ⟨v0, hv0, s0, hs0, rfl⟩ := hx
          exact hp
        | some x' =>
          obtain rfl : x = x' := hx
          exact hp

/-- **C51.** Without steps or with a zero step size there is no primitive (and no exception). -/
theorem C51_no_horizon (dyn : Dyn K) (par : MPGParam K) (vp : VehicleParams K)
    (x0 : Option (VehicleState K)) (h : par.dt * (par.nSteps : K) = 0)
    (nv ns : Nat) (hv : par.velocity.2.2 = nv) (hs : par.steering.2.2 = ns) :
    generate dyn par vp x0 = .ok [] := by
  obtain ⟨V, hV, gV⟩ := linspace_grid par.velocity.1 par.velocity.2.1 nv
  obtain ⟨S, hS, gS⟩ := linspace_grid par.steering.1 par.steering.2.1 ns
  rw [← hv] at hV
  rw [← hs] at hS
  have hone : ∀ q, generateOne dyn par vp x0 q = .ok [] := by
    intro q
    unfold generateOne checkInput
    simp only [if_pos h]
  unfold generate
  rw [show linspace par.velocity = .ok V from hV, show linspace par.steering = .ok S from hS]
  simp only
  rw [mapE_eq_ok _ (fun _ => []) _ (fun q _ => hone q)]
  simp

/-- **C51.** With the discrete bicycle dynamics and start and end values within the limits of the
vehicle, a primitive interpolates speed and steering angle linearly and ends exactly with the sampled
ones. -/
theorem C51_end (T : Trig K) (wb lr : K) (vp : VehicleParams K) (hp : vp.Valid) (dt : K) (hdt : 0 < dt)
    (n : Nat) (hn : 0 < n) (x : VehicleState K) (v1 s1 : K) (cmd : K × K) (t : Traj K)
    (hx : Admissible vp x) (hv : vp.vxMin ≤ v1 ∧ v1 ≤ vp.vxMax) (hs : |s1| ≤ vp.deltaMax)
    (hf : Feasible vp (dt * (n : K)) x.vx v1 x.delta s1 cmd)
    (ht : IsPrimitive (fun x u dt => .ok (bicycleStep T wb lr vp x u dt)) dt n x cmd t) :
    (∀ k : Nat, k ≤ n → ∃ a, t.vs[k]? = some a ∧
      a.vx = x.vx + (k : K) / n * (v1 - x.vx) ∧ a.delta = x.delta + (k : K) / n * (s1 - x.delta)) ∧
    ∃ a, t.vs[n]? = some a ∧ a.vx = v1 ∧ a.delta = s1 := by
  have hnK : (0 : K) < n := by exact_mod_cast hn
  obtain ⟨f1, f2, f3, f4, f5⟩ := hf
  have e1 : cmd.1 * dt = (v1 - x.vx) / n := by
    field_simp; linarith
  have e2 : cmd.2 * dt = (s1 - x.delta) / n := by
    field_simp; linarith
  have hmain : ∀ k : Nat, k ≤ n → ∃ a, t.vs[k]? = some a ∧
      a.vx = x.vx + (k : K) / n * (v1 - x.vx) ∧ a.delta = x.delta + (k : K) / n * (s1 - x.delta) := by
    intro k
    induction k with
    | zero => intro _; exact ⟨x, ht.start, by simp, by simp⟩
    | succ k ih =>
      intro hk
      obtain ⟨a, ha, hav, had⟩ := ih (by omega)
      obtain ⟨a', b, ha', hb, hab⟩ := ht.step k (by omega)
      rw [ha] at ha'
      injection ha' with ha'
      subst ha'
      injection hab with hab
      have hk1 : ((k + 1 : Nat) : K) / n ≤ 1 := by
        rw [div_le_one hnK]; exact_mod_cast hk
      have hk0 : 0 ≤ ((k + 1 : Nat) : K) / n := by positivity
      have g1 : a.vx + cmd.1 * dt = x.vx + ((k + 1 : Nat) : K) / n * (v1 - x.vx) := by
        rw [hav, e1]; push_cast; ring
      have g2 : a.delta + cmd.2 * dt = x.delta + ((k + 1 : Nat) : K) / n * (s1 - x.delta) := by
        rw [had, e2]; push_cast; ring
      have hs' := abs_le.mp hs
      have c := C44_euler T wb lr vp hp a cmd dt ⟨f3, f4⟩ f5
        (by
          rw [g1]
          constructor
          · nlinarith [hx.1.1, hv.1]
          · nlinarith [hx.1.2, hv.2])
        (by
          rw [g2, abs_le]
          constructor
          · nlinarith [hx.2.1, hs'.1]
          · nlinarith [hx.2.2, hs'.2])
      simp only at c
      rw [hab] at c
      refine ⟨b, hb, ?_, ?_⟩
      · rw [c, ← g1]
      · rw [c, ← g2]
  refine ⟨hmain, ?_⟩
  obtain ⟨a, ha, h1, h2⟩ := hmain n le_rfl
  refine ⟨a, ha, ?_, ?_⟩
  · rw [h1, div_self hnK.ne']; ring
  · rw [h2, div_self hnK.ne']; ring

/-- A small generator: two speeds, one steering angle, two steps. From a standing start there are two
primitives, staying and accelerating to 2 m/s. -/
example : (generate (K := ℚ) (fun x u dt => .ok (bicycleStep ⟨fun _ => 0, fun _ => 1, fun d => d⟩ 3 1
    carParams x u dt)) ⟨1 / 2, 2, (0, 2, 2), (0, 0, 1)⟩ carParams (some ⟨0, 0, 0, 0, 0⟩)).toOption.map
      (List.map (fun t => (t.ts, t.vs.map (·.vx)))) =
    some [([0, 1 / 2, 1], [0, 0, 0]), ([0, 1 / 2, 1], [0, 1, 2])] := by decide +kernel

/-! ## C52 -/

/-- **C52.** The sampler returns, for positive step and dynamics that do not raise, one two-sample
trajectory per pair of sampled commands, in order, each a primitive of one step from the given state
with that command. -/
theorem C52_generate (dyn : Dyn K) (par : SamplerParam K) (x : VehicleState K) (hdt : 0 < par.dt)
    (na ns : Nat) (ha : par.acc.2.2 = na) (hs : par.steerRate.2.2 = ns)
    (hdyn : ∀ x u, ∃ y, dyn x u par.dt = .ok y) :
    ∃ A S out, IsGrid par.acc.1 par.acc.2.1 na A ∧ IsGrid par.steerRate.1 par.steerRate.2.1 ns S ∧
      samplerGenerate dyn par x = .ok out ∧
      List.Forall₂ (fun cmd t => IsPrimitive dyn par.dt 1 x cmd t) (A.product S) out ∧
      out.length = na * ns := by
  obtain ⟨A, hA, gA⟩ := linspace_grid par.acc.1 par.acc.2.1 na
  obtain ⟨S, hS, gS⟩ := linspace_grid par.steerRate.1 par.steerRate.2.1 ns
  rw [← ha] at hA
  rw [← hs] at hS
  have hone : ∀ cmd, ∃ t, sampleOne dyn par.dt x cmd = .ok t ∧ IsPrimitive dyn par.dt 1 x cmd t := by
    intro cmd
    obtain ⟨y, hy⟩ := hdyn x cmd
    refine ⟨⟨[0, par.dt], [x, y]⟩, ?_, ?_⟩
    · unfold sampleOne
      simp only [hy]
      exact Seq.mk?_of_valid _ _ rfl (by simpa using hdt)
    · refine ⟨rfl, rfl, ?_, rfl, ?_, by simpa using hdt⟩
      · intro k hk
        match k with
        | 0 => simp
        | 1 => simp
      · intro k hk
        obtain rfl : k = 0 := by omega
        exact ⟨x, y, rfl, rfl, hy⟩
  choose g hg hp using hone
  refine ⟨A, S, (A.product S).map g, gA, gS, ?_, ?_, ?_⟩
  · unfold samplerGenerate
    rw [show linspace par.acc = .ok A from hA, show linspace par.steerRate = .ok S from hS]
    simp only
    exact mapE_eq_ok _ g _ (fun q _ => hg q)
  · rw [List.forall₂_map_right_iff]
    exact List.forall₂_same.mpr (fun c _ => hp c)
  · rw [List.length_map, ← gA.1, ← gS.1]; exact List.length_product A S

/-- **C52.** Parameters can be created exactly for one step, and keep what they are given. -/
theorem C52_one_step (dt : K) (n : Int) (acc rate : K × K × Int) (par : SamplerParam K) :
    (SamplerParam.mk? dt n acc rate = .ok par ↔ n = 1 ∧ par = ⟨dt, 1, acc, rate⟩) ∧
    (n ≠ 1 → SamplerParam.mk? dt n acc rate = .error .assertion) := by
  unfold SamplerParam.mk?
  by_cases h : n = 1
  · subst h
    simp [eq_comm]
  · simp [h]

example : SamplerParam.mk? (1 / 2 : ℚ) 1 (-1, 1, 3) (-1, 1, 3) = .ok ⟨1 / 2, 1, (-1, 1, 3), (-1, 1, 3)⟩ :=
  rfl

/-- **C52.** A sampler accepts parameters exactly when their ranges are within the
limits of the vehicle; all sampled commands are then admissible. -/
theorem C52_accepted (vp : VehicleParams K) (par : SamplerParam K) :
    (updateParams vp par = .ok par ↔
      vp.accMin ≤ par.acc.1 ∧ par.acc.1 ≤ par.acc.2.1 ∧ par.acc.2.1 ≤ vp.accMax ∧
      -vp.ddeltaMax ≤ par.steerRate.1 ∧ par.steerRate.1 ≤ par.steerRate.2.1 ∧
      par.steerRate.2.1 ≤ vp.ddeltaMax) ∧
    (updateParams vp par ≠ .ok par → updateParams vp par = .error .assertion) ∧
    (updateParams vp par = .ok par → ∀ A S, linspace par.acc = .ok A → linspace par.steerRate = .ok S →
      (∀ a ∈ A, vp.accMin ≤ a ∧ a ≤ vp.accMax) ∧ ∀ s ∈ S, |s| ≤ vp.ddeltaMax) := by
  have hiff : updateParams vp par = .ok par ↔
      vp.accMin ≤ par.acc.1 ∧ par.acc.1 ≤ par.acc.2.1 ∧ par.acc.2.1 ≤ vp.accMax ∧
      -vp.ddeltaMax ≤ par.steerRate.1 ∧ par.steerRate.1 ≤ par.steerRate.2.1 ∧
      par.steerRate.2.1 ≤ vp.ddeltaMax := by
    unfold updateParams
    split
    · rename_i h
      constructor
      · intro h'; cases h'
      · rintro ⟨a, b, c, -⟩; exact absurd ⟨a, b, c⟩ h
    · rename_i h
      rw [not_not] at h
      split
      · rename_i h2
        constructor
        · intro h'; cases h'
        · rintro ⟨-, -, -, a⟩; exact absurd a h2
      · rename_i h2
        rw [not_not] at h2
        exact ⟨fun _ => ⟨h.1, h.2.1, h.2.2, h2⟩, fun _ => rfl⟩
  refine ⟨hiff, ?_, ?_⟩
  · intro h
    unfold updateParams at h ⊢
    split
    · rfl
    · split
      · rfl
      · rename_i h1 h2
        rw [if_neg h1, if_neg h2] at h
        exact absurd rfl h
  · intro h A S hA hS
    obtain ⟨a1, a2, a3, b1, b2, b3⟩ := hiff.mp h
    constructor
    · intro a ha
      rcases lt_or_ge par.acc.2.2 0 with hn | hn
      · rw [show par.acc = (par.acc.1, par.acc.2.1, par.acc.2.2) from rfl,
          (C52_samples par.acc.1 par.acc.2.1 a2 _).1 hn] at hA
        cases hA
      · obtain ⟨l, hl, -, hb, -⟩ := (C52_samples par.acc.1 par.acc.2.1 a2 _).2 hn
        rw [show par.acc = (par.acc.1, par.acc.2.1, par.acc.2.2) from rfl, hl] at hA
        injection hA with hA
        subst hA
        exact ⟨a1.trans (hb a ha).1, (hb a ha).2.trans a3⟩
    · intro s hs
      rcases lt_or_ge par.steerRate.2.2 0 with hn | hn
      · rw [show par.steerRate = (par.steerRate.1, par.steerRate.2.1, par.steerRate.2.2) from rfl,
          (C52_samples par.steerRate.1 par.steerRate.2.1 b2 _).1 hn] at hS
        cases hS
      · obtain ⟨l, hl, -, hb, -⟩ := (C52_samples par.steerRate.1 par.steerRate.2.1 b2 _).2 hn
        rw [show par.steerRate = (par.steerRate.1, par.steerRate.2.1, par.steerRate.2.2) from rfl,
          hl] at hS
        injection hS with hS
        subst hS
        exact abs_le.mpr ⟨b1.trans (hb s hs).1, (hb s hs).2.trans b3⟩

/-- **C51.** With the parameters derived from a vehicle, every primitive generated starts at the origin and leads between
speeds and steering angles within the limits of the vehicle. -/
theorem C51_vehicle (dyn : Dyn K) (dt : K) (n nv ns : Nat) (vp : VehicleParams K) (hp : vp.Valid) (hdt : 0 < dt)
    (hn : 1 ≤ n) (hdyn : ∀ x u, ∃ y, dyn x u dt = .ok y) :
    ∃ out, generate dyn (MPGParam.fromVehicle dt n nv ns vp) vp none = .ok out ∧
      ∀ t ∈ out, ∃ v0 v1 s0 s1 cmd, (vp.vxMin ≤ v0 ∧ v0 ≤ vp.vxMax) ∧ (vp.vxMin ≤ v1 ∧ v1 ≤ vp.vxMax) ∧
        |s0| ≤ vp.deltaMax ∧ |s1| ≤ vp.deltaMax ∧ Feasible vp (dt * (n : K)) v0 v1 s0 s1 cmd ∧
        IsPrimitive dyn dt n ⟨0, 0, 0, v0, s0⟩ cmd t := by
  obtain ⟨V, S, out, gV, gS, ho, hm⟩ := C51_generate dyn (MPGParam.fromVehicle dt n nv ns vp) vp none hdt
    (by simp only [MPGParam.fromVehicle]; exact_mod_cast hn) nv ns rfl rfl hdyn
  have bound : ∀ (lo hi : K) (m : Nat) (l : List K), lo ≤ hi → IsGrid lo hi m l → ∀ x ∈ l, lo ≤ x ∧ x ≤ hi := by
    intro lo hi m l hle hg x hx
    obtain ⟨i, hi'⟩ := List.getElem?_of_mem hx
    have hil : i < m := hg.1 ▸ (List.getElem?_eq_some_iff.mp hi').1
    rw [hg.2 i hil] at hi'
    injection hi' with hi'
    have hd : 0 ≤ hi - lo := by linarith
    rcases Nat.lt_or_ge m 2 with h2 | h2
    · have h0 : i = 0 := by omega
      rw [← hi', h0]
      simp [hle]
    · have hm1 : (0 : K) < (m : K) - 1 := by
        have : (2 : K) ≤ m := by exact_mod_cast h2
        linarith
      have hi1 : (i : K) ≤ (m : K) - 1 := by
        have : (i : K) + 1 ≤ m := by exact_mod_cast hil
        linarith
      have e1 : (i : K) * ((hi - lo) / ((m : K) - 1)) = (i : K) / ((m : K) - 1) * (hi - lo) := by ring
      have e2 : (i : K) / ((m : K) - 1) ≤ 1 := (div_le_one hm1).mpr hi1
      have e3 : 0 ≤ (i : K) / ((m : K) - 1) := by positivity
      rw [← hi', e1]
      constructor <;> nlinarith
  have bV := bound _ _ _ _ hp.base.vx.le gV
  have bS := bound _ _ _ _ (by have := hp.delta; simp only [MPGParam.fromVehicle]; linarith) gS
  refine ⟨out, ho, fun t ht => ?_⟩
  obtain ⟨x, v1, s1, cmd, ⟨v0, hv0, s0, hs0, rfl⟩, hv1, hs1, hf, hpr⟩ := (hm t).mp ht
  refine ⟨v0, v1, s0, s1, cmd, bV v0 hv0, bV v1 hv1, abs_le.mpr (bS s0 hs0), abs_le.mpr (bS s1 hs1), ?_, ?_⟩
  · simpa [MPGParam.fromVehicle] using hf
  · simpa [MPGParam.fromVehicle] using hpr

example : (⟨⟨-10 / (36 / 10), 130 / (36 / 10), -8, 5⟩, 1, 1 / 2⟩ : VehicleParams ℚ).Valid :=
  ⟨⟨by decide +kernel, by decide +kernel⟩, by decide +kernel, by decide +kernel⟩

/-- **C52, last clause, exactly when it holds.** Parameters derived from the parameters of a vehicle are
accepted by the sampler for that vehicle exactly when its speed limits lie within its acceleration
limits and its steering limit does not exceed its steering rate limit. -/
theorem C52_default_partial (dt : K) (na nr : Int) (vp : VehicleParams K) (hp : vp.Valid) :
    ∃ par, SamplerParam.fromVehicle dt 1 na nr vp = .ok par ∧
      (updateParams vp par = .ok par ↔
        vp.accMin ≤ vp.vxMin ∧ vp.vxMax ≤ vp.accMax ∧ vp.deltaMax ≤ vp.ddeltaMax) := by
  refine ⟨_, rfl, ?_⟩
  rw [(C52_accepted vp _).1]
  simp only
  have := hp.base.vx
  have := hp.delta
  constructor
  · rintro ⟨h1, h2, h3, h4, h5, h6⟩
    exact ⟨h1, h3, h6⟩
  · rintro ⟨h1, h3, h6⟩
    exact ⟨h1, by linarith, h3, by linarith, by linarith, h6⟩

/-- **C52 is false for the default car** (vehicle_utils.py:18; -10 km/h and 130 km/h): the parameters
derived from it are rejected. -/
theorem C52_false_default : let vp : VehicleParams ℚ := ⟨⟨-10 / (36 / 10), 130 / (36 / 10), -8, 5⟩, 1, 1 / 2⟩
    vp.Valid ∧ ∀ dt na nr par, SamplerParam.fromVehicle dt 1 na nr vp = .ok par →
      updateParams vp par = .error .assertion := by
  intro vp
  have hv : vp.Valid := ⟨⟨by decide +kernel, by decide +kernel⟩, by decide +kernel, by decide +kernel⟩
  refine ⟨hv, fun dt na nr par h => ?_⟩
  obtain ⟨par', h', hiff⟩ := C52_default_partial dt na nr vp hv
  rw [h] at h'
  injection h' with h'
  subst h'
  apply (C52_accepted vp par).2.1
  intro hc
  have := (hiff.mp hc).2.1
  exact absurd this (by decide +kernel)

/-- An accepted sampler. -/
example : updateParams carParams ⟨1, 1, (-2, 2, 3), (0, 1 / 10, 2)⟩ = .ok ⟨1, 1, (-2, 2, 3), (0, 1 / 10, 2)⟩ ∧
    (samplerGenerate (K := ℚ) (fun x u dt => .ok (bicycleStep ⟨fun _ => 0, fun _ => 1, fun d => d⟩ 3 1
      carParams x u dt)) ⟨1, 1, (-2, 2, 3), (0, 1 / 10, 2)⟩ ⟨0, 0, 0, 2, 0⟩).toOption.map List.length
      = some 6 := by
  constructor
  · exact ((C52_accepted _ _).1).mpr (by decide +kernel)
  · decide +kernel

end Plan
end Verif
