import Verif.Phys.Solver
import Verif.Phys.LimitProps
import Mathlib.Algebra.Module.LinearMap.Basic
import Mathlib.Algebra.Order.BigOperators.Group.List
import Mathlib.Tactic.Positivity

/-!
# C147: speed and steering limits with an explicit Runge-Kutta solver
-/

namespace Verif
namespace Phys

/-! ## Specification -/

section Spec
variable {K : Type} [Field K] [LinearOrder K]

/-- The sum of the positive members. -/
def posSum (l : List K) : K := (l.map fun a => max a 0).sum

/-- Minus the sum of the negative members. -/
def negSum (l : List K) : K := (l.map fun a => max (-a) 0).sum

/-- The weights sum to one, there are not more of them than stages, and `reach` bounds the positive
members of every row. -/
structure Tableau.Ok (m : Tableau K) (reach : K) : Prop where
  sum : m.weights.sum = 1
  length : m.weights.length ≤ m.rows.length + 1
  rows : ∀ a ∈ m.rows, posSum a ≤ reach
  nonneg : 0 ≤ reach

end Spec

variable {K : Type} [Field K] [LinearOrder K] [IsStrictOrderedRing K]
variable {V W Z : Type} [AddCommGroup V] [Module K V] [AddCommGroup W] [Module K W]
  [AddCommGroup Z] [Module K Z]

/-! ## One component of a system -/

theorem weighted_nil (ks : List V) : weighted ([] : List K) ks = 0 := by simp [weighted]

theorem weighted_cons (a : K) (as : List K) (k : V) (ks : List V) :
    weighted (a :: as) (k :: ks) = a • k + weighted as ks := by simp [weighted]

theorem weighted_none (as : List K) : weighted as ([] : List V) = 0 := by simp [weighted]

theorem weighted_map (L : V →ₗ[K] W) (as : List K) (ks : List V) :
    L (weighted as ks) = weighted as (ks.map L) := by
  induction as generalizing ks with
  | nil => simp [weighted_nil]
  | cons a as ih =>
    cases ks with
    | nil => simp [weighted_none]
    | cons k ks => rw [List.map_cons, weighted_cons, weighted_cons, map_add, map_smul, ih]

theorem weighted_zero (as : List K) (ks : List V) (h : ∀ k ∈ ks, k = 0) : weighted as ks = 0 := by
  induction as generalizing ks with
  | nil => simp [weighted_nil]
  | cons a as ih =>
    cases ks with
    | nil => simp [weighted_none]
    | cons k ks =>
      rw [weighted_cons, h k (by simp), ih ks fun k hk => h k (by simp [hk])]; simp

theorem slopes_mem (P : V → Prop) (f : V → V) (hf : ∀ z, P (f z)) (y : V) (h : K)
    (rows : List (List K)) (ks : List V) (hk : ∀ k ∈ ks, P k) : ∀ k ∈ slopes f y h rows ks, P k := by
  induction rows generalizing ks with
  | nil => exact hk
  | cons a rows ih =>
    refine ih _ fun k hk' => ?_
    rcases List.mem_append.mp hk' with h1 | h1
    · exact hk k h1
    · rw [List.mem_singleton.mp h1]; exact hf _

theorem slopes_proj (L : V →ₗ[K] W) (κ : V →ₗ[K] Z) (f : V → V) (g : W → W) (y : V) (h : K)
    (hκ : ∀ z, κ (f z) = 0) (hg : ∀ z, κ z = κ y → L (f z) = g (L z)) (rows : List (List K)) (ks : List V)
    (hk : ∀ k ∈ ks, κ k = 0) :
    (slopes f y h rows ks).map L = slopes g (L y) h rows (ks.map L) := by
  induction rows generalizing ks with
  | nil => rfl
  | cons a rows ih =>
    have hw : κ (weighted a ks) = 0 := by
      rw [weighted_map]
      refine weighted_zero _ _ fun k hk' => ?_
      obtain ⟨k', h1, h2⟩ := List.mem_map.mp hk'
      rw [← h2]; exact hk k' h1
    have e : L (f (y + h • weighted a ks)) = g (L y + h • weighted a (ks.map L)) := by
      rw [hg _ (by rw [map_add, map_smul, hw, smul_zero, add_zero]), map_add, map_smul, weighted_map]
    simp only [slopes]
    rw [ih]
    · rw [List.map_append, List.map_singleton, e]
    · intro k hk'
      rcases List.mem_append.mp hk' with h1 | h1
      · exact hk k h1
      · rw [List.mem_singleton.mp h1]; exact hκ _

theorem rkStep_proj (L : V →ₗ[K] W) (κ : V →ₗ[K] Z) (f : V → V) (g : W → W) (m : Tableau K) (y : V) (h : K)
    (hκ : ∀ z, κ (f z) = 0) (hg : ∀ z, κ z = κ y → L (f z) = g (L z)) :
    L (rkStep f m h y) = rkStep g m h (L y) ∧ κ (rkStep f m h y) = κ y := by
  constructor
  · unfold rkStep
    rw [map_add, map_smul, weighted_map, slopes_proj L κ f g y h hκ hg _ _ (by simpa using hκ y)]
    rw [List.map_singleton, hg y rfl]
  · unfold rkStep
    rw [map_add, map_smul, weighted_map, weighted_zero]
    · simp
    · intro k hk
      obtain ⟨k', h1, h2⟩ := List.mem_map.mp hk
      rw [← h2]
      exact slopes_mem (fun k => κ k = 0) f hκ y h _ _ (by simpa using hκ y) k' h1

theorem rkRun_proj (L : V →ₗ[K] W) (κ : V →ₗ[K] Z) (f : V → V) (g : W → W) (m : Tableau K) (hs : List K)
    (y : V) (hκ : ∀ z, κ (f z) = 0) (hg : ∀ z, κ z = κ y → L (f z) = g (L z)) :
    L (rkRun f m hs y) = rkRun g m hs (L y) ∧ κ (rkRun f m hs y) = κ y := by
  induction hs generalizing y with
  | nil => exact ⟨rfl, rfl⟩
  | cons h hs ih =>
    obtain ⟨h1, h2⟩ := rkStep_proj L κ f g m y h hκ hg
    have := ih (rkStep f m h y) fun z hz => hg z (hz.trans h2)
    rw [h1, h2] at this
    exact this

/-! ## A guarded component -/

theorem weighted_le (as : List K) (ks : List K) (c : K) (hc : 0 ≤ c) (h : ∀ k ∈ ks, 0 ≤ k ∧ k ≤ c) :
    weighted as ks ≤ posSum as * c ∧ -(negSum as * c) ≤ weighted as ks := by
  have hp (l : List K) : 0 ≤ posSum l :=
    List.sum_nonneg fun x hx => by obtain ⟨a, -, rfl⟩ := List.mem_map.mp hx; exact le_max_right _ _
  have hn (l : List K) : 0 ≤ negSum l :=
    List.sum_nonneg fun x hx => by obtain ⟨a, -, rfl⟩ := List.mem_map.mp hx; exact le_max_right _ _
  induction as generalizing ks with
  | nil => simp [weighted_nil, posSum, negSum]
  | cons a as ih =>
    cases ks with
    | nil =>
      rw [weighted_none]
      have := mul_nonneg (hp (a :: as)) hc
      have := mul_nonneg (hn (a :: as)) hc
      constructor <;> linarith
    | cons k ks =>
      obtain ⟨h1, h2⟩ := ih ks fun k hk => h k (by simp [hk])
      obtain ⟨k0, k1⟩ := h k (by simp)
      have e1 : posSum (a :: as) = max a 0 + posSum as := by simp [posSum]
      have e2 : negSum (a :: as) = max (-a) 0 + negSum as := by simp [negSum]
      rw [weighted_cons, e1, e2, smul_eq_mul, add_mul, add_mul]
      have a1 : a * k ≤ max a 0 * c :=
        (mul_le_mul_of_nonneg_right (le_max_left a 0) k0).trans
          (mul_le_mul_of_nonneg_left k1 (le_max_right _ _))
      have a2 : -a * k ≤ max (-a) 0 * c :=
        (mul_le_mul_of_nonneg_right (le_max_left (-a) 0) k0).trans
          (mul_le_mul_of_nonneg_left k1 (le_max_right _ _))
      constructor <;> linarith

theorem weighted_const (as : List K) (ks : List K) (c : K) (h : ∀ k ∈ ks, k = c)
    (hl : as.length ≤ ks.length) : weighted as ks = as.sum * c := by
  induction as generalizing ks with
  | nil => simp [weighted_nil]
  | cons a as ih =>
    cases ks with
    | nil => simp at hl
    | cons k ks =>
      rw [weighted_cons, h k (by simp), ih ks (fun k hk => h k (by simp [hk])) (by simpa using hl)]
      simp [add_mul]

theorem slopes_length (f : V → V) (y : V) (h : K) (rows : List (List K)) (ks : List V) :
    (slopes f y h rows ks).length = rows.length + ks.length := by
  induction rows generalizing ks with
  | nil => simp [slopes]
  | cons a rows ih => rw [slopes, ih]; simp; omega

/-- The rate of a guarded component under a constant request. -/
abbrev guarded (lo hi c : K) : K → K := fun x => speedConstraint lo hi x c

theorem guarded_pos {lo hi c : K} (hc : 0 < c) (x : K) : guarded lo hi c x = if hi ≤ x then 0 else c := by
  unfold guarded speedConstraint
  by_cases h : hi ≤ x
  · rw [if_pos (Or.inr ⟨h, hc⟩), if_pos h]
  · rw [if_neg h, if_neg]
    rintro (⟨-, h2⟩ | ⟨h2, -⟩)
    · exact absurd h2 (not_lt.mpr hc.le)
    · exact h h2

theorem guarded_neg (lo hi c x : K) : -guarded lo hi c x = guarded (-hi) (-lo) (-c) (-x) := by
  unfold guarded speedConstraint
  by_cases h : (x ≤ lo ∧ c < 0) ∨ (hi ≤ x ∧ 0 < c)
  · rw [if_pos h, if_pos, neg_zero]
    rcases h with h | h
    · exact Or.inr ⟨neg_le_neg h.1, neg_pos.mpr h.2⟩
    · exact Or.inl ⟨neg_le_neg h.1, neg_lt_zero.mpr h.2⟩
  · rw [if_neg h, if_neg]
    rintro (⟨h1, h2⟩ | ⟨h1, h2⟩)
    · exact h (Or.inr ⟨neg_le_neg_iff.mp h1, neg_lt_zero.mp h2⟩)
    · exact h (Or.inl ⟨neg_le_neg_iff.mp h1, neg_pos.mp h2⟩)

/-- No step changes a component whose rate is zero. -/
theorem rkStep_still (g : K → K) (m : Tableau K) (h x : K) (hx : g x = 0) : rkStep g m h x = x := by
  have key : ∀ (rows : List (List K)) (ks : List K), (∀ k ∈ ks, k = 0) →
      ∀ k ∈ slopes g x h rows ks, k = 0 := by
    intro rows
    induction rows with
    | nil => exact fun ks hk => hk
    | cons a rows ih =>
      intro ks hk
      refine ih _ fun k hk' => ?_
      rcases List.mem_append.mp hk' with h1 | h1
      · exact hk k h1
      · rw [List.mem_singleton.mp h1, weighted_zero _ _ hk]; simpa using hx
  unfold rkStep
  rw [weighted_zero _ _ (key _ _ (by simpa using hx))]
  simp

theorem rkStep_bounds (m : Tableau K) {lo hi c h x : K} (hc : 0 < c) (hh : 0 < h) :
    rkStep (guarded lo hi c) m h x ≤ x + posSum m.weights * c * h ∧
    x - negSum m.weights * c * h ≤ rkStep (guarded lo hi c) m h x := by
  have hg : ∀ z, 0 ≤ guarded lo hi c z ∧ guarded lo hi c z ≤ c := by
    intro z
    rw [guarded_pos hc]
    split
    · exact ⟨le_refl _, hc.le⟩
    · exact ⟨hc.le, le_refl _⟩
  obtain ⟨h1, h2⟩ := weighted_le m.weights (slopes (guarded lo hi c) x h m.rows [guarded lo hi c x]) c hc.le
    (slopes_mem (fun k => 0 ≤ k ∧ k ≤ c) _ hg x h _ _ (by simpa using hg x))
  unfold rkStep
  rw [smul_eq_mul]
  have e1 := mul_le_mul_of_nonneg_left h1 hh.le
  have e2 := mul_le_mul_of_nonneg_left h2 hh.le
  constructor <;> nlinarith

/-- Well below the limit a step is exact. -/
theorem rkStep_free {m : Tableau K} {reach : K} (hm : m.Ok reach) {lo hi c h x : K} (hc : 0 < c) (hh : 0 < h)
    (hx : x + reach * c * h < hi) : rkStep (guarded lo hi c) m h x = x + c * h := by
  have hr := hm.nonneg
  have hx0 : x < hi := lt_of_le_of_lt (le_add_of_nonneg_right (by positivity)) hx
  have key : ∀ (rows : List (List K)) (ks : List K), (∀ a ∈ rows, posSum a ≤ reach) → (∀ k ∈ ks, k = c) →
      ∀ k ∈ slopes (guarded lo hi c) x h rows ks, k = c := by
    intro rows
    induction rows with
    | nil => exact fun ks _ hk => hk
    | cons a rows ih =>
      intro ks ha hk
      refine ih _ (fun a h' => ha a (by simp [h'])) fun k hk' => ?_
      rcases List.mem_append.mp hk' with h1 | h1
      · exact hk k h1
      · rw [List.mem_singleton.mp h1, guarded_pos hc, if_neg]
        rw [not_le, smul_eq_mul]
        have w := (weighted_le a ks c hc.le fun k hk' => by rw [hk k hk']; exact ⟨hc.le, le_refl _⟩).1
        have w2 := mul_le_mul_of_nonneg_right (ha a (by simp)) hc.le
        have w3 := mul_le_mul_of_nonneg_left (w.trans w2) hh.le
        linarith
  have hfx : guarded lo hi c x = c := by rw [guarded_pos hc, if_neg (not_le.mpr hx0)]
  have all := key m.rows [guarded lo hi c x] hm.rows (by simpa using hfx)
  unfold rkStep
  rw [weighted_const _ _ c all (by rw [slopes_length]; simpa using hm.length), hm.sum, smul_eq_mul]
  ring

/-- The mirrored component. -/
theorem rkStep_mirror (m : Tableau K) (lo hi c h x : K) :
    -rkStep (guarded lo hi c) m h x = rkStep (guarded (-hi) (-lo) (-c)) m h (-x) :=
  (rkStep_proj (-LinearMap.id) (0 : K →ₗ[K] K) (guarded lo hi c) (guarded (-hi) (-lo) (-c)) m x h
    (by simp) (fun z _ => by simpa using guarded_neg lo hi c z)).1

/-- A positive request: the component exceeds neither what it was nor the limit by more than a step, and
falls neither below what it was nor far below the limit. -/
theorem rkStep_up {m : Tableau K} {reach : K} (hm : m.Ok reach) {lo hi c h x : K} (hc : 0 < c) (hh : 0 < h) :
    (rkStep (guarded lo hi c) m h x ≤ x ∨ rkStep (guarded lo hi c) m h x ≤ hi + posSum m.weights * c * h) ∧
    (x ≤ rkStep (guarded lo hi c) m h x ∨
      hi - (reach + negSum m.weights) * c * h ≤ rkStep (guarded lo hi c) m h x) := by
  rcases le_or_gt hi x with h1 | h1
  · have := rkStep_still (guarded lo hi c) m h x (by rw [guarded_pos hc, if_pos h1])
    exact ⟨Or.inl this.le, Or.inl this.ge⟩
  · obtain ⟨b1, b2⟩ := rkStep_bounds m (lo := lo) (hi := hi) (x := x) hc hh
    refine ⟨Or.inr (by linarith), ?_⟩
    rcases lt_or_ge (x + reach * c * h) hi with h2 | h2
    · left
      rw [rkStep_free hm hc hh h2]
      have := mul_pos hc hh
      linarith
    · right
      linarith

/-- One step keeps a guarded component within its limits widened by what one step can overshoot. -/
theorem rkStep_inv {m : Tableau K} {reach : K} (hm : m.Ok reach) {lo hi c h x H up down : K} (hh : 0 < h)
    (hH : h ≤ H) (hup : c ≤ up) (hdown : -down ≤ c) (u0 : 0 ≤ up) (d0 : 0 ≤ down)
    (r1 : (reach + negSum m.weights) * up * H ≤ hi - lo) (r2 : (reach + negSum m.weights) * down * H ≤ hi - lo)
    (x1 : lo - posSum m.weights * down * H ≤ x) (x2 : x ≤ hi + posSum m.weights * up * H) :
    lo - posSum m.weights * down * H ≤ rkStep (guarded lo hi c) m h x ∧
    rkStep (guarded lo hi c) m h x ≤ hi + posSum m.weights * up * H := by
  have hp : 0 ≤ posSum m.weights :=
    List.sum_nonneg fun x hx => by obtain ⟨a, -, rfl⟩ := List.mem_map.mp hx; exact le_max_right _ _
  have hn : 0 ≤ negSum m.weights :=
    List.sum_nonneg fun x hx => by obtain ⟨a, -, rfl⟩ := List.mem_map.mp hx; exact le_max_right _ _
  have hr := hm.nonneg
  have hH0 : 0 < H := hh.trans_le hH
  have scale : ∀ {q a b : K}, 0 ≤ q → 0 ≤ a → a ≤ b → q * a * h ≤ q * b * H := fun hq ha hab =>
    mul_le_mul (mul_le_mul_of_nonneg_left hab hq) hH hh.le (mul_nonneg hq (ha.trans hab))
  have pu : 0 ≤ posSum m.weights * up * H := by positivity
  have pd : 0 ≤ posSum m.weights * down * H := by positivity
  rcases lt_trichotomy c 0 with hc | hc | hc
  · obtain ⟨b1, b2⟩ := rkStep_up hm (lo := -hi) (hi := -lo) (c := -c) (x := -x) (neg_pos.mpr hc) hh
    rw [← rkStep_mirror] at b1 b2
    have s1 := scale hp (neg_pos.mpr hc).le (show -c ≤ down by linarith)
    have s2 := scale (add_nonneg hr hn) (neg_pos.mpr hc).le (show -c ≤ down by linarith)
    constructor
    · rcases b1 with b1 | b1 <;> linarith
    · rcases b2 with b2 | b2 <;> linarith
  · have : rkStep (guarded lo hi c) m h x = x := rkStep_still _ m h x (by
      rw [hc]; unfold guarded speedConstraint; split <;> rfl)
    rw [this]; exact ⟨x1, x2⟩
  · obtain ⟨b1, b2⟩ := rkStep_up hm (lo := lo) (hi := hi) (x := x) hc hh
    have s1 := scale hp hc.le hup
    have s2 := scale (add_nonneg hr hn) hc.le hup
    constructor
    · rcases b2 with b2 | b2 <;> linarith
    · rcases b1 with b1 | b1 <;> linarith

theorem rkRun_inv {m : Tableau K} {reach : K} (hm : m.Ok reach) {lo hi c H up down : K} (hs : List K)
    (hh : ∀ h ∈ hs, 0 < h ∧ h ≤ H) (hup : c ≤ up) (hdown : -down ≤ c) (u0 : 0 ≤ up) (d0 : 0 ≤ down)
    (r1 : (reach + negSum m.weights) * up * H ≤ hi - lo) (r2 : (reach + negSum m.weights) * down * H ≤ hi - lo)
    (x : K) (x1 : lo - posSum m.weights * down * H ≤ x) (x2 : x ≤ hi + posSum m.weights * up * H) :
    lo - posSum m.weights * down * H ≤ rkRun (guarded lo hi c) m hs x ∧
    rkRun (guarded lo hi c) m hs x ≤ hi + posSum m.weights * up * H := by
  induction hs generalizing x with
  | nil => exact ⟨x1, x2⟩
  | cons h hs ih =>
    obtain ⟨h1, h2⟩ := hh h (by simp)
    obtain ⟨y1, y2⟩ := rkStep_inv hm h1 h2 hup hdown u0 d0 r1 r2 x1 x2
    exact ih (fun h' hh' => hh h' (by simp [hh'])) _ y1 y2

theorem rkRun_still (g : K → K) (m : Tableau K) (hs : List K) (x : K) (hx : g x = 0) :
    rkRun g m hs x = x := by
  induction hs with
  | nil => rfl
  | cons h hs ih =>
    show rkRun g m hs (rkStep g m h x) = x
    rw [rkStep_still g m h x hx, ih]

theorem rkRun_free {m : Tableau K} {reach : K} (hm : m.Ok reach) {lo hi c H : K} (hs : List K) (hc : 0 < c)
    (hh : ∀ h ∈ hs, 0 < h ∧ h ≤ H) (x : K) (hx : x + c * hs.sum + reach * c * H < hi) :
    rkRun (guarded lo hi c) m hs x = x + c * hs.sum := by
  induction hs generalizing x with
  | nil => simp [rkRun]
  | cons h hs ih =>
    obtain ⟨h1, h2⟩ := hh h (by simp)
    have hr := hm.nonneg
    have s0 : 0 ≤ hs.sum := List.sum_nonneg fun h' hh' => (hh h' (by simp [hh'])).1.le
    have e1 : reach * c * h ≤ reach * c * H := mul_le_mul_of_nonneg_left h2 (by positivity)
    have e2 : 0 ≤ c * hs.sum := by positivity
    have e3 : 0 < c * h := by positivity
    rw [List.sum_cons] at hx
    show rkRun _ m hs (rkStep _ m h x) = _
    rw [rkStep_free hm hc h1 (by linarith), ih (fun h' hh' => hh h' (by simp [hh']))]
    · rw [List.sum_cons]; ring
    · linarith

theorem rkRun_mirror (m : Tableau K) (lo hi c : K) (hs : List K) (x : K) :
    -rkRun (guarded lo hi c) m hs x = rkRun (guarded (-hi) (-lo) (-c)) m hs (-x) :=
  (rkRun_proj (-LinearMap.id) (0 : K →ₗ[K] K) (guarded lo hi c) (guarded (-hi) (-lo) (-c)) m hs x
    (by simp) (fun z _ => by simpa using guarded_neg lo hi c z)).1

theorem rkRun_free_neg {m : Tableau K} {reach : K} (hm : m.Ok reach) {lo hi c H : K} (hs : List K) (hc : c < 0)
    (hh : ∀ h ∈ hs, 0 < h ∧ h ≤ H) (x : K) (hx : lo < x + c * hs.sum + reach * c * H) :
    rkRun (guarded lo hi c) m hs x = x + c * hs.sum := by
  have h1 := rkRun_mirror m lo hi c hs x
  rw [rkRun_free hm hs (neg_pos.mpr hc) hh (-x) (by linarith)] at h1
  linarith

/-! ## C147 -/

/-- The speed in the packed array. -/
def speedPart : (VehicleState K × K × K) →ₗ[K] K where
  toFun y := y.1.vx
  map_add' _ _ := rfl
  map_smul' k y := by show y.1.vx * k = k * y.1.vx; ring

/-- The steering angle in the packed array. -/
def steerPart : (VehicleState K × K × K) →ₗ[K] K where
  toFun y := y.1.delta
  map_add' _ _ := rfl
  map_smul' k y := by show y.1.delta * k = k * y.1.delta; ring

/-- The commands in the packed array. -/
def cmdPart : (VehicleState K × K × K) →ₗ[K] K × K := LinearMap.snd K _ _

theorem steering_guarded {dm rm : K} (hr : 0 < rm) (angle rate : K) :
    steeringConstraint dm rm angle rate = speedConstraint (-dm) dm angle (accelerationLimits (-rm) rm rate) := by
  have hneg : accelerationLimits (-rm) rm rate < 0 ↔ rate < 0 := by
    unfold accelerationLimits; split_ifs <;> constructor <;> intro _ <;> linarith
  have hpos : 0 < accelerationLimits (-rm) rm rate ↔ 0 < rate := by
    unfold accelerationLimits; split_ifs <;> constructor <;> intro _ <;> linarith
  unfold steeringConstraint speedConstraint
  simp only [hneg, hpos]
  rfl

/-- What the vehicle is asked for. -/
def demanded (drops : Bool) (u : K × K) : K × K := if drops then (0, 0) else u

theorem vehicleSolve_vx (T : Trig K) (wb lr : K) (p : VehicleParams K) (m : Tableau K) (drops : Bool) (u : K × K)
    (hs : List K) (x : VehicleState K) :
    (vehicleSolve T wb lr p m drops u hs x).vx =
      rkRun (guarded p.vxMin p.vxMax (accelerationLimits p.accMin p.accMax (demanded drops u).1)) m hs x.vx := by
  refine (rkRun_proj speedPart cmdPart (packedRate T wb lr p drops) _ m hs (x, u) (fun _ => rfl) ?_).1
  intro z hz
  have hz' : z.2 = u := hz
  show fullAccelerationLimits p.toModelParams z.1.vx (if drops then (0, 0) else z.2).1 = _
  rw [hz']; rfl

theorem vehicleSolve_delta (T : Trig K) (wb lr : K) (p : VehicleParams K) (hp : p.Valid) (m : Tableau K)
    (drops : Bool) (u : K × K) (hs : List K) (x : VehicleState K) :
    (vehicleSolve T wb lr p m drops u hs x).delta =
      rkRun (guarded (-p.deltaMax) p.deltaMax (accelerationLimits (-p.ddeltaMax) p.ddeltaMax (demanded drops u).2))
        m hs x.delta := by
  refine (rkRun_proj steerPart cmdPart (packedRate T wb lr p drops) _ m hs (x, u) (fun _ => rfl) ?_).1
  intro z hz
  have hz' : z.2 = u := hz
  show steeringConstraint p.deltaMax p.ddeltaMax z.1.delta (if drops then (0, 0) else z.2).2 = _
  rw [hz', steering_guarded hp.ddelta]; rfl

/-- **C147.** However many updates are made, whatever the commands and however the solver chooses its
steps (none longer than `H`), the speed exceeds its limits by at most what one step of the largest
acceleration times the positive weights of the method amounts to, and the steering angle likewise.
`reach` bounds how far the stages of the method look ahead; the limits have to be further apart than
that. -/
theorem C147_vehicle (T : Trig K) (wb lr : K) (p : VehicleParams K) (hp : p.Valid) (m : Tableau K) (reach H : K)
    (hm : m.Ok reach)
    (r1 : (reach + negSum m.weights) * max p.accMax 0 * H ≤ p.vxMax - p.vxMin)
    (r2 : (reach + negSum m.weights) * max (-p.accMin) 0 * H ≤ p.vxMax - p.vxMin)
    (r3 : (reach + negSum m.weights) * p.ddeltaMax * H ≤ 2 * p.deltaMax)
    (us : List (Solved K)) (hus : ∀ u ∈ us, ∀ h ∈ u.steps, 0 < h ∧ h ≤ H) (hH : 0 ≤ H)
    (x : VehicleState K) (v1 : p.vxMin ≤ x.vx) (v2 : x.vx ≤ p.vxMax) (d : |x.delta| ≤ p.deltaMax) :
    let x' := vehicleSolves T wb lr p m us x
    p.vxMin - posSum m.weights * max (-p.accMin) 0 * H ≤ x'.vx ∧
    x'.vx ≤ p.vxMax + posSum m.weights * max p.accMax 0 * H ∧
    |x'.delta| ≤ p.deltaMax + posSum m.weights * p.ddeltaMax * H := by
  intro x'
  have hq : 0 ≤ posSum m.weights :=
    List.sum_nonneg fun x hx => by obtain ⟨a, -, rfl⟩ := List.mem_map.mp hx; exact le_max_right _ _
  have hd := hp.ddelta
  have key : ∀ (us : List (Solved K)) (x : VehicleState K), (∀ u ∈ us, ∀ h ∈ u.steps, 0 < h ∧ h ≤ H) →
      (p.vxMin - posSum m.weights * max (-p.accMin) 0 * H ≤ x.vx ∧
        x.vx ≤ p.vxMax + posSum m.weights * max p.accMax 0 * H) →
      (-p.deltaMax - posSum m.weights * p.ddeltaMax * H ≤ x.delta ∧
        x.delta ≤ p.deltaMax + posSum m.weights * p.ddeltaMax * H) →
      (p.vxMin - posSum m.weights * max (-p.accMin) 0 * H ≤ (vehicleSolves T wb lr p m us x).vx ∧
        (vehicleSolves T wb lr p m us x).vx ≤ p.vxMax + posSum m.weights * max p.accMax 0 * H) ∧
      (-p.deltaMax - posSum m.weights * p.ddeltaMax * H ≤ (vehicleSolves T wb lr p m us x).delta ∧
        (vehicleSolves T wb lr p m us x).delta ≤ p.deltaMax + posSum m.weights * p.ddeltaMax * H) := by
    intro us
    induction us with
    | nil => exact fun x _ h1 h2 => ⟨h1, h2⟩
    | cons u us ih =>
      intro x hu h1 h2
      have ha := accelerationLimits_clamp hp.base.acc.le (demanded u.drops u.cmd).1
      have hb := accelerationLimits_clamp (show -p.ddeltaMax ≤ p.ddeltaMax by linarith) (demanded u.drops u.cmd).2
      refine ih (vehicleSolve T wb lr p m u.drops u.cmd u.steps x) (fun u' h' => hu u' (by simp [h'])) ?_ ?_
      · rw [vehicleSolve_vx]
        refine rkRun_inv hm _ (hu u (by simp)) (ha.2.1.trans (le_max_left _ _)) ?_ (le_max_right _ _)
          (le_max_right _ _) r1 r2 _ h1.1 h1.2
        exact (neg_le.mpr (le_max_left _ _)).trans ha.1
      · rw [vehicleSolve_delta T wb lr p hp]
        exact rkRun_inv hm _ (hu u (by simp)) hb.2.1 hb.1 hd.le hd.le (by linarith) (by linarith) _ h2.1 h2.2
  have p1 : 0 ≤ posSum m.weights * max (-p.accMin) 0 * H := mul_nonneg (mul_nonneg hq (le_max_right _ _)) hH
  have p2 : 0 ≤ posSum m.weights * max p.accMax 0 * H := mul_nonneg (mul_nonneg hq (le_max_right _ _)) hH
  have p3 : 0 ≤ posSum m.weights * p.ddeltaMax * H := mul_nonneg (mul_nonneg hq hd.le) hH
  obtain ⟨d1, d2⟩ := abs_le.mp d
  obtain ⟨⟨a1, a2⟩, b1, b2⟩ := key us x hus ⟨by linarith, by linarith⟩ ⟨by linarith, by linarith⟩
  exact ⟨a1, a2, abs_le.mpr ⟨by linarith, b2⟩⟩

/-- The coefficients of `RK45` are consistent; its stages look at most 12.78 steps ahead. -/
theorem dormandPrince_ok : (dormandPrince : Tableau K).Ok (83820 / 6561) where
  sum := by norm_num [dormandPrince]
  length := by simp [dormandPrince]
  rows a ha := by
    simp only [dormandPrince, List.mem_cons, List.not_mem_nil, or_false] at ha
    rcases ha with rfl | rfl | rfl | rfl | rfl <;> norm_num [posSum, max_def]
  nonneg := by norm_num

set_option maxHeartbeats 2000000 in
/-- Below the limit a step of `RK45` goes up, and at most 0.4654 of a step beyond the limit. -/
theorem rk45_below {lo hi c h x : K} (hc : 0 < c) (hh : 0 < h) (hx : x < hi) :
    x < rkStep (guarded lo hi c) dormandPrince h x ∧
    rkStep (guarded lo hi c) dormandPrince h x < hi + 4654 / 10000 * (c * h) := by
  have hw : 0 < c * h := mul_pos hc hh
  simp only [rkStep, dormandPrince, slopes, weighted, List.nil_append, List.cons_append,
    List.zipWith_cons_cons, List.zipWith_nil_left, List.zipWith_nil_right, List.sum_cons, List.sum_nil,
    smul_eq_mul, guarded_pos hc, add_zero, zero_mul, zero_add, if_neg (not_le.mpr hx)]
  split_ifs <;> (try simp only [mul_zero, zero_add, add_zero] at *) <;> constructor <;> linarith

theorem rk45_up {lo hi c h x : K} (hc : 0 ≤ c) (hh : 0 < h) :
    x ≤ rkStep (guarded lo hi c) dormandPrince h x ∧
    (rkStep (guarded lo hi c) dormandPrince h x = x ∨
      rkStep (guarded lo hi c) dormandPrince h x ≤ hi + 4654 / 10000 * (c * h)) := by
  rcases hc.eq_or_lt with h0 | h0
  · have := rkStep_still (guarded lo hi c) dormandPrince h x (by
      rw [← h0]; unfold guarded speedConstraint; split <;> rfl)
    exact ⟨this.ge, Or.inl this⟩
  · rcases le_or_gt hi x with h1 | h1
    · have := rkStep_still (guarded lo hi c) dormandPrince h x (by rw [guarded_pos h0, if_pos h1])
      exact ⟨this.ge, Or.inl this⟩
    · obtain ⟨a, b⟩ := rk45_below (lo := lo) h0 hh h1
      exact ⟨a.le, Or.inr b.le⟩

theorem rk45_down {lo hi c h x : K} (hc : c ≤ 0) (hh : 0 < h) :
    rkStep (guarded lo hi c) dormandPrince h x ≤ x ∧
    (rkStep (guarded lo hi c) dormandPrince h x = x ∨
      lo - 4654 / 10000 * (-c * h) ≤ rkStep (guarded lo hi c) dormandPrince h x) := by
  obtain ⟨a, b⟩ := rk45_up (lo := -hi) (hi := -lo) (c := -c) (x := -x) (neg_nonneg.mpr hc) hh
  rw [← rkStep_mirror] at a b
  refine ⟨neg_le_neg_iff.mp a, b.imp neg_inj.mp fun b => ?_⟩
  linarith

/-- All steps of one call: the component moves in the direction of the request, and ends where it was or
at most 0.4654 of the longest step beyond the limit. -/
theorem rk45_run_up {lo hi c H : K} (hc : 0 ≤ c) (hs : List K) (hh : ∀ h ∈ hs, 0 < h ∧ h ≤ H) (x : K) :
    x ≤ rkRun (guarded lo hi c) dormandPrince hs x ∧
    (rkRun (guarded lo hi c) dormandPrince hs x = x ∨
      rkRun (guarded lo hi c) dormandPrince hs x ≤ hi + 4654 / 10000 * (c * H)) := by
  induction hs generalizing x with
  | nil => exact ⟨le_refl _, Or.inl rfl⟩
  | cons h hs ih =>
    obtain ⟨h1, h2⟩ := hh h (by simp)
    obtain ⟨a, b⟩ := rk45_up (lo := lo) (hi := hi) (x := x) hc h1
    obtain ⟨a', b'⟩ := ih (fun h' hh' => hh h' (by simp [hh'])) (rkStep (guarded lo hi c) dormandPrince h x)
    have e : c * h ≤ c * H := mul_le_mul_of_nonneg_left h2 hc
    refine ⟨a.trans a', ?_⟩
    show rkRun _ _ hs (rkStep _ _ h x) = x ∨ rkRun _ _ hs (rkStep _ _ h x) ≤ _
    rcases b' with b' | b'
    · rw [b']
      exact b.imp id fun b => by linarith
    · exact Or.inr b'

theorem rk45_run_down {lo hi c H : K} (hc : c ≤ 0) (hs : List K) (hh : ∀ h ∈ hs, 0 < h ∧ h ≤ H) (x : K) :
    rkRun (guarded lo hi c) dormandPrince hs x ≤ x ∧
    (rkRun (guarded lo hi c) dormandPrince hs x = x ∨
      lo - 4654 / 10000 * (-c * H) ≤ rkRun (guarded lo hi c) dormandPrince hs x) := by
  obtain ⟨a, b⟩ := rk45_run_up (lo := -hi) (hi := -lo) (c := -c) (neg_nonneg.mpr hc) hs hh (-x)
  rw [← rkRun_mirror] at a b
  refine ⟨neg_le_neg_iff.mp a, b.imp neg_inj.mp fun b => ?_⟩
  linarith

theorem rk45_run_inv {lo hi c H up down : K} (hlh : lo ≤ hi) (hs : List K) (hh : ∀ h ∈ hs, 0 < h ∧ h ≤ H) (hH : 0 ≤ H)
    (hup : c ≤ up) (hdown : -down ≤ c) (u0 : 0 ≤ up) (d0 : 0 ≤ down) (x : K)
    (x1 : lo - 4654 / 10000 * (down * H) ≤ x) (x2 : x ≤ hi + 4654 / 10000 * (up * H)) :
    lo - 4654 / 10000 * (down * H) ≤ rkRun (guarded lo hi c) dormandPrince hs x ∧
    rkRun (guarded lo hi c) dormandPrince hs x ≤ hi + 4654 / 10000 * (up * H) := by
  rcases le_total 0 c with hc | hc
  · obtain ⟨a, b⟩ := rk45_run_up (lo := lo) (hi := hi) hc hs hh x
    have e : c * H ≤ up * H := mul_le_mul_of_nonneg_right hup hH
    exact ⟨x1.trans a, by rcases b with b | b <;> linarith⟩
  · obtain ⟨a, b⟩ := rk45_run_down (lo := lo) (hi := hi) hc hs hh x
    have e : -c * H ≤ down * H := mul_le_mul_of_nonneg_right (by linarith) hH
    exact ⟨by rcases b with b | b <;> linarith, a.trans x2⟩

/-- What the updates keep. -/
def NearLimits (p : VehicleParams K) (H : K) (x : VehicleState K) : Prop :=
  (p.vxMin - 4654 / 10000 * (max (-p.accMin) 0 * H) ≤ x.vx ∧ x.vx ≤ p.vxMax + 4654 / 10000 * (max p.accMax 0 * H)) ∧
  (-p.deltaMax - 4654 / 10000 * (p.ddeltaMax * H) ≤ x.delta ∧ x.delta ≤ p.deltaMax + 4654 / 10000 * (p.ddeltaMax * H))

theorem within_of_limits {p : VehicleParams K} (hp : p.Valid) {H : K} (hH : 0 ≤ H) {x : VehicleState K}
    (v1 : p.vxMin ≤ x.vx) (v2 : x.vx ≤ p.vxMax) (d : |x.delta| ≤ p.deltaMax) : NearLimits p H x := by
  have p1 : 0 ≤ max (-p.accMin) 0 * H := mul_nonneg (le_max_right _ _) hH
  have p2 : 0 ≤ max p.accMax 0 * H := mul_nonneg (le_max_right _ _) hH
  have p3 : 0 ≤ p.ddeltaMax * H := mul_nonneg hp.ddelta.le hH
  obtain ⟨d1, d2⟩ := abs_le.mp d
  exact ⟨⟨by linarith, by linarith⟩, by linarith, by linarith⟩

theorem within_solve (T : Trig K) (wb lr : K) {p : VehicleParams K} (hp : p.Valid) {H : K} (hH : 0 ≤ H) (drops : Bool)
    (u : K × K) (hs : List K) (hh : ∀ h ∈ hs, 0 < h ∧ h ≤ H) {x : VehicleState K} (hx : NearLimits p H x) :
    NearLimits p H (vehicleSolve T wb lr p dormandPrince drops u hs x) := by
  have hd := hp.ddelta
  have hD := hp.delta
  have ha := accelerationLimits_clamp hp.base.acc.le (demanded drops u).1
  have hb := accelerationLimits_clamp (show -p.ddeltaMax ≤ p.ddeltaMax by linarith) (demanded drops u).2
  constructor
  · rw [vehicleSolve_vx]
    exact rk45_run_inv hp.base.vx.le _ hh hH (ha.2.1.trans (le_max_left _ _))
      ((neg_le.mpr (le_max_left _ _)).trans ha.1) (le_max_right _ _) (le_max_right _ _) _ hx.1.1 hx.1.2
  · rw [vehicleSolve_delta T wb lr p hp]
    exact rk45_run_inv (by linarith) _ hh hH hb.2.1 hb.1 hd.le hd.le _ hx.2.1 hx.2.2

/-- **C147.** With the solver of the code, however many updates are made and whatever the commands, the
speed exceeds its limits by at most 0.4654 of what the largest acceleration or braking gives in one
solver step, and the steering angle its own by at most 0.4654 of what the largest steering rate gives. -/
theorem C147_rk45 (T : Trig K) (wb lr : K) (p : VehicleParams K) (hp : p.Valid) (H : K)
    (us : List (Solved K)) (hus : ∀ u ∈ us, ∀ h ∈ u.steps, 0 < h ∧ h ≤ H) (hH : 0 ≤ H)
    (x : VehicleState K) (v1 : p.vxMin ≤ x.vx) (v2 : x.vx ≤ p.vxMax) (d : |x.delta| ≤ p.deltaMax) :
    let x' := vehicleSolves T wb lr p dormandPrince us x
    p.vxMin - 4654 / 10000 * (max (-p.accMin) 0 * H) ≤ x'.vx ∧
    x'.vx ≤ p.vxMax + 4654 / 10000 * (max p.accMax 0 * H) ∧
    |x'.delta| ≤ p.deltaMax + 4654 / 10000 * (p.ddeltaMax * H) := by
  intro x'
  have key : ∀ (us : List (Solved K)) (x : VehicleState K), (∀ u ∈ us, ∀ h ∈ u.steps, 0 < h ∧ h ≤ H) →
      NearLimits p H x → NearLimits p H (vehicleSolves T wb lr p dormandPrince us x) := by
    intro us
    induction us with
    | nil => exact fun x _ h => h
    | cons u us ih =>
      intro x hu h
      exact ih (vehicleSolve T wb lr p dormandPrince u.drops u.cmd u.steps x) (fun u' h' => hu u' (by simp [h']))
        (within_solve T wb lr hp hH _ _ _ (hu u (by simp)) h)
  obtain ⟨⟨a1, a2⟩, b1, b2⟩ := key us x hus (within_of_limits hp hH v1 v2 d)
  exact ⟨a1, a2, abs_le.mpr ⟨by linarith, b2⟩⟩

/-- **C147.** With the solver of the code an update never goes the wrong way: asked to accelerate a vehicle
does not become slower, asked to brake not faster, and likewise for steering (zero has to be among the
accelerations the limits allow). -/
theorem C147_direction (T : Trig K) (wb lr : K) (p : VehicleParams K) (hp : p.Valid) (drops : Bool) (u : K × K)
    (hs : List K) (hh : ∀ h ∈ hs, 0 < h) (x : VehicleState K) (h1 : p.accMin ≤ 0) (h2 : 0 ≤ p.accMax) :
    let x' := vehicleSolve T wb lr p dormandPrince drops u hs x
    (0 ≤ u.1 → x.vx ≤ x'.vx) ∧ (u.1 ≤ 0 → x'.vx ≤ x.vx) ∧ (0 ≤ u.2 → x.delta ≤ x'.delta) ∧
    (u.2 ≤ 0 → x'.delta ≤ x.delta) := by
  intro x'
  have hd := hp.ddelta
  obtain ⟨H, hH⟩ : ∃ H, ∀ h ∈ hs, 0 < h ∧ h ≤ H :=
    ⟨hs.sum, fun h hm => ⟨hh h hm, List.single_le_sum (fun a ha => (hh a ha).le) h hm⟩⟩
  have up : ∀ {lo hi a : K}, 0 ≤ a → 0 ≤ hi → lo ≤ 0 → 0 ≤ accelerationLimits lo hi a := by
    intro lo hi a h1 h2 h3; unfold accelerationLimits; split_ifs <;> linarith
  have dn : ∀ {lo hi a : K}, a ≤ 0 → 0 ≤ hi → lo ≤ 0 → accelerationLimits lo hi a ≤ 0 := by
    intro lo hi a h1 h2 h3; unfold accelerationLimits; split_ifs <;> linarith
  have q1 : 0 ≤ u.1 → 0 ≤ (demanded drops u).1 := fun h => by unfold demanded; split <;> simp [h]
  have q2 : u.1 ≤ 0 → (demanded drops u).1 ≤ 0 := fun h => by unfold demanded; split <;> simp [h]
  have q3 : 0 ≤ u.2 → 0 ≤ (demanded drops u).2 := fun h => by unfold demanded; split <;> simp [h]
  have q4 : u.2 ≤ 0 → (demanded drops u).2 ≤ 0 := fun h => by unfold demanded; split <;> simp [h]
  simp only [x']
  rw [vehicleSolve_vx, vehicleSolve_delta T wb lr p hp]
  exact ⟨fun h => (rk45_run_up (up (q1 h) h2 h1) hs hH _).1, fun h => (rk45_run_down (dn (q2 h) h2 h1) hs hH _).1,
    fun h => (rk45_run_up (up (q3 h) hd.le (by linarith)) hs hH _).1,
    fun h => (rk45_run_down (dn (q4 h) hd.le (by linarith)) hs hH _).1⟩

/-- **C147.** Away from the limits the solver is exact for the speed and the steering angle: as long as
the requested change leaves room for the stages of the method, the speed changes by the clamped
acceleration times the duration of the update. -/
theorem C147_exact (T : Trig K) (wb lr : K) (p : VehicleParams K) (hp : p.Valid) (m : Tableau K) (reach H : K)
    (hm : m.Ok reach) (u : K × K) (hs : List K) (hh : ∀ h ∈ hs, 0 < h ∧ h ≤ H) (x : VehicleState K) :
    (0 < u.1 → 0 < p.accMax → p.accMin ≤ 0 →
      x.vx + min u.1 p.accMax * hs.sum + reach * min u.1 p.accMax * H < p.vxMax →
      (vehicleSolve T wb lr p m false u hs x).vx = x.vx + min u.1 p.accMax * hs.sum) ∧
    (u.1 < 0 → p.accMin < 0 → 0 ≤ p.accMax →
      p.vxMin < x.vx + max u.1 p.accMin * hs.sum + reach * max u.1 p.accMin * H →
      (vehicleSolve T wb lr p m false u hs x).vx = x.vx + max u.1 p.accMin * hs.sum) ∧
    (0 < u.2 → x.delta + min u.2 p.ddeltaMax * hs.sum + reach * min u.2 p.ddeltaMax * H < p.deltaMax →
      (vehicleSolve T wb lr p m false u hs x).delta = x.delta + min u.2 p.ddeltaMax * hs.sum) ∧
    (u.2 < 0 → -p.deltaMax < x.delta + max u.2 (-p.ddeltaMax) * hs.sum + reach * max u.2 (-p.ddeltaMax) * H →
      (vehicleSolve T wb lr p m false u hs x).delta = x.delta + max u.2 (-p.ddeltaMax) * hs.sum) := by
  have hd := hp.ddelta
  have cl : ∀ {lo hi a : K}, lo ≤ 0 → 0 < a → accelerationLimits lo hi a = min a hi := by
    intro lo hi a h1 h2
    unfold accelerationLimits
    rw [if_neg (not_lt.mpr (h1.trans h2.le))]
    split
    · rename_i h; rw [min_eq_right h.le]
    · rename_i h; rw [min_eq_left (not_lt.mp h)]
  have cl' : ∀ {lo hi a : K}, 0 ≤ hi → a < 0 → accelerationLimits lo hi a = max a lo := by
    intro lo hi a h1 h2
    unfold accelerationLimits
    rw [if_neg (not_lt.mpr (h2.le.trans h1))]
    split
    · rename_i h; rw [max_eq_right h.le]
    · rename_i h; rw [max_eq_left (not_lt.mp h)]
  refine ⟨fun h1 h2 h3 h4 => ?_, fun h1 h2 h3 h4 => ?_, fun h1 h2 => ?_, fun h1 h2 => ?_⟩
  · rw [vehicleSolve_vx]
    show rkRun (guarded _ _ (accelerationLimits _ _ u.1)) m hs x.vx = _
    rw [cl h3 h1]
    exact rkRun_free hm hs (lt_min h1 h2) hh x.vx h4
  · rw [vehicleSolve_vx]
    show rkRun (guarded _ _ (accelerationLimits _ _ u.1)) m hs x.vx = _
    rw [cl' h3 h1]
    exact rkRun_free_neg hm hs (max_lt h1 h2) hh x.vx h4
  · rw [vehicleSolve_delta T wb lr p hp]
    show rkRun (guarded _ _ (accelerationLimits _ _ u.2)) m hs x.delta = _
    rw [cl (by linarith) h1]
    exact rkRun_free hm hs (lt_min h1 hd) hh x.delta h2
  · rw [vehicleSolve_delta T wb lr p hp]
    show rkRun (guarded _ _ (accelerationLimits _ _ u.2)) m hs x.delta = _
    rw [cl' hd.le h1]
    exact rkRun_free_neg hm hs (max_lt h1 (by linarith)) hh x.delta h2

/-- **C147.** At or beyond a limit the solver does not go further: a vehicle at or above its top speed
that is asked to accelerate keeps exactly its speed, and the like for the lower limit and for steering. -/
theorem C147_hold (T : Trig K) (wb lr : K) (p : VehicleParams K) (hp : p.Valid) (m : Tableau K) (drops : Bool)
    (u : K × K) (hs : List K) (x : VehicleState K) :
    (p.vxMax ≤ x.vx → 0 ≤ u.1 → 0 ≤ p.accMax → p.accMin ≤ 0 → (vehicleSolve T wb lr p m drops u hs x).vx = x.vx) ∧
    (x.vx ≤ p.vxMin → u.1 ≤ 0 → 0 ≤ p.accMax → p.accMin ≤ 0 → (vehicleSolve T wb lr p m drops u hs x).vx = x.vx) ∧
    (p.deltaMax ≤ x.delta → 0 ≤ u.2 → (vehicleSolve T wb lr p m drops u hs x).delta = x.delta) ∧
    (x.delta ≤ -p.deltaMax → u.2 ≤ 0 → (vehicleSolve T wb lr p m drops u hs x).delta = x.delta) := by
  have hd := hp.ddelta
  have up : ∀ {lo hi lo' hi' a v : K}, hi' ≤ v → 0 ≤ a → 0 ≤ hi → lo ≤ 0 → guarded lo' hi' (accelerationLimits lo hi a) v = 0 := by
    intro lo hi lo' hi' a v h1 h2 h3 h4
    have : 0 ≤ accelerationLimits lo hi a := by unfold accelerationLimits; split_ifs <;> linarith
    unfold guarded speedConstraint
    split
    · rfl
    · rename_i h
      by_contra hne
      exact h (Or.inr ⟨h1, lt_of_le_of_ne this (Ne.symm hne)⟩)
  have down : ∀ {lo hi lo' hi' a v : K}, v ≤ lo' → a ≤ 0 → 0 ≤ hi → lo ≤ 0 → guarded lo' hi' (accelerationLimits lo hi a) v = 0 := by
    intro lo hi lo' hi' a v h1 h2 h3 h4
    have : accelerationLimits lo hi a ≤ 0 := by unfold accelerationLimits; split_ifs <;> linarith
    unfold guarded speedConstraint
    split
    · rfl
    · rename_i h
      by_contra hne
      exact h (Or.inl ⟨h1, lt_of_le_of_ne this hne⟩)
  have q1 : 0 ≤ u.1 → 0 ≤ (demanded drops u).1 := fun h => by unfold demanded; split <;> simp [h]
  have q2 : u.1 ≤ 0 → (demanded drops u).1 ≤ 0 := fun h => by unfold demanded; split <;> simp [h]
  have q3 : 0 ≤ u.2 → 0 ≤ (demanded drops u).2 := fun h => by unfold demanded; split <;> simp [h]
  have q4 : u.2 ≤ 0 → (demanded drops u).2 ≤ 0 := fun h => by unfold demanded; split <;> simp [h]
  refine ⟨fun h1 h2 h3 h4 => ?_, fun h1 h2 h3 h4 => ?_, fun h1 h2 => ?_, fun h1 h2 => ?_⟩
  · rw [vehicleSolve_vx]; exact rkRun_still _ _ _ _ (up h1 (q1 h2) h3 h4)
  · rw [vehicleSolve_vx]; exact rkRun_still _ _ _ _ (down h1 (q2 h2) h3 h4)
  · rw [vehicleSolve_delta T wb lr p hp]; exact rkRun_still _ _ _ _ (up h1 (q3 h2) hd.le (by linarith))
  · rw [vehicleSolve_delta T wb lr p hp]; exact rkRun_still _ _ _ _ (down h1 (q4 h2) hd.le (by linarith))

/-- **C147.** A vehicle that is not a car keeps exactly its speed and its steering angle after a collision,
whatever it is asked for, if zero is among the accelerations its limits allow. -/
theorem C147_drops (T : Trig K) (wb lr : K) (p : VehicleParams K) (hp : p.Valid) (m : Tableau K) (u : K × K)
    (hs : List K) (x : VehicleState K) (h1 : p.accMin ≤ 0) (h2 : 0 ≤ p.accMax) :
    (vehicleSolve T wb lr p m true u hs x).vx = x.vx ∧ (vehicleSolve T wb lr p m true u hs x).delta = x.delta := by
  have hd := hp.ddelta
  have z : ∀ {lo hi lo' hi' v : K}, lo ≤ 0 → 0 ≤ hi → guarded lo' hi' (accelerationLimits lo hi 0) v = 0 := by
    intro lo hi lo' hi' v h1 h2
    unfold guarded accelerationLimits speedConstraint
    rw [if_neg (not_lt.mpr h1), if_neg (not_lt.mpr h2)]
    split <;> rfl
  constructor
  · rw [vehicleSolve_vx]; exact rkRun_still _ _ _ _ (z h1 h2)
  · rw [vehicleSolve_delta T wb lr p hp]; exact rkRun_still _ _ _ _ (z (by linarith) hd.le)

/-- `VehicleParameters.default_car`, vehicle_utils.py:15-18: speeds from -10 to 130 km/h. -/
def stdCar : VehicleParams ℚ := ⟨⟨-25 / 9, 325 / 9, -8, 5⟩, 1, 1 / 2⟩

theorem stdCar_valid : stdCar.Valid :=
  ⟨⟨by decide +kernel, by decide +kernel⟩, by decide +kernel, by decide +kernel⟩

/-- **The limits are exceeded.** The default car, at any place and in any direction, 0.04 m/s below its top
speed and 0.004 from its steering limit, is beyond both after one update of a tenth of a second made in
one step of `RK45` with full acceleration and steering; the bounds of `C147_rk45` (0.2327 and 0.02327) are
almost attained. -/
theorem C147_false (T : Trig ℚ) (wb lr a b psi : ℚ) :
    let x : VehicleState ℚ := ⟨a, b, psi, 325 / 9 - 4 / 100, 1 - 4 / 1000⟩
    let x' := vehicleSolve T wb lr stdCar dormandPrince false (5, 1 / 2) [1 / 10] x
    x.vx < stdCar.vxMax ∧ x.delta < stdCar.deltaMax ∧
    stdCar.vxMax + 23 / 100 < x'.vx ∧ stdCar.deltaMax + 23 / 1000 < x'.delta := by
  intro x x'
  have e1 := vehicleSolve_vx T wb lr stdCar dormandPrince false (5, 1 / 2) [1 / 10] x
  have e2 := vehicleSolve_delta T wb lr stdCar stdCar_valid dormandPrince false (5, 1 / 2) [1 / 10] x
  have v : x.vx = 325 / 9 - 4 / 100 := rfl
  have d : x.delta = 1 - 4 / 1000 := rfl
  rw [v] at e1
  rw [d] at e2
  simp only [x']
  rw [e1, e2, v, d]
  refine ⟨?_, ?_, ?_, ?_⟩ <;> decide +kernel

/-- The hypotheses of `C147_rk45` are met by the default car and updates of a tenth of a second, whatever
the steps within them; it ends at most 0.24 m/s above its top speed. -/
example (T : Trig ℚ) (wb lr : ℚ) (us : List (Solved ℚ)) (hus : ∀ u ∈ us, ∀ h ∈ u.steps, 0 < h ∧ h ≤ 1 / 10) :
    (vehicleSolves T wb lr stdCar dormandPrince us ⟨0, 0, 0, 30, 1 / 2⟩).vx ≤ 325 / 9 + 24 / 100 := by
  have h := (C147_rk45 T wb lr stdCar stdCar_valid (1 / 10) us hus (by norm_num) ⟨0, 0, 0, 30, 1 / 2⟩
    (by decide +kernel) (by decide +kernel) (by decide +kernel)).2.1
  refine h.trans ?_
  decide +kernel

/-- `C147_vehicle`: the method is consistent and the limits of the default car are far enough apart. -/
example (T : Trig ℚ) (wb lr : ℚ) (us : List (Solved ℚ)) (hus : ∀ u ∈ us, ∀ h ∈ u.steps, 0 < h ∧ h ≤ 1 / 10) :
    (vehicleSolves T wb lr stdCar dormandPrince us ⟨0, 0, 0, 30, 1 / 2⟩).vx ≤
      stdCar.vxMax + posSum (dormandPrince : Tableau ℚ).weights * max stdCar.accMax 0 * (1 / 10) :=
  (C147_vehicle T wb lr stdCar stdCar_valid dormandPrince (83820 / 6561) (1 / 10) dormandPrince_ok
    (by decide +kernel) (by decide +kernel) (by decide +kernel) us hus (by norm_num) ⟨0, 0, 0, 30, 1 / 2⟩
    (by decide +kernel) (by decide +kernel) (by decide +kernel)).2.1

/-- `C147_direction`: braking from 10 m/s. -/
example (T : Trig ℚ) (wb lr : ℚ) :
    (vehicleSolve T wb lr stdCar dormandPrince false (-9, 0) [1 / 20] ⟨0, 0, 0, 10, 0⟩).vx ≤ 10 :=
  (C147_direction T wb lr stdCar stdCar_valid false (-9, 0) [1 / 20] (by decide +kernel) ⟨0, 0, 0, 10, 0⟩
    (by decide +kernel) (by decide +kernel)).2.1 (by decide +kernel)

/-- `C147_exact`: from 10 m/s, two steps of a twentieth of a second at 7 m/s² (clamped to 5). -/
example (T : Trig ℚ) (wb lr : ℚ) :
    (vehicleSolve T wb lr stdCar dormandPrince false (7, 0) [1 / 20, 1 / 20] ⟨0, 0, 0, 10, 0⟩).vx = 21 / 2 := by
  rw [(C147_exact T wb lr stdCar stdCar_valid dormandPrince (83820 / 6561) (1 / 20) dormandPrince_ok (7, 0)
    [1 / 20, 1 / 20] (by decide +kernel) ⟨0, 0, 0, 10, 0⟩).1 (by decide +kernel) (by decide +kernel)
    (by decide +kernel) (by decide +kernel)]
  decide +kernel

/-- `C147_hold` and `C147_drops`: a vehicle at its top speed accelerating, and one that has collided. -/
example (T : Trig ℚ) (wb lr : ℚ) :
    (vehicleSolve T wb lr stdCar dormandPrince false (7, 1) [1 / 20] ⟨0, 0, 0, 40, 0⟩).vx = 40 ∧
    (vehicleSolve T wb lr stdCar dormandPrince true (7, 1) [1 / 20] ⟨0, 0, 0, 12, 0⟩).vx = 12 :=
  ⟨(C147_hold T wb lr stdCar stdCar_valid dormandPrince false (7, 1) [1 / 20] ⟨0, 0, 0, 40, 0⟩).1
      (by decide +kernel) (by decide +kernel) (by decide +kernel) (by decide +kernel),
    (C147_drops T wb lr stdCar stdCar_valid dormandPrince (7, 1) [1 / 20] ⟨0, 0, 0, 12, 0⟩
      (by decide +kernel) (by decide +kernel)).1⟩

end Phys
end Verif
