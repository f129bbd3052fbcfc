import Verif.Agents.FollowProps

/-!
# C124: the distance a lane follower keeps behind a vehicle that is fast enough
-/

namespace Verif
namespace Agents
namespace Gap

/-- The closing speed plus what the cruise control takes off the speed of the vehicle ahead. -/
noncomputable def pull (w c : ℝ) : ℝ := c + max 0 (min c w)

theorem pull_mono {w c c' : ℝ} (h : c ≤ c') : pull w c ≤ pull w c' := by
  unfold pull
  exact add_le_add h (max_le_max le_rfl (min_le_min h le_rfl))

theorem pull_lip {w c c' : ℝ} (h : c ≤ c') : pull w c' ≤ pull w c + 2 * (c' - c) := by
  unfold pull
  have h1 : min c' w ≤ min c w + (c' - c) := by
    rcases le_total c w with q | q
    · rw [min_eq_left q]; linarith [min_le_left c' w]
    · rw [min_eq_right q]; linarith [min_le_right c' w]
  have h2 : max 0 (min c' w) ≤ max 0 (min c w) + (c' - c) :=
    max_le (by linarith [le_max_left 0 (min c w)]) (by linarith [le_max_right 0 (min c w)])
  linarith

theorem pull_neg {w c : ℝ} (h : c ≤ 0) : pull w c = c := by
  unfold pull
  rw [max_eq_left ((min_le_left _ _).trans h), add_zero]

theorem pull_pos {w c : ℝ} (h : 0 ≤ c) (hw : c ≤ w) : pull w c = 2 * c := by
  unfold pull
  rw [min_eq_left hw, max_eq_right h]; ring

theorem pull_big {w c : ℝ} (h : 0 ≤ w) (hw : w ≤ c) : pull w c = c + w := by
  unfold pull
  rw [min_eq_right hw, max_eq_right h]

theorem npClip_inner {y lo hi : ℝ} (h1 : lo < npClip y lo hi) (h2 : npClip y lo hi < hi) : npClip y lo hi = y := by
  simp only [npClip] at *
  rcases le_total y lo with q | q
  · rw [max_eq_right q] at *
    exact absurd (h1.trans_le (min_le_left _ _)) (lt_irrefl _)
  · rw [max_eq_left q] at *
    rcases le_total y hi with q' | q'
    · rw [min_eq_left q']
    · rw [min_eq_right q'] at h2; exact absurd h2 (lt_irrefl _)

theorem npClip_min {y lo hi : ℝ} : min hi y ≤ npClip y lo hi := by
  simp only [npClip]
  exact le_min ((min_le_right _ _).trans (le_max_left _ _)) (min_le_left _ _)

theorem npClip_max {y lo hi : ℝ} : npClip y lo hi ≤ max lo y := by
  simp only [npClip]
  exact (min_le_left _ _).trans (by rw [max_comm])

/-- The demand of the controller in the zone, from above and from below. -/
theorem demand_le {h A w c c' e e' J ι : ℝ} (h0 : 0 < h) (hJ : |J| ≤ ι) (he : e = -pull w c) (he' : -pull w c' ≤ e')
    (hc : c' - h * A ≤ c) (hA : 0 ≤ A) : 4 * e + J + (e - e') / (10 * h) ≤ -4 * pull w c + ι + A / 5 := by
  have h1 : (e - e') / (10 * h) ≤ A / 5 := by
    rw [div_le_iff₀ (by linarith)]
    have : pull w c' ≤ pull w c + 2 * (h * A) := by
      have h2 : pull w c' ≤ pull w (c + h * A) := pull_mono (by linarith)
      have h3 := pull_lip (w := w) (c := c) (c' := c + h * A) (by nlinarith)
      linarith
    nlinarith
  have h2 := (abs_le.mp hJ).2
  rw [he] at h1 ⊢
  linarith

theorem le_demand {h B w c c' e e' J ι : ℝ} (h0 : 0 < h) (hJ : |J| ≤ ι) (he : e = -pull w c) (he' : e' = -pull w c')
    (hc : c ≤ c' + h * B) (hB : 0 ≤ B) : -4 * pull w c - ι - B / 5 ≤ 4 * e + J + (e - e') / (10 * h) := by
  have h1 : -(B / 5) ≤ (e - e') / (10 * h) := by
    rw [le_div_iff₀ (by linarith)]
    have : pull w c ≤ pull w c' + 2 * (h * B) := by
      have h2 : pull w c ≤ pull w (c' + h * B) := pull_mono hc
      have h3 := pull_lip (w := w) (c := c') (c' := c' + h * B) (by nlinarith)
      linarith
    nlinarith
  have h2 := (abs_le.mp hJ).1
  rw [he] at h1 ⊢
  linarith

/-- Following at a distance: `c` is the closing speed, `g` the distance, `e` the error of the speed controller, `J` its
integral term, `u` its output. -/
structure Run (h A B τ w : ℝ) (c g e J u : ℕ → ℝ) : Prop where
  plant : ∀ k, c (k + 1) = c k + h * u k
  lim : ∀ k, -A ≤ u k ∧ u k ≤ B
  gap : ∀ k, g (k + 1) = g k - h * ((c k + c (k + 1)) / 2)
  int : ∀ k, J (k + 1) = npClip (J k + h * e (k + 1) / 100) (-2) 2
  out : ∀ k, u (k + 1) = npClip (4 * e (k + 1) + J (k + 1) + (e (k + 1) - e k) / (10 * h)) (-A) B
  zone : ∀ k, 1 / 2 < g k → g k < τ * (w + c k) + max (c k) 0 → e k = -pull w (c k)
  gen : ∀ k, -pull w (c k) ≤ e k

variable {h A B τ w ι : ℝ} {c g e J u : ℕ → ℝ}

/-- The constants of the argument: `κ` bounds how much slower, `γ` how much faster than the other the follower gets in
the zone, `ρ` how far it gets into the zone in one period. -/
structure Consts (h A B τ w ι C κ γ ρ S : ℝ) : Prop where
  h0 : 0 < h
  h8 : h ≤ 1 / 8
  A0 : 0 < A
  B0 : 0 < B
  τ0 : 0 ≤ τ
  ι0 : 0 ≤ ι
  ι2 : ι < 2
  C0 : 0 ≤ C
  CA : C ≤ (1 + τ) * A
  eκ : κ = (ι + B / 5) / 4 + h * A
  eγ : γ = (ι + A / 5) / 7 + h * B
  γw : γ ≤ w
  eρ : ρ = h * C + (1 + τ) * (h * B)
  eS : S = τ * w - τ * κ - ρ - h * (h * B) / 2 - h * γ / 2

variable {C κ γ ρ S : ℝ}

/-- Where the follower can be: slower than the other and far enough; faster and outside the zone; in the zone and much
faster; in the zone and about as fast. -/
def Inv (h τ w κ γ ρ ι S : ℝ) (c g e J : ℕ → ℝ) (k : ℕ) : Prop :=
  (c k ≤ 0 ∧ τ * w - τ * κ - ρ ≤ g k) ∨ (0 < c k ∧ τ * (w + c k) + c k ≤ g k) ∨
    ∃ m, k = m + 1 ∧ e k = -pull w (c k) ∧ ((γ < c k ∧ τ * (w + c k) + c k - ρ ≤ g k) ∨
      (-κ ≤ c k ∧ c k ≤ γ ∧ (0 ≤ c k ∨ e m = -pull w (c m)) ∧ S - 50 * ι ≤ g k - h * c k / 2 - 50 * J k))

theorem Consts.pos (H : Consts h A B τ w ι C κ γ ρ S) : 0 < κ ∧ 0 < γ ∧ 0 < ρ ∧ h * B ≤ γ ∧ h * A ≤ κ := by
  obtain ⟨h0, h8, A0, B0, τ0, ι0, ι2, C0, CA, rfl, rfl, γw, rfl, rfl⟩ := H
  have := mul_pos h0 A0
  have := mul_pos h0 B0
  refine ⟨by positivity, by positivity, by positivity, ?_, ?_⟩ <;> linarith

theorem Inv.le (H : Consts h A B τ w ι C κ γ ρ S) {k : ℕ} (hJ : |J k| ≤ ι) (hi : Inv h τ w κ γ ρ ι S c g e J k) :
    S - 100 * ι - h * κ / 2 ≤ g k := by
  obtain ⟨k0, g0, r0, k1, k2⟩ := H.pos
  have hS := H.eS
  have h0 := H.h0
  have e1 := mul_pos h0 k0
  have e2 := mul_pos h0 g0
  have e3 := mul_pos h0 (mul_pos h0 H.B0)
  have e4 := mul_nonneg H.τ0 k0.le
  have ι0 := H.ι0
  rcases hi with ⟨q1, q2⟩ | ⟨q1, q2⟩ | ⟨m, -, -, ⟨q1, q2⟩ | ⟨q1, q2, -, q3⟩⟩
  · linarith
  · have := mul_nonneg H.τ0 q1.le
    linarith
  · have := mul_nonneg H.τ0 (g0.le.trans q1.le)
    linarith
  · have e5 := mul_le_mul_of_nonneg_left q1 h0.le
    have := (abs_le.mp hJ).1
    linarith

theorem Inv.step (R : Run h A B τ w c g e J u) (H : Consts h A B τ w ι C κ γ ρ S) {k : ℕ} (hJ : |J k| ≤ ι)
    (hJ' : |J (k + 1)| ≤ ι) (hC : c k ≤ C) (hC' : c (k + 1) ≤ C)
    (hi : Inv h τ w κ γ ρ ι S c g e J k) (hg' : 1 / 2 < g (k + 1)) : Inv h τ w κ γ ρ ι S c g e J (k + 1) := by
  obtain ⟨k0, g0, r0, k1, k2⟩ := H.pos
  have hS := H.eS
  have hρ := H.eρ
  have h0 := H.h0
  have h8 := H.h8
  have A0 := H.A0
  have B0 := H.B0
  have τ0 := H.τ0
  have ι0 := H.ι0
  have hw := H.γw
  have hpl := R.plant k
  have hga := R.gap k
  obtain ⟨l1, l2⟩ := R.lim k
  have m1 := mul_le_mul_of_nonneg_left l1 h0.le
  have m2 := mul_le_mul_of_nonneg_left l2 h0.le
  have e2 := mul_pos h0 g0
  have e3 := mul_pos h0 (mul_pos h0 B0)
  have e4 := mul_nonneg τ0 k0.le
  have e5 := mul_nonneg τ0 (mul_pos h0 B0).le
  -- where it is next, when not in the zone
  have out : τ * (w + c (k + 1)) + max (c (k + 1)) 0 ≤ g (k + 1) → (c (k + 1) ≤ 0 → τ * w - τ * κ - ρ ≤ g (k + 1)) →
      Inv h τ w κ γ ρ ι S c g e J (k + 1) := by
    intro o1 o2
    rcases le_or_gt (c (k + 1)) 0 with q | q
    · exact .inl ⟨q, o2 q⟩
    · rw [max_eq_left q.le] at o1
      exact .inr (.inl ⟨q, o1⟩)
  have inz := R.zone (k + 1) hg'
  -- entering the zone about as fast as the other
  have start : e (k + 1) = -pull w (c (k + 1)) → 0 < c (k + 1) → c (k + 1) ≤ γ →
      τ * w - τ * κ - ρ - h * (h * B) / 2 ≤ g (k + 1) → Inv h τ w κ γ ρ ι S c g e J (k + 1) := by
    intro o1 o2 o3 o4
    refine .inr (.inr ⟨k, rfl, o1, .inr ⟨by linarith, o3, .inl o2.le, ?_⟩⟩)
    have := (abs_le.mp hJ').2
    have := mul_le_mul_of_nonneg_left o3 h0.le
    linarith
  -- entering the zone from a distance of at least `y`
  have enter : 0 < c (k + 1) → τ * (w + c (k + 1)) + c (k + 1) - ρ ≤ g (k + 1) →
      Inv h τ w κ γ ρ ι S c g e J (k + 1) := by
    intro o1 o2
    rcases le_or_gt (τ * (w + c (k + 1)) + max (c (k + 1)) 0) (g (k + 1)) with q | q
    · exact out q (fun q' => absurd q' (not_le.mpr o1))
    · have := mul_nonneg τ0 o1.le
      rcases le_or_gt (c (k + 1)) γ with q' | q'
      · exact start (inz q) o1 q' (by linarith)
      · exact .inr (.inr ⟨k, rfl, inz q, .inl ⟨q', o2⟩⟩)
  rcases hi with ⟨q1, q2⟩ | ⟨q1, q2⟩ | ⟨m, rfl, q1, ⟨q2, q3⟩ | ⟨q2, q3, q4, q5⟩⟩
  · -- slower than the other
    rcases le_or_gt (c (k + 1)) 0 with q | q
    · refine .inl ⟨q, ?_⟩
      have := mul_nonpos_of_nonneg_of_nonpos h0.le (by linarith : (c k + c (k + 1)) / 2 ≤ 0)
      linarith
    · have o : h * ((c k + c (k + 1)) / 2) ≤ h * (h * B) / 2 := by
        have := mul_le_mul_of_nonneg_left (by linarith : (c k + c (k + 1)) / 2 ≤ h * B / 2) h0.le
        linarith
      rcases le_or_gt (τ * (w + c (k + 1)) + max (c (k + 1)) 0) (g (k + 1)) with z | z
      · exact out z (fun q' => absurd q' (not_le.mpr q))
      · exact start (inz z) q (by linarith) (by linarith)
  · -- outside the zone
    rcases le_or_gt (c (k + 1)) 0 with q | q
    · refine .inl ⟨q, ?_⟩
      have o : h * ((c k + c (k + 1)) / 2) ≤ c k := by
        have o1 : h * ((c k + c (k + 1)) / 2) ≤ h * (c k / 2) := mul_le_mul_of_nonneg_left (by linarith) h0.le
        have o2 : h * (c k / 2) ≤ 1 / 8 * (c k / 2) := mul_le_mul_of_nonneg_right h8 (by linarith)
        linarith
      have := mul_nonneg τ0 q1.le
      linarith
    · refine enter q ?_
      have o : h * ((c k + c (k + 1)) / 2) ≤ h * C := mul_le_mul_of_nonneg_left (by linarith) h0.le
      have o2 : τ * c (k + 1) ≤ τ * (c k + h * B) := mul_le_mul_of_nonneg_left (by linarith) τ0
      linarith
  · -- much faster
    have hd := demand_le (A := A) h0 hJ q1 (R.gen m)
      (by have := R.plant m; have := mul_le_mul_of_nonneg_left (R.lim m).1 h0.le; linarith) A0.le
    have hu := (R.out m).le.trans npClip_max
    have hγ := H.eγ
    have hτu : (1 + τ) * u (m + 1) ≤ -c (m + 1) := by
      have hp : 7 * γ + c (m + 1) ≤ 4 * pull w (c (m + 1)) := by
        rcases le_total (c (m + 1)) w with q | q
        · rw [pull_pos (by linarith) q]; linarith
        · rw [pull_big (by linarith) q]; linarith
      rcases le_max_iff.mp hu with o | o
      · have := mul_le_mul_of_nonneg_left o (by linarith : 0 ≤ 1 + τ)
        linarith [H.CA]
      · have o1 : u (m + 1) ≤ -c (m + 1) := by
          have := mul_pos h0 B0
          linarith
        have := mul_nonpos_of_nonneg_of_nonpos τ0 (by linarith : u (m + 1) ≤ 0)
        linarith
    have hu0 : u (m + 1) ≤ 0 := by
      by_contra hn
      push Not at hn
      have := mul_pos (by linarith : 0 < 1 + τ) hn
      linarith
    have o1 := mul_nonpos_of_nonneg_of_nonpos h0.le hu0
    have o2 := mul_le_mul_of_nonneg_left hτu h0.le
    rcases le_or_gt (c (m + 1 + 1)) 0 with q | q
    · refine .inl ⟨q, ?_⟩
      have o3 : h * ((c (m + 1) + c (m + 1 + 1)) / 2) ≤ h * (c (m + 1) / 2) :=
        mul_le_mul_of_nonneg_left (by linarith) h0.le
      have o4 : h * (c (m + 1) / 2) ≤ 1 / 8 * (c (m + 1) / 2) := mul_le_mul_of_nonneg_right h8 (by linarith)
      have := mul_nonneg τ0 (g0.le.trans q2.le)
      linarith
    · refine enter q ?_
      have o3 : h * ((c (m + 1) + c (m + 1 + 1)) / 2) ≤ h * c (m + 1) := mul_le_mul_of_nonneg_left (by linarith) h0.le
      have o4 : τ * (w + c (m + 1 + 1)) + c (m + 1 + 1) =
          τ * (w + c (m + 1)) + c (m + 1) + h * ((1 + τ) * u (m + 1)) := by rw [hpl]; ring
      linarith
  · -- about as fast
    have hγ := H.eγ
    have hκ := H.eκ
    have up : c (m + 1 + 1) ≤ γ := by
      rcases le_or_gt 0 (c (m + 1)) with q | q
      · have hd := demand_le (A := A) h0 hJ q1 (R.gen m)
          (by have := R.plant m; have := mul_le_mul_of_nonneg_left (R.lim m).1 h0.le; linarith) A0.le
        rw [pull_pos q (by linarith)] at hd
        rcases le_max_iff.mp ((R.out m).le.trans npClip_max) with o | o
        · have o1 := mul_le_mul_of_nonneg_left o h0.le
          have := mul_pos h0 A0
          linarith
        · have o1 := mul_le_mul_of_nonneg_left (o.trans hd) h0.le
          have o2 := mul_nonneg (by linarith : 0 ≤ 1 - 8 * h) (by linarith : 0 ≤ γ - c (m + 1))
          have o3 : h * (ι + A / 5) = h * (7 * (γ - h * B)) := by rw [hγ]; ring
          rw [hpl]
          linarith
      · linarith
    have lo : -κ ≤ c (m + 1 + 1) := by
      rcases le_or_gt 0 (c (m + 1)) with q | q
      · linarith
      · have q6 := q4.resolve_left (not_le.mpr q)
        have hd := le_demand (B := B) h0 hJ q1 q6
          (by have := R.plant m; have := mul_le_mul_of_nonneg_left (R.lim m).2 h0.le; linarith) B0.le
        rw [pull_neg q.le] at hd
        rcases min_le_iff.mp (npClip_min.trans (R.out m).ge) with o | o
        · have o1 := mul_le_mul_of_nonneg_left o h0.le
          have := mul_pos h0 B0
          linarith
        · have o1 := mul_le_mul_of_nonneg_left (hd.trans o) h0.le
          have o2 := mul_nonneg (by linarith : 0 ≤ 1 - 4 * h) (by linarith : 0 ≤ c (m + 1) + κ)
          have o3 : h * (ι + B / 5) = h * (4 * (κ - h * A)) := by rw [hκ]; ring
          have o4 := mul_pos h0 (mul_pos h0 A0)
          rw [hpl]
          linarith
    rcases le_or_gt (τ * (w + c (m + 1 + 1)) + max (c (m + 1 + 1)) 0) (g (m + 1 + 1)) with z | z
    · refine out z (fun _ => ?_)
      have := mul_le_mul_of_nonneg_left lo τ0
      have := le_max_right (c (m + 1 + 1)) 0
      linarith
    · have hz := inz z
      refine .inr (.inr ⟨m + 1, rfl, hz, .inr ⟨lo, up, .inr q1, ?_⟩⟩)
      have hin := R.int (m + 1)
      have hb := abs_le.mp hJ'
      rw [hin] at hb
      rw [npClip_inner (by linarith [H.ι2]) (by linarith [H.ι2]), hz] at hin
      have hp : 2 * c (m + 1 + 1) ≤ pull w (c (m + 1 + 1)) := by
        rcases le_total (c (m + 1 + 1)) 0 with q | q
        · rw [pull_neg q]; linarith
        · rw [pull_pos q (by linarith)]
      have := mul_le_mul_of_nonneg_left hp h0.le
      linarith

/-- The distance is kept. -/
theorem kept (R : Run h A B τ w c g e J u) (H : Consts h A B τ w ι C κ γ ρ S) (n : ℕ) (hJ : ∀ k, k ≤ n → |J k| ≤ ι)
    (hC : ∀ k, k ≤ n → c k ≤ C) (hG : 1 / 2 + h * C < S - 100 * ι - h * κ / 2)
    (hs : τ * (w + max (c 0) 0) + max (c 0) 0 ≤ g 0) : ∀ k, k ≤ n → S - 100 * ι - h * κ / 2 ≤ g k := by
  have main : ∀ k, k ≤ n → Inv h τ w κ γ ρ ι S c g e J k := by
    intro k
    induction k with
    | zero =>
      intro hk
      rcases le_or_gt (c 0) 0 with q | q
      · rw [max_eq_right q] at hs
        obtain ⟨k0, g0, r0, k1, k2⟩ := H.pos
        have := mul_nonneg H.τ0 k0.le
        exact .inl ⟨q, by linarith⟩
      · rw [max_eq_left q.le] at hs
        exact .inr (.inl ⟨q, hs⟩)
    | succ k ih =>
      intro hk
      have i2 := ih (by omega)
      have hb := i2.le H (hJ k (by omega))
      have hg' : 1 / 2 < g (k + 1) := by
        have := mul_le_mul_of_nonneg_left (by linarith [hC k (by omega), hC (k + 1) hk] :
          (c k + c (k + 1)) / 2 ≤ C) H.h0.le
        rw [R.gap k]
        linarith
      exact Inv.step R H (hJ k (by omega)) (hJ (k + 1) hk) (hC k (by omega)) (hC (k + 1) hk) i2 hg'
  exact fun k hk => (main k hk).le H (hJ k hk)

theorem pull_eq {w c : ℝ} (hw : 0 ≤ w) : -pull w c = max (w - max c 0) 0 - (w + c) := by
  rcases le_total c 0 with q | q
  · rw [pull_neg q, max_eq_right q, max_eq_left (by linarith)]; ring
  · rcases le_total c w with q' | q'
    · rw [pull_pos q q', max_eq_left q, max_eq_left (by linarith)]; ring
    · rw [pull_big hw q', max_eq_left q, max_eq_right (by linarith)]; ring

end Gap

open Maps

variable {N : Type} [DecidableEq N] {L : Type}
variable {c : Conf L} {h : ℝ} {t : ℕ → ℝ} {a : ℕ → LF N} {ps : ℕ → Dict N ObsState} {u : ℕ → Cmd L} {x : ℕ → ℝ}

/-- The speed controller of a lane follower behind a vehicle. -/
theorem Behind.tracks {lane : List CtrPoint} {p : Phys.VehicleParams ℝ} {wb lr : ℝ} {b : SpeedBehaviorParam ℝ}
    {lights : List L} {cl : ℝ × ℝ → ℝ} {mi : (ℝ → Except Err ℝ) → ℝ → ℝ → Except Err ℝ}
    (hc : Conf.mk? lane p wb lr b lights cl mi = .ok c) (H : Follows c h t a ps u x) {me : N} {w : ℝ} {g : ℕ → ℝ}
    (hB : Behind h a ps x me w g) (ha : p.accMin < 0 ∧ 0 < p.accMax) (hn : p.vxMin ≤ 0 ∧ b.nominalSpeed ≤ p.vxMax)
    (hw0 : 0 ≤ w) (hw : w ≤ b.nominalSpeed ∧ w ≤ kmh2ms 130) :
    c.speedP = ⟨4, 1 / 100, 1 / 10, (-2, 2), (p.vxMin, p.vxMax), (p.accMin, p.accMax)⟩ ∧
    (∀ k, p.accMin ≤ (u k).acc ∧ (u k).acc ≤ p.accMax) ∧ ∃ r : ℕ → ℝ, (∀ k, r k ≤ b.nominalSpeed) ∧
      (∀ k, max (w - max (x k - w) 0) 0 ≤ r k) ∧
      (∀ k, 1 / 2 < g k → g k < b.safetyTimeBraking * x k + max (x k - w) 0 → r k = max (w - max (x k - w) 0) 0) ∧
      (∀ k, npClip (r k) c.speedP.setpoint.1 c.speedP.setpoint.2 = r k) ∧
      Loop.Tracks c.speedP h r t (fun k => (a k).speedPid) x (fun k => (u k).acc) := by
  obtain ⟨-, -, -, -, -, -, -, -, -, hbe⟩ := conf_limits hc
  have hsp : c.speedP = ⟨4, 1 / 100, 1 / 10, (-2, 2), (p.vxMin, p.vxMax), (p.accMin, p.accMax)⟩ := by
    have := conf_speed hc
    unfold speedParam PIDParam.mk? at this
    split_ifs at this
    injection this with this
    exact this.symm
  have hname : ∀ k, (a k).myName = some me := by
    intro k
    induction k with
    | zero => exact hB.name
    | succ k ih =>
      obtain ⟨_, _, _, _, _, _, -, e, -⟩ := getCommands_speed c _ _ _ _ _ (H.ask k)
      rw [e, ih]
  have href : ∀ k, ∃ r, speedRef b me (ps k) = .ok (r, false) ∧ r ≤ b.nominalSpeed ∧
      max (w - max (x k - w) 0) 0 ≤ r ∧ (1 / 2 < g k → g k < b.safetyTimeBraking * x k + max (x k - w) 0 →
        r = max (w - max (x k - w) 0) 0) := by
    intro k
    obtain ⟨my, n', o, e1, e2, e3, e4, e5, e6⟩ := hB.sees k
    have := C124_reference b me (ps k) my (g k) w e1 ⟨n', o, e2, e3⟩ (fun n' o' hn' ho' => by
      rw [e4 n' o' hn' ho']; exact ⟨e5, e6⟩) ⟨hw0, hw⟩
    rwa [H.own k me my (hname k) e1] at this
  choose r hr1 hr2 hr3 hr4 using href
  have hcalm : ∀ k, (a k).emergency = false := by
    intro k
    induction k with
    | zero => exact hB.calm
    | succ k ih =>
      obtain ⟨me', my, lp, r', em, hd', he, -⟩ := getCommands_speed c _ _ _ _ _ (H.ask k)
      have e1 : me' = me := by have := hd'.1; rw [hname k] at this; injection this with this; exact this.symm
      subst e1
      have := hd'.2.2.2
      rw [hbe, hr1 k] at this
      simp only [Except.ok.injEq, Prod.mk.injEq] at this
      rw [he, ih, ← this.2]
      rfl
  have hT := H.tracks r (fun k => ⟨me, r k, false, hname k, by rw [hbe]; exact hr1 k, by simp [hcalm k]⟩)
  have hout : c.speedP.output = (p.accMin, p.accMax) := by rw [hsp]
  have hlim : ∀ k, p.accMin ≤ (u k).acc ∧ (u k).acc ≤ p.accMax := by
    intro k
    obtain ⟨i, q, e⟩ := Loop.getControl_any c.speedP
      ((((a k).speedPid).updateMeasurement (x k)).updateReference c.speedP (r k)) (t k)
    have := (Prod.ext_iff.mp ((hT.control k).symm.trans e)).2
    simp only [Except.ok.injEq] at this
    rw [this, hout]
    exact ⟨le_npClip _ _ _ (ha.1.le.trans ha.2.le), npClip_le _ _ _⟩
  have hcr : ∀ k, npClip (r k) c.speedP.setpoint.1 c.speedP.setpoint.2 = r k := by
    intro k
    rw [hsp]
    exact npClip_of_mem _ _ _ (hn.1.trans ((le_max_right _ _).trans (hr3 k))) ((hr2 k).trans hn.2)
  exact ⟨hsp, hlim, r, hr2, hr3, hr4, hcr, hT⟩

/-- Specification: the distance kept behind a vehicle with the speed `w` by a follower that is asked every `h` seconds,
is never faster than `X`, accelerates between `-A` and `B` and has an integral term within `±ι`: what the other covers in
the safety time `τ`, less `100 ι`, less `τ (ι + B / 5) / 4`, less a multiple of `h`. -/
noncomputable def clearance (h A B τ w ι X : ℝ) : ℝ :=
  τ * w - 100 * ι - τ * ((ι + B / 5) / 4) -
    h * (τ * A + (X - w) + (1 + τ) * B + h * B / 2 + ((ι + A / 5) / 7 + h * B) / 2 + ((ι + B / 5) / 4 + h * A) / 2)

/-- **C124.** What holds: as long as the integral term of its speed controller stays within `±ι`, a lane follower that
starts outside the distance to keep never gets nearer than the clearance to a vehicle ahead that is fast enough.
Missing: slower vehicles (`C124_false_near`), vehicles that change their speed, and a bound for the integral term. -/
theorem C124_clear_partial {lane : List CtrPoint} {p : Phys.VehicleParams ℝ} {wb lr : ℝ} {b : SpeedBehaviorParam ℝ}
    {lights : List L} {cl : ℝ × ℝ → ℝ} {mi : (ℝ → Except Err ℝ) → ℝ → ℝ → Except Err ℝ}
    (hc : Conf.mk? lane p wb lr b lights cl mi = .ok c) (H : Follows c h t a ps u x) (h0 : 0 < h) (h8 : h ≤ 1 / 8)
    {me : N} {w : ℝ} {g : ℕ → ℝ} (hB : Behind h a ps x me w g) (ha : p.accMin < 0 ∧ 0 < p.accMax)
    (hn : p.vxMin ≤ 0 ∧ b.nominalSpeed ≤ p.vxMax) (hτ : 0 ≤ b.safetyTimeBraking)
    (hw : w ≤ b.nominalSpeed ∧ w ≤ kmh2ms 130) (ι X : ℝ) (hι : 0 ≤ ι ∧ ι < 2) (n : ℕ)
    (hJ : ∀ k, k ≤ n → |(a (k + 1)).speedPid.lastIntegralError| ≤ ι) (hx : ∀ k, k ≤ n → x k ≤ X)
    (hX : w ≤ X ∧ X ≤ w + (1 + b.safetyTimeBraking) * -p.accMin) (hγ : (ι + -p.accMin / 5) / 7 + h * p.accMax ≤ w)
    (hG : 1 / 2 + h * (X - w) < clearance h (-p.accMin) p.accMax b.safetyTimeBraking w ι X)
    (hs : b.safetyTimeBraking * max (x 0) w + max (x 0 - w) 0 ≤ g 0) :
    ∀ k, k ≤ n → clearance h (-p.accMin) p.accMax b.safetyTimeBraking w ι X ≤ g k := by
  have hw0 : 0 ≤ w := by
    have := mul_pos h0 ha.2
    have : 0 ≤ (ι + -p.accMin / 5) / 7 := by linarith [hι.1, ha.1]
    linarith
  obtain ⟨hsp, hlim, r, hr2, hr3, hr4, hcr, hT⟩ := hB.tracks hc H ha hn hw0 hw
  have R : Gap.Run h (-p.accMin) p.accMax b.safetyTimeBraking w (fun k => x k - w) g (fun k => r k - x k)
      (fun k => (a (k + 1)).speedPid.lastIntegralError) (fun k => (u k).acc) := by
    refine ⟨fun k => ?_, fun k => ?_, fun k => ?_, fun k => ?_, fun k => ?_, fun k q1 q2 => ?_, fun k => ?_⟩
    · simp only [H.plant k]; ring
    · rw [neg_neg]; exact hlim k
    · simp only [hB.moves k]; ring
    · have := (hT.next h0 k).1
      rw [hcr] at this
      simp only [this, hsp]
      congr 1
      ring
    · have := (hT.next h0 k).2
      rw [hcr, hcr] at this
      simp only [this, hsp, neg_neg]
      congr 1
      field_simp
    · rw [Gap.pull_eq hw0, hr4 k q1 (by simpa using q2)]; ring
    · rw [Gap.pull_eq hw0]
      have := hr3 k
      linarith
  have hK := Gap.kept (ι := ι) (C := X - w) R ⟨h0, h8, by linarith [ha.1], ha.2, hτ, hι.1, hι.2, by linarith [hX.1],
    by linarith [hX.2], rfl, rfl, hγ, rfl, rfl⟩ n hJ (fun k hk => by linarith [hx k hk])
  have hm : w + max (x 0 - w) 0 = max (x 0) w := by
    rcases le_total (x 0) w with q | q
    · rw [max_eq_right q, max_eq_right (by linarith), add_zero]
    · rw [max_eq_left q, max_eq_left (by linarith)]; ring
  have hK' := hK (by unfold clearance at hG; linarith) (by simpa only [hm] using hs)
  intro k hk
  have := hK' k hk
  unfold clearance
  linarith

namespace Straight

/-- The agent 0 and a vehicle straight ahead that drives with 10 m/s. -/
noncomputable def column (v g : ℝ) : Dict Nat ObsState := [(0, ⟨0, 0, 0, v, 0⟩), (1, ⟨g, 0, 0, 10, 0⟩)]

-- at the distance to keep behind a vehicle with 10 m/s, and faster than that, it does not come nearer than 6 m in the
-- following five periods, in which the fresh integral term cannot grow above 0.035
example : ∃ (t : ℕ → ℝ) (a : ℕ → LF Nat) (ps : ℕ → Dict Nat ObsState) (u : ℕ → Cmd Nat) (x g : ℕ → ℝ),
    Follows (dotConf [0, 1, 2, 3, 4]) (1 / 10) t a ps u x ∧ Behind (1 / 10) a ps x 0 10 g ∧ x 0 = 11 ∧
    g 0 = 35 / 2 ∧ ∀ k, k ≤ 5 → 6 ≤ g k := by
  obtain ⟨t, a, ps, u, x, g, H, h1, h2, h3, h4, h5⟩ := drive_obs (fun _ v g => column v g)
    (fun g v v' => g + 1 / 10 * 10 - 1 / 10 * ((v + v') / 2)) (fun k v _ => rfl)
    (LF.run (dotConf [0, 1, 2, 3, 4]) LF.init [Call.init 0]).1 rfl rfl 11 (35 / 2)
  have hB : Behind (1 / 10) a ps x 0 10 g := by
    refine ⟨(h4 0).2, by rw [h1]; rfl, fun k => ?_, h5⟩
    rw [(h4 k).1]
    refine ⟨⟨0, 0, 0, x k, 0⟩, 1, ⟨g k, 0, 0, 10, 0⟩, rfl, by norm_num, by simp [column], ?_, ?_, rfl⟩
    · intro n' o' hn' ho'
      simp only [column, List.mem_cons, Prod.mk.injEq, List.not_mem_nil, or_false] at ho'
      rcases ho' with ⟨e, -⟩ | ⟨-, e⟩
      · exact absurd e hn'
      · exact e
    · simp [StraightAhead]
  have hk : (10 : ℝ) ≤ kmh2ms 130 := by norm_num [kmh2ms]
  obtain ⟨hsp, hlim, r, r1, r2, -, r3, hT⟩ := hB.tracks dotConf_mk H (by norm_num [params]) (by norm_num [params])
    (by norm_num) ⟨by norm_num, hk⟩
  have hx : ∀ k : ℕ, 11 - 4 / 5 * k ≤ x k ∧ x k ≤ 11 + 1 / 2 * k := by
    intro k
    induction k with
    | zero => simp [h2]
    | succ k ih =>
      have := hlim k
      rw [H.plant k]
      norm_num [params] at this
      push_cast
      constructor <;> linarith [ih.1, ih.2, this.1, this.2]
  have hI : ∀ k : ℕ, k ≤ 5 → |(a (k + 1)).speedPid.lastIntegralError| ≤ 7 / 1000 * k := by
    intro k
    induction k with
    | zero =>
      intro _
      have := (hT.first (by rw [h1]; rfl) (by rw [hsp]; norm_num)).1
      simp only [this]
      simp
    | succ k ih =>
      intro hk'
      have hb := abs_le.mp (ih (by omega))
      have := (hT.next (by norm_num) k).1
      rw [r3] at this
      simp only [this, hsp]
      have hk5 : (k : ℝ) ≤ 4 := by exact_mod_cast (by omega : k ≤ 4)
      obtain ⟨q1, q2⟩ := hx (k + 1)
      push_cast at q1 q2 ⊢
      have e1 : r (k + 1) - x (k + 1) ≤ 4 := by linarith [r1 (k + 1)]
      have e2 : -7 ≤ r (k + 1) - x (k + 1) := by
        have o1 := r2 (k + 1)
        have o2 := le_max_left (10 - max (x (k + 1) - 10) 0) 0
        have o3 : max (x (k + 1) - 10) 0 ≤ 7 / 2 := max_le (by linarith) (by norm_num)
        linarith
      rw [npClip_of_mem _ _ _ (by linarith) (by linarith), abs_le]
      constructor <;> linarith
  refine ⟨t, a, ps, u, x, g, H, hB, h2, h3, fun k hk' => ?_⟩
  have := C124_clear_partial dotConf_mk H (by norm_num) (by norm_num) hB (by norm_num [params]) (by norm_num [params])
    (by norm_num) ⟨by norm_num, hk⟩ (35 / 1000) (27 / 2) (by norm_num) 5
    (fun k hk => (hI k hk).trans (by
      have : (k : ℝ) ≤ 5 := by exact_mod_cast hk
      linarith))
    (fun k hk => (hx k).2.trans (by
      have : (k : ℝ) ≤ 5 := by exact_mod_cast hk
      linarith))
    (by norm_num [params]) (by norm_num [params]) (by norm_num [params, clearance]) (by rw [h2, h3]; norm_num) k hk'
  norm_num [params, clearance] at this
  linarith

end Straight
end Agents
end Verif
