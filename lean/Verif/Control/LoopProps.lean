import Verif.Control.Pid
import Verif.Agents.Model
import Verif.Phys.IvpProps
import Mathlib.Analysis.SpecificLimits.Basic
import Mathlib.Tactic.Linarith
import Mathlib.Tactic.Positivity
import Mathlib.Tactic.FieldSimp

/-!
# C119: the controllers of speed and steering reach their reference
-/

namespace Verif
namespace Loop

open Filter Topology

/-- Specification: a quantity `x` that grows at the rate `u` that the controller has asked for last, where the
controller, in any state at the beginning, is asked every `h` seconds and always has the same reference. -/
structure Closed (p : PIDParam ℝ) (h ref : ℝ) (t : ℕ → ℝ) (s : ℕ → PIDState ℝ) (x u : ℕ → ℝ) : Prop where
  time : ∀ k, t (k + 1) = t k + h
  control : ∀ k, PIDState.getControl p (((s k).updateMeasurement (x k)).updateReference p ref) (t k) =
    (s (k + 1), .ok (u k))
  plant : ∀ k, x (k + 1) = x k + h * u k

/-- Gains, limits and period for which the loop is shown to be stable. -/
structure Stable (p : PIDParam ℝ) (h : ℝ) : Prop where
  pos : 0 < h
  kP : 0 < p.kP
  kI : 0 < p.kI
  kD : 0 ≤ p.kD
  period : p.kP * h + p.kD ≤ 1
  integral : 2 * p.kI * (1 + p.kD) < p.kP ^ 2
  out : p.output.1 < 0 ∧ 0 < p.output.2
  windup : p.antiwindup.1 ≤ 0 ∧ 0 ≤ p.antiwindup.2
  authority : p.kI * (max (-p.antiwindup.1) p.antiwindup.2 + p.kD * max (-p.output.1) p.output.2) <
    p.kP ^ 2 * min (-p.output.1) p.output.2

/-! ## Sequences -/

theorem npClip_neg {r lo hi : ℝ} (h : lo ≤ hi) : npClip (-r) (-hi) (-lo) = -npClip r lo hi := by
  unfold npClip
  rcases le_total r lo with h1 | h1
  · rw [max_eq_right h1, min_eq_left h, max_eq_left (by linarith), min_eq_right (by linarith)]
  · rw [max_eq_left h1]
    rcases le_total r hi with h2 | h2
    · rw [min_eq_left h2, max_eq_left (by linarith), min_eq_left (by linarith)]
    · rw [min_eq_right h2, max_eq_right (by linarith), min_eq_left (by linarith)]

theorem npClip_cases {r lo hi : ℝ} (h : lo ≤ hi) :
    (r < lo ∧ npClip r lo hi = lo) ∨ (lo ≤ r ∧ r ≤ hi ∧ npClip r lo hi = r) ∨ (hi < r ∧ npClip r lo hi = hi) := by
  rcases lt_or_ge r lo with h1 | h1
  · exact Or.inl ⟨h1, by unfold npClip; rw [max_eq_right h1.le, min_eq_left h]⟩
  · rcases le_or_gt r hi with h2 | h2
    · exact Or.inr (Or.inl ⟨h1, h2, npClip_of_mem _ _ _ h1 h2⟩)
    · exact Or.inr (Or.inr ⟨h2, by unfold npClip; rw [max_eq_left h1, min_eq_right h2.le]⟩)

theorem eventually_zero {f : ℕ → ℝ} {c : ℝ} (hc : 0 < c) (hf : ∀ k, 0 ≤ f k) (N : ℕ)
    (hs : ∀ k, N ≤ k → f (k + 1) ≤ max (f k - c) 0) : ∃ M, ∀ k, M ≤ k → f k = 0 := by
  have key : ∀ n : ℕ, f (N + n) ≤ max (f N - n * c) 0 := by
    intro n
    induction n with
    | zero => simp
    | succ n ih =>
      have h1 := hs (N + n) (by omega)
      rw [← Nat.add_assoc]
      refine h1.trans ?_
      push_cast
      rcases le_total (f N - n * c) 0 with h2 | h2
      · rw [max_eq_right h2] at ih
        refine max_le ?_ (le_max_right _ _)
        exact le_trans (by linarith) (le_max_right _ _)
      · rw [max_eq_left h2] at ih
        refine max_le ?_ (le_max_right _ _)
        exact le_trans (by linarith) (le_max_left _ _)
  obtain ⟨m, hm⟩ := exists_nat_gt (f N / c)
  rw [div_lt_iff₀ hc] at hm
  refine ⟨N + m, fun k hk => ?_⟩
  obtain ⟨j, rfl⟩ := Nat.exists_eq_add_of_le hk
  refine le_antisymm ?_ (hf _)
  have := key (m + j)
  rw [← Nat.add_assoc] at this
  refine this.trans (max_le ?_ le_rfl)
  push_cast
  have : (0 : ℝ) ≤ j * c := by positivity
  linarith

theorem error_up {a h kP B ε w e o r lo hi : ℝ} (ha : a = kP * h) (hh : 0 < h) (hkP : 0 < kP) (ha1 : a ≤ 1)
    (hB : 0 ≤ B) (hε : 0 < ε) (hlo : lo < 0) (hhi : 0 < hi) (hw : w ≤ hi) (ho : o = npClip r lo hi)
    (hr : |r - kP * e| ≤ kP * B) : e - h * o ≤ max (|e| - h * min w (kP * ε)) (B + ε) := by
  obtain ⟨hr1, hr2⟩ := abs_le.mp hr
  have hm1 := min_le_left w (kP * ε)
  have hm2 := min_le_right w (kP * ε)
  have hee := le_abs_self e
  rcases lt_or_ge (B + ε) e with h1 | h1
  · have hrε : kP * ε ≤ r := by nlinarith
    have hkε : 0 < kP * ε := by positivity
    refine le_trans ?_ (le_max_left _ _)
    have : min w (kP * ε) ≤ o := by
      rcases npClip_cases (r := r) (hlo.le.trans hhi.le) with ⟨h2, h3⟩ | ⟨h2, h3, h4⟩ | ⟨h2, h3⟩
      · linarith
      · rw [ho, h4]; linarith
      · rw [ho, h3]; linarith
    nlinarith
  · refine le_trans ?_ (le_max_right _ _)
    rcases le_or_gt 0 o with h2 | h2
    · nlinarith
    · have hor : r ≤ o := by
        rcases npClip_cases (r := r) (hlo.le.trans hhi.le) with ⟨h2, h3⟩ | ⟨h2, h3, h4⟩ | ⟨h2, h3⟩
        · rw [ho, h3]; linarith
        · rw [ho, h4]
        · rw [h3] at ho; linarith
      have h3 : h * r ≤ h * o := mul_le_mul_of_nonneg_left hor hh.le
      have h4 : h * (kP * e - kP * B) ≤ h * r := mul_le_mul_of_nonneg_left (by linarith) hh.le
      have h5 : h * (kP * e - kP * B) = a * e - a * B := by rw [ha]; ring
      have h6 : (1 - a) * e ≤ (1 - a) * (B + ε) := mul_le_mul_of_nonneg_left h1 (by linarith)
      have ha0 : 0 < a := by rw [ha]; positivity
      nlinarith

theorem error_step {a h kP B ε w e o r lo hi : ℝ} (ha : a = kP * h) (hh : 0 < h) (hkP : 0 < kP) (ha1 : a ≤ 1)
    (hB : 0 ≤ B) (hε : 0 < ε) (hlo : lo < 0) (hhi : 0 < hi) (hw : w ≤ hi) (hw2 : w ≤ -lo) (ho : o = npClip r lo hi)
    (hr : |r - kP * e| ≤ kP * B) : |e - h * o| ≤ max (|e| - h * min w (kP * ε)) (B + ε) := by
  refine abs_le'.mpr ⟨error_up ha hh hkP ha1 hB hε hlo hhi hw ho hr, ?_⟩
  have := error_up (e := -e) (o := -o) (r := -r) (lo := -hi) (hi := -lo) ha hh hkP ha1 hB hε (by linarith)
    (by linarith) hw2 (by rw [npClip_neg (hlo.le.trans hhi.le), ho]) (by
      rw [show -r - kP * -e = -(r - kP * e) by ring, abs_neg]; exact hr)
  rw [abs_neg] at this
  refine le_trans (le_of_eq ?_) this
  ring

theorem raw_up {a d w δ r r' o op Δ lo hi : ℝ} (ha : 0 < a) (hd : 0 ≤ d) (had : a + d ≤ 1)
    (hlo : lo < 0) (hhi : 0 < hi) (hw : w ≤ hi) (hδ : δ < a * w) (ho : o = npClip r lo hi) (hop : op ≤ hi)
    (hΔ : Δ ≤ δ) (hr : r' = r - (a + d) * o + d * op + Δ) : r' ≤ max (r - (a * w - δ)) hi := by
  have h1 : a * w ≤ a * hi := mul_le_mul_of_nonneg_left hw ha.le
  have h2 : d * op ≤ d * hi := mul_le_mul_of_nonneg_left hop hd
  rcases npClip_cases (r := r) (hlo.le.trans hhi.le) with ⟨h3, h4⟩ | ⟨h3, h4, h5⟩ | ⟨h3, h4⟩
  · refine le_trans ?_ (le_max_right _ _)
    rw [hr, ho, h4]
    nlinarith
  · refine le_trans ?_ (le_max_right _ _)
    rw [hr, ho, h5]
    have : (1 - a - d) * r ≤ (1 - a - d) * hi := mul_le_mul_of_nonneg_left h4 (by linarith)
    nlinarith
  · refine le_trans ?_ (le_max_left _ _)
    rw [hr, ho, h4]
    nlinarith

theorem integral_step {kP κ g d r r' e' I I' al ah : ℝ} (hkP : 0 < kP) (hκ : 0 < κ) (hg : g * kP = κ) (hal : al ≤ 0)
    (hah : 0 ≤ ah) (hI : I' = npClip (I + κ * e') al ah) (he : kP * e' = r' + d * r - I') (hd : 0 ≤ d) :
    (1 + g) * |I'| ≤ |I| + g * (|r'| + d * |r|) := by
  have hg0 : 0 < g := by
    by_contra hn
    have := mul_nonpos_of_nonpos_of_nonneg (not_lt.mp hn) hkP.le
    linarith
  have hup : ∀ {r r' e' I I' al ah : ℝ}, al ≤ 0 → 0 ≤ ah → I' = npClip (I + κ * e') al ah →
      kP * e' = r' + d * r - I' → (1 + g) * I' ≤ |I| + g * (|r'| + d * |r|) := by
    intro r r' e' I I' al ah hal hah hI he
    have h1 := le_abs_self r'
    have h2 : d * r ≤ d * |r| := mul_le_mul_of_nonneg_left (le_abs_self r) hd
    have h3 := le_abs_self I
    have h4 : g * (kP * e') = g * (r' + d * r - I') := by rw [he]
    have h5 : g * (kP * e') = κ * e' := by rw [← hg]; ring
    have h6 : g * (r' + d * r) ≤ g * (|r'| + d * |r|) := mul_le_mul_of_nonneg_left (by linarith) hg0.le
    have h7 : 0 ≤ |I| := abs_nonneg I
    rcases npClip_cases (r := I + κ * e') (hal.trans hah) with ⟨h8, h9⟩ | ⟨h8, h9, h10⟩ | ⟨h8, h9⟩
    · have : 0 ≤ g * (|r'| + d * |r|) := by
        have := abs_nonneg r'
        have := abs_nonneg r
        positivity
      rw [hI, h9]
      nlinarith
    · rw [h10] at hI
      nlinarith
    · rw [h9] at hI
      nlinarith
  rw [show (1 + g) * |I'| = |(1 + g) * I'| by rw [abs_mul, abs_of_pos (by linarith : 0 < 1 + g)]]
  refine abs_le'.mpr ⟨hup hal hah hI he, ?_⟩
  have := hup (r := -r) (r' := -r') (e' := -e') (I := -I) (I' := -I') (al := -ah) (ah := -al) (by linarith)
    (by linarith) (by rw [hI, ← npClip_neg (hal.trans hah)]; congr 1; ring) (by linarith)
  simp only [abs_neg] at this
  linarith

theorem contract {a d g c M r r' op Δ I I' : ℝ} (hd : 0 ≤ d) (had : a + d ≤ 1) (hg : 0 < g) (hg1 : g < 1)
    (hc : 1 + d < c) (hs : g * (1 + d + c) < a) (hM : 0 ≤ M) (hr : |r| ≤ M) (hop : |op| ≤ M) (hI : |I| ≤ c * M)
    (hr' : r' = (1 - a - d) * r + d * op + Δ) (hΔ : |Δ| ≤ g * (|r'| + d * |r| + |I'|))
    (hI' : (1 + g) * |I'| ≤ |I| + g * (|r'| + d * |r|)) :
    |r'| ≤ (1 - a + g * d + g * c) / (1 - g) * M ∧ |I'| ≤ (c + g * (1 + d)) / (1 + g) * M := by
  have h1 : |r'| ≤ (1 - a - d) * |r| + d * |op| + |Δ| := by
    rw [hr']
    refine (abs_add_le _ _).trans (add_le_add ((abs_add_le _ _).trans ?_) le_rfl)
    rw [abs_mul, abs_mul, abs_of_nonneg hd, abs_of_nonneg (by linarith : 0 ≤ 1 - a - d)]
  have h2 : (1 - a - d) * |r| ≤ (1 - a - d) * M := mul_le_mul_of_nonneg_left hr (by linarith)
  have h3 : d * |op| ≤ d * M := mul_le_mul_of_nonneg_left hop hd
  have h4 : d * |r| ≤ d * M := mul_le_mul_of_nonneg_left hr hd
  have h5 : g * (d * |r|) ≤ g * (d * M) := mul_le_mul_of_nonneg_left h4 hg.le
  set ρ := |r'| with hρ
  set X := |I'| with hX
  have hρM : ρ ≤ M := by
    by_contra hn
    have hn := not_le.mp hn
    have hρ0 : 0 < ρ := lt_of_le_of_lt hM hn
    have hXc : X ≤ c * ρ := by
      have : (1 + g) * X ≤ (1 + g) * (c * ρ) := by
        have e1 : c * M ≤ c * ρ := mul_le_mul_of_nonneg_left hn.le (by linarith)
        have e2 : d * M ≤ d * ρ := mul_le_mul_of_nonneg_left hn.le hd
        have e3 : g * (ρ + d * |r|) ≤ g * (ρ + d * ρ) := mul_le_mul_of_nonneg_left (by linarith) hg.le
        have e4 : g * ((1 + d) * ρ) ≤ g * (c * ρ) :=
          mul_le_mul_of_nonneg_left (mul_le_mul_of_nonneg_right hc.le hρ0.le) hg.le
        nlinarith
      exact le_of_mul_le_mul_left this (by linarith)
    have e1 : g * X ≤ g * (c * ρ) := mul_le_mul_of_nonneg_left hXc hg.le
    have e2 : (1 - a) * M ≤ (1 - a) * ρ := mul_le_mul_of_nonneg_left hn.le (by linarith)
    have e3 : g * (d * M) ≤ g * (d * ρ) := mul_le_mul_of_nonneg_left (mul_le_mul_of_nonneg_left hn.le hd) hg.le
    have e4 : g * (1 + d + c) * ρ < a * ρ := mul_lt_mul_of_pos_right hs hρ0
    nlinarith
  have hX1 : (1 + g) * X ≤ (c + g * (1 + d)) * M := by
    have e3 : g * (ρ + d * |r|) ≤ g * (M + d * M) := mul_le_mul_of_nonneg_left (by linarith) hg.le
    nlinarith
  have hXc : X ≤ c * M := by
    have : (1 + g) * X ≤ (1 + g) * (c * M) := by
      have e4 : g * ((1 + d) * M) ≤ g * (c * M) :=
        mul_le_mul_of_nonneg_left (mul_le_mul_of_nonneg_right hc.le hM) hg.le
      nlinarith
    exact le_of_mul_le_mul_left this (by linarith)
  constructor
  · rw [div_mul_eq_mul_div, le_div_iff₀ (by linarith)]
    have e1 : g * X ≤ g * (c * M) := mul_le_mul_of_nonneg_left hXc hg.le
    nlinarith
  · rw [div_mul_eq_mul_div, le_div_iff₀ (by linarith)]
    linarith

/-- The sequences of a closed loop: error, raw output, output, previous output, integrator. -/
structure Rec (p : PIDParam ℝ) (h : ℝ) (e r o op I : ℕ → ℝ) : Prop where
  hr : ∀ k, r k = p.kP * e k + I k - p.kD * op k
  ho : ∀ k, o k = npClip (r k) p.output.1 p.output.2
  hop : ∀ k, op (k + 1) = o k
  hop0 : p.output.1 ≤ op 0 ∧ op 0 ≤ p.output.2
  he : ∀ k, e (k + 1) = e k - h * o k
  hI : ∀ k, I (k + 1) = npClip (I k + p.kI * h * e (k + 1)) p.antiwindup.1 p.antiwindup.2
  hI0 : p.antiwindup.1 ≤ I 0 ∧ I 0 ≤ p.antiwindup.2

variable {p : PIDParam ℝ} {h : ℝ} {e r o op I : ℕ → ℝ}

theorem Rec.op_mem (H : Rec p h e r o op I) (hs : Stable p h) (k : ℕ) :
    p.output.1 ≤ op k ∧ op k ≤ p.output.2 := by
  cases k with
  | zero => exact H.hop0
  | succ k =>
    rw [H.hop, H.ho]
    exact ⟨le_npClip _ _ _ (hs.out.1.le.trans hs.out.2.le), npClip_le _ _ _⟩

theorem Rec.I_mem (H : Rec p h e r o op I) (hs : Stable p h) (k : ℕ) :
    p.antiwindup.1 ≤ I k ∧ I k ≤ p.antiwindup.2 := by
  cases k with
  | zero => exact H.hI0
  | succ k =>
    rw [H.hI]
    exact ⟨le_npClip _ _ _ (hs.windup.1.trans hs.windup.2), npClip_le _ _ _⟩

theorem abs_le_max {x lo hi : ℝ} (h : lo ≤ x ∧ x ≤ hi) : |x| ≤ max (-lo) hi :=
  abs_le'.mpr ⟨h.2.trans (le_max_right _ _), (neg_le_neg h.1).trans (le_max_left _ _)⟩

theorem npClip_near {x y lo hi : ℝ} (h : lo ≤ x ∧ x ≤ hi) : |npClip (x + y) lo hi - x| ≤ |y| := by
  have h1 := le_abs_self y
  have h2 := neg_abs_le y
  have h3 := abs_nonneg y
  rcases npClip_cases (r := x + y) (h.1.trans h.2) with ⟨h4, h5⟩ | ⟨h4, h5, h6⟩ | ⟨h4, h5⟩
  · rw [h5]; exact abs_le.mpr ⟨by linarith, by linarith [h.1]⟩
  · rw [h6]; exact abs_le.mpr ⟨by linarith, by linarith⟩
  · rw [h5]; exact abs_le.mpr ⟨by linarith [h.2], by linarith⟩

theorem Rec.r_next (H : Rec p h e r o op I) (k : ℕ) :
    r (k + 1) = r k - (p.kP * h + p.kD) * o k + p.kD * op k + (I (k + 1) - I k) := by
  rw [H.hr (k + 1), H.hr k, H.hop, H.he]
  ring

theorem Rec.error_small (H : Rec p h e r o op I) (hs : Stable p h) {B ε : ℝ}
    (hB : p.kP * B = max (-p.antiwindup.1) p.antiwindup.2 + p.kD * max (-p.output.1) p.output.2) (hε : 0 < ε) :
    ∃ N, ∀ k, N ≤ k → |e k| ≤ B + ε := by
  have hB0 : 0 ≤ B := by
    have : 0 ≤ p.kP * B := by
      rw [hB]
      have h1 : 0 ≤ max (-p.antiwindup.1) p.antiwindup.2 := hs.windup.2.trans (le_max_right _ _)
      have h2 : 0 ≤ max (-p.output.1) p.output.2 := hs.out.2.le.trans (le_max_right _ _)
      have := hs.kD
      positivity
    exact nonneg_of_mul_nonneg_right this hs.kP
  set w := min (-p.output.1) p.output.2 with hw
  have hw0 : 0 < w := lt_min (by linarith [hs.out.1]) hs.out.2
  have ha1 : p.kP * h ≤ 1 := by linarith [hs.period, hs.kD]
  have step : ∀ k, |e (k + 1)| ≤ max (|e k| - h * min w (p.kP * ε)) (B + ε) := by
    intro k
    rw [H.he]
    refine error_step rfl hs.pos hs.kP ha1 hB0 hε hs.out.1 hs.out.2 (min_le_right _ _) (min_le_left _ _) (H.ho k) ?_
    rw [H.hr, hB, show p.kP * e k + I k - p.kD * op k - p.kP * e k = I k - p.kD * op k by ring]
    refine (abs_sub _ _).trans (add_le_add (abs_le_max (H.I_mem hs k)) ?_)
    rw [abs_mul, abs_of_nonneg hs.kD]
    exact mul_le_mul_of_nonneg_left (abs_le_max (H.op_mem hs k)) hs.kD
  have hc : 0 < h * min w (p.kP * ε) := mul_pos hs.pos (lt_min hw0 (mul_pos hs.kP hε))
  obtain ⟨N, hN⟩ := eventually_zero (f := fun k => max (|e k| - (B + ε)) 0) hc (fun k => le_max_right _ _) 0 (by
    intro k _
    refine max_le ?_ (le_max_right _ _)
    have h1 := step k
    rcases le_total (|e k| - h * min w (p.kP * ε)) (B + ε) with h2 | h2
    · rw [max_eq_right h2] at h1
      exact le_trans (by linarith) (le_max_right _ _)
    · rw [max_eq_left h2] at h1
      refine le_trans ?_ (le_max_left _ _)
      have := le_max_left (|e k| - (B + ε)) 0
      linarith)
  refine ⟨N, fun k hk => ?_⟩
  have h1 := hN k hk
  have h2 := le_max_left (|e k| - (B + ε)) 0
  linarith

theorem Rec.raw_small (H : Rec p h e r o op I) (hs : Stable p h) :
    ∃ N, ∀ k, N ≤ k → p.output.1 ≤ r k ∧ r k ≤ p.output.2 := by
  set w := min (-p.output.1) p.output.2 with hw
  have hw0 : 0 < w := lt_min (by linarith [hs.out.1]) hs.out.2
  set J := max (-p.antiwindup.1) p.antiwindup.2 + p.kD * max (-p.output.1) p.output.2 with hJ
  have hkP := hs.kP
  have hkI := hs.kI
  have hh := hs.pos
  have hB : p.kP * (J / p.kP) = J := by field_simp
  -- room left by `authority`
  have hroom : 0 < p.kP ^ 2 * w - p.kI * J := by linarith [hs.authority]
  set ε := (p.kP ^ 2 * w - p.kI * J) / (2 * p.kI * p.kP) with hε
  have hε0 : 0 < ε := by positivity
  obtain ⟨N, hN⟩ := H.error_small hs hB hε0
  set δ := p.kI * h * (J / p.kP + ε) with hδ
  have hδw : δ < p.kP * h * w := by
    have e1 : δ * p.kP = h * (p.kI * J + (p.kP ^ 2 * w - p.kI * J) / 2) := by
      rw [hδ, hε]; field_simp
    have e2 : δ * p.kP < p.kP * h * w * p.kP := by
      rw [e1]
      have : h * (p.kI * J + (p.kP ^ 2 * w - p.kI * J) / 2) < h * (p.kP ^ 2 * w) :=
        mul_lt_mul_of_pos_left (by linarith) hh
      nlinarith
    exact lt_of_mul_lt_mul_right e2 hkP.le
  have hΔ : ∀ k, N ≤ k → |I (k + 1) - I k| ≤ δ := by
    intro k hk
    rw [H.hI]
    refine (npClip_near (H.I_mem hs k)).trans ?_
    rw [abs_mul, abs_of_pos (by positivity : 0 < p.kI * h)]
    exact mul_le_mul_of_nonneg_left (hN (k + 1) (by omega)) (by positivity)
  have ha : 0 < p.kP * h := by positivity
  have hc : 0 < p.kP * h * w - δ := by linarith
  have hlh := hs.out.1.le.trans hs.out.2.le
  obtain ⟨N1, hN1⟩ := eventually_zero (f := fun k => max (r k - p.output.2) 0) hc (fun k => le_max_right _ _) N (by
    intro k hk
    refine max_le ?_ (le_max_right _ _)
    have h1 := raw_up ha hs.kD hs.period hs.out.1 hs.out.2 (min_le_right _ _) hδw (H.ho k) (H.op_mem hs k).2
      (abs_le.mp (hΔ k hk)).2 (H.r_next k)
    rcases le_total (r k - (p.kP * h * w - δ)) p.output.2 with h2 | h2
    · rw [max_eq_right h2] at h1
      exact le_trans (by linarith) (le_max_right _ _)
    · rw [max_eq_left h2] at h1
      refine le_trans ?_ (le_max_left _ _)
      have := le_max_left (r k - p.output.2) 0
      linarith)
  obtain ⟨N2, hN2⟩ := eventually_zero (f := fun k => max (p.output.1 - r k) 0) hc (fun k => le_max_right _ _) N (by
    intro k hk
    refine max_le ?_ (le_max_right _ _)
    have h1 := raw_up (r := -r k) (r' := -r (k + 1)) (o := -o k) (op := -op k) (Δ := -(I (k + 1) - I k))
      (lo := -p.output.2) (hi := -p.output.1) (w := w) ha hs.kD hs.period (by linarith [hs.out.2])
      (by linarith [hs.out.1]) (min_le_left _ _) hδw (by rw [npClip_neg hlh, H.ho])
      (by linarith [(H.op_mem hs k).1]) (by linarith [(abs_le.mp (hΔ k hk)).1]) (by rw [H.r_next k]; ring)
    rcases le_total (-r k - (p.kP * h * w - δ)) (-p.output.1) with h2 | h2
    · rw [max_eq_right h2] at h1
      exact le_trans (by linarith) (le_max_right _ _)
    · rw [max_eq_left h2] at h1
      refine le_trans ?_ (le_max_left _ _)
      have := le_max_left (p.output.1 - r k) 0
      linarith)
  refine ⟨max N1 N2, fun k hk => ⟨?_, ?_⟩⟩
  · have h1 := hN2 k (le_trans (le_max_right _ _) hk)
    have h2 := le_max_left (p.output.1 - r k) 0
    linarith
  · have h1 := hN1 k (le_trans (le_max_left _ _) hk)
    have h2 := le_max_left (r k - p.output.2) 0
    linarith

theorem Rec.tendsto (H : Rec p h e r o op I) (hs : Stable p h) :
    ∃ C θ : ℝ, ∃ N : ℕ, 0 ≤ θ ∧ θ < 1 ∧ ∀ j, |e (N + j)| ≤ C * θ ^ (j / 2) := by
  obtain ⟨N, hN⟩ := H.raw_small hs
  have hkP := hs.kP
  have hkI := hs.kI
  have hh := hs.pos
  have hd := hs.kD
  set d := p.kD with hdd
  set a := p.kP * h with ha
  set g := p.kI * h / p.kP with hg
  have hgk : g * p.kP = p.kI * h := by rw [hg]; field_simp
  have hg0 : 0 < g := by positivity
  have hga : 2 * g * (1 + d) < a := by
    have : 2 * g * (1 + d) * p.kP < a * p.kP := by
      have e1 : 2 * g * (1 + d) * p.kP = h * (2 * p.kI * (1 + d)) := by
        rw [show 2 * g * (1 + d) * p.kP = 2 * (g * p.kP) * (1 + d) by ring, hgk]; ring
      have e2 : a * p.kP = h * p.kP ^ 2 := by rw [ha]; ring
      rw [e1, e2]
      exact mul_lt_mul_of_pos_left hs.integral hh
    exact lt_of_mul_lt_mul_right this hkP.le
  have had : a + d ≤ 1 := hs.period
  have hg1 : g < 1 := by nlinarith
  set c := ((1 + d) + (a / g - (1 + d))) / 2 with hc
  have hcg : c = a / g / 2 := by rw [hc]; ring
  -- any `c` strictly between `1 + d` and `a / g - (1 + d)` will do
  have hlt : 1 + d < a / g - (1 + d) := by
    have : 2 * (1 + d) < a / g := by rw [lt_div_iff₀ hg0]; linarith
    linarith
  have hc1 : 1 + d < c := by rw [hc]; linarith
  have hc2 : g * (1 + d + c) < a := by
    have : 1 + d + c < a / g := by rw [hc]; linarith
    rw [lt_div_iff₀ hg0] at this
    linarith
  have hc0 : 0 < c := by linarith
  set θ1 := (1 - a + g * d + g * c) / (1 - g) with hθ1
  set θ2 := (c + g * (1 + d)) / (1 + g) / c with hθ2
  have hθ1a : 0 ≤ θ1 := div_nonneg (by nlinarith [mul_nonneg hg0.le hd, mul_pos hg0 hc0]) (by linarith)
  have hθ1b : θ1 < 1 := by rw [hθ1, div_lt_one (by linarith)]; nlinarith
  have hθ2b : θ2 < 1 := by
    rw [hθ2, div_lt_one hc0, div_lt_iff₀ (by linarith)]
    nlinarith [mul_pos hg0 (by linarith : 0 < c - (1 + d))]
  set θ := max θ1 θ2 with hθ
  have hθ0 : 0 ≤ θ := hθ1a.trans (le_max_left _ _)
  have hθlt : θ < 1 := max_lt hθ1b hθ2b
  have hon : ∀ k, N ≤ k → o k = r k := fun k hk => by
    rw [H.ho, npClip_of_mem _ _ _ (hN k hk).1 (hN k hk).2]
  have step : ∀ k, N ≤ k → ∀ M, 0 ≤ M → |r k| ≤ M → |op k| ≤ M → |I k| ≤ c * M →
      |r (k + 1)| ≤ θ * M ∧ |I (k + 1)| ≤ c * (θ * M) := by
    intro k hk M hM h1 h2 h3
    have he : p.kP * e (k + 1) = r (k + 1) + d * r k - I (k + 1) := by
      rw [H.hr (k + 1), H.hop, hon k hk]; ring
    have hI := integral_step hkP (by positivity : 0 < p.kI * h) hgk hs.windup.1 hs.windup.2 (H.hI k) he hd
    have hΔ : |I (k + 1) - I k| ≤ g * (|r (k + 1)| + d * |r k| + |I (k + 1)|) := by
      have e1 : |I (k + 1) - I k| ≤ |p.kI * h * e (k + 1)| := by
        conv_lhs => rw [H.hI]
        exact npClip_near (H.I_mem hs k)
      refine e1.trans ?_
      rw [← hgk, mul_assoc, he, abs_mul, abs_of_pos hg0]
      refine mul_le_mul_of_nonneg_left ?_ hg0.le
      refine (abs_sub _ _).trans (add_le_add ((abs_add_le _ _).trans ?_) le_rfl)
      rw [abs_mul, abs_of_nonneg hd]
    obtain ⟨h4, h5⟩ := contract hd had hg0 hg1 hc1 hc2 hM h1 h2 h3
      (by rw [H.r_next k, hon k hk]; ring) hΔ hI
    refine ⟨h4.trans (mul_le_mul_of_nonneg_right (le_max_left _ _) hM), h5.trans ?_⟩
    have : (c + g * (1 + d)) / (1 + g) * M = c * (θ2 * M) := by rw [hθ2]; field_simp
    rw [this]
    exact mul_le_mul_of_nonneg_left (mul_le_mul_of_nonneg_right (le_max_right _ _) hM) hc0.le
  set M0 := max (max |r N| |op N|) (|I N| / c) with hM0
  have hM00 : 0 ≤ M0 := (abs_nonneg _).trans ((le_max_left _ _).trans (le_max_left _ _))
  have key : ∀ n : ℕ, |r (N + 2 * n)| ≤ θ ^ n * M0 ∧ |op (N + 2 * n)| ≤ θ ^ n * M0 ∧
      |I (N + 2 * n)| ≤ c * (θ ^ n * M0) ∧ |r (N + 2 * n + 1)| ≤ θ ^ n * M0 ∧
      |I (N + 2 * n + 1)| ≤ c * (θ ^ n * M0) := by
    intro n
    have up : ∀ k, N ≤ k → ∀ M, 0 ≤ M → |r k| ≤ M → |op k| ≤ M → |I k| ≤ c * M →
        |r (k + 1)| ≤ M ∧ |I (k + 1)| ≤ c * M := by
      intro k hk M hM h1 h2 h3
      obtain ⟨h4, h5⟩ := step k hk M hM h1 h2 h3
      have : θ * M ≤ M := by nlinarith
      exact ⟨h4.trans this, h5.trans (mul_le_mul_of_nonneg_left this hc0.le)⟩
    induction n with
    | zero =>
      have h1 : |r N| ≤ M0 := (le_max_left _ _).trans (le_max_left _ _)
      have h2 : |op N| ≤ M0 := (le_max_right _ _).trans (le_max_left _ _)
      have h3 : |I N| ≤ c * M0 := by
        have : |I N| / c ≤ M0 := le_max_right _ _
        rw [div_le_iff₀ hc0] at this
        linarith
      obtain ⟨h4, h5⟩ := up N le_rfl M0 hM00 h1 h2 h3
      simpa using ⟨h1, h2, h3, h4, h5⟩
    | succ n ih =>
      obtain ⟨h1, h2, h3, h4, h5⟩ := ih
      have hM : 0 ≤ θ ^ n * M0 := by positivity
      have hop : |op (N + 2 * n + 1)| ≤ θ ^ n * M0 := by rw [H.hop, hon _ (by omega)]; exact h1
      obtain ⟨h6, -⟩ := step (N + 2 * n) (by omega) _ hM h1 h2 h3
      obtain ⟨h7, h8⟩ := step (N + 2 * n + 1) (by omega) _ hM h4 hop h5
      have hop2 : |op (N + 2 * n + 1 + 1)| ≤ θ * (θ ^ n * M0) := by rw [H.hop, hon _ (by omega)]; exact h6
      have hM2 : 0 ≤ θ * (θ ^ n * M0) := by positivity
      obtain ⟨h9, h10⟩ := up (N + 2 * n + 1 + 1) (by omega) _ hM2 h7 hop2 h8
      have e1 : N + 2 * (n + 1) = N + 2 * n + 1 + 1 := by ring
      have e2 : θ ^ (n + 1) * M0 = θ * (θ ^ n * M0) := by ring
      rw [e1, e2]
      exact ⟨h7, hop2, h8, h9, h10⟩
  refine ⟨(1 + d + c) * M0 / p.kP, θ, N, hθ0, hθlt, fun j => ?_⟩
  have fin : ∀ k M, |r k| ≤ M → |op k| ≤ M → |I k| ≤ c * M → |e k| ≤ (1 + d + c) * M / p.kP := by
    intro k M h1 h2 h3
    rw [le_div_iff₀ hkP]
    have e1 : e k * p.kP = r k + d * op k - I k := by rw [H.hr]; ring
    have e2 : |e k| * p.kP = |r k + d * op k - I k| := by rw [← e1, abs_mul, abs_of_pos hkP]
    rw [e2]
    refine (abs_sub _ _).trans ?_
    have e3 := abs_add_le (r k) (d * op k)
    rw [abs_mul, abs_of_nonneg hd] at e3
    have e4 : d * |op k| ≤ d * M := mul_le_mul_of_nonneg_left h2 hd
    nlinarith
  have hj : (1 + d + c) * M0 / p.kP * θ ^ (j / 2) = (1 + d + c) * (θ ^ (j / 2) * M0) / p.kP := by ring
  rw [hj]
  obtain ⟨h1, h2, h3, h4, h5⟩ := key (j / 2)
  rcases Nat.mod_two_eq_zero_or_one j with hm | hm
  · have : N + j = N + 2 * (j / 2) := by omega
    rw [this]
    exact fin _ _ h1 h2 h3
  · have : N + j = N + 2 * (j / 2) + 1 := by omega
    rw [this]
    refine fin _ _ h4 ?_ h5
    rw [H.hop, hon _ (by omega)]
    exact h1

theorem Rec.bounded (H : Rec p h e r o op I) (hs : Stable p h) {B : ℝ}
    (hB : p.kP * B = max (-p.antiwindup.1) p.antiwindup.2 + p.kD * max (-p.output.1) p.output.2) (k : ℕ) :
    |e k| ≤ max |e 0| B := by
  have hB0 : 0 ≤ B := by
    have : 0 ≤ p.kP * B := by
      rw [hB]
      have h1 : 0 ≤ max (-p.antiwindup.1) p.antiwindup.2 := hs.windup.2.trans (le_max_right _ _)
      have h2 : 0 ≤ max (-p.output.1) p.output.2 := hs.out.2.le.trans (le_max_right _ _)
      have := hs.kD
      positivity
    exact nonneg_of_mul_nonneg_right this hs.kP
  have ha1 : p.kP * h ≤ 1 := by linarith [hs.period, hs.kD]
  induction k with
  | zero => exact le_max_left _ _
  | succ k ih =>
    have step : |e (k + 1)| ≤ max |e k| B := by
      refine le_of_forall_pos_le_add fun ε hε => ?_
      have h1 := error_step (ε := ε) (w := min (-p.output.1) p.output.2) (a := p.kP * h) rfl hs.pos hs.kP ha1 hB0 hε
        hs.out.1 hs.out.2 (min_le_right _ _) (min_le_left _ _) (H.ho k) (e := e k) (B := B) (by
          rw [H.hr, hB, show p.kP * e k + I k - p.kD * op k - p.kP * e k = I k - p.kD * op k by ring]
          refine (abs_sub _ _).trans (add_le_add (abs_le_max (H.I_mem hs k)) ?_)
          rw [abs_mul, abs_of_nonneg hs.kD]
          exact mul_le_mul_of_nonneg_left (abs_le_max (H.op_mem hs k)) hs.kD)
      rw [H.he]
      refine h1.trans (max_le ?_ ?_)
      · have : 0 ≤ h * min (min (-p.output.1) p.output.2) (p.kP * ε) :=
          mul_nonneg hs.pos.le (le_min (le_min (by linarith [hs.out.1]) hs.out.2.le) (mul_nonneg hs.kP.le hε.le))
        have := le_max_left |e k| B
        linarith
      · have := le_max_right |e k| B
        linarith
    exact step.trans (max_le ih (le_max_right _ _))

/-! ## From the controller to the sequences -/

theorem getControl_some (p : PIDParam ℝ) (s : PIDState ℝ) (t0 t : ℝ) (h0 : s.lastRequestAt = some t0)
    (ht : t - t0 ≠ 0) :
    let e := s.reference - s.measurement
    let i := npClip (s.lastIntegralError + p.kI * e * (t - t0)) p.antiwindup.1 p.antiwindup.2
    s.getControl p t = ({ s with lastRequestAt := some t, lastIntegralError := i, lastProportionalError := e },
      .ok (npClip (p.kP * e + i + p.kD * ((e - s.lastProportionalError) / (t - t0))) p.output.1 p.output.2)) := by
  intro e i
  unfold PIDState.getControl
  simp only [h0]
  rw [if_pos ht, if_neg ht]

theorem getControl_any (p : PIDParam ℝ) (s : PIDState ℝ) (t : ℝ) :
    ∃ i u, s.getControl p t = ({ s with
        lastRequestAt := some t
        lastIntegralError := npClip i p.antiwindup.1 p.antiwindup.2
        lastProportionalError := s.reference - s.measurement },
      .ok (npClip u p.output.1 p.output.2)) := by
  unfold PIDState.getControl
  simp only []
  split_ifs with h
  · exact ⟨_, _, rfl⟩
  · exact ⟨_, _, rfl⟩

theorem Closed.seqs {ref : ℝ} {t : ℕ → ℝ} {s : ℕ → PIDState ℝ} {x u : ℕ → ℝ} (H : Closed p h ref t s x u)
    (hs : Stable p h) :
    Rec p h (fun k => npClip ref p.setpoint.1 p.setpoint.2 - x (k + 1))
      (fun k => p.kP * (npClip ref p.setpoint.1 p.setpoint.2 - x (k + 1)) + (s (k + 2)).lastIntegralError -
        p.kD * u k) (fun k => u (k + 1)) u (fun k => (s (k + 2)).lastIntegralError) := by
  set y := npClip ref p.setpoint.1 p.setpoint.2 with hy
  have hh := hs.pos
  -- what is kept from the previous request
  have kept : ∀ k, (s (k + 1)).lastRequestAt = some (t k) ∧ (s (k + 1)).lastProportionalError = y - x k := by
    intro k
    obtain ⟨i, v, h1⟩ := getControl_any p (((s k).updateMeasurement (x k)).updateReference p ref) (t k)
    have h2 := (H.control k).symm.trans h1
    have h3 := (Prod.ext_iff.mp h2).1
    simp only at h3
    rw [h3]
    exact ⟨rfl, rfl⟩
  have next : ∀ k, (s (k + 2)).lastIntegralError = npClip ((s (k + 1)).lastIntegralError +
        p.kI * (y - x (k + 1)) * h) p.antiwindup.1 p.antiwindup.2 ∧
      u (k + 1) = npClip (p.kP * (y - x (k + 1)) + (s (k + 2)).lastIntegralError +
        p.kD * ((y - x (k + 1) - (y - x k)) / h)) p.output.1 p.output.2 := by
    intro k
    have ht : t (k + 1) - t k = h := by rw [H.time]; ring
    have h1 := getControl_some p (((s (k + 1)).updateMeasurement (x (k + 1))).updateReference p ref) (t k) (t (k + 1))
      (kept k).1 (by rw [ht]; exact hh.ne')
    rw [ht] at h1
    have h2 := (H.control (k + 1)).symm.trans h1
    obtain ⟨h3, h4⟩ := Prod.ext_iff.mp h2
    simp only at h3 h4
    have h5 : (s (k + 2)).lastIntegralError = npClip ((s (k + 1)).lastIntegralError +
        p.kI * (y - x (k + 1)) * h) p.antiwindup.1 p.antiwindup.2 := by
      rw [h3]; rfl
    refine ⟨h5, ?_⟩
    injection h4 with h4
    rw [h4, h5]
    congr 1
    rw [← (kept k).2]
    rfl
  have hD : ∀ k, (y - x (k + 1) - (y - x k)) / h = -u k := by
    intro k
    rw [H.plant]
    field_simp
    ring
  refine ⟨fun k => rfl, fun k => ?_, fun k => rfl, ?_, fun k => ?_, fun k => ?_, ?_⟩
  · rw [(next k).2, hD]
    congr 1
    ring
  · obtain ⟨i, v, h1⟩ := getControl_any p (((s 0).updateMeasurement (x 0)).updateReference p ref) (t 0)
    have h2 := (Prod.ext_iff.mp ((H.control 0).symm.trans h1)).2
    simp only at h2
    injection h2 with h2
    rw [h2]
    exact ⟨le_npClip _ _ _ (hs.out.1.le.trans hs.out.2.le), npClip_le _ _ _⟩
  · rw [H.plant (k + 1)]
    ring
  · rw [(next (k + 1)).1]
    congr 1
    ring
  · rw [(next 0).1]
    exact ⟨le_npClip _ _ _ (hs.windup.1.trans hs.windup.2), npClip_le _ _ _⟩

/-- **C119.** Whatever has happened before: if from now on the reference stays the same and the controller is asked
every `h` seconds, the quantity tends to the reference, in the end exponentially. -/
theorem C119_converges_partial {ref : ℝ} {t : ℕ → ℝ} {s : ℕ → PIDState ℝ} {x u : ℕ → ℝ} (H : Closed p h ref t s x u)
    (hs : Stable p h) :
    Tendsto x atTop (𝓝 (npClip ref p.setpoint.1 p.setpoint.2)) ∧
    ∃ C θ : ℝ, ∃ N : ℕ, 0 ≤ θ ∧ θ < 1 ∧
      ∀ j, |x (N + j) - npClip ref p.setpoint.1 p.setpoint.2| ≤ C * θ ^ (j / 2) := by
  set y := npClip ref p.setpoint.1 p.setpoint.2 with hy
  obtain ⟨C, θ, N, h1, h2, h3⟩ := (H.seqs hs).tendsto hs
  have key : ∀ j, |x (N + 1 + j) - y| ≤ C * θ ^ (j / 2) := by
    intro j
    have := h3 j
    rw [abs_sub_comm, show N + 1 + j = N + j + 1 by ring]
    exact this
  refine ⟨?_, C, θ, N + 1, h1, h2, key⟩
  rw [tendsto_iff_norm_sub_tendsto_zero]
  have h4 : Tendsto (fun j : ℕ => C * θ ^ (j / 2)) atTop (𝓝 0) := by
    have e1 : Tendsto (fun n : ℕ => θ ^ n) atTop (𝓝 0) := tendsto_pow_atTop_nhds_zero_of_lt_one h1 h2
    have e2 : Tendsto (fun j : ℕ => j / 2) atTop atTop := Nat.tendsto_div_const_atTop (by norm_num)
    simpa using (e1.comp e2).const_mul C
  rw [← tendsto_add_atTop_iff_nat (N + 1)]
  refine squeeze_zero (fun j => norm_nonneg _) (fun j => ?_) h4
  rw [Nat.add_comm j (N + 1)]
  exact key j

/-- **C119.** On the way the error never gets larger than it is after the first step, or than a bound given by the
limits of integrator and output. -/
theorem C119_bounded {ref : ℝ} {t : ℕ → ℝ} {s : ℕ → PIDState ℝ} {x u : ℕ → ℝ} (H : Closed p h ref t s x u)
    (hs : Stable p h) (k : ℕ) :
    |x (k + 1) - npClip ref p.setpoint.1 p.setpoint.2| ≤ max |x 1 - npClip ref p.setpoint.1 p.setpoint.2|
      ((max (-p.antiwindup.1) p.antiwindup.2 + p.kD * max (-p.output.1) p.output.2) / p.kP) := by
  have := (H.seqs hs).bounded hs (B := (max (-p.antiwindup.1) p.antiwindup.2 +
    p.kD * max (-p.output.1) p.output.2) / p.kP) (by have := hs.kP; field_simp) k
  simpa [abs_sub_comm] using this

end Loop
end Verif
