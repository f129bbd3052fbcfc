import Verif.Eval.Dist
import Verif.Eval.ForeseeProps
import Verif.Maps.GeoProps
import Mathlib.Topology.Order.Compact
import Mathlib.Analysis.SpecialFunctions.Trigonometric.Bounds
import Mathlib.Analysis.Complex.Basic

/-!
# C135: distances between players
-/

namespace Verif
namespace Eval

open Maps (norm2 applyT2 rigid)

/-! ## Specification -/

/-- Where a point that is fixed to a body in pose `s` is in the plane. -/
noncomputable def bodyPoint (s : Kin) (p : ℝ × ℝ) : ℝ × ℝ :=
  (s.x + (Real.cos s.psi * p.1 - Real.sin s.psi * p.2), s.y + (Real.sin s.psi * p.1 + Real.cos s.psi * p.2))

/-- Two bodies have a point in common. -/
def Touch (s1 s2 : Kin) (O1 O2 : Set (ℝ × ℝ)) : Prop := ∃ a ∈ O1, ∃ b ∈ O2, bodyPoint s1 a = bodyPoint s2 b

/-- A region without which there is nothing to measure: closed, bounded, with a point. -/
def Solid (O : Set (ℝ × ℝ)) : Prop := O.Nonempty ∧ IsCompact O

/-- All points of the outline are within `R` of the reference point. -/
def Within (O : Set (ℝ × ℝ)) (R : ℝ) : Prop := ∀ p ∈ O, norm2 p.1 p.2 ≤ R

/-- The same pose seen from another frame: turned by `φ`, then moved by `(a, b)`. -/
noncomputable def reframe (φ a b : ℝ) (s : Kin) : Kin :=
  ⟨a + (Real.cos φ * s.x - Real.sin φ * s.y), b + (Real.sin φ * s.x + Real.cos φ * s.y), s.psi + φ, s.vx⟩

/-! ## Lengths -/

theorem norm2_complex (x y : ℝ) : norm2 x y = ‖(⟨x, y⟩ : ℂ)‖ := by
  rw [Complex.norm_def, Complex.normSq_mk]
  unfold norm2
  congr 1
  ring

theorem norm2_add_le (x y u v : ℝ) : norm2 (x + u) (y + v) ≤ norm2 x y + norm2 u v := by
  simp only [norm2_complex]
  have := norm_add_le (⟨x, y⟩ : ℂ) ⟨u, v⟩
  rwa [show (⟨x, y⟩ : ℂ) + ⟨u, v⟩ = ⟨x + u, y + v⟩ from rfl] at this

theorem norm2_neg (x y : ℝ) : norm2 (-x) (-y) = norm2 x y := by unfold norm2; simp

theorem norm2_zero : norm2 0 0 = 0 := (Maps.norm2_eq_zero 0 0).mpr ⟨rfl, rfl⟩

/-- A chord is not longer than its arc. -/
theorem chord_le (a b : ℝ) : norm2 (Real.cos a - Real.cos b) (Real.sin a - Real.sin b) ≤ |a - b| := by
  unfold norm2
  rw [← Real.sqrt_sq_eq_abs]
  apply Real.sqrt_le_sqrt
  have h1 := Real.one_sub_sq_div_two_le_cos (x := a - b)
  rw [Real.cos_sub] at h1
  nlinarith [Real.sin_sq_add_cos_sq a, Real.sin_sq_add_cos_sq b]

theorem continuous_norm2 : Continuous fun q : (ℝ × ℝ) × (ℝ × ℝ) => norm2 (q.1.1 - q.2.1) (q.1.2 - q.2.2) := by
  unfold norm2
  fun_prop

/-! ## Placing -/

theorem placed_eq (s : Kin) (O : Set (ℝ × ℝ)) : placed s O = bodyPoint s '' O := by
  unfold placed
  congr 1
  funext p
  simp only [applyT2, rigid, bodyPoint, Prod.mk.injEq]
  constructor <;> ring

theorem bodyPoint_continuous (s : Kin) : Continuous (bodyPoint s) := by
  unfold bodyPoint
  fun_prop

theorem placed_solid {O : Set (ℝ × ℝ)} (h : Solid O) (s : Kin) : Solid (placed s O) := by
  rw [placed_eq]
  exact ⟨h.1.image _, h.2.image (bodyPoint_continuous s)⟩

section
variable {X M : Type} {nearest : Set (ℝ × ℝ) → Set (ℝ × ℝ) → (ℝ × ℝ) × (ℝ × ℝ)} (law : NearestLaw nearest)
  (kin : X → Kin) (outline : M → Set (ℝ × ℝ))
include law

/-- **C135.** The distance is the one of two points, the first of the first player and the second of the second, and no
two points of the players are nearer to each other. -/
theorem C135_distance (x1 x2 : X) (m1 m2 : M) (h1 : Solid (outline m1)) (h2 : Solid (outline m2)) :
    let r := getDist nearest kin outline x1 x2 m1 m2
    (∃ a ∈ outline m1, ∃ b ∈ outline m2, r.2 = (bodyPoint (kin x1) a, bodyPoint (kin x2) b)) ∧
    r.1 = norm2 (r.2.1.1 - r.2.2.1) (r.2.1.2 - r.2.2.2) ∧
    ∀ a ∈ outline m1, ∀ b ∈ outline m2,
      r.1 ≤ norm2 ((bodyPoint (kin x1) a).1 - (bodyPoint (kin x2) b).1)
        ((bodyPoint (kin x1) a).2 - (bodyPoint (kin x2) b).2) := by
  intro r
  have p1 := placed_solid h1 (kin x1)
  have p2 := placed_solid h2 (kin x2)
  obtain ⟨n1, n2, n3⟩ := law _ _ p1.1 p2.1 p1.2 p2.2
  refine ⟨?_, rfl, fun a ha b hb => ?_⟩
  · obtain ⟨a, ha, e1⟩ := (Set.ext_iff.mp (placed_eq (kin x1) (outline m1)) _).mp n1
    obtain ⟨b, hb, e2⟩ := (Set.ext_iff.mp (placed_eq (kin x2) (outline m2)) _).mp n2
    exact ⟨a, ha, b, hb, Prod.ext e1.symm e2.symm⟩
  · exact n3 _ (by rw [placed_eq]; exact ⟨a, ha, rfl⟩) _ (by rw [placed_eq]; exact ⟨b, hb, rfl⟩)

/-- **C135.** The distance is zero exactly if the players touch. -/
theorem C135_zero (x1 x2 : X) (m1 m2 : M) (h1 : Solid (outline m1)) (h2 : Solid (outline m2)) :
    (getDist nearest kin outline x1 x2 m1 m2).1 = 0 ↔ Touch (kin x1) (kin x2) (outline m1) (outline m2) := by
  obtain ⟨⟨a, ha, b, hb, hr⟩, hd, hmin⟩ := C135_distance law kin outline x1 x2 m1 m2 h1 h2
  constructor
  · intro h0
    rw [hd, Maps.norm2_eq_zero, hr] at h0
    exact ⟨a, ha, b, hb, Prod.ext (sub_eq_zero.mp h0.1) (sub_eq_zero.mp h0.2)⟩
  · rintro ⟨a, ha, b, hb, hab⟩
    have := hmin a ha b hb
    rw [hab, sub_self, sub_self, norm2_zero] at this
    exact le_antisymm this (by rw [hd]; exact Maps.norm2_nonneg _ _)

/-- **C135.** The distance is the same seen from either player. -/
theorem C135_symmetric (x1 x2 : X) (m1 m2 : M) (h1 : Solid (outline m1)) (h2 : Solid (outline m2)) :
    (getDist nearest kin outline x1 x2 m1 m2).1 = (getDist nearest kin outline x2 x1 m2 m1).1 := by
  have key : ∀ (x1 x2 : X) (m1 m2 : M), Solid (outline m1) → Solid (outline m2) →
      (getDist nearest kin outline x1 x2 m1 m2).1 ≤ (getDist nearest kin outline x2 x1 m2 m1).1 := by
    intro x1 x2 m1 m2 h1 h2
    obtain ⟨-, -, hmin⟩ := C135_distance law kin outline x1 x2 m1 m2 h1 h2
    obtain ⟨⟨a, ha, b, hb, hr⟩, hd, -⟩ := C135_distance law kin outline x2 x1 m2 m1 h2 h1
    rw [hd, hr]
    refine (hmin b hb a ha).trans (le_of_eq ?_)
    rw [← norm2_neg, neg_sub, neg_sub]
  exact le_antisymm (key x1 x2 m1 m2 h1 h2) (key x2 x1 m2 m1 h2 h1)

/-- **C135.** The distance does not depend on the frame in which both states are given. -/
theorem C135_frame (φ a b : ℝ) (x1 x2 : X) (m1 m2 : M) (h1 : Solid (outline m1)) (h2 : Solid (outline m2)) :
    (getDist nearest (fun x => reframe φ a b (kin x)) outline x1 x2 m1 m2).1 =
      (getDist nearest kin outline x1 x2 m1 m2).1 := by
  have hp : ∀ s t p q, norm2 ((bodyPoint (reframe φ a b s) p).1 - (bodyPoint (reframe φ a b t) q).1)
      ((bodyPoint (reframe φ a b s) p).2 - (bodyPoint (reframe φ a b t) q).2) =
      norm2 ((bodyPoint s p).1 - (bodyPoint t q).1) ((bodyPoint s p).2 - (bodyPoint t q).2) := by
    intro s t p q
    rw [← Maps.norm2_rot (Real.cos φ) (Real.sin φ) ((bodyPoint s p).1 - (bodyPoint t q).1) _
      (by have := Real.sin_sq_add_cos_sq φ; linarith)]
    simp only [bodyPoint, reframe, Real.cos_add, Real.sin_add]
    congr 1 <;> ring
  obtain ⟨⟨c, hc, d, hd, e1⟩, f1, g1⟩ :=
    C135_distance law (fun x => reframe φ a b (kin x)) outline x1 x2 m1 m2 h1 h2
  obtain ⟨⟨c', hc', d', hd', e2⟩, f2, g2⟩ := C135_distance law kin outline x1 x2 m1 m2 h1 h2
  apply le_antisymm
  · rw [f2, e2]
    exact (g1 c' hc' d' hd').trans (le_of_eq (hp _ _ _ _))
  · rw [f1, e1]
    exact (g2 c hc d hd).trans (le_of_eq (hp _ _ _ _).symm)

omit law in
/-- A point of a body moves at most as far as the reference point and the arc of the turn. -/
theorem bodyPoint_moved {O : Set (ℝ × ℝ)} {R : ℝ} (hR : Within O R) {p : ℝ × ℝ} (hp : p ∈ O) (s s' : Kin) :
    norm2 ((bodyPoint s p).1 - (bodyPoint s' p).1) ((bodyPoint s p).2 - (bodyPoint s' p).2) ≤
      norm2 (s.x - s'.x) (s.y - s'.y) + R * |s.psi - s'.psi| := by
  have h := norm2_add_le (s.x - s'.x) (s.y - s'.y)
    ((Real.cos s.psi - Real.cos s'.psi) * p.1 - (Real.sin s.psi - Real.sin s'.psi) * p.2)
    ((Real.sin s.psi - Real.sin s'.psi) * p.1 + (Real.cos s.psi - Real.cos s'.psi) * p.2)
  have hturn : norm2 ((Real.cos s.psi - Real.cos s'.psi) * p.1 - (Real.sin s.psi - Real.sin s'.psi) * p.2)
      ((Real.sin s.psi - Real.sin s'.psi) * p.1 + (Real.cos s.psi - Real.cos s'.psi) * p.2) =
      norm2 (Real.cos s.psi - Real.cos s'.psi) (Real.sin s.psi - Real.sin s'.psi) * norm2 p.1 p.2 := by
    unfold norm2
    rw [← Real.sqrt_mul (by positivity)]
    congr 1
    ring
  rw [hturn] at h
  have hle : norm2 (Real.cos s.psi - Real.cos s'.psi) (Real.sin s.psi - Real.sin s'.psi) * norm2 p.1 p.2 ≤
      |s.psi - s'.psi| * R :=
    mul_le_mul (chord_le _ _) (hR p hp) (Maps.norm2_nonneg _ _) (abs_nonneg _)
  refine (le_of_eq ?_).trans (h.trans (by linarith))
  simp only [bodyPoint]
  congr 1 <;> ring

/-- **C135.** If the players move, the distance changes by no more than they move: the way of the reference point, and
the angle of the turn times the radius of the outline. -/
theorem C135_moved (x1 x2 y1 y2 : X) (m1 m2 : M) (h1 : Solid (outline m1)) (h2 : Solid (outline m2)) {R1 R2 : ℝ}
    (w1 : Within (outline m1) R1) (w2 : Within (outline m2) R2) :
    |(getDist nearest kin outline x1 x2 m1 m2).1 - (getDist nearest kin outline y1 y2 m1 m2).1| ≤
      (norm2 ((kin x1).x - (kin y1).x) ((kin x1).y - (kin y1).y) + R1 * |(kin x1).psi - (kin y1).psi|) +
      (norm2 ((kin x2).x - (kin y2).x) ((kin x2).y - (kin y2).y) + R2 * |(kin x2).psi - (kin y2).psi|) := by
  have key : ∀ x1 x2 y1 y2 : X,
      (getDist nearest kin outline x1 x2 m1 m2).1 - (getDist nearest kin outline y1 y2 m1 m2).1 ≤
      (norm2 ((kin x1).x - (kin y1).x) ((kin x1).y - (kin y1).y) + R1 * |(kin x1).psi - (kin y1).psi|) +
      (norm2 ((kin x2).x - (kin y2).x) ((kin x2).y - (kin y2).y) + R2 * |(kin x2).psi - (kin y2).psi|) := by
    intro x1 x2 y1 y2
    obtain ⟨-, -, g1⟩ := C135_distance law kin outline x1 x2 m1 m2 h1 h2
    obtain ⟨⟨c, hc, d, hd, e2⟩, f2, -⟩ := C135_distance law kin outline y1 y2 m1 m2 h1 h2
    have a := g1 c hc d hd
    have b1 := bodyPoint_moved w1 hc (kin x1) (kin y1)
    have b2 := bodyPoint_moved w2 hd (kin x2) (kin y2)
    rw [f2, e2]
    have t1 := norm2_add_le ((bodyPoint (kin x1) c).1 - (bodyPoint (kin y1) c).1)
      ((bodyPoint (kin x1) c).2 - (bodyPoint (kin y1) c).2)
      ((bodyPoint (kin y1) c).1 - (bodyPoint (kin y2) d).1 - ((bodyPoint (kin x2) d).1 - (bodyPoint (kin y2) d).1))
      ((bodyPoint (kin y1) c).2 - (bodyPoint (kin y2) d).2 - ((bodyPoint (kin x2) d).2 - (bodyPoint (kin y2) d).2))
    have t2 := norm2_add_le ((bodyPoint (kin y1) c).1 - (bodyPoint (kin y2) d).1)
      ((bodyPoint (kin y1) c).2 - (bodyPoint (kin y2) d).2)
      (-((bodyPoint (kin x2) d).1 - (bodyPoint (kin y2) d).1))
      (-((bodyPoint (kin x2) d).2 - (bodyPoint (kin y2) d).2))
    rw [norm2_neg, ← sub_eq_add_neg, ← sub_eq_add_neg] at t2
    have e : norm2 ((bodyPoint (kin x1) c).1 - (bodyPoint (kin x2) d).1)
        ((bodyPoint (kin x1) c).2 - (bodyPoint (kin x2) d).2) = norm2
        ((bodyPoint (kin x1) c).1 - (bodyPoint (kin y1) c).1 + ((bodyPoint (kin y1) c).1 - (bodyPoint (kin y2) d).1 -
          ((bodyPoint (kin x2) d).1 - (bodyPoint (kin y2) d).1)))
        ((bodyPoint (kin x1) c).2 - (bodyPoint (kin y1) c).2 + ((bodyPoint (kin y1) c).2 - (bodyPoint (kin y2) d).2 -
          ((bodyPoint (kin x2) d).2 - (bodyPoint (kin y2) d).2))) := by
      congr 1 <;> ring
    rw [e] at a
    simp only at *
    linarith
  rw [abs_le]
  constructor
  · have := key y1 y2 x1 x2
    rw [← norm2_neg, neg_sub, neg_sub, abs_sub_comm] at this
    have h2 := norm2_neg ((kin y2).x - (kin x2).x) ((kin y2).y - (kin x2).y)
    rw [neg_sub, neg_sub] at h2
    rw [← h2, abs_sub_comm (kin y2).psi] at this
    linarith
  · exact key x1 x2 y1 y2

end

/-! ## A function that meets the contract -/

theorem nearest_exists (A B : Set (ℝ × ℝ)) (hA : A.Nonempty) (hB : B.Nonempty) (cA : IsCompact A) (cB : IsCompact B) :
    ∃ r : (ℝ × ℝ) × (ℝ × ℝ), r.1 ∈ A ∧ r.2 ∈ B ∧ ∀ a ∈ A, ∀ b ∈ B,
      norm2 (r.1.1 - r.2.1) (r.1.2 - r.2.2) ≤ norm2 (a.1 - b.1) (a.2 - b.2) := by
  obtain ⟨r, hr, hmin⟩ := (cA.prod cB).exists_isMinOn (hA.prod hB) continuous_norm2.continuousOn
  exact ⟨r, hr.1, hr.2, fun a ha b hb => hmin (show (a, b) ∈ A ×ˢ B from ⟨ha, hb⟩)⟩

open Classical in
noncomputable def someNearest (A B : Set (ℝ × ℝ)) : (ℝ × ℝ) × (ℝ × ℝ) :=
  if h : A.Nonempty ∧ B.Nonempty ∧ IsCompact A ∧ IsCompact B then
    (nearest_exists A B h.1 h.2.1 h.2.2.1 h.2.2.2).choose
  else ((0, 0), (0, 0))

theorem someNearest_law : NearestLaw someNearest := by
  intro A B hA hB cA cB
  unfold someNearest
  rw [dif_pos ⟨hA, hB, cA, cB⟩]
  exact (nearest_exists A B hA hB cA cB).choose_spec

/-! ## Examples and the smallest distance in a log -/

theorem box_solid {x y l w : ℝ} (hl : 0 ≤ l) (hw : 0 ≤ w) : Solid (box x y l w) := by
  refine ⟨⟨(x, y), by simp [box, hl, hw]⟩, ?_⟩
  have : box x y l w = Set.Icc (x - l) (x + l) ×ˢ Set.Icc (y - w) (y + w) := by
    ext q
    simp only [box, Set.mem_setOf_eq, Set.mem_prod, Set.mem_Icc, abs_le]
    constructor
    · rintro ⟨⟨a, b⟩, c, d⟩
      exact ⟨⟨by linarith, by linarith⟩, by linarith, by linarith⟩
    · rintro ⟨⟨a, b⟩, c, d⟩
      exact ⟨⟨by linarith, by linarith⟩, by linarith, by linarith⟩
  rw [this]
  exact isCompact_Icc.prod isCompact_Icc

theorem box_within {l w R : ℝ} (hR : 0 ≤ R) (h : l ^ 2 + w ^ 2 ≤ R ^ 2) : Within (box 0 0 l w) R := by
  rintro p ⟨h1, h2⟩
  rw [sub_zero] at h1 h2
  unfold norm2
  rw [← Real.sqrt_sq hR]
  apply Real.sqrt_le_sqrt
  have := sq_le_sq' (by linarith [neg_abs_le p.1]) (le_of_abs_le h1)
  have := sq_le_sq' (by linarith [neg_abs_le p.2]) (le_of_abs_le h2)
  linarith

/-- Two cars of 5 m and 2 m, one ahead of the other: they do not touch. -/
example : (getDist someNearest (fun s : Kin => s) (fun _ : Unit => box 0 0 2.5 1) ⟨0, 0, 0, 10⟩ ⟨9, 1, 0, 5⟩ () ()).1 ≠ 0 := by
  rw [Ne, C135_zero someNearest_law (fun s : Kin => s) (fun _ : Unit => box 0 0 2.5 1) _ _ () ()
    (box_solid (by norm_num) (by norm_num)) (box_solid (by norm_num) (by norm_num))]
  rintro ⟨a, ⟨ha, -⟩, b, ⟨hb, -⟩, hab⟩
  have := congrArg Prod.fst hab
  simp [bodyPoint] at this
  rw [sub_zero, abs_le] at ha hb
  linarith [ha.2, hb.1]

section
variable {N : Type} [DecidableEq N] {Wd : Sim.World N ℝ} [AddCommGroup Wd.X] [Module ℝ Wd.X]

/-- **C135.** The smallest distance in a log is taken at the logged times. In between, the players may be nearer to each
other, but by no more than they can have moved since: their speeds, and their yaw rates times the radius of the outline,
times the time since a logged instant. -/
theorem C135_between_partial {M G : Type} {nearest : Set (ℝ × ℝ) → Set (ℝ × ℝ) → (ℝ × ℝ) × (ℝ × ℝ)}
    (law : NearestLaw nearest) (kin : Wd.X → Kin) (outline : M → Set (ℝ × ℝ)) (D : G → Wd.X → Bool)
    (logs : Dict N (Sim.PlayerLog Wd)) (models : Dict N M) (missions : Dict N G) (mo : N → M) (go : N → G)
    (ego : N) (lo hi : Option ℝ) (l : Sim.PlayerLog Wd) (hl : Dict.get? logs ego = some l)
    (hv : l.states.Valid) (snap : ℝ → Dict N Wd.X)
    (hsnap : ∀ t ∈ l.states.ts, InRange lo hi t → statesAt logs t = .ok (snap t))
    (hwf : ∀ t, Dict.Wf (snap t))
    (hm : ∀ t, ∀ e ∈ snap t, Dict.get? models e.1 = some (mo e.1))
    (hg : ∀ t, ∀ e ∈ snap t, Dict.get? missions e.1 = some (go e.1))
    (hO : ∀ n, Solid (outline (mo n))) (R : N → ℝ) (hR : ∀ n, Within (outline (mo n)) (R n))
    -- the motion of the players, and bounds of their speeds and yaw rates
    (way : N → ℝ → Kin) (v w : N → ℝ)
    (hway : ∀ t ∈ l.states.ts, InRange lo hi t → ∀ e ∈ snap t, kin e.2 = way e.1 t)
    (hspeed : ∀ n t t', norm2 ((way n t).x - (way n t').x) ((way n t).y - (way n t').y) ≤ v n * |t - t'|)
    (hyaw : ∀ n t t', |(way n t).psi - (way n t').psi| ≤ w n * |t - t'|)
    {d : ℝ} {n : N} {t : ℝ}
    (hres : getMinDist (fun x1 x2 m1 m2 => (getDist nearest kin outline x1 x2 m1 m2).1) (fun g x => .ok (D g x))
      logs models missions ego lo hi = .ok (some d, some n, some t))
    -- a logged time at which the ego and another player are active, and any other time
    {t' : ℝ} (ht' : t' ∈ l.states.ts) (hr' : InRange lo hi t') {n' : N} (hn' : n' ≠ ego) {xe x : Wd.X}
    (he : (ego, xe) ∈ snap t') (hx : (n', x) ∈ snap t') (hDe : D (go ego) xe = false) (hDx : D (go n') x = false)
    (τ : ℝ) {a b : ℝ × ℝ} (ha : a ∈ outline (mo ego)) (hb : b ∈ outline (mo n')) :
    d - ((v ego + R ego * w ego) + (v n' + R n' * w n')) * |τ - t'| ≤
      norm2 ((bodyPoint (way ego τ) a).1 - (bodyPoint (way n' τ) b).1)
        ((bodyPoint (way ego τ) a).2 - (bodyPoint (way n' τ) b).2) := by
  have hR0 : ∀ n, 0 ≤ R n := by
    intro n
    obtain ⟨p, hp⟩ := (hO n).1
    exact (Maps.norm2_nonneg _ _).trans (hR n p hp)
  obtain ⟨r, h1, h2⟩ := C65_min_dist (fun x1 x2 m1 m2 => (getDist nearest kin outline x1 x2 m1 m2).1) D logs models
    missions mo go ego lo hi l hl hv snap hsnap hwf hm hg
  rw [hres] at h1
  injection h1 with h1
  subst h1
  rcases h2 with ⟨h, -⟩ | ⟨t0, n0, d0, h, -, hmin⟩
  · cases h
  · simp only [Prod.mk.injEq, Option.some.injEq] at h
    obtain ⟨rfl, rfl, rfl⟩ := h
    have hd : d ≤ (getDist nearest (fun s : Kin => s) outline (kin xe) (kin x) (mo ego) (mo n')).1 :=
      (hmin t' n' _ ⟨ht', hr', xe, x, he, hx, hn', hDe, hDx, rfl⟩).1
    have hmove := C135_moved law (fun s : Kin => s) outline (kin xe) (kin x) (way ego τ) (way n' τ) (mo ego) (mo n')
      (hO _) (hO _) (hR _) (hR _)
    obtain ⟨-, -, g⟩ := C135_distance law (fun s : Kin => s) outline (way ego τ) (way n' τ) (mo ego) (mo n') (hO _) (hO _)
    have hg' := g a ha b hb
    have e1 := hway t' ht' hr' _ he
    have e2 := hway t' ht' hr' _ hx
    simp only at e1 e2 hg'
    have b1 := hspeed ego t' τ
    have b2 := hspeed n' t' τ
    have b3 := mul_le_mul_of_nonneg_left (hyaw ego t' τ) (hR0 ego)
    have b4 := mul_le_mul_of_nonneg_left (hyaw n' t' τ) (hR0 n')
    rw [abs_sub_comm t' τ] at b1 b2 b3 b4
    have hlow := (abs_le.mp hmove).2
    rw [e1, e2] at hlow hd
    linarith

end

/-! ## What is missed between the logged times -/

/-- Cars on a line, given by the position of their center. -/
noncomputable def lineWd : Sim.World Nat ℝ where
  W := Unit
  M := ℝ
  X := ℝ
  P := ℝ
  C := Unit
  I := Unit
  E := Unit
  O := Unit
  D := Unit
  G := Unit
  getState m := m
  footprint m := m
  isDyn _ := false
  onInit w _ := .ok w
  sense w _ o := .ok (w, o)
  getCommands w _ _ := .ok (w, (), ())
  getExtra w _ := .ok (w, none)
  update w _ m _ _ := .ok (w, m)
  fulfilled w _ _ _ _ := .ok (w, false)
  envQuery _ _ := []
  env := 99
  resolveEnv w _ m _ _ := ((w, m), .ok none)
  touch _ _ := false
  resolve w _ m₁ _ m₂ _ := ((w, m₁, m₂), .ok none)

noncomputable instance : AddCommGroup lineWd.X := inferInstanceAs (AddCommGroup ℝ)
noncomputable instance : Module ℝ lineWd.X := inferInstanceAs (Module ℝ ℝ)

/-- A log with two samples, at 0 s and 1 s. -/
noncomputable def lineLog (x y : ℝ) : Sim.PlayerLog lineWd := ⟨⟨[0, 1], [x, y]⟩, ⟨[0], [()]⟩, ⟨[], []⟩, ⟨[0], [()]⟩⟩

theorem lineLog_valid (x y : ℝ) : (lineLog x y).Valid := by
  refine ⟨⟨rfl, ?_⟩, ⟨rfl, ?_⟩, ⟨rfl, ?_⟩, ⟨rfl, ?_⟩⟩ <;> simp [lineLog]

theorem lineLog_at (x y t : ℝ) (h0 : 0 ≤ t) (h1 : t ≤ 1) (z : ℝ) (hz : z = x + t * (y - x)) :
    Sim.IsEntry (lineLog x y) t ⟨z, (), none, ()⟩ := by
  refine ⟨Or.inr (Or.inr ⟨[], [], 0, 1, x, y, rfl, h0, h1, ?_⟩), ⟨0, ?_, h0, ?_⟩, ⟨0, ?_, h0, ?_⟩, Or.inr ⟨rfl, ?_⟩⟩
  · show z = x + ((t - 0) / (1 - 0)) * (y - x)
    rw [hz]
    ring
  · exact List.Mem.head _
  · intro p hp _
    rcases List.mem_cons.mp hp with rfl | hp
    · exact le_rfl
    · cases hp
  · exact List.Mem.head _
  · intro p hp _
    rcases List.mem_cons.mp hp with rfl | hp
    · exact le_rfl
    · cases hp
  · intro u hu
    cases hu

/-- The states of two such cars. -/
theorem line_states (x y u v t : ℝ) (h0 : 0 ≤ t) (h1 : t ≤ 1) (z w : ℝ) (hz : z = x + t * (y - x))
    (hw : w = u + t * (v - u)) :
    statesAt (Wd := lineWd) [(0, lineLog x y), (1, lineLog u v)] t = .ok [(0, z), (1, w)] := by
  have := (Sim.C29_at_interp (Wd := lineWd) [(0, lineLog x y), (1, lineLog u v)] t
    [(0, ⟨z, (), none, ()⟩), (1, ⟨w, (), none, ()⟩)] (by
      intro p hp
      simp only [List.mem_cons, List.not_mem_nil, or_false] at hp
      rcases hp with rfl | rfl <;> exact lineLog_valid _ _)).mpr
    (.cons ⟨rfl, lineLog_at x y t h0 h1 z hz⟩ (.cons ⟨rfl, lineLog_at u v t h0 h1 w hw⟩ .nil))
  unfold statesAt
  rw [this]
  rfl

/-- **C135 fails between the logged times.** A car passes through another one that stands: at both logged times it is
away from it, and the smallest distance in the log is positive, though the states of the log half way between touch. -/
theorem C135_false_between :
    let kin : ℝ → Kin := fun x => ⟨x, 0, 0, 0⟩
    let car : Unit → Set (ℝ × ℝ) := fun _ => box 0 0 2.5 1
    let logs : Dict Nat (Sim.PlayerLog lineWd) := [(0, lineLog 0 0), (1, lineLog (-10) 10)]
    (∃ d n t, 0 < d ∧ getMinDist (Wd := lineWd) (fun (x1 x2 : ℝ) m1 m2 => (getDist someNearest kin car x1 x2 m1 m2).1)
        (fun (_ : Unit) _ => .ok false) logs [(0, ()), (1, ())] [(0, ()), (1, ())] 0 none none =
          .ok (some d, some n, some t)) ∧
      ∃ x1 x2 : ℝ, statesAt (Wd := lineWd) logs (1 / 2) = .ok [(0, x1), (1, x2)] ∧
        (getDist someNearest kin car x1 x2 () ()).1 = 0 := by
  intro kin car logs
  have hcar : ∀ m, Solid (car m) := fun _ => box_solid (by norm_num) (by norm_num)
  have hin : ∀ m, ((0 : ℝ), (0 : ℝ)) ∈ car m := by
    intro m
    constructor <;> norm_num
  have hsnap : ∀ t ∈ (lineLog 0 0).states.ts, InRange none none t →
      statesAt (Wd := lineWd) logs t = .ok [(0, (0 : ℝ)), (1, (-10 + t * 20 : ℝ))] := by
    intro t ht _
    have ht' : t = 0 ∨ t = 1 := by simpa [lineLog] using ht
    exact line_states _ _ _ _ t (by rcases ht' with rfl | rfl <;> norm_num) (by rcases ht' with rfl | rfl <;> norm_num)
      _ _ (by ring) (by ring)
  have hget : ∀ n : Nat, n = 0 ∨ n = 1 → Dict.get? [(0, ()), (1, ())] n = some () := by
    rintro n (rfl | rfl) <;> rfl
  have hmem : ∀ t : ℝ, ∀ e ∈ ([(0, (0 : ℝ)), (1, (-10 + t * 20 : ℝ))] : Dict Nat ℝ), e.1 = 0 ∨ e.1 = 1 := by
    intro t e he
    simp only [List.mem_cons, List.not_mem_nil, or_false] at he
    rcases he with rfl | rfl <;> simp
  constructor
  · obtain ⟨r, h1, h2⟩ := C65_min_dist (Wd := lineWd) (M := Unit) (G := Unit)
      (fun (x1 x2 : ℝ) m1 m2 => (getDist someNearest kin car x1 x2 m1 m2).1) (fun _ _ => false) logs
      [(0, ()), (1, ())] [(0, ()), (1, ())] (fun _ => ()) (fun _ => ()) 0 none none (lineLog 0 0) rfl
      (lineLog_valid 0 0).1 (fun t => [(0, (0 : ℝ)), (1, (-10 + t * 20 : ℝ))]) hsnap
      (by intro t; simp [Dict.Wf, Dict.keys])
      (fun t e he => hget _ (hmem t e he)) (fun t e he => hget _ (hmem t e he))
    rcases h2 with ⟨_, hno⟩ | ⟨t, n, d, rfl, hS, -⟩
    · refine absurd ?_ (hno 0 1 (getDist someNearest kin car 0 (-10 + 0 * 20) () ()).1)
      refine ⟨by simp [lineLog], ⟨by simp, by simp⟩, (0 : ℝ), (-10 + 0 * 20 : ℝ), ?_, ?_, by decide, rfl, rfl, rfl⟩ <;> simp
    · refine ⟨d, n, t, ?_, h1⟩
      obtain ⟨ht, -, xe, x, he, hx, hn, -, -, hd⟩ := hS
      have ht' : t = 0 ∨ t = 1 := by simpa [lineLog] using ht
      have hxe : xe = (0 : ℝ) := by
        rcases List.mem_cons.mp he with he | he
        · exact (Prod.mk.inj he).2
        · rcases List.mem_cons.mp he with he | he
          · exact absurd (Prod.mk.inj he).1 (by decide)
          · cases he
      have hx' : x = (-10 + t * 20 : ℝ) := by
        rcases List.mem_cons.mp hx with hx | hx
        · exact absurd (Prod.mk.inj hx).1 hn
        · rcases List.mem_cons.mp hx with hx | hx
          · exact (Prod.mk.inj hx).2
          · cases hx
      subst hxe hx'
      have h0 : d ≠ 0 := by
        rw [hd, Ne, C135_zero someNearest_law kin car (0 : ℝ) (-10 + t * 20 : ℝ) () () (hcar ()) (hcar ())]
        rintro ⟨a, ⟨ha, -⟩, b, ⟨hb, -⟩, hab⟩
        have := congrArg Prod.fst hab
        simp [bodyPoint, kin] at this
        rw [sub_zero, abs_le] at ha hb
        rcases ht' with rfl | rfl <;> linarith [ha.1, ha.2, hb.1, hb.2]
      refine lt_of_le_of_ne ?_ h0.symm
      rw [hd]
      exact Maps.norm2_nonneg _ _
  · refine ⟨0, 0, line_states _ _ _ _ _ (by norm_num) (by norm_num) _ _ (by ring) (by ring), ?_⟩
    rw [C135_zero someNearest_law kin car _ _ () () (hcar ()) (hcar ())]
    exact ⟨(0, 0), hin (), (0, 0), hin (), rfl⟩

/-- The hypotheses of `C135_between_partial` hold for these cars, whose speeds are 0 and 20 m/s: as they touch after half
a second, the smallest distance of the log is at most 10 m. -/
example (d : ℝ) (n : Nat) (t : ℝ) (hres : getMinDist (Wd := lineWd)
    (fun (x1 x2 : ℝ) m1 m2 => (getDist someNearest (fun x : ℝ => (⟨x, 0, 0, 0⟩ : Kin)) (fun _ : Unit => box 0 0 2.5 1)
      x1 x2 m1 m2).1) (fun (_ : Unit) _ => .ok false) [(0, lineLog 0 0), (1, lineLog (-10) 10)]
    [(0, ()), (1, ())] [(0, ()), (1, ())] 0 none none = .ok (some d, some n, some t)) : d ≤ 10 := by
  have hget : ∀ n : Nat, n = 0 ∨ n = 1 → Dict.get? [(0, ()), (1, ())] n = some () := by
    rintro n (rfl | rfl) <;> rfl
  have hmem : ∀ t : ℝ, ∀ e ∈ ([(0, (0 : ℝ)), (1, (-10 + t * 20 : ℝ))] : Dict Nat ℝ), e.1 = 0 ∨ e.1 = 1 := by
    intro t e he
    simp only [List.mem_cons, List.not_mem_nil, or_false] at he
    rcases he with rfl | rfl <;> simp
  have hin : ((0 : ℝ), (0 : ℝ)) ∈ box 0 0 2.5 1 := by constructor <;> norm_num
  have h := C135_between_partial (Wd := lineWd) (M := Unit) (G := Unit) someNearest_law
    (fun x : ℝ => (⟨x, 0, 0, 0⟩ : Kin)) (fun _ : Unit => box 0 0 2.5 1) (fun _ _ => false)
    [(0, lineLog 0 0), (1, lineLog (-10) 10)] [(0, ()), (1, ())] [(0, ()), (1, ())] (fun _ => ()) (fun _ => ()) 0
    none none (lineLog 0 0) rfl (lineLog_valid 0 0).1 (fun t => [(0, (0 : ℝ)), (1, (-10 + t * 20 : ℝ))])
    (by
      intro t ht _
      have ht' : t = 0 ∨ t = 1 := by simpa [lineLog] using ht
      exact line_states _ _ _ _ t (by rcases ht' with rfl | rfl <;> norm_num)
        (by rcases ht' with rfl | rfl <;> norm_num) _ _ (by ring) (by ring))
    (by intro t; simp [Dict.Wf, Dict.keys])
    (fun t e he => hget _ (hmem t e he)) (fun t e he => hget _ (hmem t e he))
    (fun _ => box_solid (by norm_num) (by norm_num)) (fun _ => 3) (fun _ => box_within (by norm_num) (by norm_num))
    (fun n t => ⟨if n = 1 then -10 + t * 20 else 0, 0, 0, 0⟩) (fun n => if n = 1 then 20 else 0) (fun _ => 0)
    (by
      intro t _ _ e he
      rcases List.mem_cons.mp he with rfl | he
      · rfl
      · rcases List.mem_cons.mp he with rfl | he
        · rfl
        · cases he)
    (by
      intro n t t'
      by_cases h : n = 1
      · simp only [h, if_true, sub_self]
        rw [show (-10 + t * 20 - (-10 + t' * 20) : ℝ) = 20 * (t - t') by ring]
        unfold norm2
        rw [show (20 * (t - t')) ^ 2 + 0 ^ 2 = (20 * |t - t'|) ^ 2 by rw [mul_pow, mul_pow, sq_abs]; ring,
          Real.sqrt_sq (by positivity)]
      · simp only [h, if_false, sub_self, norm2_zero, zero_mul, le_refl])
    (by intro n t t'; simp) hres (t' := 0) (by simp [lineLog]) ⟨by simp, by simp⟩ (n' := 1) (by decide)
    (xe := (0 : ℝ)) (x := (-10 + 0 * 20 : ℝ)) (List.Mem.head _) (List.Mem.tail _ (List.Mem.head _)) rfl rfl (1 / 2)
    hin hin
  simp [bodyPoint] at h
  rw [show (-((2 : ℝ)⁻¹ * 20) + 10) = 0 by norm_num, norm2_zero] at h
  linarith

end Eval
end Verif
