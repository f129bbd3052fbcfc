import Verif.Coll.ImpulseFloat
import Verif.Coll.ImpulseProps
import Verif.Seq.FloatRel

/-!
# Impulses in floating point (C144)
-/

namespace Verif
namespace Coll

variable {r : ℚ → ℚ}

/-! ## Specification -/

/-- Specification: what is known of `np.dot`: two roundings at most (with or without fused operations). -/
def DotLaw (D : ℚ × ℚ → ℚ × ℚ → ℚ) : Prop := ∀ u v, Rel 2 (D u v) (dot u v) (|u.1 * v.1| + |u.2 * v.2|)

/-- Specification: finite masses and inertias are positive. -/
def Positive (g : Geom ℚ) : Prop := (∀ m, g.m = some m → 0 < m) ∧ (∀ I, g.Iz = some I → 0 < I)

theorem dot_separate (hr : RoundLaws r) : DotLaw (fun u v => r (r (u.1 * v.1) + r (u.2 * v.2))) := by
  intro u v
  exact ((((Rel.self _).round hr).add ((Rel.self _).round hr)).round hr)

theorem dot_fused (hr : RoundLaws r) : DotLaw (fun u v => r (u.1 * v.1 + r (u.2 * v.2))) := by
  intro u v
  exact ((((Rel.self _).mono (by norm_num)).add ((Rel.self _).round hr)).round hr)

theorem divF_nonneg (hr : RoundLaws r) {x : ℚ} (hx : 0 ≤ x) (m : Option ℚ) (hm : ∀ k, m = some k → 0 < k) :
    0 ≤ divF r x m := by
  cases m with
  | none => exact le_rfl
  | some k => exact hr.nonneg (div_nonneg hx (hm k rfl).le)

/-! ## C144 -/

/-- **C144.** When one of the bodies has a finite mass, the division by the denominator is possible: it is positive. -/
theorem C144_total (hr : RoundLaws r) (n rA rB : ℚ × ℚ) (ga gb : Geom ℚ) (ha : Positive ga) (hb : Positive gb)
    (hm : ga.m ≠ none ∨ gb.m ≠ none) : 0 < impulseDenF r n rA rB ga gb := by
  have h1 : 0 ≤ r (divF r (r (crossF r rA n ^ 2)) ga.Iz + divF r (r (crossF r rB n ^ 2)) gb.Iz) :=
    hr.nonneg (add_nonneg (divF_nonneg hr (hr.nonneg (sq_nonneg _)) _ ha.2) (divF_nonneg hr (hr.nonneg (sq_nonneg _)) _ hb.2))
  have h2 : 0 < divF r 1 ga.m + divF r 1 gb.m := by
    have pa := divF_nonneg hr zero_le_one ga.m ha.1
    have pb := divF_nonneg hr zero_le_one gb.m hb.1
    rcases hm with h | h
    · obtain ⟨k, hk⟩ := Option.ne_none_iff_exists'.mp h
      have : 0 < divF r 1 ga.m := by rw [hk]; exact hr.pos (by have := ha.1 k hk; positivity)
      linarith
    · obtain ⟨k, hk⟩ := Option.ne_none_iff_exists'.mp h
      have : 0 < divF r 1 gb.m := by rw [hk]; exact hr.pos (by have := hb.1 k hk; positivity)
      linarith
  exact hr.pos (by have := hr.pos h2; linarith)

/-- **C144.** Bodies that are not separating (as the code tests it, in floats) are never pulled towards each other: the
impulse along the normal is not positive. -/
theorem C144_sign (hr : RoundLaws r) (D : ℚ × ℚ → ℚ × ℚ → ℚ) (n rel rA rB : ℚ × ℚ) (ga gb : Geom ℚ) (ha : Positive ga)
    (hb : Positive gb) (he : 0 ≤ ga.e ∧ 0 ≤ gb.e) (hm : ga.m ≠ none ∨ gb.m ≠ none) (hd : ¬ D rel n < 0) :
    impulseF r D n rel rA rB ga gb ≤ 0 := by
  have h0 := C144_total hr n rA rB ga gb ha hb hm
  refine hr.nonpos (div_nonpos_of_nonpos_of_nonneg (hr.nonpos ?_) h0.le)
  rw [neg_mul]
  have : 0 ≤ r (1 + min ga.e gb.e) := hr.nonneg (by have := le_min he.1 he.2; linarith)
  have := mul_nonneg this (not_lt.mp hd)
  linarith

theorem push_neg (hodd : ∀ x, r (-x) = -r x) (j : ℚ) (n : ℚ × ℚ) :
    push r j (-n.1, -n.2) = (-(push r j n).1, -(push r j n).2) := by
  simp [push, mul_neg, hodd]

/-- One component of the momentum of one body. -/
theorem momentum_near (hr : RoundLaws r) (v q m : ℚ) (hm : 0 < m) :
    |m * r (v + r (q / m)) - (m * v + q)| ≤ (m * |v| + |q|) / 2 ^ 51 := by
  have h := ((((Rel.self v).mono (show 0 ≤ 1 by norm_num)).add (((Rel.self q).divc m).round hr)).round hr).bound
    (by norm_num)
  have e : m * r (v + r (q / m)) - (m * v + q) = m * (r (v + r (q / m)) - (v + q / m)) := by field_simp
  rw [e, abs_mul, abs_of_pos hm]
  refine (mul_le_mul_of_nonneg_left h hm.le).trans (le_of_eq ?_)
  rw [abs_of_pos hm]
  push_cast
  field_simp

/-- **C144.** The total momentum is conserved up to rounding: whatever the impulse that was computed, each component of
the momentum of both bodies together changes by at most `2⁻⁵¹` of the momenta and impulses that take part. -/
theorem C144_momentum (hr : RoundLaws r) (hodd : ∀ x, r (-x) = -r x) (j : ℚ) (n va vb : ℚ × ℚ) (ma mb : ℚ) (ha : 0 < ma)
    (hb : 0 < mb) :
    let va' := velocityAfterF r n va (some ma) j
    let vb' := velocityAfterF r (-n.1, -n.2) vb (some mb) j
    |(ma * va'.1 + mb * vb'.1) - (ma * va.1 + mb * vb.1)| ≤
        (ma * |va.1| + mb * |vb.1| + 2 * |(push r j n).1|) / 2 ^ 51 ∧
      |(ma * va'.2 + mb * vb'.2) - (ma * va.2 + mb * vb.2)| ≤
        (ma * |va.2| + mb * |vb.2| + 2 * |(push r j n).2|) / 2 ^ 51 := by
  intro va' vb'
  set q := push r j n with hq
  have key : ∀ v w p : ℚ, |(ma * r (v + r (p / ma)) + mb * r (w + r (-p / mb))) - (ma * v + mb * w)| ≤
      (ma * |v| + mb * |w| + 2 * |p|) / 2 ^ 51 := by
    intro v w p
    have h1 := momentum_near hr v p ma ha
    have h2 := momentum_near hr w (-p) mb hb
    rw [abs_neg] at h2
    have e : (ma * r (v + r (p / ma)) + mb * r (w + r (-p / mb))) - (ma * v + mb * w) =
        (ma * r (v + r (p / ma)) - (ma * v + p)) + (mb * r (w + r (-p / mb)) - (mb * w + -p)) := by ring
    rw [e]
    refine (abs_add_le _ _).trans ((add_le_add h1 h2).trans (le_of_eq ?_))
    ring
  have ea : va' = (r (va.1 + r (q.1 / ma)), r (va.2 + r (q.2 / ma))) := rfl
  have eb : vb' = (r (vb.1 + r (-q.1 / mb)), r (vb.2 + r (-q.2 / mb))) := by
    show velocityAfterF r (-n.1, -n.2) vb (some mb) j = _
    simp only [velocityAfterF, push_neg hodd, divF, hq]
  rw [ea, eb]
  exact ⟨key _ _ _, key _ _ _⟩

/-- One body: the change of its angular momentum about its centre. -/
theorem spin_near (hr : RoundLaws r) (arm q : ℚ × ℚ) (w I : ℚ) (hI : 0 < I) :
    |I * r (w + r (crossF r arm q / I)) - (I * w + cross arm q)| ≤
      (I * |w| + (|arm.1 * q.2| + |arm.2 * q.1|)) / 2 ^ 50 := by
  have hc : Rel 2 (crossF r arm q) (cross arm q) (|arm.1 * q.2| + |arm.2 * q.1|) :=
    (((Rel.self _).round hr).sub ((Rel.self _).round hr)).round hr
  have h := ((((Rel.self w).mono (show 0 ≤ 3 by norm_num)).add ((hc.divc I).round hr)).round hr).bound (by norm_num)
  have e : I * r (w + r (crossF r arm q / I)) - (I * w + cross arm q) =
      I * (r (w + r (crossF r arm q / I)) - (w + cross arm q / I)) := by field_simp
  rw [e, abs_mul, abs_of_pos hI]
  refine (mul_le_mul_of_nonneg_left h hI.le).trans (le_of_eq ?_)
  rw [abs_of_pos hI]
  push_cast
  field_simp
  norm_num

/-- Specification: the magnitudes that take part in the angular momentum of a body that is hit at `p` with impulse `q`. -/
def angularSize (b : Body ℚ) (p q : ℚ × ℚ) : ℚ :=
  |b.pos.1| * (b.m * |b.vel.2| + |q.2|) + |b.pos.2| * (b.m * |b.vel.1| + |q.1|) + b.I * |b.omega| +
    2 * (|p.1 - b.pos.1| * |q.2| + |p.2 - b.pos.2| * |q.1|)

/-- The rounded vector from the centre of a body to a point, collision.py:54-55. -/
def armF (r : ℚ → ℚ) (b : Body ℚ) (p : ℚ × ℚ) : ℚ × ℚ := (r (p.1 - b.pos.1), r (p.2 - b.pos.2))

/-- What the collision code makes of a body, rounded (collision.py:93-98). -/
def Body.hitF (r : ℚ → ℚ) (b : Body ℚ) (p n : ℚ × ℚ) (j : ℚ) : Body ℚ :=
  { b with
    vel := velocityAfterF r n b.vel (some b.m) j
    omega := omegaAfterF r (armF r b p) n b.omega (some b.I) j }

theorem hitF_angular (hr : RoundLaws r) (b : Body ℚ) (hm : 0 < b.m) (hI : 0 < b.I) (p n : ℚ × ℚ) (j : ℚ) :
    |(b.hitF r p n j).angular (0, 0) - (b.angular (0, 0) + cross p (push r j n))| ≤
      angularSize b p (push r j n) / 2 ^ 50 := by
  set q := push r j n with hq
  have h1 := momentum_near hr b.vel.1 q.1 b.m hm
  have h2 := momentum_near hr b.vel.2 q.2 b.m hm
  have h3 := spin_near hr (armF r b p) q b.omega b.I hI
  have a1 := hr.near (p.1 - b.pos.1)
  have a2 := hr.near (p.2 - b.pos.2)
  set A1 := r (p.1 - b.pos.1) with hA1
  set A2 := r (p.2 - b.pos.2) with hA2
  have e : (b.hitF r p n j).angular (0, 0) - (b.angular (0, 0) + cross p q) =
      b.pos.1 * (b.m * r (b.vel.2 + r (q.2 / b.m)) - (b.m * b.vel.2 + q.2)) -
      b.pos.2 * (b.m * r (b.vel.1 + r (q.1 / b.m)) - (b.m * b.vel.1 + q.1)) +
      (b.I * r (b.omega + r (crossF r (armF r b p) q / b.I)) - (b.I * b.omega + cross (armF r b p) q)) +
      ((A1 - (p.1 - b.pos.1)) * q.2 - (A2 - (p.2 - b.pos.2)) * q.1) := by
    simp only [Body.angular, Body.hitF, velocityAfterF, omegaAfterF, divF, cross, armF, ← hq, ← hA1, ← hA2]
    ring
  rw [e]
  have b1 : |b.pos.1 * (b.m * r (b.vel.2 + r (q.2 / b.m)) - (b.m * b.vel.2 + q.2))| ≤
      |b.pos.1| * ((b.m * |b.vel.2| + |q.2|) / 2 ^ 51) := by
    rw [abs_mul]; exact mul_le_mul_of_nonneg_left h2 (abs_nonneg _)
  have b2 : |b.pos.2 * (b.m * r (b.vel.1 + r (q.1 / b.m)) - (b.m * b.vel.1 + q.1))| ≤
      |b.pos.2| * ((b.m * |b.vel.1| + |q.1|) / 2 ^ 51) := by
    rw [abs_mul]; exact mul_le_mul_of_nonneg_left h1 (abs_nonneg _)
  have c1 : |(A1 - (p.1 - b.pos.1)) * q.2| ≤ |p.1 - b.pos.1| * |q.2| * (1 / 9007199254740992) := by
    rw [abs_mul]
    refine (mul_le_mul_of_nonneg_right a1 (abs_nonneg _)).trans (le_of_eq (by ring))
  have c2 : |(A2 - (p.2 - b.pos.2)) * q.1| ≤ |p.2 - b.pos.2| * |q.1| * (1 / 9007199254740992) := by
    rw [abs_mul]
    refine (mul_le_mul_of_nonneg_right a2 (abs_nonneg _)).trans (le_of_eq (by ring))
  have d1 : |A1 * q.2| ≤ |p.1 - b.pos.1| * |q.2| * (1 + 1 / 9007199254740992) := by
    have : A1 * q.2 = (p.1 - b.pos.1) * q.2 + (A1 - (p.1 - b.pos.1)) * q.2 := by ring
    rw [this]
    refine (abs_add_le _ _).trans ?_
    rw [abs_mul (p.1 - b.pos.1)]
    linarith
  have d2 : |A2 * q.1| ≤ |p.2 - b.pos.2| * |q.1| * (1 + 1 / 9007199254740992) := by
    have : A2 * q.1 = (p.2 - b.pos.2) * q.1 + (A2 - (p.2 - b.pos.2)) * q.1 := by ring
    rw [this]
    refine (abs_add_le _ _).trans ?_
    rw [abs_mul (p.2 - b.pos.2)]
    linarith
  have h3' : |b.I * r (b.omega + r (crossF r (armF r b p) q / b.I)) - (b.I * b.omega + cross (armF r b p) q)| ≤
      (b.I * |b.omega| + (|A1 * q.2| + |A2 * q.1|)) / 2 ^ 50 := h3
  have x1 : 0 ≤ |p.1 - b.pos.1| * |q.2| := by positivity
  have x2 : 0 ≤ |p.2 - b.pos.2| * |q.1| := by positivity
  have x3 : 0 ≤ |b.pos.1| * (b.m * |b.vel.2| + |q.2|) := by positivity
  have x4 : 0 ≤ |b.pos.2| * (b.m * |b.vel.1| + |q.1|) := by positivity
  have t1 := abs_add_le (b.pos.1 * (b.m * r (b.vel.2 + r (q.2 / b.m)) - (b.m * b.vel.2 + q.2)) -
      b.pos.2 * (b.m * r (b.vel.1 + r (q.1 / b.m)) - (b.m * b.vel.1 + q.1)) +
      (b.I * r (b.omega + r (crossF r (armF r b p) q / b.I)) - (b.I * b.omega + cross (armF r b p) q)))
      ((A1 - (p.1 - b.pos.1)) * q.2 - (A2 - (p.2 - b.pos.2)) * q.1)
  have t2 := abs_add_le (b.pos.1 * (b.m * r (b.vel.2 + r (q.2 / b.m)) - (b.m * b.vel.2 + q.2)) -
      b.pos.2 * (b.m * r (b.vel.1 + r (q.1 / b.m)) - (b.m * b.vel.1 + q.1)))
      (b.I * r (b.omega + r (crossF r (armF r b p) q / b.I)) - (b.I * b.omega + cross (armF r b p) q))
  have t3 := abs_sub (b.pos.1 * (b.m * r (b.vel.2 + r (q.2 / b.m)) - (b.m * b.vel.2 + q.2)))
      (b.pos.2 * (b.m * r (b.vel.1 + r (q.1 / b.m)) - (b.m * b.vel.1 + q.1)))
  have t4 := abs_sub ((A1 - (p.1 - b.pos.1)) * q.2) ((A2 - (p.2 - b.pos.2)) * q.1)
  unfold angularSize
  have s1 : |b.pos.1| * ((b.m * |b.vel.2| + |q.2|) / 2 ^ 51) = |b.pos.1| * (b.m * |b.vel.2| + |q.2|) / 2 ^ 51 := by ring
  have s2 : |b.pos.2| * ((b.m * |b.vel.1| + |q.1|) / 2 ^ 51) = |b.pos.2| * (b.m * |b.vel.1| + |q.1|) / 2 ^ 51 := by ring
  rw [s1] at b1
  rw [s2] at b2
  generalize |b.pos.1| * (b.m * |b.vel.2| + |q.2|) = X3 at *
  generalize |b.pos.2| * (b.m * |b.vel.1| + |q.1|) = X4 at *
  generalize |p.1 - b.pos.1| * |q.2| = X1 at *
  generalize |p.2 - b.pos.2| * |q.1| = X2 at *
  generalize b.I * |b.omega| = X5 at *
  refine t1.trans ?_
  have fin : X3 / 2 ^ 51 + X4 / 2 ^ 51 + (X5 + (X1 * (1 + 1 / 9007199254740992) + X2 * (1 + 1 / 9007199254740992))) / 2 ^ 50 +
      (X1 * (1 / 9007199254740992) + X2 * (1 / 9007199254740992)) ≤ (X3 + X4 + X5 + 2 * (X1 + X2)) / 2 ^ 50 := by
    norm_num
    linarith
  have h3'' : (X5 + (|A1 * q.2| + |A2 * q.1|)) / 2 ^ 50 ≤
      (X5 + (X1 * (1 + 1 / 9007199254740992) + X2 * (1 + 1 / 9007199254740992))) / 2 ^ 50 :=
    div_le_div_of_nonneg_right (by linarith) (by norm_num)
  linarith

/-- **C144.** The total angular momentum (about the origin) is conserved up to rounding: it changes by at most `2⁻⁵⁰` of
the magnitudes that take part. -/
theorem C144_angular (hr : RoundLaws r) (hodd : ∀ x, r (-x) = -r x) (a b : Body ℚ) (ha : 0 < a.m ∧ 0 < a.I)
    (hb : 0 < b.m ∧ 0 < b.I) (p n : ℚ × ℚ) (j : ℚ) :
    |((a.hitF r p n j).angular (0, 0) + (b.hitF r p (-n.1, -n.2) j).angular (0, 0)) -
        (a.angular (0, 0) + b.angular (0, 0))| ≤
      (angularSize a p (push r j n) + angularSize b p (push r j n)) / 2 ^ 50 := by
  have h1 := hitF_angular hr a ha.1 ha.2 p n j
  have h2 := hitF_angular hr b hb.1 hb.2 p (-n.1, -n.2) j
  rw [push_neg hodd] at h2
  have e1 : cross p (-(push r j n).1, -(push r j n).2) = -cross p (push r j n) := by simp only [cross]; ring
  have e2 : angularSize b p (-(push r j n).1, -(push r j n).2) = angularSize b p (push r j n) := by
    simp only [angularSize, abs_neg]
  rw [e1, e2] at h2
  have e : ((a.hitF r p n j).angular (0, 0) + (b.hitF r p (-n.1, -n.2) j).angular (0, 0)) -
        (a.angular (0, 0) + b.angular (0, 0)) =
      ((a.hitF r p n j).angular (0, 0) - (a.angular (0, 0) + cross p (push r j n))) +
      ((b.hitF r p (-n.1, -n.2) j).angular (0, 0) - (b.angular (0, 0) + -cross p (push r j n))) := by ring
  rw [e, add_div]
  exact (abs_add_le _ _).trans (add_le_add h1 h2)

/-- **C144.** An obstacle of infinite mass and inertia keeps its velocity bit by bit. -/
theorem C144_fixed (n v : ℚ × ℚ) (arm : ℚ × ℚ) (w j : ℚ) (hv : r v.1 = v.1 ∧ r v.2 = v.2 ∧ r w = w) :
    velocityAfterF r n v none j = v ∧ omegaAfterF r arm n w none j = w := by
  simp [velocityAfterF, omegaAfterF, divF, hv.1, hv.2.1, hv.2.2]

/-- **C144.** The response does not depend, bit by bit, on which of the two players comes first. -/
theorem C144_swap (hodd : ∀ x, r (-x) = -r x) (D : ℚ × ℚ → ℚ × ℚ → ℚ)
    (hD : ∀ u v : ℚ × ℚ, D (-u.1, -u.2) (-v.1, -v.2) = D u v) (n rel rA rB : ℚ × ℚ) (ga gb : Geom ℚ) :
    impulseF r D (-n.1, -n.2) (-rel.1, -rel.2) rB rA gb ga = impulseF r D n rel rA rB ga gb := by
  have hc : ∀ u : ℚ × ℚ, crossF r u (-n.1, -n.2) ^ 2 = crossF r u n ^ 2 := by
    intro u
    have : crossF r u (-n.1, -n.2) = -crossF r u n := by
      simp only [crossF, mul_neg, hodd]
      rw [← hodd (r (u.1 * n.2) - r (u.2 * n.1))]; congr 1; ring
    rw [this, neg_sq]
  unfold impulseF impulseDenF
  simp only [hc, hD, min_comm gb.e ga.e]
  rw [add_comm (divF r (r (crossF r rB n ^ 2)) gb.Iz), add_comm (divF r 1 gb.m)]

/-! ## Accuracy of the impulse -/

/-- Specification: magnitude of the denominator, products of the cross products counted by their absolute values. -/
def denSize (n rA rB : ℚ × ℚ) (ga gb : Geom ℚ) : ℚ :=
  recip ga.m + recip gb.m + ((|rA.1 * n.2| + |rA.2 * n.1|) ^ 2 * recip ga.Iz +
    (|rB.1 * n.2| + |rB.2 * n.1|) ^ 2 * recip gb.Iz)

/-- Specification: the denominator in exact arithmetic. -/
def denExact (n rA rB : ℚ × ℚ) (ga gb : Geom ℚ) : ℚ :=
  recip ga.m + recip gb.m + (cross rA n ^ 2 * recip ga.Iz + cross rB n ^ 2 * recip gb.Iz)

/-- Specification: magnitude of the numerator. -/
def numSize (n rel : ℚ × ℚ) (ga gb : Geom ℚ) : ℚ := (1 + min ga.e gb.e) * (|rel.1 * n.1| + |rel.2 * n.2|)

theorem divF_rel (hr : RoundLaws r) {k : ℕ} {x X M : ℚ} (h : Rel k x X M) (m : Option ℚ) (hm : ∀ y, m = some y → 0 < y) :
    Rel (k + 1) (divF r x m) (X * recip m) (M * recip m) := by
  cases m with
  | none => simp only [divF, recip, mul_zero]; exact ⟨by simp, by simp⟩
  | some y =>
    have := (h.divc y).round hr
    rw [abs_of_pos (hm y rfl)] at this
    simpa [divF, recip, div_eq_mul_inv] using this

theorem den_rel (hr : RoundLaws r) (n rA rB : ℚ × ℚ) (ga gb : Geom ℚ) (ha : Positive ga) (hb : Positive gb) :
    Rel 8 (impulseDenF r n rA rB ga gb) (denExact n rA rB ga gb) (denSize n rA rB ga gb) := by
  have hc : ∀ u : ℚ × ℚ, Rel 5 (r (crossF r u n ^ 2)) (cross u n ^ 2) ((|u.1 * n.2| + |u.2 * n.1|) ^ 2) := by
    intro u
    have h : Rel 2 (crossF r u n) (cross u n) (|u.1 * n.2| + |u.2 * n.1|) :=
      (((Rel.self _).round hr).sub ((Rel.self _).round hr)).round hr
    have := (h.mul h).round hr
    rwa [← sq, ← sq, ← sq] at this
  have h1 : Rel 1 (divF r 1 ga.m) (recip ga.m) (recip ga.m) := by
    have := divF_rel hr (Rel.self 1) ga.m ha.1
    simpa using this
  have h2 : Rel 1 (divF r 1 gb.m) (recip gb.m) (recip gb.m) := by
    have := divF_rel hr (Rel.self 1) gb.m hb.1
    simpa using this
  have h3 := ((divF_rel hr (hc rA) ga.Iz ha.2).add (divF_rel hr (hc rB) gb.Iz hb.2)).round hr
  exact ((((h1.add h2).round hr).mono (show 2 ≤ 7 by norm_num)).add h3).round hr

/-- **C144.** The impulse is the one of exact arithmetic up to `2⁻⁴⁸` of its magnitude, as long as cancellation in the cross
products does not make the denominator smaller than `2⁻⁴⁰` of its terms. -/
theorem C144_impulse (hr : RoundLaws r) (D : ℚ × ℚ → ℚ × ℚ → ℚ) (hD : DotLaw D) (n rel rA rB : ℚ × ℚ) (ga gb : Geom ℚ)
    (ha : Positive ga) (hb : Positive gb) (he : 0 ≤ ga.e ∧ 0 ≤ gb.e) (hpos : 0 < denExact n rA rB ga gb)
    (hcond : denSize n rA rB ga gb ≤ 2 ^ 40 * denExact n rA rB ga gb) :
    |impulseF r D n rel rA rB ga gb - impulse n rel rA rB ga gb| ≤
      numSize n rel ga gb * denSize n rA rB ga gb / denExact n rA rB ga gb ^ 2 / 2 ^ 48 := by
  have hden := den_rel hr n rA rB ga gb ha hb
  have hmin : 0 ≤ min ga.e gb.e := le_min he.1 he.2
  have hnum : Rel 4 (r (-r (1 + min ga.e gb.e) * D rel n)) (-(1 + min ga.e gb.e) * dot rel n) (numSize n rel ga gb) := by
    have h1 : Rel 1 (-r (1 + min ga.e gb.e)) (-(1 + min ga.e gb.e)) (1 + min ga.e gb.e) := by
      have := ((Rel.self (1 + min ga.e gb.e)).round hr).neg
      rwa [abs_of_nonneg (by linarith)] at this
    exact (h1.mul (hD rel n)).round hr
  have hdb := hden.bound (by norm_num)
  have hnb := hnum.bound (by norm_num)
  have hN0 := hnum.1
  have hD0 := hden.1
  have hNn := hnum.nonneg
  have eI : impulse n rel rA rB ga gb = (-(1 + min ga.e gb.e) * dot rel n) / denExact n rA rB ga gb := rfl
  have eF : impulseF r D n rel rA rB ga gb =
      r (r (-r (1 + min ga.e gb.e) * D rel n) / impulseDenF r n rA rB ga gb) := rfl
  rw [eI, eF]
  generalize r (-r (1 + min ga.e gb.e) * D rel n) = x at *
  generalize -(1 + min ga.e gb.e) * dot rel n = X at *
  generalize numSize n rel ga gb = N at *
  generalize impulseDenF r n rA rB ga gb = d at *
  generalize denExact n rA rB ga gb = E at *
  generalize denSize n rA rB ga gb = S at *
  rw [abs_of_pos hpos] at hD0
  push_cast at hdb hnb
  -- the rounded denominator is at least `511/512` of the exact one
  have hd : 511 / 512 * E ≤ d := by
    have h1 := (abs_le.mp hdb).1
    have h2 : 8 / 2 ^ 52 * S ≤ 8 / 2 ^ 52 * (2 ^ 40 * E) := mul_le_mul_of_nonneg_left hcond (by norm_num)
    have h3 : (8 : ℚ) / 2 ^ 52 * (2 ^ 40 * E) = 1 / 512 * E := by norm_num; ring
    rw [h3] at h2
    linarith
  have hdpos : 0 < d := lt_of_lt_of_le (by positivity) hd
  have hS : 0 ≤ S := hpos.le.trans hD0
  -- quotient before its own rounding
  have hq : |x / d - X / E| ≤ (4 / 2 ^ 52 * N * E + N * (8 / 2 ^ 52 * S)) / (511 / 512 * E * E) := by
    have e1 : x / d - X / E = ((x - X) * E - X * (d - E)) / (d * E) := by field_simp; ring
    rw [e1, abs_div, abs_of_pos (mul_pos hdpos hpos)]
    refine div_le_div₀ (by positivity) ?_ (by positivity) (mul_le_mul_of_nonneg_right hd hpos.le)
    refine (abs_sub _ _).trans (add_le_add ?_ ?_)
    · rw [abs_mul, abs_of_pos hpos]; exact mul_le_mul_of_nonneg_right hnb hpos.le
    · rw [abs_mul]; exact mul_le_mul hN0 hdb (abs_nonneg _) hNn
  have hq2 : (4 / 2 ^ 52 * N * E + N * (8 / 2 ^ 52 * S)) / (511 / 512 * E * E) ≤ N * S / E ^ 2 * (13 / 2 ^ 52) := by
    rw [div_le_iff₀ (by positivity)]
    have e2 : N * S / E ^ 2 * (13 / 2 ^ 52) * (511 / 512 * E * E) = 13 / 2 ^ 52 * (511 / 512) * (N * S) := by field_simp
    rw [e2]
    have : N * E ≤ N * S := mul_le_mul_of_nonneg_left hD0 hNn
    have hNS : 0 ≤ N * S := mul_nonneg hNn hS
    have e3 : 4 / 2 ^ 52 * N * E + N * (8 / 2 ^ 52 * S) = 4 / 2 ^ 52 * (N * E) + 8 / 2 ^ 52 * (N * S) := by ring
    rw [e3]
    norm_num
    linarith
  have hXE : |X / E| ≤ N * S / E ^ 2 := by
    rw [abs_div, abs_of_pos hpos, div_le_div_iff₀ hpos (by positivity)]
    have h1 : |X| * E ^ 2 ≤ N * E ^ 2 := mul_le_mul_of_nonneg_right hN0 (by positivity)
    have h2 : N * E ^ 2 ≤ N * S * E := by
      rw [sq, ← mul_assoc]
      exact mul_le_mul_of_nonneg_right (mul_le_mul_of_nonneg_left hD0 hNn) hpos.le
    exact h1.trans h2
  have hnear := hr.near (x / d)
  have hQ : 0 ≤ N * S / E ^ 2 := by positivity
  generalize N * S / E ^ 2 = Q at *
  have hqq := hq.trans hq2
  have hxd : |x / d| ≤ Q + Q * (13 / 2 ^ 52) := by
    have := abs_sub_abs_le_abs_sub (x / d) (X / E)
    linarith
  have htri := abs_sub_le (r (x / d)) (x / d) (X / E)
  have h5 : |x / d| * (1 / 9007199254740992) ≤ (Q + Q * (13 / 2 ^ 52)) * (1 / 9007199254740992) :=
    mul_le_mul_of_nonneg_right hxd (by norm_num)
  have fin : (Q + Q * (13 / 2 ^ 52)) * (1 / 9007199254740992) + Q * (13 / 2 ^ 52) ≤ Q / 2 ^ 48 := by
    norm_num
    linarith
  exact htri.trans ((add_le_add (hnear.trans h5) hqq).trans fin)

/-! ## Accuracy of the velocities -/

/-- **C144.** Given the impulse, the velocity after the collision is the one of exact arithmetic up to rounding. -/
theorem C144_velocity (hr : RoundLaws r) (n v : ℚ × ℚ) (m : Option ℚ) (hm : ∀ q, m = some q → 0 < q) (j : ℚ) :
    |(velocityAfterF r n v m j).1 - (velocityAfter n v m j).1| ≤ (|v.1| + |j * n.1| * recip m) * 3 / 2 ^ 52 ∧
      |(velocityAfterF r n v m j).2 - (velocityAfter n v m j).2| ≤ (|v.2| + |j * n.2| * recip m) * 3 / 2 ^ 52 := by
  have key : ∀ v c : ℚ, |r (v + divF r (r c) m) - (v + c * recip m)| ≤ (|v| + |c| * recip m) * 3 / 2 ^ 52 := by
    intro v c
    have h := ((((Rel.self v).mono (show 0 ≤ 2 by norm_num)).add (divF_rel hr ((Rel.self c).round hr) m hm)).round hr).bound
      (by norm_num)
    refine h.trans (le_of_eq ?_)
    push_cast
    ring
  exact ⟨key v.1 (j * n.1), key v.2 (j * n.2)⟩

/-- **C144.** The same for the rotation. -/
theorem C144_rotation (hr : RoundLaws r) (arm n : ℚ × ℚ) (w : ℚ) (Iz : Option ℚ) (hI : ∀ q, Iz = some q → 0 < q) (j : ℚ) :
    |omegaAfterF r arm n w Iz j - omegaAfter arm n w Iz j| ≤
      (|w| + (|arm.1| * |j * n.2| + |arm.2| * |j * n.1|) * recip Iz) * 5 / 2 ^ 52 := by
  have hc : ∀ a c : ℚ, Rel 2 (r (a * r c)) (a * c) (|a| * |c|) := by
    intro a c
    exact ((Rel.self a).mul ((Rel.self c).round hr)).round hr
  have h := ((((Rel.self w).mono (show 0 ≤ 4 by norm_num)).add
    (divF_rel hr (((hc arm.1 (j * n.2)).sub (hc arm.2 (j * n.1))).round hr) Iz hI)).round hr).bound (by norm_num)
  refine h.trans (le_of_eq ?_)
  push_cast
  ring

/-! ## What fails: exact conservation -/

/-- `np.dot` of planar vectors of floats without fused operations. -/
def dotD (u v : ℚ × ℚ) : ℚ := Sim.double (Sim.double (u.1 * v.1) + Sim.double (u.2 * v.2))

/-- A body of mass one at one metre per second. -/
def puck : Body ℚ := ⟨(0, 0), (1, 0), 0, 1, 1⟩

/-- A resting body of mass five in front of it. -/
def block : Body ℚ := ⟨(2, 0), (0, 0), 0, 5, 1⟩

/-- The impulse of an elastic collision of the two at `(1, 0)`. -/
def puckImpulse : ℚ := impulseF Sim.double dotD (1, 0) (1, 0) (1, 0) (-1, 0) (puck.geom 1) (block.geom 1)

/-- **C144.** The exact laws fail in floats: an elastic head-on collision of a body of mass one with a resting one of mass
five gains momentum and kinetic energy. -/
theorem C144_false_exact :
    let a' := puck.hitF Sim.double (1, 0) (1, 0) puckImpulse
    let b' := block.hitF Sim.double (1, 0) (-1, 0) puckImpulse
    puck.momentum.1 + block.momentum.1 < a'.momentum.1 + b'.momentum.1 ∧
      puck.energy + block.energy < a'.energy + b'.energy := by
  decide +kernel

/-! ## Examples -/

example : DotLaw dotD := dot_separate double_laws

example : Positive (puck.geom 1) ∧ Positive (⟨none, none, 1⟩ : Geom ℚ) :=
  ⟨⟨by rintro m ⟨⟩; decide, by rintro I ⟨⟩; decide⟩, ⟨by rintro m ⟨⟩, by rintro I ⟨⟩⟩⟩

-- the impulse: minus ten sixths, rounded
example : puckImpulse < -5 / 3 + 1 / 2 ^ 50 ∧ -5 / 3 - 1 / 2 ^ 50 < puckImpulse ∧ puckImpulse ≠ -5 / 3 := by decide +kernel

example : denSize (1, 0) (1, 0) (-1, 0) (puck.geom 1) (block.geom 1) ≤
    2 ^ 40 * denExact (1, 0) (1, 0) (-1, 0) (puck.geom 1) (block.geom 1) := by decide +kernel

-- an oblique hit on a wall of infinite mass: the denominator, and the sign
example : 0 < impulseDenF Sim.double (3/5, 4/5) (1, 2) (-1, 0) (puck.geom 1) ⟨none, none, 1⟩ ∧
    impulseF Sim.double dotD (3/5, 4/5) (1, 0) (1, 2) (-1, 0) (puck.geom 1) ⟨none, none, 1⟩ < 0 := by decide +kernel

-- exchanging the players
example : impulseF Sim.double dotD (-1, 0) (-1, 0) (-1, 0) (1, 0) (block.geom 1) (puck.geom 1) = puckImpulse :=
  C144_swap double_neg dotD (fun u v => by simp [dotD]) (1, 0) (1, 0) (1, 0) (-1, 0) (puck.geom 1) (block.geom 1)

-- the momentum that is gained, against the bound
example : |((puck.hitF Sim.double (1, 0) (1, 0) puckImpulse).angular (0, 0) +
      (block.hitF Sim.double (1, 0) (-1, 0) puckImpulse).angular (0, 0)) -
        (puck.angular (0, 0) + block.angular (0, 0))| ≤
      (angularSize puck (1, 0) (push Sim.double puckImpulse (1, 0)) +
        angularSize block (1, 0) (push Sim.double puckImpulse (1, 0))) / 2 ^ 50 := by
  have := C144_angular double_laws double_neg puck block (by decide) (by decide) (1, 0) (1, 0) puckImpulse
  simpa using this

-- an oblique push: both components of the velocity and the rotation change
example : (velocityAfterF Sim.double (3/5, 4/5) (1, 0) (some 3) (-2)).2 < 0 ∧
    omegaAfterF Sim.double (1, 2) (3/5, 4/5) 0 (some 3) (-2) ≠ 0 := by decide +kernel

example : angularSize block (1, 0) (push Sim.double puckImpulse (1, 0)) < 10 := by decide +kernel

end Coll
end Verif
