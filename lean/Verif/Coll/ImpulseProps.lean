import Verif.Coll.Impulse

/-!
# C34–C36: conservation of momentum, restitution, energy
-/

set_option linter.unusedSectionVars false

namespace Verif
namespace Coll

variable {K : Type} [Field K] [LinearOrder K] [IsStrictOrderedRing K]

/-- A moving rigid body: position and velocity of its centre, turning rate, mass, inertia. -/
structure Body (K : Type) where
  pos : K × K
  vel : K × K
  omega : K
  m : K
  I : K

/-- Linear momentum. -/
def Body.momentum (b : Body K) : K × K := (b.m * b.vel.1, b.m * b.vel.2)

/-- Angular momentum about the point `o`. -/
def Body.angular (b : Body K) (o : K × K) : K :=
  ((b.pos.1 - o.1) * (b.m * b.vel.2) - (b.pos.2 - o.2) * (b.m * b.vel.1)) + b.I * b.omega

/-- Kinetic energy of translation and rotation. -/
def Body.energy (b : Body K) : K :=
  1 / 2 * b.m * (b.vel.1 ^ 2 + b.vel.2 ^ 2) + 1 / 2 * b.I * b.omega ^ 2

/-- Velocity of the material point of the body that is at `p`. -/
def Body.velAt (b : Body K) (p : K × K) : K × K :=
  (b.vel.1 - b.omega * (p.2 - b.pos.2), b.vel.2 + b.omega * (p.1 - b.pos.1))

/-- The geometry object of a body with restitution coefficient `e`. -/
def Body.geom (b : Body K) (e : K) : Geom K := ⟨some b.m, some b.I, e⟩

/-- The vector from the centre of the body to a point. -/
def Body.arm (b : Body K) (p : K × K) : K × K := (p.1 - b.pos.1, p.2 - b.pos.2)

/-- What the collision code makes of body `a` for an impulse `j` along `n` at `p`
(collision.py:93-96). -/
def Body.hit (b : Body K) (p n : K × K) (j : K) : Body K :=
  { b with
    vel := velocityAfter n b.vel (some b.m) j
    omega := omegaAfter (b.arm p) n b.omega (some b.I) j }

/-- The impulse the collision code computes for two bodies (collision.py:50-58, 89-91). -/
def impulseOf (a b : Body K) (ea eb : K) (p n : K × K) : K :=
  let va := velocityOfP a.vel a.omega (a.arm p)
  let vb := velocityOfP b.vel b.omega (b.arm p)
  impulse n (va.1 - vb.1, va.2 - vb.2) (a.arm p) (b.arm p) (a.geom ea) (b.geom eb)

/-- Relative normal velocity of the contact points. -/
def approach (a b : Body K) (p n : K × K) : K :=
  ((a.velAt p).1 - (b.velAt p).1) * n.1 + ((a.velAt p).2 - (b.velAt p).2) * n.2

/-- **C34.** Applying any impulse along `n` to one body and along `-n` to the other, at the same
point, conserves linear momentum and angular momentum about every point. -/
theorem C34_momentum (a b : Body K) (p n : K × K) (j : K) (ha : a.m ≠ 0) (hb : b.m ≠ 0)
    (hIa : a.I ≠ 0) (hIb : b.I ≠ 0) :
    let a' := a.hit p n j
    let b' := b.hit p (-n.1, -n.2) j
    a'.momentum.1 + b'.momentum.1 = a.momentum.1 + b.momentum.1 ∧
    a'.momentum.2 + b'.momentum.2 = a.momentum.2 + b.momentum.2 ∧
    ∀ o, a'.angular o + b'.angular o = a.angular o + b.angular o := by
  refine ⟨?_, ?_, fun o => ?_⟩ <;>
  simp only [Body.hit, Body.momentum, Body.angular, velocityAfter, omegaAfter, recip, cross,
    Body.arm] <;> field_simp <;> ring

example : let a : Body ℚ := ⟨(0, 0), (3, 1), 2, 2, 5⟩
    let b : Body ℚ := ⟨(4, 1), (-1, 0), 0, 3, 7⟩
    a.m ≠ 0 ∧ b.m ≠ 0 ∧ a.I ≠ 0 ∧ b.I ≠ 0 ∧
      (a.hit (2, 0) (1, 0) (-6)).momentum.1 ≠ a.momentum.1 := by decide +kernel

/-- The denominator of the impulse. -/
def effMass (a b : Body K) (p n : K × K) : K :=
  1 / a.m + 1 / b.m + (cross (a.arm p) n ^ 2 * (1 / a.I) + cross (b.arm p) n ^ 2 * (1 / b.I))

theorem effMass_pos (a b : Body K) (p n : K × K) (ha : 0 < a.m) (hb : 0 < b.m)
    (hIa : 0 < a.I) (hIb : 0 < b.I) : 0 < effMass a b p n := by
  unfold effMass; positivity

theorem impulseOf_eq (a b : Body K) (ea eb : K) (p n : K × K) :
    impulseOf a b ea eb p n = -(1 + min ea eb) * approach a b p n / effMass a b p n := by
  unfold impulseOf impulse approach effMass
  simp only [velocityOfP, dot, Body.geom, Body.velAt, Body.arm, recip]
  congr 1; ring

/-- The relative normal velocity after an impulse `j`. -/
theorem approach_hit (a b : Body K) (p n : K × K) (j : K) (hn : n.1 ^ 2 + n.2 ^ 2 = 1) :
    approach (a.hit p n j) (b.hit p (-n.1, -n.2) j) p n =
      approach a b p n + j * effMass a b p n := by
  have hpos : ∀ c : Body K, ∀ k, (c.hit p k j).pos = c.pos := fun _ _ => rfl
  unfold approach effMass
  simp only [Body.velAt, hpos]
  simp only [Body.hit, velocityAfter, omegaAfter, recip, cross, Body.arm]
  linear_combination (j * (1 / a.m) + j * (1 / b.m)) * hn

/-- **C35.** After the impulse the relative normal velocity of the contact points is `-e` times the
one before, `e` the smaller restitution coefficient. -/
theorem C35_restitution (a b : Body K) (ea eb : K) (p n : K × K) (ha : 0 < a.m) (hb : 0 < b.m)
    (hIa : 0 < a.I) (hIb : 0 < b.I) (hn : n.1 ^ 2 + n.2 ^ 2 = 1) :
    let j := impulseOf a b ea eb p n
    approach (a.hit p n j) (b.hit p (-n.1, -n.2) j) p n = -(min ea eb) * approach a b p n := by
  intro j
  rw [approach_hit _ _ _ _ _ hn]
  have hD := effMass_pos a b p n ha hb hIa hIb
  have : j * effMass a b p n = -(1 + min ea eb) * approach a b p n := by
    simp only [j]
    rw [impulseOf_eq, div_mul_cancel₀ _ hD.ne']
  rw [this]; ring

/-- **C35.** So bodies approaching at the contact (along `n`, which points from `a` to `b`) no longer
approach after it. -/
theorem C35_separate (a b : Body K) (ea eb : K) (p n : K × K) (ha : 0 < a.m) (hb : 0 < b.m)
    (hIa : 0 < a.I) (hIb : 0 < b.I) (hn : n.1 ^ 2 + n.2 ^ 2 = 1) (hea : 0 ≤ ea) (heb : 0 ≤ eb)
    (happ : 0 ≤ approach a b p n) :
    let j := impulseOf a b ea eb p n
    approach (a.hit p n j) (b.hit p (-n.1, -n.2) j) p n ≤ 0 ∧ j ≤ 0 := by
  intro j
  have he : 0 ≤ min ea eb := le_min hea heb
  constructor
  · rw [C35_restitution a b ea eb p n ha hb hIa hIb hn]
    nlinarith
  · simp only [j]
    rw [impulseOf_eq]
    have hD := effMass_pos a b p n ha hb hIa hIb
    apply div_nonpos_of_nonpos_of_nonneg _ hD.le
    nlinarith

/-- Two cars, the first running into the second with an oblique normal. -/
example : let a : Body ℚ := ⟨(0, 0), (3, 1), 2, 2, 5⟩
    let b : Body ℚ := ⟨(4, 1), (-1, 0), 0, 3, 7⟩
    let n : ℚ × ℚ := (4 / 5, 3 / 5)
    0 < a.m ∧ 0 < b.m ∧ 0 < a.I ∧ 0 < b.I ∧ n.1 ^ 2 + n.2 ^ 2 = 1 ∧
      0 < approach a b (2, 0) n ∧ impulseOf a b (1 / 2) (1 / 3) (2, 0) n < 0 := by decide +kernel

/-- Change of energy under an impulse. -/
theorem energy_hit (a b : Body K) (p n : K × K) (j : K) (hn : n.1 ^ 2 + n.2 ^ 2 = 1)
    (ha : a.m ≠ 0) (hb : b.m ≠ 0) (hIa : a.I ≠ 0) (hIb : b.I ≠ 0) :
    (a.hit p n j).energy + (b.hit p (-n.1, -n.2) j).energy = a.energy + b.energy +
      (j * approach a b p n + 1 / 2 * j ^ 2 * effMass a b p n) := by
  have h1 : n.1 ^ 2 = 1 - n.2 ^ 2 := by linear_combination hn
  unfold approach effMass
  simp only [Body.energy, Body.hit, velocityAfter, omegaAfter, recip, cross, Body.arm, Body.velAt]
  field_simp
  linear_combination (j ^ 2 * (a.I * b.m * b.I + a.m * a.I * b.I)) * hn

/-- **C36.** The change of total kinetic energy: minus half of `(1 - e²)` times the squared approach
velocity over the effective inverse mass. -/
theorem C36_energy_change (a b : Body K) (ea eb : K) (p n : K × K) (ha : 0 < a.m) (hb : 0 < b.m)
    (hIa : 0 < a.I) (hIb : 0 < b.I) (hn : n.1 ^ 2 + n.2 ^ 2 = 1) :
    let j := impulseOf a b ea eb p n
    (a.hit p n j).energy + (b.hit p (-n.1, -n.2) j).energy - (a.energy + b.energy) =
      -(1 / 2) * (1 - min ea eb ^ 2) * approach a b p n ^ 2 / effMass a b p n := by
  intro j
  rw [energy_hit a b p n j hn ha.ne' hb.ne' hIa.ne' hIb.ne']
  have hD := effMass_pos a b p n ha hb hIa hIb
  simp only [j]
  rw [impulseOf_eq]
  field_simp
  ring

/-- **C36.** For restitution coefficients within [0, 1] the total kinetic energy does not grow, and
stays the same exactly if the collision is perfectly elastic or there is no normal velocity. -/
theorem C36_energy (a b : Body K) (ea eb : K) (p n : K × K) (ha : 0 < a.m) (hb : 0 < b.m)
    (hIa : 0 < a.I) (hIb : 0 < b.I) (hn : n.1 ^ 2 + n.2 ^ 2 = 1)
    (hea : 0 ≤ ea ∧ ea ≤ 1) (heb : 0 ≤ eb ∧ eb ≤ 1) :
    let j := impulseOf a b ea eb p n
    let after := (a.hit p n j).energy + (b.hit p (-n.1, -n.2) j).energy
    after ≤ a.energy + b.energy ∧
      (after = a.energy + b.energy ↔ (ea = 1 ∧ eb = 1) ∨ approach a b p n = 0) := by
  intro j after
  have hch := C36_energy_change a b ea eb p n ha hb hIa hIb hn
  have hD := effMass_pos a b p n ha hb hIa hIb
  have he0 : 0 ≤ min ea eb := le_min hea.1 heb.1
  have he1 : min ea eb ≤ 1 := le_trans (min_le_left _ _) hea.2
  simp only at hch
  have hnn : 0 ≤ (1 - min ea eb ^ 2) * approach a b p n ^ 2 / effMass a b p n := by
    apply div_nonneg _ hD.le
    apply mul_nonneg _ (sq_nonneg _)
    nlinarith
  have hrew : after - (a.energy + b.energy) =
      -(1 / 2) * ((1 - min ea eb ^ 2) * approach a b p n ^ 2 / effMass a b p n) := by
    simp only [after, j]; rw [hch]; ring
  refine ⟨by nlinarith, ?_, ?_⟩
  · intro h
    have h0 : (1 - min ea eb ^ 2) * approach a b p n ^ 2 / effMass a b p n = 0 := by
      rw [h, sub_self] at hrew; linarith
    rcases div_eq_zero_iff.mp h0 with h0 | h0
    · rcases mul_eq_zero.mp h0 with h0 | h0
      · left
        have hmin : min ea eb = 1 := by
          have : (1 - min ea eb) * (1 + min ea eb) = 0 := by linear_combination h0
          rcases mul_eq_zero.mp this with h | h
          · linarith
          · linarith
        have hl := min_le_left ea eb
        have hr := min_le_right ea eb
        exact ⟨by linarith [hea.2], by linarith [heb.2]⟩
      · right; exact pow_eq_zero_iff (two_ne_zero) |>.mp h0
    · exact absurd h0 hD.ne'
  · rintro (⟨h1, h2⟩ | h)
    · have : after - (a.energy + b.energy) = 0 := by rw [hrew, h1, h2]; simp
      linarith
    · have : after - (a.energy + b.energy) = 0 := by rw [hrew, h]; simp
      linarith

/-- The same two cars lose energy. -/
example : let a : Body ℚ := ⟨(0, 0), (3, 1), 2, 2, 5⟩
    let b : Body ℚ := ⟨(4, 1), (-1, 0), 0, 3, 7⟩
    let n : ℚ × ℚ := (4 / 5, 3 / 5)
    let j := impulseOf a b (1 / 2) (1 / 3) (2, 0) n
    (a.hit (2, 0) n j).energy + (b.hit (2, 0) (-n.1, -n.2) j).energy < a.energy + b.energy := by
  decide +kernel

end Coll
end Verif
