import Verif.Viz.Model
import Mathlib.Tactic.Linarith
import Mathlib.Tactic.Ring
import Mathlib.Tactic.LinearCombination
import Mathlib.Tactic.FieldSimp
import Mathlib.Tactic.NormNum

/-!
# Engines as drawn (C103)
-/

namespace Verif
namespace Viz

open Maps Phys

/-- A drawn flame: a triangle over a base around `at_`, with the tip `len` away from the base in the direction
`e`. The base is at right angles to the direction and has the width `2 * wt`. -/
structure IsFlame (ring : List (ℝ × ℝ)) (at_ e : ℝ × ℝ) (wt len : ℝ) : Prop where
  shape : ring = [(at_.1 + wt * e.2, at_.2 - wt * e.1), (at_.1 + len * e.1, at_.2 + len * e.2),
    (at_.1 - wt * e.2, at_.2 + wt * e.1), (at_.1 + wt * e.2, at_.2 - wt * e.1)]
  unit : e.1 ^ 2 + e.2 ^ 2 = 1

/-- The torque of a force. -/
def cross (r f : ℝ × ℝ) : ℝ := r.1 * f.2 - r.2 * f.1

/-- The direction at an angle. -/
noncomputable def dir (a : ℝ) : ℝ × ℝ := (Real.cos a, Real.sin a)

theorem drawAt_flame (g : EngineGeo) (f x y psi mx my a : ℝ) (o : List (ℝ × ℝ)) (ho : flameOutline g f = .ok o) :
    ∃ ring, drawAt (poseOf x y psi) (poseOf mx my a) o = .ok ring ∧
      IsFlame ring
        (x + (Real.cos psi * mx - Real.sin psi * my) + g.lt * Real.cos (psi + a),
         y + (Real.sin psi * mx + Real.cos psi * my) + g.lt * Real.sin (psi + a))
        (dir (psi + a)) g.wt (f / g.fMax / 2) := by
  unfold flameOutline at ho
  split at ho
  · exact absurd ho (by simp)
  rw [Except.ok.injEq] at ho
  subst ho
  refine ⟨_, rfl, ⟨?_, ?_⟩⟩
  · simp only [List.map_cons, List.map_nil, poseOf, rigid, dir, Real.cos_add, Real.sin_add, List.cons.injEq,
      Prod.mk.injEq, and_true]
    refine ⟨⟨?_, ?_⟩, ⟨?_, ?_⟩, ⟨?_, ?_⟩, ⟨?_, ?_⟩⟩ <;> ring
  · exact Real.cos_sq_add_sin_sq _

/-- **C103.** As long as there is fuel, the two flames of a rocket are drawn half a metre long for each `F_max` of
their commands, in directions opposite to which the engines push: the acceleration in the dynamics is that of
forces against the flames, of the size of the limited commands, and the rocket turns as if these forces acted on
its axis, `l_m` before its centre. The nozzles are drawn beside the axis; the last clause is how much the torque
of the forces at these points differs from the torque in the dynamics. -/
theorem C103_rocket_partial (g : EngineGeo) (p : ThrustParams) (s : RocketState ℝ) (u : RocketCommands ℝ)
    (hg : g.fMax ≠ 0) (hfuel : p.mv < s.m) (harm : g.arm = p.arm) :
    ∃ l r : List (ℝ × ℝ), ∃ al ar el er ml mr : ℝ × ℝ,
      rocketFlames g p.mv s u = .ok [l, r] ∧
      IsFlame l al el g.wt (u.F_left / g.fMax / 2) ∧ IsFlame r ar er g.wt (u.F_right / g.fMax / 2) ∧
      al = (s.x + ml.1 + g.lt * el.1, s.y + ml.2 + g.lt * el.2) ∧
      ar = (s.x + mr.1 + g.lt * er.1, s.y + mr.2 + g.lt * er.2) ∧
      ∀ d, rocketRate p s u = .ok d →
        s.m * d.vx = -(forceLimits p.fMin p.fMax u.F_left * el.1 + forceLimits p.fMin p.fMax u.F_right * er.1) ∧
        s.m * d.vy = -(forceLimits p.fMin p.fMax u.F_left * el.2 + forceLimits p.fMin p.fMax u.F_right * er.2) ∧
        p.iz * d.dpsi =
          cross (p.arm * Real.cos s.psi, p.arm * Real.sin s.psi)
            (-(forceLimits p.fMin p.fMax u.F_left * el.1 + forceLimits p.fMin p.fMax u.F_right * er.1),
             -(forceLimits p.fMin p.fMax u.F_left * el.2 + forceLimits p.fMin p.fMax u.F_right * er.2)) ∧
        cross ml (-(forceLimits p.fMin p.fMax u.F_left * el.1), -(forceLimits p.fMin p.fMax u.F_left * el.2)) +
          cross mr (-(forceLimits p.fMin p.fMax u.F_right * er.1), -(forceLimits p.fMin p.fMax u.F_right * er.2)) =
          p.iz * d.dpsi + g.w / 10 * Real.sin s.phi *
            (forceLimits p.fMin p.fMax u.F_left - forceLimits p.fMin p.fMax u.F_right) := by
  have ho : ∀ f, ∃ o, flameOutline g f = .ok o := fun f => ⟨_, if_neg hg⟩
  obtain ⟨ol, hol⟩ := ho u.F_left
  obtain ⟨or, hor⟩ := ho u.F_right
  obtain ⟨l, hl, fl⟩ := drawAt_flame g u.F_left s.x s.y s.psi g.arm (-g.w / 10) (s.phi + Real.pi / 2) ol hol
  obtain ⟨r, hr, fr⟩ := drawAt_flame g u.F_right s.x s.y s.psi g.arm (g.w / 10) (-s.phi - Real.pi / 2) or hor
  refine ⟨l, r, _, _, _, _,
    (Real.cos s.psi * g.arm - Real.sin s.psi * (-g.w / 10), Real.sin s.psi * g.arm + Real.cos s.psi * (-g.w / 10)),
    (Real.cos s.psi * g.arm - Real.sin s.psi * (g.w / 10), Real.sin s.psi * g.arm + Real.cos s.psi * (g.w / 10)),
    ?_, fl, fr, rfl, rfl, ?_⟩
  · unfold rocketFlames
    rw [if_pos hfuel, hol, hor]
    simp only [rocketMounts, List.zip_cons_cons, List.zip_nil_left, List.mapM_cons, List.mapM_nil, bind, Except.bind, hl, hr,
      pure, Except.pure]
  · intro d hd
    have hth : ∀ f, p.thrust s.m f = forceLimits p.fMin p.fMax f := by
      intro f
      unfold ThrustParams.thrust
      rw [if_neg (not_le.mpr hfuel)]
    unfold rocketRate at hd
    dsimp only at hd
    rw [hth, hth] at hd
    split at hd
    · exact absurd hd (by simp)
    rename_i hne
    push Not at hne
    obtain ⟨hm, hi⟩ := hne
    rw [Except.ok.injEq] at hd
    subst hd
    have e1 : s.psi + (s.phi + Real.pi / 2) = (s.psi + s.phi) + Real.pi / 2 := by ring
    have e2 : s.psi + (-s.phi - Real.pi / 2) = (s.psi - s.phi) - Real.pi / 2 := by ring
    have e3 : s.phi - s.psi = -(s.psi - s.phi) := by ring
    simp only [dir, cross]
    rw [e1, e2, e3, Real.cos_add_pi_div_two, Real.sin_add_pi_div_two, Real.cos_sub_pi_div_two,
      Real.sin_sub_pi_div_two, Real.cos_neg, Real.sin_neg]
    generalize forceLimits p.fMin p.fMax u.F_left = L
    generalize forceLimits p.fMin p.fMax u.F_right = R
    refine ⟨?_, ?_, ?_, ?_⟩
    · field_simp
      ring
    · field_simp
      ring
    · field_simp
      rw [Real.cos_add, Real.sin_add, Real.cos_sub, Real.sin_sub]
      linear_combination (R - L) * p.arm * Real.cos s.phi * (-(Real.cos_sq_add_sin_sq s.psi))
    · rw [harm]
      field_simp
      rw [Real.cos_add, Real.sin_add, Real.cos_sub, Real.sin_sub]
      linear_combination ((R - L) * p.arm * Real.cos s.phi * 10 + g.w * Real.sin s.phi * (L - R)) *
        (Real.cos_sq_add_sin_sq s.psi)

/-- **C103.** The same for a spaceship, whose engine also turns it as the drawing shows: the force against the
flame acts at the point where the nozzle is drawn. The velocities of a spaceship are along its axes; the
acceleration takes into account that these turn. -/
theorem C103_spaceship_partial (g : EngineGeo) (p : ThrustParams) (s : SpaceshipState ℝ) (u : SpaceshipCommands ℝ)
    (hg : g.fMax ≠ 0) (hfuel : p.mv < s.m) (harm : g.arm = p.arm) :
    ∃ l : List (ℝ × ℝ), ∃ a e mount : ℝ × ℝ,
      shipFlames g p.mv s u = .ok [l] ∧ IsFlame l a e g.wt (u.thrust / g.fMax / 2) ∧
      a = (s.x + mount.1 + g.lt * e.1, s.y + mount.2 + g.lt * e.2) ∧
      ∀ d, spaceshipRate p s u = .ok d →
        s.m * (Real.cos s.psi * (d.vx - s.dpsi * s.vy) - Real.sin s.psi * (d.vy + s.dpsi * s.vx)) =
          -(forceLimits p.fMin p.fMax u.thrust * e.1) ∧
        s.m * (Real.sin s.psi * (d.vx - s.dpsi * s.vy) + Real.cos s.psi * (d.vy + s.dpsi * s.vx)) =
          -(forceLimits p.fMin p.fMax u.thrust * e.2) ∧
        p.iz * d.dpsi = cross mount (-(forceLimits p.fMin p.fMax u.thrust * e.1),
          -(forceLimits p.fMin p.fMax u.thrust * e.2)) := by
  have ho : ∃ o, flameOutline g u.thrust = .ok o := ⟨_, if_neg hg⟩
  obtain ⟨o, ho⟩ := ho
  obtain ⟨l, hl, fl⟩ := drawAt_flame g u.thrust s.x s.y s.psi (-g.arm) 0 (s.delta + Real.pi) o ho
  refine ⟨l, _, _, (-(p.arm * Real.cos s.psi), -(p.arm * Real.sin s.psi)), ?_, fl, ?_, ?_⟩
  · unfold shipFlames
    rw [if_pos hfuel, ho]
    simp only [shipMounts, List.mapM_cons, List.mapM_nil, bind, Except.bind, hl, pure, Except.pure]
  · rw [harm]
    simp only [dir, Prod.mk.injEq]
    constructor <;> ring
  · intro d hd
    have hth : ∀ f, p.thrust s.m f = forceLimits p.fMin p.fMax f := by
      intro f
      unfold ThrustParams.thrust
      rw [if_neg (not_le.mpr hfuel)]
    unfold spaceshipRate at hd
    dsimp only at hd
    rw [hth] at hd
    split at hd
    · exact absurd hd (by simp)
    rename_i hne
    push Not at hne
    obtain ⟨hm, hi⟩ := hne
    rw [Except.ok.injEq] at hd
    subst hd
    have e1 : s.psi + (s.delta + Real.pi) = (s.psi + s.delta) + Real.pi := by ring
    simp only [dir, cross]
    rw [e1, Real.cos_add_pi, Real.sin_add_pi, Real.cos_add, Real.sin_add]
    refine ⟨?_, ?_, ?_⟩
    · field_simp
      ring
    · field_simp
      ring
    · field_simp
      linear_combination (-(p.arm * Real.sin s.delta * forceLimits p.fMin p.fMax u.thrust)) *
        (-(Real.cos_sq_add_sin_sq s.psi))

/-- **C103.** Flame and nozzle fit: drawn at the same mount, the base of the flame is the outer edge of the nozzle, and the
middle of the inner edge of the nozzle is the mount. -/
theorem C103_nozzle (g : EngineGeo) (q m : Mat3 ℝ) (f : ℝ) (hg : g.fMax ≠ 0) :
    ∃ o fl ring a b c d, flameOutline g f = .ok o ∧ drawAt q m o = .ok fl ∧ drawAt q m (thrusterOutline g) = .ok ring ∧
      fl[0]? = some a ∧ ring[3]? = some a ∧ fl[2]? = some b ∧ ring[2]? = some b ∧
      ring[0]? = some c ∧ ring[1]? = some d ∧ ring[4]? = some c ∧
      ((c.1 + d.1) / 2, (c.2 + d.2) / 2) = applyT2 q (m.a02, m.a12) := by
  refine ⟨_, _, _, _, _, _, _, if_neg hg, rfl, rfl, rfl, rfl, rfl, rfl, rfl, rfl, rfl, ?_⟩
  simp only [applyT2]
  refine Prod.ext ?_ ?_ <;> simp only <;> ring

example : (⟨1, 1 / 2, 10, 1, 2⟩ : EngineGeo).fMax ≠ 0 := by norm_num

/-- **C103.** Without fuel no flame is drawn and the engines do not push. -/
theorem C103_empty (g : EngineGeo) (p : ThrustParams) (s : RocketState ℝ) (u : RocketCommands ℝ)
    (s' : SpaceshipState ℝ) (u' : SpaceshipCommands ℝ) (h : s.m ≤ p.mv) (h' : s'.m ≤ p.mv) :
    rocketFlames g p.mv s u = .ok [[(0, 0)], [(0, 0)]] ∧ shipFlames g p.mv s' u' = .ok [[(0, 0)]] ∧
      (∀ d, rocketRate p s u = .ok d → d.vx = 0 ∧ d.vy = 0 ∧ d.dpsi = 0 ∧ d.m = 0) ∧
      ∀ d, spaceshipRate p s' u' = .ok d →
        d.vx = s'.dpsi * s'.vy ∧ d.vy = -(s'.dpsi * s'.vx) ∧ d.dpsi = 0 ∧ d.m = 0 := by
  refine ⟨if_neg (not_lt.mpr h), if_neg (not_lt.mpr h'), ?_, ?_⟩
  · intro d hd
    unfold rocketRate at hd
    have hth : ∀ f, p.thrust s.m f = 0 := fun f => if_pos h
    dsimp only at hd
    rw [hth, hth] at hd
    split at hd
    · exact absurd hd (by simp)
    rw [Except.ok.injEq] at hd
    subst hd
    simp
  · intro d hd
    unfold spaceshipRate at hd
    have hth : ∀ f, p.thrust s'.m f = 0 := fun f => if_pos h'
    dsimp only at hd
    rw [hth] at hd
    split at hd
    · exact absurd hd (by simp)
    rw [Except.ok.injEq] at hd
    subst hd
    simp

/-- **C103 is false for commands beyond the limits**: the flame grows with the command, but the engine gives no
more than `F_max`. -/
theorem C103_false_limits (g : EngineGeo) (p : ThrustParams) (hp : 0 < p.fMax) (hlo : p.fMin ≤ p.fMax)
    (hg : g.fMax = p.fMax) (f : ℝ) (hf : p.fMax < f) :
    forceLimits p.fMin p.fMax f = forceLimits p.fMin p.fMax p.fMax ∧ p.fMax / g.fMax / 2 < f / g.fMax / 2 := by
  refine ⟨?_, ?_⟩
  · unfold forceLimits
    rw [if_neg (by intro h; linarith [h.2]), if_neg (by intro h; linarith [h.2]), min_eq_right hf.le, min_self]
  · rw [hg]
    have := div_lt_div_of_pos_right hf hp
    linarith

/-- **C103 is false after collisions**: the updates use no thrust any more, and the flame of the command is still
drawn. -/
theorem C103_false_collided (g : EngineGeo) (p : ThrustParams) (s : SpaceshipState ℝ) (u : SpaceshipCommands ℝ)
    (hg : 0 < g.fMax) (hfuel : p.mv < s.m) (hu : 0 < u.thrust) :
    (∀ y su, (spaceshipUpdate p true).unpack y = .ok su → su.2.thrust = 0) ∧
      ∃ l a e, ∃ len : ℝ, 0 < len ∧ shipFlames g p.mv s u = .ok [l] ∧ IsFlame l a e g.wt len := by
  refine ⟨?_, ?_⟩
  · intro y su h
    unfold UpdateOf.unpack spaceshipUpdate at h
    simp only [bind, Except.bind, pure, Except.pure] at h
    split at h
    · exact absurd h (by simp)
    · simp only [if_true, Except.ok.injEq] at h
      rw [← h]
  · have ho : ∃ o, flameOutline g u.thrust = .ok o := ⟨_, if_neg hg.ne'⟩
    obtain ⟨o, ho⟩ := ho
    obtain ⟨l, hl, fl⟩ := drawAt_flame g u.thrust s.x s.y s.psi (-g.arm) 0 (s.delta + Real.pi) o ho
    refine ⟨l, _, _, _, by positivity, ?_, fl⟩
    unfold shipFlames
    rw [if_pos hfuel, ho]
    simp only [shipMounts, List.mapM_cons, List.mapM_nil, bind, Except.bind, hl, pure, Except.pure]

/-! A rocket of mass 2, one of which is fuel. -/

/-- Example parameters. -/
def exThrust : ThrustParams := ⟨1, 1, -2, 2, -1, 1, -1, 1, 3, 1⟩

/-- Example geometry. -/
def exEngine : EngineGeo := ⟨1, 1, 2, 5, 1⟩

example : ∃ l r : List (ℝ × ℝ), rocketFlames exEngine exThrust.mv ⟨0, 0, 0, 0, 0, 0, 1, 2⟩ ⟨1, 2, 0⟩ = .ok [l, r] ∧
    ∃ d, rocketRate exThrust ⟨0, 0, 0, 0, 0, 0, 1, 2⟩ ⟨1, 2, 0⟩ = .ok d := by
  obtain ⟨l, r, _, _, _, _, _, _, h, -⟩ := C103_rocket_partial exEngine exThrust ⟨0, 0, 0, 0, 0, 0, 1, 2⟩ ⟨1, 2, 0⟩
    (by norm_num [exEngine]) (by norm_num [exThrust]) rfl
  refine ⟨l, r, h, ?_⟩
  unfold rocketRate
  exact ⟨_, if_neg (by norm_num [exThrust])⟩

example : ∃ l, shipFlames exEngine exThrust.mv ⟨0, 0, 0, 1, 2, 3, 1, 2⟩ ⟨2, 0⟩ = .ok [l] ∧
    ∃ d, spaceshipRate exThrust ⟨0, 0, 0, 1, 2, 3, 1, 2⟩ ⟨2, 0⟩ = .ok d := by
  obtain ⟨l, _, _, _, h, -⟩ := C103_spaceship_partial exEngine exThrust ⟨0, 0, 0, 1, 2, 3, 1, 2⟩ ⟨2, 0⟩
    (by norm_num [exEngine]) (by norm_num [exThrust]) rfl
  refine ⟨l, h, ?_⟩
  unfold spaceshipRate
  exact ⟨_, if_neg (by norm_num [exThrust])⟩

/-- The torque of the drawn engines is not that of the dynamics: here the difference of the last clause of
`C103_rocket_partial` is that of forces 1 and 2 half a metre beside the axis. -/
example : exEngine.w / 10 * Real.sin 1 *
    (forceLimits exThrust.fMin exThrust.fMax 1 - forceLimits exThrust.fMin exThrust.fMax 2) ≠ 0 := by
  have : 0 < Real.sin 1 := Real.sin_pos_of_pos_of_lt_pi (by norm_num) (by linarith [Real.two_le_pi])
  norm_num [exEngine, exThrust, forceLimits]
  exact this.ne'

example := C103_false_limits exEngine exThrust (by norm_num [exThrust]) (by norm_num [exThrust]) rfl 4
  (by norm_num [exThrust])

example := C103_false_collided exEngine exThrust ⟨0, 0, 0, 1, 2, 3, 1, 2⟩ ⟨2, 0⟩ (by norm_num [exEngine])
  (by norm_num [exThrust]) (by norm_num)

example := C103_empty exEngine exThrust ⟨0, 0, 0, 0, 0, 0, 1, 1⟩ ⟨1, 2, 0⟩ ⟨0, 0, 0, 1, 2, 3, 1, 1⟩ ⟨2, 0⟩ le_rfl le_rfl

end Viz
end Verif
