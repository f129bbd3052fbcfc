import Verif.Whole.ReportProps
import Verif.Whole.DrivenProps
import Verif.Whole.FleetRunProps

/-!
# C162: momentum and energy of all players together over a simulation
-/

namespace Verif
namespace Whole
namespace Budget

open Sim Coll

set_option linter.unusedSectionVars false

variable {N K : Type} [DecidableEq N] [Field K] [LinearOrder K] [IsStrictOrderedRing K] {F : Iface N K}
  {sc : Bool} {R : Parts N K F.M F.S} {mass inertia rest : N → K}

/-! ## Specification -/

/-- Specification: a quantity of all players together. -/
def total {M : Type} (f : N → M → K) : Dict N M → K
  | [] => 0
  | (n, m) :: d => f n m + total f d

/-- Specification: what driving has added to a quantity, if `drive` tells the model after driving. -/
def work {Wd : World N K} (f : N → Wd.M → K) (drive : N → Wd.M → Wd.C → Wd.M) (tr : List (Event Wd)) : K :=
  (tr.map fun e => match e with
    | .drive _ n m c => f n (drive n m c) - f n m
    | _ => 0).sum

/-- Specification: momentum along the first and the second axis, angular momentum about a point and kinetic energy of the
model of a player. -/
def px (F : Iface N K) (mass : N → K) (n : N) (m : F.M) : K := mass n * (F.velocity m).1.1
def py (F : Iface N K) (mass : N → K) (n : N) (m : F.M) : K := mass n * (F.velocity m).1.2
def spin (F : Iface N K) (mass inertia : N → K) (o : K × K) (n : N) (m : F.M) : K :=
  (((F.translation (F.pose m)).1 - o.1) * (mass n * (F.velocity m).1.2) -
    ((F.translation (F.pose m)).2 - o.2) * (mass n * (F.velocity m).1.1)) + inertia n * (F.velocity m).2
def energy (F : Iface N K) (mass inertia : N → K) (n : N) (m : F.M) : K := kinetic (mass n) (inertia n) (F.velocity m)

/-- The models of a class `P` take the velocity that a collision gives them (see C47). -/
structure Takes (F : Iface N K) (R : Parts N K F.M F.S) (dt : K) (P : F.M → Prop) : Prop where
  mark : ∀ m, P m → P (F.mark m)
  markVelocity : ∀ m, P m → F.velocity (F.mark m) = F.velocity m
  set : ∀ m v w, P m → P (F.setVelocity m v w)
  update : ∀ v n m c v' m', R.update v n m c dt = .ok (v', m') → P m → P m'
  velocity : ∀ m, P m → VelOk F m

/-! ## One collision -/

section One
variable {dt : K} {P : F.M → Prop}

theorem pair_budget (hS : Solid F R dt mass inertia rest) (hT : Takes F R dt P) (t : K) (a b : N) (hab : a ≠ b) (ma mb : F.M)
    (pa : P ma) (pb : P mb) (ha : F.geom ma = ⟨some (mass a), some (inertia a), rest a⟩)
    (hb : F.geom mb = ⟨some (mass b), some (inertia b), rest b⟩) :
    let r := (Coll.resolve F sc t a ma b mb).1
    px F mass a r.1 + px F mass b r.2 = px F mass a ma + px F mass b mb ∧
    py F mass a r.1 + py F mass b r.2 = py F mass a ma + py F mass b mb ∧
    (∀ o, spin F mass inertia o a r.1 + spin F mass inertia o b r.2 =
      spin F mass inertia o a ma + spin F mass inertia o b mb) ∧
    energy F mass inertia a r.1 + energy F mass inertia b r.2 ≤
      energy F mass inertia a ma + energy F mass inertia b mb := by
  intro r
  cases hg : F.impactGeometry (F.footprint ma) (F.footprint mb) with
  | error e =>
    simp only [r, (C37_untouched F sc t a b ma mb).1 e hg]
    exact ⟨trivial, trivial, fun _ => trivial, le_rfl⟩
  | ok np =>
    obtain ⟨n, p⟩ := np
    by_cases happ : approach (bodyOf F ma (mass a) (inertia a)) (bodyOf F mb (mass b) (inertia b)) p n < 0
    · simp only [r, (C37_untouched F sc t a b ma mb).2 n p _ _ _ _ hg happ]
      exact ⟨trivial, trivial, fun _ => trivial, le_rfl⟩
    have happ := not_lt.mp happ
    by_cases hl : hitParts F ma (F.footprint mb) = [] ∨ hitParts F mb (F.footprint ma) = []
    · simp only [r, C37_no_location F hS.mark sc t a b ma mb n p _ _ _ _ hg happ hl, px, py, spin, energy, hS.mark.pose,
        hT.markVelocity _ pa, hT.markVelocity _ pb]
      exact ⟨trivial, trivial, fun _ => trivial, le_rfl⟩
    obtain ⟨hla, hlb⟩ := not_or.mp hl
    obtain ⟨r', fa, fb, hr, -⟩ := C37_resolved F hS.mark sc t a b hab ma mb n p _ _ _ _ _ _ ha hb hg happ hla hlb
    obtain ⟨m1, m2, m3⟩ := C34_momentum (bodyOf F ma (mass a) (inertia a)) (bodyOf F mb (mass b) (inertia b)) p n
      (impulseOf (bodyOf F ma (mass a) (inertia a)) (bodyOf F mb (mass b) (inertia b)) (rest a) (rest b) p n)
      (hS.mass a).ne' (hS.mass b).ne' (hS.inertia a).ne' (hS.inertia b).ne'
    have hE := (C36_energy (bodyOf F ma (mass a) (inertia a)) (bodyOf F mb (mass b) (inertia b)) (rest a) (rest b) p n
      (hS.mass a) (hS.mass b) (hS.inertia a) (hS.inertia b) (hS.normal _ _ _ _ hg) (hS.rest a) (hS.rest b)).1
    simp only [r, hr, px, py, spin, energy, (hT.velocity _ pa).get_set, (hT.velocity _ pb).get_set, (hT.velocity _ pa).pose,
      (hT.velocity _ pb).pose]
    exact ⟨m1, m2, m3, hE⟩

theorem env_budget (hS : Solid F R dt mass inertia rest) (hT : Takes F R dt P) (t : K) (a : N) (hae : a ≠ F.envPlayer)
    (m : F.M) (pm : P m) (ha : F.geom m = ⟨some (mass a), some (inertia a), rest a⟩) (s : F.S) (eb : K) (he : 0 ≤ eb ∧ eb ≤ 1) :
    energy F mass inertia a (Coll.resolveEnv F t a m s ⟨none, none, eb⟩).1 ≤ energy F mass inertia a m := by
  let F' : Iface N K := { F with toPolygon := fun s => .ok s }
  have h1 : (Coll.resolveEnv F t a m s ⟨none, none, eb⟩).1 = (Coll.resolveEnv F' t a m s ⟨none, none, eb⟩).1 := by
    change _ = (Coll.resolveEnv { F with toPolygon := fun s => .ok s } t a m s ⟨none, none, eb⟩).1
    unfold Coll.resolveEnv
    dsimp only
    cases F.impactGeometry (F.footprint m) s with
    | error e => rfl
    | ok np =>
      obtain ⟨n, p⟩ := np
      dsimp only
      split
      · rfl
      · cases hl : impactLocations F (F.mark m) s with
        | error e =>
          have hl' : impactLocations { F with toPolygon := fun s => .ok s } (F.mark m) s = .error e := hl
          simp only [hl']
        | ok l =>
          have hl' : impactLocations { F with toPolygon := fun s => .ok s } (F.mark m) s = .ok l := hl
          simp only [hl']
          cases F.toPolygon s <;> rfl
  rw [h1]
  have hM : MarkOk F' := ⟨hS.mark.geom, hS.mark.pose, hS.mark.mesh⟩
  cases hg : F.impactGeometry (F.footprint m) s with
  | error e => rw [(C38_untouched F' hM t a m s _).1 e hg]
  | ok np =>
    obtain ⟨n, p⟩ := np
    obtain ⟨u1, u2⟩ := (C38_untouched F' hM t a m s ⟨none, none, eb⟩).2 n p (mass a) (inertia a) hg
    by_cases happ : normalVel (bodyOf F' m (mass a) (inertia a)) p n < 0
    · rw [u1 happ]
    have happ := not_lt.mp happ
    by_cases hl : hitParts F' m s = []
    · rw [u2 happ hl]
      change kinetic (mass a) (inertia a) (F.velocity (F.mark m)) ≤ _
      rw [hT.markVelocity _ pm]
      exact le_rfl
    obtain ⟨r', re, hr, -⟩ := C38_resolved F' hM t a hae m s s n p _ _ _ eb ha hg happ hl rfl
    rw [hr]
    change kinetic (mass a) (inertia a) (F.velocity (F.setVelocity (F.mark m) _ _)) ≤ _
    rw [(hT.velocity _ pm).get_set]
    exact (C38_physics (bodyOf F' m (mass a) (inertia a)) (rest a) eb p n (hS.mass a) (hS.inertia a)
      (hS.normal _ _ _ _ hg)).2 (hS.rest a) he

end One

/-! ## Executions -/

theorem total_set {M : Type} (f : N → M → K) {d : Dict N M} {n : N} {m : M} (m' : M) (h : Dict.get? d n = some m) :
    total f (Dict.set d n m') = total f d + (f n m' - f n m) := by
  induction d with
  | nil => cases h
  | cons x d ih =>
    obtain ⟨k, y⟩ := x
    simp only [Dict.get?, Dict.set] at h ⊢
    split
    · rename_i e
      rw [if_pos e] at h
      injection h with h
      subst e h
      simp only [total]
      ring
    · rename_i e
      rw [if_neg e] at h
      simp only [total, ih h]
      ring

theorem work_append {Wd : World N K} (f : N → Wd.M → K) (drive : N → Wd.M → Wd.C → Wd.M) (a b : List (Event Wd)) :
    work f drive (a ++ b) = work f drive a + work f drive b := by
  simp [work]

theorem takes_budget {cfg : Cfg (world F sc R)} {P : F.M → Prop} (hS : Solid F R cfg.dt mass inertia rest)
    (hT : Takes F R cfg.dt P) (drive : N → F.M → R.C → F.M)
    (hd : ∀ v n m c v' m', R.update v n m c cfg.dt = .ok (v', m') → m' = drive n m c) (f : N → F.M → K)
    (hpair : ∀ t a b ma mb, a ≠ b → P ma → P mb → F.geom ma = ⟨some (mass a), some (inertia a), rest a⟩ →
      F.geom mb = ⟨some (mass b), some (inertia b), rest b⟩ →
      f a (Coll.resolve F sc t a ma b mb).1.1 + f b (Coll.resolve F sc t a ma b mb).1.2 ≤ f a ma + f b mb)
    (henv : ∀ t a m o, a ≠ F.envPlayer → P m → F.geom m = ⟨some (mass a), some (inertia a), rest a⟩ →
      (∃ v s, o ∈ R.envQuery v s) → f a (Coll.resolveEnv F t a m o.1 o.2).1 ≤ f a m) (c0 : K) :
    Closed cfg (fun s : St (world F sc R) => s.players.Nodup ∧
      (Dict.get? s.models F.envPlayer = none ∧
        (∀ n m, Dict.get? s.models n = some m → P m ∧ F.geom m = ⟨some (mass n), some (inertia n), rest n⟩)) ∧
      total f s.models ≤ c0 + work (Wd := world F sc R) f drive s.trace) := by
  let I : N → F.M → Prop := fun n m => P m ∧ F.geom m = ⟨some (mass n), some (inertia n), rest n⟩
  have i1 : ∀ n m, I n m → I n (F.mark m) := fun n m h =>
    ⟨hT.mark _ h.1, by rw [hS.mark.geom, h.2]⟩
  have i2 : ∀ n m v w, I n m → I n (F.setVelocity m v w) := fun n m v w h =>
    ⟨hT.set _ _ _ h.1, by rw [hS.velocity, h.2]⟩
  have set_env : ∀ {d : Dict N F.M} {n : N} {m m' : F.M}, Dict.get? d F.envPlayer = none → Dict.get? d n = some m →
      n ≠ F.envPlayer ∧ Dict.get? (Dict.set d n m') F.envPlayer = none := fun {d n m m'} h1 h2 => by
    have hne : n ≠ F.envPlayer := by rintro rfl; rw [h1] at h2; cases h2
    exact ⟨hne, by rw [Dict.get?_set_ne _ hne]; exact h1⟩
  refine { nodup := fun s h => h.1, observed := fun s ps h _ => h, logged := fun s n m lg states h _ _ _ _ => h, asked := ?_,
           driven := ?_, stamped := fun s h => h, timed := fun s h => h, removed := ?_, ended := fun s b h => h,
           traced := ?_, env := ?_, pair := ?_ }
  · intro s p g s' h hr
    obtain ⟨e1, e2, e3⟩ := removePlayer_frame hr
    rw [e1]
    refine ⟨?_, h.2.1, ?_⟩
    · rcases e3 with e | e <;> rw [e]
      · exact h.1
      · exact h.1.erase p
    · rcases removePlayer_trace hr with e | ⟨x, e⟩ <;> rw [e]
      · exact h.2.2
      · rw [work_append]
        simpa [work] using h.2.2
  · intro s p h
    refine ⟨h.1, h.2.1, ?_⟩
    dsimp only
    rw [work_append]
    simpa [work] using h.2.2
  · intro s p o s' h _ ho he
    refine ⟨by rw [envObstacle_players he]; exact h.1, ?_⟩
    obtain ⟨m, rep, hm, -, e1, -, -, -⟩ := envObstacle_frame he
    rw [e1, envObstacle_trace he]
    obtain ⟨⟨q1, q2⟩, q3⟩ := h.2
    have hm' : Dict.get? s.models p = some m := hm
    have ho' : ∃ v x, o ∈ R.envQuery v x := by
      obtain ⟨w, x, h⟩ := ho
      exact ⟨w.2, x, h⟩
    obtain ⟨hne, hn⟩ := set_env (m' := (Coll.resolveEnv F s.time p m o.1 o.2).1) q1 hm'
    refine ⟨⟨hn, set_kept (I := I) q2 (resolveEnv_kept (I p) (i1 p) (i2 p) s.time p m o.1 o.2 (q2 p m hm'))⟩, ?_⟩
    change total f (Dict.set s.models p (Coll.resolveEnv F s.time p m o.1 o.2).1) ≤ _
    rw [total_set f _ hm']
    have := henv s.time p m o hne (q2 p m hm').1 (q2 p m hm').2 ho'
    linarith
  · intro s a b s' h _ _ hab hp
    refine ⟨by rw [checkPair_players hp]; exact h.1, ?_⟩
    obtain ⟨⟨q1, q2⟩, q3⟩ := h.2
    rw [checkPair_trace hp, work_append]
    have hw : work (Wd := world F sc R) f drive [Event.pair s.time a b] = 0 := by simp [work]
    rw [hw, add_zero]
    obtain ⟨ma, mb, h1, h2, ⟨-, e1, -⟩ | ⟨rep, -, -, e1, -⟩⟩ := checkPair_frame hp
    · rw [e1]; exact ⟨⟨q1, q2⟩, q3⟩
    · rw [e1]
      have h1' : Dict.get? s.models a = some ma := h1
      have h2' : Dict.get? s.models b = some mb := h2
      change (Dict.get? (Dict.set (Dict.set s.models a (Coll.resolve F sc s.time a ma b mb).1.1) b
          (Coll.resolve F sc s.time a ma b mb).1.2) F.envPlayer = none ∧ ∀ n m, Dict.get? (Dict.set (Dict.set s.models a
          (Coll.resolve F sc s.time a ma b mb).1.1) b (Coll.resolve F sc s.time a ma b mb).1.2) n = some m → I n m) ∧
        total f (Dict.set (Dict.set s.models a (Coll.resolve F sc s.time a ma b mb).1.1) b
          (Coll.resolve F sc s.time a ma b mb).1.2) ≤ _
      have hk := resolve_kept (sc := sc) (I a) (I b) (i1 a) (i1 b) (i2 a) (i2 b) s.time a b ma mb (q2 a ma h1') (q2 b mb h2')
      have hp := hpair s.time a b ma mb hab (q2 a ma h1').1 (q2 b mb h2').1 (q2 a ma h1').2 (q2 b mb h2').2
      generalize (Coll.resolve F sc s.time a ma b mb).1 = r at hk hp ⊢
      have h2'' : Dict.get? (Dict.set s.models a r.1) b = some mb := by rw [Dict.get?_set_ne _ hab]; exact h2'
      refine ⟨⟨(set_env (set_env q1 h1').2 h2'').2, set_kept (I := I) (set_kept (I := I) q2 hk.1) hk.2⟩, ?_⟩
      rw [total_set f _ h2'', total_set f _ h1']
      linarith
  · intro s n s' h _ ha
    obtain ⟨e1, e2, -, -, -⟩ := askPlayer_frame ha
    obtain ⟨o, e4⟩ := askPlayer_trace ha
    rw [e1, e2, e4, work_append]
    have hw : work (Wd := world F sc R) f drive [Event.sense s.time n s.lastObs, Event.ask s.time n o] = 0 := by simp [work]
    rw [hw, add_zero]
    exact h
  · intro s n m c w' m' h _ hm _ hu
    obtain ⟨v', hu'⟩ := world_update hu
    obtain ⟨⟨q1, q2⟩, q3⟩ := h.2
    have hm' : Dict.get? s.models n = some m := hm
    refine ⟨h.1, ⟨(set_env q1 hm').2, set_kept (I := I) q2 ⟨hT.update _ _ _ _ _ _ hu' (q2 n m hm').1, ?_⟩⟩, ?_⟩
    · rw [hS.update _ _ _ _ _ _ hu']
      exact (q2 n m hm').2
    · dsimp only
      rw [work_append]
      have hw : work (Wd := world F sc R) f drive [Event.drive s.time n m c] = f n m' - f n m := by
        simp [work, hd _ _ _ _ _ _ hu']
      rw [hw]
      change total f (Dict.set s.models n m') ≤ _
      rw [total_set f _ hm']
      linarith

/-- **C162.** Players of a class that takes the velocities of collisions: whatever collides with whatever, the kinetic energy of
all players together is at most the one at the start and what driving has added. -/
theorem C162_energy {cfg : Cfg (world F sc R)} {P : F.M → Prop} (hS : Solid F R cfg.dt mass inertia rest)
    (hT : Takes F R cfg.dt P) (drive : N → F.M → R.C → F.M)
    (hd : ∀ v n m c v' m', R.update v n m c cfg.dt = .ok (v', m') → m' = drive n m c)
    {σ : Nat → St (world F sc R)} {j : Nat} (h0 : Ready (σ 0)) (hx : Exec cfg σ j)
    (henv : Dict.get? (σ 0).models F.envPlayer = none)
    (hm : ∀ n m, Dict.get? (σ 0).models n = some m → P m ∧ F.geom m = ⟨some (mass n), some (inertia n), rest n⟩) :
    total (energy F mass inertia) (σ j).models ≤
      total (energy F mass inertia) (σ 0).models + work (Wd := world F sc R) (energy F mass inertia) drive (σ j).trace := by
  refine ((takes_budget hS hT drive hd (energy F mass inertia)
    (fun t a b ma mb hab pa pb ga gb => (pair_budget hS hT t a b hab ma mb pa pb ga gb).2.2.2)
    (fun t a m o hne pm gm ho => ?_) (total (energy F mass inertia) (σ 0).models)).exec
    ⟨h0.fresh.players, ⟨henv, hm⟩, ?_⟩ hx j le_rfl).2.2
  · obtain ⟨v, s, ho⟩ := ho
    obtain ⟨eb, hgb, he⟩ := hS.obstacles v s o ho
    rw [hgb]
    exact env_budget hS hT t a hne m pm gm o.1 eb he
  · rw [h0.fresh.trace]
    simp [work]

theorem total_neg {M : Type} (f : N → M → K) (d : Dict N M) : total (fun n m => -f n m) d = -total f d := by
  induction d with
  | nil => simp [total]
  | cons x d ih =>
    obtain ⟨n, m⟩ := x
    simp only [total, ih]
    ring

theorem work_neg {Wd : World N K} (f : N → Wd.M → K) (drive : N → Wd.M → Wd.C → Wd.M) (tr : List (Event Wd)) :
    work (fun n m => -f n m) drive tr = -work f drive tr := by
  induction tr with
  | nil => simp [work]
  | cons e tr ih =>
    have h : ∀ g : N → Wd.M → K, work g drive (e :: tr) = (match e with
      | .drive _ n m c => g n (drive n m c) - g n m
      | _ => 0) + work g drive tr := fun g => by simp only [work, List.map_cons, List.sum_cons]
    rw [h, h, ih]
    cases e <;> dsimp only <;> ring

theorem equal_budget {cfg : Cfg (world F sc R)} {P : F.M → Prop} (hS : Solid F R cfg.dt mass inertia rest)
    (hT : Takes F R cfg.dt P) (drive : N → F.M → R.C → F.M)
    (hd : ∀ v n m c v' m', R.update v n m c cfg.dt = .ok (v', m') → m' = drive n m c)
    (hfree : ∀ v s, R.envQuery v s = []) {σ : Nat → St (world F sc R)} {j : Nat} (h0 : Ready (σ 0)) (hx : Exec cfg σ j)
    (henv : Dict.get? (σ 0).models F.envPlayer = none)
    (hm : ∀ n m, Dict.get? (σ 0).models n = some m → P m ∧ F.geom m = ⟨some (mass n), some (inertia n), rest n⟩)
    (f : N → F.M → K)
    (hpair : ∀ t a b ma mb, a ≠ b → P ma → P mb → F.geom ma = ⟨some (mass a), some (inertia a), rest a⟩ →
      F.geom mb = ⟨some (mass b), some (inertia b), rest b⟩ →
      f a (Coll.resolve F sc t a ma b mb).1.1 + f b (Coll.resolve F sc t a ma b mb).1.2 = f a ma + f b mb) :
    total f (σ j).models = total f (σ 0).models + work (Wd := world F sc R) f drive (σ j).trace := by
  have henv' : ∀ g : N → F.M → K, ∀ t a m o, a ≠ F.envPlayer → P m →
      F.geom m = ⟨some (mass a), some (inertia a), rest a⟩ → (∃ v s, o ∈ R.envQuery v s) →
      g a (Coll.resolveEnv F t a m o.1 o.2).1 ≤ g a m := by
    rintro g t a m o - - - ⟨v, s, ho⟩
    rw [hfree] at ho
    cases ho
  have u1 := ((takes_budget hS hT drive hd f (fun t a b ma mb hab pa pb ga gb => (hpair t a b ma mb hab pa pb ga gb).le)
    (henv' f) (total f (σ 0).models)).exec ⟨h0.fresh.players, ⟨henv, hm⟩, by rw [h0.fresh.trace]; simp [work]⟩ hx j le_rfl).2.2
  have u2 := ((takes_budget hS hT drive hd (fun n m => -f n m) (fun t a b ma mb hab pa pb ga gb => by
      have := hpair t a b ma mb hab pa pb ga gb
      linarith)
    (henv' fun n m => -f n m) (total (fun n m => -f n m) (σ 0).models)).exec
      ⟨h0.fresh.players, ⟨henv, hm⟩, by rw [h0.fresh.trace]; simp [work]⟩ hx j le_rfl).2.2
  have e1 : total (M := (world F sc R).M) (fun n m => -f n m) (σ j).models = -total f (σ j).models := total_neg f _
  have e2 : total (M := (world F sc R).M) (fun n m => -f n m) (σ 0).models = -total f (σ 0).models := total_neg f _
  have e3 := work_neg (Wd := world F sc R) f drive (σ j).trace
  rw [e1, e2, e3] at u2
  linarith

/-- **C162.** Without obstacles of the scenario, momentum and angular momentum about any point of all players together are those
at the start and what driving has added: collisions between the players change nothing. -/
theorem C162_momentum {cfg : Cfg (world F sc R)} {P : F.M → Prop} (hS : Solid F R cfg.dt mass inertia rest)
    (hT : Takes F R cfg.dt P) (drive : N → F.M → R.C → F.M)
    (hd : ∀ v n m c v' m', R.update v n m c cfg.dt = .ok (v', m') → m' = drive n m c)
    (hfree : ∀ v s, R.envQuery v s = []) {σ : Nat → St (world F sc R)} {j : Nat} (h0 : Ready (σ 0)) (hx : Exec cfg σ j)
    (henv : Dict.get? (σ 0).models F.envPlayer = none)
    (hm : ∀ n m, Dict.get? (σ 0).models n = some m → P m ∧ F.geom m = ⟨some (mass n), some (inertia n), rest n⟩) :
    total (px F mass) (σ j).models =
      total (px F mass) (σ 0).models + work (Wd := world F sc R) (px F mass) drive (σ j).trace ∧
    total (py F mass) (σ j).models =
      total (py F mass) (σ 0).models + work (Wd := world F sc R) (py F mass) drive (σ j).trace ∧
    ∀ o, total (spin F mass inertia o) (σ j).models =
      total (spin F mass inertia o) (σ 0).models + work (Wd := world F sc R) (spin F mass inertia o) drive (σ j).trace :=
  ⟨equal_budget hS hT drive hd hfree h0 hx henv hm _ fun t a b ma mb hab pa pb ga gb =>
      (pair_budget hS hT t a b hab ma mb pa pb ga gb).1,
    equal_budget hS hT drive hd hfree h0 hx henv hm _ fun t a b ma mb hab pa pb ga gb =>
      (pair_budget hS hT t a b hab ma mb pa pb ga gb).2.1,
    fun o => equal_budget hS hT drive hd hfree h0 hx henv hm _ fun t a b ma mb hab pa pb ga gb =>
      (pair_budget hS hT t a b hab ma mb pa pb ga gb).2.2.1 o⟩

/-- **C162.** Players that drift, without obstacles of the scenario: momentum of all players together is constant and kinetic
energy does not grow over the whole simulation. -/
theorem C162_drift {cfg : Cfg (world F sc R)} {P : F.M → Prop} (hS : Solid F R cfg.dt mass inertia rest)
    (hT : Takes F R cfg.dt P) (drive : N → F.M → R.C → F.M)
    (hd : ∀ v n m c v' m', R.update v n m c cfg.dt = .ok (v', m') → m' = drive n m c)
    (hfree : ∀ v s, R.envQuery v s = []) {σ : Nat → St (world F sc R)} {j : Nat} (h0 : Ready (σ 0)) (hx : Exec cfg σ j)
    (hdrift : ∀ t n m c, (Event.drive t n m c : Event (world F sc R)) ∈ (σ j).trace → F.velocity (drive n m c) = F.velocity m)
    (henv : Dict.get? (σ 0).models F.envPlayer = none)
    (hm : ∀ n m, Dict.get? (σ 0).models n = some m → P m ∧ F.geom m = ⟨some (mass n), some (inertia n), rest n⟩) :
    total (px F mass) (σ j).models = total (px F mass) (σ 0).models ∧
    total (py F mass) (σ j).models = total (py F mass) (σ 0).models ∧
    total (energy F mass inertia) (σ j).models ≤ total (energy F mass inertia) (σ 0).models := by
  have hw : ∀ f : N → F.M → K, (∀ n m m', F.velocity m' = F.velocity m → f n m' = f n m) →
      work (Wd := world F sc R) f drive (σ j).trace = 0 := by
    intro f hf
    unfold work
    refine List.sum_eq_zero fun x hx => ?_
    obtain ⟨e, he, rfl⟩ := List.mem_map.mp hx
    cases e with
    | drive t n m c => exact sub_eq_zero.mpr (hf n m _ (hdrift t n m c he))
    | _ => rfl
  obtain ⟨m1, m2, -⟩ := C162_momentum hS hT drive hd hfree h0 hx henv hm
  have hE := C162_energy hS hT drive hd h0 hx henv hm
  rw [hw _ fun n m m' h => by simp only [px, h], add_zero] at m1
  rw [hw _ fun n m m' h => by simp only [py, h], add_zero] at m2
  rw [hw _ fun n m m' h => by simp only [energy, h], add_zero] at hE
  exact ⟨m1, m2, hE⟩

/-! ## A concrete case: the cars of `Toy` without the wall -/

namespace Cars

/-- The cars of `Toy`, drifting, without the wall. -/
abbrev parts : Parts Nat ℚ toyF.M toyF.S := { Toy.parts with
  ask := fun a _ => .ok (a + 1, 0, a)
  envQuery := fun _ _ => [] }

def drive (_ : Nat) (m : toyF.M) (c : ℚ) : toyF.M :=
  ((m.1 + m.2.1.1.1 * (1 / 2), ((m.2.1.1.1 + c * (1 / 2), m.2.1.1.2), m.2.1.2), m.2.2) : ℚ × ((ℚ × ℚ) × ℚ) × Bool)

abbrev cfg : Cfg (world toyF true parts) where
  dt := 1 / 2
  dtCommands := 1
  maxSimTime := 6
  afterCollision := 4
  missions := []

def start : St (world toyF true parts) where
  models := Toy.start.models
  players := [0, 1, 2]
  w := (fun _ => (0 : Nat), ())
  time := 0
  terminated := false
  reports := []
  firstColl := none
  lastObs := ⟨[], 0⟩
  lastCmdTs := none
  lastCmds := []
  logger := []
  trace := []

def σ : Nat → St (world toyF true parts)
  | 0 => Sim.Toy.orElse start (initLoop start start.players)
  | j + 1 => Sim.Toy.orElse (σ j) (step cfg (σ j))

theorem fresh : Fresh start where
  time := rfl
  terminated := rfl
  reports := rfl
  firstColl := rfl
  lastCmdTs := rfl
  wfModels := by unfold Dict.Wf; decide
  players := by decide
  keys := by intro n; rfl
  trace := rfl

theorem ready : Ready (σ 0) := by
  have h : initLoop start start.players = .ok (σ 0) := Sim.Toy.eq_ok start (by decide +kernel)
  exact ((safe_initLoop_fresh start fresh).ok h).1

theorem exec : Exec cfg σ 4 := by
  intro i hi
  have h : ∀ i < 4, (σ i).terminated = false ∧ Sim.Toy.isOk (step cfg (σ i)) = true := by decide +kernel
  exact ⟨(h i hi).1, Sim.Toy.eq_ok (σ i) (h i hi).2⟩

/-- Cars 0 and 1 collide. -/
theorem story : (σ 4).reports.map (fun r => (r.players, r.data.isSome)) = [([0, 1], true)] := by decide +kernel

theorem solid : Solid toyF parts (1 / 2) (fun _ => 2) (fun _ => 3) (fun _ => 1 / 2) where
  mark := toyF_markOk
  velocity _ _ _ := rfl
  update _ _ _ _ _ _ _ := rfl
  mass _ := by norm_num
  inertia _ := by norm_num
  rest _ := by norm_num
  normal := (Toy.solid 1).normal
  obstacles v s o ho := by cases ho

theorem takes : Takes toyF parts (1 / 2) (fun _ => True) where
  mark _ _ := trivial
  markVelocity _ _ := rfl
  set _ _ _ _ := trivial
  update _ _ _ _ _ _ _ _ := trivial
  velocity m _ := toyF_velOk m

theorem drives : ∀ v n m c v' m', parts.update v n m c (1 / 2) = .ok (v', m') → m' = drive n m c := by
  intro v n m c v' m' h
  injection h with h
  injection h with _ h
  exact h.symm

theorem env : Dict.get? (σ 0).models toyF.envPlayer = none := by decide +kernel

-- the momentum after the collision is that before, although the velocities have changed
example : total (px toyF (fun _ => 2)) (σ 4).models = total (px toyF (fun _ => 2)) (σ 0).models +
      work (Wd := world toyF true parts) (px toyF (fun _ => 2)) drive (σ 4).trace ∧
    total (px toyF (fun _ => 2)) (σ 0).models = 8 ∧ total (energy toyF (fun _ => 2) (fun _ => 3)) (σ 0).models = 24 ∧
    total (energy toyF (fun _ => 2) (fun _ => 3)) (σ 4).models < 24 := by
  refine ⟨(C162_momentum (P := fun _ => True) solid takes drive drives (fun _ _ => rfl) ready exec env
    (fun _ _ _ => ⟨trivial, rfl⟩)).1, ?_, ?_, ?_⟩ <;> decide +kernel

example : total (energy toyF (fun _ => 2) (fun _ => 3)) (σ 4).models ≤ total (energy toyF (fun _ => 2) (fun _ => 3)) (σ 0).models +
      work (Wd := world toyF true parts) (energy toyF (fun _ => 2) (fun _ => 3)) drive (σ 4).trace :=
  C162_energy (cfg := cfg) (σ := σ) (P := fun _ => True) (mass := fun _ => 2) (inertia := fun _ => 3)
    (rest := fun _ => 1 / 2) solid takes drive drives ready exec env (fun _ _ _ => ⟨trivial, rfl⟩)

-- the commands are zero: the cars drift
example : total (px toyF (fun _ => 2)) (σ 4).models = total (px toyF (fun _ => 2)) (σ 0).models := by
  refine (C162_drift (P := fun _ => True) solid takes drive drives (fun _ _ => rfl) ready exec ?_ env
    (fun _ _ _ => ⟨trivial, rfl⟩)).1
  have h : (σ 4).trace.all (fun e => match e with
      | .drive _ n m c => decide (toyF.velocity (drive n m c) = toyF.velocity m)
      | _ => true) = true := by decide +kernel
  intro t n m c he
  exact of_decide_eq_true (List.all_eq_true.mp h _ he)

end Cars

end Budget
end Whole
end Verif

namespace Verif
namespace Whole
namespace Fleet

open Phys Coll Sim Budget

variable {N : Type} [DecidableEq N] {A : Allowed} {E : Surroundings N} {tab : Tableau ℝ} {pace : Pace A E.G.S}
  {R : Crew N E.G.S} {sc : Bool} {mass inertia rest : N → ℝ}

/-- Specification: spacecraft, spaceships and moving obstacles. -/
def Free : Machine A → Prop
  | .craft .. => True
  | .ship .. => True
  | .obstacle .. => True
  | _ => False

theorem free_of_kind {m m' : Machine A} (h : SameKind m m') : Free m → Free m' := by
  cases h <;> exact id

/-- **C162.** Spacecraft, spaceships and moving obstacles take the velocities that collisions give them. -/
theorem C162_free (dt : ℝ) : Takes (fleet E A) (parts E A tab pace R) dt (fun m => Free m.machine) where
  mark _ h := h
  markVelocity _ _ := rfl
  set m v w h := free_of_kind (kind_setVelocity m.machine v w) h
  update v n m c v' m' hu h := by
    obtain ⟨x, hx, rfl⟩ := parts_update hu
    exact free_of_kind (kind_update hx) h
  velocity m h := by
    obtain ⟨k, o, g, b⟩ := m
    constructor
    · intro v w
      cases k with
      | craft p lo hi a m iz s =>
        exact Prod.ext (C47_spacecraft s v w false false).2.2.1 (C47_spacecraft s v w false false).2.1
      | ship p s => exact Prod.ext (C47_spaceship s v w false false).2.2.1 (C47_spaceship s v w false false).2.1
      | obstacle p lo hi s =>
        exact Prod.ext (C47_dynObstacle s v w false false).2.2.1 (C47_dynObstacle s v w false false).2.1
      | _ => exact h.elim
    · intro v w
      cases k <;> rfl

/-- The model after driving, where `update` succeeds. -/
noncomputable def after (tab : Tableau ℝ) (pace : Pace A E.G.S) (dt : ℝ) (_ : N) (m : Body A E.G.S) (c : AnyCmd) : Body A E.G.S :=
  match m.machine.update tab m.collided (pace m c dt) c with
  | .ok x => { m with machine := x }
  | .error _ => m

/-- **C162.** Simulations of spacecraft, spaceships and moving obstacles with obstacles of the scenario that do not move: the
kinetic energy of all players together is at most that at the start and what driving has added; without obstacles of the
scenario, momentum and angular momentum about any point of all players together are exactly those at the start and what driving
has added. -/
theorem C162_fleet {cfg : Cfg (world (fleet E A) sc (parts E A tab pace R))}
    {σ : Nat → St (world (fleet E A) sc (parts E A tab pace R))} {j : Nat} (h0 : Ready (σ 0)) (hx : Exec cfg σ j)
    (hmass : ∀ n, 0 < mass n) (hinertia : ∀ n, 0 < inertia n) (hrest : ∀ n, 0 ≤ rest n ∧ rest n ≤ 1)
    (hobs : ∀ v s o, o ∈ R.envQuery v s → ∃ e, o.2 = ⟨none, none, e⟩ ∧ 0 ≤ e ∧ e ≤ 1)
    (henv : Dict.get? (σ 0).models E.envPlayer = none)
    (hm : ∀ n m, Dict.get? (σ 0).models n = some m → Free m.machine ∧ m.geom = ⟨some (mass n), some (inertia n), rest n⟩) :
    let W := world (fleet E A) sc (parts E A tab pace R)
    let drive := after tab pace cfg.dt
    total (energy (fleet E A) mass inertia) (σ j).models ≤
      total (energy (fleet E A) mass inertia) (σ 0).models + work (Wd := W) (energy (fleet E A) mass inertia) drive (σ j).trace ∧
    ((∀ v s, R.envQuery v s = []) →
      total (px (fleet E A) mass) (σ j).models =
        total (px (fleet E A) mass) (σ 0).models + work (Wd := W) (px (fleet E A) mass) drive (σ j).trace ∧
      total (py (fleet E A) mass) (σ j).models =
        total (py (fleet E A) mass) (σ 0).models + work (Wd := W) (py (fleet E A) mass) drive (σ j).trace ∧
      ∀ o, total (spin (fleet E A) mass inertia o) (σ j).models =
        total (spin (fleet E A) mass inertia o) (σ 0).models +
          work (Wd := W) (spin (fleet E A) mass inertia o) drive (σ j).trace) := by
  intro W drive
  have hS : Solid (fleet E A) (parts E A tab pace R) cfg.dt mass inertia rest :=
    { mark := ⟨fun _ => rfl, fun _ => rfl, fun _ => rfl⟩
      velocity := fun _ _ _ => rfl
      update := fun v n m c v' m' h => by
        obtain ⟨x, -, rfl⟩ := parts_update h
        rfl
      mass := hmass
      inertia := hinertia
      rest := hrest
      normal := fun s s' n p h => by
        change geometryOf E.G s s' = .ok (n, p) at h
        unfold geometryOf at h
        split at h
        · cases h
        · rename_i n' p' hg
          injection h with h
          injection h with h1 h2
          subst h1
          exact (C73_normal E.G s s' _ _ hg).1
        · cases h
      obstacles := hobs }
  have hd : ∀ v n m c v' m', (parts E A tab pace R).update v n m c cfg.dt = .ok (v', m') → m' = drive n m c := by
    intro v n m c v' m' h
    obtain ⟨x, hx, rfl⟩ := parts_update h
    simp only [drive, after, hx]
  exact ⟨C162_energy hS (C162_free cfg.dt) drive hd h0 hx henv hm,
    fun hfree => C162_momentum hS (C162_free cfg.dt) drive hd hfree h0 hx henv hm⟩

/-- Specification: place, velocity along the axes and rotation that the state of a spacecraft, a spaceship or a moving obstacle
tells; their states have velocities along their own axes. -/
noncomputable def planar : Machine A → (ℝ × ℝ) × (ℝ × ℝ) × ℝ
  | .craft _ _ _ _ _ _ s => ((s.x, s.y),
      (Real.cos s.psi * s.vx - Real.sin s.psi * s.vy, Real.sin s.psi * s.vx + Real.cos s.psi * s.vy), s.dpsi)
  | .ship _ s => ((s.x, s.y),
      (Real.cos s.psi * s.vx - Real.sin s.psi * s.vy, Real.sin s.psi * s.vx + Real.cos s.psi * s.vy), s.dpsi)
  | .obstacle _ _ _ s => ((s.x, s.y),
      (Real.cos s.psi * s.vx - Real.sin s.psi * s.vy, Real.sin s.psi * s.vx + Real.cos s.psi * s.vy), s.dpsi)
  | m => (m.pose.1, m.velocity)

/-- Specification: the momenta and the energy of a state. -/
noncomputable def momentumX (mass : N → ℝ) (n : N) (m : Body A E.G.S) : ℝ := mass n * (planar m.machine).2.1.1
noncomputable def momentumY (mass : N → ℝ) (n : N) (m : Body A E.G.S) : ℝ := mass n * (planar m.machine).2.1.2
noncomputable def angular (mass inertia : N → ℝ) (o : ℝ × ℝ) (n : N) (m : Body A E.G.S) : ℝ :=
  ((planar m.machine).1.1 - o.1) * momentumY (E := E) mass n m - ((planar m.machine).1.2 - o.2) * momentumX (E := E) mass n m +
    inertia n * (planar m.machine).2.2
noncomputable def kineticOf (mass inertia : N → ℝ) (n : N) (m : Body A E.G.S) : ℝ :=
  (mass n * ((planar m.machine).2.1.1 ^ 2 + (planar m.machine).2.1.2 ^ 2) + inertia n * (planar m.machine).2.2 ^ 2) / 2

theorem planar_eq (m : Machine A) : planar m = (m.pose.1, m.velocity) := by
  cases m <;> simp [planar, Machine.pose, Machine.velocity, SpacecraftState.getVelocity, SpaceshipState.getVelocity,
    DynObstacleState.getVelocity, outFrame, rotBy]

omit [DecidableEq N] in
theorem momentumX_eq (mass : N → ℝ) : px (fleet E A) mass = momentumX (E := E) mass := by
  funext n m; simp only [px, momentumX, planar_eq]

omit [DecidableEq N] in
theorem momentumY_eq (mass : N → ℝ) : py (fleet E A) mass = momentumY (E := E) mass := by
  funext n m; simp only [py, momentumY, planar_eq]

omit [DecidableEq N] in
theorem angular_eq (mass inertia : N → ℝ) (o : ℝ × ℝ) : spin (fleet E A) mass inertia o = angular (E := E) mass inertia o := by
  funext n m; simp only [spin, angular, momentumX, momentumY, planar_eq]

omit [DecidableEq N] in
theorem kineticOf_eq (mass inertia : N → ℝ) : energy (fleet E A) mass inertia = kineticOf (E := E) mass inertia := by
  funext n m
  simp only [energy, kineticOf, planar_eq, kinetic]
  ring

/-- **C162** in terms of the states of the models. -/
theorem C162_states {cfg : Cfg (world (fleet E A) sc (parts E A tab pace R))}
    {σ : Nat → St (world (fleet E A) sc (parts E A tab pace R))} {j : Nat} (h0 : Ready (σ 0)) (hx : Exec cfg σ j)
    (hmass : ∀ n, 0 < mass n) (hinertia : ∀ n, 0 < inertia n) (hrest : ∀ n, 0 ≤ rest n ∧ rest n ≤ 1)
    (hobs : ∀ v s o, o ∈ R.envQuery v s → ∃ e, o.2 = ⟨none, none, e⟩ ∧ 0 ≤ e ∧ e ≤ 1)
    (henv : Dict.get? (σ 0).models E.envPlayer = none)
    (hm : ∀ n m, Dict.get? (σ 0).models n = some m → Free m.machine ∧ m.geom = ⟨some (mass n), some (inertia n), rest n⟩) :
    let W := world (fleet E A) sc (parts E A tab pace R)
    let drive := after tab pace cfg.dt
    total (kineticOf (E := E) mass inertia) (σ j).models ≤
      total (kineticOf (E := E) mass inertia) (σ 0).models + work (Wd := W) (kineticOf (E := E) mass inertia) drive (σ j).trace ∧
    ((∀ v s, R.envQuery v s = []) →
      total (momentumX (E := E) mass) (σ j).models =
        total (momentumX (E := E) mass) (σ 0).models + work (Wd := W) (momentumX (E := E) mass) drive (σ j).trace ∧
      total (momentumY (E := E) mass) (σ j).models =
        total (momentumY (E := E) mass) (σ 0).models + work (Wd := W) (momentumY (E := E) mass) drive (σ j).trace ∧
      ∀ o, total (angular (E := E) mass inertia o) (σ j).models =
        total (angular (E := E) mass inertia o) (σ 0).models +
          work (Wd := W) (angular (E := E) mass inertia o) drive (σ j).trace) := by
  have h := C162_fleet h0 hx hmass hinertia hrest hobs henv hm
  simp only [momentumX_eq, momentumY_eq, angular_eq, kineticOf_eq] at h
  exact h

/-! ## Kinematic vehicles -/

namespace Crash

/-- Points, of which each contains every other. -/
noncomputable abbrev spots : Surroundings Nat where
  G := { S := ℝ × ℝ, intersection := fun _ _ => .other, touches := fun _ _ => false, contains := fun _ _ => true,
         centroid := id, inside := fun _ _ => true }
  L := Unit
  Lane := Unit
  place _ q := q.1
  sides s := [((), s)]
  intersects _ _ := true
  lanesAt _ := []
  lanePose _ _ := (true, true)
  toPolygon s := .ok s
  everywhere := ()
  envPlayer := 99

/-- A vehicle of wheelbase 1 on the first axis. -/
noncomputable def vehicle (x v delta : ℝ) : Body Parked.some6 (ℝ × ℝ) :=
  ⟨.car 1 1 Parked.limits true ⟨x, 0, 0, v, delta⟩, (0, 0), ⟨some 1, some 1, 1⟩, false⟩

theorem geometry : geometryOf spots.G ((0, 0) : ℝ × ℝ) ((1, 0) : ℝ × ℝ) = .ok ((1, 0), (1, 0)) := by
  have h : norm2 ((1, 0) : ℝ × ℝ) = 1 := by simp [norm2]
  have h' : impactGeometry spots.G ((0, 0) : ℝ × ℝ) ((1, 0) : ℝ × ℝ) = .ok (some (1, 0), (1, 0)) := by
    simp [impactGeometry, Coll.normalize, h, orient]
  simp [geometryOf, h']

/-- **C162 does not hold for kinematic vehicles.** A vehicle of mass 1 with speed 1 hits from behind a vehicle at rest that has
turned its wheels by 45 degrees. The impulse is along the first axis; but what is stored is only the forward speed of the second
vehicle, which then moves sideways and turns as its wheels are: momentum appears along the second axis and the kinetic energy
grows from 1/2 to 3/2. -/
theorem C162_false_vehicle :
    let r := (Coll.resolve (fleet spots Parked.some6) true 0 1 (vehicle 0 1 0) 2 (vehicle 1 0 (Real.pi / 4))).1
    let before := fun f : Nat → Body Parked.some6 (ℝ × ℝ) → ℝ => f 1 (vehicle 0 1 0) + f 2 (vehicle 1 0 (Real.pi / 4))
    let after := fun f : Nat → Body Parked.some6 (ℝ × ℝ) → ℝ => f 1 r.1 + f 2 r.2
    before (py (fleet spots Parked.some6) (fun _ => 1)) = 0 ∧ after (py (fleet spots Parked.some6) (fun _ => 1)) = 1 ∧
    before (energy (fleet spots Parked.some6) (fun _ => 1) (fun _ => 1)) = 1 / 2 ∧
    after (energy (fleet spots Parked.some6) (fun _ => 1) (fun _ => 1)) = 3 / 2 := by
  intro r before after
  have hr : r = ({ vehicle 0 0 0 with collided := true }, { vehicle 1 1 (Real.pi / 4) with collided := true }) := by
    have hg := geometry
    dsimp only [spots] at hg
    simp only [r, Coll.resolve, vehicle, Machine.pose, hg]
    simp [Machine.velocity, VehicleState.getVelocity, outFrame, rotBy, velocityOfP, armTo, dot, impactLocations,
      Machine.sided, impulse, velocityAfter, omegaAfter, cross, recip, Machine.setVelocity, VehicleState.setVelocity, inFrame]
    norm_num
  simp only [before, after, hr]
  simp [py, energy, kinetic, vehicle, Machine.velocity, VehicleState.getVelocity, outFrame, rotBy, Real.tan_pi_div_four]
  norm_num

/-! ## A concrete case: two spacecraft that collide -/

noncomputable def craft (x v : ℝ) (b : Bool) : Body Parked.some6 (ℝ × ℝ) :=
  ⟨.craft { vxMin := -1, vxMax := 10, accMin := -2, accMax := 2 } (-1) 1 1 1 1 ⟨x, 0, 0, v, 0, 0⟩, (0, 0), ⟨some 1, some 1, 1⟩, b⟩

/-- A solver that leaves the models where they are. -/
def still : Pace Parked.some6 (ℝ × ℝ) := fun _ _ _ => []

noncomputable abbrev wd : World Nat ℝ :=
  world (fleet spots Parked.some6) true (parts spots Parked.some6 dormandPrince still Parked.crew)

noncomputable def opening : St wd where
  models := [(0, craft 0 1 false), (1, craft 1 0 false)]
  players := [0, 1]
  w := (fun _ => .craft ⟨0, 0⟩, ())
  time := 0
  terminated := false
  reports := []
  firstColl := none
  lastObs := ⟨[], 0⟩
  lastCmdTs := none
  lastCmds := []
  logger := []
  trace := []

noncomputable def cfg : Cfg wd := { dt := 3, dtCommands := 3, maxSimTime := 5, afterCollision := 4, missions := [] }

theorem resolved (t : ℝ) : ∃ rep, Coll.resolve (fleet spots Parked.some6) true t 0 (craft 0 1 false) 1 (craft 1 0 false) =
    ((craft 0 0 true, craft 1 1 true), .ok (some rep)) := by
  have hg := geometry
  dsimp only [spots] at hg
  simp only [Coll.resolve, craft, Machine.pose, hg]
  simp [Machine.velocity, SpacecraftState.getVelocity, outFrame, rotBy, velocityOfP, armTo, dot, impactLocations,
    Machine.sided, impulse, velocityAfter, omegaAfter, cross, recip, Machine.setVelocity, SpacecraftState.setVelocity, inFrame]
  norm_num

theorem waits (x v : ℝ) (b : Bool) : (craft x v b).machine.update dormandPrince b [] (.craft ⟨0, 0⟩) = .ok (craft x v b).machine := by
  simp only [craft, Machine.update, spacecraftCall]
  rw [C149_refines _ _ (C94_spacecraft _ _ _ _ _ _ _) spacecraft_linear]
  rfl

theorem crashes : ∃ s0 s1, initLoop opening opening.players = .ok s0 ∧ s0.terminated = false ∧ s0.models = opening.models ∧
    step cfg s0 = .ok s1 ∧ s1.models = [(0, craft 0 0 true), (1, craft 1 1 true)] := by
  have h53 : ¬ (5 : ℝ) < 3 := by norm_num
  obtain ⟨rep, hr⟩ := resolved 3
  have h1 := waits 0 1 false
  have h2 := waits 1 0 false
  have hc : ∀ x v b, (craft x v b).collided = b := fun _ _ _ => rfl
  have he : ∀ x v b, (⟨(craft x v b).machine, (craft x v b).outline, (craft x v b).geom, b⟩ :
    Body Parked.some6 (ℝ × ℝ)) = craft x v b := fun _ _ _ => rfl
  simp [initLoop, opening, cfg, step, preUpdate, need, observe, lookup, Dict.get?, liftU,
    Sim.update, updateLoop, updatePlayer, addLog, Builder.add, maybeAsk, askPlayer, addExtra, Dict.set, postUpdate,
    removeLoop, terminationCondition, collTimer, bind, Except.bind, pure, Except.pure, h53, still, hc, he, h1, h2, Except.map,
    envLoop, envObstacles, pairLoop, combinations2, checkPair, reportOf, recordReport, hr]

theorem fresh : Fresh opening := by
  constructor <;> simp [opening, Dict.keys, Dict.Wf]

-- the first spacecraft stops, the second one moves on: the momentum is the same
example : ∃ (σ : Nat → St wd), Exec cfg σ 1 ∧ (σ 1).models = [(0, craft 0 0 true), (1, craft 1 1 true)] ∧
    total (momentumX (E := spots) (fun _ => 1)) (σ 1).models =
      total (momentumX (E := spots) (fun _ => 1)) (σ 0).models +
        work (Wd := wd) (momentumX (E := spots) (fun _ => 1)) (after dormandPrince still cfg.dt) (σ 1).trace := by
  obtain ⟨s0, s1, h1, h2, h3, h4, h5⟩ := crashes
  let σ : Nat → St wd := fun k => if k = 0 then s0 else s1
  have hx : Exec cfg σ 1 := by
    intro i hi
    have : i = 0 := by omega
    subst this
    exact ⟨h2, h4⟩
  have hready : Ready (σ 0) := ((safe_initLoop_fresh opening fresh).ok h1).1
  have hmodels : (σ 0).models = [(0, craft 0 1 false), (1, craft 1 0 false)] := h3
  refine ⟨σ, hx, h5, ((C162_states (mass := fun _ => 1) (inertia := fun _ => 1) (rest := fun _ => 1) hready hx
    (fun _ => by norm_num) (fun _ => by norm_num) (fun _ => by norm_num) ?_ ?_ ?_).2 (fun _ _ => rfl)).1⟩
  · intro v s o ho
    cases ho
  · rw [hmodels]
    rfl
  · intro n m hn
    rw [hmodels] at hn
    simp only [Dict.get?] at hn
    split_ifs at hn <;> (injection hn with hn; subst hn; exact ⟨trivial, rfl⟩)

end Crash

end Fleet
end Whole
end Verif
