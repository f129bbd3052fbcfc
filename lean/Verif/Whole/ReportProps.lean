import Verif.Whole.FlagProps

/-!
# C98: the collisions recorded in a run obey mechanics
-/

namespace Verif
namespace Whole

open Sim Coll

set_option linter.unusedSectionVars false

variable {N K : Type} [DecidableEq N] [Field K] [LinearOrder K] [IsStrictOrderedRing K] {F : Iface N K}
  {sc : Bool} {R : Parts N K F.M F.S}

/-- Specification: kinetic energy of a body with velocity and rate of rotation. -/
def kinetic (m I : K) (v : (K × K) × K) : K := 1 / 2 * m * (v.1.1 ^ 2 + v.1.2 ^ 2) + 1 / 2 * I * v.2 ^ 2

/-- Specification: the report tells the velocities of the players `a` and `b` before and after; the
momentum of both together is the same, the kinetic energy of both together has not grown. -/
def Bounce (mass inertia : N → K) (c : CollisionReport N K F.L F.S) (a b : N) : Prop :=
  ∃ ra rb, Dict.get? c.players a = some (some ra) ∧ Dict.get? c.players b = some (some rb) ∧
    mass a * ra.velocityAfter.1.1 + mass b * rb.velocityAfter.1.1 =
      mass a * ra.velocity.1.1 + mass b * rb.velocity.1.1 ∧
    mass a * ra.velocityAfter.1.2 + mass b * rb.velocityAfter.1.2 =
      mass a * ra.velocity.1.2 + mass b * rb.velocity.1.2 ∧
    kinetic (mass a) (inertia a) ra.velocityAfter + kinetic (mass b) (inertia b) rb.velocityAfter ≤
      kinetic (mass a) (inertia a) ra.velocity + kinetic (mass b) (inertia b) rb.velocity

/-- Specification: the report blames `a`, whose kinetic energy has not grown; the environment did not
move. -/
def Crash (mass inertia : N → K) (c : CollisionReport N K F.L F.S) (a : N) : Prop :=
  ∃ ra re, Dict.get? c.players a = some (some ra) ∧ Dict.get? c.players F.envPlayer = some (some re) ∧
    ra.atFault = true ∧ re.atFault = false ∧
    re.velocity = ((0, 0), 0) ∧ re.velocityAfter = ((0, 0), 0) ∧
    kinetic (mass a) (inertia a) ra.velocityAfter ≤ kinetic (mass a) (inertia a) ra.velocity

/-- The players are rigid bodies with the given mass, moment of inertia and restitution, the obstacles are
immovable, and normals are unit vectors (see C40). -/
structure Solid (F : Iface N K) (R : Parts N K F.M F.S) (dt : K) (mass inertia rest : N → K) : Prop where
  mark : MarkOk F
  velocity : ∀ m v o, F.geom (F.setVelocity m v o) = F.geom m
  update : ∀ v n m c v' m', R.update v n m c dt = .ok (v', m') → F.geom m' = F.geom m
  mass : ∀ n, 0 < mass n
  inertia : ∀ n, 0 < inertia n
  rest : ∀ n, 0 ≤ rest n ∧ rest n ≤ 1
  normal : ∀ s s' n p, F.impactGeometry s s' = .ok (n, p) → n.1 ^ 2 + n.2 ^ 2 = 1
  obstacles : ∀ v s o, o ∈ R.envQuery v s → ∃ e, o.2 = ⟨none, none, e⟩ ∧ 0 ≤ e ∧ e ≤ 1

variable {mass inertia rest : N → K}

theorem bounce_of_resolve {dt : K} (hS : Solid F R dt mass inertia rest) (t : K) (a b : N) (hab : a ≠ b)
    (ma mb : F.M) (ha : F.geom ma = ⟨some (mass a), some (inertia a), rest a⟩)
    (hb : F.geom mb = ⟨some (mass b), some (inertia b), rest b⟩) (c : CollisionReport N K F.L F.S)
    (h : (Coll.resolve F sc t a ma b mb).2 = .ok (some c)) :
    c.atTime = t ∧ Dict.keys c.players = [a, b] ∧ Bounce mass inertia c a b := by
  cases hg : F.impactGeometry (F.footprint ma) (F.footprint mb) with
  | error e => rw [(C37_untouched F sc t a b ma mb).1 e hg] at h; cases h
  | ok np =>
    obtain ⟨n, p⟩ := np
    by_cases happ : approach (bodyOf F ma (mass a) (inertia a)) (bodyOf F mb (mass b) (inertia b)) p n < 0
    · rw [(C37_untouched F sc t a b ma mb).2 n p _ _ _ _ hg happ] at h
      simp at h
    have happ := not_lt.mp happ
    by_cases hl : hitParts F ma (F.footprint mb) = [] ∨ hitParts F mb (F.footprint ma) = []
    · rw [C37_no_location F hS.mark sc t a b ma mb n p _ _ _ _ hg happ hl] at h
      simp at h
    obtain ⟨hla, hlb⟩ := not_or.mp hl
    obtain ⟨r', fa, fb, hr, h1, -, -, h2, ⟨ra, ea1, ea2, ea3, -⟩, ⟨rb, eb1, eb2, eb3, -⟩, -⟩ :=
      C37_resolved F hS.mark sc t a b hab ma mb n p _ _ _ _ _ _ ha hb hg happ hla hlb
    rw [hr] at h
    injection h with h
    injection h with h
    subst h
    have hn := hS.normal _ _ _ _ hg
    set A := bodyOf F ma (mass a) (inertia a) with hA
    set B := bodyOf F mb (mass b) (inertia b) with hB
    obtain ⟨m1, m2, -⟩ := C34_momentum A B p n (impulseOf A B (rest a) (rest b) p n) (hS.mass a).ne'
      (hS.mass b).ne' (hS.inertia a).ne' (hS.inertia b).ne'
    have hE := (C36_energy A B (rest a) (rest b) p n (hS.mass a) (hS.mass b) (hS.inertia a)
      (hS.inertia b) hn (hS.rest a) (hS.rest b)).1
    refine ⟨h1, h2, ra, rb, ea1, eb1, ?_, ?_, ?_⟩
    · rw [ea2, ea3, eb2, eb3]; exact m1
    · rw [ea2, ea3, eb2, eb3]; exact m2
    · rw [ea2, ea3, eb2, eb3]
      exact hE

theorem crash_of_resolve {dt : K} (hS : Solid F R dt mass inertia rest) (t : K) (a : N)
    (hae : a ≠ F.envPlayer) (ma : F.M) (ha : F.geom ma = ⟨some (mass a), some (inertia a), rest a⟩)
    (s : F.S) (g : Geom K) (eb : K) (hgb : g = ⟨none, none, eb⟩) (he : 0 ≤ eb ∧ eb ≤ 1)
    (c : CollisionReport N K F.L F.S) (h : (Coll.resolveEnv F t a ma s g).2 = .ok (some c)) :
    c.atTime = t ∧ Dict.keys c.players = [a, F.envPlayer] ∧ Crash mass inertia c a := by
  subst hgb
  cases hg : F.impactGeometry (F.footprint ma) s with
  | error e => rw [(C38_untouched F hS.mark t a ma s _).1 e hg] at h; cases h
  | ok np =>
    obtain ⟨n, p⟩ := np
    obtain ⟨u1, u2⟩ := (C38_untouched F hS.mark t a ma s ⟨none, none, eb⟩).2 n p (mass a) (inertia a) hg
    by_cases happ : normalVel (bodyOf F ma (mass a) (inertia a)) p n < 0
    · rw [u1 happ] at h
      simp at h
    have happ := not_lt.mp happ
    by_cases hl : hitParts F ma s = []
    · rw [u2 happ hl] at h
      simp at h
    cases hs : F.toPolygon s with
    | error e =>
      exfalso
      unfold Coll.resolveEnv at h
      simp only [hg, hs] at h
      split at h
      · cases h
      · split at h <;> cases h
    | ok poly =>
      obtain ⟨r', re, hr, h1, -, -, h2, ⟨ra, ea1, ea2, ea3, -, ea4, -⟩, e1, e2, e3, e4, -⟩ :=
        C38_resolved F hS.mark t a hae ma s poly n p _ _ _ eb ha hg happ hl hs
      rw [hr] at h
      injection h with h
      injection h with h
      subst h
      refine ⟨h1, h2, ra, re, ea1, e1, ea4, e2, e3, e4, ?_⟩
      rw [ea2, ea3]
      exact (C38_physics (bodyOf F ma (mass a) (inertia a)) (rest a) eb p n (hS.mass a) (hS.inertia a)
        (hS.normal _ _ _ _ hg)).2 (hS.rest a) he

/-- Specification: what C98 says of one report. -/
def Mechanical (F : Iface N K) (sc : Bool) (R : Parts N K F.M F.S) (mass inertia : N → K)
    (r : Report (world F sc R)) : Prop :=
  ∀ c : CollisionReport N K F.L F.S, r.data = some c → c.atTime = r.atTime ∧
    Dict.keys c.players = r.players ∧
    ((∃ a b, r.players = [a, b] ∧ a ≠ b ∧ Bounce mass inertia c a b) ∨
      ∃ a, r.players = [a, F.envPlayer] ∧ Crash mass inertia c a)

theorem mechanical_closed (cfg : Cfg (world F sc R)) (hS : Solid F R cfg.dt mass inertia rest) :
    Closed cfg (fun s : St (world F sc R) => s.players.Nodup ∧
      (Dict.get? s.models F.envPlayer = none ∧
        (∀ n m, Dict.get? s.models n = some m → F.geom m = ⟨some (mass n), some (inertia n), rest n⟩) ∧
        ∀ r ∈ s.reports, Mechanical F sc R mass inertia r)) := by
  have hmv : ∀ m v o, F.geom (F.setVelocity (F.mark m) v o) = F.geom m := fun m v o => by
    rw [hS.velocity, hS.mark.geom]
  have env_geom : ∀ t a m s g, F.geom (Coll.resolveEnv F t a m s g).1 = F.geom m := by
    intro t a m s g
    unfold Coll.resolveEnv
    dsimp only
    split
    · rfl
    · split
      · rfl
      · split
        · exact hS.mark.geom m
        · split <;> exact hmv _ _ _
  have pair_geom : ∀ t a ma b mb, F.geom (Coll.resolve F sc t a ma b mb).1.1 = F.geom ma ∧
      F.geom (Coll.resolve F sc t a ma b mb).1.2 = F.geom mb := by
    intro t a ma b mb
    unfold Coll.resolve
    dsimp only
    split
    · exact ⟨rfl, rfl⟩
    · split
      · exact ⟨rfl, rfl⟩
      · split
        · exact ⟨hS.mark.geom ma, hS.mark.geom mb⟩
        · split
          · exact ⟨hS.mark.geom ma, hS.mark.geom mb⟩
          · exact ⟨hmv _ _ _, hmv _ _ _⟩
  refine closed_models cfg (fun (d : Dict N F.M) (rs : List (Report (world F sc R))) =>
    Dict.get? d F.envPlayer = none ∧
      (∀ n m, Dict.get? d n = some m → F.geom m = ⟨some (mass n), some (inertia n), rest n⟩) ∧
      ∀ r ∈ rs, Mechanical F sc R mass inertia r) ?_ ?_ ?_
  · rintro w n m c w' m' d rs hm hu ⟨q1, q2, q3⟩
    have hne : n ≠ F.envPlayer := by rintro rfl; rw [q1] at hm; cases hm
    have hg : F.geom m' = F.geom m := by
      change (match R.update w.2 n m c cfg.dt with
        | .error e => .error e
        | .ok (v, m') => .ok ((w.1, v), m')) = Except.ok (w', m') at hu
      cases h : R.update w.2 n m c cfg.dt with
      | error e => rw [h] at hu; cases hu
      | ok q =>
        obtain ⟨v, m2⟩ := q
        rw [h] at hu
        injection hu with hu
        injection hu with _ e2
        subst e2
        exact hS.update _ _ _ _ _ _ h
    refine ⟨by rw [Dict.get?_set_ne _ hne]; exact q1, ?_, q3⟩
    intro k mk hk
    rw [Dict.get?_set] at hk
    split at hk
    · rename_i e
      subst e
      injection hk with hk
      subst hk
      rw [hg]; exact q2 _ m hm
    · exact q2 k mk hk
  · rintro w p m o t d rs rep hm ⟨w', x, ho⟩ hr ⟨q1, q2, q3⟩
    have hne : p ≠ F.envPlayer := by rintro rfl; rw [q1] at hm; cases hm
    change reportOf [p, F.envPlayer] [p] t (Coll.resolveEnv F t p m o.1 o.2).2 = .ok rep at hr
    refine ⟨by rw [Dict.get?_set_ne _ hne]; exact q1, ?_, ?_⟩
    · intro k mk hk
      rw [Dict.get?_set] at hk
      split at hk
      · rename_i e
        subst e
        injection hk with hk
        subst hk
        exact (env_geom t p m o.1 o.2).trans (q2 _ m hm)
      · exact q2 k mk hk
    · intro r hr'
      rw [List.mem_append] at hr'
      rcases hr' with hr' | hr'
      · exact q3 r hr'
      · split at hr'
        · simp at hr'
        · intro c hc
          rcases reportOf_cases hr with ⟨-, h1⟩ | ⟨d', h2, h1⟩ | ⟨-, h1⟩
          · rw [h1] at hr'; simp at hr'
          · rw [h1] at hr'
            simp only [Option.toList_some, List.mem_singleton] at hr'
            subst hr'
            injection hc with hc
            subst hc
            obtain ⟨eb, hgb, he⟩ := hS.obstacles _ _ _ ho
            obtain ⟨g1, g2, g3⟩ := crash_of_resolve hS t p hne m (q2 p m hm) o.1 o.2 eb hgb he _ h2
            exact ⟨g1, g2, Or.inr ⟨p, rfl, g3⟩⟩
          · rw [h1] at hr'
            simp only [Option.toList_some, List.mem_singleton] at hr'
            subst hr'
            cases hc
  · rintro w a b ma mb t d rs rep hab ha hb hr ⟨q1, q2, q3⟩
    have hne : a ≠ F.envPlayer := by rintro rfl; rw [q1] at ha; cases ha
    have hne' : b ≠ F.envPlayer := by rintro rfl; rw [q1] at hb; cases hb
    change reportOf [a, b] [a, b] t (Coll.resolve F sc t a ma b mb).2 = .ok rep at hr
    refine ⟨by rw [Dict.get?_set_ne _ hne', Dict.get?_set_ne _ hne]; exact q1, ?_, ?_⟩
    · intro k mk hk
      rw [Dict.get?_set] at hk
      split at hk
      · rename_i e
        subst e
        injection hk with hk
        subst hk
        exact (pair_geom t a ma _ mb).2.trans (q2 _ mb hb)
      · rw [Dict.get?_set] at hk
        split at hk
        · rename_i e
          subst e
          injection hk with hk
          subst hk
          exact (pair_geom t _ ma b mb).1.trans (q2 _ ma ha)
        · exact q2 k mk hk
    · intro r hr'
      rw [List.mem_append] at hr'
      rcases hr' with hr' | hr'
      · exact q3 r hr'
      · intro c hc
        rcases reportOf_cases hr with ⟨-, h1⟩ | ⟨d', h2, h1⟩ | ⟨-, h1⟩
        · rw [h1] at hr'; simp at hr'
        · rw [h1] at hr'
          simp only [Option.toList_some, List.mem_singleton] at hr'
          subst hr'
          injection hc with hc
          subst hc
          obtain ⟨g1, g2, g3⟩ := bounce_of_resolve hS t a b hab ma mb (q2 a ma ha) (q2 b mb hb) _ h2
          exact ⟨g1, g2, Or.inl ⟨a, b, rfl, hab, g3⟩⟩
        · rw [h1] at hr'
          simp only [Option.toList_some, List.mem_singleton] at hr'
          subst hr'
          cases hc

/-- **C98.** In every execution every recorded collision with details tells its time and its players, and
obeys mechanics: two players keep their momentum and do not gain kinetic energy; a player that runs into
the environment is blamed and does not gain kinetic energy. -/
theorem C98_mechanics {cfg : Cfg (world F sc R)} (hS : Solid F R cfg.dt mass inertia rest)
    {σ : Nat → St (world F sc R)} {j : Nat} (h0 : Ready (σ 0)) (hx : Exec cfg σ j)
    (henv : Dict.get? (σ 0).models F.envPlayer = none)
    (hgeom : ∀ n m, Dict.get? (σ 0).models n = some m →
      F.geom m = ⟨some (mass n), some (inertia n), rest n⟩) :
    ∀ r ∈ (σ j).reports, Mechanical F sc R mass inertia r := by
  refine ((mechanical_closed cfg hS).exec ⟨h0.fresh.players, henv, hgeom, ?_⟩ hx j le_rfl).2.2.2
  intro r hr
  rw [h0.fresh.reports] at hr
  simp at hr

/-- The cars of the concrete run are solid. -/
theorem Toy.solid (dt : ℚ) : Solid toyF Toy.parts dt (fun _ => 2) (fun _ => 3) (fun _ => 1 / 2) where
  mark := toyF_markOk
  velocity _ _ _ := rfl
  update _ _ _ _ _ _ _ := rfl
  mass _ := by norm_num
  inertia _ := by norm_num
  rest _ := by norm_num
  normal s s' n p h := by
    injection h with h
    injection h with h _
    subst h
    norm_num
  obstacles v s o ho := by
    change o ∈ (if (29 : ℚ) ≤ s then [((30 : ℚ), (⟨none, none, 1 / 2⟩ : Geom ℚ))] else []) at ho
    split at ho
    · simp only [List.mem_singleton] at ho
      subst ho
      exact ⟨1 / 2, rfl, by norm_num, by norm_num⟩
    · simp at ho

/-- The concrete run has a report of each kind (`Toy.story`). -/
example : ∀ r ∈ (Toy.σ 6).reports, Mechanical toyF true Toy.parts (fun _ => 2) (fun _ => 3) r :=
  C98_mechanics (Toy.solid _) Toy.ready Toy.exec (by decide +kernel) (fun _ _ _ => rfl)

end Whole
end Verif
