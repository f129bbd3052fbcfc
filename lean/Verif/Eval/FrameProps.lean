import Verif.Maps.FrameProps
import Verif.Eval.Dist
import Verif.Sim.HomProps
import Verif.Seq.MapLemmas
import Verif.Scen.Goals
import Verif.Whole.FrameProps

/-!
# C153: goals and metrics do not depend on the frame of the world
-/

set_option linter.unusedSectionVars false

namespace Verif
namespace Eval

open Maps Sim

/-! ## Distance travelled -/

theorem iterate_map {K α β : Type*} [Field K] [LinearOrder K] (f : α → β) : ∀ (ts : List K) (vs : List α),
    iterateWithDt ts (vs.map f) =
      (iterateWithDt ts vs).map (List.map fun it => ⟨it.t0, it.t1, it.dt, f it.v0, f it.v1⟩)
  | [], _ => rfl
  | [_], _ => rfl
  | t0 :: t1 :: ts, [] => rfl
  | t0 :: t1 :: ts, [v] => rfl
  | t0 :: t1 :: ts, v0 :: v1 :: vs => by
    have ih := iterate_map f (t1 :: ts) (v1 :: vs)
    simp only [List.map_cons] at ih ⊢
    simp only [iterateWithDt, ih]
    cases iterateWithDt (t1 :: ts) (v1 :: vs) <;> rfl

/-- **C153.** The distance travelled is the same in every frame. -/
theorem C153_distance {g : Mat3 ℝ} (hg : IsRigid g) {α β : Type} (pos : α → ℝ × ℝ) (pos' : β → ℝ × ℝ) (f : α → β)
    (hf : ∀ x, pos' (f x) = applyT2 g (pos x)) (s : Seq ℝ α) :
    distanceTraveled pos' (mapS f s) = distanceTraveled pos s := by
  unfold distanceTraveled
  simp only [mapS, iterate_map]
  cases iterateWithDt s.ts s.vs with
  | error e => rfl
  | ok items =>
    simp only [Except.map, List.foldl_map, hf, norm_frame hg]

/-! ## States of the log -/

section
variable {N K : Type} [DecidableEq N] [Field K] [LinearOrder K] {A B : World N K} [AddCommGroup A.X] [Module K A.X]
  [AddCommGroup B.X] [Module K B.X]

/-- Specification: a map that commutes with linear interpolation (shifts and rotations of poses do). -/
def IsAffine (K : Type) {X Y : Type} [Field K] [AddCommGroup X] [Module K X] [AddCommGroup Y] [Module K Y] (f : X → Y) : Prop :=
  ∀ (a : K) u v, f ((1 - a) • u + a • v) = (1 - a) • f u + a • f v

theorem atInterp_map {X Y : Type} [AddCommGroup X] [Module K X] [AddCommGroup Y] [Module K Y] (f : X → Y)
    (hf : IsAffine K f) (s : Seq K X) (t : K) : (mapS f s).atInterp t = (s.atInterp t).map f := by
  have h1 : (mapS f s).getStart = s.getStart := rfl
  have h2 : (mapS f s).getEnd = s.getEnd := rfl
  unfold Seq.atInterp
  rw [h1, h2]
  simp only [mapS, pyGet_map]
  cases s.getStart with
  | error e => rfl
  | ok t0 =>
    simp only
    split
    · rfl
    · cases s.getEnd with
      | error e => rfl
      | ok t1 =>
        simp only
        split
        · rfl
        · cases pyGet s.ts ((bisectRight s.ts t : Int) - 1) <;> cases pyGet s.ts (bisectRight s.ts t : Int) <;>
            cases pyGet s.vs ((bisectRight s.ts t : Int) - 1) <;> cases pyGet s.vs (bisectRight s.ts t : Int) <;>
            simp only [Except.map]
          split
          · rfl
          · simp only [hf _ _ _]

theorem atOrPrevious_map {X Y : Type} (f : X → Y) (s : Seq K X) (t : K) :
    (mapS f s).atOrPrevious t = (s.atOrPrevious t).map f := by
  have h1 : (mapS f s).getStart = s.getStart := rfl
  have h2 : (mapS f s).at' t = (s.at' t).map f := by
    unfold Seq.at'
    simp only [mapS, pyGet_map]
    cases s.ts.findIdx? (fun u => u == t) <;> rfl
  unfold Seq.atOrPrevious
  rw [h1, h2]
  simp only [mapS, pyGet_map]
  cases s.getStart with
  | error e => rfl
  | ok t0 =>
    simp only
    split
    · rfl
    · cases s.at' t with
      | ok v => rfl
      | error e => cases e <;> rfl

/-- The states read from a converted log are the converted states. -/
theorem statesAt_conv (h : Hom A B) (hf : IsAffine K h.fx) (logs : Dict N (PlayerLog A)) (t : K) :
    statesAt (mapD (PlayerLog.conv h) logs) t = (statesAt logs t).map (mapD h.fx) := by
  have hentry : ∀ l : PlayerLog A, (l.conv h).atInterp t =
      (l.atInterp t).map fun e => ⟨h.fx e.state, h.fc e.commands, e.extra.map h.fe, h.fi e.info⟩ := by
    intro l
    have hx : extraAt (l.conv h).extra t = (extraAt l.extra t).map (Option.map h.fe) := by
      unfold extraAt PlayerLog.conv
      rw [atOrPrevious_map]
      cases l.extra.atOrPrevious t with
      | ok e => rfl
      | error e => cases e <;> rfl
    unfold PlayerLog.atInterp
    rw [hx, show (l.conv h).states = mapS h.fx l.states from rfl, show (l.conv h).commands = mapS h.fc l.commands from rfl,
      show (l.conv h).info = mapS h.fi l.info from rfl, atInterp_map _ hf, atOrPrevious_map, atOrPrevious_map]
    cases extraAt l.extra t <;> cases l.states.atInterp t <;> cases l.commands.atOrPrevious t <;>
      cases l.info.atOrPrevious t <;> rfl
  have hall : ∀ ls : Dict N (PlayerLog A), SimLog.atInterp (mapD (PlayerLog.conv h) ls) t =
      (SimLog.atInterp ls t).map (mapD fun e => ⟨h.fx e.state, h.fc e.commands, e.extra.map h.fe, h.fi e.info⟩) := by
    intro ls
    induction ls with
    | nil => rfl
    | cons q r ih =>
      obtain ⟨n, l⟩ := q
      simp only [mapD, List.map_cons, SimLog.atInterp] at ih ⊢
      rw [hentry, ih]
      cases l.atInterp t <;> cases SimLog.atInterp r t <;> rfl
  unfold statesAt
  rw [hall]
  cases SimLog.atInterp logs t with
  | error e => rfl
  | ok es =>
    show Except.ok _ = Except.ok _
    simp only [mapD, List.map_map, Function.comp_def]

theorem removeFinished_conv {X X' G G' : Type} (fx : X → X') (fg : G → G') (done : G → X → Except Err Bool)
    (done' : G' → X' → Except Err Bool) (hd : ∀ g x, done' (fg g) (fx x) = done g x) (missions : Dict N G) :
    ∀ states : Dict N X, removeFinished done' (mapD fg missions) (mapD fx states) =
      (removeFinished done missions states).map (mapD fx)
  | [] => rfl
  | (n, x) :: rest => by
    have ih := removeFinished_conv fx fg done done' hd missions rest
    simp only [mapD, List.map_cons, removeFinished] at ih ⊢
    have hk : getKey (List.map (fun p => (p.1, fg p.2)) missions) n = (getKey missions n).map fg := by
      have := get?_mapD fg missions n
      unfold mapD at this
      unfold getKey
      rw [this]
      cases Dict.get? missions n <;> rfl
    rw [hk, ih]
    cases getKey missions n with
    | error e => rfl
    | ok gg =>
      simp only [Except.map, bind, Except.bind, hd]
      cases done gg x with
      | error e => rfl
      | ok b =>
        simp only
        cases removeFinished done missions rest with
        | error e => rfl
        | ok r => cases b <;> rfl

theorem minDistAt_conv {X X' G G' M : Type} (fx : X → X') (fg : G → G') (dist : X → X → M → M → K) (dist' : X' → X' → M → M → K)
    (hdist : ∀ x y m n, dist' (fx x) (fx y) m n = dist x y m n) (done : G → X → Except Err Bool)
    (done' : G' → X' → Except Err Bool) (hd : ∀ g x, done' (fg g) (fx x) = done g x) (models : Dict N M)
    (missions : Dict N G) (ego : N) (states : Dict N X) :
    minDistAt dist' done' models (mapD fg missions) ego (mapD fx states) = minDistAt dist done models missions ego states := by
  have hloop : ∀ (xe : X) (me : M) (l : Dict N X) (acc : Option K × Option N),
      distLoop dist' models ego (fx xe) me (mapD fx l) acc = distLoop dist models ego xe me l acc := by
    intro xe me l
    induction l with
    | nil => intro acc; rfl
    | cons q r ih =>
      intro acc
      obtain ⟨n, x⟩ := q
      simp only [mapD, List.map_cons, distLoop] at ih ⊢
      simp only [ih, hdist]
  unfold minDistAt
  rw [removeFinished_conv fx fg done done' hd]
  cases removeFinished done missions states with
  | error e => rfl
  | ok act =>
    simp only [Except.map, bind, Except.bind, get?_mapD]
    cases Dict.get? act ego with
    | none => rfl
    | some xe =>
      simp only [Option.map_some]
      cases getKey models ego with
      | error e => rfl
      | ok me => exact hloop xe me act _

theorem getKey_mapD {α β : Type} (f : α → β) (d : Dict N α) (n : N) : getKey (mapD f d) n = (getKey d n).map f := by
  unfold getKey
  rw [get?_mapD]
  cases Dict.get? d n <;> rfl

/-- **C153.** The smallest distance to another player, the player and the time are the same in every frame, for a log and the
log of the simulation seen from another frame (`C151_log`), a distance that does not depend on the frame and goals that are
moved along. -/
theorem C153_min_distance (h : Hom A B) (hf : IsAffine K h.fx) {G G' M : Type} (fg : G → G') (dist : A.X → A.X → M → M → K)
    (dist' : B.X → B.X → M → M → K) (hdist : ∀ x y m n, dist' (h.fx x) (h.fx y) m n = dist x y m n)
    (done : G → A.X → Except Err Bool) (done' : G' → B.X → Except Err Bool) (hd : ∀ g x, done' (fg g) (h.fx x) = done g x)
    (logs : Dict N (PlayerLog A)) (models : Dict N M) (missions : Dict N G) (ego : N) (lo hi : Option K) :
    getMinDist dist' done' (mapD (PlayerLog.conv h) logs) models (mapD fg missions) ego lo hi =
      getMinDist dist done logs models missions ego lo hi := by
  have hat : (fun t => (do
      let st ← statesAt (mapD (PlayerLog.conv h) logs) t
      minDistAt dist' done' models (mapD fg missions) ego st)) = fun t => (do
      let st ← statesAt logs t
      minDistAt dist done models missions ego st) := by
    funext t
    rw [statesAt_conv h hf]
    cases statesAt logs t with
    | error e => rfl
    | ok st => exact minDistAt_conv h.fx fg dist dist' hdist done done' hd models missions ego st
  unfold getMinDist
  rw [hat, getKey_mapD]
  cases getKey logs ego <;> rfl

end

/-! ## Distance of two outlines -/

/-- Specification: the same state seen from a moved frame. -/
structure MovedKin (g : Mat3 ℝ) (s s' : Kin) : Prop where
  pose : rigid (Real.cos s'.psi) (Real.sin s'.psi) s'.x s'.y = g.mul (rigid (Real.cos s.psi) (Real.sin s.psi) s.x s.y)
  vx : s'.vx = s.vx

theorem applyT2_mul {g : Mat3 ℝ} (hg : IsRigid g) (q : Mat3 ℝ) (hq : IsRigid q) (p : ℝ × ℝ) :
    applyT2 (g.mul q) p = applyT2 g (applyT2 q p) := by
  obtain ⟨c, s, x, y, h, rfl⟩ := hg
  obtain ⟨c', s', x', y', h', rfl⟩ := hq
  simp only [applyT2, rigid, Mat3.mul, Prod.mk.injEq]
  constructor <;> ring

theorem placed_frame {g : Mat3 ℝ} (hg : IsRigid g) {s s' : Kin} (h : MovedKin g s s') (O : Set (ℝ × ℝ)) :
    placed s' O = applyT2 g '' placed s O := by
  unfold placed
  rw [h.pose, Set.image_image]
  refine Set.image_congr fun p _ => applyT2_mul hg _ ⟨_, _, _, _, Real.cos_sq_add_sin_sq _, rfl⟩ p

theorem applyT2_continuous (q : Mat3 ℝ) : Continuous (applyT2 q) := by
  unfold applyT2; fun_prop

theorem nearest_unique {nearest : Set (ℝ × ℝ) → Set (ℝ × ℝ) → (ℝ × ℝ) × (ℝ × ℝ)} (hn : NearestLaw nearest) {g : Mat3 ℝ}
    (hg : IsRigid g) (P Q : Set (ℝ × ℝ)) (hP : P.Nonempty) (hQ : Q.Nonempty) (cP : IsCompact P) (cQ : IsCompact Q) :
    norm2 ((nearest (applyT2 g '' P) (applyT2 g '' Q)).1.1 - (nearest (applyT2 g '' P) (applyT2 g '' Q)).2.1)
        ((nearest (applyT2 g '' P) (applyT2 g '' Q)).1.2 - (nearest (applyT2 g '' P) (applyT2 g '' Q)).2.2) =
      norm2 ((nearest P Q).1.1 - (nearest P Q).2.1) ((nearest P Q).1.2 - (nearest P Q).2.2) := by
  obtain ⟨a1, a2, a3⟩ := hn P Q hP hQ cP cQ
  obtain ⟨b1, b2, b3⟩ := hn (applyT2 g '' P) (applyT2 g '' Q) (hP.image _) (hQ.image _) (cP.image (applyT2_continuous g))
    (cQ.image (applyT2_continuous g))
  refine le_antisymm ?_ ?_
  · rw [← norm_frame hg (nearest P Q).1 (nearest P Q).2]
    exact b3 _ ⟨_, a1, rfl⟩ _ ⟨_, a2, rfl⟩
  · obtain ⟨u, hu, eu⟩ := b1
    obtain ⟨v, hv, ev⟩ := b2
    rw [← eu, ← ev, norm_frame hg]
    exact a3 u hu v hv

/-- **C153.** The distance of two players is the same in every frame. -/
theorem C153_outlines {nearest : Set (ℝ × ℝ) → Set (ℝ × ℝ) → (ℝ × ℝ) × (ℝ × ℝ)} (hn : NearestLaw nearest) {g : Mat3 ℝ}
    (hg : IsRigid g) {X X' M : Type} (kin : X → Kin) (kin' : X' → Kin) (fx : X → X') (hk : ∀ x, MovedKin g (kin x) (kin' (fx x)))
    (outline : M → Set (ℝ × ℝ)) (m1 m2 : M) (h1 : (outline m1).Nonempty) (h2 : (outline m2).Nonempty)
    (c1 : IsCompact (outline m1)) (c2 : IsCompact (outline m2)) (x1 x2 : X) :
    (getDist nearest kin' outline (fx x1) (fx x2) m1 m2).1 = (getDist nearest kin outline x1 x2 m1 m2).1 := by
  unfold getDist
  simp only [placed_frame hg (hk _)]
  refine nearest_unique hn hg _ _ (h1.image _) (h2.image _) (c1.image (applyT2_continuous _)) (c2.image (applyT2_continuous _))

/-! ## Time to collision -/

theorem MovedKin.split {c s x y : ℝ} {a a' : Kin} (h : MovedKin (rigid c s x y) a a') :
    Real.cos a'.psi = c * Real.cos a.psi - s * Real.sin a.psi ∧ Real.sin a'.psi = s * Real.cos a.psi + c * Real.sin a.psi ∧
    a'.x = c * a.x - s * a.y + x ∧ a'.y = s * a.x + c * a.y + y := by
  have h0 := h.pose
  simp only [rigid, Mat3.mul, Mat3.mk.injEq] at h0
  obtain ⟨e1, -, e2, e3, -, e4, -⟩ := h0
  refine ⟨by rw [e1]; ring, by rw [e3]; ring, by rw [e2]; ring, by rw [e4]; ring⟩

/-- **C153.** How fast two players close in, and whether the pair is looked at, is the same in every frame. -/
theorem C153_closing {g : Mat3 ℝ} (hg : IsRigid g) {e e' a a' : Kin} (he : MovedKin g e e') (ha : MovedKin g a a') :
    closing e' a' = closing e a ∧ skipAgent e' a' = skipAgent e a := by
  obtain ⟨c, s, x, y, h, rfl⟩ := hg
  obtain ⟨e1, e2, e3, e4⟩ := he.split
  obtain ⟨a1, a2, a3, a4⟩ := ha.split
  have hn : norm2 (a'.x - e'.x) (a'.y - e'.y) = norm2 (a.x - e.x) (a.y - e.y) := by
    rw [← norm2_rot c s (a.x - e.x) (a.y - e.y) h, a3, a4, e3, e4]
    congr 1 <;> ring
  have hc : closing e' a' = closing e a := by
    unfold closing
    rw [hn, a1, a2, a3, a4, e1, e2, e3, e4, he.vx, ha.vx]
    generalize norm2 (a.x - e.x) (a.y - e.y) = d
    rw [div_eq_mul_inv, div_eq_mul_inv, div_eq_mul_inv, div_eq_mul_inv]
    linear_combination ((a.vx * Real.cos a.psi - e.vx * Real.cos e.psi) * ((a.x - e.x) * d⁻¹) +
      (a.vx * Real.sin a.psi - e.vx * Real.sin e.psi) * ((a.y - e.y) * d⁻¹)) * h
  refine ⟨hc, ?_⟩
  unfold skipAgent
  simp only [hn, hc]

/-- Specification: what shapely's intersection test and translation must satisfy for shapes seen from a moved frame. -/
structure MovedPolys {P P' : Type} (c s : ℝ) (fp : P → P') (intersects : P → P → Bool) (intersects' : P' → P' → Bool)
    (translate : ℝ → ℝ → P → P) (translate' : ℝ → ℝ → P' → P') : Prop where
  meets : ∀ p q, intersects' (fp p) (fp q) = intersects p q
  moves : ∀ dx dy p, translate' (c * dx - s * dy) (s * dx + c * dy) (fp p) = fp (translate dx dy p)

/-- **C153.** The time to collision and the two distances are the same in every frame. -/
theorem C153_ttc {c s x y : ℝ} {P P' : Type} (fp : P → P') {intersects : P → P → Bool} {intersects' : P' → P' → Bool}
    {translate : ℝ → ℝ → P → P} {translate' : ℝ → ℝ → P' → P'}
    (hp : MovedPolys c s fp intersects intersects' translate translate') (p1 p2 : P) {s1 s2 s1' s2' : Kin}
    (h1 : MovedKin (rigid c s x y) s1 s1') (h2 : MovedKin (rigid c s x y) s2 s2') (fuel : Nat) :
    getTtc intersects' translate' (fp p1) (fp p2) s1' s2' fuel = getTtc intersects translate p1 p2 s1 s2 fuel := by
  obtain ⟨e1, e2, -, -⟩ := h1.split
  obtain ⟨a1, a2, -, -⟩ := h2.split
  have hloop : ∀ (dx dy : ℝ) (fuel : Nat) (q : P) (t : ℝ),
      ttcLoop (intersects' (fp p1)) (translate' (c * dx - s * dy) (s * dx + c * dy)) fuel (fp q) t =
        ttcLoop (intersects p1) (translate dx dy) fuel q t := by
    intro dx dy fuel
    induction fuel with
    | zero => intro q t; rfl
    | succ k ih =>
      intro q t
      simp only [ttcLoop, hp.meets, hp.moves, ih]
  unfold getTtc
  simp only [h1.vx, h2.vx]
  rw [← hloop ((s2.vx * Real.cos s2.psi - s1.vx * Real.cos s1.psi) * (1 / 10))
    ((s2.vx * Real.sin s2.psi - s1.vx * Real.sin s1.psi) * (1 / 10)) fuel p2 0, e1, e2, a1, a2]
  rw [show (s2.vx * (c * Real.cos s2.psi - s * Real.sin s2.psi) - s1.vx * (c * Real.cos s1.psi - s * Real.sin s1.psi)) * (1 / 10) =
      c * ((s2.vx * Real.cos s2.psi - s1.vx * Real.cos s1.psi) * (1 / 10)) -
        s * ((s2.vx * Real.sin s2.psi - s1.vx * Real.sin s1.psi) * (1 / 10)) by ring,
    show (s2.vx * (s * Real.cos s2.psi + c * Real.sin s2.psi) - s1.vx * (s * Real.cos s1.psi + c * Real.sin s1.psi)) * (1 / 10) =
      s * ((s2.vx * Real.cos s2.psi - s1.vx * Real.cos s1.psi) * (1 / 10)) +
        c * ((s2.vx * Real.sin s2.psi - s1.vx * Real.sin s1.psi) * (1 / 10)) by ring]

section
variable {N : Type} [DecidableEq N] {A B : World N ℝ} [AddCommGroup A.X] [Module ℝ A.X] [AddCommGroup B.X] [Module ℝ B.X]

/-- **C153.** The smallest time to collision and the largest deceleration, with their players and times, are the same in every
frame. -/
theorem C153_min_ttc {g : Mat3 ℝ} (hg : IsRigid g) (h : Hom A B) (hf : IsAffine ℝ h.fx) {G G' M : Type} (fg : G → G')
    (kin : A.X → Kin) (kin' : B.X → Kin) (hk : ∀ x, MovedKin g (kin x) (kin' (h.fx x)))
    (ttc : A.X → A.X → M → M → Option (ℝ × ℝ × ℝ)) (ttc' : B.X → B.X → M → M → Option (ℝ × ℝ × ℝ))
    (ht : ∀ x y m n, ttc' (h.fx x) (h.fx y) m n = ttc x y m n)
    (done : G → A.X → Except Err Bool) (done' : G' → B.X → Except Err Bool) (hd : ∀ g x, done' (fg g) (h.fx x) = done g x)
    (logs : Dict N (PlayerLog A)) (models : Dict N M) (missions : Dict N G) (ego : N) (lo hi : Option ℝ) :
    getMinTtcMaxDrac kin' ttc' done' (mapD (PlayerLog.conv h) logs) models (mapD fg missions) ego lo hi =
      getMinTtcMaxDrac kin ttc done logs models missions ego lo hi := by
  have hloop : ∀ (xe : A.X) (me : M) (l : Dict N A.X) (r : TtcDrac N),
      ttcDracLoop kin' ttc' models ego (h.fx xe) me (mapD h.fx l) r = ttcDracLoop kin ttc models ego xe me l r := by
    intro xe me l
    induction l with
    | nil => intro r; rfl
    | cons q rest ih =>
      intro r
      obtain ⟨n, x⟩ := q
      simp only [mapD, List.map_cons, ttcDracLoop] at ih ⊢
      simp only [ih, ht, (C153_closing hg (hk xe) (hk x)).2, (hk xe).vx]
  have hat : (fun t => (do
      let st ← statesAt (mapD (PlayerLog.conv h) logs) t
      ttcDracAt kin' ttc' done' models (mapD fg missions) ego st)) = fun t => (do
      let st ← statesAt logs t
      ttcDracAt kin ttc done models missions ego st) := by
    funext t
    rw [statesAt_conv h hf]
    cases statesAt logs t with
    | error e => rfl
    | ok st =>
      show ttcDracAt kin' ttc' done' models (mapD fg missions) ego (mapD h.fx st) =
        ttcDracAt kin ttc done models missions ego st
      unfold ttcDracAt
      rw [removeFinished_conv h.fx fg done done' hd]
      cases removeFinished done missions st with
      | error e => rfl
      | ok act =>
        simp only [Except.map, bind, Except.bind, get?_mapD]
        cases Dict.get? act ego with
        | none => rfl
        | some xe =>
          simp only [Option.map_some]
          cases getKey models ego with
          | error e => rfl
          | ok me => exact hloop xe me act _
  unfold getMinTtcMaxDrac
  rw [hat, getKey_mapD]
  cases getKey logs ego <;> rfl

end

/-! ## Goals and the lane search -/

/-- Specification: the test whether a point is in the inflated segment is moved along. -/
def ContainsMoves (g : Mat3 ℝ) (contains : ℝ × ℝ → ℝ × ℝ → ℝ → ℝ × ℝ → Bool) : Prop :=
  ∀ a b r p, contains (applyT2 g a) (applyT2 g b) r (applyT2 g p) = contains a b r p

/-- **C153.** A pose goal is fulfilled in one frame if and only if it is in the other. -/
theorem C153_pose_goal {g : Mat3 ℝ} (hg : IsRigid g) (goal goal' : Transform) (hgoal : goal'.asSE2 = g.mul goal.asSE2) (tol : ℝ)
    (pose : Mat3 ℝ) (hp : IsRigid pose) : Scen.poseFulfilled goal' tol (g.mul pose) = Scen.poseFulfilled goal tol pose := by
  have hfr : Scen.frobenius (g.mul pose) goal'.asSE2 = Scen.frobenius pose goal.asSE2 := by
    rw [hgoal]
    obtain ⟨c', s', x', y', h', e⟩ := asSE2_rigid goal
    rw [e]
    obtain ⟨c, s, x, y, h, rfl⟩ := hg
    obtain ⟨c2, s2, x2, y2, h2, rfl⟩ := hp
    unfold Scen.frobenius
    congr 1
    simp only [rigid, Mat3.mul]
    linear_combination (2 * (c2 - c') ^ 2 + 2 * (s2 - s') ^ 2 + (x2 - x') ^ 2 + (y2 - y') ^ 2) * h
  unfold Scen.poseFulfilled
  rw [hfr]

theorem cross_frame {g : Mat3 ℝ} (hg : IsRigid g) {lane lane' : List CtrPoint} (h : MovedLane g lane lane') (b : Option ℝ) :
    Agree (fun r r' => r' = (applyT2 g r.1, applyT2 g r.2)) (Scen.crossSection lane b) (Scen.crossSection lane' b) := by
  unfold Scen.crossSection
  simp only [h.length, h.radii]
  generalize b.getD (lane.length : ℝ) = m
  have hc := h.center hg m
  have hr := centerPoint_rigid lane m
  revert hc hr
  cases centerPoint lane m <;> cases centerPoint lane' m <;> simp only [Agree] <;> intro hc hr <;> try exact False.elim hc
  · exact hc
  · rename_i q _
    subst hc
    cases radius (lane.map (·.r)) m with
    | error e => rfl
    | ok r =>
      simp only [applyT2_mul hg q (hr q rfl)]

/-- **C153.** The goals at the end of a lane and on a reference lane are fulfilled in one frame if and only if they are in the
other. -/
theorem C153_lane_goals {g : Mat3 ℝ} (hg : IsRigid g) {lane lane' : List CtrPoint} (h : MovedLane g lane lane')
    (contains : ℝ × ℝ → ℝ × ℝ → ℝ → ℝ × ℝ → Bool) (hc : ContainsMoves g contains) (search : Search) (pose : Mat3 ℝ)
    (hp : IsRigid pose) :
    (∀ goal, Scen.refLaneFulfilled contains (closestBy search lane') lane' goal (g.mul pose) =
      Scen.refLaneFulfilled contains (closestBy search lane) lane goal pose) ∧
    (∀ inflation, Scen.laneEndFulfilled contains lane' inflation (g.mul pose) =
      Scen.laneEndFulfilled contains lane inflation pose) := by
  constructor
  · intro goal
    unfold Scen.refLaneFulfilled
    have h1 := cross_frame hg h (some goal)
    have h2 := C152_pose hg h search pose hp
    rw [mul_pos' hg pose hp]
    revert h1
    cases Scen.crossSection lane (some goal) <;> cases Scen.crossSection lane' (some goal) <;> simp only [Agree] <;>
      intro h1 <;> try exact False.elim h1
    · rw [h1]
    · subst h1
      simp only [hc _ _ _ _]
      split
      · revert h2
        cases lanePoseOf (closestBy search lane) lane pose <;> cases lanePoseOf (closestBy search lane') lane' (g.mul pose) <;>
          simp only [Agree] <;> intro h2 <;> try exact False.elim h2
        · rw [h2]
        · rw [h2.along]
      · rfl
  · intro inflation
    unfold Scen.laneEndFulfilled
    have h1 := cross_frame hg h none
    rw [mul_pos' hg pose hp]
    revert h1
    cases Scen.crossSection lane none <;> cases Scen.crossSection lane' none <;> simp only [Agree] <;>
      intro h1 <;> try exact False.elim h1
    · rw [h1]
    · subst h1
      simp only [hc _ _ _ _]

/-- The lane network as it is seen by the search for the goal lane: lanes `lanes l` with the neighbours `succ` and `pred`, and
the pose of the ego (efficiency.py:43-72). -/
noncomputable def netOf {L : Type} (find : Search) (lanes : L → List CtrPoint) (succ pred : L → Except Err (Option L))
    (pose : Mat3 ℝ) : Net ℝ L where
  pose l := match lanePoseOf (closestBy find (lanes l)) (lanes l) pose with
    | .error e => .error e
    | .ok p => .ok ⟨p.flags, p.along, p.relHeading⟩
  length l := laneLength (lanes l)
  succ := succ
  pred := pred

/-- **C153.** Whether the goal lane is reached is decided alike in every frame, and it is reached at the same time. -/
theorem C153_goal_lane {g : Mat3 ℝ} (hg : IsRigid g) {L : Type} (find : Search) (lanes lanes' : L → List CtrPoint)
    (h : ∀ l, MovedLane g (lanes l) (lanes' l)) (succ pred : L → Except Err (Option L)) (goal : L) (pt ht : ℝ) (fuel : Nat) :
    (∀ pose, IsRigid pose → ∀ fulfilled,
      desiredLaneReached (netOf find lanes' succ pred (g.mul pose)) goal fulfilled pt ht fuel =
        desiredLaneReached (netOf find lanes succ pred pose) goal fulfilled pt ht fuel) ∧
    ∀ {X X' : Type} (f : X → X') (reached : X → Except Err Bool) (reached' : X' → Except Err Bool)
      (_ : ∀ x, reached' (f x) = reached x) (s : Seq ℝ X),
      timeGoalLaneReached reached' (mapS f s) = timeGoalLaneReached reached s := by
  constructor
  · intro pose hp fulfilled
    have hnet : netOf find lanes' succ pred (g.mul pose) = netOf find lanes succ pred pose := by
      unfold netOf
      congr 1
      · funext l
        have h2 := C152_pose hg (h l) find pose hp
        revert h2
        cases lanePoseOf (closestBy find (lanes l)) (lanes l) pose <;>
          cases lanePoseOf (closestBy find (lanes' l)) (lanes' l) (g.mul pose) <;> simp only [Agree] <;>
          intro h2 <;> try exact False.elim h2
        · rw [h2]
        · rw [h2.flags, h2.along, h2.relHeading]
      · funext l
        exact (C152_lane hg (h l)).2.1
    rw [hnet]
  · intro X X' f reached reached' hr s
    have hloop : ∀ (vs : List X) (i : Nat), goalLoop reached' s.ts i (vs.map f) = goalLoop reached s.ts i vs := by
      intro vs
      induction vs with
      | nil => intro i; rfl
      | cons v vs ih => intro i; simp only [List.map_cons, goalLoop, hr, ih]
    exact hloop s.vs 0

/-! ## Examples -/

/-- A state in a frame moved by `t`. -/
noncomputable def shiftedKin (t : Transform) (k : Kin) : Kin :=
  ⟨(applyT2 t.asSE2 (k.x, k.y)).1, (applyT2 t.asSE2 (k.x, k.y)).2, t.theta + k.psi, k.vx⟩

/-- Every state can be seen from every frame. -/
theorem C153_shifted (t : Transform) (k : Kin) : MovedKin t.asSE2 k (shiftedKin t k) := by
  refine ⟨?_, rfl⟩
  simp only [shiftedKin, Transform.asSE2, rigid, Mat3.mul, applyT2, Real.cos_add, Real.sin_add]
  ext <;> simp <;> ring

/-- Points as shapes. -/
example (c s x y : ℝ) : MovedPolys c s (applyT2 (rigid c s x y)) (fun _ _ => true) (fun _ _ => true)
    (fun dx dy p => (p.1 + dx, p.2 + dy)) (fun dx dy p => (p.1 + dx, p.2 + dy)) := by
  refine ⟨fun _ _ => rfl, fun dx dy p => ?_⟩
  simp only [applyT2, rigid, Prod.mk.injEq]
  constructor <;> ring

open Classical in
/-- The exact inflated segment is moved along. -/
theorem C153_contains {g : Mat3 ℝ} (hg : IsRigid g) : ContainsMoves g fun a b r p => decide (Scen.Near a b r p) := by
  intro a b r p
  rw [decide_eq_decide]
  unfold Scen.Near
  obtain ⟨c, s, x, y, h, rfl⟩ := hg
  refine exists_congr fun u => and_congr_right fun _ => and_congr_right fun _ => ?_
  simp only [applyT2, rigid]
  constructor <;> intro h0 <;> refine le_trans (le_of_eq ?_) h0
  · linear_combination (-((p.1 - (a.1 + u * (b.1 - a.1))) ^ 2 + (p.2 - (a.2 + u * (b.2 - a.2))) ^ 2)) * h
  · linear_combination ((p.1 - (a.1 + u * (b.1 - a.1))) ^ 2 + (p.2 - (a.2 + u * (b.2 - a.2))) ^ 2) * h

/-- Shifts and turns of position and heading commute with interpolation. -/
theorem C153_affine (c s x y al : ℝ) :
    IsAffine ℝ fun p : ℝ × ℝ × ℝ => (c * p.1 - s * p.2.1 + x, s * p.1 + c * p.2.1 + y, p.2.2 + al) := by
  intro a u v
  simp only [Prod.smul_mk, Prod.mk_add_mk, smul_eq_mul, Prod.fst_add, Prod.snd_add, Prod.smul_fst, Prod.smul_snd,
    Prod.mk.injEq]
  refine ⟨?_, ?_, ?_⟩ <;> ring

/-- The discs of C151, seen from any frame: a change of frame of a simulation as the theorems need it. -/
example (T : Coll.Congr ℚ) : IsAffine ℚ (X := (ℚ × ℚ) × ((ℚ × ℚ) × ℚ)) (Y := (ℚ × ℚ) × ((ℚ × ℚ) × ℚ))
    ((Whole.Discs.moved T).hom true).fx := by
  intro a u v
  simp only [Whole.MovedParts.hom, Whole.Discs.moved, Coll.Congr.app, Coll.Congr.twist, Coll.Congr.turn, Prod.smul_fst,
    Prod.smul_snd, Prod.fst_add, Prod.snd_add, smul_eq_mul, Prod.smul_mk, Prod.mk_add_mk, Prod.mk.injEq]
  refine ⟨⟨?_, ?_⟩, ⟨?_, ?_⟩, ?_⟩ <;> ring

example : MovedLane (Transform.asSE2 ⟨1, 2, 3⟩) north (north.map (shifted ⟨1, 2, 3⟩)) := C152_shifted _ _

example : (placed ⟨0, 0, 0, 1⟩ {((0 : ℝ), (0 : ℝ))}).Nonempty ∧ IsCompact ({((0 : ℝ), (0 : ℝ))} : Set (ℝ × ℝ)) :=
  ⟨⟨_, (0, 0), rfl, rfl⟩, isCompact_singleton⟩

end Eval
end Verif
