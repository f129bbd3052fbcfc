import Verif.Whole.FleetProps
import Verif.Whole.FlagProps
import Verif.Whole.SolverLogProps

/-!
# C161: simulations of the models of the library
-/

namespace Verif
namespace Whole

open Phys Coll Sim

/-! ## What marking, setting velocities and driving keep -/

section Kept
variable {N K : Type} [DecidableEq N] [Field K] [LinearOrder K] {F : Iface N K} {R : Parts N K F.M F.S} {sc : Bool}

theorem resolve_kept (I J : F.M → Prop) (m1 : ∀ m, I m → I (F.mark m)) (m2 : ∀ m, J m → J (F.mark m))
    (v1 : ∀ m v w, I m → I (F.setVelocity m v w)) (v2 : ∀ m v w, J m → J (F.setVelocity m v w)) (t : K) (a b : N)
    (ma mb : F.M) (ha : I ma) (hb : J mb) :
    I (Coll.resolve F sc t a ma b mb).1.1 ∧ J (Coll.resolve F sc t a ma b mb).1.2 := by
  unfold Coll.resolve
  dsimp only
  cases F.impactGeometry (F.footprint ma) (F.footprint mb) with
  | error e => exact ⟨ha, hb⟩
  | ok np =>
    obtain ⟨n, p⟩ := np
    dsimp only
    split
    · exact ⟨ha, hb⟩
    · cases impactLocations F (F.mark ma) (F.footprint mb) with
      | error e => exact ⟨m1 _ ha, m2 _ hb⟩
      | ok la =>
        dsimp only
        cases impactLocations F (F.mark mb) (F.footprint ma) with
        | error e => exact ⟨m1 _ ha, m2 _ hb⟩
        | ok lb => exact ⟨v1 _ _ _ (m1 _ ha), v2 _ _ _ (m2 _ hb)⟩

theorem resolveEnv_kept (I : F.M → Prop) (m1 : ∀ m, I m → I (F.mark m)) (v1 : ∀ m v w, I m → I (F.setVelocity m v w))
    (t : K) (a : N) (m : F.M) (s : F.S) (g : Geom K) (ha : I m) : I (Coll.resolveEnv F t a m s g).1 := by
  unfold Coll.resolveEnv
  dsimp only
  cases F.impactGeometry (F.footprint m) s with
  | error e => exact ha
  | ok np =>
    obtain ⟨n, p⟩ := np
    dsimp only
    split
    · exact ha
    · cases impactLocations F (F.mark m) s with
      | error e => exact m1 _ ha
      | ok la =>
        dsimp only
        cases F.toPolygon s with
        | error e => exact v1 _ _ _ (m1 _ ha)
        | ok poly => exact v1 _ _ _ (m1 _ ha)

theorem world_update {w w' : (N → R.A) × R.V} {n : N} {m m' : F.M} {c : R.C} {dt : K}
    (h : (world F sc R).update w n m c dt = .ok (w', m')) : ∃ v', R.update w.2 n m c dt = .ok (v', m') := by
  change (match R.update w.2 n m c dt with
    | .error e => .error e
    | .ok (v, m') => .ok ((w.1, v), m')) = Except.ok (w', m') at h
  cases h' : R.update w.2 n m c dt with
  | error e => rw [h'] at h; cases h
  | ok q =>
    obtain ⟨v, m2⟩ := q
    rw [h'] at h
    injection h with h
    injection h with _ e2
    exact ⟨v, by rw [e2]⟩

theorem set_kept {I : N → F.M → Prop} {d : Dict N F.M} {n : N} {m : F.M} (h : ∀ k x, Dict.get? d k = some x → I k x)
    (hm : I n m) : ∀ k x, Dict.get? (Dict.set d n m) k = some x → I k x := by
  intro k x hk
  rw [Dict.get?_set] at hk
  split at hk
  · rename_i e
    injection hk with hk
    subst e hk
    exact hm
  · exact h k x hk

/-- What marking, setting velocities and driving keep holds of the models of all players at all times. -/
theorem kept_closed (cfg : Cfg (world F sc R)) (I : N → F.M → Prop) (hm : ∀ n m, I n m → I n (F.mark m))
    (hv : ∀ n m v w, I n m → I n (F.setVelocity m v w))
    (hu : ∀ v n m c v' m', R.update v n m c cfg.dt = .ok (v', m') → I n m → I n m') :
    Closed cfg (fun s : St (world F sc R) => s.players.Nodup ∧ ∀ n m, Dict.get? s.models n = some m → I n m) := by
  refine closed_models cfg (fun d _ => ∀ n m, Dict.get? d n = some m → I n m) ?_ ?_ ?_
  · intro w n m c w' m' d rs h1 h2 h
    obtain ⟨v', h2⟩ := world_update h2
    exact set_kept h (hu _ _ _ _ _ _ h2 (h _ _ h1))
  · intro w p m o t d rs rep h1 _ _ h
    exact set_kept h (resolveEnv_kept (I p) (hm p) (hv p) t p m o.1 o.2 (h _ _ h1))
  · intro w a b ma mb t d rs rep _ h1 h2 _ h
    have := resolve_kept (sc := sc) (I a) (I b) (hm a) (hm b) (hv a) (hv b) t a b ma mb (h _ _ h1) (h _ _ h2)
    exact set_kept (set_kept h this.1) this.2

/-- The same in the log. -/
theorem kept_log [IsStrictOrderedRing K] [FloorSemiring K] {cfg : Cfg (world F sc R)} (hdt : 0 < cfg.dt)
    (hmw : Dict.Wf cfg.missions) {fuel : Nat} {s s' : St (world F sc R)} {log log' : Dict N (PlayerLog (world F sc R))}
    (hf : Fresh s) (hrun : run cfg fuel s log = some (.ok (s', log'))) (I : N → F.M → Prop)
    (hm : ∀ n m, I n m → I n (F.mark m)) (hv : ∀ n m v w, I n m → I n (F.setVelocity m v w))
    (hu : ∀ v n m c v' m', R.update v n m c cfg.dt = .ok (v', m') → I n m → I n m')
    (h0 : ∀ n m, Dict.get? s.models n = some m → I n m) (n : N) (hn : n ∈ Dict.keys s.models) :
    ∃ pl, Dict.get? log' n = some pl ∧ pl.states.vs ≠ [] ∧ ∀ x ∈ pl.states.vs, ∃ m, I n m ∧ x = R.getState m := by
  obtain ⟨σ, J, hready, ⟨w, lg, hs⟩, hex, hend, hlog⟩ := C23_log hf hdt hmw hrun
  obtain ⟨pl, k, last, hpl, hval, hcase, hts, hst, -⟩ := hlog n hn
  have hlast : last ≤ J + 1 := by
    rcases hcase with ⟨-, -, h⟩ | ⟨-, h1, -, -, -, h⟩ <;> omega
  have hlen : pl.states.vs.length = last + 1 := by
    have h1 := hval.1.1
    rw [hts] at h1
    simpa using h1.symm
  refine ⟨pl, hpl, ?_, ?_⟩
  · intro h
    rw [h] at hlen
    simp at hlen
  · intro x hx
    obtain ⟨i, hi, rfl⟩ := List.mem_iff_getElem.mp hx
    have hi' : i ≤ last := by omega
    obtain ⟨m, hm1, hm2⟩ := hst i hi'
    rw [List.getElem?_eq_getElem hi] at hm2
    injection hm2 with hm2
    refine ⟨m, ?_, hm2⟩
    have hexi : Exec cfg σ i := fun k hk => hex k (by omega)
    exact ((kept_closed cfg I hm hv hu).exec ⟨hready.fresh.players, by rw [hs]; exact h0⟩ hexi i le_rfl).2 n m hm1

end Kept

namespace Fleet

variable {N : Type} [DecidableEq N] {A : Allowed} {E : Surroundings N} {tab : Tableau ℝ} {pace : Pace A E.G.S}
  {R : Crew N E.G.S} {sc : Bool}

/-- Specification: two models of the same class with the same parameters. -/
inductive SameKind : Machine A → Machine A → Prop
  | car (wb lr p c s s') : SameKind (.car wb lr p c s) (.car wb lr p c s')
  | dynamic (ok g p f r c s s') : SameKind (.dynamic ok g p f r c s) (.dynamic ok g p f r c s')
  | pedestrian (ok p d s s') : SameKind (.pedestrian ok p d s) (.pedestrian ok p d s')
  | drive (wb R lo hi s s') : SameKind (.drive wb R lo hi s) (.drive wb R lo hi s')
  | craft (p lo hi a m iz s s') : SameKind (.craft p lo hi a m iz s) (.craft p lo hi a m iz s')
  | ship (p s s') : SameKind (.ship p s) (.ship p s')
  | rocket (ok p s s') : SameKind (.rocket ok p s) (.rocket ok p s')
  | obstacle (p lo hi s s') : SameKind (.obstacle p lo hi s) (.obstacle p lo hi s')

theorem SameKind.refl (m : Machine A) : SameKind m m := by cases m <;> constructor

theorem SameKind.trans {a b c : Machine A} (h : SameKind a b) (h' : SameKind b c) : SameKind a c := by
  cases h <;> cases h' <;> constructor

theorem kind_setVelocity (m : Machine A) (v : ℝ × ℝ) (w : ℝ) : SameKind m (m.setVelocity v w) := by
  cases m <;> constructor

theorem map_ok {S X : Type} {r : Except Err S} {k : S → X} {x : X} (h : r.map k = .ok x) : ∃ s, r = .ok s ∧ x = k s := by
  cases r with
  | error e => cases h
  | ok s => exact ⟨s, rfl, (Except.ok.inj h).symm⟩

theorem kind_update {m m' : Machine A} {b : Bool} {hs : List ℝ} {c : AnyCmd} (h : m.update tab b hs c = .ok m') :
    SameKind m m' := by
  unfold Machine.update at h
  split at h <;> first
    | (obtain ⟨s, -, rfl⟩ := map_ok h; constructor)
    | cases h

theorem kind_obstacle {m m' : Machine A} (h : SameKind m m') : m'.isObstacle = m.isObstacle := by
  cases h <;> rfl

theorem parts_update {v v' : R.V} {n : N} {m m' : Body A E.G.S} {c : AnyCmd} {dt : ℝ}
    (h : (parts E A tab pace R).update v n m c dt = .ok (v', m')) :
    ∃ x, m.machine.update tab m.collided (pace m c dt) c = .ok x ∧ m' = { m with machine := x } := by
  obtain ⟨x, h1, h2⟩ := map_ok h
  exact ⟨x, h1, (Prod.mk.inj h2).2⟩

/-- **C161.** The models of the library keep what the simulator relies on: only collisions set the flag, and nothing changes the
class of a model. -/
theorem C161_lawful (dt : ℝ) : Lawful (fleet E A) (parts E A tab pace R) dt where
  marked _ := rfl
  setVelocity _ _ _ := rfl
  update v n m c v' m' h := by
    obtain ⟨x, -, rfl⟩ := parts_update h
    rfl
  dynMark _ := rfl
  dynVelocity m v o := kind_obstacle (kind_setVelocity m.machine v o)
  dynUpdate v n m c v' m' h := by
    obtain ⟨x, hx, rfl⟩ := parts_update h
    exact kind_obstacle (kind_update hx)

/-- **C161.** Between any two moments of a simulation the model of a player keeps its class, parameters, outline and geometry,
and its flag is not cleared. -/
theorem C161_kept {cfg : Cfg (world (fleet E A) sc (parts E A tab pace R))}
    {σ : Nat → St (world (fleet E A) sc (parts E A tab pace R))} {j : Nat} (h0 : Ready (σ 0)) (hx : Exec cfg σ j) {i : Nat}
    (hij : i ≤ j) (n : N) (m0 : Body A E.G.S) (hn : Dict.get? (σ i).models n = some m0) :
    ∃ m, Dict.get? (σ j).models n = some m ∧ SameKind m0.machine m.machine ∧ m.outline = m0.outline ∧ m.geom = m0.geom ∧
      (m0.collided = true → m.collided = true) := by
  have hp : (σ i).players.Nodup := ((kept_closed cfg (fun _ _ => True) (fun _ _ _ => trivial) (fun _ _ _ _ _ => trivial)
    (fun _ _ _ _ _ _ _ _ => trivial)).exec ⟨h0.fresh.players, fun _ _ _ => trivial⟩ hx i hij).1
  let τ : Nat → St (world (fleet E A) sc (parts E A tab pace R)) := fun k => σ (i + k)
  have hτ : Exec cfg τ (j - i) := fun k hk => hx (i + k) (by omega)
  have e : σ j = τ (j - i) := by
    change σ j = σ (i + (j - i))
    congr 1
    omega
  rw [e]
  have h := ((kept_closed cfg (fun k (m : (fleet E A).M) => k = n → SameKind m0.machine m.machine ∧ m.outline = m0.outline ∧
      m.geom = m0.geom ∧ (m0.collided = true → m.collided = true))
    (fun k m h hk => ⟨(h hk).1, (h hk).2.1, (h hk).2.2.1, fun _ => rfl⟩)
    (fun k m v w h hk => ⟨(h hk).1.trans (kind_setVelocity _ _ _), (h hk).2⟩)
    (fun v k m c v' m' hu h hk => by
      obtain ⟨x, hx, rfl⟩ := parts_update hu
      exact ⟨(h hk).1.trans (kind_update hx), (h hk).2⟩)).exec (σ := τ) ⟨hp, fun k m hk ek => by
        subst ek
        have : Dict.get? (σ i).models k = some m := hk
        rw [hn] at this
        injection this with this
        subst this
        exact ⟨SameKind.refl _, rfl, rfl, id⟩⟩ hτ (j - i) le_rfl).2
  have hk := (closed_models cfg (fun d _ => n ∈ Dict.keys d)
    (fun w n m c w' m' d rs _ _ h => (Dict.mem_keys_set _ _ _ _).mpr (Or.inl h))
    (fun w p m o t d rs rep _ _ _ h => (Dict.mem_keys_set _ _ _ _).mpr (Or.inl h))
    (fun w a b ma mb t d rs rep _ _ _ _ h => (Dict.mem_keys_set _ _ _ _).mpr
      (Or.inl ((Dict.mem_keys_set _ _ _ _).mpr (Or.inl h))))).exec (σ := τ)
    ⟨hp, (Dict.mem_keys_iff (σ i).models n).mpr ⟨m0, hn⟩⟩ hτ (j - i) le_rfl
  obtain ⟨m, hm⟩ := (Dict.mem_keys_iff _ _).mp hk.2
  exact ⟨m, hm, h n m hm rfl⟩

/-- **C161.** Driving and colliding change neither the class nor the parameters, the outline or the geometry of a model: every
state in the log of a player belongs to a model like the one at the start. -/
theorem C161_kind {cfg : Cfg (world (fleet E A) sc (parts E A tab pace R))} (hdt : 0 < cfg.dt) (hm : Dict.Wf cfg.missions)
    {fuel : Nat} {s s' : St (world (fleet E A) sc (parts E A tab pace R))}
    {log log' : Dict N (PlayerLog (world (fleet E A) sc (parts E A tab pace R)))} (hf : Fresh s)
    (hrun : run cfg fuel s log = some (.ok (s', log'))) (n : N) (m0 : Body A E.G.S)
    (hn : Dict.get? s.models n = some m0) :
    (∃ m, Dict.get? s'.models n = some m ∧ SameKind m0.machine m.machine ∧ m.outline = m0.outline ∧ m.geom = m0.geom ∧
      (m0.collided = true → m.collided = true)) ∧
    ∃ pl, Dict.get? log' n = some pl ∧ pl.states.vs ≠ [] ∧
      ∀ x ∈ pl.states.vs, ∃ m, SameKind m0.machine m ∧ x = m.state := by
  let I : N → (fleet E A).M → Prop := fun k m => k = n → SameKind m0.machine m.machine ∧ m.outline = m0.outline ∧
    m.geom = m0.geom ∧ (m0.collided = true → m.collided = true)
  have i1 : ∀ k m, I k m → I k ((fleet E A).mark m) := fun k m h hk =>
    ⟨(h hk).1, (h hk).2.1, (h hk).2.2.1, fun _ => rfl⟩
  have i2 : ∀ k m v w, I k m → I k ((fleet E A).setVelocity m v w) := fun k m v w h hk =>
    ⟨(h hk).1.trans (kind_setVelocity _ _ _), (h hk).2⟩
  have i3 : ∀ v k m c v' m', (parts E A tab pace R).update v k m c cfg.dt = .ok (v', m') → I k m → I k m' := by
    intro v k m c v' m' hu h hk
    obtain ⟨x, hx, rfl⟩ := parts_update hu
    exact ⟨(h hk).1.trans (kind_update hx), (h hk).2⟩
  have i0 : ∀ k m, Dict.get? s.models k = some m → I k m := by
    intro k m hk e
    subst e
    rw [hn] at hk
    injection hk with hk
    subst hk
    exact ⟨SameKind.refl _, rfl, rfl, id⟩
  have hkey : n ∈ Dict.keys s.models := by rw [Dict.mem_keys_iff, hn]; exact ⟨m0, rfl⟩
  refine ⟨?_, ?_⟩
  · obtain ⟨σ, J, hready, ⟨w, lg, hs⟩, hex, hend, -⟩ := C23_log hf hdt hm hrun
    rw [← hend]
    exact C161_kept hready hex (Nat.zero_le _) n m0 (by rw [hs]; exact hn)
  · obtain ⟨pl, h1, h2, h3⟩ := kept_log hdt hm hf hrun I i1 i2 i3 i0 n hkey
    refine ⟨pl, h1, h2, fun x hx => ?_⟩
    obtain ⟨m, hi, rfl⟩ := h3 x hx
    exact ⟨m.machine, (hi rfl).1, rfl⟩

/-- **C161.** The flag `has_collided` of a player that is not a moving obstacle is set only if a report names the player, and
a complete report sets it; at the start no flag is set. -/
theorem C161_flags {cfg : Cfg (world (fleet E A) sc (parts E A tab pace R))}
    {σ : Nat → St (world (fleet E A) sc (parts E A tab pace R))} {j : Nat} (h0 : Ready (σ 0)) (hx : Exec cfg σ j)
    (hclean : ∀ n m, Dict.get? (σ 0).models n = some m → m.collided = false) :
    (∀ n m, Dict.get? (σ j).models n = some m → m.machine.isObstacle = false → m.collided = true →
      Named (σ j).reports n) ∧
    (∀ r ∈ (σ j).reports, ∀ c, r.data = some c → ∀ n ∈ r.players, n ≠ E.envPlayer →
      ∃ m, Dict.get? (σ j).models n = some m ∧ m.collided = true) :=
  C97_flags_partial (C161_lawful cfg.dt) h0 hx hclean

theorem reach_fold {dt : ℝ} {n : N} {m0 m : Body A E.G.S} {us : List (parts E A tab pace R).C}
    (h : Reach (F := fleet E A) (parts E A tab pace R) dt n m0 us m) :
    ∃ (cs : List (AnyCmd × List ℝ)) (x : Machine A), cs.map Prod.fst = us ∧ (∀ c ∈ cs, ∃ m, c.2 = pace m c.1 dt) ∧
      cs.foldlM (fun m c => m.update tab m0.collided c.2 c.1) m0.machine = .ok x ∧ m = { m0 with machine := x } := by
  refine Reach.rec (motive := fun us m _ => ∃ (cs : List (AnyCmd × List ℝ)) (x : Machine A), cs.map Prod.fst = us ∧
      (∀ c ∈ cs, ∃ m, c.2 = pace m c.1 dt) ∧
      cs.foldlM (fun m c => m.update tab m0.collided c.2 c.1) m0.machine = .ok x ∧ m = { m0 with machine := x })
    ⟨[], m0.machine, rfl, by simp, rfl, rfl⟩ ?_ h
  intro us u m' m'' v v' _ hu ih
  obtain ⟨cs, x, e1, e2, e3, rfl⟩ := ih
  obtain ⟨y, hy, rfl⟩ := parts_update hu
  refine ⟨cs ++ [(u, pace { m0 with machine := x } u dt)], y, by rw [List.map_append, e1]; rfl, ?_, ?_, rfl⟩
  · intro c hc
    rcases List.mem_append.mp hc with hc | hc
    · exact e2 c hc
    · rw [List.mem_singleton] at hc
      subst hc
      exact ⟨_, rfl⟩
  · rw [List.foldlM_append, e3]
    change (x.update tab m0.collided _ u >>= fun s => pure s) = _
    rw [hy]
    rfl

/-- **C161.** A player named in no report has at every moment the state that `update` gives for the commands it has got, one
after the other, in the steps that the solver chose. -/
theorem C161_alone {cfg : Cfg (world (fleet E A) sc (parts E A tab pace R))} (hdt : 0 < cfg.dt)
    (hm : Dict.Wf cfg.missions) {σ : Nat → St (world (fleet E A) sc (parts E A tab pace R))} {j : Nat}
    (h0 : Ready (σ 0)) (hx : Exec cfg σ j) (n : N) (m0 : Body A E.G.S) (hn : Dict.get? (σ 0).models n = some m0)
    (hdyn : m0.machine.isObstacle = false) (hnot : ¬ Named (σ j).reports n) :
    ∃ (cs : List (AnyCmd × List ℝ)) (x : Machine A), cs.map Prod.fst = commandsOf n (σ j).trace ∧
      (∀ c ∈ cs, ∃ m, c.2 = pace m c.1 cfg.dt) ∧
      cs.foldlM (fun m c => m.update tab m0.collided c.2 c.1) m0.machine = .ok x ∧
      Dict.get? (σ j).models n = some { m0 with machine := x } := by
  obtain ⟨⟨m, h1, h2⟩, -⟩ := C99_driven (C161_lawful cfg.dt) hdt hm h0 hx n m0 hn hdyn hnot
  obtain ⟨cs, x, e1, e2, e3, rfl⟩ := reach_fold h2
  exact ⟨cs, x, e1, e2, e3, h1⟩

/-- **C161.** With the table of the code and positive steps that make up the time step, speed and steering angle of a kinematic
vehicle that starts within its limits and is named in no report exceed them in the log by at most 0.4654 of what its largest
rates give in one time step. -/
theorem C161_limits {cfg : Cfg (world (fleet E A) sc (parts E A dormandPrince pace R))} (hdt : 0 < cfg.dt)
    (hm : Dict.Wf cfg.missions) {fuel : Nat} {s s' : St (world (fleet E A) sc (parts E A dormandPrince pace R))}
    {log log' : Dict N (PlayerLog (world (fleet E A) sc (parts E A dormandPrince pace R)))} (hf : Fresh s)
    (hrun : run cfg fuel s log = some (.ok (s', log'))) (n : N) (m0 : Body A E.G.S) (wb lr : ℝ) (p : VehicleParams ℝ)
    (isCar : Bool) (x0 : VehicleState ℝ) (hn : Dict.get? s.models n = some m0) (h0 : m0.machine = .car wb lr p isCar x0)
    (hp : p.Valid) (hnot : ¬ Named s'.reports n)
    (hpace : ∀ m c, (∀ h ∈ pace m c cfg.dt, 0 < h) ∧ (pace m c cfg.dt).sum = cfg.dt)
    (v1 : p.vxMin ≤ x0.vx) (v2 : x0.vx ≤ p.vxMax) (d : |x0.delta| ≤ p.deltaMax) :
    ∃ pl, Dict.get? log' n = some pl ∧ pl.states.vs ≠ [] ∧ ∀ x ∈ pl.states.vs, ∃ y, x = .car y ∧
      p.vxMin - 4654 / 10000 * (max (-p.accMin) 0 * cfg.dt) ≤ y.vx ∧
      y.vx ≤ p.vxMax + 4654 / 10000 * (max p.accMax 0 * cfg.dt) ∧
      |y.delta| ≤ p.deltaMax + 4654 / 10000 * (p.ddeltaMax * cfg.dt) := by
  obtain ⟨pl, h1, h2, h3⟩ := C99_log (C161_lawful cfg.dt) hdt hm hf hrun n m0 hn (by
      change m0.machine.isObstacle = false
      rw [h0]; rfl) hnot
    (fun m => ∃ y, m.machine = .car wb lr p isCar y ∧ NearLimits p cfg.dt y)
    ⟨x0, h0, within_of_limits hp hdt.le v1 v2 d⟩
    (fun v m c v' m' hu hq => by
      obtain ⟨y, hy, hl⟩ := hq
      obtain ⟨z, hz, rfl⟩ := parts_update hu
      rw [hy] at hz
      cases c with
      | car u =>
        obtain ⟨q, hq, rfl⟩ := map_ok hz
        rw [C149_same_vehicle] at hq
        injection hq with hq
        subst hq
        refine ⟨_, rfl, ?_⟩
        obtain ⟨g1, g2⟩ := hpace m (.car u)
        refine within_solve realTrig wb lr hp hdt.le _ _ _ (fun h hh => ⟨g1 h hh, ?_⟩) hl
        rw [← g2]
        exact List.single_le_sum (fun a ha => (g1 a ha).le) h hh
      | _ => cases hz)
  refine ⟨pl, h1, h2, fun x hx => ?_⟩
  obtain ⟨m, ⟨y, hy, hl⟩, rfl⟩ := h3 x hx
  refine ⟨y, ?_, ?_⟩
  · change m.machine.state = _
    rw [hy]; rfl
  · exact ⟨hl.1.1, hl.1.2, abs_le.mpr ⟨by linarith [hl.2.1], hl.2.2⟩⟩

/-! ## A concrete case: a car that accelerates close to its largest speed beside a parked differential drive -/

namespace Racing

open Parked (dots crew some6 atOnce wd limits cfg)

noncomputable def racer : Body some6 (ℝ × ℝ) :=
  ⟨.car 3 1 limits true ⟨1, 2, 0, 9, 0⟩, (0, 0), ⟨some 2, some 3, 1 / 2⟩, false⟩

noncomputable def start : St wd :=
  { Parked.start with
    models := [(0, racer), (1, ⟨.drive 1 1 (-1) 1 ⟨5, 6, 0⟩, (0, 0), ⟨some 2, some 3, 1 / 2⟩, false⟩)]
    w := (fun n => if n = 0 then .car { acc := 2, ddelta := 1 } else .drive ⟨0, 0⟩, ()) }

theorem driven : ∃ s1 l1, run cfg 5 start [] = some (.ok (s1, l1)) ∧ s1.reports = [] ∧ s1.time = 3 := by
  have h23 : (2 : ℝ) < 3 := by norm_num
  obtain ⟨y, h1⟩ : ∃ y, (Machine.car 3 1 limits true ⟨1, 2, 0, 9, 0⟩ : Machine some6).update dormandPrince false [3]
      (.car { acc := 2, ddelta := 1 }) = .ok (.car 3 1 limits true y) := by
    simp only [Machine.update, C149_same_vehicle, Except.map]
    exact ⟨_, rfl⟩
  have h2 : (Machine.drive 1 1 (-1) 1 ⟨5, 6, 0⟩ : Machine some6).update dormandPrince false [3] (.drive ⟨0, 0⟩) =
      .ok (.drive 1 1 (-1) 1 ⟨5, 6, 0⟩) := by
    have := C149_stand_diffDrive 1 1 (-1) 1 (by norm_num) dormandPrince ⟨⟨0, 0⟩, false, [3]⟩ ⟨5, 6, 0⟩ (Or.inl ⟨rfl, rfl⟩)
    simp only [Machine.update, this, Except.map]
  simp [run, initLoop, start, racer, Parked.start, cfg, loop, step, preUpdate, need, observe, lookup, Dict.get?, liftU,
    Sim.update, updateLoop, updatePlayer, addLog, Builder.add, maybeAsk, askPlayer, addExtra, Dict.set, postUpdate,
    removeLoop, terminationCondition, collTimer, writeLog, Dict.keys, PlayerLogger.asSequence,
    Builder.asSequence, Seq.mk?, Seq.increasing, bind, Except.bind, pure, Except.pure, h23, atOnce, h1, h2, Except.map]

theorem fresh : Fresh start := by
  constructor <;> simp [start, Parked.start, Dict.keys, Dict.Wf]

theorem found : Dict.get? start.models 0 = some racer := rfl

theorem valid : limits.Valid := by
  refine ⟨⟨?_, ?_⟩, ?_, ?_⟩ <;> norm_num [limits]

theorem dt_pos : 0 < cfg.dt := by norm_num [cfg]

theorem missions_wf : Dict.Wf cfg.missions := by simp [cfg, Dict.Wf, Dict.keys]

-- the logged states are states of a car, and the largest speed is exceeded by less than three metres per second
example : ∃ s1 l1 pl, run cfg 5 start [] = some (.ok (s1, l1)) ∧ Dict.get? l1 0 = some pl ∧ pl.states.vs ≠ [] ∧
    ∀ x ∈ pl.states.vs, ∃ y, x = .car y ∧ y.vx ≤ 12.7924 := by
  obtain ⟨s1, l1, h1, h2, -⟩ := driven
  obtain ⟨pl, h3, h4, h5⟩ := C161_limits dt_pos missions_wf fresh h1 0 racer 3 1 limits true ⟨1, 2, 0, 9, 0⟩ found rfl
    valid (by rw [h2]; rintro ⟨r, hr, -⟩; simp at hr)
    (fun m c => ⟨by intro h hh; simp [atOnce] at hh; rw [hh]; exact dt_pos, by simp [atOnce]⟩)
    (by norm_num [limits]) (by norm_num [limits]) (by norm_num [limits])
  refine ⟨s1, l1, pl, h1, h3, h4, fun x hx => ?_⟩
  obtain ⟨y, e, -, g, -⟩ := h5 x hx
  refine ⟨y, e, g.trans ?_⟩
  norm_num [limits, cfg]

-- the model is still a car with the same outline
example : ∃ s1 l1 m y, run cfg 5 start [] = some (.ok (s1, l1)) ∧ Dict.get? s1.models 0 = some m ∧
    m.machine = .car 3 1 limits true y ∧ m.outline = (0, 0) := by
  obtain ⟨s1, l1, h1, -, -⟩ := driven
  obtain ⟨⟨m, h3, h4, h5, -⟩, -⟩ := C161_kind dt_pos missions_wf fresh h1 0 racer found
  refine ⟨s1, l1, m, ?_⟩
  generalize m.machine = k at h4
  cases h4 with
  | car _ _ _ _ _ y => exact ⟨y, h1, h3, rfl, h5⟩

-- the same between any two moments
example : ∃ (σ : Nat → St wd) (j : Nat), Exec cfg σ j ∧ ∀ i ≤ j, ∀ m0, Dict.get? (σ i).models 0 = some m0 →
    ∃ m, Dict.get? (σ j).models 0 = some m ∧ SameKind m0.machine m.machine := by
  obtain ⟨s1, l1, h1, -, -⟩ := driven
  obtain ⟨σ, J, hready, -, hex, -, -⟩ := C23_log fresh dt_pos missions_wf h1
  refine ⟨σ, J + 1, hex, fun i hi m0 hm => ?_⟩
  obtain ⟨m, h3, h4, -⟩ := C161_kept hready hex hi 0 m0 hm
  exact ⟨m, h3, h4⟩

-- the hypotheses about executions are met: the car is driven by the commands of its agent
example : ∃ (σ : Nat → St wd) (j : Nat) (cs : List (AnyCmd × List ℝ)) (x : Machine some6), Exec cfg σ j ∧
    cs.map Prod.fst = commandsOf 0 (σ j).trace ∧ (∀ c ∈ cs, c.2 = [3]) ∧
    cs.foldlM (fun m c => m.update dormandPrince false c.2 c.1) racer.machine = .ok x ∧
    Dict.get? (σ j).models 0 = some { racer with machine := x } ∧
    (∀ m, Dict.get? (σ j).models 0 = some m → m.collided = false) := by
  obtain ⟨s1, l1, h1, h2, -⟩ := driven
  obtain ⟨σ, J, hready, ⟨w, lg, hs⟩, hex, hend, -⟩ := C23_log fresh dt_pos missions_wf h1
  have hnot : ¬ Named (σ (J + 1)).reports 0 := by
    rw [hend, h2]; rintro ⟨r, hr, -⟩; simp at hr
  obtain ⟨cs, x, e1, e2, e3, e4⟩ := C161_alone dt_pos missions_wf hready hex 0 racer (by rw [hs]; exact found) rfl hnot
  refine ⟨σ, J + 1, cs, x, hex, e1, fun c hc => ?_, e3, e4, fun m hm => ?_⟩
  · obtain ⟨m, h⟩ := e2 c hc
    exact h
  · rw [e4] at hm
    injection hm with hm
    rw [← hm]
    rfl

example : ∃ (σ : Nat → St wd) (j : Nat), Exec cfg σ j ∧ ∀ n m, Dict.get? (σ j).models n = some m →
    m.machine.isObstacle = false → m.collided = false := by
  obtain ⟨s1, l1, h1, h2, -⟩ := driven
  obtain ⟨σ, J, hready, ⟨w, lg, hs⟩, hex, hend, -⟩ := C23_log fresh dt_pos missions_wf h1
  refine ⟨σ, J + 1, hex, fun n m hm ho => ?_⟩
  have := (C161_flags hready hex (by
    rw [hs]
    intro n m h
    have hw : n = 0 ∨ n = 1 := by
      have := (Dict.mem_keys_iff start.models n).mpr ⟨m, h⟩
      simpa [start, Dict.keys] using this
    rcases hw with rfl | rfl
    · injection h with h; rw [← h]; rfl
    · injection h with h; rw [← h])).1 n m hm ho
  cases hc : m.collided with
  | false => rfl
  | true =>
    have := this hc
    rw [hend, h2] at this
    obtain ⟨r, hr, -⟩ := this
    simp at hr

end Racing

end Fleet
end Whole
end Verif
