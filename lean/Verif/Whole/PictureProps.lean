import Verif.Whole.DrivenProps
import Verif.Viz.Collision
import Mathlib.Tactic.FieldSimp

/-!
# C111: the picture of a collision shows where the players were and that they ran into each other
-/

set_option linter.unusedSectionVars false

namespace Verif
namespace Whole

open Sim Coll Viz

variable {N K : Type} [DecidableEq N] [Field K] [LinearOrder K] [IsStrictOrderedRing K] {F : Iface N K}
  {sc : Bool} {R : Parts N K F.M F.S}

/-- Marking a model as collided and setting its velocity leave it where it is. -/
structure Still (F : Iface N K) : Prop where
  footprintMark : ∀ m, F.footprint (F.mark m) = F.footprint m
  poseMark : ∀ m, F.pose (F.mark m) = F.pose m
  meshMark : ∀ m, F.mesh (F.mark m) = F.mesh m
  footprintVel : ∀ m v o, F.footprint (F.setVelocity m v o) = F.footprint m
  poseVel : ∀ m v o, F.pose (F.setVelocity m v o) = F.pose m
  meshVel : ∀ m v o, F.mesh (F.setVelocity m v o) = F.mesh m

/-- The same place and shape. -/
def SamePlace (F : Iface N K) (m m' : F.M) : Prop :=
  F.footprint m' = F.footprint m ∧ F.pose m' = F.pose m ∧ F.mesh m' = F.mesh m

theorem SamePlace.refl (m : F.M) : SamePlace F m m := ⟨rfl, rfl, rfl⟩

theorem samePlace_mark (hF : Still F) (m : F.M) : SamePlace F m (F.mark m) :=
  ⟨hF.footprintMark m, hF.poseMark m, hF.meshMark m⟩

theorem samePlace_vel (hF : Still F) (m : F.M) (v : K × K) (o : K) :
    SamePlace F m (F.setVelocity (F.mark m) v o) :=
  ⟨(hF.footprintVel _ _ _).trans (hF.footprintMark m), (hF.poseVel _ _ _).trans (hF.poseMark m),
    (hF.meshVel _ _ _).trans (hF.meshMark m)⟩

/-- The body of a player of a report: where its model is, with the reported velocity before the
collision. Mass and moment of inertia do not matter here. -/
def bodyBefore (F : Iface N K) (m : F.M) (r : ReportPlayer K F.L F.S) : Body K :=
  ⟨F.translation (F.pose m), r.velocity.1, r.velocity.2, 1, 1⟩

/-- The entry of a player of a report is about its model. -/
def AboutModel (F : Iface N K) (m : F.M) (r : ReportPlayer K F.L F.S) : Prop :=
  r.footprint = F.footprint m ∧ ∀ l ∈ r.locations, l ∈ F.mesh m

/-- The report with details is about the models in `d`. -/
def Placed (F : Iface N K) (d : Dict N F.M) (ps : List N) (t : K) (c : CollisionReport N K F.L F.S) : Prop :=
  c.atTime = t ∧ ∃ p n, c.point = some p ∧ c.normal = some n ∧
    ((∃ a b ma mb ra rb, a ≠ b ∧ ps = [a, b] ∧ c.players = [(a, some ra), (b, some rb)] ∧
        Dict.get? d a = some ma ∧ Dict.get? d b = some mb ∧ AboutModel F ma ra ∧ AboutModel F mb rb ∧
        0 ≤ approach (bodyBefore F ma ra) (bodyBefore F mb rb) p n) ∨
      (∃ a ma ra re, a ≠ F.envPlayer ∧ ps = [a, F.envPlayer] ∧
        c.players = [(a, some ra), (F.envPlayer, some re)] ∧
        Dict.get? d a = some ma ∧ AboutModel F ma ra ∧ 0 ≤ normalVel (bodyBefore F ma ra) p n ∧
        re.velocity = ((0, 0), 0) ∧ re.velocityAfter = ((0, 0), 0) ∧
        ∃ s poly, F.toPolygon s = .ok poly ∧ re.footprint = poly ∧ re.locations = [(F.everywhere, poly)]))

theorem AboutModel.same {m m' : F.M} {r : ReportPlayer K F.L F.S} (h : AboutModel F m r) (hs : SamePlace F m m') :
    AboutModel F m' r := ⟨by rw [hs.1]; exact h.1, by rw [hs.2.2]; exact h.2⟩

theorem bodyBefore_same {m m' : F.M} (r : ReportPlayer K F.L F.S) (hs : SamePlace F m m') :
    bodyBefore F m' r = bodyBefore F m r := by
  unfold bodyBefore
  rw [hs.2.1]

theorem Placed.same {d d' : Dict N F.M} {ps : List N} {t : K} {c : CollisionReport N K F.L F.S}
    (h : Placed F d ps t c)
    (hd : ∀ k m, Dict.get? d k = some m → ∃ m', Dict.get? d' k = some m' ∧ SamePlace F m m') :
    Placed F d' ps t c := by
  obtain ⟨ht, p, n, hp, hn, ⟨a, b, ma, mb, ra, rb, h1, h2, h3, h4, h5, h6, h7, h8⟩ |
    ⟨a, ma, ra, re, h1, h2, h3, h4, h5, h6, h7⟩⟩ := h
  · obtain ⟨ma', ga, sa⟩ := hd a ma h4
    obtain ⟨mb', gb, sb⟩ := hd b mb h5
    refine ⟨ht, p, n, hp, hn, Or.inl ⟨a, b, ma', mb', ra, rb, h1, h2, h3, ga, gb, h6.same sa, h7.same sb, ?_⟩⟩
    rw [bodyBefore_same ra sa, bodyBefore_same rb sb]
    exact h8
  · obtain ⟨ma', ga, sa⟩ := hd a ma h4
    refine ⟨ht, p, n, hp, hn, Or.inr ⟨a, ma', ra, re, h1, h2, h3, ga, h5.same sa, ?_, h7⟩⟩
    rw [bodyBefore_same ra sa]
    exact h6

theorem set_set {α : Type} {a b : N} (hab : a ≠ b) (u v : α) :
    Dict.set (Dict.set ([] : Dict N α) a u) b v = [(a, u), (b, v)] := by
  simp [Dict.set, hab]

/-- What `resolve` reports, whatever the geometry objects. -/
theorem placed_of_resolve (hF : Still F) (t : K) (a b : N) (hab : a ≠ b) (ma mb : F.M) :
    SamePlace F ma (Coll.resolve F sc t a ma b mb).1.1 ∧ SamePlace F mb (Coll.resolve F sc t a ma b mb).1.2 ∧
    ∀ (c : CollisionReport N K F.L F.S) (d : Dict N F.M), (Coll.resolve F sc t a ma b mb).2 = .ok (some c) →
      Dict.get? d a = some ma → Dict.get? d b = some mb → Placed F d [a, b] t c := by
  unfold Coll.resolve
  dsimp only
  split
  · exact ⟨.refl _, .refl _, fun c d h => by cases h⟩
  · rename_i n p hg
    split
    · exact ⟨.refl _, .refl _, fun c d h => by cases h⟩
    · rename_i happ
      split
      · exact ⟨samePlace_mark hF _, samePlace_mark hF _, fun c d h => by cases h⟩
      · rename_i aLocs hla
        split
        · exact ⟨samePlace_mark hF _, samePlace_mark hF _, fun c d h => by cases h⟩
        · rename_i bLocs hlb
          refine ⟨samePlace_vel hF _ _ _, samePlace_vel hF _ _ _, fun c d h ha hb => ?_⟩
          injection h with h
          injection h with h
          subst h
          have hl : ∀ (m : F.M) (s : F.S) (locs : List (F.L × F.S)),
              impactLocations F (F.mark m) s = .ok locs → ∀ l ∈ locs, l ∈ F.mesh m := by
            intro m s locs h l hl
            unfold impactLocations at h
            dsimp only at h
            split at h
            · cases h
            · injection h with h
              subst h
              rw [← hF.meshMark m]
              exact (List.mem_filter.mp hl).1
          refine ⟨rfl, p, n, rfl, rfl, Or.inl ⟨a, b, ma, mb, _, _, hab, rfl, set_set hab _ _, ha, hb,
            ⟨rfl, hl _ _ _ hla⟩, ⟨rfl, hl _ _ _ hlb⟩, ?_⟩⟩
          · have := not_lt.mp happ
            unfold approach Body.velAt bodyBefore
            unfold dot velocityOfP armTo at this
            dsimp only at this ⊢
            linarith

theorem placed_of_resolveEnv (hF : Still F) (t : K) (a : N) (hae : a ≠ F.envPlayer) (ma : F.M) (s : F.S)
    (g : Geom K) : SamePlace F ma (Coll.resolveEnv F t a ma s g).1 ∧
    ∀ (c : CollisionReport N K F.L F.S) (d : Dict N F.M), (Coll.resolveEnv F t a ma s g).2 = .ok (some c) →
      Dict.get? d a = some ma → Placed F d [a, F.envPlayer] t c := by
  unfold Coll.resolveEnv
  dsimp only
  split
  · exact ⟨.refl _, fun c d h => by cases h⟩
  · rename_i n p hg
    split
    · exact ⟨.refl _, fun c d h => by cases h⟩
    · rename_i happ
      split
      · exact ⟨samePlace_mark hF _, fun c d h => by cases h⟩
      · rename_i aLocs hla
        split
        · exact ⟨samePlace_vel hF _ _ _, fun c d h => by cases h⟩
        · rename_i poly hpoly
          refine ⟨samePlace_vel hF _ _ _, fun c d h ha => ?_⟩
          injection h with h
          injection h with h
          subst h
          refine ⟨rfl, p, n, rfl, rfl, Or.inr ⟨a, ma, _, _, hae, rfl, set_set hae _ _, ha, ⟨rfl, ?_⟩, ?_, rfl,
            rfl, s, poly, hpoly, rfl, rfl⟩⟩
          · intro l hl
            unfold impactLocations at hla
            dsimp only at hla
            split at hla
            · cases hla
            · injection hla with hla
              subst hla
              rw [← hF.meshMark ma]
              exact (List.mem_filter.mp hl).1
          · have := not_lt.mp happ
            unfold normalVel Body.velAt bodyBefore
            unfold dot velocityOfP armTo at this
            dsimp only at this ⊢
            linarith

/-- What is true of models and reports after the collision checks at time `t`. -/
def AllPlaced (F : Iface N K) (sc : Bool) (R : Parts N K F.M F.S) (t : K) (d : Dict N F.M)
    (rs : List (Report (world F sc R))) : Prop :=
  Dict.get? d F.envPlayer = none ∧
    ∀ r ∈ rs, r.atTime = t → ∀ c : CollisionReport N K F.L F.S, r.data = some c → Placed F d r.players t c

theorem allPlaced_closed (hF : Still F) (t : K) :
    PostClosed (fun s : St (world F sc R) => s.players.Nodup ∧ s.time = t ∧
      AllPlaced F sc R t s.models s.reports) := by
  refine postClosed_models (Wd := world F sc R) t (AllPlaced F sc R t) ?_ ?_
  · rintro w p m o d rs rep hm - hr ⟨q1, q2⟩
    have hne : p ≠ F.envPlayer := by rintro rfl; rw [q1] at hm; cases hm
    change reportOf [p, F.envPlayer] [p] t (Coll.resolveEnv F t p m o.1 o.2).2 = .ok rep at hr
    obtain ⟨hs, hp⟩ := placed_of_resolveEnv hF t p hne m o.1 o.2
    have hd : ∀ k mk, Dict.get? d k = some mk → ∃ m',
        Dict.get? (Dict.set d p (Coll.resolveEnv F t p m o.1 o.2).1) k = some m' ∧ SamePlace F mk m' := by
      intro k mk hk
      rw [Dict.get?_set]
      split
      · rename_i e
        subst e
        rw [hm] at hk
        injection hk with hk
        subst hk
        exact ⟨_, rfl, hs⟩
      · exact ⟨mk, hk, .refl _⟩
    refine ⟨by rw [Dict.get?_set_ne _ hne]; exact q1, ?_⟩
    intro r hr' ht c hc
    rw [List.mem_append] at hr'
    rcases hr' with hr' | hr'
    · exact (q2 r hr' ht c hc).same hd
    · split at hr'
      · simp at hr'
      · rcases reportOf_cases hr with ⟨-, h1⟩ | ⟨d', h2, h1⟩ | ⟨-, h1⟩
        · rw [h1] at hr'; simp at hr'
        · rw [h1] at hr'
          simp only [Option.toList_some, List.mem_singleton] at hr'
          subst hr'
          injection hc with hc
          subst hc
          exact (hp _ d h2 hm).same hd
        · rw [h1] at hr'
          simp only [Option.toList_some, List.mem_singleton] at hr'
          subst hr'
          cases hc
  · rintro w a b ma mb d rs rep hab ha hb hr ⟨q1, q2⟩
    have hne : a ≠ F.envPlayer := by rintro rfl; rw [q1] at ha; cases ha
    have hne' : b ≠ F.envPlayer := by rintro rfl; rw [q1] at hb; cases hb
    change reportOf [a, b] [a, b] t (Coll.resolve F sc t a ma b mb).2 = .ok rep at hr
    obtain ⟨hsa, hsb, hp⟩ := placed_of_resolve (sc := sc) hF t a b hab ma mb
    have hd : ∀ k mk, Dict.get? d k = some mk → ∃ m',
        Dict.get? (Dict.set (Dict.set d a (Coll.resolve F sc t a ma b mb).1.1) b
          (Coll.resolve F sc t a ma b mb).1.2) k = some m' ∧ SamePlace F mk m' := by
      intro k mk hk
      rw [Dict.get?_set]
      split
      · rename_i e
        subst e
        rw [hb] at hk
        injection hk with hk
        subst hk
        exact ⟨_, rfl, hsb⟩
      · rw [Dict.get?_set]
        split
        · rename_i e
          subst e
          rw [ha] at hk
          injection hk with hk
          subst hk
          exact ⟨_, rfl, hsa⟩
        · exact ⟨mk, hk, .refl _⟩
    refine ⟨by rw [Dict.get?_set_ne _ hne', Dict.get?_set_ne _ hne]; exact q1, ?_⟩
    intro r hr' ht c hc
    rw [List.mem_append] at hr'
    rcases hr' with hr' | hr'
    · exact (q2 r hr' ht c hc).same hd
    · rcases reportOf_cases hr with ⟨-, h1⟩ | ⟨d', h2, h1⟩ | ⟨-, h1⟩
      · rw [h1] at hr'; simp at hr'
      · rw [h1] at hr'
        simp only [Option.toList_some, List.mem_singleton] at hr'
        subst hr'
        injection hc with hc
        subst hc
        exact (hp _ d h2 ha hb).same hd
      · rw [h1] at hr'
        simp only [Option.toList_some, List.mem_singleton] at hr'
        subst hr'
        cases hc

theorem get?_none_of_keys {α β : Type} {d : Dict N α} {d' : Dict N β} (h : Dict.keys d' = Dict.keys d) {n : N}
    (hn : Dict.get? d n = none) : Dict.get? d' n = none := by
  cases e : Dict.get? d' n with
  | none => rfl
  | some a =>
    have := (Dict.mem_keys_iff d' n).mpr ⟨a, e⟩
    rw [h] at this
    obtain ⟨b, hb⟩ := (Dict.mem_keys_iff d n).mp this
    rw [hn] at hb
    cases hb

variable [FloorSemiring K]

/-- After a step, the reports of its collision checks are about the models as the step leaves them. -/
theorem placed_step {cfg : Cfg (world F sc R)} (hF : Still F) (hdt : 0 < cfg.dt) (hm : Dict.Wf cfg.missions)
    {σ : Nat → St (world F sc R)} {j : Nat} (h0 : Ready (σ 0)) (hx : Exec cfg σ (j + 1))
    (henv : Dict.get? (σ 0).models F.envPlayer = none) :
    AllPlaced F sc R (((j + 1 : Nat) : K) * cfg.dt) (σ (j + 1)).models (σ (j + 1)).reports := by
  have hx' : Exec cfg σ j := fun i hi => hx i (by omega)
  have hinv := inv_of_exec (inv_zero cfg σ h0) hdt hm j hx'
  have hrep := repInv_of_exec h0 hdt hm j hx'
  have hcan := canStep_of_inv hinv hdt hm
  have hstep := (hx j (by omega)).2
  unfold Sim.step at hstep
  obtain ⟨s1, h1, hstep⟩ := bind_ok.mp hstep
  obtain ⟨s2, h2, hstep⟩ := bind_ok.mp hstep
  obtain ⟨o, rfl, -⟩ := (safe_preUpdate cfg (σ j) (fun n hn => (hcan.can n hn).model) hcan.nodup).ok h1
  have hn : need cfg ({ σ j with lastObs := o } : St (world F sc R)) = need cfg (σ j) := need_congr cfg rfl rfl
  obtain ⟨s3, es, he, rfl⟩ := (safe_update cfg { σ j with lastObs := o } hcan.nodup (by
    intro n hnp
    rw [hn]
    obtain ⟨a, b, c⟩ := hcan.can n hnp
    exact ⟨a, b, c⟩)).ok h2
  have hpost := (allPlaced_closed (F := F) (sc := sc) (R := R) hF (((j + 1 : Nat) : K) * cfg.dt)).postUpdate
    (s' := σ (j + 1)) (cfg := cfg) ?_ hstep
  · exact hpost.2.2
  · refine ⟨?_, ?_, ?_, ?_⟩
    · show s3.players.Nodup
      rw [he.frame.players]
      exact hinv.nodup
    · show s3.time + cfg.dt = _
      rw [he.frame.time]
      show (σ j).time + cfg.dt = _
      rw [hinv.time]
      push_cast
      ring
    · show Dict.get? s3.models F.envPlayer = none
      exact get?_none_of_keys (he.keys.trans hinv.keys) henv
    · intro r hr ht
      have hr : r ∈ s3.reports := hr
      rw [he.frame.reports] at hr
      have := hrep.past r hr
      rw [hinv.time, ht] at this
      push_cast at this
      linarith

/-- Every report with details is about the models at the end of the step it is stamped with; that step does
not end the run. -/
theorem placed_exec {cfg : Cfg (world F sc R)} (hF : Still F) (hdt : 0 < cfg.dt) (hm : Dict.Wf cfg.missions)
    {σ : Nat → St (world F sc R)} (h0 : Ready (σ 0)) (henv : Dict.get? (σ 0).models F.envPlayer = none) :
    ∀ j, Exec cfg σ j → ∀ r ∈ (σ j).reports, ∀ c : CollisionReport N K F.L F.S, r.data = some c →
      ∃ i, 0 < i ∧ i ≤ j ∧ r.atTime = (i : K) * cfg.dt ∧ (σ i).terminated = false ∧
        Placed F (σ i).models r.players ((i : K) * cfg.dt) c ∧ About (σ i).players r := by
  intro j
  induction j with
  | zero =>
    intro _ r hr
    rw [h0.fresh.reports] at hr
    simp at hr
  | succ j ih =>
    intro hx r hr c hc
    obtain ⟨rs, hrs, hst, hterm⟩ := C27_stamped h0 hdt hm hx
    have hr0 := hr
    rw [hrs, List.mem_append] at hr
    rcases hr with hr | hr
    · obtain ⟨i, h1, h2, h3⟩ := ih (fun i hi => hx i (by omega)) r hr c hc
      exact ⟨i, h1, by omega, h3⟩
    · refine ⟨j + 1, by omega, le_rfl, (hst r hr).1, ?_, ?_, (hst r hr).2⟩
      · cases ht : (σ (j + 1)).terminated with
        | false => rfl
        | true => rw [hterm ht] at hr; simp at hr
      · exact (placed_step hF hdt hm h0 hx henv).2 r hr0 (hst r hr).1 c hc

/-! ## Reading the log at the time of a report -/

theorem get?_forall2 {α β : Type} {S : α → β → Prop} {d : Dict N α} {e : Dict N β}
    (h : List.Forall₂ (fun p q => p.1 = q.1 ∧ S p.2 q.2) d e) (n : N) :
    (Dict.get? d n = none → Dict.get? e n = none) ∧
      ∀ a, Dict.get? d n = some a → ∃ b, Dict.get? e n = some b ∧ S a b := by
  induction h with
  | nil => exact ⟨fun _ => rfl, fun a h => by simp [Dict.get?] at h⟩
  | @cons p q d e hpq _ ih =>
    obtain ⟨k, a⟩ := p
    obtain ⟨k', b⟩ := q
    obtain ⟨hk, hs⟩ := hpq
    dsimp only at hk
    subst hk
    unfold Dict.get?
    by_cases hn : k = n
    · simp only [hn, if_true]
      refine ⟨?_, ?_⟩
      · intro h
        simp at h
      · intro a' h
        injection h with h
        subst h
        exact ⟨b, rfl, hs⟩
    · simp only [hn, if_false]
      exact ih

theorem state_of_atInterp {Wd : World N K} [AddCommGroup Wd.X] [Module K Wd.X] {l : PlayerLog Wd} {t : K}
    {e : LogEntry Wd} (h : l.atInterp t = .ok e) : l.states.atInterp t = .ok e.state := by
  unfold PlayerLog.atInterp at h
  obtain ⟨x, -, h⟩ := bind_ok.mp h
  obtain ⟨y, hy, h⟩ := bind_ok.mp h
  obtain ⟨z, -, h⟩ := bind_ok.mp h
  obtain ⟨u, -, h⟩ := bind_ok.mp h
  injection h with h
  subst h
  exact hy

/-- The log of a run, read at the time of a step that does not end the run: an active player is where its
model is then. -/
theorem entries_of_run {Wd : World N K} [AddCommGroup Wd.X] [Module K Wd.X] {cfg : Cfg Wd} {fuel : Nat}
    {s s' : St Wd} {log' : Dict N (PlayerLog Wd)} (hf : Fresh s) (hdt : 0 < cfg.dt)
    (hm : Dict.Wf cfg.missions) (hrun : run cfg fuel s [] = some (.ok (s', log'))) :
    ∃ (σ : Nat → St Wd) (J : Nat), Ready (σ 0) ∧
      (∃ w logger, σ 0 = { s with w := w, logger := logger }) ∧ Exec cfg σ (J + 1) ∧ σ (J + 1) = s' ∧
      s'.terminated = true ∧
      ∀ i, i ≤ J → ∃ entries, SimLog.atInterp log' ((i : K) * cfg.dt) = .ok entries ∧
        (∀ n, Dict.get? s.models n = none → Dict.get? entries n = none) ∧
        ∀ n ∈ (σ i).players, ∃ e m, Dict.get? entries n = some e ∧ Dict.get? (σ i).models n = some m ∧
          e.state = Wd.getState m := by
  obtain ⟨hval, hkeys, hread, -⟩ := C29_after_run hf hdt hm hrun
  obtain ⟨-, -, -, -, -, -, hterm, -⟩ := run_ok hf hrun
  obtain ⟨σ, J, hr, h0, hx, hend, hlog⟩ := C23_log hf hdt hm hrun
  refine ⟨σ, J, hr, h0, hx, hend, hterm, ?_⟩
  intro i hi
  obtain ⟨entries, hent⟩ := hread ((i : K) * cfg.dt) (mul_nonneg (Nat.cast_nonneg i) hdt.le)
  have hall := (C29_at_interp log' _ entries hval).mp hent
  refine ⟨entries, hent, ?_, ?_⟩
  · intro n hn
    refine (get?_forall2 (S := fun l e => IsEntry l ((i : K) * cfg.dt) e) hall n).1 ?_
    cases e : Dict.get? log' n with
    | none => rfl
    | some l =>
      have := (hkeys n).mp ((Dict.mem_keys_iff _ _).mpr ⟨l, e⟩)
      obtain ⟨m, hm'⟩ := (Dict.mem_keys_iff _ _).mp this
      rw [hn] at hm'
      cases hm'
  · intro n hn
    have hinv := inv_of_exec (inv_zero cfg σ hr) hdt hm i (fun k hk => hx k (by omega))
    have hnm : n ∈ Dict.keys s.models := by
      have := hinv.sub n hn
      obtain ⟨w, lg, h0⟩ := h0
      rw [h0] at this
      exact this
    obtain ⟨pl, k, last, hget, hpv, hcase, hts, hvs, -⟩ := hlog n hnm
    have hil : i ≤ last := by
      rcases hcase with ⟨-, -, rfl⟩ | ⟨-, hk, -, hk2, -, rfl⟩
      · exact hi
      · by_contra hlt
        exact players_mono hr hdt hm hx n last hk2 i (by omega) (by omega) hn
    obtain ⟨m, hmod, hv⟩ := hvs i hil
    obtain ⟨e, he, hie⟩ := (get?_forall2 (S := fun l e => IsEntry l ((i : K) * cfg.dt) e) hall n).2 pl hget
    refine ⟨e, m, he, hmod, ?_⟩
    have h1 := state_of_atInterp ((C29_player_ok_iff pl hpv _ e).mpr hie)
    have h2 : ((i : K) * cfg.dt, Wd.getState m) ∈ pl.states.samples := by
      unfold Seq.samples
      have hi1 : pl.states.ts[i]? = some ((i : K) * cfg.dt) := by
        rw [hts, List.getElem?_map, List.getElem?_range (by omega)]
        rfl
      exact List.mem_of_getElem? (i := i) (by rw [List.getElem?_zip_eq_some]; exact ⟨hi1, hv⟩)
    rw [C04_at_samples pl.states hpv.1 _ _ h2] at h1
    injection h1 with h1
    exact h1.symm

/-! ## The picture -/

/-- Specification: `d` shows the entry `r` of a report, at the centre `centre`, around the impact point
`point`: the velocities at the centre before and after, and before at the impact point, where the rotation
adds to the velocity. -/
structure Depicts {L S X : Type} (D : Pen K S X) (r : ReportPlayer K L S) (centre point : K × K)
    (d : PlayerPicture K L) : Prop where
  outline : D.exterior r.footprint = .ok d.outline
  name : d.name = centre
  before : d.before = (3 / 10 * r.velocity.1.1, 3 / 10 * r.velocity.1.2)
  after : d.after = (3 / 10 * r.velocityAfter.1.1, 3 / 10 * r.velocityAfter.1.2)
  rates : d.rateBefore = r.velocity.2 ∧ d.rateAfter = r.velocityAfter.2
  atPoint : d.atPoint = (3 / 10 * (r.velocity.1.1 - r.velocity.2 * (point.2 - centre.2)),
    3 / 10 * (r.velocity.1.2 + r.velocity.2 * (point.1 - centre.1)))
  locations : d.locations.map Prod.fst = r.locations.map Prod.fst

theorem drawLocations_ok {L S X : Type} (D : Pen K S X) (ls : List (L × S))
    (h : ∀ l ∈ ls, ∃ o, D.exterior l.2 = .ok o) :
    ∃ q, drawLocations D ls = .ok q ∧ q.map Prod.fst = ls.map Prod.fst := by
  induction ls with
  | nil => exact ⟨[], rfl, rfl⟩
  | cons l ls ih =>
    obtain ⟨q, hq, he⟩ := ih (fun l hl => h l (by simp [hl]))
    obtain ⟨o, ho⟩ := h l (by simp)
    obtain ⟨k, x⟩ := l
    refine ⟨(k, o, D.centroid x) :: q, ?_, by simp [he]⟩
    unfold drawLocations
    dsimp only at ho
    rw [ho, hq]
    rfl

theorem drawPlayer_ok {Wd : World N K} {L S : Type} (D : Pen K S Wd.X) (entries : Dict N (LogEntry Wd))
    (point : K × K) (i : Nat) (hi : i < 8) (n : N) (r : ReportPlayer K L S)
    (hf : ∃ o, D.exterior r.footprint = .ok o) (hl : ∀ l ∈ r.locations, ∃ o, D.exterior l.2 = .ok o) :
    ∃ d, drawPlayer D entries point i n (some r) = .ok d ∧
      Depicts D r (placeOf D entries n r.footprint) point d := by
  obtain ⟨o, ho⟩ := hf
  obtain ⟨q, hq, he⟩ := drawLocations_ok D r.locations hl
  unfold drawPlayer
  rw [if_pos hi]
  dsimp only
  rw [ho, hq]
  refine ⟨_, rfl, ho, rfl, rfl, rfl, ⟨rfl, rfl⟩, ?_, he⟩
  have h3 : (3 : K) ≠ 0 := by norm_num
  have h10 : (10 : K) ≠ 0 := by norm_num
  unfold scaled velocityOfP armTo
  dsimp only
  refine Prod.ext ?_ ?_
  · dsimp only
    field_simp
    ring
  · dsimp only
    field_simp

/-- Positions of states are those of the poses; footprints, the parts of a mesh and polygons have an
outline. -/
structure Drawable (F : Iface N K) (R : Parts N K F.M F.S) (D : Pen K F.S R.X) : Prop where
  pos : ∀ m, D.pos (R.getState m) = F.translation (F.pose m)
  footprint : ∀ m, ∃ o, D.exterior (F.footprint m) = .ok o
  mesh : ∀ m, ∀ l ∈ F.mesh m, ∃ o, D.exterior l.2 = .ok o
  polygon : ∀ s q, F.toPolygon s = .ok q → ∃ o, D.exterior q = .ok o

/-- Specification: the picture shows the player `n` with model `m`: its outline, its name where it is, and
its velocities, as reported in `c`. -/
def ShowsPlayer (F : Iface N K) {X : Type} (D : Pen K F.S X) (c : CollisionReport N K F.L F.S) (n : N) (m : F.M)
    (pic : Picture N K F.L) (d : PlayerPicture K F.L) : Prop :=
  ∃ r, Dict.get? c.players n = some (some r) ∧ D.exterior (F.footprint m) = .ok d.outline ∧
    Depicts D r (F.translation (F.pose m)) pic.point d

/-- Specification: length of an arrow along the drawn normal, up to a positive factor. -/
def along (n v : K × K) : K := v.1 * n.1 + v.2 * n.2

/-- **C111.** After a run, every collision reported with details can be drawn. The picture shows the impact
point and the normal of the report. It shows each of the players at the place where its model was at the end
of the step of the report, with the outline that it had there, and its reported velocities; the arrow at the
impact point is the velocity of the body there. The arrows at the impact point show the players running into
each other, or the player running into the environment, which is shown at its centroid and at rest. -/
theorem C111_picture_partial {cfg : Cfg (world F sc R)} [AddCommGroup R.X] [Module K R.X]
    {D : Pen K F.S R.X} (hD : Drawable F R D) (hF : Still F) {fuel : Nat} {s s' : St (world F sc R)}
    {log' : Dict N (PlayerLog (world F sc R))} (hf : Fresh s) (hdt : 0 < cfg.dt) (hm : Dict.Wf cfg.missions)
    (henv : Dict.get? s.models F.envPlayer = none) (hrun : run cfg fuel s [] = some (.ok (s', log'))) :
    ∃ (σ : Nat → St (world F sc R)) (J : Nat), (∃ w logger, σ 0 = { s with w := w, logger := logger }) ∧
      Exec cfg σ (J + 1) ∧ σ (J + 1) = s' ∧
      ∀ r ∈ s'.reports, ∀ c : CollisionReport N K F.L F.S, r.data = some c →
        ∃ (pic : Picture N K F.L) (n : K × K) (i : Nat),
          plotCollision (Wd := world F sc R) D c log' = .ok pic ∧
          c.point = some pic.point ∧ c.normal = some n ∧ pic.normal = (1 / 5 * n.1, 1 / 5 * n.2) ∧
          0 < i ∧ i ≤ J ∧ c.atTime = (i : K) * cfg.dt ∧
          ((∃ a b ma mb da db, r.players = [a, b] ∧ pic.players = [(a, da), (b, db)] ∧
              Dict.get? (σ i).models a = some ma ∧ Dict.get? (σ i).models b = some mb ∧
              ShowsPlayer F D c a ma pic da ∧ ShowsPlayer F D c b mb pic db ∧
              da.colour ≠ db.colour ∧ along pic.normal db.atPoint ≤ along pic.normal da.atPoint) ∨
            ∃ a ma da de re, r.players = [a, F.envPlayer] ∧ pic.players = [(a, da), (F.envPlayer, de)] ∧
              Dict.get? (σ i).models a = some ma ∧ ShowsPlayer F D c a ma pic da ∧
              Dict.get? c.players F.envPlayer = some (some re) ∧
              Depicts D re (D.centroid re.footprint) pic.point de ∧
              de.before = (0, 0) ∧ de.after = (0, 0) ∧ de.atPoint = (0, 0) ∧
              da.colour ≠ de.colour ∧ 0 ≤ along pic.normal da.atPoint) := by
  obtain ⟨σ, J, hready, h0, hx, hend, hterm, hlog⟩ :=
    entries_of_run (Wd := world F sc R) hf hdt hm hrun
  refine ⟨σ, J, h0, hx, hend, ?_⟩
  intro r hr c hc
  have henv0 : Dict.get? (σ 0).models F.envPlayer = none := by
    obtain ⟨w, lg, e⟩ := h0
    rw [e]
    exact henv
  rw [← hend] at hr
  obtain ⟨i, hi0, hiJ, htime, hnt, ⟨hct, p, n, hp, hn, hcase⟩, habout⟩ :=
    placed_exec hF hdt hm hready henv0 (J + 1) hx r hr c hc
  have hi : i ≤ J := by
    rcases Nat.lt_or_ge J i with h | h
    · have : i = J + 1 := by omega
      rw [this, hend, hterm] at hnt
      cases hnt
    · exact h
  obtain ⟨entries, hent, hgone, hact⟩ := hlog i hi
  have hplot : ∀ ps, drawPlayers (Wd := world F sc R) D entries p 0 c.players = .ok ps →
      plotCollision (Wd := world F sc R) D c log' = .ok ⟨p, (1 / 5 * n.1, 1 / 5 * n.2), ps⟩ := by
    intro ps hps
    unfold plotCollision
    rw [hct, hent]
    show (match c.point with
      | none => Except.error Err.attribute
      | some p =>
        match c.normal with
        | none => Except.error Err.type
        | some n => do
          let ps ← drawPlayers (Wd := world F sc R) D entries p 0 c.players
          return (⟨p, scaled (1 / 5) n, ps⟩ : Picture N K F.L)) = _
    rw [hp, hn]
    dsimp only
    rw [hps]
    rfl
  have hplace : ∀ a m (q : F.S), a ∈ (σ i).players → Dict.get? (σ i).models a = some m →
      placeOf (Wd := world F sc R) D entries a q = F.translation (F.pose m) := by
    intro a m q ha hma
    obtain ⟨e, m', he, hm', hs⟩ := hact a ha
    rw [hma] at hm'
    injection hm' with hm'
    subst hm'
    unfold placeOf
    rw [he]
    show D.pos e.state = _
    rw [hs]
    exact hD.pos m
  have hloc : ∀ m (q : ReportPlayer K F.L F.S), AboutModel F m q → (∃ o, D.exterior q.footprint = .ok o) ∧
      ∀ l ∈ q.locations, ∃ o, D.exterior l.2 = .ok o := by
    intro m q hq
    exact ⟨by rw [hq.1]; exact hD.footprint m, fun l hl => hD.mesh m l (hq.2 l hl)⟩
  rcases hcase with ⟨a, b, ma, mb, ra, rb, hab, hps, hcp, hga, hgb, hfa, hfb, happ⟩ |
    ⟨a, ma, ra, re, hae, hps, hcp, hga, hfa, happ, hv, hva, q, poly, hpoly, hef, hel⟩
  · have hmem : a ∈ (σ i).players ∧ b ∈ (σ i).players := by
      rcases habout with ⟨k, hk, ⟨e, -⟩ | ⟨e, -⟩⟩ | ⟨k, l, hk, hl, e⟩
      · rw [hps] at e
        simp at e
      · rw [hps] at e
        simp only [List.cons.injEq, and_true] at e
        obtain ⟨-, e⟩ := e
        have e : b = F.envPlayer := e
        rw [e] at hgb
        have hinv := inv_of_exec (inv_zero cfg σ hready) hdt hm i (fun k hk => hx k (by omega))
        have := get?_none_of_keys hinv.keys henv0
        rw [this] at hgb
        cases hgb
      · rw [hps] at e
        simp only [List.cons.injEq, and_true] at e
        rw [e.1, e.2]
        exact ⟨hk, hl⟩
    obtain ⟨f1, f2⟩ := hloc ma ra hfa
    obtain ⟨g1, g2⟩ := hloc mb rb hfb
    obtain ⟨da, hda, sda⟩ := drawPlayer_ok (Wd := world F sc R) D entries p 0 (by omega) a ra f1 f2
    obtain ⟨db, hdb, sdb⟩ := drawPlayer_ok (Wd := world F sc R) D entries p 1 (by omega) b rb g1 g2
    rw [hplace a ma _ hmem.1 hga] at sda
    rw [hplace b mb _ hmem.2 hgb] at sdb
    have hcol : ∀ (k : Nat) (x : N) (q : ReportPlayer K F.L F.S) (d : PlayerPicture K F.L),
        drawPlayer (Wd := world F sc R) D entries p k x (some q) = .ok d → d.colour = k := by
      intro k x q d h
      unfold drawPlayer at h
      split at h
      · dsimp only at h
        obtain ⟨o, -, h⟩ := bind_ok.mp h
        obtain ⟨l, -, h⟩ := bind_ok.mp h
        injection h with h
        rw [← h]
      · cases h
    refine ⟨⟨p, (1 / 5 * n.1, 1 / 5 * n.2), [(a, da), (b, db)]⟩, n, i, hplot _ ?_, hp, hn, rfl, hi0, hi, hct,
      Or.inl ⟨a, b, ma, mb, da, db, hps, rfl, hga, hgb, ⟨ra, ?_, ?_, sda⟩, ⟨rb, ?_, ?_, sdb⟩, ?_, ?_⟩⟩
    · rw [hcp]
      unfold drawPlayers
      rw [hda]
      unfold drawPlayers
      rw [hdb]
      rfl
    · rw [hcp]; simp [Dict.get?]
    · rw [← hfa.1]; exact sda.outline
    · rw [hcp]; simp [Dict.get?, hab]
    · rw [← hfb.1]; exact sdb.outline
    · rw [hcol 0 a ra da hda, hcol 1 b rb db hdb]
      omega
    · unfold along
      rw [sda.atPoint, sdb.atPoint]
      unfold approach Body.velAt bodyBefore at happ
      dsimp only at happ ⊢
      nlinarith [happ]
  · have hmem : a ∈ (σ i).players := by
      rcases habout with ⟨k, hk, ⟨e, -⟩ | ⟨e, -⟩⟩ | ⟨k, l, hk, hl, e⟩ <;> rw [hps] at e
      · simp at e
      · simp only [List.cons.injEq] at e
        rw [e.1]
        exact hk
      · simp only [List.cons.injEq] at e
        rw [e.1]
        exact hk
    obtain ⟨f1, f2⟩ := hloc ma ra hfa
    obtain ⟨da, hda, sda⟩ := drawPlayer_ok (Wd := world F sc R) D entries p 0 (by omega) a ra f1 f2
    obtain ⟨de, hde, sde⟩ := drawPlayer_ok (Wd := world F sc R) D entries p 1 (by omega) F.envPlayer re
      (by rw [hef]; exact hD.polygon q poly hpoly)
      (by
        intro l hl
        rw [hel, List.mem_singleton] at hl
        rw [hl]
        exact hD.polygon q poly hpoly)
    rw [hplace a ma _ hmem hga] at sda
    have hcen : placeOf (Wd := world F sc R) D entries F.envPlayer re.footprint = D.centroid re.footprint := by
      unfold placeOf
      rw [hgone _ henv]
    rw [hcen] at sde
    have hcol : ∀ (k : Nat) (x : N) (q : ReportPlayer K F.L F.S) (d : PlayerPicture K F.L),
        drawPlayer (Wd := world F sc R) D entries p k x (some q) = .ok d → d.colour = k := by
      intro k x q d h
      unfold drawPlayer at h
      split at h
      · dsimp only at h
        obtain ⟨o, -, h⟩ := bind_ok.mp h
        obtain ⟨l, -, h⟩ := bind_ok.mp h
        injection h with h
        rw [← h]
      · cases h
    refine ⟨⟨p, (1 / 5 * n.1, 1 / 5 * n.2), [(a, da), (F.envPlayer, de)]⟩, n, i, hplot _ ?_, hp, hn, rfl, hi0,
      hi, hct, Or.inr ⟨a, ma, da, de, re, hps, rfl, hga, ⟨ra, ?_, ?_, sda⟩, ?_, sde, ?_, ?_, ?_, ?_, ?_⟩⟩
    · rw [hcp]
      unfold drawPlayers
      rw [hda]
      unfold drawPlayers
      rw [hde]
      rfl
    · rw [hcp]; simp [Dict.get?]
    · rw [← hfa.1]; exact sda.outline
    · rw [hcp]; simp [Dict.get?, hae]
    · rw [sde.before, hv]; simp
    · rw [sde.after, hva]; simp
    · rw [sde.atPoint, hv]; simp
    · rw [hcol 0 a ra da hda, hcol 1 _ re de hde]
      omega
    · unfold along
      rw [sda.atPoint]
      unfold normalVel Body.velAt bodyBefore at happ
      dsimp only at happ ⊢
      nlinarith [happ]

/-! ## A concrete run -/

/-- The cars of `Toy` are drawn as segments of length 1. -/
def Toy.pen : Pen ℚ toyF.S Toy.parts.X where
  exterior s := .ok [(s, 0), (s + 1, 0)]
  centroid s := (s, 0)
  pos x := (x.1, 0)

theorem Toy.still : Still toyF where
  footprintMark _ := rfl
  poseMark _ := rfl
  meshMark _ := rfl
  footprintVel _ _ _ := rfl
  poseVel _ _ _ := rfl
  meshVel _ _ _ := rfl

theorem Toy.drawable : Drawable toyF Toy.parts Toy.pen where
  pos _ := rfl
  footprint _ := ⟨_, rfl⟩
  mesh _ _ _ := ⟨_, rfl⟩
  polygon _ _ _ := ⟨_, rfl⟩

/-- The outcome of `run`. -/
def Toy.result : St Toy.wd × Dict Nat (PlayerLog Toy.wd) :=
  match run Toy.cfg 50 Toy.start [] with
  | some (.ok r) => r
  | _ => (Toy.start, [])

theorem Toy.run_eq : run Toy.cfg 50 Toy.start [] = some (.ok (Toy.result.1, Toy.result.2)) := by
  have h : (match run Toy.cfg 50 Toy.start [] with | some (.ok _) => true | _ => false) = true := by
    decide +kernel
  unfold Toy.result
  cases hr : run Toy.cfg 50 Toy.start [] with
  | none => rw [hr] at h; cases h
  | some x =>
    cases x with
    | ok r => rfl
    | error e => rw [hr] at h; cases h

example := C111_picture_partial Toy.drawable Toy.still Toy.fresh Toy.dt_pos Toy.wf (by decide +kernel) Toy.run_eq

/-- Who is drawn where, with which arrows at the impact point. -/
def Toy.sketch (r : Report Toy.wd) : List (Nat × ℚ × ℚ) :=
  match r.data with
  | none => []
  | some c => match plotCollision (Wd := Toy.wd) Toy.pen c Toy.result.2 with
    | .ok pic => pic.players.map (fun p : Nat × PlayerPicture ℚ Nat => (p.1, p.2.name.1, p.2.atPoint.1))
    | .error _ => []

/-- The pictures of this run: the cars 0 and 1, then car 2 and the wall. -/
example : Toy.result.1.reports.map Toy.sketch =
    [[(0, 17 / 4, 3 / 2), (1, 17 / 4, -3 / 10)], [(2, 121 / 4, 9 / 10), (99, 30, 0)]] := by
  decide +kernel

/-! ## Collisions that could not be resolved -/

/-- **C111** fails for collisions that could not be resolved: whatever the log, the report without details that
the simulator records then cannot be drawn. -/
theorem C111_false_unresolved {Wd : World N K} [AddCommGroup Wd.X] [Module K Wd.X] {L S : Type}
    (D : Pen K S Wd.X) (players : Dict N (Option (ReportPlayer K L S))) (t : K)
    (log : Dict N (PlayerLog Wd)) : ∃ e, plotCollision D (CollisionReport.empty players t) log = .error e := by
  unfold plotCollision CollisionReport.empty
  cases h : SimLog.atInterp log t with
  | error e => exact ⟨e, rfl⟩
  | ok entries => exact ⟨.attribute, rfl⟩

/-- Such reports occur: the run of `C97_false`. -/
theorem C111_false_unresolved_run : ∃ s' log', run badCfg 50 badStart [] = some (.ok (s', log')) ∧
    ∃ r ∈ s'.reports, r.players = [0, 1] ∧ r.data = none := by
  have h : (match run badCfg 50 badStart [] with
    | some (.ok r) => r.1.reports.any (fun r => decide (r.players = [0, 1]) && r.data.isNone)
    | _ => false) = true := by decide +kernel
  cases hr : run badCfg 50 badStart [] with
  | none => rw [hr] at h; cases h
  | some x =>
    rw [hr] at h
    cases x with
    | error e => cases h
    | ok r =>
      obtain ⟨s', log'⟩ := r
      obtain ⟨r, h1, h2⟩ := List.any_eq_true.mp h
      rw [Bool.and_eq_true] at h2
      exact ⟨s', log', rfl, r, h1, of_decide_eq_true h2.1, by simpa using h2.2⟩

end Whole
end Verif
