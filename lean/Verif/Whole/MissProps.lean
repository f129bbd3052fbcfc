import Verif.Whole.FlagProps
import Verif.Sim.EventProps
import Mathlib.Analysis.Normed.Group.Basic
import Mathlib.Analysis.Normed.Group.Real

/-!
# C132: which contacts the checks at the ends of the steps find
-/

namespace Verif
namespace Whole

open Sim Coll

set_option linter.unusedSectionVars false

section Tail

variable {N K : Type} [DecidableEq N] [Field K] [LinearOrder K] {Wd : World N K}

/-- Specification: some report of the time names the player. -/
def NamedAt (rs : List (Report Wd)) (t : K) (n : N) : Prop := ∃ r ∈ rs, r.atTime = t ∧ n ∈ r.players

/-- Resolving collisions moves nobody, and changes only models of collisions that it reports. -/
structure Gentle (Wd : World N K) : Prop where
  world : ∀ w a ma b mb t, (Wd.resolve w a ma b mb t).1.1 = w
  foot : ∀ w a ma b mb t, Wd.footprint (Wd.resolve w a ma b mb t).1.2.1 = Wd.footprint ma ∧
    Wd.footprint (Wd.resolve w a ma b mb t).1.2.2 = Wd.footprint mb
  dyn : ∀ w a ma b mb t, a ≠ b → Wd.isDyn (Wd.resolve w a ma b mb t).1.2.1 = Wd.isDyn ma ∧
    Wd.isDyn (Wd.resolve w a ma b mb t).1.2.2 = Wd.isDyn mb
  same : ∀ w a ma b mb t, a ≠ b → (Wd.resolve w a ma b mb t).2 = .ok none →
    (Wd.resolve w a ma b mb t).1.2 = (ma, mb)
  worldEnv : ∀ w a m o t, (Wd.resolveEnv w a m o t).1.1 = w
  footEnv : ∀ w a m o t, Wd.footprint (Wd.resolveEnv w a m o t).1.2 = Wd.footprint m
  dynEnv : ∀ w a m o t, Wd.isDyn (Wd.resolveEnv w a m o t).1.2 = Wd.isDyn m
  sameEnv : ∀ w a m o t, (Wd.resolveEnv w a m o t).2 = .ok none → (Wd.resolveEnv w a m o t).1.2 = m

/-- What the checks keep; `e` says whether obstacles are checked, which can change dynamic obstacles
without a report. -/
structure Kept (e : Bool) (s s' : St Wd) : Prop where
  time : s'.time = s.time
  world : s'.w = s.w
  players : s'.players = s.players
  reports : ∀ r ∈ s.reports, r ∈ s'.reports
  foot : ∀ n m', Dict.get? s'.models n = some m' →
    ∃ m, Dict.get? s.models n = some m ∧ Wd.footprint m' = Wd.footprint m ∧ Wd.isDyn m' = Wd.isDyn m
  models : ∀ n, Dict.get? s'.models n = Dict.get? s.models n ∨ NamedAt s'.reports s.time n ∨
    (e = true ∧ ∃ m, Dict.get? s.models n = some m ∧ Wd.isDyn m = true)

theorem Kept.refl {e : Bool} (s : St Wd) : Kept e s s :=
  ⟨rfl, rfl, rfl, fun _ h => h, fun _ m h => ⟨m, h, rfl, rfl⟩, fun _ => Or.inl rfl⟩

theorem Kept.weaken {s s' : St Wd} (h : Kept false s s') : Kept true s s' :=
  ⟨h.time, h.world, h.players, h.reports, h.foot, fun n => by
    rcases h.models n with h1 | h1 | ⟨h1, -⟩
    · exact Or.inl h1
    · exact Or.inr (Or.inl h1)
    · cases h1⟩

theorem Kept.trans {e : Bool} {s s' s'' : St Wd} (h : Kept e s s') (h' : Kept e s' s'') : Kept e s s'' where
  time := h'.time.trans h.time
  world := h'.world.trans h.world
  players := h'.players.trans h.players
  reports r hr := h'.reports r (h.reports r hr)
  foot n m'' hm := by
    obtain ⟨m', h1, e1, d1⟩ := h'.foot n m'' hm
    obtain ⟨m, h2, e2, d2⟩ := h.foot n m' h1
    exact ⟨m, h2, e1.trans e2, d1.trans d2⟩
  models n := by
    rcases h'.models n with e1 | ⟨r, hr, e1, hn⟩ | ⟨he, m', hm', hd⟩
    · rcases h.models n with e' | ⟨r, hr, e', hn⟩ | h3
      · exact Or.inl (e1.trans e')
      · exact Or.inr (Or.inl ⟨r, h'.reports r hr, e', hn⟩)
      · exact Or.inr (Or.inr h3)
    · exact Or.inr (Or.inl ⟨r, hr, e1.trans h.time, hn⟩)
    · obtain ⟨m, h2, -, d2⟩ := h.foot n m' hm'
      exact Or.inr (Or.inr ⟨he, m, h2, by rw [← d2]; exact hd⟩)

theorem kept_checkPair (hG : Gentle Wd) {s s' : St Wd} {a b : N} (hab : a ≠ b)
    (h : checkPair s a b = .ok s') : Kept false s s' := by
  obtain ⟨m1, m2, h1, h2, ⟨-, e1, e3, -, e2⟩ | ⟨rep, -, hr, e1, e3, -, e2⟩⟩ := checkPair_frame h
  · exact ⟨checkPair_time h, e3, checkPair_players h, fun r hr => by rw [e2]; exact hr,
      fun n m hm => ⟨m, by rw [← e1]; exact hm, rfl, rfl⟩, fun n => Or.inl (by rw [e1])⟩
  · refine ⟨checkPair_time h, e3.trans (hG.world _ _ _ _ _ _), checkPair_players h,
      fun r hr => by rw [e2]; exact List.mem_append_left _ hr, ?_, ?_⟩
    · intro n m hm
      rw [e1, Dict.get?_set, Dict.get?_set] at hm
      obtain ⟨f1, f2⟩ := hG.foot s.w a m1 b m2 s.time
      obtain ⟨d1, d2⟩ := hG.dyn s.w a m1 b m2 s.time hab
      split_ifs at hm with hb ha
      · injection hm with hm
        subst hm hb
        exact ⟨m2, h2, f2, d2⟩
      · injection hm with hm
        subst hm ha
        exact ⟨m1, h1, f1, d1⟩
      · exact ⟨m, hm, rfl, rfl⟩
    · intro n
      by_cases hn : n = a ∨ n = b
      · rcases reportOf_cases hr with ⟨h0, -⟩ | ⟨d, -, rfl⟩ | ⟨-, rfl⟩
        · left
          have hs := hG.same _ _ _ _ _ _ hab h0
          rw [e1, hs, Dict.get?_set, Dict.get?_set]
          split_ifs with hb ha
          · rw [← hb, h2]
          · rw [← ha, h1]
          · rfl
        · right; left
          refine ⟨⟨[a, b], s.time, some d⟩, by rw [e2]; exact List.mem_append_right _ (by simp), rfl, ?_⟩
          simpa using hn
        · right; left
          refine ⟨⟨[a, b], s.time, none⟩, by rw [e2]; exact List.mem_append_right _ (by simp), rfl, ?_⟩
          simpa using hn
      · left
        rw [not_or] at hn
        rw [e1, Dict.get?_set_ne _ (Ne.symm hn.2), Dict.get?_set_ne _ (Ne.symm hn.1)]

theorem kept_pairLoop (hG : Gentle Wd) : ∀ (l : List (N × N)) (s s' : St Wd), (∀ q ∈ l, q.1 ≠ q.2) →
    pairLoop s l = .ok s' → Kept false s s'
  | [], s, s', _, h => by
    injection h with h
    subst h
    exact Kept.refl s
  | (a, b) :: l, s, s', hl, h => by
    unfold pairLoop at h
    obtain ⟨s1, h1, h⟩ := bind_ok.mp h
    exact (kept_checkPair hG (hl (a, b) (by simp)) h1).trans
      (kept_pairLoop hG l s1 s' (fun q hq => hl q (by simp [hq])) h)

/-- A pair of the list is examined in some state, from which on only `Kept` changes happen. -/
theorem pairLoop_split (hG : Gentle Wd) : ∀ (l : List (N × N)) (s s' : St Wd), (∀ q ∈ l, q.1 ≠ q.2) →
    pairLoop s l = .ok s' → ∀ q ∈ l, ∃ s1 s2, s1.time = s.time ∧ checkPair s1 q.1 q.2 = .ok s2 ∧
      Kept false s1 s2 ∧ Kept false s2 s'
  | [], _, _, _, _, q, hq => by simp at hq
  | (a, b) :: l, s, s', hl, h, q, hq => by
    unfold pairLoop at h
    obtain ⟨s1, h1, h⟩ := bind_ok.mp h
    have k1 := kept_checkPair hG (hl (a, b) (by simp)) h1
    rcases List.mem_cons.mp hq with rfl | hq
    · exact ⟨s, s1, rfl, h1, k1, kept_pairLoop hG l s1 s' (fun q hq => hl q (by simp [hq])) h⟩
    · obtain ⟨u, v, e, h2, k2, k3⟩ := pairLoop_split hG l s1 s' (fun q hq => hl q (by simp [hq])) h q hq
      exact ⟨u, v, e.trans k1.time, h2, k2, k3⟩

theorem kept_envObstacle (hG : Gentle Wd) {s s' : St Wd} {p : N} {o : Wd.O}
    (h : envObstacle s p o = .ok s') : Kept true s s' := by
  obtain ⟨m, rep, hm, hr, e1, e3, -, e2⟩ := envObstacle_frame h
  refine ⟨envObstacle_time h, e3.trans (hG.worldEnv _ _ _ _ _), envObstacle_players h,
    fun r hr => by rw [e2]; exact List.mem_append_left _ hr, ?_, ?_⟩
  · intro n m' hm'
    rw [e1, Dict.get?_set] at hm'
    split_ifs at hm' with hp
    · injection hm' with hm'
      subst hm' hp
      exact ⟨m, hm, hG.footEnv _ _ _ _ _, hG.dynEnv _ _ _ _ _⟩
    · exact ⟨m', hm', rfl, rfl⟩
  · intro n
    by_cases hn : p = n
    · subst hn
      by_cases hd : Wd.isDyn m = true
      · exact Or.inr (Or.inr ⟨rfl, m, hm, hd⟩)
      · rw [hG.dynEnv, if_neg hd] at e2
        rcases reportOf_cases hr with ⟨h0, -⟩ | ⟨d, -, rfl⟩ | ⟨-, rfl⟩
        · left
          rw [e1, hG.sameEnv _ _ _ _ _ h0, Dict.get?_set_self, hm]
        · right; left
          exact ⟨⟨[p, Wd.env], s.time, some d⟩, by rw [e2]; exact List.mem_append_right _ (by simp), rfl, by simp⟩
        · right; left
          exact ⟨⟨[p], s.time, none⟩, by rw [e2]; exact List.mem_append_right _ (by simp), rfl, by simp⟩
    · left
      rw [e1, Dict.get?_set_ne _ hn]

theorem envObstacles_split (hG : Gentle Wd) (p : N) : ∀ (os : List Wd.O) (s s' : St Wd),
    envObstacles p s os = .ok s' → Kept true s s' ∧ ∀ o ∈ os, ∃ s1 s2, s1.time = s.time ∧
      envObstacle s1 p o = .ok s2 ∧ Kept true s1 s2 ∧ Kept true s2 s'
  | [], s, s', h => by
    injection h with h
    subst h
    exact ⟨Kept.refl s, by simp⟩
  | o :: os, s, s', h => by
    unfold envObstacles at h
    obtain ⟨s1, h1, h⟩ := bind_ok.mp h
    have k1 := kept_envObstacle hG h1
    obtain ⟨k2, h2⟩ := envObstacles_split hG p os s1 s' h
    refine ⟨k1.trans k2, fun o' ho => ?_⟩
    rcases List.mem_cons.mp ho with rfl | ho
    · exact ⟨s, s1, rfl, h1, k1, k2⟩
    · obtain ⟨u, v, e, h3, k3, k4⟩ := h2 o' ho
      exact ⟨u, v, e.trans k1.time, h3, k3, k4⟩

theorem kept_traced (s : St Wd) (tr : List (Event Wd)) : Kept true s { s with trace := tr } :=
  ⟨rfl, rfl, rfl, fun _ h => h, fun _ m h => ⟨m, h, rfl, rfl⟩, fun _ => Or.inl rfl⟩

theorem envLoop_split (hG : Gentle Wd) : ∀ (ps : List N) (s s' : St Wd), envLoop s ps = .ok s' →
    Kept true s s' ∧ ∀ p ∈ ps, ∃ s0 m, Kept true s s0 ∧ Dict.get? s0.models p = some m ∧
      ∀ o ∈ Wd.envQuery s0.w (Wd.footprint m), ∃ s1 s2, s1.time = s.time ∧ envObstacle s1 p o = .ok s2 ∧
        Kept true s1 s2 ∧ Kept true s2 s'
  | [], s, s', h => by
    injection h with h
    subst h
    exact ⟨Kept.refl s, by simp⟩
  | p :: ps, s, s', h => by
    unfold envLoop at h
    obtain ⟨m, hm, h⟩ := bind_ok.mp h
    obtain ⟨s1, h1, h⟩ := bind_ok.mp h
    obtain ⟨k1, c1⟩ := envObstacles_split hG p _ _ _ h1
    have k0 := (kept_traced s _).trans k1
    obtain ⟨k2, c2⟩ := envLoop_split hG ps s1 s' h
    refine ⟨k0.trans k2, fun q hq => ?_⟩
    rcases List.mem_cons.mp hq with rfl | hq
    · refine ⟨s, m, Kept.refl s, lookup_ok.mp hm, fun o ho => ?_⟩
      obtain ⟨u, v, e, h3, k3, k4⟩ := c1 o ho
      exact ⟨u, v, e, h3, k3, k4.trans k2⟩
    · obtain ⟨s0, m', k3, hm', c3⟩ := c2 q hq
      refine ⟨s0, m', k0.trans k3, hm', fun o ho => ?_⟩
      obtain ⟨u, v, e, h3, k4, k5⟩ := c3 o ho
      exact ⟨u, v, e.trans k0.time, h3, k4, k5⟩

theorem mem_combinations2 : ∀ (l : List N) (a b : N), a ∈ l → b ∈ l → a ≠ b →
    (a, b) ∈ combinations2 l ∨ (b, a) ∈ combinations2 l
  | [], a, b, h, _, _ => by simp at h
  | c :: l, a, b, ha, hb, hab => by
    simp only [combinations2, List.mem_append, List.mem_map]
    rcases List.mem_cons.mp ha with rfl | ha'
    · rcases List.mem_cons.mp hb with rfl | hb
      · exact absurd rfl hab
      · exact Or.inl (Or.inl ⟨b, hb, rfl⟩)
    · rcases List.mem_cons.mp hb with rfl | hb
      · exact Or.inr (Or.inl ⟨a, ha', rfl⟩)
      · exact (mem_combinations2 l a b ha' hb hab).imp Or.inr Or.inr

theorem pairLoop_keeps_players : ∀ (l : List (N × N)) (s s' : St Wd), pairLoop s l = .ok s' →
    s'.players = s.players
  | [], s, s', h => by
    injection h with h
    subst h
    rfl
  | (a, b) :: l, s, s', h => by
    unfold pairLoop at h
    obtain ⟨s1, h1, h⟩ := bind_ok.mp h
    exact (pairLoop_keeps_players l s1 s' h).trans (checkPair_players h1)

/-- The checks of a step that does not end the run. -/
theorem checked_of_step (hG : Gentle Wd) {cfg : Cfg Wd} {s s' : St Wd} (h : step cfg s = .ok s')
    (ht : s'.terminated = false) (hn : s'.players.Nodup) :
    ∃ s3 s4, s3.players = s'.players ∧ envLoop s3 s'.players = .ok s4 ∧
      pairLoop s4 (combinations2 s'.players) = .ok s' ∧ Kept true s3 s4 ∧ Kept false s4 s' := by
  unfold step at h
  obtain ⟨s1, -, h⟩ := bind_ok.mp h
  obtain ⟨s2, -, h⟩ := bind_ok.mp h
  unfold postUpdate at h
  obtain ⟨s3, -, h⟩ := bind_ok.mp h
  dsimp only at h
  split at h
  · rename_i hc
    injection h with h
    subst h
    rw [show terminationCondition cfg s3 = false from ht] at hc
    cases hc
  · obtain ⟨s4, h4, h⟩ := bind_ok.mp h
    have k1 := (envLoop_split hG _ _ _ h4).1
    have e2 := pairLoop_keeps_players _ _ _ h
    have e1 := k1.players
    refine ⟨_, s4, (e2.trans e1).symm, by rw [e2.trans e1]; exact h4, by rw [e2]; exact h, k1, ?_⟩
    exact kept_pairLoop hG _ _ _ (ne_of_combination _ (by rw [← e2]; exact hn)) h

end Tail

section Checks

variable {N K : Type} [DecidableEq N] [Field K] [LinearOrder K] [IsStrictOrderedRing K] [FloorSemiring K] {F : Iface N K} {sc : Bool}
  {R : Parts N K F.M F.S}

/-- Neither the mark of a collision nor a new velocity moves a model. -/
structure Standing (F : Iface N K) : Prop where
  mark : ∀ m, F.footprint (F.mark m) = F.footprint m
  velocity : ∀ m v o, F.footprint (F.setVelocity m v o) = F.footprint m

theorem resolve_foot (hS : Standing F) (t : K) (a b : N) (ma mb : F.M) :
    F.footprint (Coll.resolve F sc t a ma b mb).1.1 = F.footprint ma ∧
    F.footprint (Coll.resolve F sc t a ma b mb).1.2 = F.footprint mb := by
  unfold Coll.resolve
  dsimp only
  cases F.impactGeometry (F.footprint ma) (F.footprint mb) with
  | error e => exact ⟨rfl, rfl⟩
  | ok np =>
    obtain ⟨n, p⟩ := np
    dsimp only
    split
    · exact ⟨rfl, rfl⟩
    · cases impactLocations F (F.mark ma) (F.footprint mb) with
      | error e => exact ⟨hS.mark _, hS.mark _⟩
      | ok la =>
        dsimp only
        cases impactLocations F (F.mark mb) (F.footprint ma) with
        | error e => exact ⟨hS.mark _, hS.mark _⟩
        | ok lb =>
          dsimp only
          exact ⟨(hS.velocity _ _ _).trans (hS.mark _), (hS.velocity _ _ _).trans (hS.mark _)⟩

theorem resolveEnv_foot (hS : Standing F) (t : K) (a : N) (m : F.M) (s : F.S) (g : Geom K) :
    F.footprint (Coll.resolveEnv F t a m s g).1 = F.footprint m := by
  unfold Coll.resolveEnv
  dsimp only
  cases F.impactGeometry (F.footprint m) s with
  | error e => rfl
  | ok np =>
    obtain ⟨n, p⟩ := np
    dsimp only
    split
    · rfl
    · cases impactLocations F (F.mark m) s with
      | error e => exact hS.mark _
      | ok la =>
        dsimp only
        cases F.toPolygon s with
        | error e => exact (hS.velocity _ _ _).trans (hS.mark _)
        | ok poly => exact (hS.velocity _ _ _).trans (hS.mark _)

theorem gentle {dt : K} (hL : Lawful F R dt) (hS : Standing F) : Gentle (world F sc R) where
  world _ _ _ _ _ _ := rfl
  foot w a ma b mb t := resolve_foot hS t a b ma mb
  dyn w a ma b mb t hab := (resolve_cases hL t a b hab ma mb).2
  same w a ma b mb t hab h := by
    rcases (resolve_cases (sc := sc) hL t a b hab ma mb).1 with ⟨h1, -⟩ | ⟨-, -, h1 | ⟨d, h1, -⟩⟩
    · exact Prod.ext (congrArg Prod.fst h1) (congrArg Prod.snd h1)
    · exact absurd (h1.symm.trans h) (by simp)
    · exact absurd (h1.symm.trans h) (by simp)
  worldEnv _ _ _ _ _ := rfl
  footEnv w a m o t := resolveEnv_foot hS t a m o.1 o.2
  dynEnv w a m o t := (resolveEnv_cases hL t a m o.1 o.2).2
  sameEnv w a m o t h := by
    rcases (resolveEnv_cases hL t a m o.1 o.2).1 with ⟨h1, -⟩ | ⟨-, ⟨e, h1⟩ | ⟨d, h1, -⟩⟩
    · exact h1
    · exact absurd (h1.symm.trans h) (by simp)
    · exact absurd (h1.symm.trans h) (by simp)

/-- Specification: the geometry of the impact of the footprints is known, and the velocities of the two
bodies at the impact point separate along its normal. -/
def Separating (F : Iface N K) (ma mb : F.M) : Prop :=
  ∃ n p, F.impactGeometry (F.footprint ma) (F.footprint mb) = .ok (n, p) ∧
    ∀ xa ia xb ib, approach (bodyOf F ma xa ia) (bodyOf F mb xb ib) p n < 0

/-- Specification: the body moves away from the obstacle along the normal of the impact. -/
def Leaving (F : Iface N K) (m : F.M) (s : F.S) : Prop :=
  ∃ n p, F.impactGeometry (F.footprint m) s = .ok (n, p) ∧ ∀ x i, normalVel (bodyOf F m x i) p n < 0

theorem separating_of_none {t : K} {a b : N} {ma mb : F.M}
    (h : (Coll.resolve F sc t a ma b mb).2 = .ok none) : Separating F ma mb := by
  unfold Coll.resolve at h
  dsimp only at h
  cases hg : F.impactGeometry (F.footprint ma) (F.footprint mb) with
  | error e => rw [hg] at h; cases h
  | ok np =>
    obtain ⟨n, p⟩ := np
    rw [hg] at h
    dsimp only at h
    split at h
    · rename_i hc
      exact ⟨n, p, hg, fun xa ia xb ib => by rw [← dot_rel]; exact hc⟩
    · exfalso
      cases h1 : impactLocations F (F.mark ma) (F.footprint mb) with
      | error e => rw [h1] at h; cases h
      | ok la =>
        rw [h1] at h
        dsimp only at h
        cases h2 : impactLocations F (F.mark mb) (F.footprint ma) with
        | error e => rw [h2] at h; cases h
        | ok lb => rw [h2] at h; cases h

theorem leaving_of_none {t : K} {a : N} {m : F.M} {s : F.S} {g : Geom K}
    (h : (Coll.resolveEnv F t a m s g).2 = .ok none) : Leaving F m s := by
  unfold Coll.resolveEnv at h
  dsimp only at h
  cases hg : F.impactGeometry (F.footprint m) s with
  | error e => rw [hg] at h; cases h
  | ok np =>
    obtain ⟨n, p⟩ := np
    rw [hg] at h
    dsimp only at h
    split at h
    · rename_i hc
      exact ⟨n, p, hg, fun x i => by rw [← dot_env]; exact hc⟩
    · exfalso
      cases h1 : impactLocations F (F.mark m) s with
      | error e => rw [h1] at h; cases h
      | ok la =>
        rw [h1] at h
        dsimp only at h
        cases h2 : F.toPolygon s with
        | error e => rw [h2] at h; cases h
        | ok poly => rw [h2] at h; cases h

/-- Specification: some report of the time is about these two players. -/
def PairReported {Wd : World N K} (rs : List (Report Wd)) (t : K) (a b : N) : Prop :=
  ∃ r ∈ rs, r.atTime = t ∧ (r.players = [a, b] ∨ r.players = [b, a])

/-- Specification: what became of a contact of two players at a time. It is reported, or the two bodies
separate, or another report of this time names one of the players. -/
def Noticed (s : St (world F sc R)) (t : K) (a b : N) : Prop :=
  PairReported s.reports t a b ∨
  (∃ ma mb, Dict.get? s.models a = some ma ∧ Dict.get? s.models b = some mb ∧
    (Separating F ma mb ∨ Separating F mb ma)) ∨
  ∃ r ∈ s.reports, r.atTime = t ∧ (a ∈ r.players ∨ b ∈ r.players) ∧ r.players ≠ [a, b] ∧ r.players ≠ [b, a]

theorem noticed_other {s : St (world F sc R)} {t : K} {a b : N}
    (h : ∃ r ∈ s.reports, r.atTime = t ∧ (a ∈ r.players ∨ b ∈ r.players)) : Noticed s t a b := by
  obtain ⟨r, h1, h2, h3⟩ := h
  by_cases e : r.players = [a, b] ∨ r.players = [b, a]
  · exact Or.inl ⟨r, h1, h2, e⟩
  · rw [not_or] at e
    exact Or.inr (Or.inr ⟨r, h1, h2, h3, e⟩)

/-- One order of the pair. -/
theorem noticed_of_pair {dt : K} (hL : Lawful F R dt) (hS : Standing F) {s s' : St (world F sc R)}
    (hn : s'.players.Nodup) (h : pairLoop s (combinations2 s'.players) = .ok s') {a b : N}
    (hq : (a, b) ∈ combinations2 s'.players) {ma mb : F.M} (ha : Dict.get? s'.models a = some ma)
    (hb : Dict.get? s'.models b = some mb) (ht : F.intersects (F.footprint ma) (F.footprint mb) = true) :
    PairReported s'.reports s'.time a b ∨ Separating F ma mb ∨
      ∃ r ∈ s'.reports, r.atTime = s'.time ∧ (a ∈ r.players ∨ b ∈ r.players) := by
  have hG : Gentle (world F sc R) := gentle hL hS
  obtain ⟨s1, s2, -, hc, k1, k2⟩ := pairLoop_split hG _ s s' (ne_of_combination _ hn) h (a, b) hq
  dsimp only at hc
  have k := k1.trans k2
  obtain ⟨xa, hxa, fa, -⟩ := k.foot a ma ha
  obtain ⟨xb, hxb, fb, -⟩ := k.foot b mb hb
  obtain ⟨m1, m2, h1, h2, h3⟩ := checkPair_frame hc
  rw [hxa] at h1
  rw [hxb] at h2
  injection h1 with h1
  injection h2 with h2
  subst h1 h2
  have ht' : (world F sc R).touch ((world F sc R).footprint xa) ((world F sc R).footprint xb) = true := by
    rw [← fa, ← fb]; exact ht
  rcases h3 with ⟨h3, -⟩ | ⟨rep, -, hr, -, -, -, e2⟩
  · rw [ht'] at h3; cases h3
  · have hmem : ∀ r, rep = some r → r ∈ s'.reports := by
      rintro r rfl
      exact k2.reports r (by rw [e2]; exact List.mem_append_right _ (by simp))
    rcases reportOf_cases hr with ⟨h0, -⟩ | ⟨d, -, e⟩ | ⟨-, e⟩
    · rcases k.models a with ea | ⟨r, hr, et, hn'⟩ | ⟨hf, -⟩
      · rcases k.models b with eb | ⟨r, hr, et, hn'⟩ | ⟨hf, -⟩
        · right; left
          rw [ha, hxa] at ea
          rw [hb, hxb] at eb
          injection ea with ea
          injection eb with eb
          subst ea eb
          exact separating_of_none h0
        · exact Or.inr (Or.inr ⟨r, hr, et.trans k.time.symm, Or.inr hn'⟩)
        · cases hf
      · exact Or.inr (Or.inr ⟨r, hr, et.trans k.time.symm, Or.inl hn'⟩)
      · cases hf
    · exact Or.inl ⟨_, hmem _ e, k.time.symm, Or.inl rfl⟩
    · exact Or.inl ⟨_, hmem _ e, k.time.symm, Or.inl rfl⟩

/-- **C132.** Two active players that are in contact at the end of a step that does not end the run have a
report of this time, unless their bodies separate or another collision of one of them is reported at the
same time. -/
theorem C132_contact {cfg : Cfg (world F sc R)} {σ : Nat → St (world F sc R)} {j : Nat}
    (hL : Lawful F R cfg.dt) (hS : Standing F) (h0 : Ready (σ 0)) (hdt : 0 < cfg.dt)
    (hm : Dict.Wf cfg.missions) (hex : Exec cfg σ (j + 1)) (hterm : (σ (j + 1)).terminated = false)
    (hsym : ∀ x y, F.intersects x y = F.intersects y x) {a b : N} (hab : a ≠ b)
    (ha : a ∈ (σ (j + 1)).players) (hb : b ∈ (σ (j + 1)).players) {ma mb : F.M}
    (hma : Dict.get? (σ (j + 1)).models a = some ma) (hmb : Dict.get? (σ (j + 1)).models b = some mb)
    (ht : F.intersects (F.footprint ma) (F.footprint mb) = true) :
    Noticed (σ (j + 1)) (((j + 1 : Nat) : K) * cfg.dt) a b := by
  have hinv := inv_of_exec (inv_zero cfg σ h0) hdt hm (j + 1) hex
  have hG : Gentle (world F sc R) := gentle hL hS
  obtain ⟨s3, s4, -, -, hp, -, -⟩ := checked_of_step hG (hex j (by omega)).2 hterm hinv.nodup
  rw [← hinv.time]
  rcases mem_combinations2 _ a b ha hb hab with hq | hq
  · rcases noticed_of_pair hL hS hinv.nodup hp hq hma hmb ht with h | h | h
    · exact Or.inl h
    · exact Or.inr (Or.inl ⟨ma, mb, hma, hmb, Or.inl h⟩)
    · exact noticed_other h
  · rcases noticed_of_pair hL hS hinv.nodup hp hq hmb hma (by rw [hsym]; exact ht) with
      ⟨r, h1, h2, h3⟩ | h | ⟨r, h1, h2, h3⟩
    · exact Or.inl ⟨r, h1, h2, h3.symm⟩
    · exact Or.inr (Or.inl ⟨ma, mb, hma, hmb, Or.inr h⟩)
    · exact noticed_other ⟨r, h1, h2, h3.symm⟩

/-- **C132.** An active player, not a dynamic obstacle, whose footprint meets an obstacle at the end of a
step that does not end the run is named in a report of this time or moves away from the obstacle. -/
theorem C132_wall {cfg : Cfg (world F sc R)} {σ : Nat → St (world F sc R)} {j : Nat}
    (hL : Lawful F R cfg.dt) (hS : Standing F) (h0 : Ready (σ 0)) (hdt : 0 < cfg.dt)
    (hm : Dict.Wf cfg.missions) (hex : Exec cfg σ (j + 1)) (hterm : (σ (j + 1)).terminated = false) {a : N}
    (ha : a ∈ (σ (j + 1)).players) {m : F.M} (hma : Dict.get? (σ (j + 1)).models a = some m)
    (hd : R.isDyn m = false) {o : F.S × Geom K} (ho : o ∈ R.envQuery (σ (j + 1)).w.2 (F.footprint m)) :
    NamedAt (σ (j + 1)).reports (((j + 1 : Nat) : K) * cfg.dt) a ∨ Leaving F m o.1 := by
  have hinv := inv_of_exec (inv_zero cfg σ h0) hdt hm (j + 1) hex
  have hG : Gentle (world F sc R) := gentle hL hS
  obtain ⟨s3, s4, -, he, hp, k3, k4⟩ := checked_of_step hG (hex j (by omega)).2 hterm hinv.nodup
  rw [← hinv.time]
  obtain ⟨s0, m0, k0, hm0, hc⟩ := (envLoop_split hG _ _ _ he).2 a ha
  obtain ⟨m3, hm3, f3, d3⟩ := (k3.trans k4.weaken).foot a m hma
  obtain ⟨m3', hm3', f0, d0⟩ := k0.foot a m0 hm0
  have e33 : m3' = m3 := Option.some.inj (hm3'.symm.trans hm3)
  subst e33
  have ho' : o ∈ (world F sc R).envQuery s0.w ((world F sc R).footprint m0) := by
    rw [f0, ← f3, k0.world, ← (k3.trans k4.weaken).world]; exact ho
  obtain ⟨s1, s2, e1, hobs, k1, k2⟩ := hc o ho'
  have k := k1.trans (k2.trans k4.weaken)
  obtain ⟨x, rep, hx, hr, -, -, -, e2⟩ := envObstacle_frame hobs
  obtain ⟨x', hx', -, dx⟩ := k.foot a m hma
  have exx : x' = x := Option.some.inj (hx'.symm.trans hx)
  subst exx
  have hdx : (world F sc R).isDyn x' = false := by rw [← dx]; exact hd
  rw [hG.dynEnv, if_neg (by rw [hdx]; simp)] at e2
  have hmem : ∀ r, rep = some r → r ∈ (σ (j + 1)).reports := by
    rintro r rfl
    exact (k2.trans k4.weaken).reports r (by rw [e2]; exact List.mem_append_right _ (by simp))
  rcases reportOf_cases hr with ⟨hnone, -⟩ | ⟨d, -, e⟩ | ⟨-, e⟩
  · rcases k.models a with ea | ⟨r, hr, et, hn'⟩ | ⟨-, y, hy, hyd⟩
    · right
      rw [hma, hx] at ea
      injection ea with ea
      subst ea
      exact leaving_of_none hnone
    · exact Or.inl ⟨r, hr, et.trans k.time.symm, hn'⟩
    · rw [hx] at hy
      injection hy with hy
      subst hy
      rw [hdx] at hyd
      cases hyd
  · exact Or.inl ⟨_, hmem _ e, k.time.symm, by simp⟩
  · exact Or.inl ⟨_, hmem _ e, k.time.symm, by simp⟩

/-- Specification: at the end of step `i` the run is not over, both players are active and their footprints
touch if and only if the sets that they occupy at that time do. -/
structure Follows (cfg : Cfg (world F sc R)) (σ : Nat → St (world F sc R)) (i : Nat) (a b : N)
    (touching : K → Prop) : Prop where
  exec : Exec cfg σ i
  running : (σ i).terminated = false
  left : a ∈ (σ i).players
  right : b ∈ (σ i).players
  models : ∃ ma mb, Dict.get? (σ i).models a = some ma ∧ Dict.get? (σ i).models b = some mb ∧
    (F.intersects (F.footprint ma) (F.footprint mb) = true ↔ touching ((i : K) * cfg.dt))

theorem noticed_of_follows {cfg : Cfg (world F sc R)} {σ : Nat → St (world F sc R)} {i : Nat}
    (hL : Lawful F R cfg.dt) (hS : Standing F) (h0 : Ready (σ 0)) (hdt : 0 < cfg.dt)
    (hm : Dict.Wf cfg.missions) (hsym : ∀ x y, F.intersects x y = F.intersects y x) {a b : N} (hab : a ≠ b)
    {T : K → Prop} (hi : 1 ≤ i) (hf : Follows cfg σ i a b T) (hT : T ((i : K) * cfg.dt)) :
    Noticed (σ i) ((i : K) * cfg.dt) a b := by
  obtain ⟨j, rfl⟩ : ∃ j, i = j + 1 := ⟨i - 1, by omega⟩
  obtain ⟨ma, mb, h1, h2, h3⟩ := hf.models
  exact C132_contact hL hS h0 hdt hm hf.exec hf.running hsym hab hf.left hf.right h1 h2 (h3.mpr hT)

/-- **C132.** Two bodies that overlap for the duration of a step overlap at a check: their contact is
noticed there if the run gets that far with both. -/
theorem C132_lasting_partial {Pt : Type} {cfg : Cfg (world F sc R)} {σ : Nat → St (world F sc R)}
    (hL : Lawful F R cfg.dt) (hS : Standing F) (h0 : Ready (σ 0)) (hdt : 0 < cfg.dt)
    (hm : Dict.Wf cfg.missions) (hsym : ∀ x y, F.intersects x y = F.intersects y x) {a b : N} (hab : a ≠ b)
    (A B : K → Set Pt) {u : K} (hu : 0 ≤ u) (hov : ∀ t, u ≤ t → t ≤ u + cfg.dt → (A t ∩ B t).Nonempty) :
    ∃ i : Nat, 1 ≤ i ∧ u < (i : K) * cfg.dt ∧ (i : K) * cfg.dt ≤ u + cfg.dt ∧
      (Follows cfg σ i a b (fun t => (A t ∩ B t).Nonempty) → Noticed (σ i) ((i : K) * cfg.dt) a b) := by
  have h1 : u < ((⌊u / cfg.dt⌋₊ + 1 : Nat) : K) * cfg.dt := by
    rw [← div_lt_iff₀ hdt]
    push_cast
    exact Nat.lt_floor_add_one _
  have h2 : ((⌊u / cfg.dt⌋₊ + 1 : Nat) : K) * cfg.dt ≤ u + cfg.dt := by
    have := Nat.floor_le (div_nonneg hu hdt.le)
    rw [le_div_iff₀ hdt] at this
    push_cast
    linarith
  exact ⟨⌊u / cfg.dt⌋₊ + 1, by omega, h1, h2, fun hf => noticed_of_follows hL hS h0 hdt hm hsym hab
    (by omega) hf (hov _ h1.le h2)⟩

/-- **C132.** If the gap between two bodies changes at most at rate `v` and is at some time, at least half a
step after the start, below `-v * dt / 2`, there is a check within half a step at which the contact is noticed
if the run gets that far with both. -/
theorem C132_deep_partial {cfg : Cfg (world F sc R)} {σ : Nat → St (world F sc R)}
    (hL : Lawful F R cfg.dt) (hS : Standing F) (h0 : Ready (σ 0)) (hdt : 0 < cfg.dt)
    (hm : Dict.Wf cfg.missions) (hsym : ∀ x y, F.intersects x y = F.intersects y x) {a b : N} (hab : a ≠ b)
    (gap : K → K) {v u : K} (hv : 0 ≤ v) (hlip : ∀ s t, gap s ≤ gap t + v * |s - t|)
    (hu : cfg.dt / 2 ≤ u) (hdeep : gap u + v * (cfg.dt / 2) ≤ 0) :
    ∃ i : Nat, 1 ≤ i ∧ |(i : K) * cfg.dt - u| ≤ cfg.dt / 2 ∧
      (Follows cfg σ i a b (fun t => gap t ≤ 0) → Noticed (σ i) ((i : K) * cfg.dt) a b) := by
  have hpos : 0 ≤ u / cfg.dt + 1 / 2 := by
    have := div_nonneg (le_trans (by linarith : (0 : K) ≤ cfg.dt / 2) hu) hdt.le
    linarith
  have h1 := Nat.floor_le hpos
  have h2 := Nat.lt_floor_add_one (u / cfg.dt + 1 / 2)
  obtain ⟨i, hi⟩ : ∃ i, i = ⌊u / cfg.dt + 1 / 2⌋₊ := ⟨_, rfl⟩
  rw [← hi] at h1 h2
  have e : u / cfg.dt * cfg.dt = u := div_mul_cancel₀ _ hdt.ne'
  have h1' : (i : K) * cfg.dt ≤ u + cfg.dt / 2 := by
    have := mul_le_mul_of_nonneg_right h1 hdt.le
    linarith [e]
  have h2' : u + cfg.dt / 2 < ((i : K) + 1) * cfg.dt := by
    have := mul_lt_mul_of_pos_right h2 hdt
    linarith [e]
  have habs : |(i : K) * cfg.dt - u| ≤ cfg.dt / 2 := by
    rw [abs_le]
    constructor <;> linarith
  have hi1 : 1 ≤ i := by
    rw [hi]
    refine Nat.le_floor ?_
    have : 1 / 2 ≤ u / cfg.dt := by rw [le_div_iff₀ hdt]; linarith
    push_cast
    linarith
  refine ⟨i, hi1, habs, fun hf => noticed_of_follows hL hS h0 hdt hm hsym hab hi1 hf ?_⟩
  have := hlip ((i : K) * cfg.dt) u
  have h3 := mul_le_mul_of_nonneg_left habs hv
  show gap _ ≤ 0
  linarith

end Checks

/-- The gap between two discs whose centres move with bounded speeds satisfies the hypothesis of
`C132_deep_partial`. -/
theorem C132_discs {E : Type} [NormedAddCommGroup E] (pa pb : ℝ → E) {va vb : ℝ}
    (ha : ∀ s t, ‖pa s - pa t‖ ≤ va * |s - t|) (hb : ∀ s t, ‖pb s - pb t‖ ≤ vb * |s - t|) (ra rb : ℝ) :
    ∀ s t, ‖pa s - pb s‖ - (ra + rb) ≤ ‖pa t - pb t‖ - (ra + rb) + (va + vb) * |s - t| := by
  intro s t
  have h1 : pa s - pb s = (pa s - pa t) + (pa t - pb t) - (pb s - pb t) := by abel
  have h2 := norm_sub_le ((pa s - pa t) + (pa t - pb t)) (pb s - pb t)
  have h3 := norm_add_le (pa s - pa t) (pa t - pb t)
  rw [← h1] at h2
  linarith [ha s t, hb s t]

/-! ## Runs -/

namespace Coast

/-- The models of `Coll.toyF`; the normal of an impact points from the first body to the second. -/
abbrev iface : Iface Nat ℚ := { toyF with
  impactGeometry := fun a b => .ok ((if a ≤ b then 1 else -1, 0), ((a + b) / 2, 0)) }

/-- Nobody accelerates, and there is a wall at 30. -/
abbrev parts : Parts Nat ℚ iface.M iface.S := { Toy.parts with
  ask := fun (a : Nat) _ => .ok (a + 1, (0 : ℚ), a) }

abbrev wd : World Nat ℚ := world iface true parts

def cfg (tmax : ℚ) : Cfg wd where
  dt := 1 / 2
  dtCommands := 1
  maxSimTime := tmax
  afterCollision := 4
  missions := []

/-- Cars at `-x` and `x` that drive towards each other with speed `v`. -/
def start (x v : ℚ) : St wd where
  models := [(0, (-x, ((v, (0 : ℚ)), (0 : ℚ)), false)), (1, (x, ((-v, (0 : ℚ)), (0 : ℚ)), false))]
  players := [0, 1]
  w := (fun _ => (0 : Nat), ())
  time := 0
  terminated := false
  reports := []
  firstColl := none
  lastObs := ⟨[], 0⟩
  lastCmdTs := none
  lastCmds := []
  logger := []
  trace := []

theorem fresh (x v : ℚ) : Fresh (start x v) where
  time := rfl
  terminated := rfl
  reports := rfl
  firstColl := rfl
  lastCmdTs := rfl
  wfModels := by show ([0, 1] : List Nat).Nodup; decide
  players := by show ([0, 1] : List Nat).Nodup; decide
  keys := by intro n; rfl
  trace := rfl

/-- The states of the execution. -/
def σ (tmax x v : ℚ) : Nat → St wd
  | 0 => Sim.Toy.orElse (start x v) (initLoop (start x v) (start x v).players)
  | j + 1 => Sim.Toy.orElse (σ tmax x v j) (step (cfg tmax) (σ tmax x v j))

theorem ready (tmax x v : ℚ) (h : Sim.Toy.isOk (initLoop (start x v) (start x v).players) = true) :
    Ready (σ tmax x v 0) :=
  ((safe_initLoop_fresh (start x v) (fresh x v)).ok (Sim.Toy.eq_ok (start x v) h)).1

theorem exec {tmax x v : ℚ} {j : Nat} (h : ∀ i < j, (σ tmax x v i).terminated = false ∧
    Sim.Toy.isOk (step (cfg tmax) (σ tmax x v i)) = true) : Exec (cfg tmax) (σ tmax x v) j :=
  fun i hi => ⟨(h i hi).1, Sim.Toy.eq_ok (σ tmax x v i) (h i hi).2⟩

theorem lawful (dt : ℚ) : Lawful iface parts dt where
  marked _ := rfl
  setVelocity _ _ _ := rfl
  update v n m c v' m' h := by
    injection h with h
    injection h with _ h
    subst h
    rfl
  dynMark _ := rfl
  dynVelocity _ _ _ := rfl
  dynUpdate _ _ _ _ _ _ _ := rfl

theorem standing : Standing iface := ⟨fun _ => rfl, fun _ _ _ => rfl⟩

theorem symm (x y : ℚ) : iface.intersects x y = iface.intersects y x := by
  show decide _ = decide _
  rw [decide_eq_decide]
  exact and_comm

/-- Cars at -11/4 and 11/4 with speed 1, which come into contact at time 9/4. -/
theorem meet_ready : Ready (σ 6 (11 / 4) 1 0) := ready _ _ _ (by decide +kernel)

theorem meet : Exec (cfg 6) (σ 6 (11 / 4) 1) 5 := exec (by decide +kernel)

theorem meet_state : (σ 6 (11 / 4) 1 5).terminated = false ∧ (σ 6 (11 / 4) 1 5).players = [0, 1] ∧
    (σ 6 (11 / 4) 1 5).models = [(0, ((-1 / 4 : ℚ), (((-1 / 2 : ℚ), (0 : ℚ)), (0 : ℚ)), true)),
      (1, ((1 / 4 : ℚ), (((1 / 2 : ℚ), (0 : ℚ)), (0 : ℚ)), true))] ∧
    (σ 6 (11 / 4) 1 5).reports.map (fun r => (r.players, r.atTime)) = [([0, 1], 5 / 2)] := by decide +kernel

theorem follows (T : ℚ → Prop) (hT : T (5 / 2)) : Follows (cfg 6) (σ 6 (11 / 4) 1) 5 0 1 T where
  exec := meet
  running := meet_state.1
  left := by rw [meet_state.2.1]; simp
  right := by rw [meet_state.2.1]; simp
  models := by
    refine ⟨_, _, by rw [meet_state.2.2.1]; rfl, by rw [meet_state.2.2.1]; rfl, ?_⟩
    refine iff_of_true (by decide +kernel) ?_
    have e : ((5 : Nat) : ℚ) * (cfg 6).dt = 5 / 2 := by decide +kernel
    rw [e]
    exact hT

/-- Hypotheses of `C132_contact`. -/
example : Noticed (σ 6 (11 / 4) 1 5) (((4 + 1 : Nat) : ℚ) * (cfg 6).dt) 0 1 :=
  C132_contact (lawful _) standing meet_ready (by decide +kernel) (by unfold Dict.Wf; decide) meet
    meet_state.1 symm (by decide) (by rw [meet_state.2.1]; simp) (by rw [meet_state.2.1]; simp)
    (ma := ((-1 / 4 : ℚ), (((-1 / 2 : ℚ), (0 : ℚ)), (0 : ℚ)), true))
    (mb := ((1 / 4 : ℚ), (((1 / 2 : ℚ), (0 : ℚ)), (0 : ℚ)), true))
    (by rw [meet_state.2.2.1]; rfl) (by rw [meet_state.2.2.1]; rfl) (by decide +kernel)

/-- The place that the left and the right car take without a collision. -/
def leftBody (t : ℚ) : Set ℚ := {y | -11 / 4 + t - 1 / 2 ≤ y ∧ y ≤ -11 / 4 + t + 1 / 2}
def rightBody (t : ℚ) : Set ℚ := {y | 11 / 4 - t - 1 / 2 ≤ y ∧ y ≤ 11 / 4 - t + 1 / 2}

theorem overlap {t : ℚ} (h1 : 9 / 4 ≤ t) (h2 : t ≤ 13 / 4) : (leftBody t ∩ rightBody t).Nonempty := by
  refine ⟨0, ⟨?_, ?_⟩, ⟨?_, ?_⟩⟩ <;> linarith

/-- Hypotheses of `C132_lasting_partial`, and the check that it is about. -/
example := C132_lasting_partial (sc := true) (σ := σ 6 (11 / 4) 1) (cfg := cfg 6) (lawful _) standing meet_ready
  (by decide +kernel) (by unfold Dict.Wf; decide) symm (a := 0) (b := 1) (by decide) leftBody rightBody
  (u := 9 / 4) (by norm_num)
  (fun t h1 h2 => overlap h1 (by
    have e : (cfg 6).dt = 1 / 2 := rfl
    rw [e] at h2
    linarith))
example : Follows (cfg 6) (σ 6 (11 / 4) 1) 5 0 1 (fun t => (leftBody t ∩ rightBody t).Nonempty) :=
  follows _ (overlap (by norm_num) (by norm_num))

/-- Hypotheses of `C132_deep_partial`, and the check that it is about. -/
example := C132_deep_partial (sc := true) (σ := σ 6 (11 / 4) 1) (cfg := cfg 6) (lawful _) standing meet_ready
  (by decide +kernel) (by unfold Dict.Wf; decide) symm (a := 0) (b := 1) (by decide)
  (fun t => |11 / 2 - 2 * t| - 1) (v := 2) (u := 13 / 5) (by norm_num)
  (fun s t => by
    have h := abs_sub_abs_le_abs_sub (11 / 2 - 2 * s) (11 / 2 - 2 * t)
    have e : (11 / 2 - 2 * s) - (11 / 2 - 2 * t) = -2 * (s - t) := by ring
    rw [e, abs_mul] at h
    norm_num at h
    linarith)
  (by decide +kernel) (by decide +kernel)
example : Follows (cfg 6) (σ 6 (11 / 4) 1) 5 0 1 (fun t => |11 / 2 - 2 * t| - 1 ≤ 0) :=
  follows _ (by norm_num)

/-- Hypotheses of `C132_discs`. -/
example := C132_discs (E := ℝ) (fun t => 3 * t) (fun t => 5 - 2 * t) (va := 3) (vb := 2)
  (fun s t => by rw [← mul_sub, Real.norm_eq_abs, abs_mul]; norm_num)
  (fun s t => by
    have e : (5 - 2 * s) - (5 - 2 * t) = -2 * (s - t) := by ring
    rw [e, Real.norm_eq_abs, abs_mul]; norm_num) 1 1

/-- Hypotheses of `C132_wall`: in the run of `Toy` car 2 hits the wall at time 2. -/
example : NamedAt (Toy.σ 4).reports (((3 + 1 : Nat) : ℚ) * Toy.cfg.dt) 2 ∨
    Leaving toyF ((121 / 4 : ℚ), (((-3 / 2 : ℚ), (0 : ℚ)), (0 : ℚ)), true) (30 : ℚ) :=
  C132_wall (o := ((30 : ℚ), ⟨none, none, 1 / 2⟩)) (Toy.lawful _) ⟨fun _ => rfl, fun _ _ _ => rfl⟩ Toy.ready
    Toy.dt_pos Toy.wf (fun i hi => Toy.exec i (by omega)) (by decide +kernel) (by decide +kernel)
    (by decide +kernel) rfl (by show _ ∈ (if (29 : ℚ) ≤ 121 / 4 then _ else _); norm_num)

end Coast

/-- **C132, negative.** Players can drive through each other: cars at -5 and 5 with speeds 20 and -20 and
steps of half a second are at the same place after a quarter of a second, both move on along their lines, and
the run ends without any report. -/
theorem C132_false_tunnel : ∃ J, Ready (Coast.σ 1 5 20 0) ∧ Exec (Coast.cfg 1) (Coast.σ 1 5 20) J ∧
    (Coast.σ 1 5 20 J).terminated = true ∧ (Coast.σ 1 5 20 J).reports = [] ∧
    (∀ i ≤ J, (Coast.σ 1 5 20 i).models.map (fun e => (e.1, Coast.iface.footprint e.2)) =
      [(0, -5 + 20 * ((i : ℚ) * (Coast.cfg 1).dt)), (1, 5 - 20 * ((i : ℚ) * (Coast.cfg 1).dt))]) ∧
    (-5 + 20 * (1 / 4) : ℚ) = 5 - 20 * (1 / 4) := by
  have h : (Coast.σ 1 5 20 3).reports.map (fun r => r.players) = [] := by decide +kernel
  exact ⟨3, Coast.ready _ _ _ (by decide +kernel), Coast.exec (by decide +kernel), by decide +kernel,
    List.map_eq_nil_iff.mp h, by decide +kernel, by norm_num⟩

/-- **C132, negative.** A contact that is found is not reported if the players have passed each other
meanwhile: with speeds 11 and -11 they touch at the first check, but separate. -/
theorem C132_false_passed : ∃ J, Ready (Coast.σ 1 5 11 0) ∧ Exec (Coast.cfg 1) (Coast.σ 1 5 11) J ∧
    (Coast.σ 1 5 11 J).terminated = true ∧ (Coast.σ 1 5 11 J).reports = [] ∧
    (∀ i ≤ J, (Coast.σ 1 5 11 i).models.map (fun e => (e.1, Coast.iface.footprint e.2)) =
      [(0, -5 + 11 * ((i : ℚ) * (Coast.cfg 1).dt)), (1, 5 - 11 * ((i : ℚ) * (Coast.cfg 1).dt))]) ∧
    (Coast.σ 1 5 11 1).terminated = false ∧
    Coast.iface.intersects (-5 + 11 * (1 / 2) : ℚ) (5 - 11 * (1 / 2) : ℚ) = true := by
  have h : (Coast.σ 1 5 11 3).reports.map (fun r => r.players) = [] := by decide +kernel
  exact ⟨3, Coast.ready _ _ _ (by decide +kernel), Coast.exec (by decide +kernel), by decide +kernel,
    List.map_eq_nil_iff.mp h, by decide +kernel, by decide +kernel, by decide +kernel⟩

/-- **C132, negative.** The step that ends the run is not checked: cars that come into contact in it, and
still approach each other, have no report. -/
theorem C132_false_last : ∃ J, Ready (Coast.σ 2 3 1 0) ∧ Exec (Coast.cfg 2) (Coast.σ 2 3 1) J ∧
    (Coast.σ 2 3 1 J).terminated = true ∧ (Coast.σ 2 3 1 J).reports = [] ∧
    (Coast.σ 2 3 1 J).players = [0, 1] ∧
    ∃ ma mb, Dict.get? (Coast.σ 2 3 1 J).models 0 = some ma ∧ Dict.get? (Coast.σ 2 3 1 J).models 1 = some mb ∧
      Coast.iface.intersects (Coast.iface.footprint ma) (Coast.iface.footprint mb) = true ∧
      ¬ Separating Coast.iface ma mb ∧ ¬ Separating Coast.iface mb ma := by
  have h : (Coast.σ 2 3 1 5).reports.map (fun r => r.players) = [] := by decide +kernel
  refine ⟨5, Coast.ready _ _ _ (by decide +kernel), Coast.exec (by decide +kernel), by decide +kernel,
    List.map_eq_nil_iff.mp h, by decide +kernel, ((-1 / 2 : ℚ), (((1 : ℚ), (0 : ℚ)), (0 : ℚ)), false),
    ((1 / 2 : ℚ), (((-1 : ℚ), (0 : ℚ)), (0 : ℚ)), false), by decide +kernel, by decide +kernel,
    by decide +kernel, ?_, ?_⟩
  · rintro ⟨n, p, hg, hs⟩
    injection hg with hg
    injection hg with h1 h2
    subst h1 h2
    have := hs 1 1 1 1
    revert this
    decide +kernel
  · rintro ⟨n, p, hg, hs⟩
    injection hg with hg
    injection hg with h1 h2
    subst h1 h2
    have := hs 1 1 1 1
    revert this
    decide +kernel

end Whole
end Verif
