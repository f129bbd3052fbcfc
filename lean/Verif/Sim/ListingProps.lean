import Verif.Sim.OrderProps
import Mathlib.Tactic.Order

/-!
# C155: the order in which players and missions are listed carries no meaning

The players, models and missions of a context are dictionaries. Two contexts that differ in the order of these give
runs that differ in nothing but orders, as long as the agents only look players up by name, have memories of their
own, and no two players touch.
-/

set_option linter.unusedSectionVars false

namespace Verif
namespace Sim

variable {N K : Type} [DecidableEq N] [Field K] [LinearOrder K] [IsStrictOrderedRing K]
  {Wd : World N K} {L : Type}

/-- Two observations that show the same players, perhaps in another order. -/
structure ObsEq {X P : Type} (o o' : Obs N K X P) : Prop where
  time : o.time = o'.time
  perm : List.Perm o.players o'.players

theorem ObsEq.refl {X P : Type} (o : Obs N K X P) : ObsEq o o := ⟨rfl, List.Perm.refl _⟩

theorem ObsEq.symm {X P : Type} {o o' : Obs N K X P} (h : ObsEq o o') : ObsEq o' o :=
  ⟨h.time.symm, h.perm.symm⟩

theorem ObsEq.trans {X P : Type} {o o' o'' : Obs N K X P} (h : ObsEq o o') (h' : ObsEq o' o'') : ObsEq o o'' :=
  ⟨h.time.trans h'.time, h.perm.trans h'.perm⟩

/-- Dictionaries with the same entries differ in order only. -/
theorem perm_of_get {α : Type} {d e : Dict N α} (hd : Dict.Wf d) (he : Dict.Wf e)
    (h : ∀ n, Dict.get? d n = Dict.get? e n) : List.Perm d e := by
  have hd' : List.Nodup d := List.Nodup.of_map _ hd
  have he' : List.Nodup e := List.Nodup.of_map _ he
  refine (List.perm_ext_iff_of_nodup hd' he').mpr ?_
  rintro ⟨n, a⟩
  constructor
  · intro hm
    exact Dict.get?_eq_some_mem ((h n).symm.trans (Dict.get?_of_mem hd hm))
  · intro hm
    exact Dict.get?_eq_some_mem ((h n).trans (Dict.get?_of_mem he hm))

theorem get_of_perm {α : Type} {d e : Dict N α} (hd : Dict.Wf d) (h : List.Perm d e) (n : N) :
    Dict.get? d n = Dict.get? e n := by
  have he : Dict.Wf e := (h.map Prod.fst).nodup_iff.mp hd
  cases hx : Dict.get? d n with
  | some a => exact (Dict.get?_of_mem he (h.mem_iff.mp (Dict.get?_eq_some_mem hx))).symm
  | none =>
    rw [Dict.get?_eq_none_iff] at hx
    exact ((Dict.get?_eq_none_iff _ _).mpr fun hn => hx ((h.map Prod.fst).mem_iff.mpr hn)).symm

/-- Both calls raise, or both return related results. -/
def RelU {α β : Type} (R : α → β → Prop) : Except Err α → Except Err β → Prop
  | .ok a, .ok b => R a b
  | .error _, .error _ => True
  | _, _ => False

/-- The agents look players up by name; goals and obstacles concern one player at a time. -/
structure ByName (I : Independent Wd L) where
  sense_obs : ∀ n l o o', ObsEq o o' → Dict.Wf o.players →
    RelU (fun a b => a.1 = b.1 ∧ ObsEq a.2 b.2 ∧ Dict.Wf a.2.players) (I.senseL n l o) (I.senseL n l o')
  cmd_obs : ∀ n l o o', ObsEq o o' → Dict.Wf o.players → RelU (· = ·) (I.cmdL n l o) (I.cmdL n l o')
  initL : N → L → Except Err L
  init_eq : ∀ w n, Wd.onInit w n = (initL n (I.get w n)).map (I.put w n)
  goalL : N → L → Wd.G → Wd.X → K → Except Err (L × Bool)
  goal_eq : ∀ w n g x t, Wd.fulfilled w n g x t =
    (goalL n (I.get w n) g x t).map (fun r => (I.put w n r.1, r.2))
  query_eq : ∀ w w' p, Wd.envQuery w p = Wd.envQuery w' p
  wallL : N → L → Wd.M → Wd.O → K → (L × Wd.M) × Except Err (Option Wd.D)
  wall_eq : ∀ w n m o t, Wd.resolveEnv w n m o t =
    ((I.put w n (wallL n (I.get w n) m o t).1.1, (wallL n (I.get w n) m o t).1.2), (wallL n (I.get w n) m o t).2)

/-- What a state says about one player, including the reports whose first player it is. -/
structure Share (Wd : World N K) (L : Type) where
  own : Comp Wd L
  active : Prop
  reports : List (Report Wd)

/-- The reports that name `n` (or nobody) first. -/
def reportsOf (s : St Wd) (n : Option N) : List (Report Wd) :=
  s.reports.filter (fun r => decide (r.players.head? = n))

/-- The share of player `n`. -/
def share (I : Independent Wd L) (s : St Wd) (n : N) : Share Wd L :=
  ⟨comp I s n, n ∈ s.players, reportsOf s (some n)⟩

/-- What all players see. -/
structure Ctx (s s' : St Wd) : Prop where
  time : s.time = s'.time
  terminated : s.terminated = s'.terminated
  lastObs : ObsEq s.lastObs s'.lastObs
  lastCmdTs : s.lastCmdTs = s'.lastCmdTs
  others : reportsOf s none = reportsOf s' none

theorem Ctx.refl (s : St Wd) : Ctx s s := ⟨rfl, rfl, ObsEq.refl _, rfl, rfl⟩

theorem Ctx.symm {s s' : St Wd} (h : Ctx s s') : Ctx s' s :=
  ⟨h.time.symm, h.terminated.symm, h.lastObs.symm, h.lastCmdTs.symm, h.others.symm⟩

theorem Ctx.trans {a b c : St Wd} (h : Ctx a b) (h' : Ctx b c) : Ctx a c :=
  ⟨h.time.trans h'.time, h.terminated.trans h'.terminated, h.lastObs.trans h'.lastObs,
    h.lastCmdTs.trans h'.lastCmdTs, h.others.trans h'.others⟩

/-- The earlier of two times, one of which may be absent. -/
def earlier (o : Option K) (t : K) : Option K :=
  match o with
  | none => some t
  | some u => if t < u then some t else some u

/-- The earliest time of some reports. -/
def earliest (l : List (Report Wd)) : Option K := l.foldl (fun o r => earlier o r.atTime) none

/-- The invariant under which shares determine a state up to orders. -/
structure Listed (s : St Wd) : Prop where
  nodup : s.players.Nodup
  models : ∀ n ∈ s.players, (Dict.get? s.models n).isSome
  firstColl : s.firstColl = earliest s.reports
  obs : Dict.Wf s.lastObs.players

/-- The two states differ in orders only. -/
structure Same (I : Independent Wd L) (s s' : St Wd) : Prop where
  ctx : Ctx s s'
  share : ∀ n, share I s n = share I s' n
  inv : Listed s
  inv' : Listed s'

theorem Same.refl (I : Independent Wd L) {s : St Wd} (h : Listed s) : Same I s s := ⟨Ctx.refl s, fun _ => rfl, h, h⟩

theorem Same.trans {I : Independent Wd L} {a b c : St Wd} (h : Same I a b) (h' : Same I b c) : Same I a c :=
  ⟨h.ctx.trans h'.ctx, fun n => (h.share n).trans (h'.share n), h.inv, h'.inv'⟩

/-- A change that concerns player `n` only. -/
structure Only (I : Independent Wd L) (n : N) (s t : St Wd) : Prop where
  ctx : Ctx s t
  inv : Listed s → Listed t
  rest : ∀ n', n' ≠ n → share I t n' = share I s n'

theorem Only.refl (I : Independent Wd L) (n : N) (s : St Wd) : Only I n s s := ⟨Ctx.refl s, id, fun _ _ => rfl⟩

theorem Only.trans {I : Independent Wd L} {n : N} {a b c : St Wd} (h : Only I n a b) (h' : Only I n b c) :
    Only I n a c :=
  ⟨h.ctx.trans h'.ctx, fun x => h'.inv (h.inv x), fun m hm => (h'.rest m hm).trans (h.rest m hm)⟩

/-- Outcomes of the same operation on player `n` in two states. -/
structure Pair (I : Independent Wd L) (n : N) (s s' t t' : St Wd) : Prop where
  same : share I t n = share I t' n
  only : Only I n s t
  only' : Only I n s' t'

theorem Pair.ctx {I : Independent Wd L} {n : N} {s s' t t' : St Wd} (h : Pair I n s s' t t') (hc : Ctx s s') :
    Ctx t t' := (h.only.ctx.symm.trans hc).trans h.only'.ctx

/-- An operation that reads and writes the share of one player. -/
def Local {α : Type} (I : Independent Wd L) (key : α → N) (op : St Wd → α → Except SimErr (St Wd)) : Prop :=
  ∀ s s' a, Listed s → Listed s' → Ctx s s' → share I s (key a) = share I s' (key a) →
    RelE (Pair I (key a) s s') (op s a) (op s' a)

theorem RelE.mono {α β : Type} {R R' : α → β → Prop} {x : Except SimErr α} {y : Except SimErr β}
    (h : RelE R x y) (hr : ∀ a b, R a b → R' a b) : RelE R' x y := by
  cases x <;> cases y
  · trivial
  · exact absurd h id
  · exact absurd h id
  · exact hr _ _ h

theorem RelE.trans' {α : Type} {R : α → α → Prop} (hR : ∀ a b c, R a b → R b c → R a c)
    {x y z : Except SimErr α} (h : RelE R x y) (h' : RelE R y z) : RelE R x z := by
  cases x <;> cases y <;> cases z <;> first | trivial | exact (h : False).elim | exact (h' : False).elim | exact hR _ _ _ h h'

theorem pair_same {I : Independent Wd L} {n : N} {s s' t t' : St Wd} (h : Same I s s') (ht : Pair I n s s' t t') :
    Same I t t' := by
  refine ⟨ht.ctx h.ctx, fun m => ?_, ht.only.inv h.inv, ht.only'.inv h.inv'⟩
  by_cases hm : m = n
  · subst hm; exact ht.same
  · exact (ht.only.rest m hm).trans ((h.share m).trans (ht.only'.rest m hm).symm)

section fold

variable {α : Type} {I : Independent Wd L} {key : α → N} {op : St Wd → α → Except SimErr (St Wd)}

theorem local_same (hop : Local I key op) {s s' : St Wd} (h : Same I s s') (a : α) :
    RelE (Same I) (op s a) (op s' a) :=
  (hop s s' a h.inv h.inv' h.ctx (h.share _)).mono fun _ _ => pair_same h

theorem fold_same (hop : Local I key op) (l : List α) :
    ∀ s s' : St Wd, Same I s s' → RelE (Same I) (l.foldlM op s) (l.foldlM op s') := by
  induction l with
  | nil => intro s s' h; exact h
  | cons a l ih =>
    intro s s' h
    rw [List.foldlM_cons, List.foldlM_cons]
    exact (local_same hop h a).bind fun t t' ht => ih t t' ht

theorem local_swap (hop : Local I key op) {s s' : St Wd} (h : Same I s s') {x y : α} (hxy : key x ≠ key y) :
    RelE (Same I) (op s y >>= fun t => op t x) (op s' x >>= fun t => op t y) := by
  have hsy := hop s s y h.inv h.inv (Ctx.refl s) rfl
  have hsx := hop s' s' x h.inv' h.inv' (Ctx.refl s') rfl
  cases e1 : op s y with
  | error e =>
    cases e2 : op s' x with
    | error e' => trivial
    | ok t' =>
      rw [e2] at hsx
      have hsx : Pair I (key x) s' s' t' t' := hsx
      have := hop s t' y h.inv (hsx.only.inv h.inv') (h.ctx.trans hsx.only.ctx)
        ((h.share _).trans (hsx.only.rest _ (Ne.symm hxy)).symm)
      rw [e1] at this
      show RelE (Same I) (.error e) (op t' y)
      cases e3 : op t' y with
      | error _ => trivial
      | ok _ => rw [e3] at this; exact (this : False).elim
  | ok t =>
    rw [e1] at hsy
    have hsy : Pair I (key y) s s t t := hsy
    have h1 := hop t s' x (hsy.only.inv h.inv) h.inv' (hsy.only.ctx.symm.trans h.ctx)
      ((hsy.only.rest _ hxy).trans (h.share _))
    show RelE (Same I) (op t x) (op s' x >>= fun t => op t y)
    cases e2 : op s' x with
    | error e' =>
      rw [e2] at h1
      cases e3 : op t x with
      | error _ => trivial
      | ok _ => rw [e3] at h1; exact (h1 : False).elim
    | ok t' =>
      rw [e2] at h1 hsx
      have hsx : Pair I (key x) s' s' t' t' := hsx
      show RelE (Same I) (op t x) (op t' y)
      have h2 := hop s t' y h.inv (hsx.only.inv h.inv') (h.ctx.trans hsx.only.ctx)
        ((h.share _).trans (hsx.only.rest _ (Ne.symm hxy)).symm)
      rw [e1] at h2
      cases e3 : op t x with
      | error _ => rw [e3] at h1; exact (h1 : False).elim
      | ok u =>
        rw [e3] at h1
        have h1 : Pair I (key x) t s' u t' := h1
        cases e4 : op t' y with
        | error _ => rw [e4] at h2; exact (h2 : False).elim
        | ok u' =>
          rw [e4] at h2
          have h2 : Pair I (key y) s t' t u' := h2
          refine ⟨?_, fun n => ?_, h1.only.inv (hsy.only.inv h.inv), h2.only'.inv (hsx.only.inv h.inv')⟩
          · exact (h1.ctx (hsy.only.ctx.symm.trans h.ctx)).trans h2.only'.ctx
          · by_cases hx : n = key x
            · subst hx
              exact h1.same.trans (h2.only'.rest _ hxy).symm
            · by_cases hy : n = key y
              · subst hy
                exact (h1.only.rest _ hx).trans h2.same
              · exact ((h1.only.rest _ hx).trans (hsy.only.rest _ hy)).trans ((h.share n).trans
                  ((h2.only'.rest _ hy).trans (hsx.only.rest _ hx)).symm)

/-- Loops over local operations do not depend on the order. -/
theorem fold_perm (hop : Local I key op) {l l' : List α} (hp : l.Perm l') :
    (l.map key).Nodup → ∀ s s' : St Wd, Same I s s' → RelE (Same I) (l.foldlM op s) (l'.foldlM op s') := by
  induction hp with
  | nil => intro _ s s' h; exact h
  | cons a _ ih =>
    intro hn s s' h
    rw [List.foldlM_cons, List.foldlM_cons]
    exact (local_same hop h a).bind fun t t' ht => ih (List.nodup_cons.mp hn).2 t t' ht
  | swap x y l =>
    intro hn s s' h
    have hxy : key x ≠ key y := by
      have := (List.nodup_cons.mp hn).1
      simp only [List.map_cons, List.mem_cons, not_or] at this
      exact fun e => this.1 e.symm
    have := (local_swap hop h hxy).bind (f := fun t => l.foldlM op t) (g := fun t => l.foldlM op t)
      fun t t' ht => fold_same hop l t t' ht
    simpa only [List.foldlM_cons, bind_assoc] using this
  | trans h1 _ ih1 ih2 =>
    intro hn s s' h
    exact (ih1 hn s s' h).trans' (fun _ _ _ => Same.trans)
      (ih2 ((h1.map key).nodup_iff.mp hn) s' s' (Same.refl I h.inv'))

end fold

section local_ops

variable {I : Independent Wd L}

theorem only_of {n : N} {s t : St Wd} (h1 : t.time = s.time) (h2 : t.terminated = s.terminated)
    (h3 : t.lastObs = s.lastObs) (h4 : t.lastCmdTs = s.lastCmdTs) (h5 : t.players = s.players)
    (h6 : t.reports = s.reports) (h7 : t.firstColl = s.firstColl)
    (hm : ∀ k, (Dict.get? s.models k).isSome → (Dict.get? t.models k).isSome)
    (hc : ∀ n', n' ≠ n → comp I t n' = comp I s n') : Only I n s t := by
  refine ⟨⟨h1.symm, h2.symm, ?_, h4.symm, ?_⟩, fun h => ⟨?_, ?_, ?_, ?_⟩, fun n' hn' => ?_⟩
  · rw [h3]; exact ObsEq.refl _
  · unfold reportsOf; rw [h6]
  · rw [h5]; exact h.nodup
  · intro k hk; rw [h5] at hk; exact hm k (h.models k hk)
  · rw [h6, h7]; exact h.firstColl
  · rw [h3]; exact h.obs
  · unfold share reportsOf; rw [hc n' hn', h5, h6]

theorem isSome_set {α : Type} (d : Dict N α) (n k : N) (v : α) (h : (Dict.get? d k).isSome) :
    (Dict.get? (Dict.set d n v) k).isSome := by
  rw [Dict.get?_set]
  split
  · rfl
  · exact h

theorem share_of {n : N} {s s' t t' : St Wd} (h : share I s n = share I s' n) (hp : t.players = s.players)
    (hp' : t'.players = s'.players) (hr : t.reports = s.reports) (hr' : t'.reports = s'.reports)
    (hc : comp I t n = comp I t' n) : share I t n = share I t' n := by
  have h1 : (n ∈ s.players) = (n ∈ s'.players) := congrArg Share.active h
  have h2 : reportsOf s (some n) = reportsOf s' (some n) := congrArg Share.reports h
  unfold reportsOf at h2
  unfold share reportsOf
  rw [hc, hp, hp', hr, hr', h1, h2]

theorem relE_sense' (F : ByName I) {w w' : Wd.W} {n : N}
    {o o' : Obs N K Wd.X Wd.P} (ho : ObsEq o o') (hwf : Dict.Wf o.players)
    (h : I.get w n = I.get w' n) :
    RelE (fun a b => (∃ l, a.1 = I.put w n l ∧ b.1 = I.put w' n l) ∧ ObsEq a.2 b.2 ∧ Dict.Wf a.2.players)
      (liftU (Wd.sense w n o)) (liftU (Wd.sense w' n o')) := by
  rw [I.sense_eq, I.sense_eq, ← h]
  have := F.sense_obs n (I.get w n) o o' ho hwf
  cases e : I.senseL n (I.get w n) o <;> cases e' : I.senseL n (I.get w n) o' <;> rw [e, e'] at this
  · trivial
  · exact (this : False).elim
  · exact (this : False).elim
  · rename_i a b
    refine ⟨⟨a.1, rfl, ?_⟩, this.2⟩
    show I.put w' n b.1 = _
    rw [this.1]

theorem relE_cmd' (F : ByName I) {w w' : Wd.W} {n : N}
    {o o' : Obs N K Wd.X Wd.P} (ho : ObsEq o o') (hwf : Dict.Wf o.players)
    (h : I.get w n = I.get w' n) :
    RelE (fun a b => (∃ l, a.1 = I.put w n l ∧ b.1 = I.put w' n l) ∧ a.2 = b.2)
      (liftU (Wd.getCommands w n o)) (liftU (Wd.getCommands w' n o')) := by
  rw [I.cmd_eq, I.cmd_eq, ← h]
  have := F.cmd_obs n (I.get w n) o o' ho hwf
  cases e : I.cmdL n (I.get w n) o <;> cases e' : I.cmdL n (I.get w n) o' <;> rw [e, e'] at this
  · trivial
  · exact (this : False).elim
  · exact (this : False).elim
  · rename_i a b
    have this : a = b := this
    subst this
    exact ⟨⟨a.1, rfl, rfl⟩, rfl⟩

theorem pair_askPlayer (F : ByName I) (n : N) (s s' : St Wd) (hi : Listed s)
    (hctx : Ctx s s') (h : share I s n = share I s' n) :
    RelE (Pair I n s s') (askPlayer s n) (askPlayer s' n) := by
  have hcm : comp I s n = comp I s' n := congrArg Share.own h
  have hm : Dict.get? s.models n = Dict.get? s'.models n := congrArg Comp.model hcm
  have hlg : Dict.get? s.logger n = Dict.get? s'.logger n := congrArg Comp.logger hcm
  have hw : I.get s.w n = I.get s'.w n := congrArg Comp.mem hcm
  unfold askPlayer
  refine (relE_sense' F hctx.lastObs hi.obs hw).bind ?_
  rintro ⟨w1, o⟩ ⟨w1', o'⟩ ⟨⟨l, h1, h1'⟩, h2⟩
  simp only at h1 h1' h2
  subst h1 h1'
  refine (relE_cmd' F h2.1 h2.2 (by rw [I.get_put_self, I.get_put_self])).bind ?_
  rintro ⟨w2, ci⟩ ⟨w2', ci'⟩ ⟨⟨l2, h1, h1'⟩, h2⟩
  simp only at h1 h1' h2
  subst h1 h1' h2
  rw [lookup_congr hlg]
  refine (RelE.refl (lookup s'.logger n)).bind ?_
  rintro lg _ rfl
  refine (relE_addLog lg.commands ci.1 hctx.time.symm).bind ?_
  rintro cm _ rfl
  refine (relE_addLog lg.info ci.2 hctx.time.symm).bind ?_
  rintro inf _ rfl
  refine (relE_extra I (by rw [I.get_put_self, I.get_put_self])).bind ?_
  rintro ⟨w3, ex⟩ ⟨w3', ex'⟩ ⟨⟨l3, h1, h1'⟩, h2⟩
  simp only at h1 h1' h2
  subst h1 h1' h2
  refine (relE_addExtra lg.extra ex hctx.time.symm).bind ?_
  rintro extra _ rfl
  simp only [I.put_put]
  refine ⟨share_of h rfl rfl rfl rfl ?_, only_of rfl rfl rfl rfl rfl rfl rfl (fun _ => id) ?_,
    only_of rfl rfl rfl rfl rfl rfl rfl (fun _ => id) ?_⟩
  · refine comp_ext hm ?_ ?_ ?_
    · exact (Dict.get?_set_self _ _ _).trans (Dict.get?_set_self _ _ _).symm
    · exact (Dict.get?_set_self _ _ _).trans (Dict.get?_set_self _ _ _).symm
    · exact (I.get_put_self _ _ _).trans (I.get_put_self _ _ _).symm
  · intro n' hn'
    exact comp_ext rfl (Dict.get?_set_ne _ (Ne.symm hn') _) (Dict.get?_set_ne _ (Ne.symm hn') _)
      (I.get_put_ne _ _ _ _ hn')
  · intro n' hn'
    exact comp_ext rfl (Dict.get?_set_ne _ (Ne.symm hn') _) (Dict.get?_set_ne _ (Ne.symm hn') _)
      (I.get_put_ne _ _ _ _ hn')

theorem pair_maybeAsk (F : ByName I) (cfg : Cfg Wd) (n : N) (s s' : St Wd) (hi : Listed s)
    (hctx : Ctx s s') (h : share I s n = share I s' n) :
    RelE (Pair I n s s') (maybeAsk cfg s n) (maybeAsk cfg s' n) := by
  unfold maybeAsk
  rw [need_congr cfg hctx.time hctx.lastCmdTs]
  split
  · exact pair_askPlayer F n s s' hi hctx h
  · exact ⟨h, Only.refl I n s, Only.refl I n s'⟩

theorem local_updatePlayer (F : ByName I) (cfg : Cfg Wd) : Local I id (updatePlayer cfg) := by
  intro s s' n hi _ hctx h
  simp only [id] at h ⊢
  have hcm : comp I s n = comp I s' n := congrArg Share.own h
  have hm : Dict.get? s.models n = Dict.get? s'.models n := congrArg Comp.model hcm
  have hlg : Dict.get? s.logger n = Dict.get? s'.logger n := congrArg Comp.logger hcm
  have hcmd : Dict.get? s.lastCmds n = Dict.get? s'.lastCmds n := congrArg Comp.cmd hcm
  have hw : I.get s.w n = I.get s'.w n := congrArg Comp.mem hcm
  unfold updatePlayer
  rw [lookup_congr hm, lookup_congr hlg]
  refine (RelE.refl (lookup s'.models n)).bind ?_
  rintro m _ rfl
  refine (RelE.refl (lookup s'.logger n)).bind ?_
  rintro lg _ rfl
  refine (relE_addLog lg.states (Wd.getState m) hctx.time.symm).bind ?_
  rintro st _ rfl
  have o1 : Only I n s { s with logger := Dict.set s.logger n { lg with states := st } } :=
    only_of rfl rfl rfl rfl rfl rfl rfl (fun _ => id) fun n' hn' =>
      comp_ext rfl (Dict.get?_set_ne _ (Ne.symm hn') _) rfl rfl
  have o1' : Only I n s' { s' with logger := Dict.set s'.logger n { lg with states := st } } :=
    only_of rfl rfl rfl rfl rfl rfl rfl (fun _ => id) fun n' hn' =>
      comp_ext rfl (Dict.get?_set_ne _ (Ne.symm hn') _) rfl rfl
  refine (pair_maybeAsk F cfg n
    { s with logger := Dict.set s.logger n { lg with states := st } }
    { s' with logger := Dict.set s'.logger n { lg with states := st } } (o1.inv hi)
    ⟨hctx.time, hctx.terminated, hctx.lastObs, hctx.lastCmdTs, hctx.others⟩
    (share_of h rfl rfl rfl rfl (comp_ext hm
        ((Dict.get?_set_self _ _ _).trans (Dict.get?_set_self _ _ _).symm) hcmd hw))).bind ?_
  rintro s2 s2' a
  have ha : comp I s2 n = comp I s2' n := congrArg Share.own a.same
  rw [lookup_congr (show Dict.get? s2.lastCmds n = Dict.get? s2'.lastCmds n from
    congrArg Comp.cmd ha), lookup_congr (show Dict.get? s2.models n = Dict.get? s2'.models n from
    congrArg Comp.model ha)]
  refine (RelE.refl (lookup s2'.lastCmds n)).bind ?_
  rintro c _ rfl
  refine (RelE.refl (lookup s2'.models n)).bind ?_
  rintro m2 _ rfl
  refine (relE_upd I m2 c cfg.dt (show I.get s2.w n = I.get s2'.w n from
    congrArg Comp.mem ha)).bind ?_
  rintro ⟨w', m'⟩ ⟨w'', m''⟩ ⟨⟨l, h1, h1'⟩, h2⟩
  simp only at h1 h1' h2
  subst h1 h1' h2
  refine ⟨share_of a.same rfl rfl rfl rfl ?_, (o1.trans a.only).trans (only_of rfl rfl rfl rfl rfl rfl rfl
    (fun k hk => isSome_set _ _ _ _ hk) ?_), (o1'.trans a.only').trans (only_of rfl rfl rfl rfl rfl rfl rfl
    (fun k hk => isSome_set _ _ _ _ hk) ?_)⟩
  · have ha2 : Dict.get? s2.logger n = Dict.get? s2'.logger n := congrArg Comp.logger ha
    have ha3 : Dict.get? s2.lastCmds n = Dict.get? s2'.lastCmds n := congrArg Comp.cmd ha
    refine comp_ext ?_ ha2 ha3 ?_
    · exact (Dict.get?_set_self _ _ _).trans (Dict.get?_set_self _ _ _).symm
    · exact (I.get_put_self _ _ _).trans (I.get_put_self _ _ _).symm
  · intro n' hn'
    exact comp_ext (Dict.get?_set_ne _ (Ne.symm hn') _) rfl rfl (I.get_put_ne _ _ _ _ hn')
  · intro n' hn'
    exact comp_ext (Dict.get?_set_ne _ (Ne.symm hn') _) rfl rfl (I.get_put_ne _ _ _ _ hn')

theorem relE_goal (F : ByName I) {w w' : Wd.W} {n : N} (g : Wd.G) (x : Wd.X) {t t' : K} (ht : t = t')
    (h : I.get w n = I.get w' n) :
    RelE (fun a b => (∃ l, a.1 = I.put w n l ∧ b.1 = I.put w' n l) ∧ a.2 = b.2)
      (liftU (Wd.fulfilled w n g x t)) (liftU (Wd.fulfilled w' n g x t')) := by
  subst ht
  rw [F.goal_eq, F.goal_eq, ← h]
  cases F.goalL n (I.get w n) g x t with
  | error e => trivial
  | ok r => exact ⟨⟨r.1, rfl, rfl⟩, rfl⟩

theorem local_removePlayer (F : ByName I) : Local I Prod.fst (fun s (pg : N × Wd.G) => removePlayer s pg.1 pg.2) := by
  rintro s s' ⟨p, g⟩ hi hi' hctx h
  simp only at h ⊢
  have hcm : comp I s p = comp I s' p := congrArg Share.own h
  have hact : (p ∈ s.players) = (p ∈ s'.players) := congrArg Share.active h
  have hm : Dict.get? s.models p = Dict.get? s'.models p := congrArg Comp.model hcm
  have hlg : Dict.get? s.logger p = Dict.get? s'.logger p := congrArg Comp.logger hcm
  have hcmd : Dict.get? s.lastCmds p = Dict.get? s'.lastCmds p := congrArg Comp.cmd hcm
  have hw : I.get s.w p = I.get s'.w p := congrArg Comp.mem hcm
  unfold removePlayer
  by_cases hp : p ∈ s.players
  · rw [if_pos hp, if_pos (hact ▸ hp), lookup_congr hm]
    refine (RelE.refl (lookup s'.models p)).bind ?_
    rintro m _ rfl
    refine (relE_goal F g (Wd.getState m) hctx.time hw).bind ?_
    rintro ⟨w1, b⟩ ⟨w1', b'⟩ ⟨⟨l, h1, h1'⟩, h2⟩
    simp only at h1 h1' h2
    subst h1 h1' h2
    cases b with
    | false =>
      refine ⟨share_of h rfl rfl rfl rfl (comp_ext hm hlg hcmd ?_), only_of rfl rfl rfl rfl rfl rfl rfl (fun _ => id)
        ?_, only_of rfl rfl rfl rfl rfl rfl rfl (fun _ => id) ?_⟩
      · exact (I.get_put_self _ _ _).trans (I.get_put_self _ _ _).symm
      · exact fun n' hn' => comp_ext rfl rfl rfl (I.get_put_ne _ _ _ _ hn')
      · exact fun n' hn' => comp_ext rfl rfl rfl (I.get_put_ne _ _ _ _ hn')
    | true =>
      simp only [if_true]
      rw [lookup_congr hlg]
      refine (RelE.refl (lookup s'.logger p)).bind ?_
      rintro lg _ rfl
      refine (relE_addLog lg.states (Wd.getState m) hctx.time.symm).bind ?_
      rintro st _ rfl
      have key : ∀ s : St Wd, Only I p s { s with
          w := I.put s.w p l, trace := s.trace ++ [.goal s.time p (Wd.getState m)]
          logger := Dict.set s.logger p { lg with states := st }
          players := s.players.erase p } := by
        intro s
        refine ⟨⟨rfl, rfl, ObsEq.refl _, rfl, rfl⟩, fun h => ⟨h.nodup.erase p, fun n hn => h.models n
          (List.mem_of_mem_erase hn), h.firstColl, h.obs⟩, fun n' hn' => ?_⟩
        have e : (n' ∈ s.players.erase p) = (n' ∈ s.players) :=
          propext (List.mem_erase_of_ne hn')
        unfold share reportsOf
        simp only [e]
        congr 1
        exact comp_ext rfl (Dict.get?_set_ne _ (Ne.symm hn') _) rfl (I.get_put_ne _ _ _ _ hn')
      refine ⟨?_, key s, key s'⟩
      have e : (p ∈ s.players.erase p) = (p ∈ s'.players.erase p) := by
        have a1 := (List.Nodup.mem_erase_iff hi.nodup (a := p) (b := p))
        have a2 := (List.Nodup.mem_erase_iff hi'.nodup (a := p) (b := p))
        simp at a1 a2
        simp [a1, a2]
      have h2 : reportsOf s (some p) = reportsOf s' (some p) := congrArg Share.reports h
      unfold reportsOf at h2
      unfold share reportsOf
      simp only [e, h2]
      congr 1
      refine comp_ext hm ?_ hcmd ?_
      · exact (Dict.get?_set_self _ _ _).trans (Dict.get?_set_self _ _ _).symm
      · exact (I.get_put_self _ _ _).trans (I.get_put_self _ _ _).symm
  · rw [if_neg hp, if_neg (fun h => hp (hact ▸ h))]
    exact ⟨h, Only.refl I p s, Only.refl I p s'⟩

/-- One turn of the initialisation. -/
def initPlayer (s : St Wd) (n : N) : Except SimErr (St Wd) := do
  let _ ← lookup s.models n
  let w' ← liftU (Wd.onInit s.w n)
  return { s with w := w', logger := Dict.set s.logger n {} }

theorem local_initPlayer (F : ByName I) : Local (Wd := Wd) I id initPlayer := by
  intro s s' n _ _ hctx h
  simp only [id] at h ⊢
  have hcm : comp I s n = comp I s' n := congrArg Share.own h
  have hm : Dict.get? s.models n = Dict.get? s'.models n := congrArg Comp.model hcm
  have hcmd : Dict.get? s.lastCmds n = Dict.get? s'.lastCmds n := congrArg Comp.cmd hcm
  have hw : I.get s.w n = I.get s'.w n := congrArg Comp.mem hcm
  unfold initPlayer
  rw [lookup_congr hm]
  refine (RelE.refl (lookup s'.models n)).bind ?_
  rintro m _ rfl
  have hr : RelE (fun a b => ∃ l, a = I.put s.w n l ∧ b = I.put s'.w n l)
      (liftU (Wd.onInit s.w n)) (liftU (Wd.onInit s'.w n)) := by
    rw [F.init_eq, F.init_eq, ← hw]
    cases F.initL n (I.get s.w n) with
    | error e => trivial
    | ok r => exact ⟨r, rfl, rfl⟩
  refine hr.bind ?_
  rintro _ _ ⟨l, rfl, rfl⟩
  refine ⟨share_of h rfl rfl rfl rfl (comp_ext hm ?_ hcmd ?_), only_of rfl rfl rfl rfl rfl rfl rfl (fun _ => id)
    ?_, only_of rfl rfl rfl rfl rfl rfl rfl (fun _ => id) ?_⟩
  · exact (Dict.get?_set_self _ _ _).trans (Dict.get?_set_self _ _ _).symm
  · exact (I.get_put_self _ _ _).trans (I.get_put_self _ _ _).symm
  · exact fun n' hn' => comp_ext rfl (Dict.get?_set_ne _ (Ne.symm hn') _) rfl (I.get_put_ne _ _ _ _ hn')
  · exact fun n' hn' => comp_ext rfl (Dict.get?_set_ne _ (Ne.symm hn') _) rfl (I.get_put_ne _ _ _ _ hn')

theorem reportsOf_record (s : St Wd) (r : Report Wd) (n : Option N) :
    reportsOf (recordReport s r) n = reportsOf s n ++ if r.players.head? = n then [r] else [] := by
  unfold reportsOf recordReport
  simp only [List.filter_append]
  congr 1
  by_cases h : r.players.head? = n <;> simp [h]

theorem only_record {n : N} (s : St Wd) (r : Report Wd) (h : r.players.head? = some n) :
    Only I n s (recordReport s r) := by
  refine ⟨⟨rfl, rfl, ObsEq.refl _, rfl, ?_⟩, fun hi => ⟨hi.nodup, hi.models, ?_, hi.obs⟩, fun n' hn' => ?_⟩
  · rw [reportsOf_record, if_neg (by rw [h]; exact Option.some_ne_none n), List.append_nil]
  · have e : (recordReport s r).reports = s.reports ++ [r] := rfl
    rw [e, earliest, List.foldl_append, ← earliest, ← hi.firstColl]
    unfold recordReport earlier
    cases s.firstColl <;> rfl
  · unfold share
    rw [reportsOf_record, if_neg (by rw [h]; exact fun e => hn' (Option.some.inj e).symm), List.append_nil]
    rfl

theorem share_record {n : N} {s s' : St Wd} (r : Report Wd) (h : share I s n = share I s' n) :
    share I (recordReport s r) n = share I (recordReport s' r) n := by
  have h0 : comp I s n = comp I s' n := congrArg Share.own h
  have h1 : (n ∈ s.players) = (n ∈ s'.players) := congrArg Share.active h
  have h2 : reportsOf s (some n) = reportsOf s' (some n) := congrArg Share.reports h
  unfold share
  rw [reportsOf_record, reportsOf_record, h2]
  show Share.mk (comp I s n) (n ∈ s.players) _ = Share.mk (comp I s' n) (n ∈ s'.players) _
  rw [h0, h1]

theorem reportOf_head {p : N} {e : N} {t : K} {x : Except Err (Option Wd.D)} {r : Report Wd}
    (h : reportOf [p, e] [p] t x = .ok (some r)) : r.players.head? = some p := by
  unfold reportOf at h
  split at h <;> cases h <;> rfl

theorem pair_envObstacle (F : ByName I) (p : N) (o : Wd.O) (s s' : St Wd) (hctx : Ctx s s')
    (h : share I s p = share I s' p) : RelE (Pair I p s s') (envObstacle s p o) (envObstacle s' p o) := by
  have hcm : comp I s p = comp I s' p := congrArg Share.own h
  have hm : Dict.get? s.models p = Dict.get? s'.models p := congrArg Comp.model hcm
  have hlg : Dict.get? s.logger p = Dict.get? s'.logger p := congrArg Comp.logger hcm
  have hcmd : Dict.get? s.lastCmds p = Dict.get? s'.lastCmds p := congrArg Comp.cmd hcm
  have hw : I.get s.w p = I.get s'.w p := congrArg Comp.mem hcm
  unfold envObstacle
  rw [lookup_congr hm]
  refine (RelE.refl (lookup s'.models p)).bind ?_
  rintro m _ rfl
  obtain ⟨l, m', x, e0, e1⟩ : ∃ l m' x, Wd.resolveEnv s.w p m o s.time = ((I.put s.w p l, m'), x) ∧
      Wd.resolveEnv s'.w p m o s'.time = ((I.put s'.w p l, m'), x) := by
    refine ⟨_, _, _, F.wall_eq _ _ _ _ _, ?_⟩
    rw [F.wall_eq, hw, hctx.time]
  simp only [e0, e1]
  have hsh : share I { s with w := I.put s.w p l, models := Dict.set s.models p m' } p =
      share I { s' with w := I.put s'.w p l, models := Dict.set s'.models p m' } p :=
    share_of h rfl rfl rfl rfl (comp_ext ((Dict.get?_set_self _ _ _).trans (Dict.get?_set_self _ _ _).symm)
      hlg hcmd ((I.get_put_self _ _ _).trans (I.get_put_self _ _ _).symm))
  have hon : ∀ s : St Wd, Only I p s { s with w := I.put s.w p l, models := Dict.set s.models p m' } := fun s =>
    only_of rfl rfl rfl rfl rfl rfl rfl (fun k hk => isSome_set _ _ _ _ hk) fun n' hn' =>
      comp_ext (Dict.get?_set_ne _ (Ne.symm hn') _) rfl rfl (I.get_put_ne _ _ _ _ hn')
  cases hx : (reportOf [p, Wd.env] [p] s.time x : Except SimErr (Option (Report Wd))) with
  | error e =>
    have hx' : (reportOf [p, Wd.env] [p] s'.time x : Except SimErr (Option (Report Wd))) = .error e := hctx.time ▸ hx
    rw [hx']
    trivial
  | ok rep =>
    have hx' : (reportOf [p, Wd.env] [p] s'.time x : Except SimErr (Option (Report Wd))) = .ok rep := hctx.time ▸ hx
    rw [hx']
    cases rep with
    | none => exact ⟨hsh, hon s, hon s'⟩
    | some r =>
      have hh := reportOf_head hx
      cases hd : Wd.isDyn m' with
      | true =>
        show RelE _ (Except.ok _) (Except.ok _)
        simp only [hd]
        exact ⟨hsh, hon s, hon s'⟩
      | false =>
        show RelE _ (Except.ok _) (Except.ok _)
        simp only [hd]
        exact ⟨share_record r hsh, (hon s).trans (only_record _ r hh), (hon s').trans (only_record _ r hh)⟩

theorem pair_envObstacles (F : ByName I) (p : N) (os : List Wd.O) : ∀ s s' : St Wd, Ctx s s' →
    share I s p = share I s' p → RelE (Pair I p s s') (envObstacles p s os) (envObstacles p s' os) := by
  induction os with
  | nil => exact fun s s' _ h => ⟨h, Only.refl I p s, Only.refl I p s'⟩
  | cons o os ih =>
    intro s s' hctx h
    unfold envObstacles
    refine (pair_envObstacle F p o s s' hctx h).bind fun t t' ht => ?_
    exact (ih t t' (ht.ctx hctx) ht.same).mono fun u u' hu =>
      ⟨hu.same, ht.only.trans hu.only, ht.only'.trans hu.only'⟩

/-- One turn of the check against the environment. -/
def envPlayer (s : St Wd) (p : N) : Except SimErr (St Wd) := do
  let m ← lookup s.models p
  envObstacles p { s with trace := s.trace ++ [.env s.time p] } (Wd.envQuery s.w (Wd.footprint m))

theorem local_envPlayer (F : ByName I) : Local (Wd := Wd) I id envPlayer := by
  intro s s' n _ _ hctx h
  simp only [id] at h ⊢
  have hcm : comp I s n = comp I s' n := congrArg Share.own h
  have hm : Dict.get? s.models n = Dict.get? s'.models n := congrArg Comp.model hcm
  unfold envPlayer
  rw [lookup_congr hm]
  refine (RelE.refl (lookup s'.models n)).bind ?_
  rintro m _ rfl
  rw [F.query_eq s.w s'.w]
  have o1 : ∀ s : St Wd, Only I n s { s with trace := s.trace ++ [.env s.time n] } := fun s =>
    only_of rfl rfl rfl rfl rfl rfl rfl (fun _ => id) fun _ _ => rfl
  refine (pair_envObstacles F n _ { s with trace := s.trace ++ [.env s.time n] }
    { s' with trace := s'.trace ++ [.env s'.time n] }
    ⟨hctx.time, hctx.terminated, hctx.lastObs, hctx.lastCmdTs, hctx.others⟩
    (share_of h rfl rfl rfl rfl hcm)).mono fun t t' ht => ?_
  exact ⟨ht.same, (o1 s).trans ht.only, (o1 s').trans ht.only'⟩

theorem updateLoop_fold (cfg : Cfg Wd) (l : List N) : ∀ s : St Wd, updateLoop cfg s l = l.foldlM (updatePlayer cfg) s := by
  induction l with
  | nil => intro s; rfl
  | cons n l ih =>
    intro s
    unfold updateLoop
    rw [List.foldlM_cons]
    congr 1
    funext t
    exact ih t

theorem removeLoop_fold (l : Dict N Wd.G) : ∀ s : St Wd,
    removeLoop s l = List.foldlM (fun s (pg : N × Wd.G) => removePlayer s pg.1 pg.2) s l := by
  induction l with
  | nil => intro s; rfl
  | cons n l ih =>
    intro s
    obtain ⟨p, g⟩ := n
    unfold removeLoop
    rw [List.foldlM_cons]
    congr 1
    funext t
    exact ih t

theorem envLoop_fold (l : List N) : ∀ s : St Wd, envLoop s l = l.foldlM envPlayer s := by
  induction l with
  | nil => intro s; rfl
  | cons n l ih =>
    intro s
    unfold envLoop envPlayer
    rw [List.foldlM_cons]
    simp only [bind_assoc]
    congr 1
    funext m
    congr 1
    funext t
    exact ih t

theorem initLoop_fold (l : List N) : ∀ s : St Wd, initLoop s l = l.foldlM initPlayer s := by
  induction l with
  | nil => intro s; rfl
  | cons n l ih =>
    intro s
    unfold initLoop initPlayer
    rw [List.foldlM_cons]
    simp only [bind_assoc, pure_bind]
    congr 1
    funext m
    congr 1
    funext t
    exact ih _

end local_ops

/-! ## From shares to states -/

theorem earlier_comm (o : Option K) (t u : K) : earlier (earlier o t) u = earlier (earlier o u) t := by
  cases o with
  | none =>
    simp only [earlier]
    rcases lt_trichotomy t u with h | h | h
    · rw [if_neg h.le.not_gt, if_pos h]
    · subst h; rfl
    · rw [if_pos h, if_neg h.le.not_gt]
  | some v =>
    simp only [earlier]
    split_ifs <;> simp only <;> split_ifs <;> first | rfl | (congr 1; order) | (exfalso; order)

theorem earliest_perm {l l' : List (Report Wd)} (h : l.Perm l') : earliest l = earliest l' :=
  h.foldl_eq' (fun a _ b _ o => earlier_comm (K := K) o _ _) none

theorem reports_perm {s s' : St Wd} (h : ∀ n, reportsOf s n = reportsOf s' n) : s.reports.Perm s'.reports := by
  classical
  rw [List.perm_iff_count]
  intro a
  have e := congrArg (List.count a) (h a.players.head?)
  unfold reportsOf at e
  rwa [List.count_filter (by simp), List.count_filter (by simp)] at e

variable {I : Independent Wd L}

theorem Same.reports {s s' : St Wd} (h : Same I s s') : s.reports.Perm s'.reports :=
  reports_perm fun n => by
    cases n with
    | none => exact h.ctx.others
    | some n => exact congrArg Share.reports (h.share n)

theorem Same.firstColl {s s' : St Wd} (h : Same I s s') : s.firstColl = s'.firstColl := by
  rw [h.inv.firstColl, h.inv'.firstColl, earliest_perm h.reports]

theorem Same.active {s s' : St Wd} (h : Same I s s') (n : N) : n ∈ s.players ↔ n ∈ s'.players := by
  have : (n ∈ s.players) = (n ∈ s'.players) := congrArg Share.active (h.share n)
  rw [this]

theorem Same.players {s s' : St Wd} (h : Same I s s') : s.players.Perm s'.players :=
  (List.perm_ext_iff_of_nodup h.inv.nodup h.inv'.nodup).mpr h.active

theorem Same.comp {s s' : St Wd} (h : Same I s s') (n : N) : comp I s n = comp I s' n :=
  congrArg Share.own (h.share n)

theorem Same.models {s s' : St Wd} (h : Same I s s') (n : N) : Dict.get? s.models n = Dict.get? s'.models n :=
  congrArg Comp.model (h.comp n)

theorem Same.logger {s s' : St Wd} (h : Same I s s') (n : N) : Dict.get? s.logger n = Dict.get? s'.logger n :=
  congrArg Comp.logger (h.comp n)

theorem Same.agents {s s' : St Wd} (h : Same I s s') : s.w = s'.w :=
  I.ext _ _ fun n => congrArg Comp.mem (h.comp n)

/-! ## Steps and runs -/

theorem observe_get (models : Dict N Wd.M) (l : List N) (h : ∀ n ∈ l, (Dict.get? models n).isSome) :
    ∃ ps, observe (Wd := Wd) models l = .ok ps ∧ Dict.keys ps = l ∧ ∀ n, Dict.get? ps n =
      if n ∈ l then (Dict.get? models n).map (fun m => (Wd.getState m, Wd.footprint m)) else none := by
  induction l with
  | nil => exact ⟨[], rfl, rfl, fun n => by simp [Dict.get?]⟩
  | cons a l ih =>
    obtain ⟨ps, h1, h0, h2⟩ := ih fun n hn => h n (by simp [hn])
    obtain ⟨m, hm⟩ := Option.isSome_iff_exists.mp (h a (by simp))
    refine ⟨(a, (Wd.getState m, Wd.footprint m)) :: ps, ?_, by rw [← h0]; rfl, fun n => ?_⟩
    · unfold observe lookup
      rw [hm, h1]
      rfl
    · by_cases e : a = n
      · subst e
        simp [Dict.get?, hm]
      · simp only [Dict.get?, if_neg e, h2, List.mem_cons, Ne.symm e, false_or]

theorem same_preUpdate (cfg : Cfg Wd) (ms : Dict N Wd.G) {s s' : St Wd} (h : Same I s s') :
    RelE (Same I) (preUpdate cfg s) (preUpdate { cfg with missions := ms } s') := by
  unfold preUpdate
  have e : need { cfg with missions := ms } s' = need cfg s :=
    (need_congr cfg h.ctx.time h.ctx.lastCmdTs).symm
  rw [e]
  split
  · obtain ⟨ps, h1, h0, h2⟩ := observe_get s.models s.players h.inv.models
    obtain ⟨ps', h1', h0', h2'⟩ := observe_get s'.models s'.players h.inv'.models
    rw [h1, h1']
    have w1 : Dict.Wf ps := by unfold Dict.Wf; rw [h0]; exact h.inv.nodup
    have w2 : Dict.Wf ps' := by unfold Dict.Wf; rw [h0']; exact h.inv'.nodup
    refine ⟨⟨h.ctx.time, h.ctx.terminated, ⟨h.ctx.time, perm_of_get w1 w2 fun n => ?_⟩, h.ctx.lastCmdTs,
      h.ctx.others⟩, h.share, ⟨h.inv.nodup, h.inv.models, h.inv.firstColl, w1⟩,
      ⟨h.inv'.nodup, h.inv'.models, h.inv'.firstColl, w2⟩⟩
    rw [h2, h2', h.models n]
    by_cases hn : n ∈ s.players
    · rw [if_pos hn, if_pos ((h.active n).mp hn)]
    · rw [if_neg hn, if_neg (fun x => hn ((h.active n).mpr x))]
  · exact h

theorem same_update (F : ByName I) (cfg : Cfg Wd) (ms : Dict N Wd.G) {s s' : St Wd} (h : Same I s s') :
    RelE (Same I) (update cfg s) (update { cfg with missions := ms } s') := by
  unfold update
  rw [updateLoop_fold, updateLoop_fold]
  refine RelE.bind (fold_perm (local_updatePlayer F cfg) h.players (by simpa using h.inv.nodup) s s' h) ?_
  intro t t' ht
  have e : need { cfg with missions := ms } t' = need cfg t :=
    (need_congr cfg ht.ctx.time ht.ctx.lastCmdTs).symm
  rw [e]
  split
  · refine ⟨⟨ht.ctx.time, ht.ctx.terminated, ht.ctx.lastObs, ?_, ht.ctx.others⟩, ht.share,
      ⟨ht.inv.nodup, ht.inv.models, ht.inv.firstColl, ht.inv.obs⟩, ⟨ht.inv'.nodup, ht.inv'.models, ht.inv'.firstColl, ht.inv'.obs⟩⟩
    show some s.time = some s'.time
    rw [h.ctx.time]
  · exact ht

theorem same_termination (cfg : Cfg Wd) {ms : Dict N Wd.G} (hms : List.Perm cfg.missions ms) {s s' : St Wd}
    (h : Same I s s') : terminationCondition cfg s = terminationCondition { cfg with missions := ms } s' := by
  have e1 : collTimer cfg s = collTimer { cfg with missions := ms } s' := by
    unfold collTimer; rw [h.firstColl, h.ctx.time]
  have e2 : s.players.isEmpty = s'.players.isEmpty := h.players.isEmpty_eq
  have e3 : List.isEmpty cfg.missions = List.isEmpty ms := hms.isEmpty_eq
  have e4 : (Dict.keys cfg.missions).all (fun p => decide (p ∉ s.players)) =
      (Dict.keys ms).all (fun p => decide (p ∉ s'.players)) := by
    rw [Bool.eq_iff_iff, List.all_eq_true, List.all_eq_true]
    have hk : (Dict.keys cfg.missions).Perm (Dict.keys ms) := hms.map _
    constructor <;> intro x p hp
    · have := x p (hk.mem_iff.mpr hp)
      simpa [h.active p] using this
    · have := x p (hk.mem_iff.mp hp)
      simpa [h.active p] using this
  unfold terminationCondition
  simp only [e1, e2, e3, e4, h.ctx.time]

/-- A step up to the test of the pairs of players; the flag tells whether the simulation has ended. -/
def untilPairs (cfg : Cfg Wd) (s : St Wd) : Except SimErr (Bool × St Wd) := do
  let s1 ← preUpdate cfg s
  let s2 ← update cfg s1
  let s3 ← removeLoop { s2 with time := s2.time + cfg.dt } cfg.missions
  let s4 : St Wd := { s3 with terminated := terminationCondition cfg s3 }
  if s4.terminated then return (true, s4)
  else do
    let s5 ← envLoop s4 s4.players
    return (false, s5)

theorem step_eq (cfg : Cfg Wd) (s : St Wd) : step cfg s = untilPairs cfg s >>= fun r =>
    if r.1 then .ok r.2 else pairLoop r.2 (combinations2 r.2.players) := by
  unfold step postUpdate untilPairs
  simp only [bind_assoc]
  congr 1; funext s1
  congr 1; funext s2
  congr 1; funext s3
  split
  · rfl
  · simp only [bind_assoc, pure_bind]
    rfl

theorem same_untilPairs (F : ByName I) (cfg : Cfg Wd) (hw : Dict.Wf cfg.missions) {ms : Dict N Wd.G}
    (hms : List.Perm cfg.missions ms) {s s' : St Wd} (h : Same I s s') :
    RelE (fun a b => a.1 = b.1 ∧ Same I a.2 b.2) (untilPairs cfg s)
      (untilPairs { cfg with missions := ms } s') := by
  unfold untilPairs
  refine (same_preUpdate cfg ms h).bind fun t t' ht => ?_
  refine (same_update F cfg ms ht).bind fun u u' hu => ?_
  have hv : Same I { u with time := u.time + cfg.dt } { u' with time := u'.time + cfg.dt } := by
    refine ⟨⟨?_, hu.ctx.terminated, hu.ctx.lastObs, hu.ctx.lastCmdTs, hu.ctx.others⟩, hu.share,
      ⟨hu.inv.nodup, hu.inv.models, hu.inv.firstColl, hu.inv.obs⟩, ⟨hu.inv'.nodup, hu.inv'.models, hu.inv'.firstColl, hu.inv'.obs⟩⟩
    show u.time + cfg.dt = u'.time + cfg.dt
    rw [hu.ctx.time]
  rw [removeLoop_fold, removeLoop_fold]
  refine RelE.bind (fold_perm (local_removePlayer F) hms hw _ _ hv) fun v v' hv => ?_
  have e := same_termination cfg hms hv
  have hx : Same I { v with terminated := terminationCondition cfg v }
      { v' with terminated := terminationCondition { cfg with missions := ms } v' } :=
    ⟨⟨hv.ctx.time, e, hv.ctx.lastObs, hv.ctx.lastCmdTs, hv.ctx.others⟩, hv.share,
      ⟨hv.inv.nodup, hv.inv.models, hv.inv.firstColl, hv.inv.obs⟩, ⟨hv.inv'.nodup, hv.inv'.models, hv.inv'.firstColl, hv.inv'.obs⟩⟩
  cases hb : terminationCondition cfg v with
  | true =>
    rw [hb] at e hx
    rw [← e] at hx ⊢
    exact ⟨rfl, hx⟩
  | false =>
    rw [hb] at e hx
    rw [← e] at hx ⊢
    simp only [Bool.false_eq_true, if_false]
    rw [envLoop_fold, envLoop_fold]
    refine RelE.bind (fold_perm (local_envPlayer F) hx.players (by simpa using hx.inv.nodup) _ _ hx) fun y y' hy => ?_
    exact ⟨rfl, hy⟩

/-- No two active players touch. -/
def NoTouch (s : St Wd) : Prop :=
  ∀ p ∈ s.players, ∀ q ∈ s.players, p ≠ q → ∀ m m', Dict.get? s.models p = some m → Dict.get? s.models q = some m' →
    Wd.touch (Wd.footprint m) (Wd.footprint m') = false

theorem combinations2_spec {l : List N} (hl : l.Nodup) : ∀ p ∈ combinations2 l, p.1 ∈ l ∧ p.2 ∈ l ∧ p.1 ≠ p.2 := by
  induction l with
  | nil => intro p hp; simp [combinations2] at hp
  | cons a l ih =>
    intro p hp
    rw [List.nodup_cons] at hl
    simp only [combinations2, List.mem_append, List.mem_map] at hp
    rcases hp with ⟨b, hb, rfl⟩ | hp
    · exact ⟨by simp, by simp [hb], fun e => hl.1 (by have e : a = b := e; rw [e]; exact hb)⟩
    · obtain ⟨h1, h2, h3⟩ := ih hl.2 p hp
      exact ⟨by simp [h1], by simp [h2], h3⟩

theorem pairLoop_clear (l : List (N × N)) : ∀ s : St Wd, Listed s → NoTouch s →
    (∀ p ∈ l, p.1 ∈ s.players ∧ p.2 ∈ s.players ∧ p.1 ≠ p.2) →
    ∃ tr, pairLoop s l = .ok { s with trace := tr } := by
  induction l with
  | nil => exact fun s _ _ _ => ⟨s.trace, rfl⟩
  | cons a l ih =>
    intro s hi hn hl
    obtain ⟨p, q⟩ := a
    obtain ⟨h1, h2, h3⟩ := hl (p, q) (by simp)
    obtain ⟨m, hm⟩ := Option.isSome_iff_exists.mp (hi.models p h1)
    obtain ⟨m', hm'⟩ := Option.isSome_iff_exists.mp (hi.models q h2)
    have e : checkPair s p q = .ok { s with trace := s.trace ++ [.pair s.time p q] } := by
      unfold checkPair lookup
      rw [hm, hm']
      show (if Wd.touch (Wd.footprint m) (Wd.footprint m') = true then _ else _) = _
      rw [hn p h1 q h2 h3 m m' hm hm']
      rfl
    obtain ⟨tr, h⟩ := ih { s with trace := s.trace ++ [.pair s.time p q] } ⟨hi.nodup, hi.models, hi.firstColl, hi.obs⟩ hn
      fun x hx => hl x (by simp [hx])
    refine ⟨tr, ?_⟩
    unfold pairLoop
    rw [e]
    exact h

/-- No two players touch when the pairs are tested, in the next `fuel` steps. -/
def Clear (cfg : Cfg Wd) : Nat → St Wd → Prop
  | 0, _ => True
  | fuel + 1, s => s.terminated = false →
      (∀ t, untilPairs cfg s = .ok (false, t) → NoTouch t) ∧ ∀ u, step cfg s = .ok u → Clear cfg fuel u

theorem NoTouch.same {s s' : St Wd} (h : Same I s s') (hn : NoTouch s) : NoTouch s' := by
  intro p hp q hq hpq m m' hm hm'
  exact hn p ((h.active p).mpr hp) q ((h.active q).mpr hq) hpq m m' ((h.models p).trans hm) ((h.models q).trans hm')

theorem same_step (F : ByName I) (cfg : Cfg Wd) (hw : Dict.Wf cfg.missions) {ms : Dict N Wd.G}
    (hms : List.Perm cfg.missions ms) {s s' : St Wd} (h : Same I s s')
    (hc : ∀ t, untilPairs cfg s = .ok (false, t) → NoTouch t) :
    RelE (Same I) (step cfg s) (step { cfg with missions := ms } s') := by
  rw [step_eq, step_eq]
  have hu := same_untilPairs F cfg hw hms h
  cases e : untilPairs cfg s with
  | error x =>
    rw [e] at hu
    cases e' : untilPairs { cfg with missions := ms } s' with
    | error _ => trivial
    | ok _ => rw [e'] at hu; exact (hu : False).elim
  | ok r =>
    rw [e] at hu
    cases e' : untilPairs { cfg with missions := ms } s' with
    | error _ => rw [e'] at hu; exact (hu : False).elim
    | ok r' =>
      rw [e'] at hu
      obtain ⟨b, t⟩ := r
      obtain ⟨b', t'⟩ := r'
      obtain ⟨h1, h2⟩ : b = b' ∧ Same I t t' := hu
      subst h1
      cases b with
      | true => exact h2
      | false =>
        have hn := hc t e
        have hn' := NoTouch.same h2 hn
        obtain ⟨tr, ht⟩ := pairLoop_clear _ t h2.inv hn (combinations2_spec h2.inv.nodup)
        obtain ⟨tr', ht'⟩ := pairLoop_clear _ t' h2.inv' hn' (combinations2_spec h2.inv'.nodup)
        show RelE (Same I) (pairLoop t (combinations2 t.players)) (pairLoop t' (combinations2 t'.players))
        rw [ht, ht']
        exact ⟨⟨h2.ctx.time, h2.ctx.terminated, h2.ctx.lastObs, h2.ctx.lastCmdTs, h2.ctx.others⟩, h2.share,
          ⟨h2.inv.nodup, h2.inv.models, h2.inv.firstColl, h2.inv.obs⟩, ⟨h2.inv'.nodup, h2.inv'.models, h2.inv'.firstColl, h2.inv'.obs⟩⟩

/-- Both unfinished, both failed, or both finished with related results. -/
def RelRun {α β : Type} (R : α → β → Prop) : Option (Except SimErr α) → Option (Except SimErr β) → Prop
  | none, none => True
  | some x, some y => RelE R x y
  | _, _ => False

theorem same_loop (F : ByName I) (cfg : Cfg Wd) (hw : Dict.Wf cfg.missions) {ms : Dict N Wd.G}
    (hms : List.Perm cfg.missions ms) (fuel : Nat) : ∀ s s' : St Wd, Same I s s' → Clear cfg fuel s →
    RelRun (Same I) (loop cfg fuel s) (loop { cfg with missions := ms } fuel s') := by
  induction fuel with
  | zero =>
    intro s s' h _
    unfold loop
    rw [← h.ctx.terminated]
    split
    · exact h
    · trivial
  | succ k ih =>
    intro s s' h hc
    unfold loop
    rw [← h.ctx.terminated]
    cases ht : s.terminated with
    | true => exact h
    | false =>
      have hs := same_step F cfg hw hms h (hc ht).1
      simp only [Bool.false_eq_true, if_false]
      cases e : step cfg s with
      | error x =>
        rw [e] at hs
        cases e' : step { cfg with missions := ms } s' with
        | error _ => trivial
        | ok _ => rw [e'] at hs; exact (hs : False).elim
      | ok u =>
        rw [e] at hs
        cases e' : step { cfg with missions := ms } s' with
        | error _ => rw [e'] at hs; exact (hs : False).elim
        | ok u' =>
          rw [e'] at hs
          have hs : Same I u u' := hs
          exact ih u u' hs ((hc ht).2 u e)

/-- The entry of a player in the log, if it can be written. -/
def entry (logger : Dict N (PlayerLogger Wd)) (n : N) : Option (PlayerLog Wd) :=
  match Dict.get? logger n with
  | none => none
  | some lg => match lg.asSequence with
    | .ok q => some q
    | .error _ => none

theorem writeLog_ok (logger : Dict N (PlayerLogger Wd)) (l : List N) :
    ∀ log : Dict N (PlayerLog Wd), (∀ n ∈ l, (entry logger n).isSome) →
      ∃ r, writeLog logger l log = .ok r ∧ ∀ n, Dict.get? r n = if n ∈ l then entry logger n else Dict.get? log n := by
  induction l with
  | nil => exact fun log _ => ⟨log, rfl, fun n => by simp⟩
  | cons a l ih =>
    intro log h
    obtain ⟨q, hq⟩ := Option.isSome_iff_exists.mp (h a (by simp))
    obtain ⟨r, h1, h2⟩ := ih (Dict.set log a q) fun n hn => h n (by simp [hn])
    refine ⟨r, ?_, fun n => ?_⟩
    · unfold entry at hq
      unfold writeLog lookup
      cases hg : Dict.get? logger a with
      | none => rw [hg] at hq; cases hq
      | some lg =>
        rw [hg] at hq
        simp only at hq
        show (match lg.asSequence with | .error e => _ | .ok l => _) = _
        cases hs : lg.asSequence with
        | error e => rw [hs] at hq; cases hq
        | ok q' =>
          rw [hs] at hq
          injection hq with hq
          subst hq
          exact h1
    · rw [h2 n, Dict.get?_set]
      by_cases hn : n ∈ l
      · simp [hn]
      · by_cases e : a = n
        · subst e; simp [hn, hq]
        · simp [hn, e, Ne.symm e]

theorem writeLog_error (logger : Dict N (PlayerLogger Wd)) (l : List N) :
    ∀ log : Dict N (PlayerLog Wd), (∃ n ∈ l, entry logger n = none) → ∃ e, writeLog logger l log = .error e := by
  induction l with
  | nil => rintro log ⟨n, hn, -⟩; cases hn
  | cons a l ih =>
    rintro log ⟨n, hn, he⟩
    unfold writeLog lookup
    cases hg : Dict.get? logger a with
    | none => exact ⟨_, rfl⟩
    | some lg =>
      cases hs : lg.asSequence with
      | error e =>
        refine ⟨.logging e, ?_⟩
        show (match lg.asSequence with | .error e => _ | .ok l => _) = _
        rw [hs]
      | ok q =>
        have : ∃ e, writeLog logger l (Dict.set log a q) = .error e := ?_
        · obtain ⟨e, he'⟩ := this
          refine ⟨e, ?_⟩
          show (match lg.asSequence with | .error e => _ | .ok l => _) = _
          rw [hs]
          exact he'
        refine ih _ ⟨n, ?_, he⟩
        rcases List.mem_cons.mp hn with e | hn
        · subst e
          unfold entry at he
          rw [hg] at he
          simp only [hs] at he
          cases he
        · exact hn

/-- Both logs have the same entries. -/
def LogEq (l l' : Dict N (PlayerLog Wd)) : Prop := ∀ n, Dict.get? l n = Dict.get? l' n

theorem same_writeLog {s s' : St Wd} (h : Same I s s') {log log' : Dict N (PlayerLog Wd)} (hl : LogEq log log') :
    RelE LogEq (writeLog s.logger (Dict.keys s.models) log) (writeLog s'.logger (Dict.keys s'.models) log') := by
  have he : ∀ n, entry s.logger n = entry s'.logger n := fun n => by unfold entry; rw [h.logger n]
  have hk : ∀ n, n ∈ Dict.keys s.models ↔ n ∈ Dict.keys s'.models := fun n => by
    rw [← Dict.get?_isSome_iff, ← Dict.get?_isSome_iff, h.models n]
  by_cases ha : ∀ n ∈ Dict.keys s.models, (entry s.logger n).isSome
  · obtain ⟨r, h1, h2⟩ := writeLog_ok s.logger _ log ha
    obtain ⟨r', h1', h2'⟩ := writeLog_ok s'.logger (Dict.keys s'.models) log' fun n hn => he n ▸ ha n ((hk n).mpr hn)
    rw [h1, h1']
    intro n
    rw [h2, h2', he n, hl n]
    by_cases hn : n ∈ Dict.keys s.models
    · rw [if_pos hn, if_pos ((hk n).mp hn)]
    · rw [if_neg hn, if_neg (fun x => hn ((hk n).mpr x))]
  · push Not at ha
    obtain ⟨n, hn, hx⟩ := ha
    have hx : entry s.logger n = none := by simpa using hx
    obtain ⟨e, h1⟩ := writeLog_error s.logger _ log ⟨n, hn, hx⟩
    obtain ⟨e', h1'⟩ := writeLog_error s'.logger (Dict.keys s'.models) log' ⟨n, (hk n).mp hn, he n ▸ hx⟩
    rw [h1, h1']
    trivial

/-- The same context, with models, players and leftovers of earlier runs in another order. -/
structure Reordered (s s' : St Wd) : Prop where
  players : s.players.Perm s'.players
  models : ∀ n, Dict.get? s.models n = Dict.get? s'.models n
  agents : s.w = s'.w
  lastCmds : ∀ n, Dict.get? s.lastCmds n = Dict.get? s'.lastCmds n
  logger : ∀ n, Dict.get? s.logger n = Dict.get? s'.logger n
  obsTime : s.lastObs.time = s'.lastObs.time
  obs : List.Perm s.lastObs.players s'.lastObs.players
  wf : Dict.Wf s.lastObs.players

/-- Two outcomes that differ in orders only: the same time, models, agents, reports, log entries and players left. -/
structure SameUpToOrder (r r' : St Wd × Dict N (PlayerLog Wd)) : Prop where
  time : r.1.time = r'.1.time
  models : ∀ n, Dict.get? r.1.models n = Dict.get? r'.1.models n
  agents : r.1.w = r'.1.w
  players : r.1.players.Perm r'.1.players
  reports : r.1.reports.Perm r'.1.reports
  firstColl : r.1.firstColl = r'.1.firstColl
  log : ∀ n, Dict.get? r.2 n = Dict.get? r'.2 n

theorem same_of_fresh {s s' : St Wd} (hf : Fresh s) (hf' : Fresh s') (h : Reordered s s') : Same I s s' := by
  have inv : ∀ s : St Wd, Fresh s → Dict.Wf s.lastObs.players → Listed s := fun s hf hw => ⟨hf.players, fun n hn =>
    (Dict.get?_isSome_iff _ _).mpr ((hf.keys n).mp hn), by rw [hf.firstColl, hf.reports]; rfl, hw⟩
  have hr : s.reports = s'.reports := hf.reports.trans hf'.reports.symm
  refine ⟨⟨hf.time.trans hf'.time.symm, hf.terminated.trans hf'.terminated.symm, ⟨h.obsTime, h.obs⟩,
    hf.lastCmdTs.trans hf'.lastCmdTs.symm, by unfold reportsOf; rw [hr]⟩, fun n => ?_,
    inv s hf h.wf, inv s' hf' ((h.obs.map Prod.fst).nodup_iff.mp h.wf)⟩
  have e : (n ∈ s.players) = (n ∈ s'.players) := propext h.players.mem_iff
  unfold share reportsOf
  rw [e, hr]
  congr 1
  exact comp_ext (h.models n) (h.logger n) (h.lastCmds n) (by show I.get s.w n = I.get s'.w n; rw [h.agents])

/-- **C155.** Two simulations that list the same players and missions in different orders, with agents that look
players up by name and have memories of their own, and in which no two players touch: both are still running, both
fail, or both end with the same time, models, agents, collision reports and log. Collisions with walls are allowed. -/
theorem C155_run_partial (F : ByName I) (cfg : Cfg Wd) (hw : Dict.Wf cfg.missions) (ms : Dict N Wd.G)
    (hms : List.Perm cfg.missions ms) (fuel : Nat) (s s' : St Wd) (hf : Fresh s) (hf' : Fresh s')
    (h : Reordered s s') (log log' : Dict N (PlayerLog Wd)) (hl : ∀ n, Dict.get? log n = Dict.get? log' n)
    (hc : ∀ s1, initLoop s s.players = .ok s1 → Clear cfg fuel s1) :
    RelRun SameUpToOrder (run cfg fuel s log) (run { cfg with missions := ms } fuel s' log') := by
  have h0 : Same I s s' := same_of_fresh hf hf' h
  have hi : RelE (Same I) (initLoop s s.players) (initLoop s' s'.players) := by
    rw [initLoop_fold, initLoop_fold]
    exact fold_perm (local_initPlayer F) h0.players (by simpa using h0.inv.nodup) s s' h0
  unfold run
  cases e : initLoop s s.players with
  | error x =>
    rw [e] at hi
    cases e' : initLoop s' s'.players with
    | error _ => trivial
    | ok _ => rw [e'] at hi; exact (hi : False).elim
  | ok s1 =>
    rw [e] at hi
    cases e' : initLoop s' s'.players with
    | error _ => rw [e'] at hi; exact (hi : False).elim
    | ok s1' =>
      rw [e'] at hi
      have hlp := same_loop F cfg hw hms fuel s1 s1' hi (hc s1 e)
      simp only
      cases e2 : loop cfg fuel s1 with
      | none =>
        rw [e2] at hlp
        cases e2' : loop { cfg with missions := ms } fuel s1' with
        | none => trivial
        | some _ => rw [e2'] at hlp; exact (hlp : False).elim
      | some r =>
        rw [e2] at hlp
        cases e2' : loop { cfg with missions := ms } fuel s1' with
        | none => rw [e2'] at hlp; exact (hlp : False).elim
        | some r' =>
          rw [e2'] at hlp
          have hlp : RelE (Same I) r r' := hlp
          cases r <;> cases r'
          · trivial
          · exact (hlp : False).elim
          · exact (hlp : False).elim
          · rename_i t t' _
            have ht : Same I t t' := hlp
            have hwl := same_writeLog ht hl
            simp only
            cases e3 : writeLog t.logger (Dict.keys t.models) log <;>
              cases e3' : writeLog t'.logger (Dict.keys t'.models) log' <;> rw [e3, e3'] at hwl
            · trivial
            · exact (hwl : False).elim
            · exact (hwl : False).elim
            · exact ⟨ht.ctx.time, ht.models, ht.agents, ht.players, ht.reports, ht.firstColl, hwl⟩

/-! ## Examples -/

/-- A test of `Clear`. -/
def clearTest (cfg : Cfg Wd) : Nat → St Wd → Bool
  | 0, _ => true
  | fuel + 1, s => s.terminated ||
      ((match untilPairs cfg s with
        | .ok (false, t) => t.players.all fun p => t.players.all fun q => decide (p = q) ||
            (match Dict.get? t.models p, Dict.get? t.models q with
              | some m, some m' => !Wd.touch (Wd.footprint m) (Wd.footprint m')
              | _, _ => true)
        | _ => true) &&
      (match step cfg s with
        | .ok u => clearTest cfg fuel u
        | .error _ => true))

theorem clear_of_test (cfg : Cfg Wd) (fuel : Nat) : ∀ s : St Wd, clearTest cfg fuel s = true → Clear cfg fuel s := by
  induction fuel with
  | zero => exact fun _ _ => trivial
  | succ k ih =>
    intro s h ht
    simp only [clearTest, ht, Bool.false_or, Bool.and_eq_true] at h
    refine ⟨fun t e => ?_, fun u e => ?_⟩
    · have h1 := h.1
      rw [e] at h1
      intro p hp q hq hpq m m' hm hm'
      have := List.all_eq_true.mp (List.all_eq_true.mp h1 p hp) q hq
      rw [hm, hm'] at this
      simpa [hpq] using this
    · have h2 := h.2
      rw [e] at h2
      exact ih u h2

namespace Toy

/-- The cars of the example do not look at their observations. -/
def byName : ByName independent where
  sense_obs _ _ _ _ h hw := ⟨rfl, h, hw⟩
  cmd_obs _ _ _ _ _ _ := rfl
  initL _ l := .ok l
  init_eq w n := by simp [wd, independent, Except.map]
  goalL _ l g x _ := .ok (l, decide (g ≤ x))
  goal_eq w n g x t := by simp [wd, independent, Except.map]
  query_eq _ _ _ := rfl
  wallL _ l m _ _ := ((l, m), .ok (some 1))
  wall_eq w n m o t := by simp [wd, independent]

/-- Car 0 drives to its goal, car 1 away, car 2 into the wall. -/
def apart : St wd :=
  { start with models := [(0, (0 : ℚ)), (1, (-5 : ℚ)), (2, (28 : ℚ))] }

/-- The same in other orders. -/
def apart' : St wd :=
  { start with models := [(2, (28 : ℚ)), (0, (0 : ℚ)), (1, (-5 : ℚ))], players := [1, 2, 0] }

theorem fresh_apart : Fresh apart where
  time := rfl
  terminated := rfl
  reports := rfl
  firstColl := rfl
  lastCmdTs := rfl
  wfModels := by unfold Dict.Wf; decide
  players := by decide
  keys := by intro n; rfl
  trace := rfl

theorem fresh_apart' : Fresh apart' where
  time := rfl
  terminated := rfl
  reports := rfl
  firstColl := rfl
  lastCmdTs := rfl
  wfModels := by unfold Dict.Wf; decide
  players := by decide
  keys := by
    intro n
    show n ∈ [1, 2, 0] ↔ n ∈ [2, 0, 1]
    simp only [List.mem_cons, List.not_mem_nil, or_false]
    tauto
  trace := rfl

theorem reordered : Reordered apart apart' where
  players := by decide
  models n := get_of_perm (d := apart.models) (by unfold Dict.Wf; decide) (by decide +kernel) n
  agents := rfl
  lastCmds _ := rfl
  logger _ := rfl
  obsTime := rfl
  obs := List.Perm.refl _
  wf := by unfold Dict.Wf; decide

/-- Car 2 hits the wall and the run ends because of that; car 0 has left at its goal. -/
def goals : Cfg wd := { cfg with missions := [(0, (1 : ℚ)), (2, (100 : ℚ))] }

example := C155_run_partial byName goals (by unfold Dict.Wf; decide) [(2, (100 : ℚ)), (0, (1 : ℚ))] (by decide +kernel)
  20 apart apart' fresh_apart fresh_apart' reordered [] [] (fun _ => rfl)
  (fun s1 h => clear_of_test _ _ _ (by
    have e : initLoop apart apart.players = .ok (orElse apart (initLoop apart apart.players)) :=
      eq_ok apart (by decide +kernel)
    rw [e] at h
    injection h with h
    subst h
    decide +kernel))

example : ∃ r, run goals 20 apart [] = some (.ok r) ∧ r.1.players = [1, 2] ∧ r.1.reports.length = 3 := by
  have h : ((run goals 20 apart []).map fun x => x.toOption.map fun r =>
      (r.1.players, r.1.reports.length)) = some (some ([1, 2], 3)) := by decide +kernel
  cases hr : run goals 20 apart [] with
  | none => rw [hr] at h; cases h
  | some x => cases x with
    | error e => rw [hr] at h; cases h
    | ok r =>
      rw [hr] at h
      injection h with h
      injection h with h
      injection h with h1 h2
      exact ⟨r, rfl, h1, h2⟩

end Toy

namespace Chain

/-- Bodies of equal mass on a line, with position and speed; touching bodies continue with their mean speed, as after
a perfectly plastic impact. -/
abbrev wd : World Nat ℚ where
  W := Nat → Unit
  M := ℚ × ℚ
  X := ℚ × ℚ
  P := ℚ
  C := Unit
  I := Unit
  E := Unit
  O := Unit
  D := Unit
  G := Unit
  getState m := m
  footprint m := m.1
  isDyn _ := false
  onInit w _ := .ok w
  sense w _ o := .ok (w, o)
  getCommands w _ _ := .ok (w, (), ())
  getExtra w _ := .ok (w, none)
  update w _ m _ dt := .ok (w, (m.1 + m.2 * dt, m.2))
  fulfilled w _ _ _ _ := .ok (w, false)
  envQuery _ _ := []
  env := 99
  resolveEnv w _ m _ _ := ((w, m), .ok none)
  touch a b := decide (a - b ≤ 1 ∧ b - a ≤ 1)
  resolve w _ m₁ _ m₂ _ := ((w, (m₁.1, (m₁.2 + m₂.2) / 2), (m₂.1, (m₁.2 + m₂.2) / 2)), .ok (some ()))

/-- Every body for itself. -/
def independent : Independent wd Unit where
  get w n := w n
  put w _ _ := w
  get_put_self _ _ _ := rfl
  get_put_ne _ _ _ _ _ := rfl
  ext w w' h := funext h
  senseL _ l o := .ok (l, o)
  sense_eq _ _ _ := rfl
  cmdL _ l _ := .ok (l, (), ())
  cmd_eq _ _ _ := rfl
  extraL _ l := .ok (l, none)
  extra_eq _ _ := rfl
  updL _ l m _ dt := .ok (l, (m.1 + m.2 * dt, m.2))
  upd_eq _ _ _ _ _ := rfl

def byName : ByName independent where
  sense_obs _ _ _ _ h hw := ⟨rfl, h, hw⟩
  cmd_obs _ _ _ _ _ _ := rfl
  initL _ l := .ok l
  init_eq _ _ := rfl
  goalL _ l _ _ _ := .ok (l, false)
  goal_eq _ _ _ _ _ := rfl
  query_eq _ _ _ := rfl
  wallL _ l m _ _ := ((l, m), .ok none)
  wall_eq _ _ _ _ _ := rfl

def cfg : Cfg wd := ⟨1 / 2, 1, 1 / 2, 1, []⟩

/-- Body 0 runs into body 1, which touches body 2. -/
def start (players : List Nat) : St wd where
  models := [(0, (-1 / 2, 1)), (1, (1, 0)), (2, (2, 0))]
  players := players
  w := fun _ => ()
  time := 0
  terminated := false
  reports := []
  firstColl := none
  lastObs := ⟨[], 0⟩
  lastCmdTs := none
  lastCmds := []
  logger := []
  trace := []

theorem fresh (l : List Nat) (hl : l.Nodup) (h : ∀ n, n ∈ l ↔ n ∈ [0, 1, 2]) : Fresh (start l) where
  time := rfl
  terminated := rfl
  reports := rfl
  firstColl := rfl
  lastCmdTs := rfl
  wfModels := by show ([0, 1, 2] : List Nat).Nodup; decide
  players := hl
  keys := h
  trace := rfl

end Chain

/-- **C155, negative.** When three players touch, the order decides how fast they are afterwards: impacts are
resolved one pair after the other in the order of the list. -/
theorem C155_false_chain : ∃ (Wd : World Nat ℚ) (I : Independent Wd Unit) (_ : ByName I) (cfg : Cfg Wd)
    (s s' : St Wd), Fresh s ∧ Fresh s' ∧ Reordered s s' ∧ ∃ r r', run cfg 3 s [] = some (.ok r) ∧
      run cfg 3 s' [] = some (.ok r') ∧ Dict.get? r.1.models 2 ≠ Dict.get? r'.1.models 2 := by
  refine ⟨Chain.wd, Chain.independent, Chain.byName, Chain.cfg, Chain.start [0, 1, 2], Chain.start [2, 1, 0],
    Chain.fresh _ (by decide) (fun _ => Iff.rfl), Chain.fresh _ (by decide) (fun n => by
      simp only [List.mem_cons, List.not_mem_nil, or_false]; tauto),
    ⟨by decide, fun _ => rfl, rfl, fun _ => rfl, fun _ => rfl, rfl, List.Perm.refl _, List.nodup_nil⟩, ?_⟩
  have h1 : ((run Chain.cfg 3 (Chain.start [0, 1, 2]) []).map fun x => x.toOption.map fun r =>
      Dict.get? r.1.models 2) = some (some (some (17 / 8, 1 / 4))) := by decide +kernel
  have h2 : ((run Chain.cfg 3 (Chain.start [2, 1, 0]) []).map fun x => x.toOption.map fun r =>
      Dict.get? r.1.models 2) = some (some (some (2, 0))) := by decide +kernel
  cases hr : run Chain.cfg 3 (Chain.start [0, 1, 2]) [] with
  | none => rw [hr] at h1; cases h1
  | some x => cases x with
    | error e => rw [hr] at h1; cases h1
    | ok r =>
      cases hr' : run Chain.cfg 3 (Chain.start [2, 1, 0]) [] with
      | none => rw [hr'] at h2; cases h2
      | some x => cases x with
        | error e => rw [hr'] at h2; cases h2
        | ok r' =>
          rw [hr] at h1
          rw [hr'] at h2
          injection h1 with h1
          injection h1 with h1
          injection h2 with h2
          injection h2 with h2
          refine ⟨r, r', rfl, rfl, ?_⟩
          simp only at h1 h2
          rw [h1, h2]
          decide +kernel

end Sim
end Verif
