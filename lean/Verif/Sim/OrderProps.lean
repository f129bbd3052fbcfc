import Verif.Sim.EventProps

/-!
# C25: the order in which players are processed does not matter for independent agents
-/

set_option linter.unusedSectionVars false

namespace Verif
namespace Sim

variable {N K : Type} [DecidableEq N] [Field K] [LinearOrder K] [IsStrictOrderedRing K]
  {Wd : World N K}

/-- Every agent (with its sensor and model) has a memory of its own and its calls read and write
only that memory. -/
structure Independent (Wd : World N K) (L : Type) where
  get : Wd.W → N → L
  put : Wd.W → N → L → Wd.W
  get_put_self : ∀ w n l, get (put w n l) n = l
  get_put_ne : ∀ w n n' l, n' ≠ n → get (put w n l) n' = get w n'
  ext : ∀ w w', (∀ n, get w n = get w' n) → w = w'
  senseL : N → L → Obs N K Wd.X Wd.P → Except Err (L × Obs N K Wd.X Wd.P)
  sense_eq : ∀ w n o, Wd.sense w n o = (senseL n (get w n) o).map (fun r => (put w n r.1, r.2))
  cmdL : N → L → Obs N K Wd.X Wd.P → Except Err (L × Wd.C × Wd.I)
  cmd_eq : ∀ w n o, Wd.getCommands w n o = (cmdL n (get w n) o).map (fun r => (put w n r.1, r.2))
  extraL : N → L → Except Err (L × Option Wd.E)
  extra_eq : ∀ w n, Wd.getExtra w n = (extraL n (get w n)).map (fun r => (put w n r.1, r.2))
  updL : N → L → Wd.M → Wd.C → K → Except Err (L × Wd.M)
  upd_eq : ∀ w n m c dt, Wd.update w n m c dt =
    (updL n (get w n) m c dt).map (fun r => (put w n r.1, r.2))

namespace Independent

variable {L : Type} (I : Independent Wd L)

theorem put_put (w : Wd.W) (n : N) (l l' : L) : I.put (I.put w n l) n l' = I.put w n l' := by
  apply I.ext
  intro n'
  by_cases h : n' = n
  · subst h; rw [I.get_put_self, I.get_put_self]
  · rw [I.get_put_ne _ _ _ _ h, I.get_put_ne _ _ _ _ h, I.get_put_ne _ _ _ _ h]

end Independent

/-- What the state stores about one player. -/
structure Comp (Wd : World N K) (L : Type) where
  model : Option Wd.M
  logger : Option (PlayerLogger Wd)
  cmd : Option Wd.C
  mem : L

/-- The components of player `n`. -/
def comp {L : Type} (I : Independent Wd L) (s : St Wd) (n : N) : Comp Wd L :=
  ⟨Dict.get? s.models n, Dict.get? s.logger n, Dict.get? s.lastCmds n, I.get s.w n⟩

/-- Everything else that matters when a player is updated. -/
structure SameCtx (s s' : St Wd) : Prop where
  time : s'.time = s.time
  lastObs : s'.lastObs = s.lastObs
  lastCmdTs : s'.lastCmdTs = s.lastCmdTs

theorem lookup_congr {α : Type} {d d' : Dict N α} {n : N} (h : Dict.get? d n = Dict.get? d' n) :
    lookup d n = lookup d' n := by unfold lookup; rw [h]

/-- Both fail, or both succeed with related results. -/
def RelE {α β : Type} (R : α → β → Prop) : Except SimErr α → Except SimErr β → Prop
  | .ok a, .ok b => R a b
  | .error _, .error _ => True
  | _, _ => False

theorem RelE.bind {α β α' β' : Type} {R : α → β → Prop} {R' : α' → β' → Prop}
    {x : Except SimErr α} {y : Except SimErr β} {f : α → Except SimErr α'}
    {g : β → Except SimErr β'} (h : RelE R x y) (hf : ∀ a b, R a b → RelE R' (f a) (g b)) :
    RelE R' (x >>= f) (y >>= g) := by
  cases x <;> cases y
  · trivial
  · exact absurd h id
  · exact absurd h id
  · exact hf _ _ h

theorem RelE.refl {α : Type} (x : Except SimErr α) : RelE (· = ·) x x := by
  cases x
  · trivial
  · rfl

theorem relE_addLog {α : Type} (b : Builder K α) {t t' : K} (v : α) (h : t' = t) :
    RelE (· = ·) (addLog b t v) (addLog b t' v) := by rw [h]; exact RelE.refl _

theorem relE_addExtra (b : Builder K Wd.E) {t t' : K} (e : Option Wd.E) (h : t' = t) :
    RelE (· = ·) (addExtra b t e) (addExtra b t' e) := by rw [h]; exact RelE.refl _

theorem relE_sense {L : Type} (I : Independent Wd L) {w w' : Wd.W} {n : N}
    {o o' : Obs N K Wd.X Wd.P} (ho : o' = o) (h : I.get w n = I.get w' n) :
    RelE (fun a b => (∃ l, a.1 = I.put w n l ∧ b.1 = I.put w' n l) ∧ a.2 = b.2)
      (liftU (Wd.sense w n o)) (liftU (Wd.sense w' n o')) := by
  rw [ho, I.sense_eq, I.sense_eq, ← h]
  cases I.senseL n (I.get w n) o with
  | error e => trivial
  | ok r => exact ⟨⟨r.1, rfl, rfl⟩, rfl⟩

theorem relE_cmd {L : Type} (I : Independent Wd L) {w w' : Wd.W} {n : N}
    (o : Obs N K Wd.X Wd.P) (h : I.get w n = I.get w' n) :
    RelE (fun a b => (∃ l, a.1 = I.put w n l ∧ b.1 = I.put w' n l) ∧ a.2 = b.2)
      (liftU (Wd.getCommands w n o)) (liftU (Wd.getCommands w' n o)) := by
  rw [I.cmd_eq, I.cmd_eq, ← h]
  cases I.cmdL n (I.get w n) o with
  | error e => trivial
  | ok r => exact ⟨⟨r.1, rfl, rfl⟩, rfl⟩

theorem relE_extra {L : Type} (I : Independent Wd L) {w w' : Wd.W} {n : N}
    (h : I.get w n = I.get w' n) :
    RelE (fun a b => (∃ l, a.1 = I.put w n l ∧ b.1 = I.put w' n l) ∧ a.2 = b.2)
      (liftU (Wd.getExtra w n)) (liftU (Wd.getExtra w' n)) := by
  rw [I.extra_eq, I.extra_eq, ← h]
  cases I.extraL n (I.get w n) with
  | error e => trivial
  | ok r => exact ⟨⟨r.1, rfl, rfl⟩, rfl⟩

theorem relE_upd {L : Type} (I : Independent Wd L) {w w' : Wd.W} {n : N} (m : Wd.M) (c : Wd.C)
    (dt : K) (h : I.get w n = I.get w' n) :
    RelE (fun a b => (∃ l, a.1 = I.put w n l ∧ b.1 = I.put w' n l) ∧ a.2 = b.2)
      (liftU (Wd.update w n m c dt)) (liftU (Wd.update w' n m c dt)) := by
  rw [I.upd_eq, I.upd_eq, ← h]
  cases I.updL n (I.get w n) m c dt with
  | error e => trivial
  | ok r => exact ⟨⟨r.1, rfl, rfl⟩, rfl⟩

/-- Two runs of the update of player `n`, from states that agree on that player. `s0`, `s0'` are the
states before, `s`, `s'` the states reached. -/
structure Agree {L : Type} (I : Independent Wd L) (n : N) (s0 s0' s s' : St Wd) : Prop where
  ctx : SameCtx s s'
  ctx0 : SameCtx s0 s
  ctx0' : SameCtx s0' s'
  same : comp I s n = comp I s' n
  others : ∀ n', n' ≠ n → comp I s n' = comp I s0 n'
  others' : ∀ n', n' ≠ n → comp I s' n' = comp I s0' n'

theorem SameCtx.refl (s : St Wd) : SameCtx s s := ⟨rfl, rfl, rfl⟩

theorem SameCtx.trans {a b c : St Wd} (h1 : SameCtx a b) (h2 : SameCtx b c) : SameCtx a c :=
  ⟨h2.time.trans h1.time, h2.lastObs.trans h1.lastObs, h2.lastCmdTs.trans h1.lastCmdTs⟩

theorem comp_ext {L : Type} {a b : Comp Wd L} (h1 : a.model = b.model) (h2 : a.logger = b.logger)
    (h3 : a.cmd = b.cmd) (h4 : a.mem = b.mem) : a = b := by
  cases a; cases b; simp only at h1 h2 h3 h4; subst h1 h2 h3 h4; rfl

theorem relE_askPlayer {L : Type} (I : Independent Wd L) (n : N) (s s' : St Wd)
    (hctx : SameCtx s s') (h : comp I s n = comp I s' n) :
    RelE (Agree I n s s') (askPlayer s n) (askPlayer s' n) := by
  have hm : Dict.get? s.models n = Dict.get? s'.models n := congrArg Comp.model h
  have hlg : Dict.get? s.logger n = Dict.get? s'.logger n := congrArg Comp.logger h
  have hw : I.get s.w n = I.get s'.w n := congrArg Comp.mem h
  unfold askPlayer
  refine (relE_sense I hctx.lastObs hw).bind ?_
  rintro ⟨w1, o⟩ ⟨w1', o'⟩ ⟨⟨l, h1, h1'⟩, h2⟩
  simp only at h1 h1' h2
  subst h1 h1' h2
  refine (relE_cmd I o (by rw [I.get_put_self, I.get_put_self])).bind ?_
  rintro ⟨w2, ci⟩ ⟨w2', ci'⟩ ⟨⟨l2, h1, h1'⟩, h2⟩
  simp only at h1 h1' h2
  subst h1 h1' h2
  rw [lookup_congr hlg]
  refine (RelE.refl (lookup s'.logger n)).bind ?_
  rintro lg _ rfl
  refine (relE_addLog lg.commands ci.1 hctx.time).bind ?_
  rintro cm _ rfl
  refine (relE_addLog lg.info ci.2 hctx.time).bind ?_
  rintro inf _ rfl
  refine (relE_extra I (by rw [I.get_put_self, I.get_put_self])).bind ?_
  rintro ⟨w3, ex⟩ ⟨w3', ex'⟩ ⟨⟨l3, h1, h1'⟩, h2⟩
  simp only at h1 h1' h2
  subst h1 h1' h2
  refine (relE_addExtra lg.extra ex hctx.time).bind ?_
  rintro extra _ rfl
  simp only [I.put_put]
  refine ⟨⟨hctx.time, hctx.lastObs, hctx.lastCmdTs⟩, ⟨rfl, rfl, rfl⟩, ⟨rfl, rfl, rfl⟩, ?_, ?_, ?_⟩
  · refine comp_ext hm ?_ ?_ ?_
    · exact (Dict.get?_set_self _ _ _).trans (Dict.get?_set_self _ _ _).symm
    · exact (Dict.get?_set_self _ _ _).trans (Dict.get?_set_self _ _ _).symm
    · exact (I.get_put_self _ _ _).trans (I.get_put_self _ _ _).symm
  · intro n' hn'
    exact comp_ext rfl (Dict.get?_set_ne _ (Ne.symm hn') _) (Dict.get?_set_ne _ (Ne.symm hn') _)
      (I.get_put_ne _ _ _ _ hn')
  · intro n' hn'
    exact comp_ext rfl (Dict.get?_set_ne _ (Ne.symm hn') _) (Dict.get?_set_ne _ (Ne.symm hn') _)
      (I.get_put_ne _ _ _ _ hn')

theorem relE_maybeAsk {L : Type} (I : Independent Wd L) (cfg : Cfg Wd) (n : N) (s s' : St Wd)
    (hctx : SameCtx s s') (h : comp I s n = comp I s' n) :
    RelE (Agree I n s s') (maybeAsk cfg s n) (maybeAsk cfg s' n) := by
  unfold maybeAsk
  rw [need_congr cfg hctx.time hctx.lastCmdTs]
  split
  · exact relE_askPlayer I n s s' hctx h
  · exact ⟨hctx, SameCtx.refl _, SameCtx.refl _, h, fun _ _ => rfl, fun _ _ => rfl⟩

theorem relE_updatePlayer {L : Type} (I : Independent Wd L) (cfg : Cfg Wd) (n : N) (s s' : St Wd)
    (hctx : SameCtx s s') (h : comp I s n = comp I s' n) :
    RelE (Agree I n s s') (updatePlayer cfg s n) (updatePlayer cfg s' n) := by
  have hm : Dict.get? s.models n = Dict.get? s'.models n := congrArg Comp.model h
  have hlg : Dict.get? s.logger n = Dict.get? s'.logger n := congrArg Comp.logger h
  have hcmd : Dict.get? s.lastCmds n = Dict.get? s'.lastCmds n := congrArg Comp.cmd h
  have hw : I.get s.w n = I.get s'.w n := congrArg Comp.mem h
  unfold updatePlayer
  rw [lookup_congr hm, lookup_congr hlg]
  refine (RelE.refl (lookup s'.models n)).bind ?_
  rintro m _ rfl
  refine (RelE.refl (lookup s'.logger n)).bind ?_
  rintro lg _ rfl
  refine (relE_addLog lg.states (Wd.getState m) hctx.time).bind ?_
  rintro st _ rfl
  refine (relE_maybeAsk I cfg n
    { s with logger := Dict.set s.logger n { lg with states := st } }
    { s' with logger := Dict.set s'.logger n { lg with states := st } } ⟨hctx.time, hctx.lastObs,
      hctx.lastCmdTs⟩ (comp_ext hm
        ((Dict.get?_set_self _ _ _).trans (Dict.get?_set_self _ _ _).symm) hcmd hw)).bind ?_
  rintro s2 s2' a
  have ha := a.same
  rw [lookup_congr (show Dict.get? s2.lastCmds n = Dict.get? s2'.lastCmds n from
    congrArg Comp.cmd ha), lookup_congr (show Dict.get? s2.models n = Dict.get? s2'.models n from
    congrArg Comp.model ha)]
  refine (RelE.refl (lookup s2'.lastCmds n)).bind ?_
  rintro c _ rfl
  refine (RelE.refl (lookup s2'.models n)).bind ?_
  rintro m2 _ rfl
  refine (relE_upd I m2 c cfg.dt (show I.get s2.w n = I.get s2'.w n from
    congrArg Comp.mem ha)).bind ?_
  rintro ⟨w', m'⟩ ⟨w'', m''⟩ ⟨⟨l, h1, h1'⟩, h2⟩
  simp only at h1 h1' h2
  subst h1 h1' h2
  refine ⟨⟨a.ctx.time, a.ctx.lastObs, a.ctx.lastCmdTs⟩,
    ⟨a.ctx0.time, a.ctx0.lastObs, a.ctx0.lastCmdTs⟩,
    ⟨a.ctx0'.time, a.ctx0'.lastObs, a.ctx0'.lastCmdTs⟩, ?_, ?_, ?_⟩
  · have ha2 : Dict.get? s2.logger n = Dict.get? s2'.logger n := congrArg Comp.logger ha
    have ha3 : Dict.get? s2.lastCmds n = Dict.get? s2'.lastCmds n := congrArg Comp.cmd ha
    refine comp_ext ?_ ha2 ha3 ?_
    · exact (Dict.get?_set_self _ _ _).trans (Dict.get?_set_self _ _ _).symm
    · exact (I.get_put_self _ _ _).trans (I.get_put_self _ _ _).symm
  · intro n' hn'
    have hb := a.others n' hn'
    have hb3 : Dict.get? s2.lastCmds n' = Dict.get? s.lastCmds n' := congrArg Comp.cmd hb
    refine comp_ext ?_ ?_ hb3 ?_
    · exact (Dict.get?_set_ne _ (Ne.symm hn') _).trans (congrArg Comp.model hb)
    · exact (congrArg Comp.logger hb).trans (Dict.get?_set_ne _ (Ne.symm hn') _)
    · exact (I.get_put_ne _ _ _ _ hn').trans (congrArg Comp.mem hb)
  · intro n' hn'
    have hb := a.others' n' hn'
    have hb3 : Dict.get? s2'.lastCmds n' = Dict.get? s'.lastCmds n' := congrArg Comp.cmd hb
    refine comp_ext ?_ ?_ hb3 ?_
    · exact (Dict.get?_set_ne _ (Ne.symm hn') _).trans (congrArg Comp.model hb)
    · exact (congrArg Comp.logger hb).trans (Dict.get?_set_ne _ (Ne.symm hn') _)
    · exact (I.get_put_ne _ _ _ _ hn').trans (congrArg Comp.mem hb)

/-- The result of updating player `n` alone, starting from `s`. -/
def Alone {L : Type} (I : Independent Wd L) (cfg : Cfg Wd) (s : St Wd) (n : N) (r : Comp Wd L) :
    Prop :=
  ∃ s', updatePlayer cfg s n = .ok s' ∧ comp I s' n = r

theorem alone_congr {L : Type} (I : Independent Wd L) {cfg : Cfg Wd} {s s' : St Wd} {n : N}
    {r : Comp Wd L} (hctx : SameCtx s s') (h : comp I s n = comp I s' n)
    (ha : Alone I cfg s n r) : Alone I cfg s' n r := by
  obtain ⟨t, h1, h2⟩ := ha
  have hr := relE_updatePlayer I cfg n s s' hctx h
  rw [h1] at hr
  cases h3 : updatePlayer cfg s' n with
  | error e => rw [h3] at hr; exact absurd hr id
  | ok t' => rw [h3] at hr; exact ⟨t', h3, by rw [← h2]; exact hr.same.symm⟩

/-- The loop does to every player what updating it alone would do. -/
theorem loop_alone {L : Type} (I : Independent Wd L) (cfg : Cfg Wd) (l : List N) :
    ∀ s s1 : St Wd, l.Nodup → updateLoop cfg s l = .ok s1 →
      SameCtx s s1 ∧ (∀ n ∈ l, Alone I cfg s n (comp I s1 n)) ∧
        ∀ n, n ∉ l → comp I s1 n = comp I s n := by
  induction l with
  | nil =>
    intro s s1 _ h
    unfold updateLoop at h
    injection h with h; subst h
    exact ⟨SameCtx.refl _, by simp, fun _ _ => rfl⟩
  | cons n ns ih =>
    intro s s1 hnd h
    rw [List.nodup_cons] at hnd
    unfold updateLoop at h
    cases hu : updatePlayer cfg s n with
    | error e => rw [hu] at h; cases h
    | ok s2 =>
      rw [hu] at h
      have hr := relE_updatePlayer I cfg n s s (SameCtx.refl s) rfl
      rw [hu] at hr
      have hr : Agree I n s s s2 s2 := hr
      obtain ⟨i1, i2, i3⟩ := ih s2 s1 hnd.2 h
      refine ⟨hr.ctx0.trans i1, ?_, ?_⟩
      · intro x hx
        by_cases hxn : x ∈ ns
        · have hne : x ≠ n := fun e => hnd.1 (e ▸ hxn)
          exact alone_congr I ⟨hr.ctx0.time.symm, hr.ctx0.lastObs.symm, hr.ctx0.lastCmdTs.symm⟩
            (hr.others x hne) (i2 x hxn)
        · have : x = n := by simpa [hxn] using hx
          subst this
          exact ⟨s2, hu, (i3 x hxn).symm⟩
      · intro x hx
        simp only [List.mem_cons, not_or] at hx
        rw [i3 x hx.2]; exact hr.others x hx.1

/-- If every player can be updated alone, the loop succeeds. -/
theorem loop_of_alone {L : Type} (I : Independent Wd L) (cfg : Cfg Wd) (l : List N) :
    ∀ s : St Wd, l.Nodup → (∀ n ∈ l, ∃ r, Alone I cfg s n r) → ∃ s1, updateLoop cfg s l = .ok s1 := by
  induction l with
  | nil => intro s _ _; exact ⟨s, rfl⟩
  | cons n ns ih =>
    intro s hnd h
    rw [List.nodup_cons] at hnd
    obtain ⟨r, s2, hu, _⟩ := h n (by simp)
    have hr := relE_updatePlayer I cfg n s s (SameCtx.refl s) rfl
    rw [hu] at hr
    have hr : Agree I n s s s2 s2 := hr
    obtain ⟨s1, h1⟩ := ih s2 hnd.2 (by
      intro x hx
      have hne : x ≠ n := fun e => hnd.1 (e ▸ hx)
      obtain ⟨r, hr'⟩ := h x (by simp [hx])
      exact ⟨r, alone_congr I hr.ctx0 (hr.others x hne).symm hr'⟩)
    refine ⟨s1, ?_⟩
    unfold updateLoop
    rw [hu]
    exact h1

theorem alone_unique {L : Type} (I : Independent Wd L) {cfg : Cfg Wd} {s : St Wd} {n : N}
    {r r' : Comp Wd L} (h : Alone I cfg s n r) (h' : Alone I cfg s n r') : r = r' := by
  obtain ⟨t, h1, h2⟩ := h
  obtain ⟨t', h3, h4⟩ := h'
  rw [h1] at h3; injection h3 with h3; subst h3
  rw [← h2, ← h4]

/-- **C25.** If the agents are independent, processing the players in another order gives the same
models, the same logs, the same last commands and the same agents; in particular updating one
player does not influence what another player observes or does in that step. -/
theorem C25_order_independent {L : Type} (I : Independent Wd L) (cfg : Cfg Wd) (s s1 : St Wd)
    (l l' : List N) (hl : l.Nodup) (hp : l.Perm l') (h : updateLoop cfg s l = .ok s1) :
    ∃ s2, updateLoop cfg s l' = .ok s2 ∧ s2.w = s1.w ∧
      ∀ n, Dict.get? s2.models n = Dict.get? s1.models n ∧
        Dict.get? s2.logger n = Dict.get? s1.logger n ∧
        Dict.get? s2.lastCmds n = Dict.get? s1.lastCmds n := by
  have hl' : l'.Nodup := hp.nodup_iff.mp hl
  obtain ⟨a1, a2, a3⟩ := loop_alone I cfg l s s1 hl h
  obtain ⟨s2, h2⟩ := loop_of_alone I cfg l' s hl'
    (fun n hn => ⟨_, a2 n (hp.mem_iff.mpr hn)⟩)
  obtain ⟨b1, b2, b3⟩ := loop_alone I cfg l' s s2 hl' h2
  have hc : ∀ n, comp I s2 n = comp I s1 n := by
    intro n
    by_cases hn : n ∈ l
    · exact alone_unique I (b2 n (hp.mem_iff.mp hn)) (a2 n hn)
    · rw [a3 n hn, b3 n (fun h => hn (hp.mem_iff.mpr h))]
  refine ⟨s2, h2, I.ext _ _ (fun n => congrArg Comp.mem (hc n)), fun n => ⟨?_, ?_, ?_⟩⟩
  · exact congrArg Comp.model (hc n)
  · exact congrArg Comp.logger (hc n)
  · exact congrArg Comp.cmd (hc n)

/-- The cars of the example are independent. -/
def Toy.independent : Independent Toy.wd Nat where
  get w n := w n
  put w n l := Function.update w n l
  get_put_self w n l := Function.update_self n l w
  get_put_ne w n n' l h := Function.update_of_ne h l w
  ext w w' h := funext h
  senseL _ l o := .ok (l, o)
  sense_eq w n o := by simp [Toy.wd, Except.map]
  cmdL n l _ := .ok (l + 1, Toy.speed n l, l)
  cmd_eq w n o := rfl
  extraL n l := .ok (l, if l = 2 then some 7 else none)
  extra_eq w n := by simp [Toy.wd, Except.map]
  updL n l m c dt := .ok (l, m + c * dt)
  upd_eq w n m c dt := by simp [Toy.wd, Except.map]

example := C25_order_independent Toy.independent Toy.cfg (Toy.σ 0)
  (Toy.orElse (Toy.σ 0) (updateLoop Toy.cfg (Toy.σ 0) [0, 1, 2])) [0, 1, 2] [2, 0, 1]
  (by decide) (by decide) (Toy.eq_ok _ (by decide +kernel))

end Sim
end Verif
