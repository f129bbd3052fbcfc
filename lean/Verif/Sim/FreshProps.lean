import Verif.Sim.RunProps

/-!
# C28: a fresh simulator does not depend on what earlier simulations left behind

The dictionaries `last_commands` and `simlogger` and the last observations are class attributes of
`Simulator` (simulator.py:77-80) and so are shared by all instances.
-/

set_option linter.unusedSectionVars false

namespace Verif
namespace Sim

variable {N K : Type} [DecidableEq N] [Field K] [LinearOrder K] {Wd : World N K}

/-- Same exception, or related results. -/
def RelQ {α β : Type} (R : α → β → Prop) : Except SimErr α → Except SimErr β → Prop
  | .ok a, .ok b => R a b
  | .error e, .error e' => e = e'
  | _, _ => False

theorem RelQ.bind {α β α' β' : Type} {R : α → β → Prop} {R' : α' → β' → Prop}
    {x : Except SimErr α} {y : Except SimErr β} {f : α → Except SimErr α'}
    {g : β → Except SimErr β'} (h : RelQ R x y) (hf : ∀ a b, R a b → RelQ R' (f a) (g b)) :
    RelQ R' (x >>= f) (y >>= g) := by
  cases x <;> cases y
  · exact h
  · exact absurd h id
  · exact absurd h id
  · exact hf _ _ h

theorem RelQ.mono {α β : Type} {R R' : α → β → Prop} {x : Except SimErr α} {y : Except SimErr β}
    (h : RelQ R x y) (hR : ∀ a b, R a b → R' a b) : RelQ R' x y := by
  cases x <;> cases y
  · exact h
  · exact h
  · exact h
  · exact hR _ _ h

theorem RelQ.refl {α : Type} (x : Except SimErr α) : RelQ (· = ·) x x := by
  cases x <;> rfl

/-- The state with other contents of the shared attributes. -/
def swap (s : St Wd) (o : Obs N K Wd.X Wd.P) (c : Dict N Wd.C) (l : Dict N (PlayerLogger Wd)) :
    St Wd := { s with lastObs := o, lastCmds := c, logger := l }

/-- The two states differ only in the shared attributes; the last commands agree on `A`, the loggers
on `P`. -/
structure Twin (A P : N → Prop) (s s' : St Wd) : Prop where
  intro ::
  eq : ∃ o c l, s' = swap s o c l ∧ (∀ n, A n → Dict.get? c n = Dict.get? s.lastCmds n) ∧
    ∀ n, P n → Dict.get? l n = Dict.get? s.logger n

theorem lookup_congr' {α : Type} {d d' : Dict N α} {n : N} (h : Dict.get? d' n = Dict.get? d n) :
    lookup d' n = lookup d n := by unfold lookup; rw [h]

theorem agree_set {α : Type} {Q : N → Prop} {d d' : Dict N α} (n : N) (a : α)
    (h : ∀ x, Q x → Dict.get? d' x = Dict.get? d x) :
    ∀ x, (Q x ∨ x = n) → Dict.get? (Dict.set d' n a) x = Dict.get? (Dict.set d n a) x := by
  intro x hx
  by_cases hxn : x = n
  · subst hxn; rw [Dict.get?_set_self, Dict.get?_set_self]
  · rw [Dict.get?_set_ne _ (Ne.symm hxn), Dict.get?_set_ne _ (Ne.symm hxn)]
    rcases hx with hx | hx
    · exact h x hx
    · exact absurd hx hxn

/-- Parts of the state that the update of a player leaves alone. -/
def Keeps (s t : St Wd) : Prop :=
  t.time = s.time ∧ t.lastCmdTs = s.lastCmdTs ∧ t.players = s.players

/-! ## `update` -/

theorem twin_ask {A P : N → Prop} {s : St Wd} {c : Dict N Wd.C} {l : Dict N (PlayerLogger Wd)}
    (n : N) (hP : P n) (hc : ∀ x, A x → Dict.get? c x = Dict.get? s.lastCmds x)
    (hl : ∀ x, P x → Dict.get? l x = Dict.get? s.logger x) :
    RelQ (fun t t' => Keeps s t ∧ t.lastObs = t'.lastObs ∧ Twin (fun x => A x ∨ x = n) P t t')
      (askPlayer s n) (askPlayer (swap s s.lastObs c l) n) := by
  unfold askPlayer swap
  simp only
  refine (RelQ.refl (liftU (Wd.sense s.w n s.lastObs))).bind ?_
  rintro ⟨w1, o⟩ _ rfl
  refine (RelQ.refl (liftU (Wd.getCommands w1 n o))).bind ?_
  rintro ⟨w2, ci⟩ _ rfl
  rw [lookup_congr' (hl n hP)]
  refine (RelQ.refl (lookup s.logger n)).bind ?_
  rintro lg _ rfl
  refine (RelQ.refl (addLog lg.commands s.time ci.1)).bind ?_
  rintro cm _ rfl
  refine (RelQ.refl (addLog lg.info s.time ci.2)).bind ?_
  rintro inf _ rfl
  refine (RelQ.refl (liftU (Wd.getExtra w2 n))).bind ?_
  rintro ⟨w3, ex⟩ _ rfl
  refine (RelQ.refl (addExtra lg.extra s.time ex)).bind ?_
  rintro extra _ rfl
  refine ⟨⟨rfl, rfl, rfl⟩, rfl, ⟨s.lastObs, _, _, rfl, agree_set n _ hc, ?_⟩⟩
  exact fun x hx => agree_set n _ hl x (Or.inl hx)

theorem need_swap (cfg : Cfg Wd) (s : St Wd) (o c l) : need cfg (swap s o c l) = need cfg s := rfl

theorem twin_updatePlayer {A P : N → Prop} (cfg : Cfg Wd) {s : St Wd} {c : Dict N Wd.C}
    {l : Dict N (PlayerLogger Wd)} (n : N) (hP : P n)
    (hc : ∀ x, A x → Dict.get? c x = Dict.get? s.lastCmds x)
    (hl : ∀ x, P x → Dict.get? l x = Dict.get? s.logger x) (hn : need cfg s = true ∨ A n) :
    RelQ (fun t t' => Keeps s t ∧ t.lastObs = t'.lastObs ∧ Twin (fun x => A x ∨ x = n) P t t')
      (updatePlayer cfg s n) (updatePlayer cfg (swap s s.lastObs c l) n) := by
  unfold updatePlayer
  refine (RelQ.refl (lookup s.models n)).bind ?_
  rintro m _ rfl
  show RelQ _ _ (lookup l n >>= _)
  rw [lookup_congr' (hl n hP)]
  refine (RelQ.refl (lookup s.logger n)).bind ?_
  rintro lg _ rfl
  refine (RelQ.refl (addLog lg.states s.time (Wd.getState m))).bind ?_
  rintro st _ rfl
  have hmaybe : RelQ (fun t t' => Keeps s t ∧ t.lastObs = t'.lastObs ∧
        Twin (fun x => A x ∨ x = n) P t t')
      (maybeAsk cfg { s with logger := Dict.set s.logger n { lg with states := st } } n)
      (maybeAsk cfg (swap { s with logger := Dict.set s.logger n { lg with states := st } }
        s.lastObs c (Dict.set l n { lg with states := st })) n) := by
    have hl' : ∀ x, P x → Dict.get? (Dict.set l n { lg with states := st }) x =
        Dict.get? (Dict.set s.logger n { lg with states := st }) x :=
      fun x hx => agree_set n _ hl x (Or.inl hx)
    unfold maybeAsk
    rw [need_swap]
    have hne : need cfg ({ s with logger := Dict.set s.logger n { lg with states := st } } : St Wd) =
        need cfg s := rfl
    rw [hne]
    cases hnd : need cfg s with
    | true =>
      exact twin_ask (s := { s with logger := Dict.set s.logger n { lg with states := st } }) n hP
        hc hl'
    | false =>
      refine ⟨⟨rfl, rfl, rfl⟩, rfl, ⟨s.lastObs, c, _, rfl, ?_, hl'⟩⟩
      intro x hx
      rcases hx with hx | rfl
      · exact hc x hx
      · rcases hn with hn | hn
        · rw [hnd] at hn; cases hn
        · exact hc x hn
  refine hmaybe.bind ?_
  rintro s2 s2' ⟨hk, ho, ⟨o2, c2, l2, rfl, hc2, hl2⟩⟩
  show RelQ _ _ (lookup c2 n >>= _)
  rw [lookup_congr' (hc2 n (Or.inr rfl))]
  refine (RelQ.refl (lookup s2.lastCmds n)).bind ?_
  rintro cc _ rfl
  refine (RelQ.refl (lookup s2.models n)).bind ?_
  rintro m2 _ rfl
  refine (RelQ.refl (liftU (Wd.update s2.w n m2 cc cfg.dt))).bind ?_
  rintro ⟨w', m'⟩ _ rfl
  exact ⟨hk, ho, ⟨o2, c2, l2, rfl, hc2, hl2⟩⟩

theorem twin_updateLoop {P : N → Prop} (cfg : Cfg Wd) (ns : List N) :
    ∀ {A : N → Prop} (s : St Wd) (c : Dict N Wd.C) (l : Dict N (PlayerLogger Wd)),
      (∀ n ∈ ns, P n) → (∀ x, A x → Dict.get? c x = Dict.get? s.lastCmds x) →
      (∀ x, P x → Dict.get? l x = Dict.get? s.logger x) →
      (∀ n ∈ ns, need cfg s = true ∨ A n) →
      RelQ (fun t t' => Keeps s t ∧ t.lastObs = t'.lastObs ∧ Twin (fun x => A x ∨ x ∈ ns) P t t')
        (updateLoop cfg s ns) (updateLoop cfg (swap s s.lastObs c l) ns) := by
  induction ns with
  | nil =>
    intro A s c l _ hc hl _
    exact ⟨⟨rfl, rfl, rfl⟩, rfl, ⟨s.lastObs, c, l, rfl, fun x hx => by simpa using hc x (by simpa using hx), hl⟩⟩
  | cons n ns ih =>
    intro A s c l hP hc hl hn
    unfold updateLoop
    refine (twin_updatePlayer cfg n (hP n (by simp)) hc hl (hn n (by simp))).bind ?_
    rintro t t' ⟨⟨k1, k2, k3⟩, ho, ⟨o2, c2, l2, rfl, hc2, hl2⟩⟩
    have ho' : o2 = t.lastObs := ho.symm
    subst ho'
    refine (ih (A := fun x => A x ∨ x = n) t c2 l2 (fun x hx => hP x (by simp [hx])) hc2 hl2
      ?_).mono ?_
    · intro x hx
      rw [need_congr cfg k1 k2]
      rcases hn x (by simp [hx]) with h | h
      · exact Or.inl h
      · exact Or.inr (Or.inl h)
    · rintro u u' ⟨⟨j1, j2, j3⟩, hu, ⟨o3, c3, l3, rfl, hc3, hl3⟩⟩
      refine ⟨⟨j1.trans k1, j2.trans k2, j3.trans k3⟩, hu, ⟨o3, c3, l3, rfl, ?_, hl3⟩⟩
      intro x hx
      apply hc3
      rcases hx with hx | hx
      · exact Or.inl (Or.inl hx)
      · rcases List.mem_cons.mp hx with rfl | hx
        · exact Or.inl (Or.inr rfl)
        · exact Or.inr hx

/-! ## A step -/

/-- The relation between the two runs before a step. Either commands have never been requested, or
the observations and the last commands of the active players agree. -/
structure TwinStep (P : N → Prop) (s s' : St Wd) : Prop where
  twin : Twin (fun n => s.lastCmdTs ≠ none ∧ n ∈ s.players) P s s'
  obs : s.lastCmdTs = none ∨ s'.lastObs = s.lastObs
  players : ∀ n ∈ s.players, P n

theorem twin_pre_update {P : N → Prop} (cfg : Cfg Wd) {s s' : St Wd} (h : TwinStep P s s') :
    RelQ (TwinStep P) (preUpdate cfg s >>= update cfg) (preUpdate cfg s' >>= update cfg) := by
  obtain ⟨⟨o, c, l, rfl, hc, hl⟩, hobs, hP⟩ := h
  have hpre : RelQ (fun t t' => ∃ ob, t = { s with lastObs := ob } ∧ t' = swap t ob c l)
      (preUpdate cfg s) (preUpdate cfg (swap s o c l)) := by
    unfold preUpdate
    rw [need_swap]
    cases hnd : need cfg s with
    | true =>
      rw [if_pos rfl, if_pos rfl]
      refine (RelQ.refl (observe s.models s.players)).bind ?_
      rintro ps _ rfl
      exact ⟨⟨ps, s.time⟩, rfl, rfl⟩
    | false =>
      have hne : s.lastCmdTs ≠ none := by
        intro hn; unfold need at hnd; rw [hn] at hnd; cases hnd
      have ho : o = s.lastObs := by
        rcases hobs with h | h
        · exact absurd h hne
        · exact h
      subst ho
      exact ⟨s.lastObs, rfl, rfl⟩
  refine hpre.bind ?_
  rintro t t' ⟨ob, rfl, rfl⟩
  have hnt : ∀ n ∈ s.players, need cfg s = true ∨ (s.lastCmdTs ≠ none ∧ n ∈ s.players) := by
    intro n hn
    by_cases hx : s.lastCmdTs = none
    · left; unfold need; rw [hx]
    · exact Or.inr ⟨hx, hn⟩
  unfold update
  refine (twin_updateLoop cfg s.players ({ s with lastObs := ob } : St Wd) c l hP hc hl hnt).bind ?_
  rintro u u' ⟨⟨k1, k2, k3⟩, ho, ⟨o2, c2, l2, rfl, hc2, hl2⟩⟩
  have ho' : o2 = u.lastObs := ho.symm
  subst ho'
  have hc3 : ∀ n, n ∈ u.players → Dict.get? c2 n = Dict.get? u.lastCmds n := by
    intro n hn
    rw [k3] at hn
    exact hc2 n (Or.inr hn)
  have hP' : ∀ n ∈ u.players, P n := by rw [k3]; exact hP
  by_cases hnu : need cfg u = true
  · rw [if_pos hnu, if_pos ((need_swap cfg u u.lastObs c2 l2).trans hnu)]
    exact ⟨⟨u.lastObs, c2, l2, rfl, fun n hn => hc3 n hn.2, hl2⟩, Or.inr rfl, hP'⟩
  · rw [if_neg hnu, if_neg (by rw [need_swap]; exact hnu)]
    exact ⟨⟨u.lastObs, c2, l2, rfl, fun n hn => hc3 n hn.2, hl2⟩, Or.inr rfl, hP'⟩

theorem twin_removePlayer {P : N → Prop} {s s' : St Wd} (h : TwinStep P s s') (p : N) (g : Wd.G) :
    RelQ (TwinStep P) (removePlayer s p g) (removePlayer s' p g) := by
  obtain ⟨⟨o, c, l, rfl, hc, hl⟩, hobs, hP⟩ := h
  unfold removePlayer
  show RelQ _ _ (if p ∈ s.players then _ else _)
  by_cases hp : p ∈ s.players
  · rw [if_pos hp, if_pos hp]
    refine (RelQ.refl (lookup s.models p)).bind ?_
    rintro m _ rfl
    refine (RelQ.refl (liftU (Wd.fulfilled s.w p g (Wd.getState m) s.time))).bind ?_
    rintro ⟨w', b⟩ _ rfl
    cases b with
    | false =>
      exact ⟨⟨o, c, l, rfl, hc, hl⟩, hobs, hP⟩
    | true =>
      simp only [if_true]
      show RelQ _ _ (lookup l p >>= _)
      rw [lookup_congr' (hl p (hP p hp))]
      refine (RelQ.refl (lookup s.logger p)).bind ?_
      rintro lg _ rfl
      refine (RelQ.refl (addLog lg.states s.time (Wd.getState m))).bind ?_
      rintro st _ rfl
      refine ⟨⟨o, c, _, rfl, ?_, fun x hx => agree_set p _ hl x (Or.inl hx)⟩, hobs, ?_⟩
      · rintro n ⟨h1, h2⟩
        exact hc n ⟨h1, List.mem_of_mem_erase h2⟩
      · intro n hn; exact hP n (List.mem_of_mem_erase hn)
  · rw [if_neg hp, if_neg hp]
    exact ⟨⟨o, c, l, rfl, hc, hl⟩, hobs, hP⟩

theorem twin_removeLoop {P : N → Prop} (gs : Dict N Wd.G) : ∀ {s s' : St Wd}, TwinStep P s s' →
    RelQ (TwinStep P) (removeLoop s gs) (removeLoop s' gs) := by
  induction gs with
  | nil => intro s s' h; exact h
  | cons pg rest ih =>
    intro s s' h
    exact (twin_removePlayer h pg.1 pg.2).bind (fun a b hab => ih hab)

theorem twin_envObstacle {P : N → Prop} {s s' : St Wd} (h : TwinStep P s s') (p : N) (ob : Wd.O) :
    RelQ (TwinStep P) (envObstacle s p ob) (envObstacle s' p ob) := by
  obtain ⟨⟨o, c, l, rfl, hc, hl⟩, hobs, hP⟩ := h
  unfold envObstacle
  refine (RelQ.refl (lookup s.models p)).bind ?_
  rintro m _ rfl
  refine (RelQ.refl (reportOf [p, Wd.env] [p] s.time (Wd.resolveEnv s.w p m ob s.time).2)).bind ?_
  rintro rep _ rfl
  cases rep with
  | none => exact ⟨⟨o, c, l, rfl, hc, hl⟩, hobs, hP⟩
  | some r =>
    by_cases hd : (!Wd.isDyn (Wd.resolveEnv s.w p m ob s.time).1.2) = true
    · simp only [swap, hd, if_true]
      exact ⟨⟨o, c, l, rfl, hc, hl⟩, hobs, hP⟩
    · simp only [swap, hd, if_false, Bool.false_eq_true]
      exact ⟨⟨o, c, l, rfl, hc, hl⟩, hobs, hP⟩

theorem twin_envObstacles {P : N → Prop} (p : N) (os : List Wd.O) : ∀ {s s' : St Wd},
    TwinStep P s s' → RelQ (TwinStep P) (envObstacles p s os) (envObstacles p s' os) := by
  induction os with
  | nil => intro s s' h; exact h
  | cons x rest ih =>
    intro s s' h
    exact (twin_envObstacle h p x).bind (fun a b hab => ih hab)

theorem twin_envLoop {P : N → Prop} (ps : List N) : ∀ {s s' : St Wd},
    TwinStep P s s' → RelQ (TwinStep P) (envLoop s ps) (envLoop s' ps) := by
  induction ps with
  | nil => intro s s' h; exact h
  | cons p rest ih =>
    intro s s' h
    obtain ⟨⟨o, c, l, rfl, hc, hl⟩, hobs, hP⟩ := h
    unfold envLoop
    refine (RelQ.refl (lookup s.models p)).bind ?_
    rintro m _ rfl
    refine (twin_envObstacles (P := P) p (Wd.envQuery s.w (Wd.footprint m))
      (s := { s with trace := s.trace ++ [.env s.time p] })
      (s' := swap { s with trace := s.trace ++ [.env s.time p] } o c l)
      ⟨⟨o, c, l, rfl, hc, hl⟩, hobs, hP⟩).bind (fun a b hab => ih hab)

theorem twin_checkPair {P : N → Prop} {s s' : St Wd} (h : TwinStep P s s') (a b : N) :
    RelQ (TwinStep P) (checkPair s a b) (checkPair s' a b) := by
  obtain ⟨⟨o, c, l, rfl, hc, hl⟩, hobs, hP⟩ := h
  unfold checkPair
  refine (RelQ.refl (lookup s.models a)).bind ?_
  rintro m1 _ rfl
  refine (RelQ.refl (lookup s.models b)).bind ?_
  rintro m2 _ rfl
  simp only
  split
  · refine (RelQ.refl (reportOf [a, b] [a, b] s.time (Wd.resolve s.w a m1 b m2 s.time).2)).bind ?_
    rintro rep _ rfl
    cases rep with
    | none => exact ⟨⟨o, c, l, rfl, hc, hl⟩, hobs, hP⟩
    | some r => exact ⟨⟨o, c, l, rfl, hc, hl⟩, hobs, hP⟩
  · exact ⟨⟨o, c, l, rfl, hc, hl⟩, hobs, hP⟩

theorem twin_pairLoop {P : N → Prop} (ps : List (N × N)) : ∀ {s s' : St Wd},
    TwinStep P s s' → RelQ (TwinStep P) (pairLoop s ps) (pairLoop s' ps) := by
  induction ps with
  | nil => intro s s' h; exact h
  | cons q rest ih =>
    intro s s' h
    exact (twin_checkPair h q.1 q.2).bind (fun a b hab => ih hab)

theorem TwinStep.players_eq {P : N → Prop} {s s' : St Wd} (h : TwinStep P s s') :
    s'.players = s.players := by
  obtain ⟨⟨o, c, l, rfl, _⟩, _⟩ := h; rfl

theorem twin_collide {P : N → Prop} {s s' : St Wd} (h : TwinStep P s s') :
    RelQ (TwinStep P) (envLoop s s.players >>= fun t => pairLoop t (combinations2 t.players))
      (envLoop s' s'.players >>= fun t => pairLoop t (combinations2 t.players)) := by
  rw [h.players_eq]
  refine (twin_envLoop s.players h).bind ?_
  intro u u' hu
  rw [hu.players_eq]
  exact twin_pairLoop _ hu

theorem twin_postUpdate {P : N → Prop} (cfg : Cfg Wd) {s s' : St Wd} (h : TwinStep P s s') :
    RelQ (TwinStep P) (postUpdate cfg s) (postUpdate cfg s') := by
  unfold postUpdate
  have h1 : TwinStep P { s with time := s.time + cfg.dt } { s' with time := s'.time + cfg.dt } := by
    obtain ⟨⟨o, c, l, rfl, hc, hl⟩, hobs, hP⟩ := h
    exact ⟨⟨o, c, l, rfl, hc, hl⟩, hobs, hP⟩
  refine (twin_removeLoop cfg.missions h1).bind ?_
  intro t t' ht
  have ht2 : TwinStep P { t with terminated := terminationCondition cfg t }
      { t' with terminated := terminationCondition cfg t' } ∧
      terminationCondition cfg t' = terminationCondition cfg t := by
    obtain ⟨⟨o, c, l, rfl, hc, hl⟩, hobs, hP⟩ := ht
    exact ⟨⟨⟨o, c, l, rfl, hc, hl⟩, hobs, hP⟩, rfl⟩
  obtain ⟨ht2, hterm⟩ := ht2
  simp only
  rw [hterm] at ht2 ⊢
  split
  · exact ht2
  · exact twin_collide ht2

theorem twin_step {P : N → Prop} (cfg : Cfg Wd) {s s' : St Wd} (h : TwinStep P s s') :
    RelQ (TwinStep P) (step cfg s) (step cfg s') := by
  have h2 := (twin_pre_update cfg h).bind (fun a b hab => twin_postUpdate (cfg := cfg) hab)
  unfold step
  have e : ∀ x : St Wd, (do
      let s1 ← preUpdate cfg x
      let s2 ← update cfg s1
      postUpdate cfg s2) = (preUpdate cfg x >>= update cfg) >>= postUpdate cfg := by
    intro x
    cases preUpdate cfg x <;> rfl
  rw [e s, e s']
  exact h2

/-- Both runs are unfinished, or both end with the same exception or related states. -/
def RelO {α β : Type} (R : α → β → Prop) : Option (Except SimErr α) → Option (Except SimErr β) →
    Prop
  | none, none => True
  | some x, some y => RelQ R x y
  | _, _ => False

theorem twin_loop {P : N → Prop} (cfg : Cfg Wd) (fuel : Nat) : ∀ {s s' : St Wd},
    TwinStep P s s' → RelO (TwinStep P) (loop cfg fuel s) (loop cfg fuel s') := by
  induction fuel with
  | zero =>
    intro s s' h
    have ht : s'.terminated = s.terminated := by
      obtain ⟨⟨o, c, l, rfl, _⟩, _⟩ := h; rfl
    unfold loop
    rw [ht]
    split
    · exact h
    · trivial
  | succ fuel ih =>
    intro s s' h
    have ht : s'.terminated = s.terminated := by
      obtain ⟨⟨o, c, l, rfl, _⟩, _⟩ := h; rfl
    unfold loop
    rw [ht]
    split
    · exact h
    · have hs := twin_step cfg h
      cases h1 : step cfg s <;> cases h2 : step cfg s' <;> rw [h1, h2] at hs
      · exact hs
      · exact absurd hs id
      · exact absurd hs id
      · exact ih hs

theorem twin_init {P : N → Prop} (ns : List N) : ∀ {s s' : St Wd},
    (∃ o c l, s' = swap s o c l ∧ ∀ n, P n → Dict.get? l n = Dict.get? s.logger n) →
    RelQ (fun t t' => Keeps s t ∧ t.models = s.models ∧ ∃ o c l, t' = swap t o c l ∧
        ∀ n, (P n ∨ n ∈ ns) → Dict.get? l n = Dict.get? t.logger n)
      (initLoop s ns) (initLoop s' ns) := by
  induction ns generalizing P with
  | nil =>
    rintro s s' ⟨o, c, l, rfl, hl⟩
    exact ⟨⟨rfl, rfl, rfl⟩, rfl, o, c, l, rfl, fun n hn => hl n (by simpa using hn)⟩
  | cons x rest ih =>
    rintro s s' ⟨o, c, l, rfl, hl⟩
    unfold initLoop
    refine (RelQ.refl (lookup s.models x)).bind ?_
    rintro m _ rfl
    refine (RelQ.refl (liftU (Wd.onInit s.w x))).bind ?_
    rintro w' _ rfl
    refine (ih (P := fun n => P n ∨ n = x) (s := { s with w := w', logger := Dict.set s.logger x {} })
      (s' := { swap s o c l with w := w', logger := Dict.set l x {} }) ?_).mono ?_
    · exact ⟨o, c, _, rfl, agree_set x _ hl⟩
    · rintro t t' ⟨hk, hm, o2, c2, l2, rfl, hl2⟩
      refine ⟨hk, hm, o2, c2, l2, rfl, ?_⟩
      intro n hn
      apply hl2
      rcases hn with hn | hn
      · exact Or.inl (Or.inl hn)
      · rcases List.mem_cons.mp hn with rfl | hn
        · exact Or.inl (Or.inr rfl)
        · exact Or.inr hn

theorem writeLog_congr (d d' : Dict N (PlayerLogger Wd)) (ns : List N) :
    ∀ log : Dict N (PlayerLog Wd), (∀ n ∈ ns, Dict.get? d' n = Dict.get? d n) →
      writeLog d' ns log = writeLog d ns log := by
  induction ns with
  | nil => intro log _; rfl
  | cons n ns ih =>
    intro log h
    unfold writeLog
    rw [lookup_congr' (h n (by simp))]
    congr 1
    funext lg
    cases lg.asSequence with
    | error e => rfl
    | ok q => exact ih _ (fun x hx => h x (by simp [hx]))

/-- What a caller sees of the final state. -/
def SameOutcome (s s' : St Wd) : Prop :=
  s'.models = s.models ∧ s'.players = s.players ∧ s'.w = s.w ∧ s'.time = s.time ∧
    s'.terminated = s.terminated ∧ s'.reports = s.reports ∧ s'.firstColl = s.firstColl

variable [IsStrictOrderedRing K] [FloorSemiring K]

/-- **C28.** Two fresh simulators on the same context, whatever the shared last observation, last
commands and loggers contain, do the same: both are unfinished, or both raise the same exception, or
both return with the same final context and the same log. -/
theorem C28_fresh_independent (cfg : Cfg Wd) (fuel : Nat) (s : St Wd) (hf : Fresh s)
    (hdt : 0 < cfg.dt) (hm : Dict.Wf cfg.missions)
    (o : Obs N K Wd.X Wd.P) (c : Dict N Wd.C) (l : Dict N (PlayerLogger Wd))
    (log : Dict N (PlayerLog Wd)) :
    RelO (fun r r' => SameOutcome r.1 r'.1 ∧ r'.2 = r.2) (run cfg fuel s log)
      (run cfg fuel { s with lastObs := o, lastCmds := c, logger := l } log) := by
  have hi := twin_init (P := fun _ => False) s.players (s := s)
    (s' := { s with lastObs := o, lastCmds := c, logger := l }) ⟨o, c, l, rfl, fun _ h => h.elim⟩
  unfold run
  simp only
  cases h1 : initLoop s s.players <;>
    cases h2 : initLoop ({ s with lastObs := o, lastCmds := c, logger := l } : St Wd) s.players <;>
    rw [h1, h2] at hi
  · exact hi
  · exact absurd hi id
  · exact absurd hi id
  · rename_i t t'
    simp only
    obtain ⟨⟨k1, k2, k3⟩, hmod, o2, c2, l2, rfl, hl2⟩ := hi
    have hready := ((safe_initLoop_fresh s hf).ok h1).1
    have htw : TwinStep (fun n => n ∈ s.players) t (swap t o2 c2 l2) := by
      refine ⟨⟨o2, c2, l2, rfl, ?_, fun n hn => hl2 n (Or.inr hn)⟩, ?_, ?_⟩
      · rintro n ⟨h, _⟩
        rw [k2, hf.lastCmdTs] at h; exact absurd rfl h
      · left; rw [k2, hf.lastCmdTs]
      · intro n hn; rw [k3] at hn; exact hn
    have hlp := twin_loop cfg fuel htw
    cases h3 : loop cfg fuel t with
    | none =>
      cases h4 : loop cfg fuel (swap t o2 c2 l2) with
      | none => trivial
      | some y => rw [h3, h4] at hlp; exact absurd hlp id
    | some x =>
      cases h4 : loop cfg fuel (swap t o2 c2 l2) with
      | none => rw [h3, h4] at hlp; exact absurd hlp id
      | some y =>
        rw [h3, h4] at hlp
        cases x with
        | error e =>
          cases y with
          | error e' => exact hlp
          | ok u' => exact absurd hlp id
        | ok u =>
          cases y with
          | error e' => exact absurd hlp id
          | ok u' =>
            obtain ⟨⟨o3, c3, l3, rfl, hc3, hl3⟩, hobs3, hP3⟩ := hlp
            obtain ⟨σ, j, h0, hj, hex, hend, hterm⟩ := loop_ok fuel t u h3
            rw [← h0] at hready
            have hinv := inv_of_exec (inv_zero cfg σ hready) hdt hm j hex
            have hkeys : ∀ n ∈ Dict.keys u.models, n ∈ s.players := by
              intro n hn
              rw [← hend, hinv.keys, h0, hmod] at hn
              exact (hf.keys n).mpr hn
            simp only [swap]
            rw [writeLog_congr u.logger l3 (Dict.keys u.models) log
              (fun n hn => hl3 n (hkeys n hn))]
            cases writeLog u.logger (Dict.keys u.models) log with
            | error e => rfl
            | ok lg => exact ⟨⟨rfl, rfl, rfl, rfl, rfl, rfl, rfl⟩, rfl⟩

example := C28_fresh_independent Toy.cfg 50 Toy.start Toy.fresh Toy.dt_pos Toy.wf
  ⟨[], 5⟩ [(0, (9 : ℚ))] [] []

/-- **C28.** Without a new `Simulator` object the guarantee is lost: a context run with an object
whose last request was at time 6 of an earlier simulation is not asked for commands at time 0, and
the run ends with a missing key. -/
theorem C28_reuse_counterexample :
    run Toy.cfg 50 { Toy.start with lastCmdTs := some 6, lastCmds := [] } [] = some (.error .key) ∧
      run Toy.cfg 50 Toy.start [] = some (.ok Toy.result) := by
  refine ⟨?_, Toy.run_eq⟩
  have h : (match run Toy.cfg 50 { Toy.start with lastCmdTs := some 6, lastCmds := [] } [] with
      | some (.error .key) => true | _ => false) = true := by decide +kernel
  cases hr : run Toy.cfg 50 { Toy.start with lastCmdTs := some 6, lastCmds := [] } [] with
  | none => rw [hr] at h; cases h
  | some x =>
    rw [hr] at h
    cases x with
    | ok r => cases h
    | error e => cases e <;> first | rfl | cases h

end Sim
end Verif
