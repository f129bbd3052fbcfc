import Verif.Whole.HistoryProps
import Verif.Seq.Props
import Verif.Perception.FilterProps

/-!
# Recorded runs can be replayed (C108)

The agents of some players are replaced by agents that play the commands logged in an earlier run.
-/

set_option linter.unusedSectionVars false

namespace Verif
namespace Whole

open Sim Coll

variable {N K : Type} [DecidableEq N] [Field K] [LinearOrder K] {F : Iface N K} {sc : Bool}
  {R : Parts N K F.M F.S}

/-- The agents for which `J` holds do what `NPAgent` does with the plan `plan` (agent.py:38-52): they return
the command of the plan at the time of the observation, and no extra objects (30-36). -/
structure Plays (R : Parts N K F.M F.S) (plan : Seq K R.C) (J : R.A → Prop) : Prop where
  onInit : ∀ a n, J a → ∃ a', R.onInit a n = .ok a' ∧ J a'
  ask : ∀ a o c, J a → Agents.npCommands plan o.time = .ok c → ∃ a' i, R.ask a o = .ok (a', c, i) ∧ J a'
  extra : ∀ a, J a → ∃ a', R.extra a = .ok (a', none) ∧ J a'

/-- A state with other agents and another log. -/
def other (s : St (world F sc R)) (as : N → R.A) (lg : Dict N (PlayerLogger (world F sc R))) :
    St (world F sc R) := { s with w := (as, s.w.2), logger := lg }

/-- Logs that differ at most in the extra objects and the computation times. -/
structure LikeLog {Wd : World N K} (p : Prop) (a b : PlayerLogger Wd) : Prop where
  states : b.states = a.states
  commands : b.commands = a.commands
  infoTs : b.info.ts = a.info.ts
  infoVs : b.info.vs.length = a.info.vs.length
  others : ¬p → b = a
  extra : p → b.extra = {}
  len : p → a.commands.ts.length = a.commands.vs.length

/-- The other agents and logs are those of `s` except for the players `S`, whose agents satisfy `J`. -/
structure Like (S : List N) (J : N → R.A → Prop) (s : St (world F sc R)) (as : N → R.A)
    (lg : Dict N (PlayerLogger (world F sc R))) : Prop where
  agents : ∀ n, n ∉ S → as n = s.w.1 n
  played : ∀ n ∈ S, J n (as n)
  logger : ∀ n a, Dict.get? s.logger n = some a → ∃ b, Dict.get? lg n = some b ∧ LikeLog (n ∈ S) a b

/-- What has been logged is the beginning of the plans. -/
def Fits {Wd : World N K} (S : List N) (plan : N → Seq K Wd.C) (s : St Wd) : Prop :=
  ∀ n ∈ S, ∀ lg, Dict.get? s.logger n = some lg →
    lg.commands.ts <+: (plan n).ts ∧ lg.commands.vs <+: (plan n).vs

/-- Logged commands stay. -/
def Grows {Wd : World N K} (s t : St Wd) : Prop :=
  ∀ n lg, Dict.get? s.logger n = some lg → ∃ lg', Dict.get? t.logger n = some lg' ∧
    lg.commands.ts <+: lg'.commands.ts ∧ lg.commands.vs <+: lg'.commands.vs

theorem Grows.refl {Wd : World N K} (s : St Wd) : Grows s s :=
  fun _ lg h => ⟨lg, h, List.prefix_rfl, List.prefix_rfl⟩

theorem Grows.trans {Wd : World N K} {s t u : St Wd} (h : Grows s t) (h' : Grows t u) : Grows s u := by
  intro n lg hl
  obtain ⟨b, h1, h2, h3⟩ := h n lg hl
  obtain ⟨c, h4, h5, h6⟩ := h' n b h1
  exact ⟨c, h4, h2.trans h5, h3.trans h6⟩

theorem Fits.mono {Wd : World N K} {S : List N} {plan : N → Seq K Wd.C} {s t : St Wd} (h : Grows s t)
    (hf : Fits S plan t) : Fits S plan s := by
  intro n hn lg hl
  obtain ⟨b, h1, h2, h3⟩ := h n lg hl
  obtain ⟨h4, h5⟩ := hf n hn b h1
  exact ⟨h2.trans h4, h3.trans h5⟩

theorem addLog_ok {α : Type} {b b' : Builder K α} {t : K} {v : α} :
    addLog b t v = .ok b' ↔ (∀ u, b.ts.getLast? = some u → u < t) ∧ b' = ⟨b.ts ++ [t], b.vs ++ [v]⟩ := by
  unfold addLog Builder.add
  cases hl : b.ts.getLast? with
  | none => simp [eq_comm]
  | some u =>
    by_cases h : t ≤ u
    · simp [h]
    · simp [h, not_le.mp h, eq_comm]

theorem addLog_like {α β : Type} {b b' : Builder K α} {t : K} {v : α} (h : addLog b t v = .ok b')
    (c : Builder K β) (w : β) (hts : c.ts = b.ts) (hvs : c.vs.length = b.vs.length) :
    ∃ c', addLog c t w = .ok c' ∧ c'.ts = b'.ts ∧ c'.vs.length = b'.vs.length := by
  obtain ⟨h1, rfl⟩ := addLog_ok.mp h
  exact ⟨⟨c.ts ++ [t], c.vs ++ [w]⟩, addLog_ok.mpr ⟨by rw [hts]; exact h1, rfl⟩, by simp [hts], by simp [hvs]⟩

theorem grows_set {Wd : World N K} {s t : St Wd} {n : N} {a b : PlayerLogger Wd}
    (ha : Dict.get? s.logger n = some a) (ht : t.logger = Dict.set s.logger n b)
    (h1 : a.commands.ts <+: b.commands.ts) (h2 : a.commands.vs <+: b.commands.vs) : Grows s t := by
  intro k lg hl
  rw [ht]
  by_cases hk : n = k
  · subst hk
    rw [ha] at hl
    injection hl with hl
    subst hl
    exact ⟨b, Dict.get?_set_self _ _ _, h1, h2⟩
  · exact ⟨lg, by rw [Dict.get?_set_ne _ hk]; exact hl, List.prefix_rfl, List.prefix_rfl⟩

theorem grows_ask {Wd : World N K} {s t : St Wd} {n : N} (h : askPlayer s n = .ok t) : Grows s t := by
  unfold askPlayer at h
  obtain ⟨⟨w1, o⟩, -, h⟩ := bind_ok.mp h
  obtain ⟨⟨w2, c, i⟩, -, h⟩ := bind_ok.mp h
  obtain ⟨lg, hl, h⟩ := bind_ok.mp h
  obtain ⟨cs, hcs, h⟩ := bind_ok.mp h
  obtain ⟨is, -, h⟩ := bind_ok.mp h
  obtain ⟨⟨w3, ex⟩, -, h⟩ := bind_ok.mp h
  obtain ⟨es, -, h⟩ := bind_ok.mp h
  injection h with h
  obtain ⟨-, rfl⟩ := addLog_ok.mp hcs
  exact grows_set (lookup_ok.mp hl) (by rw [← h]) ⟨_, rfl⟩ ⟨_, rfl⟩

theorem grows_remove {Wd : World N K} {s t : St Wd} {p : N} {g : Wd.G} (h : removePlayer s p g = .ok t) :
    Grows s t := by
  unfold removePlayer at h
  split at h
  · obtain ⟨m, -, h⟩ := bind_ok.mp h
    obtain ⟨⟨w', b⟩, -, h⟩ := bind_ok.mp h
    dsimp only at h
    split at h
    · obtain ⟨lg, hl, h⟩ := bind_ok.mp h
      obtain ⟨states, -, h⟩ := bind_ok.mp h
      injection h with h
      subst h
      exact grows_set (lookup_ok.mp hl) rfl List.prefix_rfl List.prefix_rfl
    · injection h with h
      subst h
      exact Grows.refl s
  · injection h with h
    subst h
    exact Grows.refl s

theorem grows_eq {Wd : World N K} {s t : St Wd} (h : t.logger = s.logger) : Grows s t :=
  fun _ lg hl => ⟨lg, by rw [h]; exact hl, List.prefix_rfl, List.prefix_rfl⟩

theorem grows_closed {Wd : World N K} (cfg : Cfg Wd) (s0 : St Wd) :
    Closed cfg (fun s => s.players.Nodup ∧ Grows s0 s) where
  nodup s h := h.1
  observed s ps h _ := h
  logged s n m lg states h _ _ hl _ :=
    ⟨h.1, h.2.trans (grows_set hl rfl List.prefix_rfl List.prefix_rfl)⟩
  asked s n s' h _ ha := ⟨by rw [(askPlayer_frame ha).1]; exact h.1, h.2.trans (grows_ask ha)⟩
  driven s n m c w' m' h _ hm _ hu := h
  stamped s h := h
  timed s h := h
  removed s p g s' h hr := by
    refine ⟨?_, h.2.trans (grows_remove hr)⟩
    rcases (removePlayer_frame hr).2.2 with e | e <;> rw [e]
    exacts [h.1, h.1.erase p]
  ended s b h := h
  traced s p h := h
  env s p o s' h _ _ he := by
    obtain ⟨m, rep, -, -, -, -, el, -⟩ := envObstacle_frame he
    exact ⟨by rw [envObstacle_players he]; exact h.1, h.2.trans (grows_eq el)⟩
  pair s a b s' h _ _ _ hp := by
    refine ⟨by rw [checkPair_players hp]; exact h.1, h.2.trans (grows_eq ?_)⟩
    obtain ⟨ma, mb, -, -, ⟨-, -, -, el, -⟩ | ⟨rep, -, -, -, -, el, -⟩⟩ := checkPair_frame hp
    exacts [el, el]

theorem postUpdate_closed {Wd : World N K} {cfg : Cfg Wd} {P : St Wd → Prop} (hP : Closed cfg P)
    {s s' : St Wd} (hs : P s) (h : postUpdate cfg s = .ok s') : P s' :=
  hP.toPostClosed.postUpdate (hP.timed s hs) h

/-- The plan returns a command that was logged at that time. -/
theorem npCommands_of_prefix {α : Type} {plan : Seq K α} (hv : plan.Valid) {ts : List K} {vs : List α} {t : K}
    {c : α} (hlen : ts.length = vs.length) (h1 : ts ++ [t] <+: plan.ts) (h2 : vs ++ [c] <+: plan.vs) :
    Agents.npCommands plan t = .ok c := by
  obtain ⟨ts', h1⟩ := h1
  obtain ⟨vs', h2⟩ := h2
  refine (C03_at_or_previous_ok_iff plan hv t c).mpr ⟨t, ?_, le_rfl, fun p _ hp => hp⟩
  unfold Seq.samples
  rw [← h1, ← h2, List.append_assoc, List.append_assoc, List.zip_append hlen]
  simp

variable {S : List N} {plan : N → Seq K R.C} {J : N → R.A → Prop}

/-- Replaced log entries stay alike. -/
theorem Like.set {s t : St (world F sc R)} {as as' : N → R.A} {lg : Dict N (PlayerLogger (world F sc R))}
    (h : Like S J s as lg) {n : N} {a b : PlayerLogger (world F sc R)}
    (ht : t.logger = Dict.set s.logger n a) (hab : LikeLog (n ∈ S) a b)
    (h1 : ∀ k, k ∉ S → as' k = t.w.1 k) (h2 : ∀ k ∈ S, J k (as' k)) : Like S J t as' (Dict.set lg n b) := by
  refine ⟨h1, h2, fun k c hc => ?_⟩
  rw [ht] at hc
  by_cases hk : n = k
  · subst hk
    rw [Dict.get?_set_self] at hc
    injection hc with hc
    subst hc
    exact ⟨b, Dict.get?_set_self _ _ _, hab⟩
  · rw [Dict.get?_set_ne _ hk] at hc ⊢
    exact h.logger k c hc

theorem sense_other {w : (world F sc R).W} {n : N} {o o' : Obs N K R.X F.S} {w' : (world F sc R).W}
    (h : (world F sc R).sense w n o = .ok (w', o')) :
    w'.1 = w.1 ∧ R.sense w.2 n o = .ok (w'.2, o') ∧
      ∀ as, (world F sc R).sense (as, w.2) n o = .ok ((as, w'.2), o') := by
  change (match R.sense w.2 n o with
    | .error e => .error e
    | .ok (v, o') => .ok ((w.1, v), o')) = Except.ok (w', o') at h
  split at h
  · cases h
  · rename_i v o2 hs
    injection h with h
    injection h with e1 e2
    subst e1 e2
    refine ⟨rfl, hs, fun as => ?_⟩
    change (match R.sense w.2 n o with
      | .error e => Except.error e
      | .ok (v, o') => Except.ok ((as, v), o')) = Except.ok ((as, v), o2)
    rw [hs]

theorem ask_world {w w' : (world F sc R).W} {n : N} {o : Obs N K R.X F.S} {c : R.C} {i : R.I} :
    (world F sc R).getCommands w n o = .ok (w', c, i) ↔
      ∃ a, R.ask (w.1 n) o = .ok (a, c, i) ∧ w' = (Function.update w.1 n a, w.2) := by
  change (match R.ask (w.1 n) o with
    | .error e => .error e
    | .ok (a, c, i) => .ok ((Function.update w.1 n a, w.2), c, i)) = Except.ok (w', c, i) ↔ _
  cases h : R.ask (w.1 n) o with
  | error e => simp
  | ok r => 
    obtain ⟨a, c', i'⟩ := r
    simp only [Except.ok.injEq, Prod.mk.injEq]
    constructor
    · rintro ⟨rfl, rfl, rfl⟩
      exact ⟨a, ⟨rfl, rfl, rfl⟩, rfl⟩
    · rintro ⟨a', ⟨rfl, rfl, rfl⟩, rfl⟩
      exact ⟨rfl, rfl, rfl⟩

theorem extra_world {w w' : (world F sc R).W} {n : N} {e : Option R.E} :
    (world F sc R).getExtra w n = .ok (w', e) ↔
      ∃ a, R.extra (w.1 n) = .ok (a, e) ∧ w' = (Function.update w.1 n a, w.2) := by
  change (match R.extra (w.1 n) with
    | .error e => .error e
    | .ok (a, x) => .ok ((Function.update w.1 n a, w.2), x)) = Except.ok (w', e) ↔ _
  cases h : R.extra (w.1 n) with
  | error e => simp
  | ok r =>
    obtain ⟨a, x⟩ := r
    simp only [Except.ok.injEq, Prod.mk.injEq]
    constructor
    · rintro ⟨rfl, rfl⟩
      exact ⟨a, ⟨rfl, rfl⟩, rfl⟩
    · rintro ⟨a', ⟨rfl, rfl⟩, rfl⟩
      exact ⟨rfl, rfl⟩

theorem ask_like (hplay : ∀ n ∈ S, Plays R (plan n) (J n)) (hval : ∀ n ∈ S, (plan n).Valid)
    (hsense : ∀ n ∈ S, ∀ v o v' o', R.sense v n o = .ok (v', o') → o'.time = o.time)
    {s t : St (world F sc R)} {n : N} (h : askPlayer s n = .ok t) (htime : s.lastObs.time = s.time)
    (hfit : Fits S plan t) {as : N → R.A} {lg : Dict N (PlayerLogger (world F sc R))}
    (hl : Like S J s as lg) :
    ∃ as' lg', askPlayer (other s as lg) n = .ok (other t as' lg') ∧ Like S J t as' lg' := by
  unfold askPlayer at h
  obtain ⟨⟨w1, o⟩, hs, h⟩ := bind_ok.mp h
  obtain ⟨⟨w2, c, i⟩, hc, h⟩ := bind_ok.mp h
  obtain ⟨a, hlg, h⟩ := bind_ok.mp h
  obtain ⟨cs, hcs, h⟩ := bind_ok.mp h
  obtain ⟨is, his, h⟩ := bind_ok.mp h
  obtain ⟨⟨w3, ex⟩, hex, h⟩ := bind_ok.mp h
  obtain ⟨es, hes, h⟩ := bind_ok.mp h
  injection h with h
  obtain ⟨e1, hs1, hs2⟩ := sense_other (liftU_ok.mp hs)
  obtain ⟨a1, hask, rfl⟩ := ask_world.mp (liftU_ok.mp hc)
  obtain ⟨a2, hextra, rfl⟩ := extra_world.mp (liftU_ok.mp hex)
  have hlg := lookup_ok.mp hlg
  simp only [Function.update_self] at hextra
  obtain ⟨b, hb, hab⟩ := hl.logger n a hlg
  -- the reply of the other agent
  obtain ⟨b1, i', b2, ex', hb1, hb2, hno, hyes⟩ : ∃ b1 i' b2 ex', R.ask (as n) o = .ok (b1, c, i') ∧
      R.extra b1 = .ok (b2, ex') ∧ (n ∉ S → b1 = a1 ∧ i' = i ∧ b2 = a2 ∧ ex' = ex) ∧
      (n ∈ S → J n b2 ∧ ex' = none) := by
    by_cases hn : n ∈ S
    · have hnp : Agents.npCommands (plan n) o.time = .ok c := by
        rw [hsense n hn _ _ _ _ hs1, htime]
        obtain ⟨-, rfl⟩ := addLog_ok.mp hcs
        have hf := hfit n hn { a with commands := ⟨a.commands.ts ++ [s.time], a.commands.vs ++ [c]⟩, info := is, extra := es } (by
          rw [← h]; exact Dict.get?_set_self _ _ _)
        exact npCommands_of_prefix (hval n hn) (hab.len hn) hf.1 hf.2
      obtain ⟨b1, i', hb1, hJ1⟩ := (hplay n hn).ask (as n) o c (hl.played n hn) hnp
      obtain ⟨b2, hb2, hJ2⟩ := (hplay n hn).extra b1 hJ1
      exact ⟨b1, i', b2, none, hb1, hb2, fun h => absurd hn h, fun _ => ⟨hJ2, rfl⟩⟩
    · refine ⟨a1, i, a2, ex, ?_, hextra, fun _ => ⟨rfl, rfl, rfl, rfl⟩, fun h => absurd h hn⟩
      rw [hl.agents n hn, ← e1]
      exact hask
  obtain ⟨is', his', hi1, hi2⟩ := addLog_like his b.info i' hab.infoTs hab.infoVs
  obtain ⟨es', hes', he1, he2⟩ : ∃ es', addExtra (Wd := world F sc R) b.extra s.time ex' = .ok es' ∧
      (n ∉ S → es' = es) ∧ (n ∈ S → es' = {}) := by
    by_cases hn : n ∈ S
    · rw [(hyes hn).2, hab.extra hn]
      exact ⟨{}, rfl, fun h => absurd hn h, fun _ => rfl⟩
    · rw [(hno hn).2.2.2, hab.others hn]
      exact ⟨es, hes, fun _ => rfl, fun h => absurd h hn⟩
  have hcs' : addLog b.commands s.time c = .ok cs := by rw [hab.commands]; exact hcs
  refine ⟨Function.update (Function.update as n b1) n b2,
    Dict.set lg n { b with commands := cs, info := is', extra := es' }, ?_, ?_⟩
  · unfold askPlayer
    refine bind_ok.mpr ⟨_, liftU_ok.mpr (hs2 as), ?_⟩
    refine bind_ok.mpr ⟨_, liftU_ok.mpr (ask_world.mpr ⟨b1, hb1, rfl⟩), ?_⟩
    refine bind_ok.mpr ⟨b, lookup_ok.mpr hb, ?_⟩
    refine bind_ok.mpr ⟨cs, hcs', ?_⟩
    refine bind_ok.mpr ⟨is', his', ?_⟩
    refine bind_ok.mpr ⟨_, liftU_ok.mpr (extra_world.mpr ⟨b2, by
      simp only [Function.update_self]; exact hb2, rfl⟩), ?_⟩
    refine bind_ok.mpr ⟨es', hes', ?_⟩
    rw [← h]
    rfl
  · refine hl.set (n := n) (a := { a with commands := cs, info := is, extra := es }) (by rw [← h]) ?_ ?_ ?_
    · obtain ⟨-, rfl⟩ := addLog_ok.mp hcs
      refine ⟨hab.states, rfl, hi1, hi2, fun hn => ?_, he2, fun hn => by simp [hab.len hn]⟩
      have hii : is' = is := by
        rw [hab.others hn, (hno hn).2.1, his] at his'
        injection his' with his'
        exact his'.symm
      rw [hab.others hn, he1 hn, hii]
    · intro k hk
      rw [← h]
      dsimp only
      by_cases hkn : k = n
      · subst hkn
        simp [(hno hk).2.2.1]
      · simp [hkn, hl.agents k hk, e1]
    · intro k hk
      by_cases hkn : k = n
      · subst hkn
        simpa using (hyes hk).1
      · simpa [hkn] using hl.played k hk

theorem updatePlayer_like (hplay : ∀ n ∈ S, Plays R (plan n) (J n)) (hval : ∀ n ∈ S, (plan n).Valid)
    (hsense : ∀ n ∈ S, ∀ v o v' o', R.sense v n o = .ok (v', o') → o'.time = o.time)
    {cfg : Cfg (world F sc R)} {s t : St (world F sc R)} {n : N} (h : updatePlayer cfg s n = .ok t)
    (htime : need cfg s = true → s.lastObs.time = s.time)
    (hfit : Fits S plan t) {as : N → R.A} {lg : Dict N (PlayerLogger (world F sc R))}
    (hl : Like S J s as lg) :
    ∃ as' lg', updatePlayer cfg (other s as lg) n = .ok (other t as' lg') ∧ Like S J t as' lg' := by
  unfold updatePlayer at h
  obtain ⟨m, hm, h⟩ := bind_ok.mp h
  obtain ⟨a, ha, h⟩ := bind_ok.mp h
  obtain ⟨states, hst, h⟩ := bind_ok.mp h
  obtain ⟨s2, h2, h⟩ := bind_ok.mp h
  obtain ⟨c, hc, h⟩ := bind_ok.mp h
  obtain ⟨m2, hm2, h⟩ := bind_ok.mp h
  obtain ⟨⟨w', m'⟩, hu, h⟩ := bind_ok.mp h
  injection h with h
  obtain ⟨b, hb, hab⟩ := hl.logger n a (lookup_ok.mp ha)
  have hl1 : Like S J { s with logger := Dict.set s.logger n { a with states := states } } as
      (Dict.set lg n { b with states := states }) := by
    refine hl.set rfl ?_ hl.agents hl.played
    exact ⟨rfl, hab.commands, hab.infoTs, hab.infoVs, fun hn => by rw [hab.others hn], hab.extra, hab.len⟩
  have hfit2 : Fits S plan s2 := by
    intro k hk lg' hlg'
    exact hfit k hk lg' (by rw [← h]; exact hlg')
  obtain ⟨as2, lg2, he2, hl2⟩ : ∃ as' lg', maybeAsk cfg (other
      { s with logger := Dict.set s.logger n { a with states := states } } as
      (Dict.set lg n { b with states := states })) n = .ok (other s2 as' lg') ∧ Like S J s2 as' lg' := by
    unfold maybeAsk at h2 ⊢
    by_cases hn : need cfg s = true
    · rw [if_pos (show need cfg { s with logger := Dict.set s.logger n { a with states := states } } = true
        from hn)] at h2
      rw [if_pos (show need cfg (other { s with logger := Dict.set s.logger n { a with states := states } } as
        (Dict.set lg n { b with states := states })) = true from hn)]
      exact ask_like hplay hval hsense h2 (htime hn) hfit2 hl1
    · rw [if_neg (show ¬need cfg { s with logger := Dict.set s.logger n { a with states := states } } = true
        from hn)] at h2
      rw [if_neg (show ¬need cfg (other { s with logger := Dict.set s.logger n { a with states := states } } as
        (Dict.set lg n { b with states := states })) = true from hn)]
      injection h2 with h2
      subst h2
      exact ⟨_, _, rfl, hl1⟩
  have hu := liftU_ok.mp hu
  obtain ⟨e1, hu2⟩ : w'.1 = s2.w.1 ∧
      (world F sc R).update (as2, s2.w.2) n m2 c cfg.dt = .ok ((as2, w'.2), m') := by
    change (match R.update s2.w.2 n m2 c cfg.dt with
      | .error e => .error e
      | .ok (v, m') => .ok ((s2.w.1, v), m')) = Except.ok (w', m') at hu
    change _ ∧ (match R.update s2.w.2 n m2 c cfg.dt with
      | .error e => Except.error e
      | .ok (v, m') => Except.ok ((as2, v), m')) = Except.ok ((as2, w'.2), m')
    split at hu
    · cases hu
    · injection hu with hu
      injection hu with e1 e2
      subst e1 e2
      exact ⟨rfl, rfl⟩
  refine ⟨as2, lg2, ?_, ?_⟩
  · unfold updatePlayer
    refine bind_ok.mpr ⟨m, hm, ?_⟩
    refine bind_ok.mpr ⟨b, lookup_ok.mpr hb, ?_⟩
    refine bind_ok.mpr ⟨states, by rw [hab.states]; exact hst, ?_⟩
    refine bind_ok.mpr ⟨_, he2, ?_⟩
    refine bind_ok.mpr ⟨c, hc, ?_⟩
    refine bind_ok.mpr ⟨m2, hm2, ?_⟩
    refine bind_ok.mpr ⟨_, liftU_ok.mpr hu2, ?_⟩
    rw [← h]
    rfl
  · subst h
    exact ⟨fun k hk => by dsimp only; rw [e1]; exact hl2.agents k hk, hl2.played, hl2.logger⟩

theorem updatePlayer_frame {Wd : World N K} {cfg : Cfg Wd} {s t : St Wd} {n : N}
    (h : updatePlayer cfg s n = .ok t) :
    t.time = s.time ∧ t.lastObs = s.lastObs ∧ t.lastCmdTs = s.lastCmdTs := by
  unfold updatePlayer at h
  obtain ⟨m, -, h⟩ := bind_ok.mp h
  obtain ⟨lg, -, h⟩ := bind_ok.mp h
  obtain ⟨states, -, h⟩ := bind_ok.mp h
  obtain ⟨s2, h2, h⟩ := bind_ok.mp h
  obtain ⟨c, -, h⟩ := bind_ok.mp h
  obtain ⟨m2, -, h⟩ := bind_ok.mp h
  obtain ⟨⟨w', m'⟩, -, h⟩ := bind_ok.mp h
  injection h with h
  subst h
  unfold maybeAsk at h2
  split at h2
  · unfold askPlayer at h2
    obtain ⟨⟨w1, o⟩, -, h2⟩ := bind_ok.mp h2
    obtain ⟨⟨w2, c, i⟩, -, h2⟩ := bind_ok.mp h2
    obtain ⟨lg, -, h2⟩ := bind_ok.mp h2
    obtain ⟨cs, -, h2⟩ := bind_ok.mp h2
    obtain ⟨is, -, h2⟩ := bind_ok.mp h2
    obtain ⟨⟨w3, ex⟩, -, h2⟩ := bind_ok.mp h2
    obtain ⟨es, -, h2⟩ := bind_ok.mp h2
    injection h2 with h2
    subst h2
    exact ⟨rfl, rfl, rfl⟩
  · injection h2 with h2
    subst h2
    exact ⟨rfl, rfl, rfl⟩

theorem need_congr {Wd : World N K} {cfg : Cfg Wd} {s t : St Wd} (h1 : t.time = s.time)
    (h2 : t.lastCmdTs = s.lastCmdTs) : need cfg t = need cfg s := by
  unfold need
  rw [h1, h2]

theorem updateLoop_like (hplay : ∀ n ∈ S, Plays R (plan n) (J n)) (hval : ∀ n ∈ S, (plan n).Valid)
    (hsense : ∀ n ∈ S, ∀ v o v' o', R.sense v n o = .ok (v', o') → o'.time = o.time)
    {cfg : Cfg (world F sc R)} : ∀ (ns : List N) (s t : St (world F sc R)) (as : N → R.A)
    (lg : Dict N (PlayerLogger (world F sc R))), updateLoop cfg s ns = .ok t → s.players.Nodup →
    (∀ n ∈ ns, n ∈ s.players) → (need cfg s = true → s.lastObs.time = s.time) → Fits S plan t →
    Like S J s as lg →
    ∃ as' lg', updateLoop cfg (other s as lg) ns = .ok (other t as' lg') ∧ Like S J t as' lg' ∧
      t.time = s.time ∧ t.lastCmdTs = s.lastCmdTs
  | [], s, t, as, lg, h, _, _, _, _, hl => by
    injection h with h
    subst h
    exact ⟨as, lg, rfl, hl, rfl, rfl⟩
  | n :: ns, s, t, as, lg, h, hnd, hns, htime, hfit, hl => by
    unfold updateLoop at h
    obtain ⟨s1, h1, h⟩ := bind_ok.mp h
    have e1 := updatePlayer_players h1
    obtain ⟨f1, f2, f3⟩ := updatePlayer_frame h1
    have hns1 : ∀ k ∈ ns, k ∈ s1.players := fun k hk => by rw [e1]; exact hns k (by simp [hk])
    have hnd1 : s1.players.Nodup := by rw [e1]; exact hnd
    have hg := ((grows_closed cfg s1).updateLoop ns s1 t ⟨hnd1, Grows.refl s1⟩ hns1 h).1.2
    obtain ⟨as1, lg1, h1', hl1⟩ := updatePlayer_like hplay hval hsense h1 htime (hfit.mono hg) hl
    obtain ⟨as2, lg2, h2, hl2, g1, g2⟩ := updateLoop_like hplay hval hsense ns s1 t as1 lg1 h hnd1 hns1
      (fun hn => by rw [f1, f2]; exact htime (by rw [← need_congr f1 f3]; exact hn)) hfit hl1
    exact ⟨as2, lg2, bind_ok.mpr ⟨_, h1', h2⟩, hl2, g1.trans f1, g2.trans f3⟩

theorem removePlayer_like {s t : St (world F sc R)} {p : N} {g : R.G} (h : removePlayer s p g = .ok t)
    {as : N → R.A} {lg : Dict N (PlayerLogger (world F sc R))} (hl : Like S J s as lg) :
    ∃ lg', removePlayer (other s as lg) p g = .ok (other t as lg') ∧ Like S J t as lg' := by
  unfold removePlayer at h ⊢
  by_cases hp : p ∈ s.players
  · rw [if_pos hp] at h
    rw [if_pos (show p ∈ (other s as lg).players from hp)]
    obtain ⟨m, hm, h⟩ := bind_ok.mp h
    obtain ⟨⟨w', b⟩, hf, h⟩ := bind_ok.mp h
    have hf := liftU_ok.mp hf
    obtain ⟨e1, hf2⟩ : w'.1 = s.w.1 ∧ (world F sc R).fulfilled (as, s.w.2) p g (R.getState m) s.time =
        .ok ((as, w'.2), b) := by
      change (match R.fulfilled s.w.2 p g (R.getState m) s.time with
        | .error e => .error e
        | .ok (v, b) => .ok ((s.w.1, v), b)) = Except.ok (w', b) at hf
      change _ ∧ (match R.fulfilled s.w.2 p g (R.getState m) s.time with
        | .error e => Except.error e
        | .ok (v, b) => Except.ok ((as, v), b)) = Except.ok ((as, w'.2), b)
      split at hf
      · cases hf
      · injection hf with hf
        injection hf with e1 e2
        subst e1 e2
        exact ⟨rfl, rfl⟩
    dsimp only at h
    cases b with
    | false =>
      injection h with h
      refine ⟨lg, bind_ok.mpr ⟨m, hm, bind_ok.mpr ⟨_, liftU_ok.mpr hf2, ?_⟩⟩, ?_⟩
      · rw [← h]; rfl
      · subst h
        exact ⟨fun k hk => by dsimp only; rw [e1]; exact hl.agents k hk, hl.played, hl.logger⟩
    | true =>
      obtain ⟨a, ha, h⟩ := bind_ok.mp h
      obtain ⟨states, hst, h⟩ := bind_ok.mp h
      injection h with h
      obtain ⟨b, hb, hab⟩ := hl.logger p a (lookup_ok.mp ha)
      refine ⟨Dict.set lg p { b with states := states },
        bind_ok.mpr ⟨m, hm, bind_ok.mpr ⟨_, liftU_ok.mpr hf2, ?_⟩⟩, ?_⟩
      · refine bind_ok.mpr ⟨b, lookup_ok.mpr hb, bind_ok.mpr ⟨states, by rw [hab.states]; exact hst, ?_⟩⟩
        rw [← h]; rfl
      · subst h
        refine hl.set (a := { a with states := states }) rfl ?_
          (fun k hk => by dsimp only; rw [e1]; exact hl.agents k hk) hl.played
        exact ⟨rfl, hab.commands, hab.infoTs, hab.infoVs, fun hn => by rw [hab.others hn], hab.extra,
          hab.len⟩
  · rw [if_neg hp] at h
    rw [if_neg (show ¬p ∈ (other s as lg).players from hp)]
    injection h with h
    subst h
    exact ⟨lg, rfl, hl⟩

theorem removeLoop_like : ∀ (gs : Dict N R.G) (s t : St (world F sc R)) (as : N → R.A)
    (lg : Dict N (PlayerLogger (world F sc R))), removeLoop s gs = .ok t → Like S J s as lg →
    ∃ lg', removeLoop (other s as lg) gs = .ok (other t as lg') ∧ Like S J t as lg'
  | [], s, t, as, lg, h, hl => by
    injection h with h
    subst h
    exact ⟨lg, rfl, hl⟩
  | (p, g) :: gs, s, t, as, lg, h, hl => by
    unfold removeLoop at h
    obtain ⟨s1, h1, h⟩ := bind_ok.mp h
    obtain ⟨lg1, h1', hl1⟩ := removePlayer_like h1 hl
    obtain ⟨lg2, h2, hl2⟩ := removeLoop_like gs s1 t as lg1 h hl1
    exact ⟨lg2, bind_ok.mpr ⟨_, h1', h2⟩, hl2⟩

theorem envObstacle_other {s t : St (world F sc R)} {p : N} {o : F.S × Geom K}
    (h : envObstacle s p o = .ok t) (as : N → R.A) (lg : Dict N (PlayerLogger (world F sc R))) :
    envObstacle (other s as lg) p o = .ok (other t as lg) ∧ t.w = s.w ∧ t.logger = s.logger := by
  unfold envObstacle at h ⊢
  obtain ⟨m, hm, h⟩ := bind_ok.mp h
  obtain ⟨rep, hr, h⟩ := bind_ok.mp h
  injection h with h
  refine ⟨bind_ok.mpr ⟨m, hm, bind_ok.mpr ⟨rep, hr, ?_⟩⟩, ?_⟩
  · rw [← h]
    cases rep with
    | none => rfl
    | some rep => 
      by_cases hd : (!R.isDyn (Coll.resolveEnv F s.time p m o.1 o.2).1) = true
      · refine congrArg Except.ok ?_
        dsimp only
        rw [if_pos hd]
        exact if_pos hd
      · refine congrArg Except.ok ?_
        dsimp only
        rw [if_neg hd]
        exact if_neg hd
  · rw [← h]
    cases rep with
    | none => exact ⟨rfl, rfl⟩
    | some rep => 
      dsimp only
      split <;> exact ⟨rfl, rfl⟩

theorem envObstacles_other (p : N) : ∀ (os : List (F.S × Geom K)) (s t : St (world F sc R)) (as : N → R.A)
    (lg : Dict N (PlayerLogger (world F sc R))), envObstacles p s os = .ok t →
    envObstacles p (other s as lg) os = .ok (other t as lg) ∧ t.w = s.w ∧ t.logger = s.logger
  | [], s, t, as, lg, h => by
    injection h with h
    subst h
    exact ⟨rfl, rfl, rfl⟩
  | o :: os, s, t, as, lg, h => by
    unfold envObstacles at h
    obtain ⟨s1, h1, h⟩ := bind_ok.mp h
    obtain ⟨g1, g2, g3⟩ := envObstacle_other h1 as lg
    obtain ⟨k1, k2, k3⟩ := envObstacles_other p os s1 t as lg h
    exact ⟨bind_ok.mpr ⟨_, g1, k1⟩, k2.trans g2, k3.trans g3⟩

theorem envLoop_other : ∀ (ps : List N) (s t : St (world F sc R)) (as : N → R.A)
    (lg : Dict N (PlayerLogger (world F sc R))), envLoop s ps = .ok t →
    envLoop (other s as lg) ps = .ok (other t as lg) ∧ t.w = s.w ∧ t.logger = s.logger
  | [], s, t, as, lg, h => by
    injection h with h
    subst h
    exact ⟨rfl, rfl, rfl⟩
  | p :: ps, s, t, as, lg, h => by
    unfold envLoop at h
    obtain ⟨m, hm, h⟩ := bind_ok.mp h
    obtain ⟨s1, h1, h⟩ := bind_ok.mp h
    obtain ⟨g1, g2, g3⟩ := envObstacles_other p _ _ s1 as lg h1
    obtain ⟨k1, k2, k3⟩ := envLoop_other ps s1 t as lg h
    exact ⟨bind_ok.mpr ⟨m, hm, bind_ok.mpr ⟨_, g1, k1⟩⟩, k2.trans g2, k3.trans g3⟩

theorem checkPair_other {s t : St (world F sc R)} {a b : N} (h : checkPair s a b = .ok t) (as : N → R.A)
    (lg : Dict N (PlayerLogger (world F sc R))) :
    checkPair (other s as lg) a b = .ok (other t as lg) ∧ t.w = s.w ∧ t.logger = s.logger := by
  unfold checkPair at h ⊢
  obtain ⟨m1, hm1, h⟩ := bind_ok.mp h
  obtain ⟨m2, hm2, h⟩ := bind_ok.mp h
  dsimp only at h
  cases ht : F.intersects (F.footprint m1) (F.footprint m2) with
  | false =>
    rw [if_neg (by rw [ht]; simp)] at h
    injection h with h
    refine ⟨bind_ok.mpr ⟨m1, hm1, bind_ok.mpr ⟨m2, hm2, ?_⟩⟩, ?_⟩
    · dsimp only
      rw [if_neg (by rw [ht]; simp), ← h]
      rfl
    · rw [← h]; exact ⟨rfl, rfl⟩
  | true =>
    rw [if_pos ht] at h
    obtain ⟨rep, hr, h⟩ := bind_ok.mp h
    injection h with h
    refine ⟨bind_ok.mpr ⟨m1, hm1, bind_ok.mpr ⟨m2, hm2, ?_⟩⟩, ?_⟩
    · dsimp only
      rw [if_pos ht]
      refine bind_ok.mpr ⟨rep, hr, ?_⟩
      rw [← h]
      cases rep <;> rfl
    · rw [← h]
      cases rep <;> exact ⟨rfl, rfl⟩

theorem pairLoop_other : ∀ (l : List (N × N)) (s t : St (world F sc R)) (as : N → R.A)
    (lg : Dict N (PlayerLogger (world F sc R))), pairLoop s l = .ok t →
    pairLoop (other s as lg) l = .ok (other t as lg) ∧ t.w = s.w ∧ t.logger = s.logger
  | [], s, t, as, lg, h => by
    injection h with h
    subst h
    exact ⟨rfl, rfl, rfl⟩
  | (a, b) :: l, s, t, as, lg, h => by
    unfold pairLoop at h
    obtain ⟨s1, h1, h⟩ := bind_ok.mp h
    obtain ⟨g1, g2, g3⟩ := checkPair_other h1 as lg
    obtain ⟨k1, k2, k3⟩ := pairLoop_other l s1 t as lg h
    exact ⟨bind_ok.mpr ⟨_, g1, k1⟩, k2.trans g2, k3.trans g3⟩

theorem postUpdate_like {cfg : Cfg (world F sc R)} {s t : St (world F sc R)} (h : postUpdate cfg s = .ok t)
    {as : N → R.A} {lg : Dict N (PlayerLogger (world F sc R))} (hl : Like S J s as lg) :
    ∃ lg', postUpdate cfg (other s as lg) = .ok (other t as lg') ∧ Like S J t as lg' := by
  unfold postUpdate at h
  obtain ⟨s2, h2, h⟩ := bind_ok.mp h
  have hl1 : Like S J { s with time := s.time + cfg.dt } as lg := ⟨hl.agents, hl.played, hl.logger⟩
  obtain ⟨lg2, h2', hl2⟩ := removeLoop_like _ _ _ as lg h2 hl1
  have hc : terminationCondition cfg (other s2 as lg2) = terminationCondition cfg s2 := rfl
  dsimp only at h
  cases ht : terminationCondition cfg s2 with
  | true =>
    rw [if_pos ht] at h
    injection h with h
    refine ⟨lg2, ?_, ?_⟩
    · unfold postUpdate
      refine bind_ok.mpr ⟨_, h2', ?_⟩
      dsimp only
      rw [if_pos (hc.trans ht), hc, ← h]
      rfl
    · subst h
      exact ⟨hl2.agents, hl2.played, hl2.logger⟩
  | false =>
    rw [if_neg (by rw [ht]; simp)] at h
    obtain ⟨s4, h4, h⟩ := bind_ok.mp h
    obtain ⟨g1, g2, g3⟩ := envLoop_other _ _ _ as lg2 h4
    obtain ⟨k1, k2, k3⟩ := pairLoop_other _ _ _ as lg2 h
    refine ⟨lg2, ?_, ?_⟩
    · unfold postUpdate
      refine bind_ok.mpr ⟨_, h2', ?_⟩
      dsimp only
      rw [if_neg (by rw [hc, ht]; simp), hc]
      exact bind_ok.mpr ⟨_, g1, k1⟩
    · have ew : t.w = s2.w := k2.trans g2
      have el : t.logger = s2.logger := k3.trans g3
      refine ⟨fun k hk => ?_, hl2.played, fun k a ha => ?_⟩
      · rw [ew]; exact hl2.agents k hk
      · rw [el] at ha; exact hl2.logger k a ha

theorem step_like (hplay : ∀ n ∈ S, Plays R (plan n) (J n)) (hval : ∀ n ∈ S, (plan n).Valid)
    (hsense : ∀ n ∈ S, ∀ v o v' o', R.sense v n o = .ok (v', o') → o'.time = o.time)
    {cfg : Cfg (world F sc R)} {s t : St (world F sc R)} (h : step cfg s = .ok t) (hnd : s.players.Nodup)
    (hfit : Fits S plan t) {as : N → R.A} {lg : Dict N (PlayerLogger (world F sc R))}
    (hl : Like S J s as lg) :
    ∃ as' lg', step cfg (other s as lg) = .ok (other t as' lg') ∧ Like S J t as' lg' := by
  unfold step at h
  obtain ⟨s1, h1, h⟩ := bind_ok.mp h
  obtain ⟨s2, h2, h⟩ := bind_ok.mp h
  obtain ⟨h1', hl1, hp1, ht1⟩ : preUpdate cfg (other s as lg) = .ok (other s1 as lg) ∧ Like S J s1 as lg ∧
      s1.players = s.players ∧ (need cfg s1 = true → s1.lastObs.time = s1.time) := by
    unfold preUpdate at h1 ⊢
    by_cases hn : need cfg s = true
    · rw [if_pos hn] at h1
      rw [if_pos (show need cfg (other s as lg) = true from hn)]
      obtain ⟨ps, hps, h1⟩ := bind_ok.mp h1
      injection h1 with h1
      subst h1
      exact ⟨bind_ok.mpr ⟨ps, hps, rfl⟩, ⟨hl.agents, hl.played, hl.logger⟩, rfl, fun _ => rfl⟩
    · rw [if_neg hn] at h1
      rw [if_neg (show ¬need cfg (other s as lg) = true from hn)]
      injection h1 with h1
      subst h1
      exact ⟨rfl, hl, rfl, fun h => absurd h hn⟩
  have hnd1 : s1.players.Nodup := by rw [hp1]; exact hnd
  unfold update at h2
  obtain ⟨s3, h3, h2⟩ := bind_ok.mp h2
  injection h2 with h2
  have hnd3 : s3.players.Nodup := by
    rw [((grows_closed cfg s1).updateLoop s1.players s1 s3 ⟨hnd1, Grows.refl s1⟩ (fun _ h => h) h3).2]
    exact hnd1
  have e2 : s2.logger = s3.logger ∧ s2.w = s3.w ∧ s2.players = s3.players := by
    rw [← h2]; split <;> exact ⟨rfl, rfl, rfl⟩
  have hg : Grows s2 t := (postUpdate_closed (grows_closed cfg s2)
    ⟨by rw [e2.2.2]; exact hnd3, Grows.refl s2⟩ h).2
  have hfit3 : Fits S plan s3 := by
    intro k hk lg' hlg'
    exact (hfit.mono hg) k hk lg' (by rw [e2.1]; exact hlg')
  obtain ⟨as3, lg3, h3', hl3, f1, f2⟩ := updateLoop_like hplay hval hsense s1.players s1 s3 as lg h3 hnd1
    (fun _ h => h) ht1 hfit3 hl1
  have hl2 : Like S J s2 as3 lg3 := by
    refine ⟨fun k hk => ?_, hl3.played, fun k a ha => ?_⟩
    · rw [e2.2.1]; exact hl3.agents k hk
    · rw [e2.1] at ha; exact hl3.logger k a ha
  obtain ⟨lg4, h4, hl4⟩ := postUpdate_like h hl2
  refine ⟨as3, lg4, ?_, hl4⟩
  unfold step
  refine bind_ok.mpr ⟨_, h1', bind_ok.mpr ⟨other s2 as3 lg3, ?_, h4⟩⟩
  unfold update
  refine bind_ok.mpr ⟨_, h3', ?_⟩
  rw [← h2]
  have hc : need cfg (other s3 as3 lg3) = need cfg s3 := rfl
  rw [hc]
  cases need cfg s3 <;> rfl

theorem step_nodup {Wd : World N K} {cfg : Cfg Wd} {s t : St Wd} (h : step cfg s = .ok t)
    (hnd : s.players.Nodup) : t.players.Nodup :=
  ((grows_closed cfg s).step ⟨hnd, Grows.refl s⟩ h).1

theorem loop_grows {Wd : World N K} {cfg : Cfg Wd} : ∀ (fuel : Nat) (s t : St Wd), s.players.Nodup →
    loop cfg fuel s = some (.ok t) → Grows s t
  | 0, s, t, _, h => by
    unfold loop at h
    split at h
    · injection h with h
      injection h with h
      subst h
      exact Grows.refl s
    · cases h
  | fuel + 1, s, t, hnd, h => by
    unfold loop at h
    split at h
    · injection h with h
      injection h with h
      subst h
      exact Grows.refl s
    · split at h
      · injection h with h
        cases h
      · rename_i s1 h1
        exact ((grows_closed cfg s).step ⟨hnd, Grows.refl s⟩ h1).2.trans
          (loop_grows fuel s1 t (step_nodup h1 hnd) h)

theorem loop_like (hplay : ∀ n ∈ S, Plays R (plan n) (J n)) (hval : ∀ n ∈ S, (plan n).Valid)
    (hsense : ∀ n ∈ S, ∀ v o v' o', R.sense v n o = .ok (v', o') → o'.time = o.time)
    {cfg : Cfg (world F sc R)} : ∀ (fuel : Nat) (s t : St (world F sc R)) (as : N → R.A)
    (lg : Dict N (PlayerLogger (world F sc R))), loop cfg fuel s = some (.ok t) → s.players.Nodup →
    Fits S plan t → Like S J s as lg →
    ∃ as' lg', loop cfg fuel (other s as lg) = some (.ok (other t as' lg')) ∧ Like S J t as' lg'
  | 0, s, t, as, lg, h, _, _, hl => by
    unfold loop at h ⊢
    have hc : (other s as lg).terminated = s.terminated := rfl
    rw [hc]
    split at h
    · injection h with h
      injection h with h
      subst h
      exact ⟨as, lg, by simp [*], hl⟩
    · cases h
  | fuel + 1, s, t, as, lg, h, hnd, hfit, hl => by
    unfold loop at h ⊢
    have hc : (other s as lg).terminated = s.terminated := rfl
    rw [hc]
    split at h
    · injection h with h
      injection h with h
      subst h
      exact ⟨as, lg, by simp [*], hl⟩
    · rename_i hterm
      rw [if_neg hterm]
      split at h
      · injection h with h
        cases h
      · rename_i s1 h1
        have hnd1 := step_nodup h1 hnd
        obtain ⟨as1, lg1, h1', hl1⟩ := step_like hplay hval hsense h1 hnd
          (hfit.mono (loop_grows fuel s1 t hnd1 h)) hl
        rw [h1']
        exact loop_like hplay hval hsense fuel s1 t as1 lg1 h hnd1 hfit hl1

theorem initLoop_like (hplay : ∀ n ∈ S, Plays R (plan n) (J n)) : ∀ (ns : List N) (s t : St (world F sc R))
    (as : N → R.A), initLoop s ns = .ok t → (∀ n, n ∉ S → as n = s.w.1 n) → (∀ n ∈ S, J n (as n)) →
    ∃ as', initLoop (other s as s.logger) ns = .ok (other t as' t.logger) ∧
      (∀ n, n ∉ S → as' n = t.w.1 n) ∧ ∀ n ∈ S, J n (as' n)
  | [], s, t, as, h, h1, h2 => by
    injection h with h
    subst h
    exact ⟨as, rfl, h1, h2⟩
  | n :: ns, s, t, as, h, h1, h2 => by
    unfold initLoop at h
    obtain ⟨m, hm, h⟩ := bind_ok.mp h
    obtain ⟨w', hi, h⟩ := bind_ok.mp h
    have hi := liftU_ok.mp hi
    obtain ⟨a, ha, rfl⟩ : ∃ a, R.onInit (s.w.1 n) n = .ok a ∧ w' = (Function.update s.w.1 n a, s.w.2) := by
      change (match R.onInit (s.w.1 n) n with
        | .error e => .error e
        | .ok a => .ok (Function.update s.w.1 n a, s.w.2)) = Except.ok w' at hi
      split at hi
      · cases hi
      · rename_i a ha
        injection hi with hi
        exact ⟨a, ha, hi.symm⟩
    obtain ⟨b, hb, hno, hyes⟩ : ∃ b, R.onInit (as n) n = .ok b ∧ (n ∉ S → b = a) ∧ (n ∈ S → J n b) := by
      by_cases hn : n ∈ S
      · obtain ⟨b, hb, hJ⟩ := (hplay n hn).onInit (as n) n (h2 n hn)
        exact ⟨b, hb, fun h => absurd hn h, fun _ => hJ⟩
      · exact ⟨a, by rw [h1 n hn]; exact ha, fun _ => rfl, fun h => absurd h hn⟩
    obtain ⟨as', k1, k2⟩ := initLoop_like hplay ns _ t (Function.update as n b) h (by
      intro k hk
      dsimp only
      by_cases hkn : k = n
      · subst hkn; simp [hno hk]
      · simp [hkn, h1 k hk]) (by
      intro k hk
      by_cases hkn : k = n
      · subst hkn; simpa using hyes hk
      · simpa [hkn] using h2 k hk)
    refine ⟨as', ?_, k2⟩
    unfold initLoop
    refine bind_ok.mpr ⟨m, hm, bind_ok.mpr ⟨(Function.update as n b, s.w.2), ?_, k1⟩⟩
    refine liftU_ok.mpr ?_
    change (match R.onInit (as n) n with
        | .error e => Except.error e
        | .ok a => Except.ok (Function.update as n a, s.w.2)) = Except.ok (Function.update as n b, s.w.2)
    rw [hb]

theorem writeLog_get {Wd : World N K} {lgs : Dict N (PlayerLogger Wd)} : ∀ (ks : List N)
    (log l : Dict N (PlayerLog Wd)), writeLog lgs ks log = .ok l → ∀ n,
    (n ∈ ks → ∃ lg pl, Dict.get? lgs n = some lg ∧ lg.asSequence = .ok pl ∧ Dict.get? l n = some pl) ∧
      (n ∉ ks → Dict.get? l n = Dict.get? log n)
  | [], log, l, h, n => by
    injection h with h
    subst h
    simp
  | k :: ks, log, l, h, n => by
    unfold writeLog at h
    obtain ⟨lg, hlg, h⟩ := bind_ok.mp h
    split at h
    · cases h
    · rename_i pl hpl
      obtain ⟨h1, h2⟩ := writeLog_get ks _ l h n
      by_cases hn : n ∈ ks
      · exact ⟨fun _ => h1 hn, fun h => absurd (by simp [hn]) h⟩
      · by_cases hk : k = n
        · subst hk
          refine ⟨fun _ => ⟨lg, pl, lookup_ok.mp hlg, hpl, ?_⟩, fun h => absurd (by simp) h⟩
          rw [h2 hn, Dict.get?_set_self]
        · refine ⟨fun h => ?_, fun _ => ?_⟩
          · simp only [List.mem_cons] at h
            rcases h with h | h
            · exact absurd h.symm hk
            · exact absurd h hn
          · rw [h2 hn, Dict.get?_set_ne _ hk]

theorem asSequence_ok {Wd : World N K} {lg : PlayerLogger Wd} {pl : PlayerLog Wd} :
    lg.asSequence = .ok pl ↔ lg.states.asSequence = .ok pl.states ∧ lg.commands.asSequence = .ok pl.commands ∧
      lg.extra.asSequence = .ok pl.extra ∧ lg.info.asSequence = .ok pl.info := by
  unfold PlayerLogger.asSequence
  obtain ⟨p1, p2, p3, p4⟩ := pl
  cases lg.states.asSequence <;> cases lg.commands.asSequence <;> cases lg.extra.asSequence <;>
    cases lg.info.asSequence <;> simp

/-- Alike loggers give alike logs. -/
theorem LikeLog.asSequence {Wd : World N K} {p : Prop} {a b : PlayerLogger Wd} (h : LikeLog p a b)
    {pl : PlayerLog Wd} (ha : a.asSequence = .ok pl) :
    ∃ pl', b.asSequence = .ok pl' ∧ pl'.states = pl.states ∧ pl'.commands = pl.commands ∧
      pl'.info.ts = pl.info.ts ∧ (¬p → pl' = pl) ∧ (p → pl'.extra = ⟨[], []⟩) := by
  by_cases hp : p
  · obtain ⟨h1, h2, h3, h4⟩ := asSequence_ok.mp ha
    obtain ⟨i1, i2, i3⟩ := (Seq.mk?_ok_iff _ _ _).mp h4
    refine ⟨⟨pl.states, pl.commands, ⟨[], []⟩, ⟨b.info.ts, b.info.vs⟩⟩, asSequence_ok.mpr ⟨?_, ?_, ?_, ?_⟩, rfl,
      rfl, ?_, fun h => absurd hp h, fun _ => rfl⟩
    · rw [h.states]; exact h1
    · rw [h.commands]; exact h2
    · rw [h.extra hp]; rfl
    · refine (Seq.mk?_ok_iff _ _ _).mpr ⟨?_, ?_, rfl⟩
      · rw [h.infoTs, h.infoVs]; exact i1
      · rw [h.infoTs]; exact i2
    · rw [i3]; exact h.infoTs
  · rw [h.others hp]
    exact ⟨pl, ha, rfl, rfl, rfl, fun _ => rfl, fun h => absurd h hp⟩

theorem writeLog_like {Wd : World N K} {S : List N} {a b : Dict N (PlayerLogger Wd)} : ∀ (ks : List N)
    (log log' l : Dict N (PlayerLog Wd)),
    (∀ n x, Dict.get? a n = some x → ∃ y, Dict.get? b n = some y ∧ LikeLog (n ∈ S) x y) →
    writeLog a ks log = .ok l → ∃ l', writeLog b ks log' = .ok l'
  | [], log, log', l, _, _ => ⟨log', rfl⟩
  | k :: ks, log, log', l, hl, h => by
    unfold writeLog at h ⊢
    obtain ⟨lg, hlg, h⟩ := bind_ok.mp h
    split at h
    · cases h
    · rename_i pl hpl
      obtain ⟨y, hy, hxy⟩ := hl k lg (lookup_ok.mp hlg)
      obtain ⟨pl', hpl', -⟩ := hxy.asSequence hpl
      obtain ⟨l', hl'⟩ := writeLog_like ks _ (Dict.set log' k pl') l hl h
      refine ⟨l', bind_ok.mpr ⟨y, lookup_ok.mpr hy, ?_⟩⟩
      rw [hpl']
      exact hl'

/-- **C108.** A run is repeated if the agents of any of the players are replaced by agents that play the
commands logged in that run: the run with the new agents ends too, after the same steps, with the same models,
players, collisions and calls, and has the same states and commands in its log. Players that keep their agents
have exactly the same log; the others have the same log but for computation times and extra objects. Sensors
must leave the time of observations as it is. -/
theorem C108_replay_partial [IsStrictOrderedRing K] [FloorSemiring K] {cfg : Cfg (world F sc R)} {fuel : Nat} {s t : St (world F sc R)}
    {log0 log : Dict N (PlayerLog (world F sc R))} (hf : Fresh s)
    (hrun : run cfg fuel s log0 = some (.ok (t, log))) (S : List N) (hS : ∀ n ∈ S, n ∈ s.players)
    (hsense : ∀ n ∈ S, ∀ v o v' o', R.sense v n o = .ok (v', o') → o'.time = o.time)
    (as : N → R.A) (hsame : ∀ n, n ∉ S → as n = s.w.1 n)
    (hplay : ∀ n ∈ S, ∀ pl, Dict.get? log n = some pl → ∃ J, Plays R pl.commands J ∧ J (as n)) :
    ∃ t' log', run cfg fuel { s with w := (as, s.w.2) } log0 = some (.ok (t', log')) ∧
      t'.models = t.models ∧ t'.players = t.players ∧ t'.time = t.time ∧ t'.reports = t.reports ∧
      t'.firstColl = t.firstColl ∧ t'.lastCmds = t.lastCmds ∧ t'.trace = t.trace ∧
      (∀ n, n ∉ S → Dict.get? log' n = Dict.get? log n) ∧
      ∀ n ∈ S, ∃ pl pl', Dict.get? log n = some pl ∧ Dict.get? log' n = some pl' ∧ pl'.states = pl.states ∧
        pl'.commands = pl.commands ∧ pl'.info.ts = pl.info.ts ∧ pl'.extra = ⟨[], []⟩ := by
  unfold run at hrun
  cases hi : initLoop s s.players with
  | error e => rw [hi] at hrun; injection hrun with hrun; cases hrun
  | ok s1 =>
    rw [hi] at hrun
    simp only at hrun
    obtain ⟨hready, w, lgs, hs1⟩ := (safe_initLoop_fresh s hf).ok hi
    have hp1 : s1.players = s.players := by rw [hs1]
    have hnd1 : s1.players.Nodup := by rw [hp1]; exact hf.players
    cases hl : loop cfg fuel s1 with
    | none => rw [hl] at hrun; cases hrun
    | some r =>
      rw [hl] at hrun
      cases r with
      | error e => injection hrun with hrun; cases hrun
      | ok s2 =>
        simp only at hrun
        cases hw : writeLog s2.logger (Dict.keys s2.models) log0 with
        | error e => rw [hw] at hrun; injection hrun with hrun; cases hrun
        | ok l =>
          rw [hw] at hrun; injection hrun with hrun; injection hrun with hrun
          injection hrun with e1 e2
          subst e1 e2
          have hkeys : ∀ n ∈ S, n ∈ Dict.keys s2.models := by
            obtain ⟨σ, j, h0, -, hex, hend, -⟩ := loop_ok fuel s1 s2 hl
            have hc := closed_models cfg (fun d _ => ∀ n ∈ S, n ∈ Dict.keys d)
              (fun w n m c w' m' d rs _ _ h k hk => (Dict.mem_keys_set _ _ _ _).mpr (Or.inl (h k hk)))
              (fun w p m o t d rs rep _ _ _ h k hk => (Dict.mem_keys_set _ _ _ _).mpr (Or.inl (h k hk)))
              (fun w a b ma mb t d rs rep _ _ _ _ h k hk => (Dict.mem_keys_set _ _ _ _).mpr
                (Or.inl ((Dict.mem_keys_set _ _ _ _).mpr (Or.inl (h k hk)))))
            have := (hc.exec (by
              rw [h0]
              exact ⟨hnd1, fun n hn => by rw [hs1]; exact (hf.keys n).mp (hS n hn)⟩) hex j le_rfl).2
            rw [hend] at this
            exact this
          have hlog := writeLog_get _ _ _ hw
          let plan : N → Seq K R.C := fun n => match Dict.get? l n with
            | some pl => pl.commands
            | none => ⟨[], []⟩
          have hplan : ∀ n ∈ S, ∃ lg pl, Dict.get? s2.logger n = some lg ∧ lg.asSequence = .ok pl ∧
              Dict.get? l n = some pl ∧ plan n = pl.commands ∧ pl.commands.Valid ∧
              pl.commands = ⟨lg.commands.ts, lg.commands.vs⟩ := by
            intro n hn
            obtain ⟨lg, pl, g1, g2, g3⟩ := (hlog n).1 (hkeys n hn)
            obtain ⟨-, i2, -, -⟩ := asSequence_ok.mp g2
            obtain ⟨i3, i4, i5⟩ := (Seq.mk?_ok_iff _ _ _).mp i2
            refine ⟨lg, pl, g1, g2, g3, by simp only [plan, g3], ?_, i5⟩
            rw [i5]
            exact ⟨i3, i4⟩
          have hJ : ∃ J : N → R.A → Prop, ∀ n ∈ S, Plays R (plan n) (J n) ∧ J n (as n) := by
            have : ∀ n, ∃ J : R.A → Prop, n ∈ S → Plays R (plan n) J ∧ J (as n) := by
              intro n
              by_cases hn : n ∈ S
              · obtain ⟨lg, pl, -, -, g3, g4, -⟩ := hplan n hn
                obtain ⟨J, j1, j2⟩ := hplay n hn pl g3
                exact ⟨J, fun _ => ⟨by rw [g4]; exact j1, j2⟩⟩
              · exact ⟨fun _ => True, fun h => absurd h hn⟩
            choose J hJ using this
            exact ⟨J, hJ⟩
          obtain ⟨J, hJ⟩ := hJ
          have hplays : ∀ n ∈ S, Plays R (plan n) (J n) := fun n hn => (hJ n hn).1
          have hval : ∀ n ∈ S, (plan n).Valid := by
            intro n hn
            obtain ⟨lg, pl, -, -, -, g4, g5, -⟩ := hplan n hn
            rw [g4]; exact g5
          obtain ⟨as1, hi', ha1, ha2⟩ := initLoop_like hplays s.players s s1 as hi hsame
            (fun n hn => (hJ n hn).2)
          have hlike : Like S J s1 as1 s1.logger := by
            refine ⟨ha1, ha2, fun n a ha => ⟨a, ha, rfl, rfl, rfl, rfl, fun _ => rfl, fun hn => ?_, fun hn => ?_⟩⟩
            · have := hready.logger n (by rw [hp1]; exact hS n hn)
              rw [ha] at this
              injection this with this
              rw [this]
            · have := hready.logger n (by rw [hp1]; exact hS n hn)
              rw [ha] at this
              injection this with this
              rw [this]
              rfl
          have hfit : Fits S plan s2 := by
            intro n hn lg hlg
            obtain ⟨lg', pl, g1, -, -, g4, -, g6⟩ := hplan n hn
            have e : lg' = lg := by
              rw [g1] at hlg; injection hlg
            rw [g4, g6, e]
            exact ⟨List.prefix_rfl, List.prefix_rfl⟩
          obtain ⟨as2, lg2, hl', hl2⟩ := loop_like hplays hval hsense fuel s1 s2 as1 s1.logger hl hnd1 hfit hlike
          obtain ⟨l', hw'⟩ := writeLog_like _ log0 log0 l hl2.logger hw
          have hlog' := writeLog_get _ _ _ hw'
          have hboth : ∀ n ∈ Dict.keys s2.models, ∃ pl pl', Dict.get? l n = some pl ∧ Dict.get? l' n = some pl' ∧
              pl'.states = pl.states ∧ pl'.commands = pl.commands ∧ pl'.info.ts = pl.info.ts ∧
              (n ∉ S → pl' = pl) ∧ (n ∈ S → pl'.extra = ⟨[], []⟩) := by
            intro n hn
            obtain ⟨lg, pl, g1, g2, g3⟩ := (hlog n).1 hn
            obtain ⟨lg', pl', k1, k2, k3⟩ := (hlog' n).1 hn
            obtain ⟨y, hy, hxy⟩ := hl2.logger n lg g1
            have e : y = lg' := by
              rw [k1] at hy; injection hy with hy; exact hy.symm
            subst e
            obtain ⟨pl2, q1, q2⟩ := hxy.asSequence g2
            have e : pl2 = pl' := by
              rw [k2] at q1; injection q1 with q1; exact q1.symm
            subst e
            exact ⟨pl, pl2, g3, k3, q2⟩
          refine ⟨other s2 as2 lg2, l', ?_, rfl, rfl, rfl, rfl, rfl, rfl, rfl, fun n hn => ?_, fun n hn => ?_⟩
          · have hi2 : initLoop { s with w := (as, s.w.2) } s.players = .ok (other s1 as1 s1.logger) := hi'
            have hw2 : writeLog (other s2 as2 lg2).logger (Dict.keys (other s2 as2 lg2).models) log0 = .ok l' := hw'
            unfold run
            simp only [hi2, hl', hw2]
          · by_cases hk : n ∈ Dict.keys s2.models
            · obtain ⟨pl, pl', g1, g2, -, -, -, g3, -⟩ := hboth n hk
              rw [g1, g2, g3 hn]
            · rw [(hlog n).2 hk, (hlog' n).2 hk]
          · obtain ⟨pl, pl', g1, g2, g3, g4, g5, -, g6⟩ := hboth n (hkeys n hn)
            exact ⟨pl, pl', g1, g2, g3, g4, g5, g6 hn⟩

/-! ## Players with `NPAgent` -/

/-- The world `R` in which agents may also be of the class `NPAgent` (agent.py:38-52): such an agent is its
plan. The computation time that is measured for it is `i`. -/
abbrev withPlans (R : Parts N K F.M F.S) (i : R.I) : Parts N K F.M F.S where
  A := R.A ⊕ Seq K R.C
  V := R.V
  X := R.X
  C := R.C
  I := R.I
  E := R.E
  G := R.G
  getState := R.getState
  isDyn := R.isDyn
  onInit a n := match a with
    | .inl a => (R.onInit a n).map .inl
    | .inr p => .ok (.inr p)
  sense := R.sense
  ask a o := match a with
    | .inl a => (R.ask a o).map fun r => (.inl r.1, r.2)
    | .inr p => (Agents.npCommands p o.time).map fun c => (.inr p, c, i)
  extra a := match a with
    | .inl a => (R.extra a).map fun r => (.inl r.1, r.2)
    | .inr p => .ok (.inr p, none)
  update := R.update
  fulfilled := R.fulfilled
  envQuery := R.envQuery

theorem plays_withPlans (R : Parts N K F.M F.S) (i : R.I) (plan : Seq K R.C) :
    Plays (withPlans R i) plan (fun a => a = .inr plan) where
  onInit a n h := by subst h; exact ⟨_, rfl, rfl⟩
  ask a o c h hc := by
    subst h
    refine ⟨.inr plan, i, ?_, rfl⟩
    change (Agents.npCommands plan o.time).map _ = _
    rw [hc]
    rfl
  extra a h := by subst h; exact ⟨_, rfl, rfl⟩

/-- The agents after the players in `S` have been given an `NPAgent` with the commands in the log as its plan. -/
def substitutes {i : R.I} (S : List N) (log : Dict N (PlayerLog (world F sc (withPlans R i))))
    (as : N → R.A ⊕ Seq K R.C) (n : N) : R.A ⊕ Seq K R.C :=
  if n ∈ S then match Dict.get? log n with
    | some pl => .inr pl.commands
    | none => as n
  else as n

/-- **C108.** The same for `NPAgent`: after a run, whose agents may be of any class, the players in `S` are given
an `NPAgent` each, with the commands in the log of the run as its plan. -/
theorem C108_npAgents_partial [IsStrictOrderedRing K] [FloorSemiring K] {i : R.I}
    {cfg : Cfg (world F sc (withPlans R i))} {fuel : Nat} {s t : St (world F sc (withPlans R i))}
    {log : Dict N (PlayerLog (world F sc (withPlans R i)))} (hf : Fresh s)
    (hrun : run cfg fuel s [] = some (.ok (t, log))) (S : List N) (hS : ∀ n ∈ S, n ∈ s.players)
    (hsense : ∀ n ∈ S, ∀ v o v' o', R.sense v n o = .ok (v', o') → o'.time = o.time) :
    ∃ t' log', run cfg fuel { s with w := (substitutes S log s.w.1, s.w.2) } [] = some (.ok (t', log')) ∧
      t'.models = t.models ∧ t'.players = t.players ∧ t'.time = t.time ∧ t'.reports = t.reports ∧
      ∀ n, (Dict.get? log' n).map (fun pl => (pl.states, pl.commands)) =
        (Dict.get? log n).map (fun pl => (pl.states, pl.commands)) := by
  obtain ⟨t', log', h1, h2, h3, h4, h5, -, -, -, h6, h7⟩ := C108_replay_partial hf hrun S hS hsense
    (substitutes S log s.w.1) (fun n hn => if_neg hn) (by
      intro n hn pl hpl
      refine ⟨fun a => a = .inr pl.commands, plays_withPlans R i pl.commands, ?_⟩
      simp only [substitutes, hn, hpl, if_true])
  refine ⟨t', log', h1, h2, h3, h4, h5, fun n => ?_⟩
  by_cases hn : n ∈ S
  · obtain ⟨pl, pl', g1, g2, g3, g4, -⟩ := h7 n hn
    rw [g1, g2]
    simp [g3, g4]
  · rw [h6 n hn]

/-! ## Concrete cases -/

namespace Replay

/-- The world of `Toy` with `NPAgent`s. -/
abbrev wd : World Nat ℚ := world toyF true (withPlans Toy.parts 0)

def cfg : Cfg wd where
  dt := 1 / 2
  dtCommands := 1
  maxSimTime := 2
  afterCollision := 4
  missions := []

/-- The start of `Toy`. -/
def start : St wd where
  models := Toy.start.models
  players := [0, 1, 2]
  w := (fun _ => .inl (0 : Nat), ())
  time := 0
  terminated := false
  reports := []
  firstColl := none
  lastObs := ⟨[], 0⟩
  lastCmdTs := none
  lastCmds := []
  logger := []
  trace := []

theorem fresh : Fresh start where
  time := rfl
  terminated := rfl
  reports := rfl
  firstColl := rfl
  lastCmdTs := rfl
  wfModels := by unfold Dict.Wf; decide
  players := by decide
  keys := by intro n; rfl
  trace := rfl

/-- The results of a run that ends. -/
def result {Wd : World Nat ℚ} (d : St Wd) (r : Option (Except SimErr (St Wd × Dict Nat (PlayerLog Wd)))) :
    St Wd × Dict Nat (PlayerLog Wd) := match r with
  | some (.ok x) => x
  | _ => (d, [])

def isResult {Wd : World Nat ℚ} (r : Option (Except SimErr (St Wd × Dict Nat (PlayerLog Wd)))) : Bool :=
  match r with
  | some (.ok _) => true
  | _ => false

theorem eq_result {Wd : World Nat ℚ} (d : St Wd)
    {r : Option (Except SimErr (St Wd × Dict Nat (PlayerLog Wd)))} (h : isResult r = true) :
    r = some (.ok (result d r)) := by
  unfold isResult at h
  split at h
  · rfl
  · cases h

/-- In the first run two cars collide and all are driven by their agents; in the second run cars 0 and 2 play
their logged commands. -/
example : (result start (run cfg 9 start [])).1.reports.map (fun r => (r.players, r.atTime)) = [([0, 1], 1), ([2, 99], 2)] ∧
    ((Dict.get? (result start (run cfg 9 start [])).2 0).map fun pl => (pl.commands.vs, pl.extra.vs)) =
      some ([1, 0, 0], [7]) := by
  decide +kernel

example : ∃ t' log', run cfg 9 { start with
      w := (substitutes [0, 2] (result start (run cfg 9 start [])).2 start.w.1, ()) } [] = some (.ok (t', log')) ∧
    t'.models = (result start (run cfg 9 start [])).1.models := by
  obtain ⟨t', log', h1, h2, -⟩ := C108_npAgents_partial fresh (eq_result start (by decide +kernel) :
    run cfg 9 start [] = some (.ok ((result start (run cfg 9 start [])).1, (result start (run cfg 9 start [])).2)))
    [0, 2] (by decide) (by
      intro n _ v o v' o' h
      injection h with h
      injection h with _ h
      rw [h])
  exact ⟨t', log', h1, h2⟩

/-- One car whose sensor delays observations by one second (sim_perception.py:97-120); its agent counts. -/
abbrev lagParts : Parts Nat ℚ toyF.M toyF.S where
  A := Nat
  V := Unit × Perception.History Nat ℚ ℚ ℚ
  X := ℚ
  C := ℚ
  I := Unit
  E := Unit
  G := Unit
  getState m := m.1
  isDyn _ := false
  onInit a _ := .ok a
  sense v n o := (Perception.delayed (Perception.idFilter Nat ℚ ℚ ℚ Unit) 1).sense v () o n
  ask a _ := .ok (a + 1, a, ())
  extra a := .ok (a, none)
  update v _ m c dt := .ok (v, ((m.1 + c * dt, m.2) : ℚ × ((ℚ × ℚ) × ℚ) × Bool))
  fulfilled v _ _ _ _ := .ok (v, false)
  envQuery _ _ := []

abbrev lagWd : World Nat ℚ := world toyF true (withPlans lagParts ())

def lagCfg : Cfg lagWd where
  dt := 1
  dtCommands := 1
  maxSimTime := 2
  afterCollision := 4
  missions := []

def lagStart : St lagWd where
  models := [(0, ((0 : ℚ), (((0 : ℚ), (0 : ℚ)), (0 : ℚ)), false))]
  players := [0]
  w := (fun _ => .inl (0 : Nat), ((), []))
  time := 0
  terminated := false
  reports := []
  firstColl := none
  lastObs := ⟨[], 0⟩
  lastCmdTs := none
  lastCmds := []
  logger := []
  trace := []

theorem lagFresh : Fresh lagStart where
  time := rfl
  terminated := rfl
  reports := rfl
  firstColl := rfl
  lastCmdTs := rfl
  wfModels := by unfold Dict.Wf; decide
  players := by decide
  keys := by intro n; rfl
  trace := rfl

end Replay

open Replay in
/-- **C108 is false with delayed observations**: `NPAgent` looks up its plan at the time of the observation it is
given, which `DelayedObsFilter` has changed. The agent of the only player commands 0, 1 and 2; an `NPAgent` with
these commands as its plan commands 1, 1 and 2, and the player ends elsewhere. -/
theorem C108_false_delayed : ∃ t log pl t' log' pl', Fresh lagStart ∧
    run lagCfg 9 lagStart [] = some (.ok (t, log)) ∧ Dict.get? log 0 = some pl ∧
    run lagCfg 9 { lagStart with w := (fun _ => .inr pl.commands, lagStart.w.2) } [] = some (.ok (t', log')) ∧
    Dict.get? log' 0 = some pl' ∧ pl.commands = ⟨[0, 1, 2], [0, 1, 2]⟩ ∧
    pl'.commands = ⟨[0, 1, 2], [1, 1, 2]⟩ ∧ t'.models ≠ t.models := by
  have h1 := eq_result lagStart (show isResult (run lagCfg 9 lagStart []) = true by decide +kernel)
  have h2 := eq_result lagStart (show isResult (run lagCfg 9
    { lagStart with w := (fun _ => .inr ⟨[0, 1, 2], [0, 1, 2]⟩, lagStart.w.2) } []) = true by decide +kernel)
  have h3 : ((Dict.get? (result lagStart (run lagCfg 9 lagStart [])).2 0).map fun pl => pl.commands) =
      some ⟨[0, 1, 2], [0, 1, 2]⟩ := by decide +kernel
  have h4 : ((Dict.get? (result lagStart (run lagCfg 9
      { lagStart with w := (fun _ => .inr ⟨[0, 1, 2], [0, 1, 2]⟩, lagStart.w.2) } [])).2 0).map
      fun pl => pl.commands) = some ⟨[0, 1, 2], [1, 1, 2]⟩ := by decide +kernel
  have h5 : (result lagStart (run lagCfg 9
      { lagStart with w := (fun _ => .inr ⟨[0, 1, 2], [0, 1, 2]⟩, lagStart.w.2) } [])).1.models ≠
      (result lagStart (run lagCfg 9 lagStart [])).1.models := by decide +kernel
  obtain ⟨pl, hpl, hc⟩ := Option.map_eq_some_iff.mp h3
  obtain ⟨pl', hpl', hc'⟩ := Option.map_eq_some_iff.mp h4
  refine ⟨_, _, pl, _, _, pl', lagFresh, h1, hpl, ?_, hpl', hc, hc', h5⟩
  rw [hc]
  exact h2

end Whole
end Verif
