import Verif.Whole.HistoryProps

/-!
# C126: what a simulation does to one player, step by step
-/

namespace Verif
namespace Whole

open Sim Coll

set_option linter.unusedSectionVars false

variable {N K : Type} [DecidableEq N] [Field K] [LinearOrder K] {F : Iface N K} {sc : Bool}
  {R : Parts N K F.M F.S}

/-- The sensing, asking and driving of `n`. -/
def mine {Wd : World N K} (n : N) : Event Wd → Bool
  | .sense _ n' _ => decide (n' = n)
  | .ask _ n' _ => decide (n' = n)
  | .drive _ n' _ _ => decide (n' = n)
  | _ => false

/-- The agent, the model and the last command of `n`, which were `a`, `m` and `c`, after these calls. -/
inductive Life (R : Parts N K F.M F.S) (dt : K) (n : N) (a : R.A) (m : F.M) (c : Option R.C) :
    List (Event (world F sc R)) → R.A → F.M → Option R.C → Prop
  | start : Life R dt n a m c [] a m c
  | ask {l b m' c' v os v' o b' u i b'' e t} : Life R dt n a m c l b m' c' →
      R.sense v n os = .ok (v', o) → R.ask b o = .ok (b', u, i) → R.extra b' = .ok (b'', e) →
      Life R dt n a m c (l ++ [.sense t n os, .ask t n o]) b'' m' (some u)
  | drive {l b m' u v v' m'' t} : Life R dt n a m c l b m' (some u) →
      R.update v n m' u dt = .ok (v', m'') → Life R dt n a m c (l ++ [.drive t n m' u]) b m'' (some u)

theorem Life.isDyn {dt : K} (hL : Lawful F R dt) {n : N} {a a' : R.A} {m m' : F.M} {c c' : Option R.C}
    {l : List (Event (world F sc R))} (h : Life R dt n a m c l a' m' c') : R.isDyn m' = R.isDyn m := by
  induction h with
  | start => rfl
  | ask _ _ _ _ ih => exact ih
  | drive _ hu ih => rw [hL.dynUpdate _ _ _ _ _ _ hu, ih]

/-- Unless named in a report, `n` has lived through the calls that followed `tr`. -/
def Lives (R : Parts N K F.M F.S) (dt : K) (n : N) (a : R.A) (m : F.M) (c : Option R.C)
    (tr : List (Event (world F sc R))) (s : St (world F sc R)) : Prop :=
  s.players.Nodup ∧ (¬ Named s.reports n → ∃ l m', s.trace = tr ++ l ∧ Dict.get? s.models n = some m' ∧
    Life R dt n a m c (l.filter (mine n)) (s.w.1 n) m' (Dict.get? s.lastCmds n))

theorem filter_mine_append {Wd : World N K} (n : N) (l l' : List (Event Wd)) (h : l'.filter (mine n) = []) :
    (l ++ l').filter (mine n) = l.filter (mine n) := by
  rw [List.filter_append, h, List.append_nil]

theorem askPlayer_parts {s s' : St (world F sc R)} {n : N} (h : askPlayer s n = .ok s') :
    ∃ v o a u i b e, R.sense s.w.2 n s.lastObs = .ok (v, o) ∧ R.ask (s.w.1 n) o = .ok (a, u, i) ∧
      R.extra a = .ok (b, e) ∧ s'.w.1 = Function.update s.w.1 n b ∧
      s'.lastCmds = Dict.set s.lastCmds n u ∧
      s'.trace = s.trace ++ [.sense s.time n s.lastObs, .ask s.time n o] := by
  unfold askPlayer at h
  obtain ⟨⟨w1, o⟩, hs, ha⟩ := bind_ok.mp h
  obtain ⟨⟨w2, c, i⟩, hc, ha⟩ := bind_ok.mp ha
  obtain ⟨lg, hl, ha⟩ := bind_ok.mp ha
  obtain ⟨cs, hcs, ha⟩ := bind_ok.mp ha
  obtain ⟨is, his, ha⟩ := bind_ok.mp ha
  obtain ⟨⟨w3, ex⟩, hex, ha⟩ := bind_ok.mp ha
  obtain ⟨es, hes, ha⟩ := bind_ok.mp ha
  injection ha with ha
  obtain ⟨v, hsense, hw1⟩ : ∃ v, R.sense s.w.2 n s.lastObs = .ok (v, o) ∧ w1.1 = s.w.1 := by
    have hs := liftU_ok.mp hs
    change (match R.sense s.w.2 n s.lastObs with
      | .error e => .error e
      | .ok (v, o') => .ok ((s.w.1, v), o')) = Except.ok (w1, o) at hs
    split at hs
    · cases hs
    · rename_i v o' hv
      injection hs with hs1
      injection hs1 with hs2 e2
      subst e2
      exact ⟨v, hv, by rw [← hs2]⟩
  obtain ⟨a, hask, hw2⟩ : ∃ a, R.ask (w1.1 n) o = .ok (a, c, i) ∧ w2.1 = Function.update w1.1 n a := by
    have hs := liftU_ok.mp hc
    change (match R.ask (w1.1 n) o with
      | .error e => .error e
      | .ok (a, c, i) => .ok ((Function.update w1.1 n a, w1.2), c, i)) = Except.ok (w2, c, i) at hs
    split at hs
    · cases hs
    · rename_i a c' i' hask
      injection hs with hs
      injection hs with hs1 hs2
      injection hs2 with hs2 hs3
      subst hs2 hs3
      exact ⟨a, hask, by rw [← hs1]⟩
  obtain ⟨b, hextra, hw3⟩ : ∃ b, R.extra (w2.1 n) = .ok (b, ex) ∧ w3.1 = Function.update w2.1 n b := by
    have hs := liftU_ok.mp hex
    change (match R.extra (w2.1 n) with
      | .error e => .error e
      | .ok (a, x) => .ok ((Function.update w2.1 n a, w2.2), x)) = Except.ok (w3, ex) at hs
    split at hs
    · cases hs
    · rename_i b x hextra
      injection hs with hs
      injection hs with hs1 hs2
      subst hs2
      exact ⟨b, hextra, by rw [← hs1]⟩
  subst ha
  rw [hw1] at hask hw2
  rw [hw2, Function.update_self] at hextra
  refine ⟨v, o, a, c, i, b, ex, hsense, hask, hextra, ?_, rfl, rfl⟩
  rw [hw3, hw2, Function.update_idem]

theorem update_parts {w w' : (N → R.A) × R.V} {n : N} {m m' : F.M} {c : R.C} {dt : K}
    (h : (world F sc R).update w n m c dt = .ok (w', m')) :
    w'.1 = w.1 ∧ R.update w.2 n m c dt = .ok (w'.2, m') := by
  change (match R.update w.2 n m c dt with
    | .error e => .error e
    | .ok (v, m') => .ok ((w.1, v), m')) = Except.ok (w', m') at h
  split at h
  · cases h
  · rename_i v m2 hu
    injection h with h
    injection h with e1 e2
    subst e1 e2
    exact ⟨rfl, hu⟩

theorem removePlayer_agents {s s' : St (world F sc R)} {p : N} {g : R.G} (h : removePlayer s p g = .ok s') :
    s'.w.1 = s.w.1 ∧ s'.lastCmds = s.lastCmds := by
  unfold removePlayer at h
  split at h
  · obtain ⟨m, -, h⟩ := bind_ok.mp h
    obtain ⟨⟨w', b⟩, hf, h⟩ := bind_ok.mp h
    have hw : w'.1 = s.w.1 := by
      have hf := liftU_ok.mp hf
      change (match R.fulfilled s.w.2 p g _ s.time with
        | .error e => .error e
        | .ok (v, b) => .ok ((s.w.1, v), b)) = Except.ok (w', b) at hf
      split at hf
      · cases hf
      · injection hf with hf
        injection hf with hf _
        rw [← hf]
    dsimp only at h
    split at h
    · obtain ⟨lg, hl, h⟩ := bind_ok.mp h
      obtain ⟨states, -, h⟩ := bind_ok.mp h
      injection h with h
      subst h
      exact ⟨hw, rfl⟩
    · injection h with h
      subst h
      exact ⟨hw, rfl⟩
  · injection h with h
    subst h
    exact ⟨rfl, rfl⟩

theorem envObstacle_cmds {Wd : World N K} {s s' : St Wd} {p : N} {o : Wd.O} (h : envObstacle s p o = .ok s') :
    s'.lastCmds = s.lastCmds := by
  unfold envObstacle at h
  obtain ⟨m, -, h⟩ := bind_ok.mp h
  obtain ⟨rep, -, h⟩ := bind_ok.mp h
  injection h with h
  subst h
  cases rep with
  | none => rfl
  | some rep => dsimp only; split <;> rfl

theorem checkPair_cmds {Wd : World N K} {s s' : St Wd} {a b : N} (h : checkPair s a b = .ok s') :
    s'.lastCmds = s.lastCmds := by
  unfold checkPair at h
  obtain ⟨m1, -, h⟩ := bind_ok.mp h
  obtain ⟨m2, -, h⟩ := bind_ok.mp h
  dsimp only at h
  split at h
  · obtain ⟨rep, -, h⟩ := bind_ok.mp h
    injection h with h
    subst h
    cases rep <;> rfl
  · injection h with h
    subst h
    rfl

theorem lives_closed (cfg : Cfg (world F sc R)) (hL : Lawful F R cfg.dt) (n : N) (a0 : R.A) (m0 : F.M)
    (c0 : Option R.C) (tr : List (Event (world F sc R))) (hdyn0 : R.isDyn m0 = false) :
    Closed cfg (Lives (sc := sc) R cfg.dt n a0 m0 c0 tr) where
  nodup s h := h.1
  observed s ps h _ := h
  logged s k m lg states h _ _ _ _ := h
  asked s k s' h _ ha := by
    obtain ⟨e1, e2, -, -, e3⟩ := askPlayer_frame ha
    obtain ⟨v, o, a, u, i, b, e, h1, h2, h3, h4, h5, h6⟩ := askPlayer_parts ha
    refine ⟨by rw [e1]; exact h.1, fun hk => ?_⟩
    rw [e3] at hk
    obtain ⟨l, m', g1, g2, g3⟩ := h.2 hk
    refine ⟨l ++ [.sense s.time k s.lastObs, .ask s.time k o], m', by rw [h6, g1, List.append_assoc],
      by rw [e2]; exact g2, ?_⟩
    by_cases hkn : k = n
    · subst hkn
      rw [h4, h5, Function.update_self, Dict.get?_set_self, List.filter_append]
      have : [(Event.sense s.time k s.lastObs : Event (world F sc R)), .ask s.time k o].filter (mine k) =
          [.sense s.time k s.lastObs, .ask s.time k o] := by simp [mine]
      rw [this]
      exact g3.ask h1 h2 h3
    · rw [filter_mine_append _ _ _ (by simp [mine, hkn]), h4, h5, Function.update_of_ne (Ne.symm hkn),
        Dict.get?_set_ne _ hkn]
      exact g3
  driven s k m c w' m' h _ hm hc hu := by
    obtain ⟨hw, hu'⟩ := update_parts hu
    refine ⟨h.1, fun hk => ?_⟩
    obtain ⟨l, mk, g1, g2, g3⟩ := h.2 hk
    dsimp only
    by_cases hkn : k = n
    · subst hkn
      have hm' : m = mk := by rw [hm] at g2; injection g2
      subst hm'
      refine ⟨l ++ [.drive s.time k m c], m', by rw [g1, List.append_assoc], Dict.get?_set_self _ _ _, ?_⟩
      have : [(Event.drive s.time k m c : Event (world F sc R))].filter (mine k) = [.drive s.time k m c] := by
        simp [mine]
      rw [List.filter_append, this, hw, hc]
      rw [hc] at g3
      exact g3.drive hu'
    · refine ⟨l ++ [.drive s.time k m c], mk, by rw [g1, List.append_assoc],
        by rw [Dict.get?_set_ne _ hkn]; exact g2, ?_⟩
      rw [filter_mine_append _ _ _ (by simp [mine, hkn]), hw]
      exact g3
  stamped s h := h
  timed s h := h
  removed s p g s' h hr := by
    obtain ⟨e1, e2, e3⟩ := removePlayer_frame hr
    obtain ⟨e4, e5⟩ := removePlayer_agents hr
    refine ⟨?_, fun hk => ?_⟩
    · rcases e3 with e | e <;> rw [e]
      · exact h.1
      · exact h.1.erase p
    · rw [e2] at hk
      obtain ⟨l, mk, g1, g2, g3⟩ := h.2 hk
      rw [e1, e4, e5]
      rcases removePlayer_trace hr with e | ⟨x, e⟩ <;> rw [e]
      · exact ⟨l, mk, g1, g2, g3⟩
      · refine ⟨l ++ [_], mk, by rw [g1, List.append_assoc], g2, ?_⟩
        rw [filter_mine_append _ _ _ (by simp [mine])]
        exact g3
  ended s b h := h
  traced s p h := by
    refine ⟨h.1, fun hk => ?_⟩
    obtain ⟨l, mk, g1, g2, g3⟩ := h.2 hk
    refine ⟨l ++ [.env s.time p], mk, by rw [g1, List.append_assoc], g2, ?_⟩
    rw [filter_mine_append _ _ _ (by simp [mine])]
    exact g3
  env s p o s' h _ _ he := by
    refine ⟨by rw [envObstacle_players he]; exact h.1, fun hk => ?_⟩
    have ec := envObstacle_cmds he
    obtain ⟨m, rep, hm, hr, e1, ew, -, e2⟩ := envObstacle_frame he
    have ew : s'.w = s.w := ew
    rw [e2] at hk
    rw [e1, envObstacle_trace he, ew, ec]
    have hk' : ¬ Named s.reports n := fun ⟨r, h1, h2⟩ => hk ⟨r, by simp [h1], h2⟩
    obtain ⟨l, mk, g1, g2, g3⟩ := h.2 hk'
    refine ⟨l, mk, g1, ?_, g3⟩
    by_cases hkp : p = n
    · subst hkp
      have hm' : m = mk := by rw [hm] at g2; injection g2
      subst hm'
      rw [Dict.get?_set_self]
      have hdyn : R.isDyn m = false := by rw [g3.isDyn hL, hdyn0]
      obtain ⟨hc, hdyn'⟩ := resolveEnv_cases hL s.time p m o.1 o.2
      change reportOf [p, F.envPlayer] [p] s.time (Coll.resolveEnv F s.time p m o.1 o.2).2 = .ok rep at hr
      have hdyn2 : (world F sc R).isDyn ((world F sc R).resolveEnv s.w p m o s.time).1.2 = false := by
        change R.isDyn (Coll.resolveEnv F s.time p m o.1 o.2).1 = false
        rw [hdyn', hdyn]
      rw [hdyn2] at hk
      simp only [Bool.false_eq_true, if_false] at hk
      rcases reportOf_cases hr with ⟨h1, -⟩ | ⟨d', -, h1⟩ | ⟨-, h1⟩
      · rcases hc with ⟨h2, -⟩ | ⟨-, ⟨e, h2⟩ | ⟨d, h2, -⟩⟩
        · have : ((world F sc R).resolveEnv s.w p m o s.time).1.2 = m := h2
          rw [this]
        · rw [h1] at h2; cases h2
        · rw [h1] at h2; cases h2
      · exact absurd ⟨_, by rw [h1]; simp; right; rfl, by simp⟩ hk
      · exact absurd ⟨_, by rw [h1]; simp; right; rfl, by simp⟩ hk
    · rw [Dict.get?_set_ne _ hkp]; exact g2
  pair s a b s' h _ _ hab hp := by
    refine ⟨by rw [checkPair_players hp]; exact h.1, fun hk => ?_⟩
    have ec := checkPair_cmds hp
    rw [checkPair_trace hp, ec]
    obtain ⟨ma, mb, ha, hb, ⟨-, e1, ew, -, e2⟩ | ⟨rep, -, hr, e1, ew, -, e2⟩⟩ := checkPair_frame hp
    · rw [e1, ew]; rw [e2] at hk
      obtain ⟨l, mk, g1, g2, g3⟩ := h.2 hk
      refine ⟨l ++ [.pair s.time a b], mk, by rw [g1, List.append_assoc], g2, ?_⟩
      rw [filter_mine_append _ _ _ (by simp [mine])]
      exact g3
    · rw [e2] at hk
      have ew : s'.w = s.w := ew
      rw [e1, ew]
      have hk' : ¬ Named s.reports n := fun ⟨r, h1, h2⟩ => hk ⟨r, by simp [h1], h2⟩
      obtain ⟨l, mk, g1, g2, g3⟩ := h.2 hk'
      change reportOf [a, b] [a, b] s.time (Coll.resolve F sc s.time a ma b mb).2 = .ok rep at hr
      obtain ⟨hc, -⟩ := resolve_cases (sc := sc) hL s.time a b hab ma mb
      have hsame : (n = a ∨ n = b) → (Coll.resolve F sc s.time a ma b mb).1 = (ma, mb) := by
        intro hkab
        rcases reportOf_cases hr with ⟨h1, -⟩ | ⟨d', -, h1⟩ | ⟨-, h1⟩
        · rcases hc with ⟨h2, -⟩ | ⟨-, -, h2 | ⟨d, h2, -⟩⟩
          · exact h2
          · rw [h1] at h2; cases h2
          · rw [h1] at h2; cases h2
        · exact absurd ⟨_, by rw [h1]; simp; right; rfl, by simpa using hkab⟩ hk
        · exact absurd ⟨_, by rw [h1]; simp; right; rfl, by simpa using hkab⟩ hk
      refine ⟨l ++ [.pair s.time a b], mk, by rw [g1, List.append_assoc], ?_, by
        rw [filter_mine_append _ _ _ (by simp [mine])]
        exact g3⟩
      change Dict.get? (Dict.set (Dict.set s.models a (Coll.resolve F sc s.time a ma b mb).1.1) b
        (Coll.resolve F sc s.time a ma b mb).1.2) n = some mk
      rw [Dict.get?_set]
      split
      · rename_i e
        subst e
        rw [hsame (Or.inr rfl)]
        rw [← g2, hb]
      · rw [Dict.get?_set]
        split
        · rename_i e
          subst e
          rw [hsame (Or.inl rfl)]
          rw [← g2, ha]
        · exact g2

/-- Among the calls of a step, those of one player. -/
theorem filter_mine_step {Wd : World N K} (s : St Wd) (b : Bool) (n : N) :
    ∀ es : List (N × Obs N K Wd.X Wd.P × Wd.M × Wd.C), (es.map Prod.fst).Nodup → n ∈ es.map Prod.fst →
      ∃ e ∈ es, e.1 = n ∧ (es.flatMap (fun e => playerEvents s b e.1 e.2.1 e.2.2.1 e.2.2.2)).filter (mine n) =
        playerEvents s b n e.2.1 e.2.2.1 e.2.2.2
  | [], _, h => by simp at h
  | e :: es, hnd, h => by
    simp only [List.map_cons, List.nodup_cons] at hnd
    rw [List.flatMap_cons, List.filter_append]
    by_cases hen : e.1 = n
    · refine ⟨e, by simp, hen, ?_⟩
      have h1 : (playerEvents s b e.1 e.2.1 e.2.2.1 e.2.2.2).filter (mine n) =
          playerEvents s b n e.2.1 e.2.2.1 e.2.2.2 := by
        cases b <;> simp [playerEvents, mine, hen]
      have h2 : (es.flatMap (fun e => playerEvents s b e.1 e.2.1 e.2.2.1 e.2.2.2)).filter (mine n) = [] := by
        rw [List.filter_eq_nil_iff]
        intro x hx
        obtain ⟨e', he', hx⟩ := List.mem_flatMap.mp hx
        have : e'.1 ≠ n := fun h' => hnd.1 (by rw [hen, ← h']; exact List.mem_map_of_mem he')
        cases b <;> simp [playerEvents] at hx
        · subst hx; simp [mine, this]
        · rcases hx with rfl | rfl | rfl <;> simp [mine, this]
      rw [h1, h2, List.append_nil]
    · have h1 : (playerEvents s b e.1 e.2.1 e.2.2.1 e.2.2.2).filter (mine n) = [] := by
        cases b <;> simp [playerEvents, mine, hen]
      rw [h1, List.nil_append]
      simp only [List.map_cons, List.mem_cons] at h
      obtain ⟨e', h2, h3, h4⟩ := filter_mine_step s b n es hnd.2 (by
        rcases h with h | h
        · exact absurd h.symm hen
        · exact h)
      exact ⟨e', by simp [h2], h3, h4⟩

theorem Life.nil {dt : K} {n : N} {a a' : R.A} {m m' : F.M} {c c' : Option R.C}
    (h : Life (sc := sc) R dt n a m c [] a' m' c') : a' = a ∧ m' = m ∧ c' = c := by
  generalize hl : ([] : List (Event (world F sc R))) = l at h
  cases h with
  | start => exact ⟨rfl, rfl, rfl⟩
  | ask _ _ _ _ => simp at hl
  | drive _ _ => simp at hl

theorem Life.last_drive {dt : K} {n : N} {a a' : R.A} {m m' mu : F.M} {c c' : Option R.C} {u : R.C} {t : K}
    {l : List (Event (world F sc R))} (h : Life R dt n a m c (l ++ [.drive t n mu u]) a' m' c') :
    Life R dt n a m c l a' mu (some u) ∧ c' = some u ∧ ∃ v v', R.update v n mu u dt = .ok (v', m') := by
  generalize hl : l ++ [Event.drive t n mu u] = l' at h
  cases h with
  | start => simp at hl
  | ask _ _ _ _ =>
    rename_i l2 _ _ _ _ os _ o _ _ _ _ t' _ _ _ _
    have := congrArg List.getLast? hl
    simp at this
  | drive h1 h2 =>
    obtain ⟨e1, e2⟩ := List.append_inj' hl rfl
    have e2 := (List.cons.inj e2).1
    injection e2 with e3 e4 e5 e6
    subst e1 e5 e6
    exact ⟨h1, rfl, _, _, h2⟩

theorem Life.last_ask {dt : K} {n : N} {a a' : R.A} {m m' : F.M} {c c' : Option R.C} {t : K}
    {os o : Obs N K R.X F.S} {l : List (Event (world F sc R))}
    (h : Life R dt n a m c (l ++ [.sense t n os, .ask t n o]) a' m' c') :
    ∃ b cb v v' b' u i e, Life R dt n a m c l b m' cb ∧ c' = some u ∧ R.sense v n os = .ok (v', o) ∧
      R.ask b o = .ok (b', u, i) ∧ R.extra b' = .ok (a', e) := by
  generalize hl : l ++ [Event.sense t n os, Event.ask t n o] = l' at h
  cases h with
  | start => simp at hl
  | ask h1 h2 h3 h4 =>
    obtain ⟨e1, e2⟩ := List.append_inj' hl rfl
    obtain ⟨e2, e3⟩ := List.cons.inj e2
    have e3 := (List.cons.inj e3).1
    injection e2 with _ _ e4
    injection e3 with _ _ e5
    subst e1 e4 e5
    exact ⟨_, _, _, _, _, _, _, _, h1, rfl, h2, h3, h4⟩
  | drive _ _ =>
    have := congrArg List.getLast? hl
    simp at this

/-- **C126.** One step of a simulation, for a player that no report names: at the steps at which commands are
requested (see C24) its sensor is given the situation at the beginning of the step, its agent is asked with what
the sensor makes of it, and its model is updated with the reply; at the other steps its agent is left alone and its
model is updated with the last reply. Nothing else happens to its agent and its model. -/
theorem C126_step [IsStrictOrderedRing K] [FloorSemiring K] {cfg : Cfg (world F sc R)} (hL : Lawful F R cfg.dt)
    (hdt : 0 < cfg.dt) (hm : Dict.Wf cfg.missions) {σ : Nat → St (world F sc R)}
    {j : Nat} (h0 : Ready (σ 0)) (hx : Exec cfg σ (j + 1)) (n : N) (hn : n ∈ (σ j).players) {m : F.M}
    (hmn : Dict.get? (σ j).models n = some m) (hdyn : R.isDyn m = false)
    (hnot : ¬ Named (σ (j + 1)).reports n) :
    ∃ m' u v v', Dict.get? (σ (j + 1)).models n = some m' ∧ R.update v n m u cfg.dt = .ok (v', m') ∧
      Dict.get? (σ (j + 1)).lastCmds n = some u ∧
      (period cfg ∣ j → ∃ os o w w' a i e, IsSnapshot (σ j).models (σ j).players (σ j).time os ∧
        R.sense w n os = .ok (w', o) ∧ R.ask ((σ j).w.1 n) o = .ok (a, u, i) ∧
        R.extra a = .ok ((σ (j + 1)).w.1 n, e) ∧ .ask (σ j).time n o ∈ (σ (j + 1)).trace) ∧
      (¬ period cfg ∣ j → (σ (j + 1)).w.1 n = (σ j).w.1 n ∧ Dict.get? (σ j).lastCmds n = some u) := by
  have hx' : Exec cfg σ j := fun i hi => hx i (by omega)
  have hinv := inv_of_exec (inv_zero cfg σ h0) hdt hm j hx'
  have hneed := need_iff hinv hdt
  obtain ⟨o, es, gl, cl, hse⟩ := step_events h0 hdt hm hx
  have hl := (lives_closed cfg hL n ((σ j).w.1 n) m (Dict.get? (σ j).lastCmds n) (σ j).trace hdyn).step
    (s := σ j) ⟨players_nodup h0 hx', fun _ => ⟨[], m, by simp, hmn, Life.start⟩⟩ (hx j (by omega)).2
  obtain ⟨l, m', g1, g2, g3⟩ := hl.2 hnot
  have hev : eventsOf σ j = l := by
    unfold eventsOf
    rw [g1]
    simp
  obtain ⟨e, he, hen, hfe⟩ := filter_mine_step { (σ j) with lastObs := o } (need cfg (σ j)) n es
    (by rw [hse.names]; exact players_nodup h0 hx') (by rw [hse.names]; exact hn)
  have hrest : (gl ++ cl).filter (mine n) = [] := by
    rw [List.filter_eq_nil_iff]
    intro x hx
    rcases List.mem_append.mp hx with hx | hx
    · obtain ⟨p, y, -, rfl⟩ := hse.goals x hx
      simp [mine]
    · rw [hse.colls] at hx
      split at hx
      · simp at hx
      · rcases List.mem_append.mp hx with hx | hx
        · obtain ⟨p, -, rfl⟩ := List.mem_map.mp hx
          simp [mine]
        · obtain ⟨p, -, rfl⟩ := List.mem_map.mp hx
          simp [mine]
  have hfl : l.filter (mine n) = playerEvents { (σ j) with lastObs := o } (need cfg (σ j)) n e.2.1 e.2.2.1 e.2.2.2 := by
    rw [← hev, hse.eq, List.append_assoc, List.filter_append, hfe, hrest, List.append_nil]
  rw [hfl] at g3
  unfold playerEvents at g3
  obtain ⟨h1, h2, v, v', h3⟩ := g3.last_drive
  by_cases hb : need cfg (σ j) = true
  · rw [if_pos hb] at h1
    have h1' : Life R cfg.dt n ((σ j).w.1 n) m (Dict.get? (σ j).lastCmds n) ([] ++
        [.sense (σ j).time n o, .ask (σ j).time n e.2.1]) ((σ (j + 1)).w.1 n) e.2.2.1 (some e.2.2.2) := h1
    obtain ⟨b, cb, w, w', b', u, i, ex, k1, k2, k3, k4, k5⟩ := h1'.last_ask
    obtain ⟨rfl, e2, -⟩ := k1.nil
    injection k2 with k2
    subst k2
    rw [e2] at h3
    refine ⟨m', e.2.2.2, v, v', g2, h3, h2, fun _ => ⟨o, e.2.1, w, w', b', i, ex, hse.snap hb, k3, k4, k5, ?_⟩, ?_⟩
    · have : (Event.ask (σ j).time n e.2.1 : Event (world F sc R)) ∈ l.filter (mine n) := by
        rw [hfl]
        simp [playerEvents, hb]
      rw [g1]
      exact List.mem_append_right _ (List.mem_filter.mp this).1
    intro hp
    exact absurd (hneed.mp hb) hp
  · rw [if_neg hb] at h1
    obtain ⟨e1, e2, e3⟩ := h1.nil
    rw [e2] at h3
    exact ⟨m', e.2.2.2, v, v', g2, h3, h2, fun hp => absurd (hneed.mpr hp) hb, fun _ => ⟨e1, e3.symm⟩⟩

/-- Car 2 of `Toy` in the first step, in which it is asked. -/
example : ∃ m' u v v', Dict.get? (Toy.σ 1).models 2 = some m' ∧
    Toy.parts.update v 2 ((25 : ℚ), (((2 : ℚ), (0 : ℚ)), (0 : ℚ)), false) u Toy.cfg.dt = .ok (v', m') ∧
    ∃ os, IsSnapshot (Toy.σ 0).models (Toy.σ 0).players (Toy.σ 0).time os := by
  have hn : ¬ Named (Toy.σ 1).reports 2 := by
    have h : ∀ ps ∈ (Toy.σ 1).reports.map (fun r => r.players), (2 : Nat) ∉ ps := by decide +kernel
    rintro ⟨r, h1, h2⟩
    exact h _ (List.mem_map_of_mem h1) h2
  obtain ⟨m', u, v, v', h1, h2, -, h3, -⟩ := C126_step (Toy.lawful _) Toy.dt_pos Toy.wf (σ := Toy.σ) (j := 0) Toy.ready
    (fun i hi => Toy.exec i (by omega)) 2 (by decide +kernel)
    (m := ((25 : ℚ), (((2 : ℚ), (0 : ℚ)), (0 : ℚ)), false)) (by decide +kernel) rfl hn
  obtain ⟨os, o, w, w', a, i, e, h4, -⟩ := h3 (dvd_zero _)
  exact ⟨m', u, v, v', h1, h2, os, h4⟩

end Whole
end Verif
