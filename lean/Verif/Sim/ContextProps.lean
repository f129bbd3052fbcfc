import Verif.Sim.Context
import Verif.Sim.TotalProps

/-!
# C115: contexts that are accepted can be run; C116: running a finished context again
-/

set_option linter.unusedSectionVars false

namespace Verif
namespace Sim

variable {N K : Type} [DecidableEq N] {Wd : World N K} {A F : Type}

/-- Specification: what `SimContext` asks for. -/
structure Accepted (a : Args Wd A F) : Prop where
  /-- the same players have models and agents -/
  names : ∀ n, n ∈ Dict.keys a.models ↔ n ∈ Dict.keys a.players
  models : ∀ n m, Dict.get? a.models n = some m → m ≠ none
  agents : ∀ n p, Dict.get? a.players n = some p → p ≠ none
  /-- missions are goals of players -/
  missions : ∀ ms, a.missions = some ms → (∀ n ∈ Dict.keys ms, n ∈ Dict.keys a.models) ∧ ∀ q ∈ ms, q.2 ≠ none
  scenario : a.isScenario = true

theorem assertThat_ok {b : Bool} : assertThat b = .ok () ↔ b = true := by
  cases b <;> simp [assertThat]

theorem assertThat_cases (b : Bool) : assertThat b = .ok () ∨ assertThat b = .error .assertion := by
  cases b <;> simp [assertThat]

theorem sameKeys_iff {α β : Type} (d : Dict N α) (e : Dict N β) :
    sameKeys d e = true ↔ ∀ n, n ∈ Dict.keys d ↔ n ∈ Dict.keys e := by
  simp only [sameKeys, Bool.and_eq_true, List.all_eq_true, decide_eq_true_eq]
  exact ⟨fun h n => ⟨h.1 n, h.2 n⟩, fun h => ⟨fun n => (h n).1, fun n => (h n).2⟩⟩

theorem bind_unit {x : Except Err Unit} {α : Type} {f : Unit → Except Err α} {a : α} :
    x >>= f = .ok a ↔ x = .ok () ∧ f () = .ok a := by
  cases x with
  | ok u => cases u; simp [bind, Except.bind]
  | error e => simp [bind, Except.bind]

theorem classes_iff (a : Args Wd A F) (hn : ∀ n, n ∈ Dict.keys a.models ↔ n ∈ Dict.keys a.players) :
    ((Dict.keys a.models).all fun n =>
      (match Dict.get? a.models n with | some (some _) => true | _ => false) &&
      (match Dict.get? a.players n with | some (some _) => true | _ => false)) = true ↔
    (∀ n m, Dict.get? a.models n = some m → m ≠ none) ∧ ∀ n p, Dict.get? a.players n = some p → p ≠ none := by
  simp only [List.all_eq_true, Bool.and_eq_true]
  constructor
  · intro h
    refine ⟨fun n m hm => ?_, fun n p hp => ?_⟩
    · have := (h n ((Dict.mem_keys_iff _ _).mpr ⟨m, hm⟩)).1
      rintro rfl
      rw [hm] at this
      cases this
    · have := (h n ((hn n).mpr ((Dict.mem_keys_iff _ _).mpr ⟨p, hp⟩))).2
      rintro rfl
      rw [hp] at this
      cases this
  · rintro ⟨h1, h2⟩ n hk
    obtain ⟨m, hm⟩ := (Dict.mem_keys_iff _ _).mp hk
    obtain ⟨p, hp⟩ := (Dict.mem_keys_iff _ _).mp ((hn n).mp hk)
    rw [hm, hp]
    cases m with
    | none => exact absurd rfl (h1 n none hm)
    | some m =>
      cases p with
      | none => exact absurd rfl (h2 n none hp)
      | some p => exact ⟨rfl, rfl⟩

/-- **C115.** `SimContext` accepts exactly what is specified, otherwise an assertion fails. -/
theorem C115_accepts (a : Args Wd A F) :
    (a.postInit = .ok () ↔ Accepted a) ∧ (¬ Accepted a → a.postInit = .error .assertion) := by
  have key : a.postInit = .ok () ↔ Accepted a := by
    unfold Args.postInit
    rw [bind_unit, assertThat_ok, sameKeys_iff, bind_unit, bind_unit, assertThat_ok, assertThat_ok]
    have hmiss : a.checkMissions = .ok () ↔
        ∀ ms, a.missions = some ms → (∀ n ∈ Dict.keys ms, n ∈ Dict.keys a.models) ∧ ∀ q ∈ ms, q.2 ≠ none := by
      unfold Args.checkMissions
      cases a.missions with
      | none => simp [pure, Except.pure]
      | some ms =>
        simp only [Option.some.injEq, forall_eq']
        rw [bind_unit, assertThat_ok, assertThat_ok]
        simp [List.all_eq_true, Option.isSome_iff_ne_none]
    rw [hmiss]
    constructor
    · rintro ⟨h1, h2, h3, h4⟩
      obtain ⟨h5, h6⟩ := (classes_iff a h1).mp h4
      exact ⟨h1, h5, h6, h2, h3⟩
    · intro h
      exact ⟨h.names, h.missions, h.scenario, (classes_iff a h.names).mpr ⟨h.models, h.agents⟩⟩
  refine ⟨key, fun h => ?_⟩
  have hne : a.postInit ≠ .ok () := fun e => h (key.mp e)
  have : ∀ e, a.postInit = .error e → e = .assertion := by
    have hb : ∀ (x : Except Err Unit) (f : Unit → Except Err Unit), (∀ e, x = .error e → e = .assertion) →
        (∀ e, f () = .error e → e = .assertion) → ∀ e, x >>= f = .error e → e = .assertion := by
      intro x f h1 h2 e he
      cases x with
      | ok u => exact h2 e he
      | error e' => injection he with he; exact he ▸ h1 e' rfl
    have ha : ∀ b e, assertThat b = .error e → e = .assertion := by
      intro b e h
      cases b
      · injection h with h; exact h.symm
      · cases h
    unfold Args.postInit
    refine hb _ _ (ha _) (hb _ _ ?_ (hb _ _ (ha _) (ha _)))
    unfold Args.checkMissions
    cases a.missions with
    | none => intro e h; cases h
    | some ms => exact hb _ _ (ha _) (ha _)
  cases he : a.postInit with
  | ok u => exact absurd he hne
  | error e => rw [this e he]

theorem keys_typed {α : Type} (d : Dict N (Option α)) (h : ∀ q ∈ d, q.2 ≠ none) :
    Dict.keys (typed d) = Dict.keys d := by
  induction d with
  | nil => rfl
  | cons q d ih =>
    obtain ⟨n, x⟩ := q
    have := h (n, x) List.mem_cons_self
    cases x with
    | none => exact absurd rfl this
    | some x =>
      have ih := ih fun q hq => h q (List.mem_cons_of_mem _ hq)
      simp only [Dict.keys, typed, List.filterMap_cons, Option.map_some, List.map_cons] at ih ⊢
      rw [ih]

theorem Accepted.allModels {a : Args Wd A F} (h : Accepted a) (hw : Dict.Wf a.models) : ∀ q ∈ a.models, q.2 ≠ none :=
  fun q hq => h.models q.1 q.2 (Dict.get?_of_mem hw hq)

theorem get?_typed {α : Type} {d : Dict N (Option α)} (hw : Dict.Wf d) {n : N} {x : α}
    (h : Dict.get? (typed d) n = some x) : Dict.get? d n = some (some x) := by
  obtain ⟨q, hq, he⟩ := List.mem_filterMap.mp (Dict.get?_eq_some_mem h)
  obtain ⟨k, y⟩ := q
  cases y with
  | none => cases he
  | some y =>
    injection he with he
    injection he with h1 h2
    subst h1 h2
    exact Dict.get?_of_mem hw hq

variable [Field K] [LinearOrder K]

/-- **C115.** A simulator begins an accepted context in a fresh state. -/
theorem C115_fresh (a : Args Wd A F) (h : Accepted a) (hmod : Dict.Wf a.models) (hpl : Dict.Wf a.players)
    (sense : SenseFn Wd F) (w : Wd.W) (l : Leftovers (a.world sense)) : Fresh (a.start sense w l) where
  time := rfl
  terminated := rfl
  reports := rfl
  firstColl := rfl
  lastCmdTs := rfl
  wfModels := by
    change (Dict.keys (typed a.models)).Nodup
    rw [keys_typed _ (h.allModels hmod)]
    exact hmod
  players := hpl
  keys := by
    intro n
    change n ∈ Dict.keys a.players ↔ n ∈ Dict.keys (typed a.models)
    rw [keys_typed _ (h.allModels hmod)]
    exact (h.names n).symm
  trace := rfl

variable [IsStrictOrderedRing K] [FloorSemiring K]

/-- The calls that a run makes besides sensors, and the sensors of the context, do not raise for players of the
context. -/
structure Quiet (a : Args Wd A F) (sense : SenseFn Wd F) : Prop where
  calls : ∀ u, ¬ Raises { Wd with sense := fun w _ o => .ok (w, o) } (· ∈ Dict.keys a.players) u
  sensors : ∀ d n f w o u, a.sensors = some d → n ∈ Dict.keys a.players → Dict.get? d n = some f →
    sense f w n o ≠ .error u

theorem Quiet.raises {a : Args Wd A F} {sense : SenseFn Wd F} (h : Quiet a sense)
    (hs : ∀ d, a.sensors = some d → ∀ n ∈ Dict.keys a.players, n ∈ Dict.keys d) :
    ∀ u, ¬ Raises (a.world sense) (· ∈ Dict.keys a.players) u := by
  intro u hr
  cases hr with
  | onInit w n hn e => exact h.calls u (.onInit w n hn e)
  | sense w n o hn e =>
    simp only [Args.world, withSensors] at e
    cases hd : a.sensors with
    | none => rw [hd] at e; cases e
    | some d =>
      rw [hd] at e
      obtain ⟨f, hf⟩ := (Dict.mem_keys_iff _ _).mp (hs d hd n hn)
      simp only [hf] at e
      exact h.sensors d n f w o u hd hn hf e
  | getCommands w n o hn e => exact h.calls u (.getCommands w n o hn e)
  | getExtra w n hn e => exact h.calls u (.getExtra w n hn e)
  | update w n m c dt hn e => exact h.calls u (.update w n m c dt hn e)
  | fulfilled w n g x t hn e => exact h.calls u (.fulfilled w n g x t hn e)
  | resolveEnv w n m o t hn e hu => exact h.calls u (.resolveEnv w n m o t hn e hu)
  | resolve w n₁ m₁ n₂ m₂ t h₁ h₂ e hu => exact h.calls u (.resolve w n₁ m₁ n₂ m₂ t h₁ h₂ e hu)

/-- **C115.** A context that is accepted, with a dictionary of missions, with sensors for nobody or for everybody,
and with a positive step, can be run if nothing that is called raises: the run returns, and there is a log for every
model. Without these conditions this fails, see `C115_false_missions`, `C115_false_sensors`, `C115_false_dt`. -/
theorem C115_runs_partial (a : Args Wd A F) (h : Accepted a) (hmod : Dict.Wf a.models) (hpl : Dict.Wf a.players)
    (ms : Dict N (Option Wd.G)) (hm : a.missions = some ms) (hms : Dict.Wf ms)
    (hs : ∀ d, a.sensors = some d → ∀ n ∈ Dict.keys a.players, n ∈ Dict.keys d)
    (sense : SenseFn Wd F) (hq : Quiet a sense) (p : Params K) (hdt : 0 < p.dt) (fuel : Nat) (hpos : 0 < fuel)
    (hfuel : p.maxSimTime < (fuel : K) * p.dt) (w : Wd.W) (l : Leftovers (a.world sense)) :
    ∃ s' log', a.run sense p fuel w l = some (.ok (s', log')) ∧
      ∀ n ∈ Dict.keys a.models, ∃ m pl, Dict.get? a.models n = some (some m) ∧ Dict.get? log' n = some pl ∧
        pl.Valid ∧ pl.states.vs[0]? = some (Wd.getState m) := by
  have hfresh := C115_fresh a h hmod hpl sense w l
  have hkeys : Dict.keys (typed ms) = Dict.keys ms := keys_typed ms (h.missions ms hm).2
  have hmwf : Dict.Wf (p.cfg (Wd := a.world sense) (typed ms)).missions := by
    change (Dict.keys (typed ms)).Nodup
    rw [hkeys]
    exact hms
  obtain ⟨s', log', hr⟩ := C21_returns (p.cfg (Wd := a.world sense) (typed ms)) (a.start sense w l) [] fuel hfresh
    hdt hmwf hpos hfuel (hq.raises hs)
  refine ⟨s', log', ?_, ?_⟩
  · unfold Args.run
    rw [(C115_accepts a).1.mpr h, hm]
    exact hr
  · intro n hn
    obtain ⟨σ, J, -, ⟨w0, l0, h0⟩, -, -, hlog⟩ := C23_log hfresh hdt hmwf hr
    obtain ⟨pl, k, last, h1, h2, -, -, h3, -⟩ := hlog n (by
      change n ∈ Dict.keys (typed a.models)
      rw [keys_typed _ (h.allModels hmod)]
      exact hn)
    obtain ⟨m, hm, h4⟩ := h3 0 (Nat.zero_le _)
    rw [h0] at hm
    exact ⟨m, pl, get?_typed hmod hm, h1, h2, h4⟩

/-! ### The example: three cars on a line -/

/-- Arguments with the cars of the example; filters are numbers added to the time of the observation. -/
def carArgs (missions : Option (Dict Nat (Option ℚ))) (sensors : Option (Dict Nat ℚ)) : Args Toy.wd Unit ℚ where
  isScenario := true
  models := [(0, some 0), (1, some 5), (2, some 20)]
  players := [(2, some ()), (0, some ()), (1, some ())]
  missions := missions
  sensors := sensors

def delaySense : SenseFn Toy.wd ℚ := fun f w _ o => .ok (w, { o with time := o.time + f })

def carParams : Params ℚ := ⟨1 / 2, 1, 6, 1⟩

def goals : Dict Nat (Option ℚ) := [(2, some 21), (0, some 100)]

theorem carArgs_accepted (sensors : Option (Dict Nat ℚ)) (o : Option (Dict Nat (Option ℚ)))
    (h : o = none ∨ o = some goals) : Accepted (carArgs o sensors) := by
  refine (C115_accepts _).1.mp ?_
  rcases h with rfl | rfl <;> rfl

theorem carArgs_quiet (o : Option (Dict Nat (Option ℚ))) (sensors : Option (Dict Nat ℚ)) :
    Quiet (carArgs o sensors) delaySense where
  calls := fun u h => toy_quiet _ u h
  sensors := by
    intro d n f w o u _ _ _ h
    cases h

def leftovers (a : Args Toy.wd Unit ℚ) : Leftovers (a.world delaySense) :=
  ⟨⟨[(9, ((3 : ℚ), (3 : ℚ)))], 77⟩, [(1, (55 : ℚ))], [(8, {})]⟩

example := C115_fresh (carArgs (some goals) none) (carArgs_accepted _ _ (.inr rfl))
  (by unfold Dict.Wf; decide) (by unfold Dict.Wf; decide) delaySense (fun _ => 0) (leftovers _)

/-- The example runs, with the filters of nobody or of everybody. -/
example (sensors : Option (Dict Nat ℚ)) (h : sensors = none ∨ sensors = some [(0, 1), (1, 2), (2, 3)]) :
    ∃ s' log', (carArgs (some goals) sensors).run delaySense carParams 20 (fun _ => 0) (leftovers _) =
      some (.ok (s', log')) ∧ ∀ n ∈ [0, 1, 2], ∃ m pl, Dict.get? (carArgs (some goals) sensors).models n = some (some m) ∧
        Dict.get? log' n = some pl ∧ pl.Valid ∧ pl.states.vs[0]? = some m :=
  C115_runs_partial (carArgs (some goals) sensors) (carArgs_accepted _ _ (.inr rfl))
    (show [0, 1, 2].Nodup by decide) (show [2, 0, 1].Nodup by decide) goals rfl (by unfold Dict.Wf; decide)
    (by
      rcases h with rfl | rfl
      · intro d e; cases e
      · intro d e; injection e with e; subst e; intro n hn; revert n; decide)
    delaySense (carArgs_quiet _ _) carParams (by decide +kernel) 20 (by decide) (by decide +kernel) (fun _ => 0)
    (leftovers _)

/-- A car without an agent is not accepted. -/
example : ({ carArgs (some goals) none with players := [(0, some ()), (1, some ())] } : Args Toy.wd Unit ℚ).postInit =
    .error .assertion := by decide +kernel

/-- The exception with which a run ends. -/
def outcomeErr {α : Type} : Option (Except SimErr α) → Option SimErr
  | some (.error e) => some e
  | _ => none

/-- **C115 fails without missions.** `missions=None` is accepted, but the run raises AttributeError. -/
theorem C115_false_missions : ∃ a : Args Toy.wd Unit ℚ, Accepted a ∧ Dict.Wf a.models ∧ Dict.Wf a.players ∧
    Quiet a delaySense ∧ outcomeErr (a.run delaySense carParams 20 (fun _ => 0) (leftovers a)) =
      some (.user .attribute) :=
  ⟨carArgs none none, carArgs_accepted _ _ (.inl rfl), by unfold Dict.Wf; decide, by unfold Dict.Wf; decide,
    carArgs_quiet _ _, by decide +kernel⟩

/-- **C115 fails with sensors for some.** A dictionary of sensors without player 1 is accepted, but the run raises
KeyError. -/
theorem C115_false_sensors : ∃ a : Args Toy.wd Unit ℚ, Accepted a ∧ Dict.Wf a.models ∧ Dict.Wf a.players ∧
    a.missions = some goals ∧ Quiet a delaySense ∧
    outcomeErr (a.run delaySense carParams 20 (fun _ => 0) (leftovers a)) = some (.user .key) :=
  ⟨carArgs (some goals) (some [(0, 1), (2, 3)]), carArgs_accepted _ _ (.inr rfl), by unfold Dict.Wf; decide,
    by unfold Dict.Wf; decide, rfl, carArgs_quiet _ _, by decide +kernel⟩

/-- **C115 fails with a step of zero.** Nothing asks for a positive step; with zero the second step logs the same
time again, which raises. -/
theorem C115_false_dt : ∃ a : Args Toy.wd Unit ℚ, Accepted a ∧ Dict.Wf a.models ∧ Dict.Wf a.players ∧
    a.missions = some goals ∧ a.sensors = none ∧ Quiet a delaySense ∧
    ∃ e, outcomeErr (a.run delaySense { carParams with dt := 0 } 20 (fun _ => 0) (leftovers a)) = some (.logging e) :=
  ⟨carArgs (some goals) none, carArgs_accepted _ _ (.inr rfl), by unfold Dict.Wf; decide, by unfold Dict.Wf; decide,
    rfl, rfl, carArgs_quiet _ _, .zValue, by decide +kernel⟩

/-! ### C116: running again -/

theorem initLoop_effect : ∀ (l : List N) {s s1 : St Wd}, initLoop s l = .ok s1 →
    ∃ w g, s1 = { s with w := w, logger := g } ∧
      ∀ n, Dict.get? g n = if n ∈ l then some {} else Dict.get? s.logger n
  | [], s, s1, h => by
    injection h with h
    exact ⟨s.w, s.logger, h.symm, fun n => by simp⟩
  | k :: ns, s, s1, h => by
    unfold initLoop at h
    obtain ⟨m, -, h⟩ := bind_ok.mp h
    obtain ⟨w', -, h⟩ := bind_ok.mp h
    obtain ⟨w, g, h1, h2⟩ := initLoop_effect ns h
    refine ⟨w, g, h1, fun n => ?_⟩
    rw [h2 n]
    by_cases hn : n ∈ ns
    · simp [hn]
    · rw [if_neg hn]
      by_cases hk : n = k
      · subst hk
        simp [Dict.get?_set_self]
      · simp only [List.mem_cons, hk, hn, or_self, if_false]
        exact Dict.get?_set_ne _ (Ne.symm hk) _

theorem initLoop_quiet : ∀ (l : List N) (s : St Wd), (∀ n ∈ l, n ∈ Dict.keys s.models) →
    (∀ n ∈ l, ∀ w u, Wd.onInit w n ≠ .error u) → ∃ s1, initLoop s l = .ok s1
  | [], s, _, _ => ⟨s, rfl⟩
  | n :: ns, s, hk, hq => by
    obtain ⟨m, hm⟩ := (Dict.mem_keys_iff _ _).mp (hk n List.mem_cons_self)
    cases hi : Wd.onInit s.w n with
    | error u => exact absurd hi (hq n List.mem_cons_self _ _)
    | ok w' =>
      obtain ⟨s1, h1⟩ := initLoop_quiet ns { s with w := w', logger := Dict.set s.logger n {} }
        (fun k hk' => hk k (List.mem_cons_of_mem _ hk')) fun k hk' => hq k (List.mem_cons_of_mem _ hk')
      refine ⟨s1, ?_⟩
      unfold initLoop
      simp only [lookup, hm, liftU, hi]
      exact h1

/-- The log of somebody of whom nothing is known. -/
def noLog : PlayerLog Wd := ⟨⟨[], []⟩, ⟨[], []⟩, ⟨[], []⟩, ⟨[], []⟩⟩

theorem asSequence_empty : ({} : PlayerLogger Wd).asSequence = .ok ({} : PlayerLogger Wd).seqs := by
  simp [PlayerLogger.asSequence, Builder.asSequence, Seq.mk?, PlayerLogger.seqs, Seq.increasing]

theorem writeLog_total (logger : Dict N (PlayerLogger Wd)) : ∀ (l : List N) (log : Dict N (PlayerLog Wd)),
    (∀ n ∈ l, ∃ lg, Dict.get? logger n = some lg ∧ lg.asSequence = .ok lg.seqs) → ∃ r, writeLog logger l log = .ok r
  | [], log, _ => ⟨log, rfl⟩
  | n :: ns, log, h => by
    obtain ⟨lg, h1, h2⟩ := h n List.mem_cons_self
    obtain ⟨r, hr⟩ := writeLog_total logger ns (Dict.set log n lg.seqs) fun k hk => h k (List.mem_cons_of_mem _ hk)
    refine ⟨r, ?_⟩
    unfold writeLog
    simp only [lookup, h1]
    change (match lg.asSequence with | .error e => _ | .ok l => _) = _
    rw [h2]
    exact hr

/-- **C116.** Running a finished context again, in the same process: no step is made, nobody is asked or moved. The
players that had left keep their log. Those still there lose theirs, see `C116_false_log`. -/
theorem C116_again_partial {cfg : Cfg Wd} {fuel fuel' : Nat} {s s' : St Wd} {log log' : Dict N (PlayerLog Wd)}
    (hf : Fresh s) (hdt : 0 < cfg.dt) (hm : Dict.Wf cfg.missions)
    (hrun : run cfg fuel s log = some (.ok (s', log'))) (w : Wd.W) (o : Obs N K Wd.X Wd.P) (t : Option K)
    (c : Dict N Wd.C) (hq : ∀ n ∈ s'.players, ∀ w u, Wd.onInit w n ≠ .error u) (cfg' : Cfg Wd) :
    ∃ w2 g2 log2, run cfg' fuel' { s' with w := w, lastObs := o, lastCmdTs := t, lastCmds := c } log' =
        some (.ok ({ s' with w := w2, lastObs := o, lastCmdTs := t, lastCmds := c, logger := g2 }, log2)) ∧
      ∀ n, Dict.get? log2 n = if n ∈ s'.players then some noLog else Dict.get? log' n := by
  obtain ⟨σ, J, hready, -, hex, hend, hterm, hw⟩ := run_ok hf hrun
  have hinv := inv_of_exec (inv_zero cfg σ hready) hdt hm (J + 1) hex
  have hlg : ∀ n ∈ Dict.keys s'.models, ∃ lg, Dict.get? s'.logger n = some lg ∧ lg.asSequence = .ok lg.seqs := by
    intro n hn
    rw [← hend] at hn ⊢
    obtain ⟨lg, k, x, h1, h2, _⟩ := logger_of_inv hinv n hn
    exact ⟨lg, h1, (logInv_asSequence hdt h2).1⟩
  have hsub : ∀ n ∈ s'.players, n ∈ Dict.keys s'.models := by
    intro n hn
    rw [← hend] at hn ⊢
    rw [hinv.keys]
    exact hinv.sub n hn
  have hwl := (safe_writeLog s'.logger (Dict.keys s'.models) log hlg).ok hw
  obtain ⟨s1, h1⟩ := initLoop_quiet s'.players
    { s' with w := w, lastObs := o, lastCmdTs := t, lastCmds := c } hsub hq
  obtain ⟨w2, g2, h2, h3⟩ := initLoop_effect _ h1
  have hlg2 : ∀ n ∈ Dict.keys s'.models, ∃ lg, Dict.get? g2 n = some lg ∧ lg.asSequence = .ok lg.seqs := by
    intro n hn
    rw [h3 n]
    by_cases hp : n ∈ s'.players
    · exact ⟨{}, if_pos hp, asSequence_empty⟩
    · rw [if_neg hp]
      exact hlg n hn
  have hs2 := safe_writeLog g2 (Dict.keys s'.models) log' hlg2
  cases hw2 : writeLog g2 (Dict.keys s'.models) log' with
  | error e => 
    exfalso
    have := writeLog_total g2 (Dict.keys s'.models) log' hlg2
    rw [hw2] at this
    obtain ⟨l, h⟩ := this
    cases h
  | ok log2 =>
    refine ⟨w2, g2, log2, ?_, ?_⟩
    · unfold run
      have h1' : initLoop { s' with w := w, lastObs := o, lastCmdTs := t, lastCmds := c }
          ({ s' with w := w, lastObs := o, lastCmdTs := t, lastCmds := c } : St Wd).players = .ok s1 := h1
      rw [h1']
      have hl : loop cfg' fuel' s1 = some (.ok s1) := by
        have ht : s1.terminated = true := by rw [h2]; exact hterm
        cases fuel' <;> simp [loop, ht]
      simp only [hl]
      rw [h2]
      simp only [hw2]
    · intro n
      have hk := hs2.ok hw2
      by_cases hn : n ∈ Dict.keys s'.models
      · obtain ⟨lg, h4, h5⟩ := hk.1 n hn
        rw [h5]
        rw [h3 n] at h4
        by_cases hp : n ∈ s'.players
        · rw [if_pos hp] at h4 ⊢
          injection h4 with h4
          subst h4
          rfl
        · rw [if_neg hp] at h4 ⊢
          obtain ⟨lg', h6, h7⟩ := hwl.1 n hn
          have h4' : Dict.get? s'.logger n = some lg := h4
          rw [h4'] at h6
          injection h6 with h6
          rw [h7, h6]
      · rw [hk.2 n hn, if_neg fun hp => hn (hsub n hp)]

example := C116_again_partial (fuel' := 0) Toy.fresh Toy.dt_pos Toy.wf Toy.run_eq (fun _ => 0) ⟨[], 0⟩ none []
  (fun _ _ _ _ h => by cases h) Toy.cfg

/-- **C116 fails for players that did not leave.** In the example the log of car 0 has seven states; after running
the finished context again it has none. -/
theorem C116_false_log : ∃ (s' s2 : St Toy.wd) (log' log2 : Dict Nat (PlayerLog Toy.wd)),
    run Toy.cfg 50 Toy.start [] = some (.ok (s', log')) ∧
    run Toy.cfg 50 { s' with lastObs := ⟨[], 0⟩, lastCmdTs := none } log' = some (.ok (s2, log2)) ∧
      (Dict.get? log' 0).map (fun l => l.states.vs.length) = some 7 ∧ Dict.get? log2 0 = some noLog := by
  obtain ⟨w2, g2, log2, h1, h2⟩ := C116_again_partial (fuel' := 50) Toy.fresh Toy.dt_pos Toy.wf Toy.run_eq
    Toy.result.1.w ⟨[], 0⟩ none Toy.result.1.lastCmds (fun _ _ _ _ h => by cases h) Toy.cfg
  refine ⟨Toy.result.1, _, Toy.result.2, log2, Toy.run_eq, h1, by decide +kernel, ?_⟩
  rw [h2 0, if_pos (by decide +kernel)]

/-- **C116 fails in another process.** There the loggers of the players that left are missing: after the example,
car 2 has none, and running the finished context again raises KeyError. -/
theorem C116_false_process : ∃ (s' : St Toy.wd) (log' : Dict Nat (PlayerLog Toy.wd)),
    run Toy.cfg 50 Toy.start [] = some (.ok (s', log')) ∧
    outcomeErr (run Toy.cfg 50 { s' with lastObs := ⟨[], 0⟩, lastCmdTs := none, lastCmds := [], logger := [] } log') =
      some .key :=
  ⟨Toy.result.1, Toy.result.2, Toy.run_eq, by decide +kernel⟩

end Sim
end Verif
