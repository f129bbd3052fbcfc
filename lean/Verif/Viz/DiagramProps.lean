import Verif.Viz.Collision
import Verif.Sim.LogProps
import Verif.Sim.Toy

/-!
# C112: diagrams of logs show states as they were, and commands too early

What a curve shows is specified here, as matplotlib documents it: `plot` joins consecutive points by
segments; `step` without further arguments continues every value to the left.
-/

set_option linter.unusedSectionVars false

namespace Verif
namespace Viz

open Sim

variable {N K : Type} [DecidableEq N] [Field K] [LinearOrder K] [IsStrictOrderedRing K]

/-- Specification: the polygonal line through the points passes through `(t, y)`. -/
def LineShows (pts : List (K × K)) (t y : K) : Prop :=
  (t, y) ∈ pts ∨ ∃ p r t0 t1 v0 v1, pts = p ++ (t0, v0) :: (t1, v1) :: r ∧ t0 ≤ t ∧ t ≤ t1 ∧
    y = v0 + (t - t0) / (t1 - t0) * (v1 - v0)

/-- Specification: the step curve of matplotlib, by default (`where='pre'`), has the value `y` at `t`: the
value at a point holds on the interval from the point before, exclusively, to it, inclusively. -/
def StepShows (pts : List (K × K)) (t y : K) : Prop :=
  (∃ r, pts = (t, y) :: r) ∨ ∃ p r t0 v0 t1, pts = p ++ (t0, v0) :: (t1, y) :: r ∧ t0 < t ∧ t ≤ t1

/-- The points of a diagram. -/
def Diagram.pts {F : Type} (d : Diagram K F) : List (K × K) := d.ts.zip d.vs

variable {X F : Type}

/-- Specification: the diagrams with numbers from `first` on, out of `of`, one for each of the names, show
the fields of the samples. -/
def ShowFields (R : Fields K X F) (s : Seq K X) (of first : Nat) (steps : Bool) (names : List F)
    (ds : List (Diagram K F)) : Prop :=
  ds.length = names.length ∧ ∀ k f, names[k]? = some f → ∃ d, ds[k]? = some d ∧ d.number = first + k ∧
    d.of = of ∧ d.label = f ∧ d.steps = steps ∧
    d.pts = s.samples.map (fun p => (p.1, R.get p.2 f))

theorem zip_map_snd {α β γ : Type} (f : β → γ) : ∀ (l : List α) (m : List β),
    l.zip (m.map f) = (l.zip m).map (fun p => (p.1, f p.2))
  | [], _ => by simp
  | _ :: _, [] => by simp
  | a :: l, b :: m => by simp [zip_map_snd f l m]

theorem drawFields_shows (R : Fields K X F) (s : Seq K X) (of shift : Nat) (steps : Bool) :
    ∀ (names : List F) (i : Nat),
      ShowFields R s of (shift + i + 1) steps names (drawFields R s of shift steps i names)
  | [], i => ⟨rfl, by simp⟩
  | g :: names, i => by
    obtain ⟨h1, h2⟩ := drawFields_shows R s of shift steps names (i + 1)
    refine ⟨by simp [drawFields, h1], ?_⟩
    intro k f hk
    cases k with
    | zero =>
      simp only [List.getElem?_cons_zero, Option.some.injEq] at hk
      subst hk
      exact ⟨_, rfl, by simp, rfl, rfl, rfl, zip_map_snd _ _ _⟩
    | succ k =>
      simp only [List.getElem?_cons_succ] at hk
      obtain ⟨d, hd, hn, hr⟩ := h2 k f hk
      refine ⟨d, by simpa [drawFields] using hd, ?_, hr⟩
      rw [hn]
      omega

variable {Wd : World N K}

/-- **C112.** A log can be drawn exactly if it has a state and a command. There is one diagram for each field
of the state and then one for each field of the commands, numbered from 1 to their number from top to bottom;
it has one point for each sample, with its time and the value of that field. -/
theorem C112_diagrams (RX : Fields K Wd.X F) (RC : Fields K Wd.C F) (l : PlayerLog Wd) :
    ((∃ ds, plotPlayerLog RX RC l = .ok ds) ↔ l.states.vs ≠ [] ∧ l.commands.vs ≠ []) ∧
    ∀ ds, plotPlayerLog RX RC l = .ok ds → ∃ x c d1 d2, l.states.vs.head? = some x ∧
      l.commands.vs.head? = some c ∧ ds = d1 ++ d2 ∧
      ShowFields RX l.states ds.length 1 false (RX.names x) d1 ∧
      ShowFields RC l.commands ds.length ((RX.names x).length + 1) true (RC.names c) d2 := by
  unfold plotPlayerLog
  cases hs : l.states.vs with
  | nil => exact ⟨by simp, fun ds h => by cases h⟩
  | cons x xs =>
    cases hc : l.commands.vs with
    | nil => exact ⟨by simp, fun ds h => by cases h⟩
    | cons c cs =>
      refine ⟨by simp, fun ds h => ?_⟩
      injection h with h
      have h1 := drawFields_shows RX l.states ((RX.names x).length + (RC.names c).length) 0 false
        (RX.names x) 0
      have h2 := drawFields_shows RC l.commands ((RX.names x).length + (RC.names c).length)
        (RX.names x).length true (RC.names c) 0
      have hlen : ds.length = (RX.names x).length + (RC.names c).length := by
        rw [← h, List.length_append, h1.1, h2.1]
      refine ⟨x, c, _, _, rfl, rfl, h.symm, ?_, ?_⟩
      · rw [hlen]; simpa using h1
      · rw [hlen]; simpa using h2

/-- A field is linear, like position, speed and angles of a state (see C04). -/
def LinearField [AddCommGroup X] [Module K X] (R : Fields K X F) (f : F) : Prop :=
  ∀ (x y : X) (a : K), R.get (x + a • (y - x)) f = R.get x f + a * (R.get y f - R.get x f)

/-- A sequence of one field. -/
def fieldSeq (R : Fields K X F) (s : Seq K X) (f : F) : Seq K K := ⟨s.ts, s.vs.map (fun x => R.get x f)⟩

theorem fieldSeq_valid (R : Fields K X F) {s : Seq K X} (h : s.Valid) (f : F) : (fieldSeq R s f).Valid :=
  ⟨by simpa [fieldSeq] using h.1, h.2⟩

theorem fieldSeq_samples (R : Fields K X F) (s : Seq K X) (f : F) :
    (fieldSeq R s f).samples = s.samples.map (fun p => (p.1, R.get p.2 f)) := zip_map_snd _ _ _

theorem line_value {s : Seq K K} (h : s.Valid) {t y : K} (hl : LineShows s.samples t y) :
    s.atInterp t = .ok y := by
  rcases hl with hm | ⟨p, r, t0, t1, v0, v1, hs, h0, h1, rfl⟩
  · exact C04_at_samples s h t y hm
  · exact C04_chord s h p r t0 t1 v0 v1 hs t h0 h1

/-- **C112.** The diagrams of states show at every time from the first to the last sample the value that
reading the log at that time gives, and no other. -/
theorem C112_states [AddCommGroup X] [Module K X] (R : Fields K X F) {s : Seq K X} (h : s.Valid) (f : F)
    (hf : LinearField R f) {a b t : K} (ha : a ∈ s.ts) (hb : b ∈ s.ts) (hat : a ≤ t) (htb : t ≤ b) (y : K) :
    LineShows (s.samples.map (fun p => (p.1, R.get p.2 f))) t y ↔
      ∃ x, s.atInterp t = .ok x ∧ R.get x f = y := by
  have hne : s.ts ≠ [] := by rintro e; rw [e] at ha; simp at ha
  obtain ⟨x, hx⟩ := C04_total s h hne t
  have key : LineShows (s.samples.map (fun p => (p.1, R.get p.2 f))) t (R.get x f) := by
    have hmem : ∀ u ∈ s.ts, ∃ v, (u, v) ∈ s.samples := by
      intro u hu
      obtain ⟨i, hi, rfl⟩ := List.mem_iff_getElem.mp hu
      have hi' : i < s.vs.length := by rw [← h.1]; exact hi
      exact ⟨s.vs[i], by
        unfold Seq.samples
        rw [List.mem_iff_getElem]
        exact ⟨i, by simp [hi, hi'], by simp⟩⟩
    have hsort : (s.samples.map Prod.fst).Pairwise (· < ·) := by
      unfold Seq.samples
      rw [zip_filter_fst _ _ h.1]
      exact h.2
    rcases (atInterp_ok_iff s h t x).mp hx with ⟨t0, r, hs, ht⟩ | ⟨t1, p, hs, ht⟩ |
      ⟨p, r, t0, t1, v0, v1, hs, h0, h1, rfl⟩
    · obtain ⟨v, hv⟩ := hmem a ha
      have : t0 ≤ a := by
        rw [hs] at hv hsort
        rcases List.mem_cons.mp hv with e | e
        · injection e with e; rw [e]
        · exact ((List.pairwise_cons.mp hsort).1 a (List.mem_map_of_mem (f := Prod.fst) e)).le
      have e : t = t0 := le_antisymm ht (this.trans hat)
      exact Or.inl (List.mem_map.mpr ⟨(t0, x), by rw [hs]; simp, by rw [e]⟩)
    · obtain ⟨v, hv⟩ := hmem b hb
      have : b ≤ t1 := by
        rw [hs] at hv hsort
        rcases List.mem_append.mp hv with e | e
        · rw [List.map_append, List.pairwise_append] at hsort
          exact (hsort.2.2 b (List.mem_map_of_mem (f := Prod.fst) e) t1 (by simp)).le
        · rw [List.mem_singleton] at e
          injection e with e; rw [e]
      have e : t = t1 := le_antisymm (htb.trans this) ht
      exact Or.inl (List.mem_map.mpr ⟨(t1, x), by rw [hs]; simp, by rw [e]⟩)
    · refine Or.inr ⟨p.map (fun p => (p.1, R.get p.2 f)), r.map (fun p => (p.1, R.get p.2 f)), t0, t1,
        R.get v0 f, R.get v1 f, by rw [hs]; simp, h0, h1, hf v0 v1 _⟩
  constructor
  · intro hl
    have e1 := line_value (fieldSeq_valid R h f) (by rw [fieldSeq_samples]; exact hl)
    have e2 := line_value (fieldSeq_valid R h f) (by rw [fieldSeq_samples]; exact key)
    rw [e1] at e2
    injection e2 with e2
    exact ⟨x, hx, e2.symm⟩
  · rintro ⟨x', hx', rfl⟩
    rw [hx] at hx'
    injection hx' with hx'
    subst hx'
    exact key

/-- The step curve is a function. -/
theorem stepShows_unique {pts : List (K × K)} (hs : (pts.map Prod.fst).Pairwise (· < ·)) {t y y' : K}
    (h : StepShows pts t y) (h' : StepShows pts t y') : y = y' := by
  induction pts with
  | nil =>
    rcases h with ⟨r, e⟩ | ⟨p, r, t0, v0, t1, e, -⟩
    · cases e
    · simp at e
  | cons q pts ih =>
    obtain ⟨hq, hp⟩ := List.pairwise_cons.mp hs
    -- a curve that shows something after its first point shows it in the rest or on the second point
    have cases_of : ∀ z, StepShows (q :: pts) t z → (q = (t, z)) ∨ (q.1 < t ∧ StepShows pts t z) ∨
        (q.1 < t ∧ ∃ t1 r, pts = (t1, z) :: r ∧ t ≤ t1) := by
      rintro z (⟨r, e⟩ | ⟨p, r, t0, v0, t1, e, h0, h1⟩)
      · exact Or.inl (List.cons.inj e).1
      · cases p with
        | nil =>
          obtain ⟨e1, e2⟩ := List.cons.inj e
          subst e1
          exact Or.inr (Or.inr ⟨h0, t1, r, e2, h1⟩)
        | cons q' p =>
          obtain ⟨e1, e2⟩ := List.cons.inj e
          subst e1
          refine Or.inr (Or.inl ⟨?_, Or.inr ⟨p, r, t0, v0, t1, e2, h0, h1⟩⟩)
          refine lt_trans (hq t0 ?_) h0
          rw [e2]
          simp
    have first : ∀ z w t1 r, pts = (t1, z) :: r → t ≤ t1 → StepShows pts t w → w = z := by
      rintro z w t1 r rfl ht (⟨r', e⟩ | ⟨p, r', t0, v0, t2, e, h0, -⟩)
      · obtain ⟨e1, -⟩ := List.cons.inj e
        injection e1 with _ e1
        exact e1.symm
      · exfalso
        have : t1 ≤ t0 := by
          cases p with
          | nil =>
            obtain ⟨e1, -⟩ := List.cons.inj e
            injection e1 with e1 _
            rw [e1]
          | cons q' p =>
            obtain ⟨-, e2⟩ := List.cons.inj e
            refine ((List.pairwise_cons.mp hp).1 t0 ?_).le
            rw [e2]
            simp
        exact absurd (lt_of_lt_of_le h0 ht) (not_lt.mpr this)
    rcases cases_of y h with e | ⟨l, e⟩ | ⟨l, t1, r, e, ht⟩ <;>
      rcases cases_of y' h' with e' | ⟨l', e'⟩ | ⟨l', t1', r', e', ht'⟩
    · rw [e] at e'; injection e'
    · rw [e] at l'; exact absurd l' (lt_irrefl _)
    · rw [e] at l'; exact absurd l' (lt_irrefl _)
    · rw [e'] at l; exact absurd l (lt_irrefl _)
    · exact ih hp e e'
    · exact first y' y t1' r' e' ht' e
    · rw [e'] at l; exact absurd l (lt_irrefl _)
    · exact (first y y' t1 r e ht e').symm
    · rw [e] at e'
      obtain ⟨e1, -⟩ := List.cons.inj e'
      injection e1

theorem pairwise_points (R : Fields K X F) {s : Seq K X} (h : s.Valid) (f : F) :
    ((s.samples.map (fun p => (p.1, R.get p.2 f))).map Prod.fst).Pairwise (· < ·) := by
  rw [List.map_map]
  have : (Prod.fst ∘ fun p : K × X => (p.1, R.get p.2 f)) = Prod.fst := rfl
  rw [this]
  unfold Seq.samples
  rw [zip_filter_fst _ _ h.1]
  exact h.2

/-- **C112.** At the times of the commands, their diagrams show the command in force. -/
theorem C112_commands_partial (R : Fields K X F) {s : Seq K X} (h : s.Valid) (f : F) {t : K} {c : X}
    (hm : (t, c) ∈ s.samples) (y : K) :
    s.atOrPrevious t = .ok c ∧
      (StepShows (s.samples.map (fun p => (p.1, R.get p.2 f))) t y ↔ y = R.get c f) := by
  refine ⟨(C03_at_or_previous_ok_iff s h t c).mpr ⟨t, hm, le_rfl, fun p _ hp => hp⟩, ?_⟩
  have key : StepShows (s.samples.map (fun p => (p.1, R.get p.2 f))) t (R.get c f) := by
    have hsort := pairwise_points R h f
    obtain ⟨l, r, hs⟩ := List.append_of_mem hm
    rw [hs] at hsort ⊢
    rcases List.eq_nil_or_concat l with rfl | ⟨l', q, rfl⟩
    · exact Or.inl ⟨r.map (fun p => (p.1, R.get p.2 f)), by simp⟩
    · refine Or.inr ⟨l'.map (fun p => (p.1, R.get p.2 f)), r.map (fun p => (p.1, R.get p.2 f)), q.1,
        R.get q.2 f, t, by simp, ?_, le_rfl⟩
      simp only [List.concat_eq_append, List.map_append, List.map_cons, List.append_assoc,
        List.cons_append, List.nil_append] at hsort
      exact (List.pairwise_cons.mp (List.pairwise_append.mp hsort).2.1).1 t (by simp)
  exact ⟨fun hy => stepShows_unique (pairwise_points R h f) hy key, fun e => e ▸ key⟩

/-- **C112** is false for commands between two requests: the diagram shows the command of the next request
already then, not the one in force. -/
theorem C112_false_commands (R : Fields K X F) {s : Seq K X} (h : s.Valid) (f : F) {p r : List (K × X)}
    {t0 t1 t : K} {c0 c1 : X} (hs : s.samples = p ++ (t0, c0) :: (t1, c1) :: r) (h0 : t0 < t) (h1 : t < t1)
    (y : K) : s.atOrPrevious t = .ok c0 ∧
      (StepShows (s.samples.map (fun p => (p.1, R.get p.2 f))) t y ↔ y = R.get c1 f) := by
  have hsort := pairwise_points R h f
  have key : StepShows (s.samples.map (fun p => (p.1, R.get p.2 f))) t (R.get c1 f) :=
    Or.inr ⟨p.map (fun p => (p.1, R.get p.2 f)), r.map (fun p => (p.1, R.get p.2 f)), t0, R.get c0 f, t1,
      by rw [hs]; simp, h0, h1.le⟩
  refine ⟨(C03_at_or_previous_ok_iff s h t c0).mpr ⟨t0, by rw [hs]; simp, h0.le, ?_⟩,
    fun hy => stepShows_unique hsort hy key, fun e => e ▸ key⟩
  intro q hq hqt
  rw [hs] at hq hsort
  simp only [List.map_append, List.map_cons, List.map_map] at hsort
  obtain ⟨-, hsr, hcross⟩ := List.pairwise_append.mp hsort
  rcases List.mem_append.mp hq with hq | hq
  · exact (hcross q.1 (List.mem_map.mpr ⟨q, hq, rfl⟩) t0 (by simp)).le
  · rcases List.mem_cons.mp hq with rfl | hq
    · exact le_rfl
    · exfalso
      rcases List.mem_cons.mp hq with rfl | hq
      · exact absurd hqt (not_le.mpr h1)
      · have := (List.pairwise_cons.mp (List.pairwise_cons.mp hsr).2).1 q.1 (List.mem_map.mpr ⟨q, hq, rfl⟩)
        exact absurd hqt (not_le.mpr (h1.trans this))

/-- A concrete log of commands: 1 from time 0 on, 5 from time 1 on. At 1/2 the diagram shows 5. -/
example : let s : Seq ℚ ℚ := ⟨[0, 1], [1, 5]⟩
    s.atOrPrevious (1 / 2) = .ok 1 ∧ ∀ y, StepShows (s.samples.map (fun p => (p.1, p.2))) (1 / 2) y ↔ y = 5 := by
  intro s
  have hv : s.Valid := ⟨rfl, by simp [s]⟩
  have h := fun y => C112_false_commands (⟨fun _ => [()], fun x _ => x⟩ : Fields ℚ ℚ Unit) hv () (p := [])
    (r := []) (t0 := 0) (t1 := 1) (t := 1 / 2) (c0 := 1) (c1 := 5) rfl (by norm_num) (by norm_num) y
  exact ⟨(h 0).1, fun y => (h y).2⟩

/-- The same log, of states: at 1/2 the diagram shows 3. -/
example : let s : Seq ℚ ℚ := ⟨[0, 1], [1, 5]⟩
    LineShows (s.samples.map (fun p => (p.1, p.2))) (1 / 2) 3 := by
  intro s
  have hv : s.Valid := ⟨rfl, by simp [s]⟩
  refine (C112_states (⟨fun _ => [()], fun x _ => x⟩ : Fields ℚ ℚ Unit) hv () (by intro x y a; rfl)
    (a := 0) (b := 1) (by simp [s]) (by simp [s]) (by norm_num) (by norm_num) 3).mpr ⟨3, ?_, rfl⟩
  decide +kernel

theorem plotPlayersLogs_skip (RX : Fields K Wd.X F) (RC : Fields K Wd.C F) {only : Option (List N)} {n : N}
    (l : PlayerLog Wd) (rest : Dict N (PlayerLog Wd)) (h : ¬ ∀ ps, only = some ps → n ∈ ps) :
    plotPlayersLogs RX RC only ((n, l) :: rest) = plotPlayersLogs RX RC only rest := by
  cases only with
  | none => exact absurd (by simp) h
  | some ps => exact if_pos (by simpa using h)

theorem plotPlayersLogs_take (RX : Fields K Wd.X F) (RC : Fields K Wd.C F) {only : Option (List N)} {n : N}
    (l : PlayerLog Wd) (rest : Dict N (PlayerLog Wd)) (h : ∀ ps, only = some ps → n ∈ ps) :
    plotPlayersLogs RX RC only ((n, l) :: rest) = (do
      let d ← plotPlayerLog RX RC l
      let ds ← plotPlayersLogs RX RC only rest
      return (n, d) :: ds) := by
  cases only with
  | none => rfl
  | some ps => exact if_neg (by simpa using h ps rfl)

variable [FloorSemiring K]

/-- **C112.** After a run the logs of all wanted players can be drawn, one set of diagrams for each. -/
theorem C112_after_run [AddCommGroup Wd.X] [Module K Wd.X] {cfg : Cfg Wd} {fuel : Nat} {s s' : St Wd} {log' : Dict N (PlayerLog Wd)}
    (RX : Fields K Wd.X F) (RC : Fields K Wd.C F) (only : Option (List N)) (hf : Fresh s) (hdt : 0 < cfg.dt)
    (hm : Dict.Wf cfg.missions) (hrun : run cfg fuel s [] = some (.ok (s', log'))) :
    ∃ ds, plotPlayersLogs RX RC only log' = .ok ds ∧
      ∀ n d, (n, d) ∈ ds ↔ ∃ l, (n, l) ∈ log' ∧ (∀ ps, only = some ps → n ∈ ps) ∧
        plotPlayerLog RX RC l = .ok d := by
  obtain ⟨σ, J, hready, h0, hex, hend, hterm, hw⟩ := run_ok hf hrun
  have hinv := inv_of_exec (inv_zero cfg σ hready) hdt hm (J + 1) hex
  obtain ⟨hwf, hkeys⟩ := writeLog_spec _ _ _ _ hw
  have hkm : Dict.keys s'.models = Dict.keys s.models := by
    obtain ⟨w, lg, h0⟩ := h0
    rw [← hend, hinv.keys, h0]
  rw [hkm] at hkeys
  obtain ⟨σ', J', _, _, _, _, hlog⟩ := C23_log hf hdt hm hrun
  have hall : ∀ p ∈ log', p.2.states.vs ≠ [] ∧ p.2.commands.vs ≠ [] := by
    rintro ⟨n, l⟩ hp
    have hn : n ∈ Dict.keys log' := List.mem_map_of_mem (f := Prod.fst) hp
    have hn' : n ∈ Dict.keys s.models := by
      rcases hkeys n hn with h | h
      · simp [Dict.keys] at h
      · exact h
    obtain ⟨pl, k, last, hget, hval, hcase, hst, _, hcm, -⟩ := hlog n hn'
    have : Dict.get? log' n = some l := Dict.get?_of_mem (hwf Dict.wf_nil) hp
    rw [this] at hget; injection hget with hget; subst hget
    have hk : 0 < k := by
      rcases hcase with ⟨_, h, _⟩ | ⟨h, _⟩
      · omega
      · exact h
    refine ⟨fun e => ?_, fun e => ?_⟩
    · have e : l.states.vs = [] := e
      have := hval.1.1
      rw [e, hst] at this
      simp at this
    · have e : l.commands.vs = [] := e
      have h1 := hval.2.1.1
      have h2 : (0 : K) ∈ l.commands.ts := by
        rw [hcm]
        exact List.mem_map.mpr ⟨0, List.mem_filter.mpr ⟨List.mem_range.mpr hk, by simp⟩, by simp⟩
      rw [e, List.length_nil, List.length_eq_zero_iff] at h1
      rw [h1] at h2
      simp at h2
  clear hlog hkeys hwf hw hrun
  induction log' with
  | nil => exact ⟨[], rfl, by simp⟩
  | cons q log' ih =>
    obtain ⟨n, l⟩ := q
    obtain ⟨ds, hds, hiff⟩ := ih (fun p hp => hall p (by simp [hp]))
    by_cases hyes : ∀ ps, only = some ps → n ∈ ps
    case neg =>
      refine ⟨ds, (plotPlayersLogs_skip RX RC l log' hyes).trans hds, fun k d => ?_⟩
      rw [hiff]
      constructor
      · rintro ⟨l', h1, h2⟩; exact ⟨l', by simp [h1], h2⟩
      · rintro ⟨l', h1, h2, h3⟩
        rcases List.mem_cons.mp h1 with e | h1
        · injection e with e _
          subst e
          exact absurd h2 hyes
        · exact ⟨l', h1, h2, h3⟩
    case pos =>
      obtain ⟨d0, hd0⟩ := (C112_diagrams RX RC l).1.mpr (hall (n, l) (by simp))
      refine ⟨(n, d0) :: ds, by rw [plotPlayersLogs_take RX RC l log' hyes, hd0, hds]; rfl, fun k d => ?_⟩
      rw [List.mem_cons, hiff]
      constructor
      · rintro (e | ⟨l', h1, h2⟩)
        · injection e with e1 e2
          subst e1 e2
          exact ⟨l, by simp, hyes, hd0⟩
        · exact ⟨l', by simp [h1], h2⟩
      · rintro ⟨l', h1, h2, h3⟩
        rcases List.mem_cons.mp h1 with e | h1
        · injection e with e1 e2
          subst e1 e2
          rw [hd0] at h3
          injection h3 with h3
          subst h3
          exact Or.inl rfl
        · exact Or.inr ⟨l', h1, h2, h3⟩

/-- Fields of the toy world: positions and speeds are numbers. -/
def toyFields (label : Nat) : Fields ℚ ℚ Nat := ⟨fun _ => [label], fun x _ => x⟩

example : ∃ ds : List (Nat × List (Diagram ℚ Nat)), plotPlayersLogs (Wd := Sim.Toy.wd) (toyFields 0) (toyFields 1) (some [0, 2])
    Sim.Toy.result.2 = .ok ds ∧ ds.length = 2 := by
  obtain ⟨ds, h, -⟩ := C112_after_run (Wd := Sim.Toy.wd) (log' := Sim.Toy.result.2) (toyFields 0) (toyFields 1) (some [0, 2])
    Sim.Toy.fresh Sim.Toy.dt_pos Sim.Toy.wf Sim.Toy.run_eq
  refine ⟨ds, h, ?_⟩
  have : (match plotPlayersLogs (Wd := Sim.Toy.wd) (toyFields 0) (toyFields 1) (some [0, 2])
    Sim.Toy.result.2 with | .ok ds => ds.length | .error _ => 0) = 2 := by decide +kernel
  rw [h] at this
  exact this

/-- **C112** is false for commands of an actual run: car 0 is told to go at speed 1 until time 3 and then at
1/2; the diagram shows 1/2 at time 5/2 already. -/
theorem C112_false_run : ∃ (l : PlayerLog Sim.Toy.wd) (ds : List (Diagram ℚ Nat)) (d : Diagram ℚ Nat) (c : ℚ),
    (0, l) ∈ Sim.Toy.result.2 ∧ plotPlayerLog (toyFields 0) (toyFields 1) l = .ok ds ∧ d ∈ ds ∧
      d.label = 1 ∧ d.steps = true ∧ l.commands.atOrPrevious (5 / 2) = .ok c ∧
      (∀ y, StepShows d.pts (5 / 2) y ↔ y = 1 / 2) ∧ c ≠ 1 / 2 := by
  obtain ⟨l, hl⟩ : ∃ l, Dict.get? Sim.Toy.result.2 0 = some l :=
    Option.isSome_iff_exists.mp (by decide +kernel)
  have hmem := Dict.get?_eq_some_mem hl
  have hts : (match Dict.get? Sim.Toy.result.2 0 with | some l => l.commands.ts | none => []) =
      [0, 1, 2, 3] := by decide +kernel
  have hvs : (match Dict.get? Sim.Toy.result.2 0 with | some l => (l.commands.vs : List ℚ) | none => []) =
      [1, 1, 1, 1 / 2] := by decide +kernel
  have hxs : (match Dict.get? Sim.Toy.result.2 0 with | some l => decide (l.states.vs ≠ []) | none => false) =
      true := by decide +kernel
  rw [hl] at hts hvs hxs
  have hts : l.commands.ts = [0, 1, 2, 3] := hts
  have hvs : l.commands.vs = [1, 1, 1, 1 / 2] := hvs
  have hxs : l.states.vs ≠ [] := of_decide_eq_true hxs
  have hv : l.commands.Valid := by
    refine ⟨by rw [hts, hvs]; rfl, ?_⟩
    rw [hts]
    decide +kernel
  have hsam : l.commands.samples = [(0, 1), (1, 1)] ++ (2, 1) :: (3, 1 / 2) :: [] := by
    unfold Seq.samples
    rw [hts, hvs]
    rfl
  obtain ⟨h1, h2⟩ := C112_diagrams (toyFields 0) (toyFields 1) l
  obtain ⟨ds, hds⟩ := h1.mpr ⟨hxs, by rw [hvs]; simp⟩
  obtain ⟨x, c, d1, d2, -, -, he, -, hsh⟩ := h2 ds hds
  obtain ⟨d, hd, -, -, hlab, hst, hpts⟩ := hsh.2 0 1 rfl
  have key := fun y => C112_false_commands (toyFields 1) hv 1 hsam (t := 5 / 2) (by norm_num) (by norm_num) y
  refine ⟨l, ds, d, 1, hmem, hds, ?_, hlab, hst, (key 0).1, fun y => ?_, by norm_num⟩
  · rw [he]
    exact List.mem_append_right _ (List.mem_of_getElem? hd)
  · rw [hpts]
    exact (key y).2

end Viz
end Verif
