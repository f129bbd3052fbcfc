import Verif.Sim.LogModel
import Verif.Sim.RunProps
import Verif.Seq.Props
import Verif.Seq.InterpProps

/-!
# C29: reading the log

The specification `IsInterp` says what linear interpolation between samples with held ends is; it
does not mention the lookup functions. `IsLatest` is the specification of C03.
-/

set_option linter.unusedSectionVars false

namespace Verif

section
variable {K α : Type*} [Field K] [LinearOrder K] [IsStrictOrderedRing K] [AddCommGroup α] [Module K α]

/-- `v` is the value at `t` of the piecewise linear signal through the samples, held at both ends. -/
def IsInterp (l : List (K × α)) (t : K) (v : α) : Prop :=
  (∃ t0 r, l = (t0, v) :: r ∧ t ≤ t0) ∨ (∃ t1 p, l = p ++ [(t1, v)] ∧ t1 ≤ t) ∨
    ∃ p r t0 t1 v0 v1, l = p ++ (t0, v0) :: (t1, v1) :: r ∧ t0 ≤ t ∧ t ≤ t1 ∧
      v = v0 + ((t - t0) / (t1 - t0)) • (v1 - v0)

theorem atInterp_of_isInterp (s : Seq K α) (h : s.Valid) (t : K) (v : α)
    (hv : IsInterp s.samples t v) : s.atInterp t = .ok v := by
  rcases hv with ⟨t0, r, hs, ht⟩ | ⟨t1, p, hs, ht⟩ | ⟨p, r, t0, t1, v0, v1, hs, h0, h1, rfl⟩
  · exact C04_before s h t0 v r hs t ht
  · exact C04_after s h t1 v p hs t ht
  · exact C04_chord s h p r t0 t1 v0 v1 hs t h0 h1

theorem exists_isInterp (l : List (K × α)) (hne : l ≠ []) (t : K) : ∃ v, IsInterp l t v := by
  induction l with
  | nil => exact absurd rfl hne
  | cons a l ih =>
    obtain ⟨t0, v0⟩ := a
    by_cases h0 : t ≤ t0
    · exact ⟨v0, Or.inl ⟨t0, l, rfl, h0⟩⟩
    · cases l with
      | nil => exact ⟨v0, Or.inr (Or.inl ⟨t0, [], rfl, le_of_lt (not_le.mp h0)⟩)⟩
      | cons b l =>
        obtain ⟨t1, v1⟩ := b
        by_cases h1 : t ≤ t1
        · exact ⟨_, Or.inr (Or.inr ⟨[], l, t0, t1, v0, v1, rfl, le_of_lt (not_le.mp h0), h1, rfl⟩)⟩
        · obtain ⟨v, hv⟩ := ih (by simp)
          refine ⟨v, ?_⟩
          rcases hv with ⟨t2, r, hs, ht⟩ | ⟨t2, p, hs, ht⟩ | ⟨p, r, u0, u1, w0, w1, hs, a, b, c⟩
          · injection hs with hs _; injection hs with hs _
            subst hs; exact absurd ht h1
          · exact Or.inr (Or.inl ⟨t2, (t0, v0) :: p, by rw [hs]; rfl, ht⟩)
          · exact Or.inr (Or.inr ⟨(t0, v0) :: p, r, u0, u1, w0, w1, by rw [hs]; rfl, a, b, c⟩)

theorem samples_ne_nil (s : Seq K α) (h : s.Valid) : s.samples ≠ [] ↔ s.ts ≠ [] := by
  rw [← List.length_pos_iff, ← List.length_pos_iff, Seq.samples_length s h]

/-- The interpolated lookup returns exactly the values described by `IsInterp`. -/
theorem atInterp_ok_iff (s : Seq K α) (h : s.Valid) (t : K) (v : α) :
    s.atInterp t = .ok v ↔ IsInterp s.samples t v := by
  refine ⟨fun ho => ?_, atInterp_of_isInterp s h t v⟩
  by_cases hne : s.ts = []
  · rw [C04_empty s hne] at ho; cases ho
  · obtain ⟨w, hw⟩ := exists_isInterp s.samples ((samples_ne_nil s h).mpr hne) t
    have := atInterp_of_isInterp s h t w hw
    rw [this] at ho; injection ho with ho
    subst ho; exact hw

theorem atInterp_error_iff (s : Seq K α) (h : s.Valid) (t : K) (e : Err) :
    s.atInterp t = .error e ↔ s.ts = [] ∧ e = .zValue := by
  by_cases hne : s.ts = []
  · rw [C04_empty s hne]; simp [hne, eq_comm]
  · obtain ⟨v, hv⟩ := C04_total s h hne t
    rw [hv]; simp [hne]

end

namespace Sim

variable {N K : Type} [DecidableEq N] [Field K] [LinearOrder K] [IsStrictOrderedRing K]
  {Wd : World N K} [AddCommGroup Wd.X] [Module K Wd.X]

/-- What an entry of the log at time `t` has to be. -/
structure IsEntry (l : PlayerLog Wd) (t : K) (e : LogEntry Wd) : Prop where
  state : IsInterp l.states.samples t e.state
  commands : IsLatest l.commands.samples t e.commands
  info : IsLatest l.info.samples t e.info
  extra : (∃ x, e.extra = some x ∧ IsLatest l.extra.samples t x) ∨
    (e.extra = none ∧ ∀ u ∈ l.extra.ts, t < u)

theorem extraAt_ok (s : Seq K Wd.E) (h : s.Valid) (t : K) :
    ∃ o, extraAt (Wd := Wd) s t = .ok o ∧ ((∃ x, o = some x ∧ IsLatest s.samples t x) ∨
      (o = none ∧ ∀ u ∈ s.ts, t < u)) := by
  unfold extraAt
  cases ho : s.atOrPrevious t with
  | ok x => exact ⟨some x, rfl, Or.inl ⟨x, rfl, (C03_at_or_previous_ok_iff s h t x).mp ho⟩⟩
  | error e =>
    rcases (C03_at_or_previous_error_iff s h t e).mp ho with ⟨h1, rfl⟩ | ⟨_, h2, rfl⟩
    · exact ⟨none, rfl, Or.inr ⟨rfl, by rw [h1]; simp⟩⟩
    · exact ⟨none, rfl, Or.inr ⟨rfl, h2⟩⟩

theorem isLatest_lt {α : Type*} {s : Seq K α} {t : K} {x : α} (h : IsLatest s.samples t x)
    (hall : ∀ u ∈ s.ts, t < u) : False := by
  obtain ⟨u, hu, hle, _⟩ := h
  have : u ∈ s.ts := (List.of_mem_zip hu).1
  exact absurd (lt_of_lt_of_le (hall u this) hle) (lt_irrefl _)

theorem isLatest_unique {α : Type*} {s : Seq K α} (hs : s.Valid) {t : K} {x y : α}
    (h : IsLatest s.samples t x) (h' : IsLatest s.samples t y) : x = y := by
  have h1 := (C03_at_or_previous_ok_iff s hs t x).mpr h
  have h2 := (C03_at_or_previous_ok_iff s hs t y).mpr h'
  rw [h1] at h2; injection h2

/-- **C29.** Reading the log of one player at `t` gives `e` exactly if the state of `e` is the
interpolated state, the command and info are the last ones at or before `t`, and the extra object is
the last one at or before `t`, or nothing if there is none. -/
theorem C29_player_ok_iff (l : PlayerLog Wd) (h : l.Valid) (t : K) (e : LogEntry Wd) :
    l.atInterp t = .ok e ↔ IsEntry l t e := by
  obtain ⟨h1, h2, h3, h4⟩ := h
  obtain ⟨o, ho, hcase⟩ := extraAt_ok (Wd := Wd) l.extra h3 t
  unfold PlayerLog.atInterp
  simp only [ho, bind, Except.bind, pure, Except.pure]
  constructor
  · intro hx
    cases hs : l.states.atInterp t with
    | error _ => rw [hs] at hx; cases hx
    | ok x =>
      cases hc : l.commands.atOrPrevious t with
      | error _ => rw [hs, hc] at hx; cases hx
      | ok c =>
        cases hi : l.info.atOrPrevious t with
        | error _ => rw [hs, hc, hi] at hx; cases hx
        | ok i =>
          rw [hs, hc, hi] at hx
          injection hx with hx
          subst hx
          exact ⟨(atInterp_ok_iff _ h1 t x).mp hs, (C03_at_or_previous_ok_iff _ h2 t c).mp hc,
            (C03_at_or_previous_ok_iff _ h4 t i).mp hi, hcase⟩
  · rintro ⟨g1, g2, g3, g4⟩
    rw [(atInterp_ok_iff _ h1 t _).mpr g1, (C03_at_or_previous_ok_iff _ h2 t _).mpr g2,
      (C03_at_or_previous_ok_iff _ h4 t _).mpr g3]
    have : o = e.extra := by
      rcases hcase with ⟨x, rfl, hx⟩ | ⟨rfl, hx⟩ <;> rcases g4 with ⟨y, hy, hy'⟩ | ⟨hy, hy'⟩
      · rw [hy, isLatest_unique h3 hx hy']
      · exact absurd hx (fun h => isLatest_lt h hy')
      · exact absurd hy' (fun h => isLatest_lt h hx)
      · rw [hy]
    subst this
    rfl

/-- The log of car 0 of the example, read between two samples. -/
def Toy.log0 : PlayerLog Toy.wd :=
  ⟨⟨[0, 1 / 2, 1], [(0 : ℚ), 1, 2]⟩, ⟨[0, 1], [(1 : ℚ), 3]⟩, ⟨[1], [(7 : Nat)]⟩, ⟨[0, 1], [(0 : Nat), 1]⟩⟩

theorem Toy.log0_valid : Toy.log0.Valid := by
  refine ⟨⟨rfl, ?_⟩, ⟨rfl, ?_⟩, ⟨rfl, ?_⟩, ⟨rfl, ?_⟩⟩ <;> decide +kernel

example : IsEntry Toy.log0 (3 / 4) ⟨(3 / 2 : ℚ), (1 : ℚ), none, (0 : Nat)⟩ := by
  rw [← C29_player_ok_iff _ Toy.log0_valid]
  have h : (match Toy.log0.atInterp (3 / 4) with
    | .ok e => decide (e.state = (3 / 2 : ℚ) ∧ e.commands = (1 : ℚ) ∧ e.extra = none ∧ e.info = (0 : Nat))
    | _ => false) = true := by decide +kernel
  cases hr : Toy.log0.atInterp (3 / 4) with
  | error e => rw [hr] at h; cases h
  | ok e =>
    rw [hr] at h
    obtain ⟨x, c, ex, i⟩ := e
    simp only [decide_eq_true_eq] at h
    obtain ⟨rfl, rfl, rfl, rfl⟩ := h
    rfl

/-- **C29.** Reading the log of one player fails exactly if there is no state at all, or no command
or no info at or before `t`. -/
theorem C29_player_error_iff (l : PlayerLog Wd) (h : l.Valid) (t : K) :
    (∃ e, l.atInterp t = .error e) ↔
      l.states.ts = [] ∨ (∀ u ∈ l.commands.ts, t < u) ∨ (∀ u ∈ l.info.ts, t < u) := by
  obtain ⟨h1, h2, h3, h4⟩ := h
  obtain ⟨o, ho, hcase⟩ := extraAt_ok (Wd := Wd) l.extra h3 t
  have key : ∀ {α : Type} (s : Seq K α), s.Valid → ((∃ e, s.atOrPrevious t = .error e) ↔
      ∀ u ∈ s.ts, t < u) := by
    intro α s hs
    constructor
    · rintro ⟨e, he⟩
      rcases (C03_at_or_previous_error_iff s hs t e).mp he with ⟨h, _⟩ | ⟨_, h, _⟩
      · rw [h]; simp
      · exact h
    · intro hall
      by_cases hne : s.ts = []
      · exact ⟨_, (C03_at_or_previous_error_iff s hs t _).mpr (Or.inl ⟨hne, rfl⟩)⟩
      · exact ⟨_, (C03_at_or_previous_error_iff s hs t _).mpr (Or.inr ⟨hne, hall, rfl⟩)⟩
  have k2 := key l.commands h2
  have k4 := key l.info h4
  have k1 : (∃ e, l.states.atInterp t = .error e) ↔ l.states.ts = [] := by
    constructor
    · rintro ⟨e, he⟩; exact ((atInterp_error_iff _ h1 t e).mp he).1
    · intro h; exact ⟨_, (atInterp_error_iff _ h1 t _).mpr ⟨h, rfl⟩⟩
  rw [← k1, ← k2, ← k4]
  unfold PlayerLog.atInterp
  simp only [ho, bind, Except.bind, pure, Except.pure]
  cases hs : l.states.atInterp t with
  | error _ => simp
  | ok x =>
    cases hc : l.commands.atOrPrevious t with
    | error _ => simp
    | ok c =>
      cases hi : l.info.atOrPrevious t with
      | error _ => simp
      | ok i => simp

example : ∃ e, Toy.log0.atInterp (-1) = .error e :=
  (C29_player_error_iff _ Toy.log0_valid _).mpr (Or.inr (Or.inl (by decide +kernel)))

/-- **C29.** Reading the whole log gives exactly one entry per player, in the order of the log, and
each is the entry of that player. -/
theorem C29_at_interp (d : Dict N (PlayerLog Wd)) (t : K) (r : Dict N (LogEntry Wd))
    (h : ∀ p ∈ d, p.2.Valid) :
    SimLog.atInterp d t = .ok r ↔
      List.Forall₂ (fun p q => p.1 = q.1 ∧ IsEntry p.2 t q.2) d r := by
  induction d generalizing r with
  | nil =>
    unfold SimLog.atInterp
    constructor
    · intro h; injection h with h; subst h; exact List.Forall₂.nil
    · intro h; cases h; rfl
  | cons p d ih =>
    obtain ⟨n, l⟩ := p
    have hl : l.Valid := h (n, l) (by simp)
    have ih' := fun r => ih r (fun p hp => h p (by simp [hp]))
    unfold SimLog.atInterp
    simp only [bind, Except.bind, pure, Except.pure]
    constructor
    · intro hx
      cases he : l.atInterp t with
      | error _ => rw [he] at hx; cases hx
      | ok e =>
        cases hes : SimLog.atInterp d t with
        | error _ => rw [he, hes] at hx; cases hx
        | ok es =>
          rw [he, hes] at hx
          injection hx with hx; subst hx
          exact List.Forall₂.cons ⟨rfl, (C29_player_ok_iff l hl t e).mp he⟩ ((ih' es).mp hes)
    · intro hx
      cases hx with
      | cons h1 h2 =>
        rename_i q r
        obtain ⟨m, e⟩ := q
        obtain ⟨rfl, h1⟩ := h1
        rw [(C29_player_ok_iff l hl t e).mpr h1, (ih' r).mpr h2]

example (r) := C29_at_interp [(4, Toy.log0), (5, Toy.log0)] (3 / 4 : ℚ) r
  (by intro p hp; simp only [List.mem_cons, List.not_mem_nil, or_false] at hp
      rcases hp with rfl | rfl <;> exact Toy.log0_valid)

/-- **C29.** Assigning to a key rejects everything that is not a player log and then leaves the log
unchanged; otherwise exactly that key is changed. -/
theorem C29_set_item (d : Dict N (PlayerLog Wd)) (k : N) :
    (SimLog.setItem d k .other = (d, .error .zValue)) ∧
      ∀ l, (SimLog.setItem d k (.log l)).2 = .ok () ∧
        ∀ n, Dict.get? (SimLog.setItem d k (.log l)).1 n = if n = k then some l else Dict.get? d n := by
  refine ⟨rfl, fun l => ⟨rfl, fun n => ?_⟩⟩
  show Dict.get? (Dict.set d k l) n = _
  rw [Dict.get?_set]
  by_cases h : n = k
  · subst h; simp
  · have h' : ¬ k = n := fun e => h e.symm
    simp [h, h']

theorem foldl_min (l : List K) : ∀ a : K, (l.foldl (fun m x => if x < m then x else m) a) ∈ a :: l ∧
    ∀ x ∈ a :: l, l.foldl (fun m x => if x < m then x else m) a ≤ x := by
  induction l with
  | nil => intro a; simp
  | cons b l ih =>
    intro a
    simp only [List.foldl_cons]
    obtain ⟨h1, h2⟩ := ih (if b < a then b else a)
    have hle : (if b < a then b else a) ≤ a ∧ (if b < a then b else a) ≤ b := by
      split
      · rename_i h; exact ⟨le_of_lt h, le_refl _⟩
      · rename_i h; exact ⟨le_refl _, not_lt.mp h⟩
    have hmem : (if b < a then b else a) = a ∨ (if b < a then b else a) = b := by
      split <;> simp
    constructor
    · rcases List.mem_cons.mp h1 with h | h
      · rw [h]; rcases hmem with h' | h' <;> rw [h'] <;> simp
      · simp [h]
    · intro x hx
      have h0 := h2 _ (List.mem_cons_self)
      rcases List.mem_cons.mp hx with rfl | hx
      · exact le_trans h0 hle.1
      · rcases List.mem_cons.mp hx with rfl | hx
        · exact le_trans h0 hle.2
        · exact h2 x (by simp [hx])

theorem foldl_max (l : List K) : ∀ a : K, (l.foldl (fun m x => if m < x then x else m) a) ∈ a :: l ∧
    ∀ x ∈ a :: l, x ≤ l.foldl (fun m x => if m < x then x else m) a := by
  induction l with
  | nil => intro a; simp
  | cons b l ih =>
    intro a
    simp only [List.foldl_cons]
    obtain ⟨h1, h2⟩ := ih (if a < b then b else a)
    have hle : a ≤ (if a < b then b else a) ∧ b ≤ (if a < b then b else a) := by
      split
      · rename_i h; exact ⟨le_of_lt h, le_refl _⟩
      · rename_i h; exact ⟨le_refl _, not_lt.mp h⟩
    have hmem : (if a < b then b else a) = a ∨ (if a < b then b else a) = b := by
      split <;> simp
    constructor
    · rcases List.mem_cons.mp h1 with h | h
      · rw [h]; rcases hmem with h' | h' <;> rw [h'] <;> simp
      · simp [h]
    · intro x hx
      have h0 := h2 _ (List.mem_cons_self)
      rcases List.mem_cons.mp hx with rfl | hx
      · exact le_trans hle.1 h0
      · rcases List.mem_cons.mp hx with rfl | hx
        · exact le_trans hle.2 h0
        · exact h2 x (by simp [hx])

theorem collect_ok (f : PlayerLog Wd → Except Err K) (g : PlayerLog Wd → K) (d : Dict N (PlayerLog Wd))
    (h : ∀ p ∈ d, f p.2 = .ok (g p.2)) : collect f d = .ok (d.map (fun p => g p.2)) := by
  induction d with
  | nil => rfl
  | cons p d ih =>
    obtain ⟨n, l⟩ := p
    unfold collect
    have h1 := h (n, l) (by simp)
    simp only at h1
    rw [h1, ih (fun p hp => h p (by simp [hp]))]
    rfl

/-- **C29.** For a non-empty log of valid non-empty state sequences the initial time is the least and
the last time is the greatest time stamp of any state of any player. -/
theorem C29_times (d : Dict N (PlayerLog Wd)) (hd : d ≠ [])
    (h : ∀ p ∈ d, p.2.states.Valid ∧ p.2.states.ts ≠ []) :
    ∃ a b, SimLog.getInitTime d = .ok a ∧ SimLog.getLastTime d = .ok b ∧
      (∃ p ∈ d, a ∈ p.2.states.ts) ∧ (∃ p ∈ d, b ∈ p.2.states.ts) ∧
      ∀ p ∈ d, ∀ u ∈ p.2.states.ts, a ≤ u ∧ u ≤ b := by
  have hstart : ∀ p ∈ d, p.2.states.getStart = .ok (p.2.states.ts.headD 0) ∧
      p.2.states.ts.headD 0 ∈ p.2.states.ts ∧ ∀ u ∈ p.2.states.ts, p.2.states.ts.headD 0 ≤ u := by
    intro p hp
    obtain ⟨hv, hne⟩ := h p hp
    obtain ⟨x, xs, hx⟩ := List.exists_cons_of_ne_nil hne
    have hs := hv.2
    unfold Seq.getStart
    rw [hx] at hs ⊢
    refine ⟨rfl, by simp, ?_⟩
    intro u hu
    rcases List.mem_cons.mp hu with rfl | hu
    · exact le_refl _
    · exact le_of_lt ((List.pairwise_cons.mp hs).1 u hu)
  have hend : ∀ p ∈ d, p.2.states.getEnd = .ok (p.2.states.ts.getLastD 0) ∧
      p.2.states.ts.getLastD 0 ∈ p.2.states.ts ∧ ∀ u ∈ p.2.states.ts, u ≤ p.2.states.ts.getLastD 0 := by
    intro p hp
    obtain ⟨hv, hne⟩ := h p hp
    obtain ⟨xs, x, hx⟩ := List.eq_nil_or_concat p.2.states.ts |>.resolve_left hne
    have hs := hv.2
    unfold Seq.getEnd
    rw [hx] at hs ⊢
    refine ⟨by simp, by simp, ?_⟩
    intro u hu
    rcases List.mem_append.mp (show u ∈ xs ++ [x] by simpa using hu) with hu | hu
    · simp only [List.concat_eq_append] at hs
      simpa using le_of_lt ((List.pairwise_append.mp hs).2.2 u hu x (by simp))
    · simp only [List.mem_singleton] at hu; subst hu; simp
  have c1 := collect_ok (fun l : PlayerLog Wd => l.states.getStart) (fun l => l.states.ts.headD 0) d
    (fun p hp => (hstart p hp).1)
  have c2 := collect_ok (fun l : PlayerLog Wd => l.states.getEnd) (fun l => l.states.ts.getLastD 0) d
    (fun p hp => (hend p hp).1)
  obtain ⟨q, d', rfl⟩ := List.exists_cons_of_ne_nil hd
  have m1 := foldl_min (d'.map (fun p => p.2.states.ts.headD 0)) (q.2.states.ts.headD 0)
  have m2 := foldl_max (d'.map (fun p => p.2.states.ts.getLastD 0)) (q.2.states.ts.getLastD 0)
  refine ⟨(d'.map (fun p => p.2.states.ts.headD 0)).foldl (fun m x => if x < m then x else m)
      (q.2.states.ts.headD 0),
    (d'.map (fun p => p.2.states.ts.getLastD 0)).foldl (fun m x => if m < x then x else m)
      (q.2.states.ts.getLastD 0), ?_, ?_, ?_, ?_, ?_⟩
  · unfold SimLog.getInitTime; rw [c1]; rfl
  · unfold SimLog.getLastTime; rw [c2]; rfl
  · have := m1.1
    rw [← List.map_cons (f := fun p : N × PlayerLog Wd => p.2.states.ts.headD 0)] at this
    obtain ⟨p, hp, he⟩ := List.mem_map.mp this
    exact ⟨p, hp, by rw [← he]; exact (hstart p hp).2.1⟩
  · have := m2.1
    rw [← List.map_cons (f := fun p : N × PlayerLog Wd => p.2.states.ts.getLastD 0)] at this
    obtain ⟨p, hp, he⟩ := List.mem_map.mp this
    exact ⟨p, hp, by rw [← he]; exact (hend p hp).2.1⟩
  · intro p hp u hu
    constructor
    · refine le_trans (m1.2 (p.2.states.ts.headD 0) ?_) ((hstart p hp).2.2 u hu)
      rw [← List.map_cons (f := fun p : N × PlayerLog Wd => p.2.states.ts.headD 0)]
      exact List.mem_map_of_mem hp
    · refine le_trans ((hend p hp).2.2 u hu) (m2.2 (p.2.states.ts.getLastD 0) ?_)
      rw [← List.map_cons (f := fun p : N × PlayerLog Wd => p.2.states.ts.getLastD 0)]
      exact List.mem_map_of_mem hp

example := C29_times [(4, Toy.log0), (5, Toy.log0)] (by simp)
  (by intro p hp; simp only [List.mem_cons, List.not_mem_nil, or_false] at hp
      rcases hp with rfl | rfl <;> exact ⟨Toy.log0_valid.1, by simp [Toy.log0]⟩)

/-! ## Logs written by the simulator -/

theorem writeLog_spec (logger : Dict N (PlayerLogger Wd)) (ns : List N) :
    ∀ log log' : Dict N (PlayerLog Wd), writeLog logger ns log = .ok log' →
      (Dict.Wf log → Dict.Wf log') ∧ ∀ n, n ∈ Dict.keys log' → n ∈ Dict.keys log ∨ n ∈ ns := by
  induction ns with
  | nil => intro log log' h; injection h with h; subst h; exact ⟨id, fun n hn => Or.inl hn⟩
  | cons a ns ih =>
    intro log log' h
    unfold writeLog at h
    simp only [bind, Except.bind] at h
    cases hl : lookup logger a with
    | error e => rw [hl] at h; cases h
    | ok lg =>
      rw [hl] at h
      simp only at h
      cases hs : lg.asSequence with
      | error e => rw [hs] at h; cases h
      | ok l =>
        rw [hs] at h
        obtain ⟨h1, h2⟩ := ih _ _ h
        refine ⟨fun hw => h1 (Dict.wf_set hw a l), fun n hn => ?_⟩
        rcases h2 n hn with h | h
        · rcases (Dict.mem_keys_set _ _ _ _).mp h with h | h
          · exact Or.inl h
          · subst h; simp
        · right; simp [h]

variable [FloorSemiring K]

/-- **C29.** The log written by a fresh run into an empty log can be read at every time from 0 on,
whether before or after the time a player left: reading never raises. Its initial time is 0. -/
theorem C29_after_run {cfg : Cfg Wd} {fuel : Nat} {s s' : St Wd} {log' : Dict N (PlayerLog Wd)}
    (hf : Fresh s) (hdt : 0 < cfg.dt) (hm : Dict.Wf cfg.missions)
    (hrun : run cfg fuel s [] = some (.ok (s', log'))) :
    (∀ p ∈ log', p.2.Valid) ∧ (∀ n, n ∈ Dict.keys log' ↔ n ∈ Dict.keys s.models) ∧
      (∀ t, 0 ≤ t → ∃ r, SimLog.atInterp log' t = .ok r) ∧
      (s.players ≠ [] → SimLog.getInitTime log' = .ok 0) := by
  obtain ⟨σ, J, hready, h0, hex, hend, hterm, hw⟩ := run_ok hf hrun
  have hinv := inv_of_exec (inv_zero cfg σ hready) hdt hm (J + 1) hex
  obtain ⟨hwf, hkeys⟩ := writeLog_spec _ _ _ _ hw
  have hkm : Dict.keys s'.models = Dict.keys s.models := by
    obtain ⟨w, lg, h0⟩ := h0
    rw [← hend, hinv.keys, h0]
  rw [hkm] at hkeys
  obtain ⟨σ', J', _, _, _, _, hlog⟩ := C23_log hf hdt hm hrun
  have hall : ∀ p ∈ log', p.2.Valid ∧ (0 : K) ∈ p.2.states.ts ∧ (0 : K) ∈ p.2.commands.ts ∧
      (0 : K) ∈ p.2.info.ts ∧ ∀ u ∈ p.2.states.ts, 0 ≤ u := by
    rintro ⟨n, l⟩ hp
    have hn : n ∈ Dict.keys log' := List.mem_map_of_mem (f := Prod.fst) hp
    have hn' : n ∈ Dict.keys s.models := by
      rcases hkeys n hn with h | h
      · simp [Dict.keys] at h
      · exact h
    obtain ⟨pl, k, last, hget, hval, hcase, hst, _, hcm, hin, _⟩ := hlog n hn'
    have : Dict.get? log' n = some l := Dict.get?_of_mem (hwf Dict.wf_nil) hp
    rw [this] at hget; injection hget with hget; subst hget
    have hk : 0 < k := by
      rcases hcase with ⟨_, h, _⟩ | ⟨h, _⟩
      · omega
      · exact h
    have hc0 : (0 : K) ∈ l.commands.ts := by
      rw [hcm]
      refine List.mem_map.mpr ⟨0, List.mem_filter.mpr ⟨List.mem_range.mpr hk, by simp⟩, by simp⟩
    refine ⟨hval, ?_, hc0, by rw [hin]; exact hc0, ?_⟩
    · show (0 : K) ∈ l.states.ts
      rw [hst]
      exact List.mem_map.mpr ⟨0, List.mem_range.mpr (by omega), by simp⟩
    · intro u hu
      simp only at hu
      rw [hst] at hu
      obtain ⟨i, _, rfl⟩ := List.mem_map.mp hu
      exact mul_nonneg (Nat.cast_nonneg i) (le_of_lt hdt)
  refine ⟨fun p hp => (hall p hp).1, ?_, ?_, ?_⟩
  · intro n
    constructor
    · intro hn
      rcases hkeys n hn with h | h
      · simp [Dict.keys] at h
      · exact h
    · intro hn
      obtain ⟨pl, k, last, hget, _⟩ := hlog n hn
      exact (Dict.mem_keys_iff _ _).mpr ⟨pl, hget⟩
  · intro t ht
    clear hlog hkeys hwf hw hrun
    induction log' with
    | nil => exact ⟨[], rfl⟩
    | cons p d ih =>
      obtain ⟨r, hr⟩ := ih (fun p hp => hall p (by simp [hp]))
      obtain ⟨n, l⟩ := p
      obtain ⟨hv, hs0, hc0, hi0, _⟩ := hall (n, l) (by simp)
      simp only at hv hs0 hc0 hi0
      cases he : l.atInterp t with
      | error e =>
        exfalso
        rcases (C29_player_error_iff l hv t).mp ⟨e, he⟩ with h | h | h
        · rw [h] at hs0; simp at hs0
        · exact absurd (h 0 hc0) (not_lt.mpr ht)
        · exact absurd (h 0 hi0) (not_lt.mpr ht)
      | ok e =>
        refine ⟨(n, e) :: r, ?_⟩
        unfold SimLog.atInterp
        rw [he, hr]; rfl
  · intro hne
    obtain ⟨n, ns, hp⟩ := List.exists_cons_of_ne_nil hne
    have hn : n ∈ Dict.keys s.models := (hf.keys n).mp (by rw [hp]; simp)
    obtain ⟨pl, k, last, hget, _⟩ := hlog n hn
    have hne' : log' ≠ [] := by
      intro h; rw [h] at hget; simp [Dict.get?] at hget
    obtain ⟨a, b, ha, _, ⟨q, hq, hqa⟩, _, hle⟩ := C29_times log' hne'
      (fun p hp => ⟨(hall p hp).1.1, fun h => by have := (hall p hp).2.1; rw [h] at this; simp at this⟩)
    obtain ⟨_, hs0, _, _, hge⟩ := hall q hq
    have : a = 0 := le_antisymm (hle q hq 0 hs0).1 (hge a hqa)
    rw [ha, this]

example := C29_after_run Toy.fresh Toy.dt_pos Toy.wf Toy.run_eq

end Sim
end Verif
