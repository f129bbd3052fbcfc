import Verif.Coll.Resolve
import Mathlib.Tactic.Linarith
import Mathlib.Tactic.Ring
import Mathlib.Algebra.Order.Ring.Rat

/-!
# C40–C41: combining reports, who collided
-/

set_option linter.unusedSectionVars false

namespace Verif
namespace Coll

variable {N K : Type} [DecidableEq N] [Field K] [LinearOrder K] [IsStrictOrderedRing K] {L S : Type}

/-! ## C41 -/

/-- **C41.** `who_collided` contains exactly the players named in a report. -/
theorem C41_who_collided (rs : List (CollisionReport N K L S)) (n : N) :
    n ∈ whoCollided rs ↔ ∃ r ∈ rs, n ∈ Dict.keys r.players := by
  unfold whoCollided; rw [List.mem_flatMap]

theorem foldl_append_keys (rs : List (CollisionReport N K L S)) (acc : List N) (n : N) :
    n ∈ rs.foldl (fun acc r => acc ++ Dict.keys r.players) acc ↔
      n ∈ acc ∨ ∃ r ∈ rs, n ∈ Dict.keys r.players := by
  induction rs generalizing acc with
  | nil => simp
  | cons r rs ih =>
    rw [List.foldl_cons, ih, List.mem_append]
    simp [or_assoc]

/-- **C41.** `has_collision` holds exactly if some report names the player called Ego. -/
theorem C41_has_collision (ego : N) (rs : List (CollisionReport N K L S)) :
    hasCollision ego rs = true ↔ ∃ r ∈ rs, ego ∈ Dict.keys r.players := by
  unfold hasCollision
  rw [decide_eq_true_iff, foldl_append_keys]; simp

/-- A report on players 1 and 2, one on 2 and 3. -/
example : let rs : List (CollisionReport Nat ℚ Nat Nat) :=
      [⟨[(1, none), (2, none)], none, none, 1⟩, ⟨[(2, none), (3, none)], none, none, 2⟩]
    1 ∈ whoCollided rs ∧ 4 ∉ whoCollided rs ∧ hasCollision 3 rs = true ∧ hasCollision 0 rs = false := by
  decide +kernel

/-! ## C40 -/

theorem sameKeys_iff {α β : Type} (d1 : Dict N α) (d2 : Dict N β) :
    sameKeys d1 d2 = true ↔ ∀ k, k ∈ Dict.keys d1 ↔ k ∈ Dict.keys d2 := by
  unfold sameKeys
  simp only [Bool.and_eq_true, List.all_eq_true, decide_eq_true_iff]
  exact ⟨fun h k => ⟨h.1 k, h.2 k⟩, fun h => ⟨fun k => (h k).1, fun k => (h k).2⟩⟩

/-- A complete report: distinct players, each with an entry. -/
def Complete (r : CollisionReport N K L S) : Prop :=
  Dict.Wf r.players ∧ ∀ k ∈ Dict.keys r.players, ∃ rp, Dict.get? r.players k = some (some rp)

/-- Reports about the same players. -/
def SamePlayers (r1 r2 : CollisionReport N K L S) : Prop :=
  ∀ k, k ∈ Dict.keys r1.players ↔ k ∈ Dict.keys r2.players

/-- The entry of the combination: footprint, fault and velocity before of the earlier report, velocity
after of the later one, all locations, the sum of the energy changes. -/
structure IsCombined (early late c : ReportPlayer K L S) : Prop where
  footprint : c.footprint = early.footprint
  atFault : c.atFault = early.atFault
  velocity : c.velocity = early.velocity
  velocityAfter : c.velocityAfter = late.velocityAfter
  locations : c.locations = early.locations ++ late.locations
  energy : c.energyDelta = early.energyDelta + late.energyDelta

theorem get?_cons {α : Type} (p : N) (a : α) (d : Dict N α) (k : N) :
    Dict.get? ((p, a) :: d) k = if p = k then some a else Dict.get? d k := by
  by_cases h : p = k <;> simp [Dict.get?, h]

/-- The loop on complete inputs: entry by entry. -/
theorem combineLoop_ok (second : Dict N (Option (ReportPlayer K L S))) :
    ∀ (first : Dict N (Option (ReportPlayer K L S))), Dict.Wf first →
      (∀ k ∈ Dict.keys first, (∃ rp, Dict.get? first k = some (some rp)) ∧
        ∃ rp, Dict.get? second k = some (some rp)) →
      ∃ d, combineLoop second first = .ok d ∧ Dict.keys d = Dict.keys first ∧
        ∀ k r1 r2, Dict.get? first k = some (some r1) → Dict.get? second k = some (some r2) →
          Dict.get? d k = some (some (combinePlayer r1 r2))
  | [], _, _ => ⟨[], rfl, rfl, by intro k r1 r2 h; simp [Dict.get?] at h⟩
  | (p, r) :: rest, hwf, hc => by
    have hwf2 : Dict.Wf rest ∧ p ∉ Dict.keys rest := by
      unfold Dict.Wf at hwf ⊢
      simp only [Dict.keys, List.map_cons, List.nodup_cons] at hwf ⊢
      exact ⟨hwf.2, hwf.1⟩
    obtain ⟨⟨r1, hr1⟩, ⟨r2, hr2⟩⟩ := hc p (by simp [Dict.keys])
    rw [get?_cons, if_pos rfl] at hr1
    injection hr1 with hr1
    subst hr1
    have hrest : ∀ k ∈ Dict.keys rest, p ≠ k := by
      intro k hk h; subst h; exact hwf2.2 hk
    obtain ⟨d, hd, hkeys, hget⟩ := combineLoop_ok second rest hwf2.1 (by
      intro k hk
      have := hc k (by simp [Dict.keys] at hk ⊢; exact Or.inr hk)
      rw [get?_cons, if_neg (hrest k hk)] at this
      exact this)
    refine ⟨(p, some (combinePlayer r1 r2)) :: d, ?_, ?_, ?_⟩
    · unfold combineLoop
      simp only [hr2, hd]
    · simp only [Dict.keys, List.map_cons] at hkeys ⊢; rw [hkeys]
    · intro k s1 s2 h1 h2
      rw [get?_cons] at h1 ⊢
      by_cases hpk : p = k
      · subst hpk
        rw [if_pos rfl] at h1 ⊢
        rw [hr2] at h2
        injection h1 with h1; injection h1 with h1; injection h2 with h2; injection h2 with h2
        subst h1 h2; rfl
      · rw [if_neg hpk] at h1 ⊢
        exact hget k s1 s2 h1 h2

theorem combine_of_le (r1 r2 : CollisionReport N K L S) (h1 : Complete r1) (h2 : Complete r2)
    (hs : SamePlayers r1 r2) (ht : r1.atTime ≤ r2.atTime) :
    ∃ d, combine r1 r2 = .ok { r1 with players := d } ∧ Dict.keys d = Dict.keys r1.players ∧
      (∀ k e1 e2, Dict.get? r1.players k = some (some e1) → Dict.get? r2.players k = some (some e2) →
        Dict.get? d k = some (some (combinePlayer e1 e2))) := by
  obtain ⟨d, hd, hk, hg⟩ := combineLoop_ok r2.players r1.players h1.1
    (fun k hk => ⟨h1.2 k hk, h2.2 k ((hs k).mp hk)⟩)
  refine ⟨d, ?_, hk, hg⟩
  unfold combine
  rw [if_pos ((sameKeys_iff _ _).mpr hs)]
  simp only [ht, if_true, hd]

theorem combine_of_gt (r1 r2 : CollisionReport N K L S) (hs : SamePlayers r1 r2)
    (ht : r2.atTime < r1.atTime) : combine r1 r2 = combine r2 r1 := by
  have hs' : SamePlayers r2 r1 := fun k => (hs k).symm
  unfold combine
  rw [if_pos ((sameKeys_iff _ _).mpr hs), if_pos ((sameKeys_iff _ _).mpr hs')]
  simp only [not_le.mpr ht, if_false, ht.le, if_true]

/-- **C40.** Reports about different players are rejected. -/
theorem C40_different_players (r1 r2 : CollisionReport N K L S) (h : ¬SamePlayers r1 r2) :
    combine r1 r2 = .error .zValue := by
  unfold combine
  rw [if_neg (fun hs => h ((sameKeys_iff _ _).mp hs))]

/-- **C40.** Combining complete reports on the same players: the result takes time, point and normal
from the earlier report (the first one on ties), and combines entry by entry. -/
theorem C40_combine (r1 r2 : CollisionReport N K L S) (h1 : Complete r1) (h2 : Complete r2)
    (hs : SamePlayers r1 r2) :
    ∃ early late c, combine r1 r2 = .ok c ∧
      ((r1.atTime ≤ r2.atTime ∧ early = r1 ∧ late = r2) ∨
        (r2.atTime < r1.atTime ∧ early = r2 ∧ late = r1)) ∧
      c.atTime = early.atTime ∧ c.point = early.point ∧ c.normal = early.normal ∧
      Complete c ∧ SamePlayers c r1 ∧
      ∀ k, k ∈ Dict.keys c.players → ∃ e l x, Dict.get? early.players k = some (some e) ∧
        Dict.get? late.players k = some (some l) ∧ Dict.get? c.players k = some (some x) ∧
        IsCombined e l x := by
  have key : ∀ u v : CollisionReport N K L S, Complete u → Complete v → SamePlayers u v →
      u.atTime ≤ v.atTime → ∃ c, combine u v = .ok c ∧
        c.atTime = u.atTime ∧ c.point = u.point ∧ c.normal = u.normal ∧ Complete c ∧
        SamePlayers c u ∧
        ∀ k, k ∈ Dict.keys c.players → ∃ e l x, Dict.get? u.players k = some (some e) ∧
          Dict.get? v.players k = some (some l) ∧ Dict.get? c.players k = some (some x) ∧
          IsCombined e l x := by
    intro u v hu hv huv ht
    obtain ⟨d, hd, hk, hg⟩ := combine_of_le u v hu hv huv ht
    refine ⟨_, hd, rfl, rfl, rfl, ⟨?_, ?_⟩, ?_, ?_⟩
    · have := hu.1; unfold Dict.Wf at this ⊢; simp only; rw [hk]; exact this
    · intro k hk'
      simp only at hk' ⊢
      rw [hk] at hk'
      obtain ⟨e, he⟩ := hu.2 k hk'
      obtain ⟨l, hl⟩ := hv.2 k ((huv k).mp hk')
      exact ⟨_, hg k e l he hl⟩
    · intro k; simp only; rw [hk]
    · intro k hk'
      simp only at hk' ⊢
      rw [hk] at hk'
      obtain ⟨e, he⟩ := hu.2 k hk'
      obtain ⟨l, hl⟩ := hv.2 k ((huv k).mp hk')
      exact ⟨e, l, _, he, hl, hg k e l he hl, ⟨rfl, rfl, rfl, rfl, rfl, rfl⟩⟩
  by_cases ht : r1.atTime ≤ r2.atTime
  · obtain ⟨c, h, a1, a2, a3, a4, a5, a6⟩ := key r1 r2 h1 h2 hs ht
    exact ⟨r1, r2, c, h, Or.inl ⟨ht, rfl, rfl⟩, a1, a2, a3, a4, a5, a6⟩
  · have ht := not_le.mp ht
    obtain ⟨c, h, a1, a2, a3, a4, a5, a6⟩ := key r2 r1 h2 h1 (fun k => (hs k).symm) ht.le
    exact ⟨r2, r1, c, by rw [combine_of_gt r1 r2 hs ht, h], Or.inr ⟨ht, rfl, rfl⟩, a1, a2, a3, a4,
      fun k => (a5 k).trans (hs k).symm, a6⟩

/-- **C40.** Combining is commutative for reports with different times. -/
theorem C40_comm (r1 r2 : CollisionReport N K L S) (ht : r1.atTime ≠ r2.atTime) :
    combine r1 r2 = combine r2 r1 := by
  by_cases hs : SamePlayers r1 r2
  · rcases lt_or_gt_of_ne ht with h | h
    · exact (combine_of_gt r2 r1 (fun k => (hs k).symm) h).symm
    · exact combine_of_gt r1 r2 hs h
  · rw [C40_different_players r1 r2 hs,
      C40_different_players r2 r1 (fun h => hs (fun k => (h k).symm))]

theorem dict_ext_keys {α : Type} (d1 d2 : Dict N α) (h1 : Dict.Wf d1)
    (hk : Dict.keys d1 = Dict.keys d2) (hg : ∀ k ∈ Dict.keys d1, Dict.get? d1 k = Dict.get? d2 k) :
    d1 = d2 := by
  induction d1 generalizing d2 with
  | nil => cases d2 with
    | nil => rfl
    | cons p d2 => simp [Dict.keys] at hk
  | cons p d1 ih =>
    cases d2 with
    | nil => simp [Dict.keys] at hk
    | cons q d2 =>
      obtain ⟨k1, a1⟩ := p
      obtain ⟨k2, a2⟩ := q
      simp only [Dict.keys, List.map_cons, List.cons.injEq] at hk
      obtain ⟨rfl, hk⟩ := hk
      have hwf : Dict.Wf d1 ∧ k1 ∉ Dict.keys d1 := by
        unfold Dict.Wf at h1 ⊢
        simp only [Dict.keys, List.map_cons, List.nodup_cons] at h1 ⊢
        exact ⟨h1.2, h1.1⟩
      have h0 := hg k1 (by simp [Dict.keys])
      rw [get?_cons, get?_cons, if_pos rfl, if_pos rfl] at h0
      injection h0 with h0
      subst h0
      rw [ih d2 hwf.1 hk (fun k hk' => by
        have hne : k1 ≠ k := fun h => hwf.2 (h ▸ hk')
        have := hg k (by simp [Dict.keys] at hk' ⊢; exact Or.inr hk')
        rwa [get?_cons, get?_cons, if_neg hne, if_neg hne] at this)]

/-- **C40.** Combining complete reports on the same players in the order of their times is
associative. -/
theorem C40_assoc (r1 r2 r3 : CollisionReport N K L S) (h1 : Complete r1) (h2 : Complete r2)
    (h3 : Complete r3) (h12 : SamePlayers r1 r2) (h23 : SamePlayers r2 r3)
    (t12 : r1.atTime ≤ r2.atTime) (t23 : r2.atTime ≤ r3.atTime) :
    ∃ c12 c23 c, combine r1 r2 = .ok c12 ∧ combine r2 r3 = .ok c23 ∧
      combine c12 r3 = .ok c ∧ combine r1 c23 = .ok c := by
  obtain ⟨d12, e12, k12, g12⟩ := combine_of_le r1 r2 h1 h2 h12 t12
  obtain ⟨d23, e23, k23, g23⟩ := combine_of_le r2 r3 h2 h3 h23 t23
  have hC12 : Complete ({ r1 with players := d12 } : CollisionReport N K L S) := by
    refine ⟨?_, ?_⟩
    · have := h1.1; unfold Dict.Wf at this ⊢; simp only; rw [k12]; exact this
    · intro k hk; simp only at hk ⊢; rw [k12] at hk
      obtain ⟨a, ha⟩ := h1.2 k hk
      obtain ⟨b, hb⟩ := h2.2 k ((h12 k).mp hk)
      exact ⟨_, g12 k a b ha hb⟩
  have hC23 : Complete ({ r2 with players := d23 } : CollisionReport N K L S) := by
    refine ⟨?_, ?_⟩
    · have := h2.1; unfold Dict.Wf at this ⊢; simp only; rw [k23]; exact this
    · intro k hk; simp only at hk ⊢; rw [k23] at hk
      obtain ⟨a, ha⟩ := h2.2 k hk
      obtain ⟨b, hb⟩ := h3.2 k ((h23 k).mp hk)
      exact ⟨_, g23 k a b ha hb⟩
  obtain ⟨dl, el, kl, gl⟩ := combine_of_le ({ r1 with players := d12 } : CollisionReport N K L S) r3
    hC12 h3 (fun k => by simp only; rw [k12]; exact (h12 k).trans (h23 k)) (le_trans t12 t23)
  obtain ⟨dr, er, kr, gr⟩ := combine_of_le r1 ({ r2 with players := d23 } : CollisionReport N K L S)
    h1 hC23 (fun k => by simp only; rw [k23]; exact h12 k) t12
  have hdd : dl = dr := by
    apply dict_ext_keys dl dr
    · have := h1.1; unfold Dict.Wf at this ⊢; rw [kl]; simp only; rw [k12]; exact this
    · rw [kl, kr]; exact k12
    · intro k hk
      rw [kl] at hk; simp only at hk; rw [k12] at hk
      obtain ⟨a, ha⟩ := h1.2 k hk
      obtain ⟨b, hb⟩ := h2.2 k ((h12 k).mp hk)
      obtain ⟨c, hc⟩ := h3.2 k ((h23 k).mp ((h12 k).mp hk))
      rw [gl k _ _ (g12 k a b ha hb) hc, gr k _ _ ha (g23 k b c hb hc)]
      simp only [combinePlayer, List.append_assoc, add_assoc]
  refine ⟨_, _, _, e12, e23, el, ?_⟩
  rw [er, hdd]

/-- Reports of one player with a given time and velocity after. -/
def rep (t v : ℚ) : CollisionReport Nat ℚ Nat Nat :=
  ⟨[(0, some ⟨[(0, 0)], true, 0, ((0, 0), 0), ((v, 0), 0), -1⟩)], none, none, t⟩

theorem complete_rep (t v : ℚ) : Complete (rep t v) := by
  refine ⟨by unfold Dict.Wf; simp [rep, Dict.keys], fun k hk => ?_⟩
  have : k = 0 := by simpa [rep, Dict.keys] using hk
  subst this
  exact ⟨_, rfl⟩

example := C40_assoc (rep 1 10) (rep 2 20) (rep 3 30) (complete_rep _ _) (complete_rep _ _)
  (complete_rep _ _) (fun _ => Iff.rfl) (fun _ => Iff.rfl) (by decide +kernel) (by decide +kernel)

/-- **C40.** Out of order it is not associative: for reports at times 1, 3 and 2 the velocity after
is that of the report at time 2 or that of the report at time 3, depending on the grouping. -/
theorem C40_assoc_counterexample :
    (combine (rep 1 10) (rep 3 30)).bind (fun c => combine c (rep 2 20)) ≠
      (combine (rep 3 30) (rep 2 20)).bind (fun c => combine (rep 1 10) c) := by
  intro h
  have h2 : (match (combine (rep 1 10) (rep 3 30)).bind (fun c => combine c (rep 2 20)) with
      | .ok c => some c | .error _ => none) =
    (match (combine (rep 3 30) (rep 2 20)).bind (fun c => combine (rep 1 10) c) with
      | .ok c => some c | .error _ => none) := by rw [h]
  revert h2
  decide +kernel

theorem combineLoop_empty (second : Dict N (Option (ReportPlayer K L S))) :
    ∀ (first : Dict N (Option (ReportPlayer K L S))),
      (∀ k ∈ Dict.keys first, k ∈ Dict.keys second) →
      (∃ q ∈ first, q.2 = none ∨ Dict.get? second q.1 = some none) →
      combineLoop second first = .error .attribute
  | [], _, h => by obtain ⟨q, hq, _⟩ := h; simp at hq
  | (p, r) :: rest, hk, h => by
    obtain ⟨r2, hr2⟩ := (Dict.mem_keys_iff _ _).mp (hk p (by simp [Dict.keys]))
    unfold combineLoop
    rw [hr2]
    cases r with
    | none => rfl
    | some e1 =>
      cases r2 with
      | none => rfl
      | some e2 =>
        obtain ⟨q, hq, hq2⟩ := h
        rcases List.mem_cons.mp hq with rfl | hq
        · simp only [reduceCtorEq, false_or] at hq2
          rw [hr2] at hq2; simp at hq2
        · rw [combineLoop_empty second rest
            (fun k hk' => hk k (by simp only [Dict.keys, List.map_cons, List.mem_cons]; exact Or.inr hk'))
            ⟨q, hq, hq2⟩]

/-- **C40.** An empty report (made when a collision could not be resolved) cannot be combined: the
attempt ends with an `AttributeError`. -/
theorem C40_empty (r1 r2 : CollisionReport N K L S) (hs : SamePlayers r1 r2) (k : N)
    (hk : Dict.get? r1.players k = some none ∨ Dict.get? r2.players k = some none) :
    combine r1 r2 = .error .attribute := by
  have key : ∀ u v : CollisionReport N K L S, SamePlayers u v →
      (Dict.get? u.players k = some none ∨ Dict.get? v.players k = some none) →
      combineLoop v.players u.players = .error .attribute := by
    intro u v huv h
    apply combineLoop_empty v.players u.players (fun k hk => (huv k).mp hk)
    rcases h with h | h
    · exact ⟨(k, none), Dict.get?_eq_some_mem h, Or.inl rfl⟩
    · have hkv : k ∈ Dict.keys v.players := (Dict.mem_keys_iff _ _).mpr ⟨_, h⟩
      obtain ⟨r, hr⟩ := (Dict.mem_keys_iff _ _).mp ((huv k).mpr hkv)
      exact ⟨(k, r), Dict.get?_eq_some_mem hr, Or.inr h⟩
  unfold combine
  rw [if_pos ((sameKeys_iff _ _).mpr hs)]
  by_cases ht : r1.atTime ≤ r2.atTime
  · simp only [ht, if_true]
    rw [key r1 r2 hs hk]
  · simp only [ht, if_false]
    rw [key r2 r1 (fun k => (hs k).symm) hk.symm]

example := C40_empty (rep 1 10) ⟨[(0, none)], none, none, 2⟩ (fun _ => Iff.rfl) 0 (Or.inr rfl)

end Coll
end Verif
