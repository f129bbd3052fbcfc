import Verif.Perception.Filters
import Verif.Seq.Lemmas
import Mathlib.Analysis.Complex.Norm
import Mathlib.Tactic.Linarith
import Mathlib.Tactic.Ring
import Mathlib.Tactic.IntervalCases
import Mathlib.Data.List.Perm.Basic

/-!
# C30, C31, C32: delay, ghost and field of view filters
-/

set_option linter.unusedSectionVars false

namespace Verif
namespace Perception

open Verif.Sim (Obs)

variable {N K X P : Type} [DecidableEq N] [Field K] [LinearOrder K] [IsStrictOrderedRing K]

/-! ## C30: delay -/

/-- The same observation with another time stamp. -/
def restamp (o : Obs N K X P) (t : K) : Obs N K X P := ⟨o.players, t⟩

/-- `r` is the oldest of the observations `os 0, …, os j` that is not older than `L` at the time of
`os j`, stamped with its own time plus `L`. -/
def OldestWithin (L : K) (os : List (Obs N K X P)) (j : Nat) (r : Obs N K X P) : Prop :=
  ∃ (i : Nat) (o now : Obs N K X P), i ≤ j ∧ os[i]? = some o ∧ os[j]? = some now ∧
    r = restamp o (o.time + L) ∧ now.time - L ≤ o.time ∧
    ∀ (i' : Nat) (o' : Obs N K X P), i' < i → os[i']? = some o' → o'.time < now.time - L

theorem delayStep_spec (L : K) (hL : 0 ≤ L) (os : List (Obs N K X P)) (o : Obs N K X P)
    (hord : ((os ++ [o]).map (·.time)).Pairwise (· ≤ ·)) :
    ∃ r, delayStep L (os.map (fun o => (o.time + L, restamp o (o.time + L)))) o =
        .ok ((os ++ [o]).map (fun o => (o.time + L, restamp o (o.time + L))), r) ∧
      OldestWithin L (os ++ [o]) os.length r := by
  have hmap : ((os ++ [o]).map (fun o => (o.time + L, restamp o (o.time + L)))).map Prod.fst =
      ((os ++ [o]).map (·.time)).map (· + L) := by simp
  have hsorted : (((os ++ [o]).map (·.time)).map (· + L)).Pairwise (· ≤ ·) := by
    rw [List.pairwise_map]
    exact hord.imp (fun h => by linarith)
  obtain ⟨h1, h2, h3⟩ := bisectLeft_spec _ o.time hsorted
  set idx := bisectLeft (((os ++ [o]).map (·.time)).map (· + L)) o.time with hidx
  have hlen : (((os ++ [o]).map (·.time)).map (· + L)).length = os.length + 1 := by simp
  have hle : idx ≤ os.length := by
    by_contra hc
    have := h2 os.length (by rw [hlen]; omega) (by omega)
    simp at this
    linarith
  have hlt : idx < (os ++ [o]).length := by simp; omega
  have hdl : delayStep L (os.map (fun o => (o.time + L, restamp o (o.time + L)))) o =
      .ok ((os ++ [o]).map (fun o => (o.time + L, restamp o (o.time + L))),
        restamp (os ++ [o])[idx] ((os ++ [o])[idx].time + L)) := by
    unfold delayStep
    have e : os.map (fun o => (o.time + L, restamp o (o.time + L))) ++
        [(o.time + L, ({ o with time := o.time + L } : Obs N K X P))] =
        (os ++ [o]).map (fun o => (o.time + L, restamp o (o.time + L))) := by
      simp [restamp]
    simp only [e, hmap, ← hidx]
    rw [pyGet_of_lt _ _ (by rw [List.length_map]; exact hlt)]
    simp only [List.getElem_map]
  refine ⟨_, hdl, idx, (os ++ [o])[idx], o, hle, List.getElem?_eq_getElem hlt, by simp, rfl, ?_, ?_⟩
  · have := h3 idx (by rw [hlen]; omega) (le_refl _)
    simp only [List.getElem_map] at this
    linarith
  · intro i' o' hi' ho'
    have hi2 : i' < (os ++ [o]).length := by omega
    rw [List.getElem?_eq_getElem hi2] at ho'
    injection ho' with ho'
    have := h2 i' (by rw [hlen]; omega) hi'
    simp only [List.getElem_map, ho'] at this
    linarith

theorem delayed_run {Sc : Type} (f : Filter N K X P Sc) (L : K) (hL : 0 ≤ L)
    (calls : List (Sc × Obs N K X P × N)) : ∀ (s s' : f.S) (os0 os : List (Obs N K X P)),
    senseAll f s calls = .ok (s', os) → ((os0 ++ os).map (·.time)).Pairwise (· ≤ ·) →
    ∃ t rs, senseAll (delayed f L)
        (s, os0.map (fun o => (o.time + L, restamp o (o.time + L)))) calls = .ok (t, rs) ∧
      rs.length = os.length ∧ ∀ k (r : Obs N K X P), rs[k]? = some r →
        OldestWithin L (os0 ++ os) (os0.length + k) r := by
  induction calls with
  | nil =>
    intro s s' os0 os h hord
    injection h with h; injection h with _ h; subst h
    exact ⟨_, [], rfl, rfl, by simp⟩
  | cons c calls ih =>
    intro s s' os0 os h hord
    obtain ⟨sc, o, pov⟩ := c
    unfold senseAll at h
    cases hs : f.sense s sc o pov with
    | error e => rw [hs] at h; cases h
    | ok q =>
      obtain ⟨s1, obs⟩ := q
      rw [hs] at h
      simp only at h
      cases hrest : senseAll f s1 calls with
      | error e => rw [hrest] at h; cases h
      | ok q2 =>
        obtain ⟨s2, os2⟩ := q2
        rw [hrest] at h
        injection h with h; injection h with h1 h2
        subst h2
        have hord1 : ((os0 ++ [obs]).map (·.time)).Pairwise (· ≤ ·) := by
          refine hord.sublist (List.Sublist.map _ ?_)
          exact List.Sublist.append (List.Sublist.refl _) (by simp)
        have hord2 : (((os0 ++ [obs]) ++ os2).map (·.time)).Pairwise (· ≤ ·) := by
          simpa using hord
        obtain ⟨r, hr1, hr2⟩ := delayStep_spec L hL os0 obs hord1
        obtain ⟨t, rs, hrs1, hrs2, hrs3⟩ := ih s1 s2 (os0 ++ [obs]) os2 hrest hord2
        refine ⟨t, r :: rs, ?_, by simp [hrs2], ?_⟩
        · simp only [senseAll, delayed, hs, hr1]
          simp only [delayed] at hrs1
          rw [hrs1]
        · intro k r' hk
          cases k with
          | zero =>
            simp only [List.getElem?_cons_zero, Option.some.injEq] at hk
            subst hk
            obtain ⟨i, o1, now, a1, a2, a3, a4, a5, a6⟩ := hr2
            have ext : ∀ (i : Nat) (x : Obs N K X P), (os0 ++ [obs])[i]? = some x →
                (os0 ++ obs :: os2)[i]? = some x := by
              intro i x hx
              have hlt := (List.getElem?_eq_some_iff.mp hx).1
              have : os0 ++ obs :: os2 = (os0 ++ [obs]) ++ os2 := by simp
              rw [this, List.getElem?_append_left hlt]; exact hx
            refine ⟨i, o1, now, a1, ext _ _ a2, ext _ _ a3, a4, a5, ?_⟩
            intro i' o' hi' ho'
            apply a6 i' o' hi'
            have hlt : i' < (os0 ++ [obs]).length := by simp; omega
            have : os0 ++ obs :: os2 = (os0 ++ [obs]) ++ os2 := by simp
            rw [this, List.getElem?_append_left hlt] at ho'
            exact ho'
          | succ k =>
            simp only [List.getElem?_cons_succ] at hk
            have := hrs3 k r' hk
            have e : os0 ++ [obs] ++ os2 = os0 ++ obs :: os2 := by simp
            have e2 : (os0 ++ [obs]).length + k = os0.length + (k + 1) := by simp; omega
            rw [e, e2] at this
            exact this

/-- **C30.** For a latency `L ≥ 0` and observations coming in time order, a delayed filter never
raises unless the inner filter does, and its `k`-th answer is the oldest of the observations the
inner filter made so far that is not older than `L`, stamped `L` later. -/
theorem C30_delay {Sc : Type} (f : Filter N K X P Sc) (L : K) (hL : 0 ≤ L)
    (calls : List (Sc × Obs N K X P × N)) (s : f.S) (os : List (Obs N K X P))
    (hin : senseAll f f.init calls = .ok (s, os)) (hord : (os.map (·.time)).Pairwise (· ≤ ·)) :
    ∃ t rs, senseAll (delayed f L) (delayed f L).init calls = .ok (t, rs) ∧
      rs.length = os.length ∧ ∀ k (r : Obs N K X P), rs[k]? = some r → OldestWithin L os k r := by
  obtain ⟨t, rs, h1, h2, h3⟩ := delayed_run f L hL calls f.init s [] os hin (by simpa using hord)
  refine ⟨t, rs, h1, h2, ?_⟩
  intro k r hk
  simpa using h3 k r hk

/-- **C30.** If observations are made every `p` from time 0 on and the latency is `d` periods, then
from the `d`-th call on the answer of call `k` is exactly the observation made `d` periods earlier,
with the present time; before that it is the very first observation, with the time `d * p`. -/
theorem C30_regular {Sc : Type} (f : Filter N K X P Sc) (p : K) (hp : 0 < p) (d : Nat)
    (calls : List (Sc × Obs N K X P × N)) (s : f.S) (os : List (Obs N K X P))
    (hin : senseAll f f.init calls = .ok (s, os))
    (htimes : ∀ (k : Nat) (o : Obs N K X P), os[k]? = some o → o.time = (k : K) * p) :
    ∃ t rs, senseAll (delayed f ((d : K) * p)) (delayed f ((d : K) * p)).init calls = .ok (t, rs) ∧
      rs.length = os.length ∧
      (∀ (k : Nat) (o : Obs N K X P), d ≤ k → k < os.length → os[k - d]? = some o →
        rs[k]? = some (restamp o ((k : K) * p))) ∧
      (∀ (k : Nat) (o : Obs N K X P), k < d → k < os.length → os[0]? = some o →
        rs[k]? = some (restamp o ((d : K) * p))) := by
  have hord : (os.map (·.time)).Pairwise (· ≤ ·) := by
    rw [List.pairwise_map, List.pairwise_iff_getElem]
    intro i j hi hj hij
    rw [htimes i _ (List.getElem?_eq_getElem hi), htimes j _ (List.getElem?_eq_getElem hj)]
    exact mul_le_mul_of_nonneg_right (by exact_mod_cast le_of_lt hij) (le_of_lt hp)
  obtain ⟨t, rs, h1, h2, h3⟩ := C30_delay f ((d : K) * p)
    (mul_nonneg (Nat.cast_nonneg d) (le_of_lt hp)) calls s os hin hord
  have key : ∀ k, k < os.length → ∃ (i : Nat) (o : Obs N K X P), os[i]? = some o ∧
      i = k - d ∧ rs[k]? = some (restamp o (((i + d : Nat) : K) * p)) := by
    intro k hk
    have hk' : k < rs.length := by omega
    obtain ⟨i, o, now, a1, a2, a3, a4, a5, a6⟩ := h3 k _ (List.getElem?_eq_getElem hk')
    rw [htimes k now a3, htimes i o a2] at a5
    have hge : k ≤ i + d := by
      have : (k : K) * p ≤ ((i + d : Nat) : K) * p := by push_cast; linarith
      exact_mod_cast le_of_mul_le_mul_right this hp
    refine ⟨i, o, a2, ?_, ?_⟩
    · rcases Nat.eq_zero_or_pos i with h0 | h0
      · omega
      · have hi1 : i - 1 < os.length := by
          have := (List.getElem?_eq_some_iff.mp a2).1; omega
        have := a6 (i - 1) _ (by omega) (List.getElem?_eq_getElem hi1)
        rw [htimes (i - 1) _ (List.getElem?_eq_getElem hi1), htimes k now a3] at this
        have h4 : ((i - 1 + d : Nat) : K) * p < (k : K) * p := by push_cast; linarith
        have h5 : i - 1 + d < k := by exact_mod_cast lt_of_mul_lt_mul_right h4 (le_of_lt hp)
        omega
    · rw [List.getElem?_eq_getElem hk', a4, htimes i o a2]
      congr 2
      push_cast; ring
  refine ⟨t, rs, h1, h2, ?_, ?_⟩
  · intro k o hdk hk ho
    obtain ⟨i, o', b1, rfl, b2⟩ := key k hk
    rw [ho] at b1; injection b1 with b1; subst b1
    rw [b2, Nat.sub_add_cancel hdk]
  · intro k o hkd hk ho
    obtain ⟨i, o', b1, b2, b3⟩ := key k hk
    have : i = 0 := by omega
    subst this
    rw [ho] at b1; injection b1 with b1; subst b1
    rw [b3]; simp

/-- The results of an outcome. -/
def results {α β : Type} : Except Err (α × β) → Option β
  | .ok r => some r.2
  | .error _ => none

theorem exists_state {α β : Type} {x : Except Err (α × β)} {b : β} (h : results x = some b) :
    ∃ a, x = .ok (a, b) := by
  cases x with
  | error e => cases h
  | ok r => obtain ⟨a, b'⟩ := r; injection h with h; subst h; exact ⟨a, rfl⟩

/-- Four observations one second apart, two seconds of latency. -/
example : ∃ t, senseAll (delayed (idFilter Nat ℚ Nat Unit Unit) 2)
    (delayed (idFilter Nat ℚ Nat Unit Unit) 2).init
    [((), ⟨[(0, (10, ()))], 0⟩, 0), ((), ⟨[(0, (11, ()))], 1⟩, 0), ((), ⟨[(0, (12, ()))], 2⟩, 0),
      ((), ⟨[(0, (13, ()))], 3⟩, 0)] =
    .ok (t, [⟨[(0, (10, ()))], 2⟩, ⟨[(0, (10, ()))], 2⟩, ⟨[(0, (10, ()))], 2⟩, ⟨[(0, (11, ()))], 3⟩]) :=
  exists_state (by decide +kernel)

example := C30_regular (idFilter Nat ℚ Nat Unit Unit) 1 one_pos 2
  [((), ⟨[(0, (10, ()))], 0⟩, 0), ((), ⟨[(0, (11, ()))], 1⟩, 0), ((), ⟨[(0, (12, ()))], 2⟩, 0)] ()
  [⟨[(0, (10, ()))], 0⟩, ⟨[(0, (11, ()))], 1⟩, ⟨[(0, (12, ()))], 2⟩] rfl
  (by
    intro k o h
    have hk : k < 3 := (List.getElem?_eq_some_iff.mp h).1
    interval_cases k <;> simp at h <;> subst h <;> norm_num)

/-- A negative latency raises `IndexError` on the first call already. -/
theorem C30_negative {Sc : Type} (f : Filter N K X P Sc) (L : K) (hL : L < 0) (sc : Sc)
    (o : Obs N K X P) (pov : N) (s1 : f.S) (o1 : Obs N K X P)
    (h : f.sense f.init sc o pov = .ok (s1, o1)) :
    (delayed f L).sense (delayed f L).init sc o pov = .error .index := by
  simp only [delayed, h]
  unfold delayStep
  have hs : ([o1.time + L] : List K).Pairwise (· ≤ ·) := by simp
  obtain ⟨h1, h2, h3⟩ := bisectLeft_spec [o1.time + L] o1.time hs
  have hidx : bisectLeft [o1.time + L] o1.time = 1 := by
    have hle : bisectLeft [o1.time + L] o1.time ≤ 1 := by simpa using h1
    by_contra hne
    have := h3 0 (by simp) (by omega)
    simp at this
    linarith
  simp only [List.nil_append, List.map_cons, List.map_nil, hidx]
  rfl

/-! ## C31: ghost -/

/-- The point with the given coordinates. -/
def pt (q : ℝ × ℝ) : ℂ := ⟨q.1, q.2⟩

theorem sqrt_eq_dist (a b : ℝ × ℝ) :
    Real.sqrt ((a.1 - b.1) ^ 2 + (a.2 - b.2) ^ 2) = dist (pt a) (pt b) := by
  rw [Complex.dist_eq_re_im]; rfl

/-- **C31.** If the observer is in the observation, the ghost filter returns the same observation with
the ghost removed exactly if the ghost is somebody else and further away than the threshold; the time
and everything about other players are unchanged. -/
theorem C31_ghost (pos : X → ℝ × ℝ) (ghost pov : N) (thr : ℝ) (obs : Obs N K X P)
    (hwf : Dict.Wf obs.players) (me : X × P) (hme : Dict.get? obs.players pov = some me) :
    ∃ r, ghostStep pos ghost thr obs pov = .ok r ∧ r.time = obs.time ∧
      r.players.Sublist obs.players ∧
      ∀ n q, Dict.get? r.players n = some q ↔ Dict.get? obs.players n = some q ∧
        ¬ (n = ghost ∧ pov ≠ ghost ∧ thr < dist (pt (pos me.1)) (pt (pos q.1))) := by
  unfold ghostStep
  by_cases h1 : pov = ghost ∨ ghost ∉ Dict.keys obs.players
  · rw [if_pos h1]
    refine ⟨obs, rfl, rfl, List.Sublist.refl _, ?_⟩
    intro n q
    constructor
    · intro h
      refine ⟨h, ?_⟩
      rintro ⟨rfl, h2, _⟩
      rcases h1 with h1 | h1
      · exact h2 h1
      · exact h1 ((Dict.mem_keys_iff _ _).mpr ⟨q, h⟩)
    · exact fun h => h.1
  · rw [if_neg h1]
    push Not at h1
    obtain ⟨hne, hg⟩ := h1
    obtain ⟨g, hg⟩ := (Dict.mem_keys_iff _ _).mp hg
    simp only [getKey, hme, hg, sqrt_eq_dist]
    by_cases hd : thr < dist (pt (pos me.1)) (pt (pos g.1))
    · rw [if_pos hd]
      refine ⟨_, rfl, rfl, Dict.keys_erase_sublist _ _, ?_⟩
      intro n q
      simp only
      rw [Dict.get?_erase hwf]
      by_cases hn : n = ghost
      · subst hn
        simp only [if_true, reduceCtorEq, false_iff]
        rintro ⟨h, h2⟩
        rw [hg] at h; injection h with h; subst h
        exact h2 ⟨trivial, hne, hd⟩
      · have hn' : ¬ ghost = n := fun h => hn h.symm
        simp [hn, hn']
    · rw [if_neg hd]
      refine ⟨obs, rfl, rfl, List.Sublist.refl _, ?_⟩
      intro n q
      constructor
      · intro h
        refine ⟨h, ?_⟩
        rintro ⟨rfl, _, h2⟩
        rw [hg] at h; injection h with h; subst h
        exact hd h2
      · exact fun h => h.1

/-- **C31.** The ghost itself receives what the inner filter gives. -/
theorem C31_ghost_sees_itself {Sc : Type} (f : Filter N K X P Sc) (pos : X → ℝ × ℝ) (ghost : N)
    (thr : ℝ) (s : f.S) (sc : Sc) (o : Obs N K X P) :
    (ghosted f pos ghost thr).sense s sc o ghost = f.sense s sc o ghost := by
  simp only [ghosted]
  cases f.sense s sc o ghost with
  | error e => rfl
  | ok q => simp [ghostStep]

/-- The docstring promises that with threshold zero the ghost is always removed. It is not if it is
exactly at the place of the observer. -/
theorem C31_zero_threshold_counterexample :
    ghostStep (N := Nat) (K := ℚ) (P := Unit) (fun x : ℝ × ℝ => x) 1 0
        ⟨[(0, ((2, 3), ())), (1, ((2, 3), ()))], 5⟩ 0 =
      .ok ⟨[(0, ((2, 3), ())), (1, ((2, 3), ()))], 5⟩ := by
  simp [ghostStep, getKey, Dict.get?, Dict.keys]

example := C31_ghost (K := ℚ) (fun x : ℝ × ℝ => x) (1 : Nat) 0 2
  ⟨[(0, ((2, 3), ())), (1, ((2, 9), ()))], 5⟩ (by unfold Dict.Wf; decide) ((2, 3), ()) rfl

/-- In this case the ghost is removed. -/
example : ghostStep (N := Nat) (K := ℚ) (P := Unit) (fun x : ℝ × ℝ => x) 1 2
    ⟨[(0, ((2, 3), ())), (1, ((2, 9), ()))], 5⟩ 0 = .ok ⟨[(0, ((2, 3), ()))], 5⟩ := by
  simp [ghostStep, getKey, Dict.get?, Dict.keys, Dict.erase]
  norm_num
  rw [show (36 : ℝ) = 6 ^ 2 by norm_num, Real.sqrt_sq (by norm_num)]
  norm_num

/-! ## C32: field of view -/

theorem heads_perm {α : Type} (ls : List (List α)) :
    ((heads ls).1 ++ (heads ls).2.flatten).Perm ls.flatten := by
  induction ls with
  | nil => exact List.Perm.refl _
  | cons l ls ih =>
    cases l with
    | nil => simpa [heads] using ih
    | cons a l =>
      simp only [heads, List.flatten_cons, List.cons_append]
      refine List.Perm.cons a ?_
      have : ((heads ls).1 ++ (l ++ (heads ls).2.flatten)).Perm
          (l ++ ((heads ls).1 ++ (heads ls).2.flatten)) := by
        rw [← List.append_assoc, ← List.append_assoc]
        exact List.Perm.append_right _ List.perm_append_comm
      exact this.trans (List.Perm.append_left l ih)

theorem heads_empty {α : Type} (ls : List (List α)) (h : (heads ls).1 = []) : ls.flatten = [] := by
  induction ls with
  | nil => rfl
  | cons l ls ih =>
    cases l with
    | nil => simpa [heads] using ih (by simpa [heads] using h)
    | cons a l => simp [heads] at h

theorem heads_len {α : Type} (ls : List (List α)) (n : Nat) (h : ∀ l ∈ ls, l.length ≤ n + 1) :
    ∀ l ∈ (heads ls).2, l.length ≤ n := by
  induction ls with
  | nil => simp [heads]
  | cons l ls ih =>
    have ih' := ih (fun l hl => h l (by simp [hl]))
    cases l with
    | nil => simpa [heads] using ih'
    | cons a l =>
      intro q hq
      simp only [heads, List.mem_cons] at hq
      rcases hq with rfl | hq
      · have := h (a :: q) (by simp); simp at this; exact this
      · exact ih' q hq

theorem interleaveN_perm {α : Type} (n : Nat) : ∀ ls : List (List α), (∀ l ∈ ls, l.length ≤ n) →
    (interleaveN (n + 1) ls).Perm ls.flatten := by
  induction n with
  | zero =>
    intro ls h
    have hz : (heads ls).1 = [] := by
      induction ls with
      | nil => rfl
      | cons l ls ih =>
        have : l = [] := List.length_eq_zero_iff.mp (by have := h l (by simp); omega)
        subst this
        simpa [heads] using ih (fun l hl => h l (by simp [hl]))
    simp only [interleaveN, hz, List.isEmpty_nil, if_true, heads_empty ls hz]
    exact List.Perm.refl _
  | succ n ih =>
    intro ls h
    unfold interleaveN
    by_cases hz : (heads ls).1 = []
    · simp only [hz, List.isEmpty_nil, if_true, heads_empty ls hz]
      exact List.Perm.refl _
    · have : (heads ls).1.isEmpty = false := by simpa using hz
      simp only [this, Bool.false_eq_true, if_false]
      exact (List.Perm.append_left _ (ih _ (heads_len ls n h))).trans (heads_perm ls)

/-- **C32.** Interleaving hands over every element of every list exactly once. -/
theorem C32_interleave {α : Type} (ls : List (List α)) : (interleave ls).Perm ls.flatten := by
  unfold interleave
  apply interleaveN_perm
  induction ls with
  | nil => simp
  | cons l ls ih =>
    intro q hq
    simp only [List.map_cons, List.foldr_cons]
    rcases List.mem_cons.mp hq with rfl | hq
    · exact le_max_left _ _
    · exact le_trans (ih q hq) (le_max_right _ _)

example : interleave [[1, 2, 3], [], [4], [5, 6]] = [1, 4, 5, 2, 6, 3] := by decide

/-- What the loop does to the entries: `keep` relates the entry of another player to what is kept of
it. -/
theorem lookLoop_spec (G : Fov X P) (pov : N) (o : Dict N (X × P)) : ∀ (area : G.A)
    (acc r : Dict N (X × P)), Dict.Wf o → (∀ n ∈ Dict.keys o, n ≠ pov → n ∉ Dict.keys acc) →
    lookLoop G pov area o acc = .ok r →
    ∀ n, (n = pov ∨ n ∉ Dict.keys o → Dict.get? r n = Dict.get? acc n) ∧
      (n ≠ pov → ∀ q, Dict.get? o n = some q → Dict.get? r n = none ∨
        ∃ q', Dict.get? r n = some q' ∧ q'.1 = q.1) ∧
      ((∀ p ∈ o, p.1 ≠ pov → ∃ b, G.meets area p.2.2 = .ok b) → n ≠ pov →
        ∀ q, Dict.get? o n = some q → ∀ q', Dict.get? r n = some q' ↔
          q' = q ∧ G.meets area q.2 = .ok true) := by
  induction o with
  | nil =>
    intro area acc r _ _ h n
    injection h with h; subst h
    exact ⟨fun _ => rfl, fun _ q hq => by simp [Dict.get?] at hq,
      fun _ _ q hq => by simp [Dict.get?] at hq⟩
  | cons p rest ih =>
    obtain ⟨a, oa⟩ := p
    intro area acc r hwf hacc h n
    have hwf' : Dict.Wf rest := by
      unfold Dict.Wf Dict.keys at hwf ⊢
      simp only [List.map_cons, List.nodup_cons] at hwf
      exact hwf.2
    have ha : a ∉ Dict.keys rest := by
      unfold Dict.Wf Dict.keys at hwf
      simp only [List.map_cons, List.nodup_cons] at hwf
      exact hwf.1
    have hkeys : ∀ n, n ∈ Dict.keys ((a, oa) :: rest) ↔ n = a ∨ n ∈ Dict.keys rest := by
      intro n; simp [Dict.keys]
    have hget : ∀ n q, Dict.get? ((a, oa) :: rest) n = some q →
        (n = a ∧ q = oa) ∨ (n ≠ a ∧ Dict.get? rest n = some q) := by
      intro n q hq
      unfold Dict.get? at hq
      by_cases hn : a = n
      · subst hn; simp at hq; exact Or.inl ⟨rfl, hq.symm⟩
      · simp [hn] at hq; exact Or.inr ⟨fun e => hn e.symm, hq⟩
    unfold lookLoop at h
    by_cases hap : a = pov
    · rw [if_pos hap] at h
      obtain ⟨i1, i2, i3⟩ := ih area acc r hwf'
        (fun n hn hne => hacc n ((hkeys n).mpr (Or.inr hn)) hne) h n
      refine ⟨?_, ?_, ?_⟩
      · rintro (h1 | h1)
        · exact i1 (Or.inl h1)
        · exact i1 (Or.inr (fun h2 => h1 ((hkeys n).mpr (Or.inr h2))))
      · intro hn q hq
        rcases hget n q hq with ⟨h1, _⟩ | ⟨_, h1⟩
        · exact absurd (h1.trans hap) hn
        · exact i2 hn q h1
      · intro hm hn q hq
        rcases hget n q hq with ⟨h1, _⟩ | ⟨_, h1⟩
        · exact absurd (h1.trans hap) hn
        · exact i3 (fun p hp => hm p (by simp [hp])) hn q h1
    · rw [if_neg hap] at h
      have hna : a ∉ Dict.keys acc := hacc a ((hkeys a).mpr (Or.inl rfl)) hap
      cases hl : lookAt G area oa with
      | error e => rw [hl] at h; cases h
      | ok z =>
        obtain ⟨area', kept⟩ := z
        -- what the visit of `a` may have kept
        have hkept : ∀ q', kept = some q' → q'.1 = oa.1 := by
          intro q' hq'
          subst hq'
          unfold lookAt at hl
          cases hm : G.meets area oa.2 with
          | ok seen =>
            rw [hm] at hl; simp only at hl
            injection hl with hl; injection hl with _ hl
            cases seen <;> simp at hl; rw [hl]
          | error e =>
            rw [hm] at hl; simp only at hl
            cases hm2 : G.meets (G.repairArea area) (G.repairOcc oa.2) with
            | error e => rw [hm2] at hl; cases hl
            | ok seen =>
              rw [hm2] at hl; simp only at hl
              injection hl with hl; injection hl with _ hl
              cases seen <;> simp at hl; rw [← hl]
        have hpure : (∃ b, G.meets area oa.2 = .ok b) → area' = area ∧
            ∀ q', kept = some q' ↔ q' = oa ∧ G.meets area oa.2 = .ok true := by
          rintro ⟨b, hb⟩
          unfold lookAt at hl
          rw [hb] at hl; simp only at hl
          injection hl with hl; injection hl with h1 h2
          subst h1 h2
          refine ⟨rfl, fun q' => ?_⟩
          rw [hb]
          cases b <;> simp [eq_comm]
        rw [hl] at h
        cases kept with
        | none =>
          obtain ⟨i1, i2, i3⟩ := ih area' acc r hwf'
            (fun n hn hne => hacc n ((hkeys n).mpr (Or.inr hn)) hne) h n
          have hra : n = a → Dict.get? r n = none := by
            rintro rfl
            rw [i1 (Or.inr ha)]
            exact (Dict.get?_eq_none_iff _ _).mpr hna
          refine ⟨?_, ?_, ?_⟩
          · rintro (h1 | h1)
            · exact i1 (Or.inl h1)
            · exact i1 (Or.inr (fun h2 => h1 ((hkeys n).mpr (Or.inr h2))))
          · intro hn q hq
            rcases hget n q hq with ⟨h1, _⟩ | ⟨_, h1⟩
            · exact Or.inl (hra h1)
            · exact i2 hn q h1
          · intro hm hn q hq
            obtain ⟨e1, e2⟩ := hpure (hm (a, oa) (by simp) hap)
            subst e1
            rcases hget n q hq with ⟨h1, rfl⟩ | ⟨_, h1⟩
            · intro q'
              rw [hra h1, ← e2 q']
            · exact i3 (fun p hp => hm p (by simp [hp])) hn q h1
        | some oa' =>
          obtain ⟨i1, i2, i3⟩ := ih area' (Dict.set acc a oa') r hwf' (by
            intro n hn hne hmem
            rcases (Dict.mem_keys_set _ _ _ _).mp hmem with h1 | h1
            · exact hacc n ((hkeys n).mpr (Or.inr hn)) hne h1
            · exact ha (h1 ▸ hn)) h n
          have hra : n = a → Dict.get? r n = some oa' := by
            rintro rfl
            rw [i1 (Or.inr ha)]
            exact Dict.get?_set_self _ _ _
          refine ⟨?_, ?_, ?_⟩
          · intro h1
            have hne : a ≠ n := by
              rintro rfl
              rcases h1 with h1 | h1
              · exact hap h1
              · exact h1 ((hkeys a).mpr (Or.inl rfl))
            rw [← Dict.get?_set_ne acc hne oa']
            rcases h1 with h1 | h1
            · exact i1 (Or.inl h1)
            · exact i1 (Or.inr (fun h2 => h1 ((hkeys n).mpr (Or.inr h2))))
          · intro hn q hq
            rcases hget n q hq with ⟨h1, rfl⟩ | ⟨_, h1⟩
            · exact Or.inr ⟨oa', hra h1, hkept oa' rfl⟩
            · exact i2 hn q h1
          · intro hm hn q hq
            obtain ⟨e1, e2⟩ := hpure (hm (a, oa) (by simp) hap)
            subst e1
            rcases hget n q hq with ⟨h1, rfl⟩ | ⟨_, h1⟩
            · intro q'
              rw [hra h1, ← e2 q']
            · exact i3 (fun p hp => hm p (by simp [hp])) hn q h1

/-- The static obstacles known to a filter object: nothing yet, or those of the scenario. -/
def CacheOk (G : Fov X P) (sc : List P) (cache : List G.Ob) : Prop :=
  cache = [] ∨ cache = interleave (sc.map G.polygons)

/-- What the field of view filter has to return for the observation `o`, the observer `pov` and the
static obstacles `sc`. -/
structure Visible (G : Fov X P) (sc : List P) (o : Obs N K X P) (pov : N) (r : Obs N K X P) : Prop where
  time : r.time = o.time
  observer : Dict.get? r.players pov = Dict.get? o.players pov ∧ pov ∈ Dict.keys o.players
  states : ∀ n q', Dict.get? r.players n = some q' → ∃ q, Dict.get? o.players n = some q ∧ q'.1 = q.1
  seen : ∃ me obstacles area, Dict.get? o.players pov = some me ∧
    obstacles.Perm ((sc.flatMap G.polygons) ++
      (o.players.filter (fun q => decide (q.1 ≠ pov))).flatMap (fun q => G.polygons q.2.2)) ∧
    G.area (G.pose me.1) obstacles = .ok area ∧
    ((∀ p ∈ o.players, p.1 ≠ pov → ∃ b, G.meets area p.2.2 = .ok b) →
      ∀ n, n ≠ pov → ∀ q', Dict.get? r.players n = some q' ↔
        Dict.get? o.players n = some q' ∧ G.meets area q'.2 = .ok true)

theorem fov_call (G : Fov X P) (sc : List P) (o : Obs N K X P) (pov : N) (cache cache' : List G.Ob)
    (r : Obs N K X P) (hwf : Dict.Wf o.players) (hc : CacheOk G sc cache)
    (h : (fov N K G).sense cache sc o pov = .ok (cache', r)) :
    CacheOk G sc cache' ∧ Visible G sc o pov r := by
  simp only [fov] at h
  cases hme : Dict.get? o.players pov with
  | none => simp only [getKey, hme] at h; cases h
  | some me =>
    simp only [getKey, hme] at h
    have hst : (if cache.isEmpty = true then interleave (sc.map G.polygons) else cache) =
        interleave (sc.map G.polygons) := by
      rcases hc with rfl | rfl
      · simp
      · split <;> rfl
    rw [hst] at h
    split at h
    · cases h
    · rename_i area harea
      split at h
      · cases h
      · rename_i ps hps
        injection h with h; injection h with h1 h2
        subst h1 h2
        refine ⟨Or.inr rfl, rfl, ⟨?_, (Dict.mem_keys_iff _ _).mpr ⟨me, hme⟩⟩, ?_, ?_⟩
        all_goals have hspec := lookLoop_spec G pov o.players area [(pov, me)] ps hwf (by
          intro n _ hne; simpa [Dict.keys] using hne) hps
        · simp only
          rw [(hspec pov).1 (Or.inl rfl), hme]; simp [Dict.get?]
        · intro n q' hq'
          simp only at hq'
          by_cases hn : n = pov
          · subst hn
            rw [(hspec n).1 (Or.inl rfl)] at hq'
            simp [Dict.get?] at hq'
            exact ⟨me, hme, by rw [hq']⟩
          · cases ho : Dict.get? o.players n with
            | none =>
              rw [(hspec n).1 (Or.inr ((Dict.get?_eq_none_iff _ _).mp ho))] at hq'
              have hn' : ¬ pov = n := fun e => hn e.symm
              simp [Dict.get?, hn'] at hq'
            | some q =>
              rcases (hspec n).2.1 hn q ho with h1 | ⟨q2, h1, h2⟩
              · rw [h1] at hq'; cases hq'
              · rw [h1] at hq'; injection hq' with hq'; subst hq'
                exact ⟨q, rfl, h2⟩
        · refine ⟨me, _, area, hme, ?_, harea, ?_⟩
          · refine List.Perm.append ?_ ?_
            · exact (C32_interleave _).trans (by rw [List.flatMap])
            · exact (C32_interleave _).trans (by rw [List.flatMap])
          · intro hm n hn q'
            cases ho : Dict.get? o.players n with
            | none =>
              simp only
              rw [(hspec n).1 (Or.inr ((Dict.get?_eq_none_iff _ _).mp ho))]
              have hn' : ¬ pov = n := fun e => hn e.symm
              simp [Dict.get?, hn']
            | some q =>
              have := (hspec n).2.2 hm hn q ho q'
              simp only
              rw [this]
              constructor
              · rintro ⟨rfl, h2⟩; exact ⟨rfl, h2⟩
              · rintro ⟨h1, h2⟩
                injection h1 with h1; subst h1; exact ⟨rfl, h2⟩

/-- **C32.** In any number of calls of one field of view filter on one scenario, every answer has the
time stamp of the observation, contains the observer unchanged, contains only players of the
observation with their states unchanged, and contains another player exactly if its occupancy meets
the visible area computed from the pose of the observer, all static obstacles and the occupancies of
all other players (provided the intersection tests do not raise). -/
theorem C32_fov (G : Fov X P) (sc : List P) (calls : List (Obs N K X P × N))
    (hwf : ∀ c ∈ calls, Dict.Wf c.1.players) (s : (fov N K G).S) (rs : List (Obs N K X P))
    (h : senseAll (fov N K G) (fov N K G).init (calls.map (fun c => (sc, c))) = .ok (s, rs)) :
    List.Forall₂ (fun c r => Visible G sc c.1 c.2 r) calls rs := by
  have gen : ∀ (calls : List (Obs N K X P × N)) (cache : (fov N K G).S) (rs : List (Obs N K X P)),
      (∀ c ∈ calls, Dict.Wf c.1.players) → CacheOk G sc cache →
      senseAll (fov N K G) cache (calls.map (fun c => (sc, c))) = .ok (s, rs) →
      List.Forall₂ (fun c r => Visible G sc c.1 c.2 r) calls rs := by
    intro calls
    induction calls with
    | nil =>
      intro cache rs _ _ h
      injection h with h; injection h with _ h; subst h
      exact List.Forall₂.nil
    | cons c calls ih =>
      intro cache rs hwf hc h
      obtain ⟨o, pov⟩ := c
      simp only [List.map_cons, senseAll] at h
      split at h
      · cases h
      · rename_i s1 r hs
        split at h
        · cases h
        · rename_i s2 rs2 hrest
          injection h with h; injection h with h1 h2
          subst h1 h2
          obtain ⟨c1, c2⟩ := fov_call G sc o pov cache s1 r (hwf (o, pov) (by simp)) hc hs
          exact List.Forall₂.cons c2 (ih s1 rs2 (fun c hc => hwf c (by simp [hc])) c1 hrest)
  exact gen calls _ rs hwf (Or.inl rfl) h

/-- Player `q` is seen in `area` and reported as `q'`: as it is if the intersection test answers, with a
repaired occupancy if it raises. -/
def Sees (G : Fov X P) (area : G.A) (q q' : X × P) : Prop :=
  (G.meets area q.2 = .ok true ∧ q' = q) ∨
  ((∃ e, G.meets area q.2 = .error e) ∧
    G.meets (G.repairArea area) (G.repairOcc q.2) = .ok true ∧ q' = (q.1, G.repairOcc q.2))

theorem lookAt_sees (G : Fov X P) (area area' : G.A) (o : X × P) (kept : Option (X × P))
    (h : lookAt G area o = .ok (area', kept)) :
    (area' = area ∨ area' = G.repairArea area) ∧ ∀ q', kept = some q' ↔ Sees G area o q' := by
  unfold lookAt at h
  unfold Sees
  cases hm : G.meets area o.2 with
  | ok seen =>
    rw [hm] at h; simp only at h
    injection h with h; injection h with h1 h2
    subst h1 h2
    refine ⟨Or.inl rfl, fun q' => ?_⟩
    cases seen <;> simp [eq_comm]
  | error e =>
    rw [hm] at h; simp only at h
    cases hm2 : G.meets (G.repairArea area) (G.repairOcc o.2) with
    | error e => rw [hm2] at h; cases h
    | ok seen =>
      rw [hm2] at h; simp only at h
      injection h with h; injection h with h1 h2
      subst h1 h2
      refine ⟨Or.inr rfl, fun q' => ?_⟩
      cases seen <;> simp [eq_comm]

theorem lookLoop_sees (G : Fov X P) (pov : N) (ps : Dict N (X × P)) :
    ∀ (area : G.A) (acc r : Dict N (X × P)), Dict.Wf ps →
      (∀ n ∈ Dict.keys ps, n ≠ pov → n ∉ Dict.keys acc) →
      lookLoop G pov area ps acc = .ok r →
      ∀ n, n ≠ pov → ∀ q, Dict.get? ps n = some q →
        ∃ k : Nat, ∀ q', Dict.get? r n = some q' ↔ Sees G (G.repairArea^[k] area) q q' := by
  induction ps with
  | nil => intro area acc r _ _ _ n _ q hq; simp [Dict.get?] at hq
  | cons p rest ih =>
    intro area acc r hwf hacc h n hn q hq
    obtain ⟨a, oa⟩ := p
    have hwf2 : a ∉ Dict.keys rest ∧ Dict.Wf rest := by
      simpa [Dict.Wf, Dict.keys] using hwf
    have hmono : ∀ m ∈ Dict.keys rest, m ∈ Dict.keys ((a, oa) :: rest) := by
      intro m hm; simp only [Dict.keys, List.map_cons, List.mem_cons] at hm ⊢; exact Or.inr hm
    have hself : a ∈ Dict.keys ((a, oa) :: rest) := by simp [Dict.keys]
    by_cases hap : a = pov
    · simp only [lookLoop, hap, if_true] at h
      have hq' : Dict.get? rest n = some q := by
        have : ¬ a = n := fun e => hn (e.symm.trans hap)
        simpa [Dict.get?, this] using hq
      exact ih area acc r hwf2.2 (fun m hm => hacc m (hmono m hm)) h n hn q hq'
    · simp only [lookLoop, hap, if_false] at h
      cases hl : lookAt G area oa with
      | error e => rw [hl] at h; cases h
      | ok res =>
        obtain ⟨area', kept⟩ := res
        obtain ⟨harea, hsee⟩ := lookAt_sees G area area' oa kept hl
        rw [hl] at h
        by_cases hna : a = n
        · subst hna
          have hqa : oa = q := by simpa [Dict.get?] using hq
          subst hqa
          refine ⟨0, fun q' => ?_⟩
          rw [Function.iterate_zero, id, ← hsee q']
          cases kept with
          | none =>
            simp only at h
            rw [(lookLoop_spec G pov rest area' acc r hwf2.2
              (fun m hm => hacc m (hmono m hm)) h a).1 (Or.inr hwf2.1),
              (Dict.get?_eq_none_iff _ _).mpr (hacc a hself hap)]
          | some o2 =>
            simp only at h
            rw [(lookLoop_spec G pov rest area' _ r hwf2.2 (by
              intro m hm hne hmem
              rcases (Dict.mem_keys_set _ _ _ _).mp hmem with h1 | h1
              · exact hacc m (hmono m hm) hne h1
              · exact hwf2.1 (h1 ▸ hm)) h a).1 (Or.inr hwf2.1), Dict.get?_set_self]
        · have hq' : Dict.get? rest n = some q := by simpa [Dict.get?, hna] using hq
          obtain ⟨k, hk⟩ : ∃ k : Nat, ∀ q', Dict.get? r n = some q' ↔
              Sees G (G.repairArea^[k] area') q q' := by
            cases kept with
            | none =>
              exact ih area' acc r hwf2.2 (fun m hm => hacc m (hmono m hm)) h n hn q hq'
            | some o2 =>
              exact ih area' _ r hwf2.2 (by
                intro m hm hne hmem
                rcases (Dict.mem_keys_set _ _ _ _).mp hmem with h1 | h1
                · exact hacc m (hmono m hm) hne h1
                · exact hwf2.1 (h1 ▸ hm)) h n hn q hq'
          rcases harea with rfl | rfl
          · exact ⟨k, hk⟩
          · exact ⟨k + 1, fun q' => by rw [Function.iterate_succ_apply]; exact hk q'⟩

/-- **C32.** Also when intersection tests raise: another player is reported exactly if it is seen in the
visible area as repaired so far, unchanged if its own test answered and with its repaired occupancy
if not. -/
theorem C32_repair (G : Fov X P) (sc : List P) (o : Obs N K X P) (pov : N) (cache cache' : List G.Ob)
    (r : Obs N K X P) (hwf : Dict.Wf o.players)
    (h : (fov N K G).sense cache sc o pov = .ok (cache', r)) :
    ∃ area : G.A, ∀ n, n ≠ pov → ∀ q, Dict.get? o.players n = some q →
      ∃ k : Nat, ∀ q', Dict.get? r.players n = some q' ↔ Sees G (G.repairArea^[k] area) q q' := by
  simp only [fov] at h
  cases hme : Dict.get? o.players pov with
  | none => simp only [getKey, hme] at h; cases h
  | some me =>
    simp only [getKey, hme] at h
    split at h
    · cases h
    · rename_i area harea
      split at h
      · cases h
      · rename_i ps hps
        injection h with h; injection h with h1 h2
        subst h1 h2
        exact ⟨area, lookLoop_sees G pov o.players area [(pov, me)] ps hwf (by
          intro n _ hne; simpa [Dict.keys] using hne) hps⟩

/-- Occupancy 9 is invalid; repaired it is 4. -/
def brokenFov : Fov ℚ ℚ where
  Po := ℚ
  Ob := ℚ
  A := ℚ
  pose x := x
  polygons p := [p]
  area _ _ := .ok 5
  meets a p := if p = 9 then .error .value else .ok (decide (p ≤ a))
  repairArea a := a
  repairOcc p := if p = 9 then 4 else p

example : (match (fov Nat ℚ brokenFov).sense [] [] ⟨[(0, (1, 1)), (1, (2, 9))], 0⟩ 0 with
    | .ok r => some r.2.players | .error _ => none) = some [(0, (1, 1)), (1, (2, 4))] := by decide +kernel

/-- **C32.** The identity filter returns the observation itself. -/
theorem C32_id {Sc : Type} (sc : Sc) (o : Obs N K X P) (pov : N) :
    (idFilter N K X P Sc).sense () sc o pov = .ok ((), o) := rfl

/-- Points on a line; the visible area is everything nearer than the nearest obstacle. -/
def lineFov : Fov ℚ ℚ where
  Po := ℚ
  Ob := ℚ
  A := ℚ
  pose x := x
  polygons p := [p]
  area x obs := .ok (obs.foldl (fun m q => if x < q ∧ q < m then q else m) (x + 100))
  meets a p := .ok (decide (p ≤ a))
  repairArea a := a
  repairOcc p := p

/-- Two calls: player 2 is hidden behind player 1 for player 0, and both see static obstacles. -/
example : List.Forall₂ (fun c r => Visible lineFov [(50 : ℚ)] c.1 c.2 r)
    [(⟨[(0, (1, 1)), (1, (5, 5)), (2, (7, 7))], 0⟩, 0), (⟨[(0, (1, 1)), (1, (5, 5)), (2, (7, 7))], 1⟩, 1)]
    [(⟨[(0, (1, 1)), (1, (5, 5))], 0⟩ : Obs Nat ℚ ℚ ℚ),
      ⟨[(1, (5, 5)), (0, (1, 1)), (2, (7, 7))], 1⟩] := by
  obtain ⟨s, hs⟩ := exists_state (x := senseAll (fov Nat ℚ lineFov) (fov Nat ℚ lineFov).init
    ([((⟨[(0, (1, 1)), (1, (5, 5)), (2, (7, 7))], 0⟩ : Obs Nat ℚ ℚ ℚ), 0),
      (⟨[(0, (1, 1)), (1, (5, 5)), (2, (7, 7))], 1⟩, 1)].map (fun c => ([(50 : ℚ)], c))))
    (b := [⟨[(0, (1, 1)), (1, (5, 5))], 0⟩, ⟨[(1, (5, 5)), (0, (1, 1)), (2, (7, 7))], 1⟩])
    (by decide +kernel)
  refine C32_fov lineFov [50] _ ?_ s _ hs
  · intro c hc
    simp only [List.mem_cons, List.not_mem_nil, or_false] at hc
    rcases hc with rfl | rfl <;> (unfold Dict.Wf; decide)

end Perception
end Verif
