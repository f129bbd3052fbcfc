import Verif.Eval.WholeLogProps
import Verif.Sim.EventProps
import Verif.Sim.TotalProps

/-!
# C163: safety metrics of a simulation

The metrics read logs, the simulator writes them. Here both are put together: what the metrics of the log of a
run say of the states that the models had in the run.
-/

namespace Verif
namespace Eval

open Sim

set_option linter.unusedSectionVars false

namespace OfRun

section
variable {N K : Type} [DecidableEq N] [Field K] [LinearOrder K] [IsStrictOrderedRing K]
  {α : Type} [AddCommGroup α] [Module K α]

theorem interp_sample (q : Seq K α) (h : q.Valid) (i : Nat) (t : K) (v : α) (ht : q.ts[i]? = some t)
    (hv : q.vs[i]? = some v) : IsInterp q.samples t v := by
  have hm : (t, v) ∈ q.samples := by
    refine List.mem_iff_getElem?.mpr ⟨i, ?_⟩
    simp [Seq.samples, List.getElem?_zip_eq_some, ht, hv]
  obtain ⟨p, r, e⟩ := List.append_of_mem hm
  cases r with
  | nil => exact Or.inr (Or.inl ⟨t, p, e, le_rfl⟩)
  | cons u r =>
    obtain ⟨t1, v1⟩ := u
    refine Or.inr (Or.inr ⟨p, r, t, t1, v, v1, e, le_rfl, ?_, by simp⟩)
    have hs : (q.samples.map Prod.fst).Pairwise (· < ·) := by
      rw [Seq.samples, List.map_fst_zip h.1.le]; exact h.2
    rw [e] at hs
    simp only [List.map_append, List.map_cons] at hs
    exact (List.rel_of_pairwise_cons (List.pairwise_append.mp hs).2.1 (by simp)).le

theorem interp_last (q : Seq K α) (h : q.Valid) (i : Nat) (u t : K) (v : α) (hn : q.ts.length = i + 1)
    (ht : q.ts[i]? = some u) (hv : q.vs[i]? = some v) (hu : u ≤ t) : IsInterp q.samples t v := by
  have hl : q.samples.length = i + 1 := by simp [Seq.samples, ← h.1, hn]
  have hx : q.samples[i]? = some (u, v) := by simp [Seq.samples, List.getElem?_zip_eq_some, ht, hv]
  have hne : q.samples ≠ [] := by intro e; rw [e] at hl; simp at hl
  refine Or.inr (Or.inl ⟨u, q.samples.dropLast, ?_, hu⟩)
  have : q.samples.getLast hne = (u, v) := by
    have := List.getLast?_eq_getElem? (l := q.samples)
    rw [hl, Nat.add_sub_cancel, hx, List.getLast?_eq_getLast_of_ne_nil hne] at this
    injection this
  rw [← this]
  exact (List.dropLast_append_getLast hne).symm

theorem interp_unique (q : Seq K α) (h : q.Valid) (t : K) (v w : α) (hv : IsInterp q.samples t v)
    (hw : IsInterp q.samples t w) : v = w := by
  have a := atInterp_of_isInterp q h t v hv
  rw [atInterp_of_isInterp q h t w hw] at a
  injection a with a
  exact a.symm

end

section
variable {N K : Type} [DecidableEq N] [Field K] [LinearOrder K] [IsStrictOrderedRing K] [FloorSemiring K]
  {Wd : World N K} [AddCommGroup Wd.X] [Module K Wd.X]

/-- Player `n` takes part in step `i`, its model is then in the state `x`, and this is not yet its goal. -/
def Active (D : Wd.G → Wd.X → Bool) (go : N → Wd.G) (σ : Nat → St Wd) (i : Nat) (n : N) (x : Wd.X) : Prop :=
  n ∈ (σ i).players ∧ (∃ m, Dict.get? (σ i).models n = some m ∧ Wd.getState m = x) ∧ D (go n) x = false

/-- The states `0, …, J + 1` of the run that wrote the log. -/
structure Wrote (cfg : Cfg Wd) (s s' : St Wd) (σ : Nat → St Wd) (J : Nat) : Prop where
  ready : Ready (σ 0)
  first : ∃ w logger, σ 0 = { s with w := w, logger := logger }
  exec : Exec cfg σ (J + 1)
  last : σ (J + 1) = s'

theorem Wrote.names {cfg : Cfg Wd} {s s' : St Wd} {σ : Nat → St Wd} {J : Nat} (h : Wrote cfg s s' σ J)
    (hdt : 0 < cfg.dt) (hm : Dict.Wf cfg.missions) (i : Nat) (hi : i ≤ J + 1) (n : N)
    (hn : n ∈ Dict.keys (σ i).models) : n ∈ Dict.keys s.models := by
  obtain ⟨w, lg, e⟩ := h.first
  have := (inv_of_exec (inv_zero cfg σ h.ready) hdt hm i fun q hq => h.exec q (by omega)).keys
  rw [e] at this
  exact this ▸ hn

theorem reads {cfg : Cfg Wd} {fuel : Nat} {s s' : St Wd} {log : Dict N (PlayerLog Wd)}
    (hf : Fresh s) (hdt : 0 < cfg.dt) (hm : Dict.Wf cfg.missions)
    (hrun : run cfg fuel s [] = some (.ok (s', log)))
    (D : Wd.G → Wd.X → Bool) (hful : ∀ w n g x t w' b, Wd.fulfilled w n g x t = .ok (w', b) → b = D g x)
    (go : N → Wd.G) (hgo : ∀ n ∈ Dict.keys s.models, Dict.get? cfg.missions n = some (go n)) :
    Dict.Wf log ∧ (∀ n, n ∈ Dict.keys log ↔ n ∈ Dict.keys s.models) ∧
    (∀ t, 0 ≤ t → ∀ e ∈ log, Begun e.2 t) ∧
    ∃ σ J, Wrote cfg s s' σ J ∧ ∀ n l, Dict.get? log n = some l →
      (∀ t ∈ l.states.ts, ∃ i : Nat, t = (i : K) * cfg.dt) ∧
      (∀ i x, Active D go σ i n x → i ≤ J → (i : K) * cfg.dt ∈ l.states.ts) ∧
      (∀ i : Nat, (i : K) * cfg.dt ∈ l.states.ts → ∀ x, IsInterp l.states.samples ((i : K) * cfg.dt) x →
        D (go n) x = false → i ≤ J) ∧
      ∀ i : Nat, i ≤ J → ∀ x, (IsInterp l.states.samples ((i : K) * cfg.dt) x ∧ D (go n) x = false) ↔
        Active D go σ i n x := by
  obtain ⟨hval, hkeys, -, -⟩ := C29_after_run hf hdt hm hrun
  have hwf : Dict.Wf log := by
    obtain ⟨σ, J, hready, h0, hex, hend, hterm, hw⟩ := run_ok hf hrun
    exact (writeLog_spec _ _ _ _ hw).1 Dict.wf_nil
  obtain ⟨σ, J, hready, hfirst, hex, hend, hlog⟩ := C23_log hf hdt hm hrun
  have hstep : ∀ a b : Nat, (a : K) * cfg.dt ≤ b * cfg.dt ↔ a ≤ b := fun a b => by
    rw [mul_le_mul_iff_left₀ hdt, Nat.cast_le]
  have hinj : ∀ a b : Nat, (a : K) * cfg.dt = b * cfg.dt → a = b := fun a b h =>
    le_antisymm ((hstep a b).mp h.le) ((hstep b a).mp h.ge)
  refine ⟨hwf, hkeys, ?_, σ, J, ⟨hready, hfirst, hex, hend⟩, ?_⟩
  · rintro t ht ⟨n, l⟩ he
    have hn : n ∈ Dict.keys s.models := (hkeys n).mp (List.mem_map_of_mem (f := Prod.fst) he)
    obtain ⟨pl, k, last, hget, hv, hcase, hst, _, hcm, hin, _⟩ := hlog n hn
    rw [Dict.get?_of_mem hwf he] at hget
    injection hget with hget
    subst hget
    have hk : 0 < k := by
      rcases hcase with ⟨_, h, _⟩ | ⟨h, _⟩
      · omega
      · exact h
    have hc0 : (0 : K) ∈ l.commands.ts := by
      rw [hcm]
      exact List.mem_map.mpr ⟨0, List.mem_filter.mpr ⟨List.mem_range.mpr hk, by simp⟩, by simp⟩
    refine ⟨hv, ?_, ⟨0, hc0, ht⟩, 0, hin ▸ hc0, ht⟩
    show l.states.ts ≠ []
    rw [hst]
    simp
  · intro n l hget'
    have hn : n ∈ Dict.keys s.models := (hkeys n).mp ((Dict.mem_keys_iff _ _).mpr ⟨l, hget'⟩)
    obtain ⟨pl, k, last, hget, hv, hcase, hst, hvs, -, -, -⟩ := hlog n hn
    rw [hget'] at hget
    injection hget with hget
    subst hget
    have hts : ∀ i : Nat, i ≤ last → l.states.ts[i]? = some ((i : K) * cfg.dt) := by
      intro i hi
      rw [hst]
      simp [List.getElem?_map, List.getElem?_range (show i < last + 1 by omega)]
    have hmem : ∀ i : Nat, (i : K) * cfg.dt ∈ l.states.ts ↔ i ≤ last := by
      intro i
      rw [hst]
      constructor
      · intro h
        obtain ⟨a, ha, e⟩ := List.mem_map.mp h
        have := hinj a i e
        have := List.mem_range.mp ha
        omega
      · intro h
        exact List.mem_map.mpr ⟨i, List.mem_range.mpr (by omega), rfl⟩
    have hat : ∀ i, i ≤ last → ∀ m, Dict.get? (σ i).models n = some m →
        IsInterp l.states.samples ((i : K) * cfg.dt) (Wd.getState m) := by
      intro i hi m hmi
      obtain ⟨m', h1, h2⟩ := hvs i hi
      rw [hmi] at h1; injection h1 with h1; subst h1
      exact interp_sample l.states hv.1 i _ _ (hts i hi) h2
    have hstay : ∀ k i : Nat, k ≤ J + 1 → i ≤ k → n ∈ (σ k).players → n ∈ (σ i).players := by
      intro k i hk hi h
      by_contra hc
      exact players_mono hready hdt hm hex n i hc k hi hk h
    -- a player that has left is at its goal
    have hgoal : 0 < k → k ≤ J + 1 → n ∈ (σ (k - 1)).players → n ∉ (σ k).players → last = k →
        ∀ i : Nat, k ≤ i → ∀ x, IsInterp l.states.samples ((i : K) * cfg.dt) x → D (go n) x = true := by
      intro h1 h2 h3 h4 h5 i hi x hx
      obtain ⟨j, rfl⟩ : ∃ j, k = j + 1 := ⟨k - 1, by omega⟩
      obtain ⟨lg, m, g, w, w', -, e1, e2, e3, -, -⟩ := C26_last_state hready hdt hm
        (fun q hq => hex q (by omega)) n (by simpa using h3) h4
      obtain ⟨m', g1, g2⟩ := hvs (j + 1) h5.ge
      rw [e1] at g1; injection g1 with g1; subst g1
      have hlen : l.states.ts.length = (j + 1) + 1 := by rw [hst, h5]; simp
      have hx' := interp_last l.states hv.1 (j + 1) _ ((i : K) * cfg.dt) _ hlen (hts _ h5.ge) g2 ((hstep _ _).mpr hi)
      rw [interp_unique _ hv.1 _ _ _ hx hx']
      have e4 := hful _ _ _ _ _ _ _ e3
      have e5 := Dict.get?_of_mem hm e2
      rw [hgo n hn] at e5
      injection e5 with e5
      rw [e5]
      exact e4.symm
    refine ⟨?_, ?_, ?_, ?_⟩
    · intro t ht
      rw [hst] at ht
      obtain ⟨a, -, e⟩ := List.mem_map.mp ht
      exact ⟨a, e.symm⟩
    · rintro i x ⟨h1, -, -⟩ hi
      rw [hmem]
      rcases hcase with ⟨-, -, h⟩ | ⟨-, h2, -, h4, -, h⟩
      · omega
      · by_contra hc
        exact players_mono hready hdt hm hex n k h4 i (by omega) (by omega) h1
    · intro i hi x hx hD
      rw [hmem] at hi
      rcases hcase with ⟨-, -, h⟩ | ⟨h1, h2, h3, h4, -, h⟩
      · omega
      · by_contra hc
        rw [hgoal h1 h2 h3 h4 h i (by omega) x hx] at hD
        cases hD
    · intro i hi x
      constructor
      · rintro ⟨hx, hD⟩
        have hp : n ∈ (σ i).players ∧ i ≤ last := by
          rcases hcase with ⟨h1, -, h⟩ | ⟨h1, h2, h3, h4, -, h⟩
          · exact ⟨hstay (J + 1) i le_rfl (by omega) (hend ▸ h1), by omega⟩
          · by_cases hki : k ≤ i
            · rw [hgoal h1 h2 h3 h4 h i hki x hx] at hD
              cases hD
            · exact ⟨hstay (k - 1) i (by omega) (by omega) h3, by omega⟩
        obtain ⟨m, g1, -⟩ := hvs i hp.2
        exact ⟨hp.1, ⟨m, g1, interp_unique _ hv.1 _ _ _ (hat i hp.2 m g1) hx⟩, hD⟩
      · rintro ⟨h1, ⟨m, h2, rfl⟩, h3⟩
        refine ⟨hat i ?_ m h2, h3⟩
        rcases hcase with ⟨-, -, h⟩ | ⟨-, h2, -, h4, -, h⟩
        · omega
        · by_contra hc
          exact players_mono hready hdt hm hex n k h4 i (by omega) (by omega) h1

/-- In step `i`, at a time in the range, the ego and the other player `n` are active, at the distance `d`. -/
def Apart {M : Type} (dist : Wd.X → Wd.X → M → M → K) (D : Wd.G → Wd.X → Bool) (mo : N → M) (go : N → Wd.G)
    (dt : K) (σ : Nat → St Wd) (J : Nat) (ego : N) (lo hi : Option K) (i : Nat) (n : N) (d : K) : Prop :=
  i ≤ J ∧ InRange lo hi ((i : K) * dt) ∧ n ≠ ego ∧ ∃ xe x, Active D go σ i ego xe ∧ Active D go σ i n x ∧
    d = dist xe x (mo ego) (mo n)

/-- **C163.** If goals do not depend on time and every player has a mission and a model, `get_min_dist` of the
log of a run does not raise. It is the smallest distance between the states that the models of the ego and of
another player had at the beginning of a step in the range in which both took part and neither was at its goal;
with such a player and the first such time, or infinity. -/
theorem C163_min_dist {M : Type} {cfg : Cfg Wd} {fuel : Nat} {s s' : St Wd} {log : Dict N (PlayerLog Wd)}
    (hf : Fresh s) (hdt : 0 < cfg.dt) (hm : Dict.Wf cfg.missions)
    (hrun : run cfg fuel s [] = some (.ok (s', log)))
    (D : Wd.G → Wd.X → Bool) (hful : ∀ w n g x t w' b, Wd.fulfilled w n g x t = .ok (w', b) → b = D g x)
    (go : N → Wd.G) (hgo : ∀ n ∈ Dict.keys s.models, Dict.get? cfg.missions n = some (go n))
    (dist : Wd.X → Wd.X → M → M → K) (models : Dict N M) (mo : N → M)
    (hmo : ∀ n ∈ Dict.keys s.models, Dict.get? models n = some (mo n))
    (ego : N) (hego : ego ∈ Dict.keys s.models) (lo hi : Option K) :
    ∃ σ J, Wrote cfg s s' σ J ∧
      let S := Apart dist D mo go cfg.dt σ J ego lo hi
      ∃ r, getMinDist dist (fun g x => .ok (D g x)) log models cfg.missions ego lo hi = .ok r ∧
        ((r = (none, none, none) ∧ ∀ i n d, ¬ S i n d) ∨
         ∃ (i : Nat) (n : N) (d : K), r = (some d, some n, some ((i : K) * cfg.dt)) ∧ S i n d ∧
          ∀ i' n' d', S i' n' d' → d ≤ d' ∧ (i' < i → d < d')) := by
  obtain ⟨hwf, hkeys, hbegun, σ, J, hw, hread⟩ := reads hf hdt hm hrun D hful go hgo
  refine ⟨σ, J, hw, ?_⟩
  intro S
  obtain ⟨le, hl⟩ := (Dict.mem_keys_iff _ _).mp ((hkeys ego).mpr hego)
  obtain ⟨r1, r2, r3, r4⟩ := hread ego le hl
  have hv : le.states.Valid :=
    ((C29_after_run hf hdt hm hrun).1 _ (Dict.get?_eq_some_mem hl)).1
  obtain ⟨r, h1, h2⟩ := C65_logs dist D log hwf models cfg.missions mo go ego lo hi le hl hv
    (by
      intro t ht _
      obtain ⟨i, rfl⟩ := r1 t ht
      exact hbegun _ (mul_nonneg (Nat.cast_nonneg i) hdt.le))
    (fun n hn => hmo n ((hkeys n).mp hn)) (fun n hn => hgo n ((hkeys n).mp hn))
  -- the distances in the log are those in the run
  have hto : ∀ t n d, Eval.Apart dist D mo go log ego lo hi t n d → ∃ i : Nat, t = (i : K) * cfg.dt ∧ S i n d := by
    rintro t n d ⟨l1, l2, xe, x, a1, a2, a3, a4, a5, a6, a7, a8, a9, rfl⟩
    rw [hl] at a1; injection a1 with a1; subst a1
    obtain ⟨i, rfl⟩ := r1 t a4
    have hi := r3 i a4 xe a6 a8
    exact ⟨i, rfl, hi, a5, a3, xe, x, (r4 i hi xe).mp ⟨a6, a8⟩, ((hread n l2 a2).2.2.2 i hi x).mp ⟨a7, a9⟩, rfl⟩
  have hback : ∀ i n d, S i n d → Eval.Apart dist D mo go log ego lo hi ((i : K) * cfg.dt) n d := by
    rintro i n d ⟨b1, b2, b3, xe, x, b4, b5, rfl⟩
    have hn : n ∈ Dict.keys s.models := hw.names hdt hm i (by omega) n (by
      obtain ⟨m, hmod, -⟩ := b5.2.1
      exact (Dict.mem_keys_iff _ _).mpr ⟨m, hmod⟩)
    obtain ⟨l2, hl2⟩ := (Dict.mem_keys_iff _ _).mp ((hkeys n).mpr hn)
    obtain ⟨c1, c2⟩ := (r4 i b1 xe).mpr b4
    obtain ⟨d1, d2⟩ := ((hread n l2 hl2).2.2.2 i b1 x).mpr b5
    exact ⟨le, l2, xe, x, hl, hl2, b3, r2 i xe b4 b1, b2, c1, d1, c2, d2, rfl⟩
  refine ⟨r, h1, ?_⟩
  rcases h2 with ⟨h2, h3⟩ | ⟨t, n, d, h2, h3, h4⟩
  · exact Or.inl ⟨h2, fun i n d h => h3 _ _ _ (hback i n d h)⟩
  · obtain ⟨i, rfl, h5⟩ := hto t n d h3
    refine Or.inr ⟨i, n, d, h2, h5, fun i' n' d' h' => ?_⟩
    obtain ⟨g1, g2⟩ := h4 _ _ _ (hback i' n' d' h')
    exact ⟨g1, fun hlt => g2 (by
      have : (i' : K) < i := Nat.cast_lt.mpr hlt
      exact mul_lt_mul_of_pos_right this hdt)⟩

end

section
variable {N : Type} [DecidableEq N] {Wd : World N ℝ} [AddCommGroup Wd.X] [Module ℝ Wd.X]

/-- In step `i`, at a time in the range, the ego in `xe` and the other player `n` in `x` are active, and their
centers coincide or come closer at a rate that would close the distance within five seconds. -/
def Near (kin : Wd.X → Kin) (D : Wd.G → Wd.X → Bool) (go : N → Wd.G) (dt : ℝ) (σ : Nat → St Wd) (J : Nat)
    (ego : N) (lo hi : Option ℝ) (i : Nat) (n : N) (xe x : Wd.X) : Prop :=
  i ≤ J ∧ InRange lo hi ((i : ℝ) * dt) ∧ n ≠ ego ∧ Active D go σ i ego xe ∧ Active D go σ i n x ∧
    (((kin xe).x = (kin x).x ∧ (kin xe).y = (kin x).y) ∨
      ∃ rate, HasDerivAt (distAfter (kin xe) (kin x)) rate 0 ∧ 0 < distAfter (kin xe) (kin x) 0 ∧ rate < 0 ∧
        distAfter (kin xe) (kin x) 0 ≤ 5 * (-rate))

/-- **C163.** Under the same conditions `get_min_ttc_max_drac` of the log of a run does not raise. The time to
collision is the least one over the steps in the range in which the ego and another player took part, neither
being at its goal, and were near; with such a player and the first such time, or infinity. The deceleration rate
is the greatest one in the same way. -/
theorem C163_ttc {M : Type} {cfg : Cfg Wd} {fuel : Nat} {s s' : St Wd} {log : Dict N (PlayerLog Wd)}
    (hf : Fresh s) (hdt : 0 < cfg.dt) (hm : Dict.Wf cfg.missions)
    (hrun : run cfg fuel s [] = some (.ok (s', log)))
    (D : Wd.G → Wd.X → Bool) (hful : ∀ w n g x t w' b, Wd.fulfilled w n g x t = .ok (w', b) → b = D g x)
    (go : N → Wd.G) (hgo : ∀ n ∈ Dict.keys s.models, Dict.get? cfg.missions n = some (go n))
    (kin : Wd.X → Kin) (ttc : Wd.X → Wd.X → M → M → Option (ℝ × ℝ × ℝ)) (models : Dict N M) (mo : N → M)
    (hmo : ∀ n ∈ Dict.keys s.models, Dict.get? models n = some (mo n))
    (ego : N) (hego : ego ∈ Dict.keys s.models) (lo hi : Option ℝ) :
    let T := fun n xe x => ttcVal (ttc xe x (mo ego) (mo n))
    let R := fun n xe x => drac (kin xe).vx ((ttc xe x (mo ego) (mo n)).map (·.2.1))
    ∃ σ J, Wrote cfg s s' σ J ∧
      let S := Near kin D go cfg.dt σ J ego lo hi
      ∃ v a t? w b u?, getMinTtcMaxDrac kin ttc (fun g x => .ok (D g x)) log models cfg.missions ego lo hi =
          .ok ((v, a, t?), (w, b, u?)) ∧
        (∀ i n xe x, S i n xe x → v ≤ T n xe x ∧ R n xe x ≤ w) ∧
        ((v = ⊤ ∧ a = none ∧ t? = none) ∨ ∃ (i : Nat) (n : N) (xe x : Wd.X), S i n xe x ∧ v = T n xe x ∧ v < ⊤ ∧
          a = some n ∧ t? = some ((i : ℝ) * cfg.dt) ∧ ∀ i' n' xe' x', S i' n' xe' x' → i' < i → v < T n' xe' x') ∧
        ((w = ⊥ ∧ b = none ∧ u? = none) ∨ ∃ (i : Nat) (n : N) (xe x : Wd.X), S i n xe x ∧ w = R n xe x ∧ ⊥ < w ∧
          b = some n ∧ u? = some ((i : ℝ) * cfg.dt) ∧ ∀ i' n' xe' x', S i' n' xe' x' → i' < i → R n' xe' x' < w) := by
  intro T R
  obtain ⟨hwf, hkeys, hbegun, σ, J, hw, hread⟩ := reads hf hdt hm hrun D hful go hgo
  refine ⟨σ, J, hw, ?_⟩
  intro S
  obtain ⟨le, hl⟩ := (Dict.mem_keys_iff _ _).mp ((hkeys ego).mpr hego)
  obtain ⟨r1, r2, r3, r4⟩ := hread ego le hl
  have hv : le.states.Valid :=
    ((C29_after_run hf hdt hm hrun).1 _ (Dict.get?_eq_some_mem hl)).1
  have hto : ∀ t n xe x, Seen kin D go log ego lo hi t n xe x → ∃ i : Nat, t = (i : ℝ) * cfg.dt ∧ S i n xe x := by
    rintro t n xe x ⟨l1, l2, a1, a2, a3, a4, a5, a6, a7, a8, a9, a10⟩
    rw [hl] at a1; injection a1 with a1; subst a1
    obtain ⟨i, rfl⟩ := r1 t a4
    have hi := r3 i a4 xe a6 a8
    exact ⟨i, rfl, hi, a5, a3, (r4 i hi xe).mp ⟨a6, a8⟩, ((hread n l2 a2).2.2.2 i hi x).mp ⟨a7, a9⟩, a10⟩
  have hback : ∀ i n xe x, S i n xe x → Seen kin D go log ego lo hi ((i : ℝ) * cfg.dt) n xe x := by
    rintro i n xe x ⟨b1, b2, b3, b4, b5, b6⟩
    have hn : n ∈ Dict.keys s.models := hw.names hdt hm i (by omega) n (by
      obtain ⟨m, hmod, -⟩ := b5.2.1
      exact (Dict.mem_keys_iff _ _).mpr ⟨m, hmod⟩)
    obtain ⟨l2, hl2⟩ := (Dict.mem_keys_iff _ _).mp ((hkeys n).mpr hn)
    obtain ⟨c1, c2⟩ := (r4 i b1 xe).mpr b4
    obtain ⟨d1, d2⟩ := ((hread n l2 hl2).2.2.2 i b1 x).mpr b5
    exact ⟨le, l2, hl, hl2, b3, r2 i xe b4 b1, b2, c1, d1, c2, d2, b6⟩
  obtain ⟨v, a, t?, w, b, u?, h0, h1, h2, h3⟩ := C81_logs kin ttc D log hwf models cfg.missions mo go ego lo hi le hl
    hv.2
    (by
      intro t ht _
      obtain ⟨i, rfl⟩ := r1 t ht
      exact hbegun _ (mul_nonneg (Nat.cast_nonneg i) hdt.le))
    (fun n hn => hmo n ((hkeys n).mp hn)) (fun n hn => hgo n ((hkeys n).mp hn))
  have hlt : ∀ i' i : Nat, i' < i → (i' : ℝ) * cfg.dt < i * cfg.dt := fun i' i h =>
    mul_lt_mul_of_pos_right (Nat.cast_lt.mpr h) hdt
  refine ⟨v, a, t?, w, b, u?, h0, fun i n xe x h => h1 _ _ _ _ (hback i n xe x h), ?_, ?_⟩
  · rcases h2 with h2 | ⟨t, n, xe, x, g1, g2, g3, g4, g5, g6⟩
    · exact Or.inl h2
    · obtain ⟨i, rfl, h⟩ := hto _ _ _ _ g1
      exact Or.inr ⟨i, n, xe, x, h, g2, g3, g4, g5, fun i' n' xe' x' h' hi' =>
        g6 _ _ _ _ (hback _ _ _ _ h') (hlt _ _ hi')⟩
  · rcases h3 with h2 | ⟨t, n, xe, x, g1, g2, g3, g4, g5, g6⟩
    · exact Or.inl h2
    · obtain ⟨i, rfl, h⟩ := hto _ _ _ _ g1
      exact Or.inr ⟨i, n, xe, x, h, g2, g3, g4, g5, fun i' n' xe' x' h' hi' =>
        g6 _ _ _ _ (hback _ _ _ _ h') (hlt _ _ hi')⟩

end

/-! ## An example, and two runs whose metrics are not of this kind -/

namespace Cars

/-- The configuration of the example of the simulator, with missions for all three cars. -/
def all : Cfg Toy.wd := { Toy.cfg with missions := [(2, (21 : ℚ)), (0, (100 : ℚ)), (1, (100 : ℚ))] }

def finished {α : Type} : Option (Except SimErr α) → Bool
  | some (.ok _) => true
  | _ => false

theorem of_finished {α : Type} {x : Option (Except SimErr α)} (h : finished x = true) : ∃ r, x = some (.ok r) := by
  cases x with
  | none => cases h
  | some x =>
    cases x with
    | ok r => exact ⟨r, rfl⟩
    | error e => cases h

-- the hypotheses of `C163_min_dist`, for the cars 0, 1 and 2 on a line, of which car 2 leaves at one second
example : ∃ r, run all 50 Toy.start [] = some (.ok r) ∧ Fresh Toy.start ∧ 0 < all.dt ∧ Dict.Wf all.missions ∧
    (∀ w n g x t w' b, Toy.wd.fulfilled w n g x t = .ok (w', b) → b = decide (g ≤ x)) ∧
    (∀ n ∈ Dict.keys Toy.start.models, Dict.get? all.missions n = some (if n = 2 then (21 : ℚ) else 100)) := by
  obtain ⟨r, hr⟩ := of_finished (x := run all 50 Toy.start []) (by decide +kernel)
  refine ⟨r, hr, Toy.fresh, by decide +kernel, by unfold Dict.Wf; decide, ?_, by decide +kernel⟩
  rintro w n g x t w' b h
  injection h with h
  injection h with _ h
  exact h.symm

/-- Two standing cars of `lineWd` for three seconds. -/
noncomputable def lineCfg : Cfg lineWd := ⟨1, 1, 3, 1, [(0, ()), (1, ())]⟩

noncomputable def lineStart : St lineWd :=
  ⟨[(0, (0 : ℝ)), (1, (10 : ℝ))], [0, 1], (), 0, false, [], none, ⟨[], 0⟩, none, [], [], []⟩

-- the hypotheses of `C163_ttc`
example : ∃ s' log, run lineCfg 4 lineStart [] = some (.ok (s', log)) ∧ Fresh lineStart ∧ 0 < lineCfg.dt ∧
    Dict.Wf lineCfg.missions ∧
    (∀ w n g x t w' b, lineWd.fulfilled w n g x t = .ok (w', b) → b = false) ∧
    (∀ n ∈ Dict.keys lineStart.models, Dict.get? lineCfg.missions n = some ()) := by
  have hf : Fresh lineStart := ⟨rfl, rfl, rfl, rfl, rfl, by simp [Dict.Wf, Dict.keys, lineStart],
    by simp [lineStart], fun n => Iff.rfl, rfl⟩
  have hd : 0 < lineCfg.dt := by simp [lineCfg]
  have hw : Dict.Wf lineCfg.missions := by simp [Dict.Wf, Dict.keys, lineCfg]
  obtain ⟨s', log, h⟩ := C21_returns lineCfg lineStart [] 4 hf hd hw (by norm_num)
    (by simp only [lineCfg]; norm_num) (by
      intro u h
      cases h with
      | onInit w n hn h => cases h
      | sense w n o hn h => cases h
      | getCommands w n o hn h => cases h
      | getExtra w n hn h => cases h
      | update w n m c dt hn h => cases h
      | fulfilled w n g x t hn h => cases h
      | resolveEnv w n m o t hn h hu => cases h
      | resolve w n₁ m₁ n₂ m₂ t h₁ h₂ h hu => cases h)
  refine ⟨s', log, h, hf, hd, hw, ?_, ?_⟩
  · rintro w n g x t w' b h
    injection h with h
    injection h with _ h
    exact h.symm
  · intro n hn
    simp only [Dict.keys, lineStart, List.map_cons, List.map_nil, List.mem_cons, List.not_mem_nil, or_false] at hn
    rcases hn with rfl | rfl <;> rfl

/-- **C163.** Not without missions for all players: the simulator runs with a player that has none, but the
metrics of its log raise `KeyError`. -/
theorem C163_false_mission : ∃ s' log, run Toy.cfg 50 Toy.start [] = some (.ok (s', log)) ∧
    Dict.get? Toy.cfg.missions 1 = none ∧ 1 ∈ Dict.keys log ∧
    getMinDist (Wd := Toy.wd) (M := Unit) (fun (x y : ℚ) _ _ => |x - y|) (fun (g x : ℚ) => .ok (decide (g ≤ x))) log
      [(0, ()), (1, ()), (2, ())] Toy.cfg.missions 0 none none = .error .key :=
  ⟨Toy.result.1, Toy.result.2, Toy.run_eq, by decide +kernel, by decide +kernel,
    of_decide_eq_true (by decide +kernel)⟩

/-- Goals that can be reached from one second on, as a moving goal. -/
abbrev late : World Nat ℚ := { Toy.wd with fulfilled := fun w _ g x t => .ok (w, decide (1 ≤ t) && decide (g ≤ x)) }

instance : AddCommGroup late.X := inferInstanceAs (AddCommGroup ℚ)
instance : Module ℚ late.X := inferInstanceAs (Module ℚ ℚ)

def lateCfg : Cfg late where
  dt := 1 / 2
  dtCommands := 1
  maxSimTime := 6
  afterCollision := 1
  missions := [(2, (4 : ℚ)), (0, (100 : ℚ))]

/-- Car 0 drives behind car 2. -/
def lateStart : St late where
  models := [(0, (0 : ℚ)), (2, (3 : ℚ))]
  players := [0, 2]
  w := fun _ => 0
  time := 0
  terminated := false
  reports := []
  firstColl := none
  lastObs := ⟨[], 0⟩
  lastCmdTs := none
  lastCmds := []
  logger := []
  trace := []

def lateResult : St late × Dict Nat (PlayerLog late) :=
  match run lateCfg 50 lateStart [] with
  | some (.ok r) => r
  | _ => (lateStart, [])

theorem late_run : run lateCfg 50 lateStart [] = some (.ok lateResult) := by
  obtain ⟨r, hr⟩ := of_finished (x := run lateCfg 50 lateStart []) (by decide +kernel)
  unfold lateResult
  rw [hr]

/-- **C163.** Not with goals that depend on time: the metrics ask whether the goal is reached without giving the
time, that is at time zero. Car 2 reaches its goal and leaves after one second; the metric still counts it and
reports that car 0 is at distance zero from it at five seconds. -/
theorem C163_false_moving : ∃ s' log, run lateCfg 50 lateStart [] = some (.ok (s', log)) ∧
    (Dict.get? log 2).map (fun l => l.states.ts) = some [0, 1 / 2, 1] ∧ 2 ∉ s'.players ∧ s'.reports.length = 0 ∧
    getMinDist (Wd := late) (M := Unit) (fun (x y : ℚ) _ _ => |x - y|)
      (fun (g x : ℚ) => (late.fulfilled (fun _ => 0) 0 g x 0).map (·.2)) log [(0, ()), (2, ())] lateCfg.missions 0
      none none = .ok (some 0, some 2, some 5) :=
  ⟨lateResult.1, lateResult.2, late_run, by decide +kernel, by decide +kernel, by decide +kernel,
    of_decide_eq_true (by decide +kernel)⟩

end Cars

end OfRun
end Eval
end Verif
