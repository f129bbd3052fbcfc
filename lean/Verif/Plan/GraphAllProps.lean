import Verif.Plan.GraphAll
import Verif.Plan.GraphProps
import Mathlib.Data.Finset.Card
import Mathlib.Data.Finset.Filter

/-!
# Property C113: all trajectories of a graph
-/

set_option linter.unusedSectionVars false

namespace Verif
namespace TGraph

variable {K : Type*} [Field K] [LinearOrder K] [IsStrictOrderedRing K] {γ : Type*}

/-! ## Specification -/

/-- What networkx documents for `is_directed_acyclic_graph`. -/
def DecidesAcyclic (isDag : TGraph K γ → Bool) : Prop :=
  ∀ g, isDag g = true ↔ ∀ u, ¬ Relation.TransGen (HasEdge g) u u

/-- A node nothing leads to. -/
def IsRoot (g : TGraph K γ) (n : TNode K) : Prop := HasNode g n ∧ ∀ u, ¬ HasEdge g u n

/-- A node nothing leads out of. -/
def IsLeaf (g : TGraph K γ) (n : TNode K) : Prop := HasNode g n ∧ ∀ u, ¬ HasEdge g n u

/-- The trajectory runs along edges of the graph and cannot be extended at either end. -/
def IsComplete (g : TGraph K γ) (tr : Traj K) : Prop :=
  tr.Valid ∧ ∃ s t, IsRoot g s ∧ IsLeaf g t ∧ IsPath g s t tr.samples

/-- There is exactly one node nothing leads to. -/
def OneRoot (g : TGraph K γ) : Prop := ∃ r, ∀ n, IsRoot g n ↔ n = r

/-! ## Lemmas -/

theorem hasEdge_iff (g : TGraph K γ) (u v : TNode K) : HasEdge g u v ↔ (u, v) ∈ Dict.keys g.edges :=
  (Dict.mem_keys_iff _ _).symm

theorem mem_roots (g : TGraph K γ) (n : TNode K) : n ∈ g.roots ↔ IsRoot g n := by
  unfold roots inDegree IsRoot HasNode
  rw [List.mem_filter]
  simp only [beq_iff_eq, List.length_eq_zero_iff, List.filter_eq_nil_iff, decide_eq_true_eq]
  refine and_congr Iff.rfl ⟨fun h u he => h (u, n) ((hasEdge_iff g u n).mp he) rfl, ?_⟩
  rintro h ⟨u, v⟩ he rfl
  exact h u ((hasEdge_iff g u v).mpr he)

theorem mem_leaves (g : TGraph K γ) (n : TNode K) : n ∈ g.leaves ↔ IsLeaf g n := by
  unfold leaves outDegree IsLeaf HasNode
  rw [List.mem_filter]
  simp only [beq_iff_eq, List.length_eq_zero_iff, List.filter_eq_nil_iff, decide_eq_true_eq]
  refine and_congr Iff.rfl ⟨fun h u he => h (n, u) ((hasEdge_iff g n u).mp he) rfl, ?_⟩
  rintro h ⟨u, v⟩ he rfl
  exact h v ((hasEdge_iff g u v).mpr he)

theorem wf_addNode {g : TGraph K γ} (h : Dict.Wf g.nodes) (n : TNode K) (gen : Option Int) :
    Dict.Wf (g.addNode n gen).nodes := Dict.wf_set h _ _

theorem wf_step {g : TGraph K γ} (h : Dict.Wf g.nodes) (op : Op K γ) : Dict.Wf (g.step op).nodes := by
  cases op with
  | node n gen => exact wf_addNode h n gen
  | edge s tr c =>
    simp only [step, addEdge]
    split
    · exact h
    · exact h
    · split
      · exact h
      · exact h
      · split
        · exact h
        · exact h
        · have h1 := wf_addNode h
          simp only [nxAddEdge]
          split
          · split
            · exact h1 _ _
            · exact wf_addNode (h1 _ _) _ _
          · split
            · exact wf_addNode (h1 _ _) _ _
            · exact wf_addNode (wf_addNode (h1 _ _) _ _) _ _

theorem wf_run (ops : List (Op K γ)) : Dict.Wf (run ops).nodes := by
  have aux : ∀ (ops : List (Op K γ)) (g : TGraph K γ), Dict.Wf g.nodes → Dict.Wf (ops.foldl step g).nodes := by
    intro ops
    induction ops with
    | nil => exact fun g h => h
    | cons op rest ih => exact fun g h => ih _ (wf_step h op)
  exact aux ops {} Dict.wf_nil

theorem oneRoot_iff (ops : List (Op K γ)) : OneRoot (run ops) ↔ ∃ r, (run ops).roots = [r] := by
  have hnd : (run ops).roots.Nodup := List.Nodup.filter _ (wf_run ops)
  constructor
  · rintro ⟨r, hr⟩
    refine ⟨r, ?_⟩
    have hmem : ∀ n, n ∈ (run ops).roots ↔ n = r := fun n => (mem_roots _ _).trans (hr n)
    cases hl : (run ops).roots with
    | nil => rw [hl] at hmem; exact absurd ((hmem r).mpr rfl) (by simp)
    | cons a l =>
      rw [hl] at hmem hnd
      have ha := (hmem a).mp (by simp)
      subst ha
      cases l with
      | nil => rfl
      | cons b l =>
        have hb := (hmem b).mp (by simp)
        subst hb
        simp at hnd
  · rintro ⟨r, hr⟩
    exact ⟨r, fun n => by rw [← mem_roots, hr]; simp⟩

theorem isPath_snoc {g : TGraph K γ} {s u t : TNode K} {l : List (TNode K)} (h : IsPath g s u l)
    (he : HasEdge g u t) : IsPath g s t (l ++ [t]) := by
  obtain ⟨h1, h2, h3⟩ := h
  refine ⟨?_, ?_, by simp⟩
  · rw [List.isChain_append]
    refine ⟨h1, List.isChain_singleton _, ?_⟩
    intro x hx y hy
    rw [h3] at hx
    simp only [Option.mem_def, Option.some.injEq, List.head?_cons] at hx hy
    subst hx hy
    exact he
  · cases l with
    | nil => cases h2
    | cons a l => simpa using h2

/-- Every node can be reached from a root. -/
theorem reached (ops : List (Op K γ)) (h : ∀ op ∈ ops, GoodOp op) :
    ∀ (k : Nat) (t : TNode K), HasNode (run ops) t →
      ((Dict.keys (run ops).nodes).toFinset.filter (fun n => n.1 < t.1)).card ≤ k →
      ∃ s l, IsRoot (run ops) s ∧ IsPath (run ops) s t l := by
  intro k
  induction k with
  | zero =>
    intro t ht hc
    by_cases hr : ∃ u, HasEdge (run ops) u t
    · obtain ⟨u, hu⟩ := hr
      obtain ⟨h1, h2, -⟩ := C16_forward ops h u t hu
      rw [Nat.le_zero, Finset.card_eq_zero] at hc
      have : u ∈ (Dict.keys (run ops).nodes).toFinset.filter (fun n => n.1 < t.1) :=
        Finset.mem_filter.mpr ⟨List.mem_toFinset.mpr h2, h1⟩
      rw [hc] at this
      simp at this
    · exact ⟨t, [t], ⟨ht, fun u hu => hr ⟨u, hu⟩⟩, List.isChain_singleton _, rfl, rfl⟩
  | succ k ih =>
    intro t ht hc
    by_cases hr : ∃ u, HasEdge (run ops) u t
    · obtain ⟨u, hu⟩ := hr
      obtain ⟨h1, h2, -⟩ := C16_forward ops h u t hu
      have hlt : (Dict.keys (run ops).nodes).toFinset.filter (fun n => n.1 < u.1) ⊂
          (Dict.keys (run ops).nodes).toFinset.filter (fun n => n.1 < t.1) := by
        rw [Finset.ssubset_iff_of_subset]
        · exact ⟨u, Finset.mem_filter.mpr ⟨List.mem_toFinset.mpr h2, h1⟩, by simp⟩
        · intro n hn
          rw [Finset.mem_filter] at hn ⊢
          exact ⟨hn.1, hn.2.trans h1⟩
      obtain ⟨s, l, hs, hl⟩ := ih u h2 (by have := Finset.card_lt_card hlt; omega)
      exact ⟨s, l ++ [t], hs, isPath_snoc hl hu⟩
    · exact ⟨t, [t], ⟨ht, fun u hu => hr ⟨u, hu⟩⟩, List.isChain_singleton _, rfl, rfl⟩

theorem mem_insertNew {α : Type*} [DecidableEq α] (l : List α) (x y : α) :
    y ∈ insertNew l x ↔ y ∈ l ∨ y = x := by
  unfold insertNew
  split
  · constructor
    · exact Or.inl
    · rintro (h | rfl) <;> assumption
  · simp

theorem nodup_insertNew {α : Type*} [DecidableEq α] {l : List α} (h : l.Nodup) (x : α) :
    (insertNew l x).Nodup := by
  unfold insertNew
  split
  · exact h
  · rename_i hx
    rw [List.nodup_append]
    refine ⟨h, by simp, ?_⟩
    rintro a ha b hb rfl
    rw [List.mem_singleton] at hb
    exact hx (hb ▸ ha)

theorem readAll_ok (read : TNode K → Except Err (Traj K)) (ok : TNode K → Traj K) :
    ∀ (l : List (TNode K)) (acc : List (Traj K)), acc.Nodup → (∀ t ∈ l, read t = .ok (ok t)) →
      ∃ trs, readAll read acc l = .ok trs ∧ trs.Nodup ∧
        ∀ tr, tr ∈ trs ↔ tr ∈ acc ∨ ∃ t ∈ l, ok t = tr
  | [], acc, hn, _ => ⟨acc, rfl, hn, by simp⟩
  | t :: l, acc, hn, h => by
    obtain ⟨trs, h1, h2, h3⟩ := readAll_ok read ok l (insertNew acc (ok t)) (nodup_insertNew hn _)
      (fun t ht => h t (by simp [ht]))
    refine ⟨trs, ?_, h2, fun tr => ?_⟩
    · unfold readAll
      rw [h t (by simp)]
      exact h1
    · rw [h3, mem_insertNew]
      simp only [List.mem_cons, exists_eq_or_imp]
      rw [or_assoc, eq_comm (a := tr)]

theorem last_unique {g : TGraph K γ} {s s' t t' : TNode K} {l : List (TNode K)} (h : IsPath g s t l)
    (h' : IsPath g s' t' l) : t = t' := by
  have := h.2.2.symm.trans h'.2.2
  injection this

/-- Paths to a node are unique if every node has at most one predecessor. -/
theorem path_unique {α : Type*} {E : α → α → Prop} (huniq : ∀ u v w, E u w → E v w → u = v) :
    ∀ (l1 l2 : List α) (a : α), (a :: l1).IsChain (fun x y => E y x) → (a :: l2).IsChain (fun x y => E y x) →
      (∀ b, (a :: l1).getLast? = some b → ∀ u, ¬ E u b) →
      (∀ b, (a :: l2).getLast? = some b → ∀ u, ¬ E u b) → l1 = l2
  | [], [], _, _, _, _, _ => rfl
  | [], b :: l2, a, _, h2, h3, _ => by
    exact absurd (List.isChain_cons_cons.mp h2).1 (h3 a rfl b)
  | b :: l1, [], a, h1, _, _, h4 => by
    exact absurd (List.isChain_cons_cons.mp h1).1 (h4 a rfl b)
  | b :: l1, c :: l2, a, h1, h2, h3, h4 => by
    obtain ⟨e1, h1⟩ := List.isChain_cons_cons.mp h1
    obtain ⟨e2, h2⟩ := List.isChain_cons_cons.mp h2
    have := huniq b c a e1 e2
    subst this
    rw [path_unique huniq l1 l2 b h1 h2 (by simpa [List.getLast?_cons_cons] using h3)
      (by simpa [List.getLast?_cons_cons] using h4)]

theorem isPath_unique {g : TGraph K γ} (huniq : ∀ u v w, HasEdge g u w → HasEdge g v w → u = v)
    {s s' t : TNode K} {l l' : List (TNode K)} (hs : ∀ u, ¬ HasEdge g u s) (hs' : ∀ u, ¬ HasEdge g u s')
    (h : IsPath g s t l) (h' : IsPath g s' t l') : l = l' := by
  obtain ⟨h1, h2, h3⟩ := h
  obtain ⟨h1', h2', h3'⟩ := h'
  have hr : ∀ {l : List (TNode K)}, l.getLast? = some t → ∃ r, l.reverse = t :: r := by
    intro l hl
    have : l.reverse.head? = some t := by rw [List.head?_reverse]; exact hl
    cases hx : l.reverse with
    | nil => rw [hx] at this; cases this
    | cons a r => rw [hx] at this; injection this with e; exact ⟨r, by rw [e]⟩
  obtain ⟨r, hr1⟩ := hr h3
  obtain ⟨r', hr2⟩ := hr h3'
  have c1 : (t :: r).IsChain (fun x y => HasEdge g y x) := by rw [← hr1]; exact List.isChain_reverse.mpr h1
  have c2 : (t :: r').IsChain (fun x y => HasEdge g y x) := by rw [← hr2]; exact List.isChain_reverse.mpr h1'
  have : r = r' := path_unique huniq r r' t c1 c2
    (by
      intro b hb
      rw [← hr1, List.getLast?_reverse, h2] at hb
      injection hb with hb; subst hb; exact hs)
    (by
      intro b hb
      rw [← hr2, List.getLast?_reverse, h2'] at hb
      injection hb with hb; subst hb; exact hs')
  have : l.reverse = l'.reverse := by rw [hr1, hr2, this]
  simpa using congrArg List.reverse this

/-! ## All trajectories -/

/-- **C113.** For every graph built by `add_node` and `add_edge` from valid trajectories of at least two
samples: `get_all_trajectories` returns exactly if the graph has one root. What it returns are complete
trajectories, without repetition, one for each leaf. -/
theorem C113_trajectories (ops : List (Op K γ)) (h : ∀ op ∈ ops, GoodOp op)
    {isDag : TGraph K γ → Bool} (hdag : DecidesAcyclic isDag) {sp : PathFinder K γ} (hsp : FindsPaths sp) :
    ((∃ trs, getAllTrajectories isDag sp (run ops) = .ok trs) ↔ OneRoot (run ops)) ∧
    ∀ trs, getAllTrajectories isDag sp (run ops) = .ok trs →
      trs.Nodup ∧ (∀ tr ∈ trs, IsComplete (run ops) tr) ∧
      ∀ t, IsLeaf (run ops) t → ∃! tr, tr ∈ trs ∧ tr.samples.getLast? = some t := by
  have hd : isDag (run ops) = true := (hdag _).mpr (C16_acyclic ops h)
  have main : ∀ r, (run ops).roots = [r] → ∃ trs, getAllTrajectories isDag sp (run ops) = .ok trs ∧
      trs.Nodup ∧ (∀ tr ∈ trs, IsComplete (run ops) tr) ∧
      ∀ t, IsLeaf (run ops) t → ∃! tr, tr ∈ trs ∧ tr.samples.getLast? = some t := by
    intro r hr
    have hroot : ∀ n, IsRoot (run ops) n ↔ n = r := fun n => by rw [← mem_roots, hr]; simp
    have hread : ∀ t, HasNode (run ops) t → ∃ tr, getTrajectory sp (run ops) r t = .ok tr ∧ tr.Valid ∧
        IsPath (run ops) r t tr.samples := by
      intro t ht
      obtain ⟨s, l, hs, hl⟩ := reached ops h _ t ht le_rfl
      have := (hroot s).mp hs
      subst this
      rcases C16_get_trajectory ops h sp hsp s t with ⟨tr, h1, h2, h3, -⟩ | ⟨-, hno⟩
      · exact ⟨tr, h1, h2, h3⟩
      · exact absurd ⟨hs.1, ht, l, hl⟩ hno
    have hex : ∀ t, ∃ tr, HasNode (run ops) t → getTrajectory sp (run ops) r t = .ok tr ∧ tr.Valid ∧
        IsPath (run ops) r t tr.samples := by
      intro t
      by_cases ht : HasNode (run ops) t
      · obtain ⟨tr, h⟩ := hread t ht; exact ⟨tr, fun _ => h⟩
      · exact ⟨⟨[], []⟩, fun h => absurd h ht⟩
    choose ok hok using hex
    obtain ⟨trs, h1, h2, h3⟩ := readAll_ok (getTrajectory sp (run ops) r) ok (run ops).leaves [] (by simp)
      (fun t ht => (hok t ((mem_leaves _ _).mp ht).1).1)
    refine ⟨trs, ?_, h2, ?_, ?_⟩
    · unfold getAllTrajectories getAll
      rw [if_pos hd, hr]
      exact h1
    · intro tr htr
      rcases (h3 tr).mp htr with h | ⟨t, ht, rfl⟩
      · simp at h
      · have ht := (mem_leaves _ _).mp ht
        obtain ⟨-, h4, h5⟩ := hok t ht.1
        exact ⟨h4, r, t, (hroot r).mpr rfl, ht, h5⟩
    · intro t ht
      obtain ⟨-, -, h5⟩ := hok t ht.1
      refine ⟨ok t, ⟨(h3 _).mpr (Or.inr ⟨t, (mem_leaves _ _).mpr ht, rfl⟩), h5.2.2⟩, ?_⟩
      rintro tr ⟨hm, hl⟩
      rcases (h3 tr).mp hm with h | ⟨t', ht', rfl⟩
      · simp at h
      · obtain ⟨-, -, h6⟩ := hok t' ((mem_leaves _ _).mp ht').1
        have := h6.2.2.symm.trans hl
        injection this with this
        rw [this]
  refine ⟨⟨?_, ?_⟩, ?_⟩
  · rintro ⟨trs, htrs⟩
    rw [oneRoot_iff]
    unfold getAllTrajectories getAll at htrs
    rw [if_pos hd] at htrs
    split at htrs
    · rename_i r hr; exact ⟨r, hr⟩
    · cases htrs
  · intro ho
    obtain ⟨r, hr⟩ := (oneRoot_iff ops).mp ho
    obtain ⟨trs, h1, -⟩ := main r hr
    exact ⟨trs, h1⟩
  · intro trs htrs
    have : ∃ r, (run ops).roots = [r] := by
      unfold getAllTrajectories getAll at htrs
      rw [if_pos hd] at htrs
      split at htrs
      · rename_i r hr; exact ⟨r, hr⟩
      · cases htrs
    obtain ⟨r, hr⟩ := this
    obtain ⟨trs', h1, h2⟩ := main r hr
    rw [htrs] at h1
    injection h1 with h1
    subst h1
    exact h2

/-- **C113.** If no node has two predecessors, `get_all_trajectories` returns all complete trajectories. For
other graphs this fails, see `C113_false_diamond`. -/
theorem C113_tree_partial (ops : List (Op K γ)) (h : ∀ op ∈ ops, GoodOp op)
    {isDag : TGraph K γ → Bool} (hdag : DecidesAcyclic isDag) {sp : PathFinder K γ} (hsp : FindsPaths sp)
    (htree : ∀ u v w, HasEdge (run ops) u w → HasEdge (run ops) v w → u = v)
    {trs : List (Traj K)} (htrs : getAllTrajectories isDag sp (run ops) = .ok trs) (tr : Traj K) :
    tr ∈ trs ↔ IsComplete (run ops) tr := by
  obtain ⟨-, hall, hleaf⟩ := (C113_trajectories ops h hdag hsp).2 trs htrs
  refine ⟨hall tr, ?_⟩
  rintro ⟨hv, s, t, hs, ht, hp⟩
  obtain ⟨tr', ⟨hm, hl⟩, -⟩ := hleaf t ht
  obtain ⟨hv', s', t', hs', -, hp'⟩ := hall tr' hm
  have e : t' = t := by
    have := hp'.2.2.symm.trans hl
    injection this
  subst e
  have e := isPath_unique htree hs.2 hs'.2 hp hp'
  have : tr = tr' := by
    have hts : ∀ q : Traj K, q.Valid → q.ts = q.samples.map Prod.fst ∧ q.vs = q.samples.map Prod.snd := by
      intro q hq
      unfold Seq.samples
      exact ⟨(List.map_fst_zip (le_of_eq hq.1)).symm, (List.map_snd_zip (le_of_eq hq.1.symm)).symm⟩
    obtain ⟨a1, a2⟩ := hts tr hv
    obtain ⟨b1, b2⟩ := hts tr' hv'
    cases tr; cases tr'
    simp only [Seq.mk.injEq]
    exact ⟨by rw [e] at a1; exact a1.trans b1.symm, by rw [e] at a2; exact a2.trans b2.symm⟩
  rw [this]
  exact hm

/-- One call that adds an edge. -/
def IsEdgeOp : Op K γ → Prop
  | .node _ _ => False
  | .edge _ _ _ => True

/-- **C113.** A graph grown from one node by `add_edge` has one root, so all its trajectories can be read. -/
theorem C113_grown (r : TNode K) (gen : Option Int) (ops : List (Op K γ)) (h : ∀ op ∈ ops, GoodOp op)
    (hedge : ∀ op ∈ ops, IsEdgeOp op) : OneRoot (run (.node r gen :: ops)) := by
  have aux : ∀ (ops : List (Op K γ)) (g : TGraph K γ), (∀ op ∈ ops, GoodOp op) → (∀ op ∈ ops, IsEdgeOp op) →
      (HasNode g r ∧ ∀ n, HasNode g n → Relation.ReflTransGen (HasEdge g) r n) →
      HasNode (ops.foldl step g) r ∧
        ∀ n, HasNode (ops.foldl step g) n → Relation.ReflTransGen (HasEdge (ops.foldl step g)) r n := by
    intro ops
    induction ops with
    | nil => exact fun g _ _ hg => hg
    | cons op rest ih =>
      intro g hgood hed hg
      refine ih (g.step op) (fun o ho => hgood o (by simp [ho])) (fun o ho => hed o (by simp [ho])) ?_
      cases op with
      | node n gen => exact (hed (.node n gen) (by simp)).elim
      | edge s tr c =>
        obtain ⟨hv, hn⟩ : s.Valid ∧ 2 ≤ s.ts.length := hgood (.edge s tr c) (by simp)
        simp only [step]
        cases hr : (g.addEdge s tr c).2 with
        | error e => rw [C16_add_edge_error g s tr c e hr]; exact hg
        | ok _ =>
          obtain ⟨a, b, ha, hb⟩ := exists_ends s hv (by intro h0; rw [h0] at hn; simp at hn)
          obtain ⟨gen, hgen⟩ : ∃ gen, Dict.get? g.nodes a = some (some gen) := by
            obtain ⟨h1, h2, h3, h4⟩ := ends_of_valid s hv a b ha hb
            unfold addEdge at hr
            simp only [h1, h2, h3, h4] at hr
            cases hx : Dict.get? g.nodes (a.1, a.2) with
            | none => rw [hx] at hr; cases hr
            | some o =>
              rw [hx] at hr
              cases o with
              | none => cases hr
              | some gen => exact ⟨gen, rfl⟩
          obtain ⟨-, ⟨e, he, -⟩, hother, hnode⟩ := C16_add_edge_ok g s tr c hv a b ha hb gen hgen
          have hmono : ∀ u v, HasEdge g u v → HasEdge (g.addEdge s tr c).1 u v := by
            intro u v huv
            by_cases hab : (u, v) = (a, b)
            · injection hab with h1 h2; subst h1 h2; exact ⟨e, he⟩
            · obtain ⟨e', he'⟩ := huv
              exact ⟨e', by rw [hother u v hab]; exact he'⟩
          have hreach : ∀ n, HasNode g n → Relation.ReflTransGen (HasEdge (g.addEdge s tr c).1) r n :=
            fun n hn => Relation.ReflTransGen.mono hmono _ _ (hg.2 n hn)
          refine ⟨(hnode r).mpr (Or.inl hg.1), fun n hn => ?_⟩
          rcases (hnode n).mp hn with hn | rfl
          · exact hreach n hn
          · exact (hreach a ((Dict.mem_keys_iff _ _).mpr ⟨_, hgen⟩)).tail ⟨e, he⟩
  have hall : ∀ op ∈ (Op.node r gen :: ops : List (Op K γ)), GoodOp op := by
    intro op hop
    rcases List.mem_cons.mp hop with rfl | hop
    · trivial
    · exact h op hop
  obtain ⟨h1, h2⟩ := aux ops (step {} (.node r gen)) h hedge (by
    refine ⟨(hasNode_addNode _ _ _ _).mpr (Or.inr rfl), fun n hn => ?_⟩
    rcases (hasNode_addNode _ _ _ _).mp hn with hn | rfl
    · simp [HasNode, Dict.keys] at hn
    · exact .refl)
  refine ⟨r, fun n => ⟨fun hroot => ?_, ?_⟩⟩
  · rcases (h2 n hroot.1).cases_tail with e | ⟨u, -, hu⟩
    · exact e
    · exact absurd hu (hroot.2 u)
  · rintro rfl
    refine ⟨h1, fun u hu => ?_⟩
    have hn := (C16_forward _ hall u n hu).2.1
    have hc := Relation.TransGen.tail' (h2 u hn) hu
    exact C16_acyclic _ hall n hc

/-- **C113.** When every transition spans the times of its edge and there is one root, `get_all_transitions`
returns for each leaf the merged transitions on a path from the root to it: a valid trajectory between the
times of both nodes. -/
theorem C113_transitions (ops : List (Op K γ)) (h : ∀ op ∈ ops, GoodOp op)
    {isDag : TGraph K γ → Bool} (hdag : DecidesAcyclic isDag) {sp : PathFinder K γ} (hsp : FindsPaths sp)
    (tol : K) (htol : 0 ≤ tol)
    (hspan : ∀ u v e, Dict.get? (run ops).edges (u, v) = some e → Spans e.transition u v)
    (r : TNode K) (hr : ∀ n, IsRoot (run ops) n ↔ n = r) (hne : ¬ IsLeaf (run ops) r) :
    ∃ trs, getAllTransitions isDag sp (run ops) tol = .ok trs ∧ trs.Nodup ∧
      (∀ tr ∈ trs, ∃ t, IsLeaf (run ops) t ∧ getTransition sp (run ops) r t tol = .ok tr) ∧
      ∀ t, IsLeaf (run ops) t → ∃ tr ∈ trs, getTransition sp (run ops) r t tol = .ok tr ∧ tr.Valid ∧
        (∃ a, tr.samples.head? = some a ∧ a.1 = r.1) ∧ ∃ b, tr.samples.getLast? = some b ∧ b.1 = t.1 := by
  have hd : isDag (run ops) = true := (hdag _).mpr (C16_acyclic ops h)
  have hroots : (run ops).roots = [r] := by
    obtain ⟨r', hr'⟩ := (oneRoot_iff ops).mp ⟨r, hr⟩
    have := (hr r').mp ((mem_roots _ _).mp (by rw [hr']; simp))
    rw [hr', this]
  have hread : ∀ t, IsLeaf (run ops) t → ∃ tr, getTransition sp (run ops) r t tol = .ok tr ∧ tr.Valid ∧
      (∃ a, tr.samples.head? = some a ∧ a.1 = r.1) ∧ ∃ b, tr.samples.getLast? = some b ∧ b.1 = t.1 := by
    intro t ht
    obtain ⟨s, l, hs, hl⟩ := reached ops h _ t ht.1 le_rfl
    have := (hr s).mp hs
    subst this
    exact C16_get_transition ops h sp hsp s t tol htol hspan hs.1 ht.1 (by rintro rfl; exact hne ht) ⟨l, hl⟩
  have hex : ∀ t, ∃ tr, IsLeaf (run ops) t → getTransition sp (run ops) r t tol = .ok tr ∧ tr.Valid ∧
      (∃ a, tr.samples.head? = some a ∧ a.1 = r.1) ∧ ∃ b, tr.samples.getLast? = some b ∧ b.1 = t.1 := by
    intro t
    by_cases ht : IsLeaf (run ops) t
    · obtain ⟨tr, h⟩ := hread t ht; exact ⟨tr, fun _ => h⟩
    · exact ⟨⟨[], []⟩, fun h => absurd h ht⟩
  choose ok hok using hex
  obtain ⟨trs, h1, h2, h3⟩ := readAll_ok (fun t => getTransition sp (run ops) r t tol) ok (run ops).leaves []
    (by simp) (fun t ht => (hok t ((mem_leaves _ _).mp ht)).1)
  refine ⟨trs, ?_, h2, ?_, fun t ht => ⟨ok t, (h3 _).mpr (Or.inr ⟨t, (mem_leaves _ _).mpr ht, rfl⟩), hok t ht⟩⟩
  · unfold getAllTransitions getAll
    rw [if_pos hd, hroots]
    exact h1
  · intro tr htr
    rcases (h3 tr).mp htr with h | ⟨t, ht, rfl⟩
    · simp at h
    · have ht := (mem_leaves _ _).mp ht
      exact ⟨t, ht, (hok t ht).1⟩

/-! ## Two ways to one place -/

section Example

/-- A state at a place. -/
def exAt (x y : ℚ) : VehicleState ℚ := ⟨x, y, 0, 1, 0⟩

/-- From place to place in a second. -/
def exLeg (t : ℚ) (a b : VehicleState ℚ) : Traj ℚ := ⟨[t, t + 1], [a, b]⟩

/-- From the origin to (2,0), left or right of an obstacle. -/
def exEdges : List (Op ℚ Unit) :=
  [.edge (exLeg 0 (exAt 0 0) (exAt 1 1)) (exLeg 0 (exAt 0 0) (exAt 1 1)) none,
   .edge (exLeg 0 (exAt 0 0) (exAt 1 (-1))) (exLeg 0 (exAt 0 0) (exAt 1 (-1))) none,
   .edge (exLeg 1 (exAt 1 1) (exAt 2 0)) (exLeg 1 (exAt 1 1) (exAt 2 0)) none,
   .edge (exLeg 1 (exAt 1 (-1)) (exAt 2 0)) (exLeg 1 (exAt 1 (-1)) (exAt 2 0)) none]

/-- The graph of both. -/
def exDiamond : List (Op ℚ Unit) := .node (0, exAt 0 0) (some 0) :: exEdges

/-- The first way. -/
def exLeft : Traj ℚ := ⟨[0, 1, 2], [exAt 0 0, exAt 1 1, exAt 2 0]⟩
/-- The second way. -/
def exRight : Traj ℚ := ⟨[0, 1, 2], [exAt 0 0, exAt 1 (-1), exAt 2 0]⟩

theorem exEdges_good : ∀ op ∈ exEdges, GoodOp op := by
  intro op hop
  simp only [exEdges, List.mem_cons, List.not_mem_nil, or_false] at hop
  have : ∀ t a b, (exLeg t a b).Valid ∧ 2 ≤ (exLeg t a b).ts.length := fun t a b =>
    ⟨⟨rfl, by show [t, t + 1].Pairwise (· < ·); simp⟩, by simp [exLeg]⟩
  rcases hop with rfl | rfl | rfl | rfl <;> exact this _ _ _

theorem exDiamond_good : ∀ op ∈ exDiamond, GoodOp op := by
  intro op hop
  rcases List.mem_cons.mp hop with rfl | hop
  · trivial
  · exact exEdges_good op hop

theorem exDiamond_oneRoot : OneRoot (run exDiamond) := by
  refine C113_grown _ _ _ exEdges_good ?_
  intro op hop
  simp only [exEdges, List.mem_cons, List.not_mem_nil, or_false] at hop
  rcases hop with rfl | rfl | rfl | rfl <;> trivial

theorem exDiamond_complete (tr : Traj ℚ) (h : tr = exLeft ∨ tr = exRight) :
    IsComplete (run exDiamond) tr ∧ tr.samples.getLast? = some (2, exAt 2 0) := by
  have hroot : IsRoot (run exDiamond) (0, exAt 0 0) := (mem_roots _ _).mp (by decide +kernel)
  have hleaf : IsLeaf (run exDiamond) (2, exAt 2 0) := (mem_leaves _ _).mp (by decide +kernel)
  have e1 : HasEdge (run exDiamond) (0, exAt 0 0) (1, exAt 1 1) := (hasEdge_iff _ _ _).mpr (by decide +kernel)
  have e2 : HasEdge (run exDiamond) (1, exAt 1 1) (2, exAt 2 0) := (hasEdge_iff _ _ _).mpr (by decide +kernel)
  have e3 : HasEdge (run exDiamond) (0, exAt 0 0) (1, exAt 1 (-1)) :=
    (hasEdge_iff _ _ _).mpr (by decide +kernel)
  have e4 : HasEdge (run exDiamond) (1, exAt 1 (-1)) (2, exAt 2 0) :=
    (hasEdge_iff _ _ _).mpr (by decide +kernel)
  have hts : [(0 : ℚ), 1, 2].Pairwise (· < ·) := by decide +kernel
  rcases h with rfl | rfl
  · exact ⟨⟨⟨rfl, hts⟩, _, _, hroot, hleaf, by simp [exLeft, Seq.samples, e1, e2], rfl, rfl⟩, rfl⟩
  · exact ⟨⟨⟨rfl, hts⟩, _, _, hroot, hleaf, by simp [exRight, Seq.samples, e3, e4], rfl, rfl⟩, rfl⟩

/-- **C113** is false when two ways lead to one node: only one of them is returned. -/
theorem C113_false_diamond {isDag : TGraph ℚ Unit → Bool} (hdag : DecidesAcyclic isDag)
    {sp : PathFinder ℚ Unit} (hsp : FindsPaths sp) :
    ∃ trs, getAllTrajectories isDag sp (run exDiamond) = .ok trs ∧
      ∃ tr, IsComplete (run exDiamond) tr ∧ tr ∉ trs := by
  obtain ⟨h1, h2⟩ := C113_trajectories exDiamond exDiamond_good hdag hsp
  obtain ⟨trs, htrs⟩ := h1.mpr exDiamond_oneRoot
  refine ⟨trs, htrs, ?_⟩
  obtain ⟨-, -, h3⟩ := h2 trs htrs
  obtain ⟨c1, l1⟩ := exDiamond_complete exLeft (Or.inl rfl)
  obtain ⟨c2, l2⟩ := exDiamond_complete exRight (Or.inr rfl)
  have hleaf : IsLeaf (run exDiamond) (2, exAt 2 0) := (mem_leaves _ _).mp (by decide +kernel)
  by_cases hm : exLeft ∈ trs
  · refine ⟨exRight, c2, fun hm' => ?_⟩
    obtain ⟨tr, -, huniq⟩ := h3 _ hleaf
    have := (huniq exLeft ⟨hm, l1⟩).trans (huniq exRight ⟨hm', l2⟩).symm
    exact absurd this (by decide +kernel)
  · exact ⟨exLeft, c1, hm⟩

/-- The two functions of networkx that are assumed exist. -/
example : (∃ isDag : TGraph ℚ Unit → Bool, DecidesAcyclic isDag) ∧
    ∃ sp : PathFinder ℚ Unit, FindsPaths sp := by
  classical
  refine ⟨⟨fun g => decide (∀ u, ¬ Relation.TransGen (HasEdge g) u u), fun g => by simp⟩,
    ⟨fun g s t => if h : ∃ l, IsPath g s t l then some h.choose else none, fun g s t => ⟨?_, ?_⟩⟩⟩
  · intro l hl
    beta_reduce at hl
    by_cases h : ∃ l, IsPath g s t l
    · rw [dif_pos h] at hl
      injection hl with hl
      exact hl ▸ h.choose_spec
    · rw [dif_neg h] at hl
      cases hl
  · intro hn l hl
    beta_reduce at hn
    rw [dif_pos (⟨l, hl⟩ : ∃ l, IsPath g s t l)] at hn
    cases hn

/-- A graph with one way to each place. -/
example : ∀ u v w, HasEdge (run exOps) u w → HasEdge (run exOps) v w → u = v := by
  intro u v w hu hv
  rw [hasEdge_iff] at hu hv
  have h : ∀ p ∈ Dict.keys (run exOps).edges, ∀ q ∈ Dict.keys (run exOps).edges, p.2 = q.2 → p.1 = q.1 := by
    decide +kernel
  exact h _ hu _ hv rfl

example : (leaves (run exDiamond)).length = 1 ∧ (roots (run exDiamond)).length = 1 := by decide +kernel

end Example

end TGraph
end Verif
