import Verif.Plan.GraphModel
import Verif.Plan.MergeProps
import Mathlib.Data.List.Chain
import Mathlib.Logic.Relation

/-!
# Property C16: the trajectory graph
-/

set_option linter.unusedSectionVars false

namespace Verif
namespace TGraph

variable {K : Type*} [Field K] [LinearOrder K] [IsStrictOrderedRing K] {γ : Type*}

/-! ## Specification -/

/-- There is an edge from `u` to `v`. -/
def HasEdge (g : TGraph K γ) (u v : TNode K) : Prop := ∃ e, Dict.get? g.edges (u, v) = some e

/-- `n` is a node. -/
def HasNode (g : TGraph K γ) (n : TNode K) : Prop := n ∈ Dict.keys g.nodes

/-- A non-empty list of nodes from `s` to `t` along edges. -/
def IsPath (g : TGraph K γ) (s t : TNode K) (l : List (TNode K)) : Prop :=
  l.IsChain (HasEdge g) ∧ l.head? = some s ∧ l.getLast? = some t

/-- What networkx documents for `has_path` and `shortest_path`: a path is returned whenever
there is one. -/
def FindsPaths (sp : PathFinder K γ) : Prop :=
  ∀ g s t, (∀ l, sp g s t = some l → IsPath g s t l) ∧
    (sp g s t = none → ∀ l, ¬ IsPath g s t l)

/-- The hypothesis of C16: every trajectory handed to `add_edge` is a valid sampled sequence with
at least two samples. -/
def GoodOp : Op K γ → Prop
  | .node _ _ => True
  | .edge s _ _ => s.Valid ∧ 2 ≤ s.ts.length

/-! ## Lemmas -/

theorem hasNode_addNode (g : TGraph K γ) (n m : TNode K) (gen : Option Int) :
    HasNode (g.addNode n gen) m ↔ HasNode g m ∨ m = n := by
  unfold HasNode addNode; exact Dict.mem_keys_set _ _ _ _

theorem edges_addNode (g : TGraph K γ) (n : TNode K) (gen : Option Int) :
    (g.addNode n gen).edges = g.edges := rfl

theorem hasNode_nxAddEdge (g : TGraph K γ) (u v m : TNode K) (tr : Traj K) (c : Option γ) :
    HasNode (g.nxAddEdge u v tr c) m ↔ HasNode g m ∨ m = u ∨ m = v := by
  have key : ∀ (g : TGraph K γ) (x : TNode K),
      HasNode (if (Dict.get? g.nodes x).isSome then g else g.addNode x none) m ↔
        HasNode g m ∨ m = x := by
    intro g x
    split
    · rename_i h
      rw [Dict.get?_isSome_iff] at h
      constructor
      · exact Or.inl
      · rintro (h' | rfl)
        · exact h'
        · exact h
    · exact hasNode_addNode _ _ _ _
  unfold nxAddEdge
  show HasNode (if _ then _ else _) m ↔ _
  rw [key, key, or_assoc]

theorem edges_nxAddEdge (g : TGraph K γ) (u v : TNode K) (tr : Traj K) (c : Option γ) :
    ∃ c', (g.nxAddEdge u v tr c).edges = Dict.set g.edges (u, v) ⟨tr, c'⟩ ∧
      (∀ x, c = some x → c' = some x) := by
  have h1 : ∀ (g : TGraph K γ) (x : TNode K),
      (if (Dict.get? g.nodes x).isSome then g else g.addNode x none).edges = g.edges := by
    intro g x; split <;> rfl
  refine ⟨c.orElse fun _ => (match Dict.get? g.edges (u, v) with
    | some e => e.commands
    | none => none), ?_, ?_⟩
  · unfold nxAddEdge
    simp only [h1]
    congr 2
  · intro x hx; rw [hx]; rfl

/-- Start and end samples of a valid non-empty sequence as the code reads them. -/
theorem ends_of_valid (s : Traj K) (h : s.Valid) (a b : K × VehicleState K)
    (ha : s.samples.head? = some a) (hb : s.samples.getLast? = some b) :
    s.getStart = .ok a.1 ∧ s.getEnd = .ok b.1 ∧ s.at' a.1 = .ok a.2 ∧ s.at' b.1 = .ok b.2 := by
  have hfst : s.samples.map Prod.fst = s.ts := zip_filter_fst _ _ h.1
  refine ⟨?_, ?_, (Seq.at'_ok_iff s h a.1 a.2).mpr (List.mem_of_head? ha),
    (Seq.at'_ok_iff s h b.1 b.2).mpr (List.mem_of_getLast? hb)⟩
  · unfold Seq.getStart
    obtain ⟨r, hr⟩ : ∃ r, s.samples = a :: r := by
      cases hs : s.samples with
      | nil => rw [hs] at ha; simp at ha
      | cons x r => rw [hs] at ha; simp at ha; exact ⟨r, by rw [ha]⟩
    rw [← hfst, hr]; rfl
  · unfold Seq.getEnd
    rw [← hfst, List.getLast?_map, hb]; rfl

theorem exists_ends (s : Traj K) (h : s.Valid) (hn : s.ts ≠ []) :
    ∃ a b, s.samples.head? = some a ∧ s.samples.getLast? = some b := by
  have : s.samples ≠ [] := by
    intro h0
    have := Seq.samples_length s h
    rw [h0] at this
    exact hn (List.length_eq_zero_iff.mp this.symm)
  obtain ⟨a, r, hr⟩ := List.exists_cons_of_ne_nil this
  refine ⟨a, s.samples.getLast this, by rw [hr]; rfl, List.getLast?_eq_some_getLast this⟩

theorem ends_lt (s : Traj K) (h : s.Valid) (hn : 2 ≤ s.ts.length) (a b : K × VehicleState K)
    (ha : s.samples.head? = some a) (hb : s.samples.getLast? = some b) : a.1 < b.1 := by
  have hfst : s.samples.map Prod.fst = s.ts := zip_filter_fst _ _ h.1
  have hlen := Seq.samples_length s h
  have hp := h.2
  rw [← hfst] at hp
  cases hs : s.samples with
  | nil => rw [hs] at hlen; simp at hlen; omega
  | cons x r =>
    rw [hs] at ha hb hp hlen
    simp at ha; subst ha
    have hr : r ≠ [] := by rintro rfl; simp at hlen; omega
    rw [List.getLast?_cons_of_ne_nil hr] at hb
    simp only [List.map_cons, List.pairwise_cons] at hp
    exact hp.1 _ (List.mem_map_of_mem (List.mem_of_getLast? hb))

/-! ## Insertion of edges -/

/-- C16: an edge is inserted exactly when its source (start time and state of the trajectory) is
a node with a generation; the graph then has the edge, its data, and both end nodes, all other
edges and nodes being as before. -/
theorem C16_add_edge_ok (g : TGraph K γ) (s tr : Traj K) (c : Option γ) (h : s.Valid)
    (a b : K × VehicleState K) (ha : s.samples.head? = some a) (hb : s.samples.getLast? = some b)
    (gen : Int) (hg : Dict.get? g.nodes a = some (some gen)) :
    (g.addEdge s tr c).2 = .ok () ∧
    (∃ e, Dict.get? (g.addEdge s tr c).1.edges (a, b) = some e ∧ e.transition = tr ∧
      ∀ x, c = some x → e.commands = some x) ∧
    (∀ u v, (u, v) ≠ (a, b) →
      Dict.get? (g.addEdge s tr c).1.edges (u, v) = Dict.get? g.edges (u, v)) ∧
    (∀ m, HasNode (g.addEdge s tr c).1 m ↔ HasNode g m ∨ m = b) := by
  obtain ⟨h1, h2, h3, h4⟩ := ends_of_valid s h a b ha hb
  have e : g.addEdge s tr c =
      ((g.addNode b (some (gen + 1))).nxAddEdge a b tr c, .ok ()) := by
    unfold addEdge
    simp only [h1, h2, h3, h4, hg]
  rw [e]
  obtain ⟨c', hc, hcc⟩ := edges_nxAddEdge (g.addNode b (some (gen + 1))) a b tr c
  refine ⟨rfl, ⟨⟨tr, c'⟩, ?_, rfl, hcc⟩, ?_, ?_⟩
  · show Dict.get? (nxAddEdge _ _ _ _ _).edges _ = _
    rw [hc]; exact Dict.get?_set_self _ _ _
  · intro u v hne
    show Dict.get? (nxAddEdge _ _ _ _ _).edges _ = _
    rw [hc, Dict.get?_set_ne _ hne.symm]; rfl
  · intro m
    show HasNode (nxAddEdge _ _ _ _ _) m ↔ _
    rw [hasNode_nxAddEdge, hasNode_addNode]
    have : HasNode g a := (Dict.mem_keys_iff _ _).mpr ⟨_, hg⟩
    constructor
    · rintro ((h | h) | rfl | h)
      · exact Or.inl h
      · exact Or.inr h
      · exact Or.inl this
      · exact Or.inr h
    · rintro (h | h)
      · exact Or.inl (Or.inl h)
      · exact Or.inr (Or.inr h)

/-- **C16** Inserting an edge from a missing source raises `ValueError` and changes nothing. -/
theorem C16_missing_source (g : TGraph K γ) (s tr : Traj K) (c : Option γ) (h : s.Valid)
    (a : K × VehicleState K) (ha : s.samples.head? = some a) (hm : ¬ HasNode g a) :
    g.addEdge s tr c = (g, .error .value) := by
  have hne : s.samples ≠ [] := by intro h0; rw [h0] at ha; simp at ha
  obtain ⟨h1, h2, h3, h4⟩ := ends_of_valid s h a _ ha (List.getLast?_eq_some_getLast hne)
  have : Dict.get? g.nodes (a.1, a.2) = none := (Dict.get?_eq_none_iff _ _).mpr hm
  unfold addEdge
  simp only [h1, h2, h3, h4, this]

/-- C16: every failing insertion leaves the graph unchanged. -/
theorem C16_add_edge_error (g : TGraph K γ) (s tr : Traj K) (c : Option γ) (e : Err)
    (h : (g.addEdge s tr c).2 = .error e) : (g.addEdge s tr c).1 = g := by
  unfold addEdge at h ⊢
  split
  · rfl
  · rfl
  · split
    · rfl
    · rfl
    · split
      · rfl
      · rfl
      · rename_i h1 h2 _ _ _ _ h3 h4 _ _ h5
        simp only [h1, h2, h3, h4, h5] at h
        cases h

/-! ## Reachable graphs -/

theorem step_invariant (g : TGraph K γ) (op : Op K γ) (hop : GoodOp op)
    (hg : ∀ u v, HasEdge g u v → u.1 < v.1 ∧ HasNode g u ∧ HasNode g v) :
    ∀ u v, HasEdge (g.step op) u v →
      u.1 < v.1 ∧ HasNode (g.step op) u ∧ HasNode (g.step op) v := by
  cases op with
  | node n gen =>
    intro u v he
    obtain ⟨h1, h2, h3⟩ := hg u v he
    exact ⟨h1, (hasNode_addNode _ _ _ _).mpr (Or.inl h2), (hasNode_addNode _ _ _ _).mpr (Or.inl h3)⟩
  | edge s tr c =>
    obtain ⟨hv, hn⟩ := hop
    intro u v he
    simp only [step] at he ⊢
    cases hr : (g.addEdge s tr c).2 with
    | error e =>
      rw [C16_add_edge_error g s tr c e hr] at he ⊢
      exact hg u v he
    | ok _ =>
      obtain ⟨a, b, ha, hb⟩ := exists_ends s hv (by intro h0; rw [h0] at hn; simp at hn)
      obtain ⟨gen, hgen⟩ : ∃ gen, Dict.get? g.nodes a = some (some gen) := by
        obtain ⟨h1, h2, h3, h4⟩ := ends_of_valid s hv a b ha hb
        unfold addEdge at hr
        simp only [h1, h2, h3, h4] at hr
        cases hx : Dict.get? g.nodes (a.1, a.2) with
        | none => rw [hx] at hr; cases hr
        | some o =>
          rw [hx] at hr
          cases o with
          | none => cases hr
          | some gen => exact ⟨gen, rfl⟩
      obtain ⟨_, _, hother, hnode⟩ := C16_add_edge_ok g s tr c hv a b ha hb gen hgen
      by_cases huv : (u, v) = (a, b)
      · injection huv with h1 h2; subst h1 h2
        exact ⟨ends_lt s hv hn _ _ ha hb,
          (hnode _).mpr (Or.inl ((Dict.mem_keys_iff _ _).mpr ⟨_, hgen⟩)), (hnode _).mpr (Or.inr rfl)⟩
      · obtain ⟨e, he⟩ := he
        rw [hother u v huv] at he
        obtain ⟨h1, h2, h3⟩ := hg u v ⟨e, he⟩
        exact ⟨h1, (hnode _).mpr (Or.inl h2), (hnode _).mpr (Or.inl h3)⟩

/-- **C16** After every history of insertions of nodes and of edges from trajectories with at
least two samples, every edge goes strictly forward in time, between nodes of the graph. -/
theorem C16_forward (ops : List (Op K γ)) (h : ∀ op ∈ ops, GoodOp op) (u v : TNode K)
    (he : HasEdge (run ops) u v) : u.1 < v.1 ∧ HasNode (run ops) u ∧ HasNode (run ops) v := by
  have aux : ∀ (ops : List (Op K γ)) (g : TGraph K γ), (∀ op ∈ ops, GoodOp op) →
      (∀ u v, HasEdge g u v → u.1 < v.1 ∧ HasNode g u ∧ HasNode g v) →
      ∀ u v, HasEdge (ops.foldl step g) u v →
        u.1 < v.1 ∧ HasNode (ops.foldl step g) u ∧ HasNode (ops.foldl step g) v := by
    intro ops
    induction ops with
    | nil => intro g _ hg; exact hg
    | cons op rest ih =>
      intro g hops hg
      exact ih (g.step op) (fun o ho => hops o (by simp [ho]))
        (step_invariant g op (hops op (by simp)) hg)
  refine aux ops {} h ?_ u v he
  rintro u v ⟨e, he⟩
  simp [Dict.get?] at he

/-- **C16** Hence the graph is acyclic. -/
theorem C16_acyclic (ops : List (Op K γ)) (h : ∀ op ∈ ops, GoodOp op) (u : TNode K) :
    ¬ Relation.TransGen (HasEdge (run ops)) u u := by
  intro hc
  have : ∀ v, Relation.TransGen (HasEdge (run ops)) u v → u.1 < v.1 := by
    intro v hv
    induction hv with
    | single hab => exact (C16_forward ops h _ _ hab).1
    | tail _ hbc ih => exact ih.trans (C16_forward ops h _ _ hbc).1
  exact lt_irrefl _ (this u hc)

/-! ## Generations -/

/-- C16: what `add_node` does to the generations: the node has the given one; without a given one
it keeps the one it had; all other nodes keep theirs. -/
theorem C16_add_node (g : TGraph K γ) (n : TNode K) (gen : Option Int) :
    (∀ x, gen = some x → Dict.get? (g.addNode n gen).nodes n = some (some x)) ∧
    (gen = none → ∀ o, Dict.get? g.nodes n = some o →
      Dict.get? (g.addNode n gen).nodes n = some o) ∧
    (gen = none → ¬ HasNode g n → Dict.get? (g.addNode n gen).nodes n = some none) ∧
    (∀ m, m ≠ n → Dict.get? (g.addNode n gen).nodes m = Dict.get? g.nodes m) ∧
    (g.addNode n gen).edges = g.edges := by
  unfold addNode
  refine ⟨?_, ?_, ?_, ?_, rfl⟩
  · rintro x rfl
    exact Dict.get?_set_self _ _ _
  · rintro rfl o ho
    show Dict.get? (Dict.set _ _ _) _ = _
    rw [Dict.get?_set_self, ho]; rfl
  · rintro rfl ho
    show Dict.get? (Dict.set _ _ _) _ = _
    rw [Dict.get?_set_self, (Dict.get?_eq_none_iff _ _).mpr ho]; rfl
  · intro m hm
    exact Dict.get?_set_ne _ hm.symm _

/-- C16: an inserted edge gives its target the generation of its source plus one - also when the
target was a node already - and leaves the generation of every other node. -/
theorem C16_generation (g : TGraph K γ) (s tr : Traj K) (c : Option γ) (h : s.Valid)
    (a b : K × VehicleState K) (ha : s.samples.head? = some a) (hb : s.samples.getLast? = some b)
    (gen : Int) (hg : Dict.get? g.nodes a = some (some gen)) :
    Dict.get? (g.addEdge s tr c).1.nodes b = some (some (gen + 1)) ∧
    ∀ m, m ≠ b → Dict.get? (g.addEdge s tr c).1.nodes m = Dict.get? g.nodes m := by
  obtain ⟨h1, h2, h3, h4⟩ := ends_of_valid s h a b ha hb
  have e : g.addEdge s tr c =
      ((g.addNode b (some (gen + 1))).nxAddEdge a b tr c, .ok ()) := by
    unfold addEdge
    simp only [h1, h2, h3, h4, hg]
  have hbn : Dict.get? (g.addNode b (some (gen + 1))).nodes b = some (some (gen + 1)) :=
    (C16_add_node g b (some (gen + 1))).1 _ rfl
  have han : (Dict.get? (g.addNode b (some (gen + 1))).nodes a).isSome := by
    by_cases hab : a = b
    · rw [hab, hbn]; rfl
    · rw [(C16_add_node g b (some (gen + 1))).2.2.2.1 a hab, hg]; rfl
  have en : ((g.addNode b (some (gen + 1))).nxAddEdge a b tr c).nodes =
      (g.addNode b (some (gen + 1))).nodes := by
    unfold nxAddEdge
    simp only [han, if_true, hbn, Option.isSome_some]
  rw [e, en]
  exact ⟨hbn, (C16_add_node g b (some (gen + 1))).2.2.2.1⟩

/-- **C16** A node that has a generation keeps having one, whatever is inserted later: edges can
always be added from it. -/
theorem C16_keeps_generation (g : TGraph K γ) (ops : List (Op K γ)) (h : ∀ op ∈ ops, GoodOp op)
    (n : TNode K) (x : Int) (hx : Dict.get? g.nodes n = some (some x)) :
    ∃ y, Dict.get? (ops.foldl step g).nodes n = some (some y) := by
  induction ops generalizing g x with
  | nil => exact ⟨x, hx⟩
  | cons op rest ih =>
    suffices ∃ y, Dict.get? (g.step op).nodes n = some (some y) by
      obtain ⟨y, hy⟩ := this
      exact ih _ (fun o ho => h o (by simp [ho])) y hy
    cases op with
    | node m gen =>
      by_cases hm : n = m
      · subst hm
        cases gen with
        | none => exact ⟨x, (C16_add_node g n none).2.1 rfl _ hx⟩
        | some z => exact ⟨z, (C16_add_node g n (some z)).1 _ rfl⟩
      · exact ⟨x, by rw [← hx]; exact (C16_add_node g m gen).2.2.2.1 n hm⟩
    | edge s tr c =>
      obtain ⟨hv, hn⟩ := h (.edge s tr c) (by simp)
      simp only [step]
      cases hr : (g.addEdge s tr c).2 with
      | error e => rw [C16_add_edge_error g s tr c e hr]; exact ⟨x, hx⟩
      | ok _ =>
        obtain ⟨a, b, ha, hb⟩ := exists_ends s hv (by intro h0; rw [h0] at hn; simp at hn)
        obtain ⟨gen, hgen⟩ : ∃ gen, Dict.get? g.nodes a = some (some gen) := by
          obtain ⟨h1, h2, h3, h4⟩ := ends_of_valid s hv a b ha hb
          unfold addEdge at hr
          simp only [h1, h2, h3, h4] at hr
          cases hx : Dict.get? g.nodes (a.1, a.2) with
          | none => rw [hx] at hr; cases hr
          | some o =>
            rw [hx] at hr
            cases o with
            | none => cases hr
            | some gen => exact ⟨gen, rfl⟩
        obtain ⟨q1, q2⟩ := C16_generation g s tr c hv a b ha hb gen hgen
        by_cases hnb : n = b
        · exact ⟨gen + 1, by rw [hnb]; exact q1⟩
        · exact ⟨x, by rw [q2 n hnb, hx]⟩

/-! ## Reading paths back -/

theorem path_increasing (g : TGraph K γ) (hg : ∀ u v, HasEdge g u v → u.1 < v.1)
    (l : List (TNode K)) (hl : l.IsChain (HasEdge g)) : (l.map Prod.fst).Pairwise (· < ·) := by
  rw [← List.isChain_iff_pairwise, List.isChain_map]
  exact hl.imp (fun a b h => hg a b h)

theorem findPath_cases (sp : PathFinder K γ) (hsp : FindsPaths sp) (g : TGraph K γ)
    (s t : TNode K) :
    (∃ l, findPath sp g s t = .ok l ∧ HasNode g s ∧ HasNode g t ∧ IsPath g s t l) ∨
    (findPath sp g s t = .error .value ∧
      ¬ (HasNode g s ∧ HasNode g t ∧ ∃ l, IsPath g s t l)) := by
  have hn : ∀ n, (HasNode g n ∧ g.checkNode n = .ok ()) ∨
      (¬ HasNode g n ∧ g.checkNode n = .error .value) := by
    intro n
    unfold checkNode HasNode
    cases hx : Dict.get? g.nodes n with
    | none => right; exact ⟨(Dict.get?_eq_none_iff _ _).mp hx, rfl⟩
    | some o => left; exact ⟨(Dict.mem_keys_iff _ _).mpr ⟨o, hx⟩, rfl⟩
  unfold findPath
  rcases hn s with ⟨h1, e1⟩ | ⟨h1, e1⟩
  · rcases hn t with ⟨h2, e2⟩ | ⟨h2, e2⟩
    · rw [e1, e2]
      cases hp : sp g s t with
      | none =>
        right
        exact ⟨rfl, fun ⟨_, _, l, hl⟩ => (hsp g s t).2 hp l hl⟩
      | some l => left; exact ⟨l, rfl, h1, h2, (hsp g s t).1 l hp⟩
    · right; rw [e1, e2]; exact ⟨rfl, fun h => h2 h.2.1⟩
  · right; rw [e1]; exact ⟨rfl, fun h => h1 h.1⟩

/-- **C16** `get_trajectory` succeeds exactly when both nodes exist and are connected; the result
is a valid trajectory whose samples are the nodes of a path from the source to the target. -/
theorem C16_get_trajectory (ops : List (Op K γ)) (h : ∀ op ∈ ops, GoodOp op)
    (sp : PathFinder K γ) (hsp : FindsPaths sp) (s t : TNode K) :
    (∃ tr, getTrajectory sp (run ops) s t = .ok tr ∧ tr.Valid ∧
      IsPath (run ops) s t tr.samples ∧ HasNode (run ops) s ∧ HasNode (run ops) t) ∨
    (getTrajectory sp (run ops) s t = .error .value ∧
      ¬ (HasNode (run ops) s ∧ HasNode (run ops) t ∧ ∃ l, IsPath (run ops) s t l)) := by
  unfold getTrajectory
  rcases findPath_cases sp hsp (run ops) s t with ⟨l, e, h1, h2, hl⟩ | ⟨e, hno⟩
  · left
    rw [e]
    have hp := path_increasing (run ops) (fun u v he => (C16_forward ops h u v he).1) l hl.1
    refine ⟨⟨l.map Prod.fst, l.map Prod.snd⟩, Seq.mk?_of_valid _ _ (by simp) hp,
      ⟨by simp, hp⟩, ?_, h1, h2⟩
    have : Seq.samples (⟨l.map Prod.fst, l.map Prod.snd⟩ : Traj K) = l :=
      (List.zip_of_prod rfl rfl).symm
    rw [this]; exact hl
  · right; rw [e]; exact ⟨rfl, hno⟩

theorem commandsLoop_ok (g : TGraph K γ) (l : List (TNode K))
    (hl : l.IsChain (fun u v => ∃ e c, Dict.get? g.edges (u, v) = some e ∧ e.commands = some c)) :
    ∃ cs, commandsLoop g l = .ok cs ∧ cs.map Prod.fst = l.dropLast.map Prod.fst ∧
      ∀ (i : Nat) u v, l[i]? = some u → l[i + 1]? = some v →
        ∃ e c, Dict.get? g.edges (u, v) = some e ∧ e.commands = some c ∧ cs[i]? = some (u.1, c) := by
  induction l with
  | nil => exact ⟨[], rfl, rfl, by simp⟩
  | cons u rest ih =>
    cases rest with
    | nil => exact ⟨[], rfl, rfl, by simp⟩
    | cons v rest =>
      rw [List.isChain_cons_cons] at hl
      obtain ⟨⟨⟨tr, c0⟩, c, he, hc⟩, hl⟩ := hl
      simp only at hc; subst hc
      obtain ⟨cs, h1, h2, h3⟩ := ih hl
      refine ⟨(u.1, c) :: cs, ?_, ?_, ?_⟩
      · simp only [commandsLoop, he, h1]
      · simp only [List.map_cons, List.dropLast_cons_cons, h2]
      · intro i x y hx hy
        cases i with
        | zero =>
          simp at hx hy; subst hx hy
          exact ⟨_, c, he, rfl, rfl⟩
        | succ i =>
          simp only [List.getElem?_cons_succ] at hx hy ⊢
          exact h3 i x y hx hy

/-- C16: when every edge carries commands, `commands_on_trajectory` of a trajectory between two
connected nodes is a valid sequence with, for each edge of a path, the command of that edge at
the time of its first node. -/
theorem C16_commands (ops : List (Op K γ)) (h : ∀ op ∈ ops, GoodOp op)
    (sp : PathFinder K γ) (hsp : FindsPaths sp) (tr : Traj K) (htr : tr.Valid) (s t : TNode K)
    (hs : tr.samples.head? = some s) (ht : tr.samples.getLast? = some t)
    (hns : HasNode (run ops) s) (hnt : HasNode (run ops) t)
    (hconn : ∃ l, IsPath (run ops) s t l)
    (hc : ∀ u v e, Dict.get? (run ops).edges (u, v) = some e → e.commands ≠ none) :
    ∃ l q, IsPath (run ops) s t l ∧ commandsOnTrajectory sp (run ops) tr = .ok q ∧ q.Valid ∧
      q.ts = l.dropLast.map Prod.fst ∧
      ∀ (i : Nat) u v, l[i]? = some u → l[i + 1]? = some v →
        ∃ e c, Dict.get? (run ops).edges (u, v) = some e ∧ e.commands = some c ∧
          q.samples[i]? = some (u.1, c) := by
  rcases findPath_cases sp hsp (run ops) s t with ⟨l, e, h1, h2, hl⟩ | ⟨e, hno⟩
  · have hchain : l.IsChain (fun u v => ∃ e c, Dict.get? (run ops).edges (u, v) = some e ∧
        e.commands = some c) := by
      refine hl.1.imp ?_
      rintro u v ⟨e, he⟩
      cases hcm : e.commands with
      | none => exact absurd hcm (hc u v e he)
      | some c => exact ⟨e, c, he, hcm⟩
    obtain ⟨cs, e1, e2, e3⟩ := commandsLoop_ok (run ops) l hchain
    have hp := path_increasing (run ops) (fun u v he => (C16_forward ops h u v he).1) l hl.1
    have hpc : (cs.map Prod.fst).Pairwise (· < ·) := by
      rw [e2, List.map_dropLast]; exact hp.sublist (List.dropLast_sublist _)
    refine ⟨l, ⟨cs.map Prod.fst, cs.map Prod.snd⟩, hl, ?_, ⟨by simp, hpc⟩, e2, ?_⟩
    · have hfst : tr.samples.map Prod.fst = tr.ts := zip_filter_fst _ _ htr.1
      have hsnd : tr.samples.map Prod.snd = tr.vs := List.map_snd_zip (by simp [htr.1])
      unfold commandsOnTrajectory
      have a1 : tr.ts.head? = some s.1 := by rw [← hfst, List.head?_map, hs]; rfl
      have a2 : tr.vs.head? = some s.2 := by rw [← hsnd, List.head?_map, hs]; rfl
      have a3 : tr.ts.getLast? = some t.1 := by rw [← hfst, List.getLast?_map, ht]; rfl
      have a4 : tr.vs.getLast? = some t.2 := by rw [← hsnd, List.getLast?_map, ht]; rfl
      simp only [a1, a2, a3, a4, e, e1]
      exact Seq.mk?_of_valid _ _ (by simp) hpc
    · have : Seq.samples (⟨cs.map Prod.fst, cs.map Prod.snd⟩ : Seq K γ) = cs :=
        (List.zip_of_prod rfl rfl).symm
      rw [this]; exact e3
  · exact absurd ⟨hns, hnt, hconn⟩ hno

/-- The transition of an edge spans exactly the times of the edge. -/
def Spans (tr : Traj K) (u v : TNode K) : Prop :=
  tr.Valid ∧ (∃ a, tr.samples.head? = some a ∧ a.1 = u.1) ∧
    ∃ b, tr.samples.getLast? = some b ∧ b.1 = v.1

theorem merge_step (acc tr : Traj K) (hacc : acc.Valid) (htr : tr.Valid) (tol : K) (htol : 0 ≤ tol)
    (a b c : K × VehicleState K) (h0 : ∀ x, acc.samples.getLast? = some x → x.1 = a.1)
    (ha : tr.samples.head? = some a) (hb : tr.samples.getLast? = some b) (hab : a.1 < b.1)
    (hc : acc.samples ≠ [] → acc.samples.head? = some c) :
    ∃ r, mergeUnsafe acc tr tol = .ok r ∧ r.Valid ∧ r.samples.getLast? = some b ∧
      r.samples.head? = some (if acc.samples = [] then a else c) := by
  have hrest : ∃ rest, tr.samples = a :: rest := by
    cases hs : tr.samples with
    | nil => rw [hs] at ha; simp at ha
    | cons x r => rw [hs] at ha; simp at ha; exact ⟨r, by rw [ha]⟩
  obtain ⟨rest, hrest⟩ := hrest
  have hrne : rest ≠ [] := by
    rintro rfl
    rw [hrest] at hb; simp at hb; subst hb; exact lt_irrefl _ hab
  have hfst2 : tr.samples.map Prod.fst = tr.ts := zip_filter_fst _ _ htr.1
  have hp2 := htr.2
  rw [← hfst2] at hp2
  have hfst1 : acc.samples.map Prod.fst = acc.ts := zip_filter_fst _ _ hacc.1
  have hp1 := hacc.2
  rw [← hfst1] at hp1
  have hti : TimesIncrease (mergedSamples acc tr) := by
    unfold TimesIncrease mergedSamples
    split
    · exact hp2
    · rename_i hne
      rw [hrest] at hp2 ⊢
      simp only [List.tail_cons, List.map_append]
      simp only [List.map_cons, List.pairwise_cons] at hp2
      rw [List.pairwise_append]
      refine ⟨hp1, hp2.2, ?_⟩
      intro x hx y hy
      have hne' : acc.samples ≠ [] := hne
      have hlast := h0 _ (List.getLast?_eq_some_getLast hne')
      have hxle : x ≤ a.1 := by
        obtain ⟨p, hp, rfl⟩ := List.mem_map.mp hx
        rw [← hlast]
        rw [List.pairwise_map] at hp1
        rw [← List.dropLast_append_getLast hne'] at hp hp1
        rcases List.mem_append.mp hp with hp | hp
        · exact ((List.pairwise_append.mp hp1).2.2 p hp _ (by simp)).le
        · simp at hp; rw [hp]
      exact lt_of_le_of_lt hxle (hp2.1 y hy)
  have hseam : SeamTimesAgree acc tr tol := by
    intro x hx
    refine ⟨a, ha, ?_⟩
    rw [h0 x hx]; simpa using htol
  have hlen : ((mergedSamples acc tr).map Prod.fst).length =
      ((mergedSamples acc tr).map Prod.snd).length := by simp
  refine ⟨⟨(mergedSamples acc tr).map Prod.fst, (mergedSamples acc tr).map Prod.snd⟩, ?_, ?_⟩
  · rw [C14_merge_unsafe_ok_iff _ _ _ hacc htr]
    exact ⟨hseam, ⟨hlen, hti⟩, hti, (List.zip_of_prod rfl rfl).symm⟩
  · have hs : Seq.samples (⟨(mergedSamples acc tr).map Prod.fst,
      (mergedSamples acc tr).map Prod.snd⟩ : Traj K) = mergedSamples acc tr :=
      (List.zip_of_prod rfl rfl).symm
    rw [hs]
    refine ⟨⟨hlen, hti⟩, ?_, ?_⟩
    · unfold mergedSamples
      split
      · exact hb
      · rw [hrest] at hb ⊢
        rw [List.getLast?_cons_of_ne_nil hrne] at hb
        rw [List.tail_cons, List.getLast?_append, hb]; rfl
    · unfold mergedSamples
      split
      · rename_i h; rw [if_pos h]; exact ha
      · rename_i hne
        rw [if_neg hne, List.head?_append, hc hne]; rfl

theorem transitionLoop_ok (g : TGraph K γ) (hg : ∀ u v, HasEdge g u v → u.1 < v.1) (tol : K)
    (htol : 0 ≤ tol)
    (hspan : ∀ u v e, Dict.get? g.edges (u, v) = some e → Spans e.transition u v)
    (l : List (TNode K)) : ∀ (acc : Traj K) (s t : TNode K), IsPath g s t l → acc.Valid →
      (∀ x, acc.samples.getLast? = some x → x.1 = s.1) →
      ∃ r, transitionLoop g tol acc l = .ok r ∧ r.Valid ∧
        (∀ x, acc.samples.head? = some x → r.samples.head? = some x) ∧
        (acc.samples ≠ [] ∨ s ≠ t → ∃ b, r.samples.getLast? = some b ∧ b.1 = t.1) ∧
        (acc.samples = [] → s ≠ t → ∃ a, r.samples.head? = some a ∧ a.1 = s.1) := by
  induction l with
  | nil => rintro acc s t ⟨_, h, _⟩; simp at h
  | cons u rest ih =>
    rintro acc s t ⟨hch, hh, hl⟩ hacc hlast
    simp at hh; subst hh
    cases rest with
    | nil =>
      simp at hl; subst hl
      refine ⟨acc, rfl, hacc, fun x hx => hx, ?_, ?_⟩
      · rintro (h | h)
        · exact ⟨_, List.getLast?_eq_some_getLast h, hlast _ (List.getLast?_eq_some_getLast h)⟩
        · exact absurd rfl h
      · intro _ h; exact absurd rfl h
    | cons v rest =>
      rw [List.isChain_cons_cons] at hch
      obtain ⟨⟨e, he⟩, hch⟩ := hch
      obtain ⟨hev, ⟨a, ha, ha1⟩, b, hb, hb1⟩ := hspan u v e he
      have huv := hg u v ⟨e, he⟩
      obtain ⟨c, hc⟩ : ∃ c, acc.samples ≠ [] → acc.samples.head? = some c := by
        cases h : acc.samples with
        | nil => exact ⟨a, by simp⟩
        | cons x r => exact ⟨x, fun _ => rfl⟩
      obtain ⟨r, hr1, hr2, hr3, hr4⟩ := merge_step acc e.transition hacc hev tol htol a b c
        (fun x hx => by rw [hlast x hx, ha1]) ha hb (by rw [ha1, hb1]; exact huv) hc
      have hrne : r.samples ≠ [] := by intro h; rw [h] at hr3; simp at hr3
      obtain ⟨q, hq1, hq2, hq3, hq4, _⟩ := ih r v t ⟨hch, rfl, by simpa using hl⟩ hr2
        (fun x hx => by rw [hr3] at hx; injection hx with hx; rw [← hx, hb1])
      refine ⟨q, ?_, hq2, ?_, fun _ => hq4 (Or.inl hrne), ?_⟩
      · simp only [transitionLoop, he, hr1, hq1]
      · intro x hx
        apply hq3
        have hne : acc.samples ≠ [] := by intro h; rw [h] at hx; simp at hx
        rw [hr4, if_neg hne, ← hc hne, hx]
      · intro hnil _
        refine ⟨a, hq3 a (by rw [hr4, if_pos hnil]), ha1⟩

/-- C16: when every transition spans the times of its edge, `get_transition` between two distinct
connected nodes is a valid trajectory from the time of the source to that of the target. -/
theorem C16_get_transition (ops : List (Op K γ)) (h : ∀ op ∈ ops, GoodOp op)
    (sp : PathFinder K γ) (hsp : FindsPaths sp) (s t : TNode K) (tol : K) (htol : 0 ≤ tol)
    (hspan : ∀ u v e, Dict.get? (run ops).edges (u, v) = some e → Spans e.transition u v)
    (hns : HasNode (run ops) s) (hnt : HasNode (run ops) t) (hst : s ≠ t)
    (hconn : ∃ l, IsPath (run ops) s t l) :
    ∃ r, getTransition sp (run ops) s t tol = .ok r ∧ r.Valid ∧
      (∃ a, r.samples.head? = some a ∧ a.1 = s.1) ∧
      ∃ b, r.samples.getLast? = some b ∧ b.1 = t.1 := by
  rcases findPath_cases sp hsp (run ops) s t with ⟨l, e, h1, h2, hl⟩ | ⟨e, hno⟩
  · obtain ⟨r, hr1, hr2, _, hr4, hr5⟩ := transitionLoop_ok (run ops)
      (fun u v he => (C16_forward ops h u v he).1) tol htol hspan l ⟨[], []⟩ s t hl
      ⟨rfl, by simp⟩ (by simp [Seq.samples])
    refine ⟨r, ?_, hr2, hr5 rfl hst, hr4 (Or.inr hst)⟩
    unfold getTransition
    rw [e]; exact hr1
  · exact absurd ⟨hns, hnt, hconn⟩ hno

/-! ## A concrete graph meets the hypotheses -/

section Example
/-- Two states one second apart. -/
def exTraj : Traj ℚ := ⟨[0, 1], [⟨0, 0, 0, 1, 0⟩, ⟨1, 0, 0, 1, 0⟩]⟩
/-- The following second. -/
def exTraj2 : Traj ℚ := ⟨[1, 2], [⟨1, 0, 0, 1, 0⟩, ⟨2, 0, 0, 1, 0⟩]⟩
/-- Root node and two edges. -/
def exOps : List (Op ℚ Unit) :=
  [.node (0, ⟨0, 0, 0, 1, 0⟩) (some 0), .edge exTraj exTraj (some ()),
   .edge exTraj2 exTraj2 (some ())]

example : ∀ op ∈ exOps, GoodOp op := by
  intro op hop
  simp only [exOps, List.mem_cons, List.not_mem_nil, or_false] at hop
  rcases hop with rfl | rfl | rfl
  · trivial
  · refine ⟨⟨rfl, ?_⟩, by decide⟩
    show [(0 : ℚ), 1].Pairwise (· < ·)
    simp
  · refine ⟨⟨rfl, ?_⟩, by decide⟩
    show [(1 : ℚ), 2].Pairwise (· < ·)
    simp

example : (Dict.keys (run exOps).edges).length = 2 ∧ (Dict.keys (run exOps).nodes).length = 3 := by
  decide +kernel
example : (addEdge (run exOps) ⟨[5, 6], [⟨0, 0, 0, 1, 0⟩, ⟨1, 0, 0, 1, 0⟩]⟩ exTraj none).2 =
    .error .value := by decide +kernel
example : (Dict.get? (run exOps).nodes (2, ⟨2, 0, 0, 1, 0⟩)) = some (some 2) ∧
    Dict.get? (step (run exOps) (.node (2, ⟨2, 0, 0, 1, 0⟩) none)).nodes (2, ⟨2, 0, 0, 1, 0⟩) =
      some (some 2) := by decide +kernel
end Example

end TGraph
end Verif
