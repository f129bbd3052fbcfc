import Verif.Misc.Cache
import Mathlib.Data.List.Dedup

/-!
# C117: cached lane quantities are those of the lane
-/

set_option linter.unusedSectionVars false

namespace Verif
namespace Cache

variable {κ ν : Type} [DecidableEq κ]

/-- All entries are values of the function, no key occurs twice. -/
structure Good (f : κ → Except Err ν) (c : Lru κ ν) : Prop where
  right : ∀ e ∈ c, f e.1 = .ok e.2
  nodup : (Lru.names c).Nodup

theorem get_none {c : Lru κ ν} {k : κ} : Lru.get c k = none ↔ k ∉ Lru.names c := by
  unfold Lru.get Lru.names
  cases h : c.find? (fun e => decide (e.1 = k)) with
  | none =>
    simp only [List.find?_eq_none, decide_eq_true_eq] at h
    simp only [true_iff, List.mem_map, not_exists, not_and]
    exact fun e he => h e he
  | some e =>
    have h1 := List.find?_some h
    have h2 := List.mem_of_find?_eq_some h
    simp only [decide_eq_true_eq] at h1
    simp only [reduceCtorEq, false_iff, not_not]
    exact List.mem_map.mpr ⟨e, h2, h1⟩

theorem get_some {c : Lru κ ν} {k : κ} {v : ν} {c' : Lru κ ν} (h : Lru.get c k = some (v, c')) :
    (k, v) ∈ c ∧ c' = c.filter (fun e => decide (e.1 ≠ k)) ++ [(k, v)] := by
  unfold Lru.get at h
  cases hf : c.find? (fun e => decide (e.1 = k)) with
  | none => rw [hf] at h; cases h
  | some e =>
    rw [hf] at h
    have h1 := List.find?_some hf
    have h2 := List.mem_of_find?_eq_some hf
    simp only [decide_eq_true_eq] at h1
    injection h with h
    injection h with h3 h4
    have : e = (k, v) := by rw [← h1, ← h3]
    rw [this] at h2 h4
    exact ⟨h2, h4.symm⟩

theorem names_filter (c : Lru κ ν) (k : κ) :
    Lru.names (c.filter (fun e => decide (e.1 ≠ k))) = (Lru.names c).filter (fun x => decide (x ≠ k)) := by
  unfold Lru.names
  rw [List.filter_map]
  rfl

theorem call_good (size : Nat) {f : κ → Except Err ν} {c : Lru κ ν} (h : Good f c) (k : κ) :
    Good f (call size f c k).1 ∧ (call size f c k).2 = f k := by
  unfold call
  cases hg : Lru.get c k with
  | some r =>
    obtain ⟨v, c'⟩ := r
    obtain ⟨h1, h2⟩ := get_some hg
    refine ⟨⟨?_, ?_⟩, (h.right _ h1).symm⟩
    · intro e he
      simp only [h2, List.mem_append, List.mem_singleton] at he
      rcases he with he | rfl
      · exact h.right e (List.mem_of_mem_filter he)
      · exact h.right _ h1
    · change (Lru.names c').Nodup
      rw [h2]
      have : Lru.names (c.filter (fun e => decide (e.1 ≠ k)) ++ [(k, v)]) =
          (Lru.names c).filter (fun x => decide (x ≠ k)) ++ [k] := by
        rw [← names_filter]; simp [Lru.names]
      rw [this, List.nodup_append]
      refine ⟨h.nodup.filter _, by simp, ?_⟩
      intro a ha b hb
      simp only [List.mem_singleton] at hb
      subst hb
      simpa using (List.mem_filter.mp ha).2
  | none =>
    have hk := get_none.mp hg
    cases hf : f k with
    | error e => exact ⟨h, rfl⟩
    | ok v =>
      refine ⟨⟨?_, ?_⟩, rfl⟩
      · intro e he
        simp only [Lru.put, List.mem_append, List.mem_singleton] at he
        rcases he with he | rfl
        · exact h.right e (List.mem_of_mem_drop he)
        · exact hf
      · have : Lru.names (Lru.put size c k v) = (Lru.names c).drop (c.length + 1 - size) ++ [k] := by
          simp [Lru.names, Lru.put, List.map_drop]
        change (Lru.names (Lru.put size c k v)).Nodup
        rw [this, List.nodup_append]
        refine ⟨h.nodup.sublist (List.drop_sublist _ _), by simp, ?_⟩
        intro a ha b hb
        simp only [List.mem_singleton] at hb
        subst hb
        rintro rfl
        exact hk (List.mem_of_mem_drop ha)

theorem calls_good (size : Nat) {f : κ → Except Err ν} : ∀ (ks : List κ) {c : Lru κ ν}, Good f c →
    Good f (calls size f c ks).1 ∧ (calls size f c ks).2 = ks.map f
  | [], c, h => ⟨h, rfl⟩
  | k :: ks, c, h => by
    obtain ⟨h1, h2⟩ := call_good size h k
    obtain ⟨h3, h4⟩ := calls_good size ks h1
    refine ⟨h3, ?_⟩
    change (call size f c k).2 :: _ = _
    rw [h2, h4, List.map_cons]

theorem good_nil (f : κ → Except Err ν) : Good f [] := ⟨by simp, by simp [Lru.names]⟩

/-- **C117.** As long as nothing changes, a cached function returns what the function itself returns, in all
histories of calls. -/
theorem C117_calls (size : Nat) (f : κ → Except Err ν) (ks : List κ) : (calls size f [] ks).2 = ks.map f :=
  (calls_good size ks (good_nil f)).2

theorem calls_append (size : Nat) (f : κ → Except Err ν) : ∀ (ks ls : List κ) (c : Lru κ ν),
    (calls size f c (ks ++ ls)).1 = (calls size f (calls size f c ks).1 ls).1
  | [], _, _ => rfl
  | k :: ks, ls, c => calls_append size f ks ls (call size f c k).1

theorem dedup_snoc (k : κ) : ∀ l : List κ,
    (l ++ [k]).dedup = l.dedup.filter (fun x => decide (x ≠ k)) ++ [k]
  | [] => by simp
  | a :: l => by
    have ih := dedup_snoc k l
    rw [List.cons_append]
    by_cases ha : a ∈ l
    · rw [List.dedup_cons_of_mem (by simp [ha]), List.dedup_cons_of_mem ha, ih]
    · rw [List.dedup_cons_of_notMem ha]
      by_cases hk : a = k
      · subst hk
        rw [List.dedup_cons_of_mem (by simp), ih, List.filter_cons_of_neg (by simp)]
      · rw [List.dedup_cons_of_notMem (by simp [ha, hk]), ih, List.filter_cons_of_pos (by simpa using hk)]
        rfl

/-- The last `n` elements. -/
def lastN (n : Nat) (l : List κ) : List κ := l.drop (l.length - n)

theorem filter_length_of_mem {l : List κ} (h : l.Nodup) {k : κ} (hk : k ∈ l) :
    (l.filter (fun x => decide (x ≠ k))).length + 1 = l.length := by
  have := List.Nodup.erase_eq_filter h k
  have h2 := List.length_erase_of_mem hk
  have h3 : (l.filter (fun x => decide (x ≠ k))) = l.erase k := by
    rw [this]; apply List.filter_congr; intro x _; by_cases e : x = k <;> simp [e]
  rw [h3, h2]
  have := List.length_pos_of_mem hk
  omega

theorem filter_of_not_mem {l : List κ} {k : κ} (hk : k ∉ l) : l.filter (fun x => decide (x ≠ k)) = l := by
  rw [List.filter_eq_self]
  intro x hx
  simp only [ne_eq, decide_not, Bool.not_eq_eq_eq_not, Bool.not_true, decide_eq_false_iff_not]
  rintro rfl
  exact hk hx

/-- Using an element moves it to the end of the last ones. -/
theorem lastN_use_hit {n : Nat} {l : List κ} (h : l.Nodup) {k : κ} (hk : k ∈ lastN n l) :
    lastN n (l.filter (fun x => decide (x ≠ k)) ++ [k]) = (lastN n l).filter (fun x => decide (x ≠ k)) ++ [k] := by
  have hkl : k ∈ l := List.mem_of_mem_drop hk
  have hlen := filter_length_of_mem h hkl
  unfold lastN at hk ⊢
  rw [List.length_append, List.length_singleton, hlen]
  set m := l.length - n with hm
  have hsplit : l = l.take m ++ l.drop m := (List.take_append_drop m l).symm
  have hnot : k ∉ l.take m := by
    intro h1
    rw [hsplit] at h
    exact (List.nodup_append.mp h).2.2 k h1 k hk rfl
  have h1 : l.filter (fun x => decide (x ≠ k)) = l.take m ++ (l.drop m).filter (fun x => decide (x ≠ k)) := by
    conv_lhs => rw [hsplit]
    rw [List.filter_append, filter_of_not_mem hnot]
  rw [h1, List.append_assoc]
  have h2 : (l.take m).length = m := by
    rw [List.length_take]
    exact min_eq_left (by omega)
  rw [List.drop_append_of_le_length (by omega), List.drop_eq_nil_of_le (by omega), List.nil_append]

/-- Using another element drops the first of the last ones if there is no room. -/
theorem lastN_use_miss {n : Nat} (hn : 0 < n) {l : List κ} (h : l.Nodup) {k : κ} (hk : k ∉ lastN n l) :
    lastN n (l.filter (fun x => decide (x ≠ k)) ++ [k]) = (lastN n l).drop ((lastN n l).length + 1 - n) ++ [k] := by
  unfold lastN at hk ⊢
  rw [List.length_append, List.length_singleton, List.drop_drop, List.length_drop]
  by_cases hkl : k ∈ l
  · have hlen := filter_length_of_mem h hkl
    rw [hlen]
    set m := l.length - n with hm
    have hsplit : l = l.take m ++ l.drop m := (List.take_append_drop m l).symm
    have hkt : k ∈ l.take m := by
      rw [hsplit] at hkl
      exact (List.mem_append.mp hkl).resolve_right hk
    have hmpos : 0 < m := by
      rcases Nat.eq_zero_or_pos m with h0 | h0
      · rw [h0] at hkt; simp at hkt
      · exact h0
    have hnt : (l.take m).Nodup := h.sublist (List.take_sublist _ _)
    have hlt := filter_length_of_mem hnt hkt
    have h2 : (l.take m).length = m := by rw [List.length_take]; exact min_eq_left (by omega)
    have h1 : l.filter (fun x => decide (x ≠ k)) = (l.take m).filter (fun x => decide (x ≠ k)) ++ l.drop m := by
      conv_lhs => rw [hsplit]
      rw [List.filter_append, filter_of_not_mem hk]
    rw [h1, List.append_assoc, List.drop_append, List.drop_eq_nil_of_le (by omega), List.nil_append]
    have e1 : m - ((l.take m).filter (fun x => decide (x ≠ k))).length = 1 := by omega
    have e2 : m + (l.length - m + 1 - n) = m + 1 := by omega
    rw [e1, e2, List.drop_append_of_le_length (by rw [List.length_drop]; omega), List.drop_drop]
  · rw [filter_of_not_mem hkl]
    have e : l.length - n + (l.length - (l.length - n) + 1 - n) = l.length + 1 - n := by omega
    rw [e, List.drop_append_of_le_length (by omega)]

/-- Whether the function returns. -/
def returns (f : κ → Except Err ν) (k : κ) : Bool := match f k with | .ok _ => true | .error _ => false

/-- **C117.** The cache holds exactly the last `size` different arguments with which the function returned, in the
order of their last use; in particular never more than `size`. -/
theorem C117_lru (size : Nat) (hs : 0 < size) (f : κ → Except Err ν) (ks : List κ) :
    Lru.names (calls size f [] ks).1 = lastN size (ks.filter (returns f)).dedup ∧
      (calls size f [] ks).1.length ≤ size := by
  have key : Lru.names (calls size f [] ks).1 = lastN size (ks.filter (returns f)).dedup := by
    induction ks using List.reverseRecOn with
    | nil => simp [calls, Lru.names, lastN]
    | append_singleton ks k ih =>
      have hgood := (calls_good size ks (good_nil f)).1
      have hnd := List.nodup_dedup (ks.filter (returns f))
      rw [calls_append, List.filter_append]
      set c := (calls size f [] ks).1 with hc
      change Lru.names (call size f c k).1 = _
      unfold call
      cases hg : Lru.get c k with
      | some r =>
        obtain ⟨v, c'⟩ := r
        obtain ⟨h1, h2⟩ := get_some hg
        have hr : returns f k = true := by unfold returns; rw [hgood.right _ h1]
        rw [List.filter_cons_of_pos hr, List.filter_nil, dedup_snoc]
        have hmem : k ∈ lastN size (ks.filter (returns f)).dedup := by
          rw [← ih]; exact List.mem_map.mpr ⟨_, h1, rfl⟩
        rw [lastN_use_hit hnd hmem, ← ih, ← names_filter]
        change Lru.names c' = _
        rw [h2]
        simp [Lru.names]
      | none =>
        have hk := get_none.mp hg
        cases hf : f k with
        | error e =>
          have hr : ¬ returns f k = true := by unfold returns; rw [hf]; simp
          rw [List.filter_cons_of_neg hr, List.filter_nil, List.append_nil]
          exact ih
        | ok v =>
          have hr : returns f k = true := by unfold returns; rw [hf]
          rw [List.filter_cons_of_pos hr, List.filter_nil, dedup_snoc]
          rw [lastN_use_miss hs hnd (by rw [← ih]; exact hk), ← ih]
          change Lru.names (Lru.put size c k v) = _
          simp [Lru.names, Lru.put, List.map_drop]
  refine ⟨key, ?_⟩
  have h1 : (calls size f [] ks).1.length = (Lru.names (calls size f [] ks).1).length := by simp [Lru.names]
  rw [h1, key]
  unfold lastN
  rw [List.length_drop]
  omega

/-- Three lanes and room for two: the first is forgotten, and computed again when needed. -/
example : calls 2 (fun k : Nat => .ok (10 * k)) [] [1, 2, 1, 3, 2] =
    ([(3, 30), (2, 20)], [.ok 10, .ok 20, .ok 10, .ok 30, .ok 20]) := by rfl

example := C117_lru 2 (by decide) (fun k : Nat => if k = 5 then .error .value else .ok (10 * k)) [1, 2, 5, 1, 3]

/-! ### Lanes that change -/

variable {O S A : Type} [DecidableEq O] [DecidableEq A]

/-- Specification: what has been written to an object last. -/
def written (h : O → S) (o : O) : List (Op O S A ν) → S
  | [] => h o
  | .change o' s :: ops => if o' = o then written (fun _ => s) o ops else written h o ops
  | _ :: ops => written h o ops

/-- Specification: an operation that spoils what is known about an object. -/
def Disturbs (o : O) : Op O S A ν → Prop
  | .call _ _ => False
  | .change o' _ => o' = o
  | .alter o' _ _ => o' = o

/-- Specification: after the method has been called on an object, neither the object nor a returned value is
changed. -/
def Undisturbed (o : O) (ops : List (Op O S A ν)) : Prop :=
  ∀ pre op post, ops = pre ++ op :: post → Disturbs o op → ∀ a, Op.call o a ∉ pre

theorem written_snoc (o : O) (op : Op O S A ν) : ∀ (ops : List (Op O S A ν)) (h : O → S),
    written h o (ops ++ [op]) = match op with | .change o' s => if o' = o then s else written h o ops | _ => written h o ops
  | [], h => by cases op <;> simp [written]
  | p :: ops, h => by
    cases p with
    | call o' a => exact written_snoc o op ops h
    | alter o' a g => exact written_snoc o op ops h
    | change o' s =>
      simp only [List.cons_append, written]
      split
      · exact written_snoc o op ops _
      · exact written_snoc o op ops h

theorem run_snoc (size : Nat) (f : S → A → Except Err ν) (m : Mem O S A ν) (ops : List (Op O S A ν))
    (op : Op O S A ν) : m.run size f (ops ++ [op]) = (m.run size f ops).step size f op := by
  simp [Mem.run, List.foldl_append]

theorem heap_run (size : Nat) (f : S → A → Except Err ν) (h : O → S) (o : O) (ops : List (Op O S A ν)) :
    ((Mem.mk h []).run size f ops).heap o = written h o ops := by
  induction ops using List.reverseRecOn with
  | nil => rfl
  | append_singleton ops op ih =>
    rw [run_snoc, written_snoc]
    cases op with
    | call o' a => exact ih
    | alter o' a g => exact ih
    | change o' s =>
      simp only [Mem.step]
      by_cases e : o' = o
      · rw [if_pos e, if_pos e.symm]
      · rw [if_neg e, if_neg (Ne.symm e)]; exact ih

theorem Undisturbed.init {o : O} {ops : List (Op O S A ν)} {op : Op O S A ν} (h : Undisturbed o (ops ++ [op])) :
    Undisturbed o ops := by
  intro pre p post e
  exact h pre p (post ++ [op]) (by rw [e]; simp)

theorem call_entries (size : Nat) (f : κ → Except Err ν) (c : Lru κ ν) (k : κ) (e : κ × ν)
    (he : e ∈ (call size f c k).1) : e ∈ c ∨ (e.1 = k ∧ f k = .ok e.2) := by
  unfold call at he
  cases hg : Lru.get c k with
  | some r =>
    obtain ⟨v, c'⟩ := r
    obtain ⟨h1, h2⟩ := get_some hg
    rw [hg] at he
    simp only [h2, List.mem_append, List.mem_singleton] at he
    rcases he with he | rfl
    · exact .inl (List.mem_of_mem_filter he)
    · exact .inl h1
  | none =>
    rw [hg] at he
    cases hf : f k with
    | error x => rw [hf] at he; exact .inl he
    | ok v =>
      rw [hf] at he
      simp only [Lru.put, List.mem_append, List.mem_singleton] at he
      rcases he with he | rfl
      · exact .inl (List.mem_of_mem_drop he)
      · exact .inr ⟨rfl, rfl⟩

/-- What the cache knows of an undisturbed object is right, and was asked for. -/
theorem cache_run (size : Nat) (f : S → A → Except Err ν) (h : O → S) (o : O) (ops : List (Op O S A ν))
    (hu : Undisturbed o ops) : ∀ a v, ((o, a), v) ∈ ((Mem.mk h []).run size f ops).cache →
      Op.call o a ∈ ops ∧ f (((Mem.mk h []).run size f ops).heap o) a = .ok v := by
  induction ops using List.reverseRecOn with
  | nil => intro a v hv; cases hv
  | append_singleton ops op ih =>
    have ih := ih hu.init
    intro a v hv
    rw [run_snoc] at hv ⊢
    set m := (Mem.mk h []).run size f ops with hm
    cases op with
    | call o' a' =>
      rcases call_entries _ _ _ _ _ hv with h1 | ⟨h1, h2⟩
      · exact ⟨List.mem_append_left _ (ih a v h1).1, (ih a v h1).2⟩
      · injection h1 with h3 h4
        subst h3 h4
        exact ⟨by simp, h2⟩
    | change o' s =>
      have h1 := ih a v hv
      by_cases e : o' = o
      · exact absurd h1.1 (hu ops _ [] rfl e a)
      · refine ⟨List.mem_append_left _ h1.1, ?_⟩
        simp only [Mem.step]
        rw [if_neg (Ne.symm e)]
        exact h1.2
    | alter o' a' g =>
      obtain ⟨e, he, heq⟩ := List.mem_map.mp hv
      by_cases hk : e.1 = (o', a')
      · rw [if_pos hk] at heq
        injection heq with h3 h4
        rw [h3] at hk
        injection hk with h5 h6
        have he' : ((o, a), e.2) ∈ m.cache := by rw [← h3]; exact he
        exact absurd (ih a e.2 he').1 (hu ops _ [] rfl h5.symm a)
      · rw [if_neg hk] at heq
        subst heq
        exact ⟨List.mem_append_left _ (ih a v he).1, (ih a v he).2⟩

/-- **C117.** In every history of calls and changes of any objects, a call of the cached method returns what the
method computes from the present content of the object, provided that the object was complete before the method was
first called on it and no returned value has been changed in place. Without this it fails: `C117_false_changed`,
`C117_false_altered`. -/
theorem C117_history_partial (size : Nat) (f : S → A → Except Err ν) (h : O → S) (ops : List (Op O S A ν)) (o : O)
    (hu : Undisturbed o ops) (a : A) :
    (((Mem.mk h []).run size f ops).ask size f o a).2 = f (written h o ops) a := by
  rw [← heap_run size f h o ops]
  unfold Mem.ask call
  cases hg : Lru.get ((Mem.mk h []).run size f ops).cache (o, a) with
  | some r =>
    obtain ⟨v, c'⟩ := r
    exact (cache_run size f h o ops hu a v (get_some hg).1).2.symm
  | none =>
    simp only
    cases f (((Mem.mk h []).run size f ops).heap o) a <;> rfl

open Maps

/-- **C117.** The two cached methods of lanes, `get_lane_lengths` and `lane_profile`, for all programs that
complete a lane before they use it. -/
theorem C117_lanes_partial (h : O → List CtrPoint) (o : O) :
    (∀ ops, Undisturbed o ops →
      (((Mem.mk h []).run 128 lengthsOf ops).ask 128 lengthsOf o ()).2 = .ok (laneLengths (written h o ops))) ∧
    (∀ ops p, Undisturbed o ops →
      (((Mem.mk h []).run 128 profileOf ops).ask 128 profileOf o p).2 =
        laneProfile (written h o ops) (p.getD 5)) :=
  ⟨fun ops hu => C117_history_partial 128 lengthsOf h ops o hu (),
    fun ops p hu => C117_history_partial 128 profileOf h ops o hu p⟩

/-- Lane 1 is changed and used, lane 0 is completed and then used. -/
example (c0 c1 c2 : CtrPoint) : Undisturbed 0
    [Op.call 1 (), .change (0 : Nat) [c0, c1, c2], .change 1 [c0], .call 0 (), .call 1 (),
      .alter 1 () (fun l : List ℝ => l ++ [0])] := by
  intro pre op post e hd a
  have : pre.length < 6 := by
    have := congrArg List.length e
    simp at this
    omega
  match pre, this with
  | [], _ => simp
  | [x], _ => simp only [List.cons_append, List.nil_append, List.cons.injEq] at e; simp [← e.1]
  | [x, y], _ =>
    simp only [List.cons_append, List.nil_append, List.cons.injEq] at e
    simp [← e.1, ← e.2.1]
  | [x, y, z], _ =>
    simp only [List.cons_append, List.nil_append, List.cons.injEq] at e
    rw [← e.2.2.2.1] at hd
    exact absurd hd (by simp [Disturbs])
  | [x, y, z, w], _ =>
    simp only [List.cons_append, List.nil_append, List.cons.injEq] at e
    rw [← e.2.2.2.2.1] at hd
    exact absurd hd (by simp [Disturbs])
  | [x, y, z, w, u], _ =>
    simp only [List.cons_append, List.nil_append, List.cons.injEq] at e
    rw [← e.2.2.2.2.2.1] at hd
    exact absurd hd (by simp [Disturbs])

/-- **C117 fails for lanes that change.** A control point is added after `get_lane_lengths` has been called; the next
call still returns one length in place of two. -/
theorem C117_false_changed (c0 c1 c2 : CtrPoint) :
    (((Mem.mk (fun _ : Nat => [c0, c1]) []).run 128 lengthsOf [.call 0 (), .change 0 [c0, c1, c2]]).ask 128
        lengthsOf 0 ()).2 = .ok (laneLengths [c0, c1]) ∧
      (laneLengths [c0, c1]).length = 1 ∧ (laneLengths [c0, c1, c2]).length = 2 := by
  refine ⟨?_, by simp [laneLengths], by simp [laneLengths]⟩
  simp [Mem.run, Mem.step, Mem.ask, call, Lru.get, Lru.put, lengthsOf]

/-- **C117 fails if a returned list is changed.** The list of lengths is the cached one: after a program has emptied
it, the next call returns the empty list. -/
theorem C117_false_altered (c0 c1 : CtrPoint) :
    (((Mem.mk (fun _ : Nat => [c0, c1]) []).run 128 lengthsOf [.call 0 (), .alter 0 () (fun _ => [])]).ask 128
        lengthsOf 0 ()).2 = .ok [] ∧ (laneLengths [c0, c1]).length = 1 := by
  refine ⟨?_, by simp [laneLengths]⟩
  simp [Mem.run, Mem.step, Mem.ask, call, Lru.get, Lru.put, lengthsOf]

/-- **C117 fails for `get_lanelets`.** With a list of points, as documented, the cache cannot make a key: each call
raises TypeError. -/
theorem C117_false_get_lanelets {H L R : Type} [DecidableEq H] (size : Nat) (f : H × H → Except Err R)
    (c : Lru (H × H) R) (network : H) (points : L) :
    (getLanelets size f c network (.list points)).2 = .error .type := rfl

end Cache
end Verif
