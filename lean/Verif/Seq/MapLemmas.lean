import Verif.Seq.InterpLemmas

/-! # Helper lemmas: slices, mapped values, shifted timestamps -/

set_option linter.unusedSectionVars false

namespace Verif

theorem pyGet_map {α β : Type*} (g : α → β) (xs : List α) (i : Int) :
    pyGet (xs.map g) i = (pyGet xs i).map g := by
  unfold pyGet
  simp only [List.length_map, List.getElem?_map]
  generalize (if i < 0 then i + (xs.length : Int) else i) = j
  by_cases hj : j < 0
  · simp only [hj, if_true]; rfl
  · simp only [hj, if_false]
    cases xs[j.toNat]? <;> rfl

section
variable {K L : Type*} [LinearOrder K] [LinearOrder L]

theorem bisectRightFrom_map (f : K → L) (hf : StrictMono f) (a : List K) (x : K) :
    ∀ (n lo hi : Nat), hi - lo ≤ n →
      bisectRightFrom (a.map f) (f x) lo hi = bisectRightFrom a x lo hi := by
  intro n
  induction n with
  | zero =>
    intro lo hi h
    rw [bisectRightFrom, bisectRightFrom]
    simp [show ¬ lo < hi from by omega]
  | succ n ih =>
    intro lo hi h
    rw [bisectRightFrom]
    conv_rhs => rw [bisectRightFrom]
    by_cases hlt : lo < hi
    · simp only [hlt, dite_true, List.getElem?_map]
      cases a[(lo + hi) / 2]? with
      | none => rfl
      | some y =>
        simp only [Option.map_some, hf.lt_iff_lt]
        rw [ih lo ((lo + hi) / 2) (by omega), ih ((lo + hi) / 2 + 1) hi (by omega)]
    · simp [hlt]

theorem bisectRight_map (f : K → L) (hf : StrictMono f) (a : List K) (x : K) :
    bisectRight (a.map f) (f x) = bisectRight a x := by
  unfold bisectRight
  rw [List.length_map, bisectRightFrom_map f hf a x _ _ _ (le_refl _)]

theorem findIdx?_map_inj (f : K → L) (hf : Function.Injective f) (a : List K) (x : K) :
    (a.map f).findIdx? (fun u => u == f x) = a.findIdx? (fun u => u == x) := by
  rw [List.findIdx?_map]
  congr 1
  funext u
  simp only [Function.comp, beq_eq_decide, hf.eq_iff]

/-- A slice between two positions that separate a predicate is the filtered list. -/
theorem pySlice_eq_filter {γ : Type*} (l : List γ) (p : γ → Bool) (i j : Nat) (hij : i ≤ j)
    (h1 : ∀ (k : Nat) (hk : k < l.length), k < i → p l[k] = false)
    (h2 : ∀ (k : Nat) (hk : k < l.length), i ≤ k → k < j → p l[k] = true)
    (h3 : ∀ (k : Nat) (hk : k < l.length), j ≤ k → p l[k] = false) :
    pySlice l i j = l.filter p := by
  have hsplit : l = l.take i ++ (pySlice l i j ++ l.drop j) := by
    unfold pySlice
    rw [← List.append_assoc]
    conv_lhs => rw [← List.take_append_drop j l]
    congr 1
    have : List.take i l = List.take i (List.take j l) := by
      rw [List.take_take, Nat.min_eq_left hij]
    rw [this, List.take_append_drop]
  have e1 : (l.take i).filter p = [] := by
    rw [List.filter_eq_nil_iff]
    intro x hx
    obtain ⟨k, hk, rfl⟩ := List.getElem_of_mem hx
    rw [List.length_take] at hk
    rw [List.getElem_take, h1 k (by omega) (by omega)]
    simp
  have e2 : (pySlice l i j).filter p = pySlice l i j := by
    rw [List.filter_eq_self]
    intro x hx
    unfold pySlice at hx
    obtain ⟨k, hk, rfl⟩ := List.getElem_of_mem hx
    rw [List.length_drop, List.length_take] at hk
    rw [List.getElem_drop, List.getElem_take]
    exact h2 _ (by omega) (by omega) (by omega)
  have e3 : (l.drop j).filter p = [] := by
    rw [List.filter_eq_nil_iff]
    intro x hx
    obtain ⟨k, hk, rfl⟩ := List.getElem_of_mem hx
    rw [List.length_drop] at hk
    rw [List.getElem_drop, h3 _ (by omega) (by omega)]
    simp
  conv_rhs => rw [hsplit, List.filter_append, List.filter_append, e1, e2, e3]
  simp

theorem pySlice_zip {γ δ : Type*} (l : List γ) (m : List δ) (i j : Nat) :
    pySlice (l.zip m) i j = (pySlice l i j).zip (pySlice m i j) := by
  unfold pySlice
  simp only [List.zip, List.take_zipWith, List.drop_zipWith]

theorem zip_filter_fst {γ δ : Type*} (l : List γ) (m : List δ) (h : l.length = m.length) :
    (l.zip m).map Prod.fst = l := by
  rw [List.map_fst_zip]; omega

theorem pairwise_of_filterMap {γ δ : Type*} (r : γ → γ → Prop) (f : δ → Option γ) (k : δ → γ)
    (hf : ∀ d c, f d = some c → c = k d) (l : List δ) (h : (l.map k).Pairwise r) :
    (l.filterMap f).Pairwise r := by
  rw [List.pairwise_filterMap]
  rw [List.pairwise_map] at h
  refine h.imp ?_
  intro a b hab c hc d hd
  rw [hf a c hc, hf b d hd]
  exact hab

end
end Verif
