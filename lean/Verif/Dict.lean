import Mathlib.Tactic.TypeStar
import Mathlib.Data.List.Nodup
import Mathlib.Data.List.Basic

/-!
# Python dictionaries

Insertion-ordered dictionaries as association lists with distinct keys. `set` overwrites in
place when the key is present and appends otherwise, as CPython does (also `frozendict`,
networkx attribute dictionaries). Modelling convention; no single place in /repo.
-/

set_option linter.unusedSectionVars false

namespace Verif

/-- A Python dictionary: items in insertion order. -/
abbrev Dict (κ α : Type*) := List (κ × α)

namespace Dict
variable {κ α β : Type*} [DecidableEq κ]

/-- `list(d)`. -/
def keys (d : Dict κ α) : List κ := d.map Prod.fst

/-- `d.get(k)`. -/
def get? : Dict κ α → κ → Option α
  | [], _ => none
  | (k', v) :: r, k => if k' = k then some v else get? r k

/-- `d[k] = v`. -/
def set : Dict κ α → κ → α → Dict κ α
  | [], k, v => [(k, v)]
  | (k', v') :: r, k, v => if k' = k then (k', v) :: r else (k', v') :: set r k v

/-- `del d[k]` for a present key (no effect for an absent one). -/
def erase : Dict κ α → κ → Dict κ α
  | [], _ => []
  | (k', v') :: r, k => if k' = k then r else (k', v') :: erase r k

/-- Distinct keys. -/
def Wf (d : Dict κ α) : Prop := (keys d).Nodup

theorem get?_eq_some_mem {d : Dict κ α} {k : κ} {v : α} (h : get? d k = some v) : (k, v) ∈ d := by
  induction d with
  | nil => simp [get?] at h
  | cons p r ih =>
    obtain ⟨k', v'⟩ := p
    simp only [get?] at h
    split at h
    · rename_i hk; subst hk; injection h with h; subst h; simp
    · exact List.mem_cons_of_mem _ (ih h)

theorem get?_of_mem {d : Dict κ α} (hd : Wf d) {k : κ} {v : α} (h : (k, v) ∈ d) :
    get? d k = some v := by
  induction d with
  | nil => simp at h
  | cons p r ih =>
    obtain ⟨k', v'⟩ := p
    simp only [Wf, keys, List.map_cons, List.nodup_cons] at hd
    simp only [get?]
    rcases List.mem_cons.mp h with h | h
    · injection h with h1 h2; subst h1 h2; simp
    · rw [if_neg, ih hd.2 h]
      rintro rfl
      exact hd.1 (List.mem_map_of_mem (f := Prod.fst) h)

theorem get?_isSome_iff (d : Dict κ α) (k : κ) : (get? d k).isSome ↔ k ∈ keys d := by
  induction d with
  | nil => simp [get?, keys]
  | cons p r ih =>
    obtain ⟨k', v'⟩ := p
    simp only [get?, keys, List.map_cons, List.mem_cons]
    split
    · rename_i h; simp [h]
    · rename_i h
      rw [ih]
      constructor
      · exact Or.inr
      · rintro (h' | h')
        · exact absurd h'.symm h
        · exact h'

theorem get?_eq_none_iff (d : Dict κ α) (k : κ) : get? d k = none ↔ k ∉ keys d := by
  rw [← get?_isSome_iff]; cases get? d k <;> simp

theorem mem_keys_iff (d : Dict κ α) (k : κ) : k ∈ keys d ↔ ∃ v, get? d k = some v := by
  rw [← get?_isSome_iff]; cases get? d k <;> simp

theorem get?_set (d : Dict κ α) (k k' : κ) (v : α) :
    get? (set d k v) k' = if k = k' then some v else get? d k' := by
  induction d with
  | nil => simp [set, get?]
  | cons p r ih =>
    obtain ⟨k₀, v₀⟩ := p
    simp only [set]
    by_cases h : k₀ = k
    · subst h
      rw [if_pos rfl]
      simp only [get?]
      split <;> rfl
    · rw [if_neg h]
      simp only [get?, ih]
      by_cases h2 : k₀ = k'
      · subst h2
        simp [Ne.symm h]
      · simp [h2]

@[simp] theorem get?_set_self (d : Dict κ α) (k : κ) (v : α) : get? (set d k v) k = some v := by
  simp [get?_set]

theorem get?_set_ne (d : Dict κ α) {k k' : κ} (h : k ≠ k') (v : α) :
    get? (set d k v) k' = get? d k' := by
  simp [get?_set, h]

theorem keys_set (d : Dict κ α) (k : κ) (v : α) :
    keys (set d k v) = if k ∈ keys d then keys d else keys d ++ [k] := by
  induction d with
  | nil => simp [set, keys]
  | cons p r ih =>
    obtain ⟨k₀, v₀⟩ := p
    simp only [set]
    by_cases h : k₀ = k
    · subst h; simp [keys]
    · rw [if_neg h]
      have h' : ¬ k = k₀ := fun e => h e.symm
      simp only [keys, List.map_cons, List.mem_cons, h', false_or] at ih ⊢
      by_cases hk : k ∈ List.map Prod.fst r
      · simp only [hk, if_true] at ih ⊢; rw [ih]
      · simp only [hk, if_false] at ih ⊢; rw [ih]; rfl

theorem mem_keys_set (d : Dict κ α) (k k' : κ) (v : α) :
    k' ∈ keys (set d k v) ↔ k' ∈ keys d ∨ k' = k := by
  rw [keys_set]
  split
  · rename_i h
    constructor
    · exact Or.inl
    · rintro (h' | rfl)
      · exact h'
      · exact h
  · simp

theorem wf_set {d : Dict κ α} (hd : Wf d) (k : κ) (v : α) : Wf (set d k v) := by
  unfold Wf at *
  rw [keys_set]
  split
  · exact hd
  · rename_i h
    rw [List.nodup_append]
    refine ⟨hd, by simp, ?_⟩
    intro a ha b hb
    simp at hb
    subst hb
    rintro rfl
    exact h ha

theorem mem_set {d : Dict κ α} {k : κ} {v : α} {p : κ × α} (h : p ∈ set d k v) :
    p = (k, v) ∨ (p ∈ d) := by
  induction d with
  | nil => simp [set] at h; exact Or.inl h
  | cons q r ih =>
    obtain ⟨k₀, v₀⟩ := q
    simp only [set] at h
    split at h
    · rename_i hk
      rcases List.mem_cons.mp h with h | h
      · left; rw [h, hk]
      · right; exact List.mem_cons_of_mem _ h
    · rcases List.mem_cons.mp h with h | h
      · right; simp [h]
      · rcases ih h with h | h
        · exact Or.inl h
        · exact Or.inr (List.mem_cons_of_mem _ h)

theorem wf_nil : Wf ([] : Dict κ α) := by simp [Wf, keys]

theorem keys_erase_sublist (d : Dict κ α) (k : κ) : (erase d k).Sublist d := by
  induction d with
  | nil => simp [erase]
  | cons p r ih =>
    obtain ⟨k₀, v₀⟩ := p
    simp only [erase]
    split
    · exact List.sublist_cons_self _ _
    · exact ih.cons_cons _

theorem wf_erase {d : Dict κ α} (hd : Wf d) (k : κ) : Wf (erase d k) :=
  List.Nodup.sublist ((keys_erase_sublist d k).map Prod.fst) hd

theorem get?_erase {d : Dict κ α} (hd : Wf d) (k k' : κ) :
    get? (erase d k) k' = if k = k' then none else get? d k' := by
  induction d with
  | nil => simp [erase, get?]
  | cons p r ih =>
    obtain ⟨k₀, v₀⟩ := p
    have hd' := hd
    simp only [Wf, keys, List.map_cons, List.nodup_cons] at hd
    simp only [erase]
    by_cases h : k₀ = k
    · subst h
      rw [if_pos rfl]
      simp only [get?]
      split
      · rename_i e; subst e
        rw [get?_eq_none_iff]; exact hd.1
      · rfl
    · rw [if_neg h]
      simp only [get?, ih hd.2]
      by_cases h2 : k₀ = k'
      · subst h2; simp [Ne.symm h]
      · simp [h2]

/-- Two dictionaries with the same keys in the same order and the same lookups are equal. -/
theorem ext_get? {d e : Dict κ α} (hd : Wf d) (hk : keys d = keys e)
    (h : ∀ k, get? d k = get? e k) : d = e := by
  induction d generalizing e with
  | nil => cases e with
    | nil => rfl
    | cons p r => simp [keys] at hk
  | cons p r ih =>
    cases e with
    | nil => simp [keys] at hk
    | cons q r' =>
      obtain ⟨k, v⟩ := p
      obtain ⟨k', v'⟩ := q
      simp only [keys, List.map_cons, List.cons.injEq] at hk
      obtain ⟨rfl, hk⟩ := hk
      have h0 := h k
      simp only [get?, if_true, Option.some.injEq] at h0
      subst h0
      simp only [Wf, keys, List.map_cons, List.nodup_cons] at hd
      congr 1
      apply ih hd.2 hk
      intro x
      have hx := h x
      simp only [get?] at hx
      by_cases e : k = x
      · subst e
        have a1 := (get?_eq_none_iff r k).mpr hd.1
        have a2 := (get?_eq_none_iff r' k).mpr (by unfold keys; rw [← hk]; exact hd.1)
        rw [a1, a2]
      · simpa [e] using hx

end Dict
end Verif
