import Verif.Dict
import Mathlib.Algebra.BigOperators.Group.List.Basic
import Mathlib.Data.List.Nodup

/-!
# Property C17: `iterate_dict_combinations` (src/dg_commons/utils_toolz.py:14-24)
-/

namespace Verif

variable {κ α : Type*} [DecidableEq κ]

/-- `itertools.product(*vs)`: the last position varies fastest (utils_toolz.py:21). -/
def itProduct : List (List α) → List (List α)
  | [] => [[]]
  | c :: cs => c.flatMap (fun v => (itProduct cs).map (fun r => v :: r))

/-- `frozendict(zip(ks, x))`, utils_toolz.py:23: later pairs overwrite earlier ones. -/
def dictOfZip (ks : List κ) (x : List α) : Dict κ α :=
  (ks.zip x).foldl (fun d p => Dict.set d p.1 p.2) []

/-- `a[k]` for the keys of the mapping itself (utils_toolz.py:20). -/
def lookupAll (a : Dict κ (List α)) : List κ → List (List α)
  | [] => []
  | k :: ks => (Dict.get? a k).getD [] :: lookupAll a ks

/-- `iterate_dict_combinations`, utils_toolz.py:14-24, as the list of yielded mappings. -/
def iterateDictCombinations (a : Dict κ (List α)) : List (Dict κ α) :=
  let ks := Dict.keys a
  let vs := lookupAll a ks
  (itProduct vs).map (fun x => dictOfZip ks x)

/-! ## Specification -/

/-- `d` chooses one allowed value for every key of `a` and has no other key. -/
def IsChoice (a : Dict κ (List α)) (d : Dict κ α) : Prop :=
  Dict.keys d = Dict.keys a ∧
    ∀ k options, Dict.get? a k = some options → ∃ v ∈ options, Dict.get? d k = some v

/-! ## Proofs -/

theorem mem_itProduct (vs : List (List α)) (x : List α) :
    x ∈ itProduct vs ↔ List.Forall₂ (fun v c => v ∈ c) x vs := by
  induction vs generalizing x with
  | nil => simp [itProduct]
  | cons c cs ih =>
    simp only [itProduct, List.mem_flatMap, List.mem_map]
    constructor
    · rintro ⟨v, hv, r, hr, rfl⟩
      exact List.Forall₂.cons hv ((ih r).mp hr)
    · intro h
      cases h with
      | cons hv hr => exact ⟨_, hv, _, (ih _).mpr hr, rfl⟩

theorem length_itProduct (vs : List (List α)) :
    (itProduct vs).length = (vs.map List.length).prod := by
  induction vs with
  | nil => rfl
  | cons c cs ih =>
    simp only [itProduct, List.length_flatMap, List.length_map, List.map_cons, List.prod_cons]
    rw [← ih]
    simp

theorem nodup_itProduct (vs : List (List α)) (h : ∀ c ∈ vs, c.Nodup) : (itProduct vs).Nodup := by
  induction vs with
  | nil => simp [itProduct]
  | cons c cs ih =>
    have hc : c.Nodup := h c (by simp)
    have hr := ih (fun c' hc' => h c' (by simp [hc']))
    simp only [itProduct]
    rw [List.nodup_flatMap]
    refine ⟨fun v _ => hr.map (fun a b hab => by injection hab), ?_⟩
    refine hc.imp ?_
    intro v w hvw
    simp only [Function.onFun]
    intro x hx hy
    obtain ⟨r, _, rfl⟩ := List.mem_map.mp hx
    obtain ⟨r', _, e⟩ := List.mem_map.mp hy
    injection e with e1 e2
    exact hvw e1.symm

theorem dictOfZip_eq (ks : List κ) (x : List α) (hk : ks.Nodup) (hl : ks.length = x.length) :
    dictOfZip ks x = ks.zip x := by
  have aux : ∀ (l : List (κ × α)) (d : Dict κ α), (Dict.keys d ++ l.map Prod.fst).Nodup →
      l.foldl (fun d p => Dict.set d p.1 p.2) d = d ++ l := by
    intro l
    induction l with
    | nil => simp
    | cons p r ih =>
      intro d hd
      have hset : ∀ (d : Dict κ α) (k : κ) (v : α), k ∉ Dict.keys d →
          Dict.set d k v = d ++ [(k, v)] := by
        intro d k v hk
        induction d with
        | nil => rfl
        | cons q d ihd =>
          obtain ⟨k', v'⟩ := q
          simp only [Dict.keys, List.map_cons, List.mem_cons, not_or] at hk
          simp only [Dict.set, if_neg (Ne.symm hk.1), List.cons_append]
          rw [ihd hk.2]
      have hp : p.1 ∉ Dict.keys d := by
        intro hp
        rw [List.nodup_append] at hd
        exact hd.2.2 _ hp _ (by simp) rfl
      simp only [List.foldl_cons]
      rw [hset d p.1 p.2 hp, ih]
      · simp
      · simpa [Dict.keys] using hd
  unfold dictOfZip
  rw [aux]
  · rfl
  · simp only [Dict.keys, List.map_nil, List.nil_append]
    rw [List.map_fst_zip (by omega)]
    exact hk

theorem lookupAll_eq (a : Dict κ (List α)) (ks : List κ) :
    lookupAll a ks = ks.map (fun k => (Dict.get? a k).getD []) := by
  induction ks with
  | nil => rfl
  | cons k ks ih => simp [lookupAll, ih]

theorem lookupAll_keys (a : Dict κ (List α)) (h : Dict.Wf a) :
    lookupAll a (Dict.keys a) = a.map Prod.snd := by
  rw [lookupAll_eq, Dict.keys, List.map_map]
  apply List.map_congr_left
  intro p hp
  simp only [Function.comp]
  rw [Dict.get?_of_mem h (v := p.2) hp]; rfl

/-- **C17** The yielded mappings are exactly the choices of one allowed value per key. -/
theorem C17_mem_iff (a : Dict κ (List α)) (ha : Dict.Wf a) (d : Dict κ α) :
    d ∈ iterateDictCombinations a ↔ IsChoice a d := by
  unfold iterateDictCombinations
  simp only [List.mem_map, mem_itProduct, lookupAll_keys a ha]
  constructor
  · rintro ⟨x, hx, rfl⟩
    have hlen : (Dict.keys a).length = x.length := by
      rw [hx.length_eq]; simp [Dict.keys]
    rw [dictOfZip_eq _ _ ha hlen]
    have hkeys : Dict.keys ((Dict.keys a).zip x) = Dict.keys a := by
      unfold Dict.keys; rw [List.map_fst_zip (by simp [Dict.keys] at hlen ⊢; omega)]
    refine ⟨hkeys, ?_⟩
    intro k options hk
    have hmem := Dict.get?_eq_some_mem hk
    obtain ⟨i, hi, hget⟩ := List.mem_iff_getElem.mp hmem
    have hix : i < x.length := by rw [← hlen]; simpa [Dict.keys] using hi
    refine ⟨x[i], ?_, ?_⟩
    · have := List.Forall₂.get hx hix (by simpa using hi)
      simpa [hget] using this
    · apply Dict.get?_of_mem (by unfold Dict.Wf; rw [hkeys]; exact ha)
      rw [List.mem_iff_getElem]
      refine ⟨i, by simp [Dict.keys]; omega, ?_⟩
      simp [Dict.keys, hget]
  · rintro ⟨hkeys, hch⟩
    refine ⟨d.map Prod.snd, ?_, ?_⟩
    · rw [List.forall₂_iff_get]
      have hl : d.length = a.length := by simpa [Dict.keys] using congrArg List.length hkeys
      refine ⟨by simp [hl], ?_⟩
      intro i h1 h2
      simp only [List.length_map] at h1 h2
      simp only [List.get_eq_getElem, List.getElem_map]
      obtain ⟨v, hv, hget⟩ := hch a[i].1 a[i].2 (Dict.get?_of_mem ha (List.getElem_mem _))
      have hki : d[i].1 = a[i].1 := by
        have : (Dict.keys d)[i]'(by simpa [Dict.keys] using h1) =
            (Dict.keys a)[i]'(by simpa [Dict.keys] using h2) := by simp only [hkeys]
        simpa [Dict.keys] using this
      have hwd : Dict.Wf d := by unfold Dict.Wf; rw [hkeys]; exact ha
      have hdi := Dict.get?_of_mem hwd (k := d[i].1) (v := d[i].2) (List.getElem_mem _)
      rw [hki, hget] at hdi
      injection hdi with hdi
      rw [← hdi]; exact hv
    · rw [← hkeys, dictOfZip_eq _ _ (by rw [hkeys]; exact ha) (by simp [Dict.keys])]
      exact (List.zip_of_prod rfl rfl).symm

/-- **C17** Each choice is yielded once when no collection repeats a value. -/
theorem C17_nodup (a : Dict κ (List α)) (ha : Dict.Wf a) (h : ∀ p ∈ a, p.2.Nodup) :
    (iterateDictCombinations a).Nodup := by
  unfold iterateDictCombinations
  simp only [lookupAll_keys a ha]
  apply List.Nodup.map_on
  · intro x hx y hy e
    have hxl := ((mem_itProduct _ _).mp hx).length_eq
    have hyl := ((mem_itProduct _ _).mp hy).length_eq
    rw [dictOfZip_eq _ _ ha (by rw [hxl]; simp [Dict.keys]),
      dictOfZip_eq _ _ ha (by rw [hyl]; simp [Dict.keys])] at e
    have e2 := congrArg (List.map Prod.snd) e
    rwa [List.map_snd_zip (by rw [hxl]; simp [Dict.keys]),
      List.map_snd_zip (by rw [hyl]; simp [Dict.keys])] at e2
  · apply nodup_itProduct
    intro c hc
    obtain ⟨p, hp, rfl⟩ := List.mem_map.mp hc
    exact h p hp

/-- **C17** The number of results is the product of the numbers of choices (also with repeated
values). -/
theorem C17_count (a : Dict κ (List α)) (ha : Dict.Wf a) :
    (iterateDictCombinations a).length = (a.map (fun p => p.2.length)).prod := by
  unfold iterateDictCombinations
  simp only [lookupAll_keys a ha, List.length_map, length_itProduct, List.map_map]
  rfl

example : iterateDictCombinations [("a", [1, 2]), ("b", [3, 4])] =
    [[("a", 1), ("b", 3)], [("a", 1), ("b", 4)], [("a", 2), ("b", 3)], [("a", 2), ("b", 4)]] := by
  decide +kernel
example : Dict.Wf [("a", [1, 2]), ("b", [3, 4])] ∧
    IsChoice [("a", [1, 2]), ("b", [3, 4])] [("a", 1), ("b", 4)] := by
  have h : Dict.Wf [("a", [1, 2]), ("b", [3, 4])] := by
    simp [Dict.Wf, Dict.keys]
  exact ⟨h, (C17_mem_iff _ h _).mp (by decide +kernel)⟩

end Verif
