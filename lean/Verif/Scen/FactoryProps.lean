import Verif.Scen.Model
import Verif.Agents.AgentProps

/-!
# C69, C85: conversion of CommonRoad scenarios
-/

namespace Verif
namespace Scen

open Maps

variable {L : Type}

/-! ## Specification -/

/-- The last predicted position is less than 20 cm from the first one. -/
def Parked (o : DynObs) : Prop :=
  ∃ e, o.states.getLast? = some e ∧ (o.init.x - e.x) ^ 2 + (o.init.y - e.y) ^ 2 < (1 / 5) ^ 2

/-- The types of obstacle that become vehicles. -/
def IsVehicle (k : Kind) : Prop := k = .car ∨ k = .bicycle ∨ k = .truck ∨ k = .bus

instance (k : Kind) : Decidable (IsVehicle k) := by unfold IsVehicle; infer_instance

/-- The obstacle becomes a player. -/
def Drives (o : DynObs) : Prop := ¬ Parked o ∧ IsVehicle o.kind

/-- A moving vehicle that can be converted: a rectangle of non-zero length whose lane can be built. -/
def Convertible (env : Env L) (o : DynObs) : Prop :=
  (∃ l w, o.shape = .rectangle l w ∧ l ≠ 0) ∧ ∃ lane, inferLane env.net env.heading o = .ok lane

/-! ## Names -/

theorem digits_inj {i j : Nat} (h : Nat.toDigits 10 i = Nat.toDigits 10 j) : i = j := by
  rw [← Nat.ofDigitChars_ten_toDigits (n := i), h, Nat.ofDigitChars_ten_toDigits]

/-- **C69.** Different obstacles get different names, whoever is the ego. -/
theorem C69_names (ego : Option (List Char)) (i j : Nat) (h : nameOf ego i = nameOf ego j) : i = j := by
  unfold nameOf at h
  split at h <;> rename_i h1 <;> split at h <;> rename_i h2
  · have : some (playerName i) = some (playerName j) := h1.trans h2.symm
    injection this with this
    exact digits_inj (List.cons.inj this).2
  · exact absurd h (by simp [egoName, playerName])
  · exact absurd h (by simp [egoName, playerName])
  · exact digits_inj (List.cons.inj h).2

/-- The obstacle asked for is the ego, and nobody else. -/
theorem C69_ego (i j : Nat) : nameOf (some (playerName i)) j = egoName ↔ j = i := by
  unfold nameOf
  constructor
  · intro h
    split at h
    · rename_i h1
      injection h1 with h1
      exact digits_inj (List.cons.inj h1).2
    · exact absurd h (by simp [egoName, playerName])
  · rintro rfl
    simp

example : nameOf (some ['P', '1', '2']) 12 = ['E', 'g', 'o'] ∧
    nameOf (some ['P', '1', '2']) 13 = ['P', '1', '3'] := by decide

/-! ## The loop -/

theorem isStatic_iff (o : DynObs) (b : Bool) :
    isStatic o = .ok b ↔ o.states ≠ [] ∧ (b = true ↔ Parked o) := by
  unfold isStatic Parked
  cases hl : o.states.getLast? with
  | none => simp [List.getLast?_eq_none_iff.mp hl]
  | some e =>
    have hne : o.states ≠ [] := by rintro h; rw [h] at hl; cases hl
    have hn : norm2 (o.init.x - e.x) (o.init.y - e.y) < 2 / 10 ↔
        (o.init.x - e.x) ^ 2 + (o.init.y - e.y) ^ 2 < (1 / 5) ^ 2 := by
      unfold norm2
      rw [Real.sqrt_lt' (by norm_num)]
      norm_num
    have : (∃ e', some e = some e' ∧ (o.init.x - e'.x) ^ 2 + (o.init.y - e'.y) ^ 2 < (1 / 5) ^ 2) ↔
        norm2 (o.init.x - e.x) (o.init.y - e.y) < 2 / 10 := by
      rw [hn]
      constructor
      · rintro ⟨e', h, h'⟩; injection h with h; subst h; exact h'
      · intro h; exact ⟨e, rfl, h⟩
    rw [this]
    simp only [hne, ne_eq, not_false_eq_true, true_and, Except.ok.injEq]
    by_cases hc : norm2 (o.init.x - e.x) (o.init.y - e.y) < 2 / 10
    · simp [hc, eq_comm]
    · cases b <;> simp [hc]

theorem carParams_valid : carParams.Valid :=
  ⟨⟨by norm_num [carParams], by norm_num [carParams]⟩, by norm_num [carParams], by norm_num [carParams]⟩

theorem bicycleParams_valid : bicycleParams.Valid :=
  ⟨⟨by norm_num [bicycleParams], by norm_num [bicycleParams]⟩, by norm_num [bicycleParams],
    by norm_num [bicycleParams]⟩

/-- What `inferModel` does with vehicles. -/
theorem inferModel_vehicle (o : DynObs) (hk : IsVehicle o.kind) (m : Model) :
    inferModel o = .ok m ↔ ∃ l w s rest, o.shape = .rectangle l w ∧ l ≠ 0 ∧ o.states = s :: rest ∧
      m = .vehicle ⟨o.init.x, o.init.y, o.init.theta, o.speed, (s.theta - o.init.theta) / (l * (7 / 10))⟩
        ⟨if o.kind = .bicycle then .bicycle else .car, w / 2 * (95 / 100), l * (7 / 10) / 2,
          l * (7 / 10) / 2⟩
        (if o.kind = .bicycle then 85 else (massInertia l w).1)
        (if o.kind = .bicycle then 90 else (massInertia l w).2)
        (if o.kind = .bicycle then bicycleParams else carParams) := by
  have key : inferModel o = (match o.shape with
    | .other => .error (.err .assertion)
    | .rectangle length width =>
      let l := length * (7 / 10)
      match o.states with
      | [] => .error (.err .index)
      | s :: _ =>
        let dtheta := s.theta - o.init.theta
        if l = 0 then .error (.err .zeroDiv)
        else
          let x0 : VehicleState ℝ := ⟨o.init.x, o.init.y, o.init.theta, o.speed, dtheta / l⟩
          let wHalf := width / 2 * (95 / 100)
          if o.kind = .bicycle then
            .ok (.vehicle x0 ⟨.bicycle, wHalf, l / 2, l / 2⟩ 85 90 bicycleParams)
          else
            let (m, iz) := massInertia length width
            .ok (.vehicle x0 ⟨.car, wHalf, l / 2, l / 2⟩ m iz carParams)) := by
    unfold inferModel
    rcases hk with h | h | h | h <;> simp only [h] <;> rfl
  rw [key]
  cases o.shape with
  | other => simp
  | rectangle l w =>
    cases o.states with
    | nil => simp
    | cons s rest =>
      simp only [Shape.rectangle.injEq, List.cons.injEq]
      by_cases hl : l = 0
      · subst hl
        rw [if_pos (by norm_num)]
        constructor
        · intro h; cases h
        · rintro ⟨l', w', _, _, ⟨rfl, _⟩, h, _⟩; exact absurd rfl h
      · rw [if_neg (by simpa using hl)]
        constructor
        · intro h
          refine ⟨l, w, s, rest, ⟨rfl, rfl⟩, hl, ⟨rfl, rfl⟩, ?_⟩
          by_cases hb : o.kind = .bicycle
          · rw [if_pos hb] at h
            injection h with h
            simp only [hb, if_true, ← h]
          · rw [if_neg hb] at h
            injection h with h
            simp only [hb, if_false, ← h]
        · rintro ⟨l', w', s', r', ⟨rfl, rfl⟩, -, ⟨rfl, rfl⟩, rfl⟩
          by_cases hb : o.kind = .bicycle
          · simp only [hb, if_true]
          · simp only [hb, if_false]

theorem agentOf_vehicle (env : Env L) (lane : List CtrPoint) (st : VehicleState ℝ) (g : Outline.Geometry ℝ)
    (m iz : ℝ) (p : Phys.VehicleParams ℝ) (hp : p.Valid) :
    ∃ c, agentOf env lane (.vehicle st g m iz p) = .ok c ∧ c.lane = lane := by
  obtain ⟨c, hc⟩ := (Agents.C66_built lane p (Outline.wheelbase g) g.lr env.behavior env.lights
    (env.closest lane) env.minim).mpr hp
  exact ⟨c, hc, (Agents.conf_limits hc).1⟩

/-- A vehicle is converted exactly if it is convertible. -/
theorem modelAgent_vehicle (env : Env L) (o : DynObs) (hk : IsVehicle o.kind) (hs : o.states ≠ []) :
    (∃ r, modelAgent env o = .ok r) ↔ Convertible env o := by
  unfold modelAgent Convertible
  constructor
  · rintro ⟨r, h⟩
    cases h1 : inferModel o with
    | error e => rw [h1] at h; cases h
    | ok m =>
      cases h2 : inferLane env.net env.heading o with
      | error e => simp only [h1, h2] at h; cases h
      | ok lane =>
        obtain ⟨l, w, s, rest, a, b, c, d⟩ := (inferModel_vehicle o hk m).mp h1
        exact ⟨⟨l, w, a, b⟩, lane, rfl⟩
  · rintro ⟨⟨l, w, a, b⟩, lane, h2⟩
    obtain ⟨s, rest, hs⟩ := List.exists_cons_of_ne_nil hs
    have h1 := (inferModel_vehicle o hk _).mpr ⟨l, w, s, rest, a, b, hs, rfl⟩
    rw [h1]
    simp only [h2]
    by_cases hb : o.kind = .bicycle
    · obtain ⟨c, hc, -⟩ := agentOf_vehicle env lane _ _ _ _ _ bicycleParams_valid
      simp only [hb, if_true] at hc ⊢
      rw [hc]; exact ⟨_, rfl⟩
    · obtain ⟨c, hc, -⟩ := agentOf_vehicle env lane _ _ _ _ _ carParams_valid
      simp only [hb, if_false] at hc ⊢
      rw [hc]; exact ⟨_, rfl⟩

/-- Vehicles never fail as unsupported. -/
theorem modelAgent_not_unsupported (env : Env L) (o : DynObs) (hk : IsVehicle o.kind) :
    modelAgent env o ≠ .error .unsupported := by
  intro h
  unfold modelAgent at h
  cases h1 : inferModel o with
  | error e =>
    rw [h1] at h
    injection h with h
    subst h
    unfold inferModel at h1
    rcases hk with hk | hk | hk | hk <;> simp only [hk] at h1 <;>
      (cases hs : o.shape with
       | other => simp only [hs] at h1; cases h1
       | rectangle l w =>
        simp only [hs] at h1
        cases ht : o.states with
        | nil => simp only [ht] at h1; cases h1
        | cons s rest =>
          simp only [ht] at h1
          split at h1
          · cases h1
          · simp at h1)
  | ok m =>
    simp only [h1] at h
    cases h2 : inferLane env.net env.heading o with
    | error e => simp only [h2] at h; cases h
    | ok lane =>
      simp only [h2] at h
      cases h3 : agentOf env lane m with
      | error e => simp only [h3] at h; cases h
      | ok c => simp only [h3] at h; cases h

/-- Pedestrians are never converted. -/
theorem modelAgent_pedestrian (env : Env L) (o : DynObs) (hk : o.kind = .pedestrian) :
    ∃ e, modelAgent env o = .error (.err e) := by
  unfold modelAgent inferModel
  simp only [hk]
  cases h2 : inferLane env.net env.heading o with
  | error e => exact ⟨e, rfl⟩
  | ok lane => exact ⟨.attribute, rfl⟩

/-- The other types are skipped. -/
theorem modelAgent_other (env : Env L) (o : DynObs) (hk : ¬ IsVehicle o.kind) (hp : o.kind ≠ .pedestrian) :
    modelAgent env o = .error .unsupported := by
  unfold modelAgent inferModel
  cases h : o.kind with
  | car => exact absurd (Or.inl h) hk
  | bicycle => exact absurd (Or.inr (Or.inl h)) hk
  | truck => exact absurd (Or.inr (Or.inr (Or.inl h))) hk
  | bus => exact absurd (Or.inr (Or.inr (Or.inr h))) hk
  | pedestrian => exact absurd h hp
  | unknown => rfl
  | other c => rfl

/-- Obstacles for which the conversion does not raise. -/
def Fine (env : Env L) (o : DynObs) : Prop :=
  o.trajPred = true ∧ o.states ≠ [] ∧
    (¬ Parked o → o.kind ≠ .pedestrian ∧ (IsVehicle o.kind → Convertible env o))

open Classical in
/-- One turn of the loop. -/
theorem stepObs_iff (env : Env L) (ego : Option (List Char)) (i : Nat) (o : DynObs) (a a' : Acc L) :
    stepObs env ego i o a = .ok a' ↔ Fine env o ∧
      ((Parked o ∧ a' = { a with statics := a.statics ++ [⟨o.kind, applyGeo o.geo o.init.pose⟩] }) ∨
       (¬ Parked o ∧ ¬ IsVehicle o.kind ∧ a' = a) ∨
       (Drives o ∧ ∃ m c, modelAgent env o = .ok (m, c) ∧
          a' = { a with players := a.players.set (nameOf ego i) c,
                        models := a.models.set (nameOf ego i) m })) := by
  unfold stepObs Fine
  by_cases ht : o.trajPred = true
  swap
  · have ht' : o.trajPred = false := by simpa using ht
    simp [ht']
  rw [if_neg (by simp [ht])]
  by_cases hs : o.states = []
  · have : isStatic o = .error .index := by simp [isStatic, hs]
    simp [this, hs]
  by_cases hp : Parked o
  · have : isStatic o = .ok true := (isStatic_iff o true).mpr ⟨hs, by simp [hp]⟩
    simp only [this, ht, hs, hp, Drives, ne_eq, not_false_eq_true, not_true, false_imp_iff, and_true, true_and,
      false_and, or_false, Except.ok.injEq, eq_comm]
  · have : isStatic o = .ok false := (isStatic_iff o false).mpr ⟨hs, by simp [hp]⟩
    simp only [this, ht, hs, hp, Drives, ne_eq, not_false_eq_true, true_imp_iff, true_and, false_and, false_or]
    by_cases hv : IsVehicle o.kind
    · have hnp : o.kind ≠ .pedestrian := by rintro h; rw [h] at hv; simp [IsVehicle] at hv
      have hc := modelAgent_vehicle env o hv hs
      cases hm : modelAgent env o with
      | error f =>
        have : ¬ Convertible env o := by rw [← hc, hm]; simp
        cases f with
        | unsupported => exact absurd hm (modelAgent_not_unsupported env o hv)
        | err e => simp [hv, this]
      | ok r =>
        have : Convertible env o := by rw [← hc, hm]; exact ⟨r, rfl⟩
        obtain ⟨m, c⟩ := r
        simp only [hv, hnp, this, not_true, false_and, false_or, imp_self, and_self, not_false_eq_true, true_and,
          Except.ok.injEq, Prod.mk.injEq]
        constructor
        · rintro rfl; exact ⟨m, c, ⟨rfl, rfl⟩, rfl⟩
        · rintro ⟨m', c', ⟨rfl, rfl⟩, rfl⟩; rfl
    · by_cases hpe : o.kind = .pedestrian
      · obtain ⟨e, he⟩ := modelAgent_pedestrian env o hpe
        simp [he, hpe]
      · rw [modelAgent_other env o hv hpe]
        simp [hv, hpe, eq_comm]

theorem set_absent {κ α : Type} [DecidableEq κ] : ∀ (d : Dict κ α) (k : κ) (v : α), k ∉ d.keys →
    d.set k v = d ++ [(k, v)]
  | [], _, _, _ => rfl
  | (k', v') :: d, k, v, h => by
    have h1 : k' ≠ k := by rintro rfl; exact h (by simp [Dict.keys])
    have h2 : k ∉ Dict.keys d := fun hm => h (by simp only [Dict.keys, List.map_cons, List.mem_cons]; exact Or.inr hm)
    simp only [Dict.set, h1, if_false, List.cons_append, set_absent d k v h2]

open Classical in
/-- The static obstacles of the parked ones. -/
noncomputable def parkedObs (obs : List DynObs) : List StaticObs :=
  (obs.filter (fun o => decide (Parked o))).map fun o => ⟨o.kind, applyGeo o.geo o.init.pose⟩

open Classical in
/-- The players made of the list. -/
noncomputable def made (env : Env L) (ego : Option (List Char)) (obs : List (DynObs × Nat)) :
    List (List Char × (Model × Agents.Conf L)) :=
  obs.filterMap fun p =>
    if Drives p.1 then
      match modelAgent env p.1 with
      | .ok r => some (nameOf ego p.2, r)
      | .error _ => none
    else none

theorem made_names (env : Env L) (ego : Option (List Char)) (obs : List (DynObs × Nat)) (n : List Char)
    (r : Model × Agents.Conf L) (h : (n, r) ∈ made env ego obs) :
    ∃ p ∈ obs, n = nameOf ego p.2 ∧ Drives p.1 ∧ modelAgent env p.1 = .ok r := by
  unfold made at h
  rw [List.mem_filterMap] at h
  obtain ⟨p, hp, h⟩ := h
  split at h
  · rename_i hd
    cases hm : modelAgent env p.1 with
    | error e => rw [hm] at h; cases h
    | ok r' =>
      rw [hm] at h
      injection h with h
      injection h with h1 h2
      exact ⟨p, hp, h1.symm, hd, by rw [hm, h2]⟩
  · cases h

open Classical in
/-- The whole loop. -/
theorem loopObs_iff (env : Env L) (ego : Option (List Char)) : ∀ (obs : List DynObs) (i : Nat) (a a' : Acc L),
    (∀ n ∈ a.players.keys, ∃ j < i, n = nameOf ego j) → (∀ n ∈ a.models.keys, ∃ j < i, n = nameOf ego j) →
    (loopObs env ego i obs a = .ok a' ↔ (∀ o ∈ obs, Fine env o) ∧
      a' = ⟨a.statics ++ parkedObs obs,
        a.players ++ (made env ego (obs.zipIdx i)).map (fun p => (p.1, p.2.2)),
        a.models ++ (made env ego (obs.zipIdx i)).map (fun p => (p.1, p.2.1))⟩)
  | [], i, a, a', _, _ => by
    simp only [loopObs, parkedObs, made, Except.ok.injEq, List.zipIdx_nil, List.filterMap_nil, List.map_nil,
      List.filter_nil, List.append_nil, List.not_mem_nil, false_imp_iff, implies_true, true_and]
    exact eq_comm
  | o :: rest, i, a, a', h1, h2 => by
    have fresh : ∀ {α : Type} (d : Dict (List Char) α), (∀ n ∈ d.keys, ∃ j < i, n = nameOf ego j) →
        nameOf ego i ∉ d.keys := by
      intro α d hd hm
      obtain ⟨j, hj, he⟩ := hd _ hm
      exact absurd (C69_names ego _ _ he) (by omega)
    have lift : ∀ {α : Type} (d : Dict (List Char) α), (∀ n ∈ d.keys, ∃ j < i, n = nameOf ego j) →
        ∀ n ∈ d.keys, ∃ j < i + 1, n = nameOf ego j := by
      intro α d hd n hn
      obtain ⟨j, hj, he⟩ := hd n hn
      exact ⟨j, by omega, he⟩
    have split_iff : loopObs env ego i (o :: rest) a = .ok a' ↔
        ∃ b, stepObs env ego i o a = .ok b ∧ loopObs env ego (i + 1) rest b = .ok a' := by
      simp only [loopObs]
      cases stepObs env ego i o a with
      | error e => simp
      | ok b => simp
    rw [split_iff]
    have hz : (o :: rest).zipIdx i = (o, i) :: rest.zipIdx (i + 1) := rfl
    by_cases hf : Fine env o
    swap
    · constructor
      · rintro ⟨b, hb, -⟩
        exact absurd ((stepObs_iff env ego i o a b).mp hb).1 hf
      · rintro ⟨h, -⟩
        exact absurd (h o (by simp)) hf
    by_cases hp : Parked o
    · have hb : stepObs env ego i o a = .ok { a with statics := a.statics ++ [⟨o.kind, applyGeo o.geo o.init.pose⟩] } :=
        (stepObs_iff env ego i o a _).mpr ⟨hf, Or.inl ⟨hp, rfl⟩⟩
      have hnd : ¬ Drives o := fun h => h.1 hp
      rw [hb]
      simp only [Except.ok.injEq, exists_eq_left']
      rw [loopObs_iff env ego rest (i + 1) ⟨a.statics ++ [(⟨o.kind, applyGeo o.geo o.init.pose⟩ : StaticObs)], a.players,
        a.models⟩ a' (lift _ h1) (lift _ h2)]
      simp [hz, made, parkedObs, hp, hnd, hf]
    by_cases hv : IsVehicle o.kind
    · have hd : Drives o := ⟨hp, hv⟩
      obtain ⟨⟨m, c⟩, hm⟩ := (modelAgent_vehicle env o hv hf.2.1).mpr ((hf.2.2 hp).2 hv)
      have hb := (stepObs_iff env ego i o a _).mpr ⟨hf, Or.inr (Or.inr ⟨hd, m, c, hm, rfl⟩)⟩
      rw [hb]
      simp only [Except.ok.injEq, exists_eq_left']
      rw [set_absent _ _ _ (fresh _ h1), set_absent _ _ _ (fresh _ h2)]
      have more : ∀ {α : Type} (d : Dict (List Char) α) (v : α), (∀ n ∈ d.keys, ∃ j < i, n = nameOf ego j) →
          ∀ n ∈ Dict.keys (d ++ [(nameOf ego i, v)]), ∃ j < i + 1, n = nameOf ego j := by
        intro α d v hd n hn
        simp only [Dict.keys, List.map_append, List.map_cons, List.map_nil, List.mem_append, List.mem_singleton] at hn
        rcases hn with hn | hn
        · exact lift d hd n hn
        · exact ⟨i, by omega, hn⟩
      rw [loopObs_iff env ego rest (i + 1) ⟨a.statics, a.players ++ [(nameOf ego i, c)],
        a.models ++ [(nameOf ego i, m)]⟩ a' (more _ _ h1) (more _ _ h2)]
      simp [hz, made, parkedObs, hp, hd, hm, hf]
    · have hb := (stepObs_iff env ego i o a a).mpr ⟨hf, Or.inr (Or.inl ⟨hp, hv, rfl⟩)⟩
      have hnd : ¬ Drives o := fun h => hv h.2
      rw [hb]
      simp only [Except.ok.injEq, exists_eq_left']
      rw [loopObs_iff env ego rest (i + 1) _ a' (lift _ h1) (lift _ h2)]
      simp [hz, made, parkedObs, hp, hnd, hf]

theorem replica_iff (env : Env L) (ego : Option (List Char)) (obs : List DynObs) (ss : List CrStatic)
    (bounds : ℝ → Except Err (List (Geo ℝ))) (ctx : Ctx L) :
    replica env ego obs ss bounds = .ok ctx ↔ (∀ o ∈ obs, Fine env o) ∧
      ctx = ⟨parkedObs obs ++ ss.map (fun s => ⟨s.kind, s.geo⟩),
        (parkedObs obs ++ ss.map (fun s => (⟨s.kind, s.geo⟩ : StaticObs))).map (·.shape),
        (made env ego obs.zipIdx).map (fun p => (p.1, p.2.2)),
        (made env ego obs.zipIdx).map (fun p => (p.1, p.2.1))⟩ := by
  have key := fun a' => loopObs_iff env ego obs 0 ⟨[], [], []⟩ a' (by simp [Dict.keys]) (by simp [Dict.keys])
  simp only [List.nil_append] at key
  unfold replica
  cases h : loopObs env ego 0 obs ⟨[], [], []⟩ with
  | error e =>
    simp only [reduceCtorEq, false_iff]
    rintro ⟨hf, -⟩
    have := (key _).mpr ⟨hf, rfl⟩
    rw [h] at this
    cases this
  | ok a =>
    obtain ⟨hf, ha⟩ := (key a).mp h
    subst ha
    simp only [dgScenario, Option.getD_some, Except.ok.injEq]
    constructor
    · rintro rfl; exact ⟨hf, rfl⟩
    · rintro ⟨-, rfl⟩; rfl

/-! ## C69 -/

/-- **C69.** The conversion succeeds exactly if every obstacle has a predicted trajectory with at least one
state and, unless it is parked, is neither a pedestrian nor a vehicle that cannot be converted. -/
theorem C69_total (env : Env L) (ego : Option (List Char)) (obs : List DynObs) (ss : List CrStatic)
    (bounds : ℝ → Except Err (List (Geo ℝ))) :
    (∃ ctx, replica env ego obs ss bounds = .ok ctx) ↔ ∀ o ∈ obs, o.trajPred = true ∧ o.states ≠ [] ∧
      (¬ Parked o → o.kind ≠ .pedestrian ∧ (IsVehicle o.kind → Convertible env o)) := by
  constructor
  · rintro ⟨ctx, h⟩
    exact ((replica_iff env ego obs ss bounds ctx).mp h).1
  · intro h
    exact ⟨_, (replica_iff env ego obs ss bounds _).mpr ⟨h, rfl⟩⟩

open Classical in
/-- **C69.** Models and players have the same names, each once, in the order of the obstacles: those of the
obstacles that drive. -/
theorem C69_order (env : Env L) (ego : Option (List Char)) (obs : List DynObs) (ss : List CrStatic)
    (bounds : ℝ → Except Err (List (Geo ℝ))) (ctx : Ctx L) (h : replica env ego obs ss bounds = .ok ctx) :
    ctx.models.keys = ctx.players.keys ∧ ctx.models.Wf ∧ ctx.players.Wf ∧
      ctx.models.keys = (obs.zipIdx.filter (fun p => decide (Drives p.1))).map fun p => nameOf ego p.2 := by
  obtain ⟨hf, rfl⟩ := (replica_iff env ego obs ss bounds ctx).mp h
  have hk : (made env ego obs.zipIdx).map Prod.fst =
      (obs.zipIdx.filter (fun p => decide (Drives p.1))).map fun p => nameOf ego p.2 := by
    have : ∀ l : List (DynObs × Nat), (∀ p ∈ l, Fine env p.1) → (made env ego l).map Prod.fst =
        (l.filter (fun p => decide (Drives p.1))).map fun p => nameOf ego p.2 := by
      intro l
      induction l with
      | nil => intro _; rfl
      | cons p l ih =>
        intro hl
        have ih := ih (fun q hq => hl q (by simp [hq]))
        have hp := hl p (by simp)
        by_cases hd : Drives p.1
        · obtain ⟨r, hr⟩ := (modelAgent_vehicle env p.1 hd.2 hp.2.1).mpr ((hp.2.2 hd.1).2 hd.2)
          unfold made at ih ⊢
          rw [List.filterMap_cons]
          simp only [hd, if_true, hr, List.map_cons, ih, List.filter_cons, decide_true]
        · unfold made at ih ⊢
          rw [List.filterMap_cons]
          simp only [hd, if_false, ih, List.filter_cons, decide_false, Bool.false_eq_true]
    apply this
    intro p hp
    exact hf p.1 (by
      have := List.mem_zipIdx hp
      rw [this.2.2]; exact List.getElem_mem _)
  have hm : Dict.keys ((made env ego obs.zipIdx).map (fun p => (p.1, p.2.1))) =
      (made env ego obs.zipIdx).map Prod.fst := by simp [Dict.keys, Function.comp_def]
  have hpl : Dict.keys ((made env ego obs.zipIdx).map (fun p => (p.1, p.2.2))) =
      (made env ego obs.zipIdx).map Prod.fst := by simp [Dict.keys, Function.comp_def]
  have hn : ((made env ego obs.zipIdx).map Prod.fst).Nodup := by
    rw [hk, List.nodup_map_iff_inj_on]
    · intro p hp q hq he
      have hp := List.mem_zipIdx (List.mem_of_mem_filter hp)
      have hq := List.mem_zipIdx (List.mem_of_mem_filter hq)
      have e := C69_names ego _ _ he
      have h1 := hp.2.2
      have h2 := hq.2.2
      refine Prod.ext ?_ e
      rw [h1, h2]
      simp only [e]
    · refine List.Nodup.filter _ ?_
      have : (obs.zipIdx.map Prod.snd).Nodup := by
        rw [List.zipIdx_map_snd]
        exact List.nodup_range'
      exact List.Nodup.of_map _ this
  exact ⟨hm.trans hpl.symm, by rw [Dict.Wf, hm]; exact hn, by rw [Dict.Wf, hpl]; exact hn, hm.trans hk⟩

/-- **C69.** An obstacle that drives has a model and an agent under its name, the result of converting this
obstacle; the names of the other obstacles do not occur. -/
theorem C69_players (env : Env L) (ego : Option (List Char)) (obs : List DynObs) (ss : List CrStatic)
    (bounds : ℝ → Except Err (List (Geo ℝ))) (ctx : Ctx L) (h : replica env ego obs ss bounds = .ok ctx)
    (i : Nat) (o : DynObs) (hi : obs[i]? = some o) :
    (Drives o → ∃ m c, ctx.models.get? (nameOf ego i) = some m ∧ ctx.players.get? (nameOf ego i) = some c ∧
      modelAgent env o = .ok (m, c)) ∧
    (¬ Drives o → nameOf ego i ∉ ctx.models.keys ∧ nameOf ego i ∉ ctx.players.keys) := by
  obtain ⟨e1, w1, w2, e2⟩ := C69_order env ego obs ss bounds ctx h
  obtain ⟨hf, rfl⟩ := (replica_iff env ego obs ss bounds ctx).mp h
  constructor
  · intro hd
    have hp := hf o (List.mem_of_getElem? hi)
    obtain ⟨⟨m, c⟩, hr⟩ := (modelAgent_vehicle env o hd.2 hp.2.1).mpr ((hp.2.2 hd.1).2 hd.2)
    have hmem : (nameOf ego i, (m, c)) ∈ made env ego obs.zipIdx := by
      unfold made
      rw [List.mem_filterMap]
      refine ⟨(o, i), ?_, by simp only [hd, if_true, hr]⟩
      rw [List.mem_zipIdx_iff_getElem?]
      exact hi
    refine ⟨m, c, Dict.get?_of_mem w1 ?_, Dict.get?_of_mem w2 ?_, hr⟩
    · exact List.mem_map.mpr ⟨_, hmem, rfl⟩
    · exact List.mem_map.mpr ⟨_, hmem, rfl⟩
  · intro hd
    have : nameOf ego i ∉ Dict.keys ((made env ego obs.zipIdx).map (fun p => (p.1, p.2.1))) := by
      intro hm
      simp only at e2
      rw [e2] at hm
      obtain ⟨p, hp, he⟩ := List.mem_map.mp hm
      have hpd : Drives p.1 := by simpa using (List.mem_filter.mp hp).2
      have hpi := (List.mem_zipIdx_iff_getElem?).mp (List.mem_of_mem_filter hp)
      rw [C69_names ego _ _ he, hi] at hpi
      injection hpi with hpi
      exact hd (hpi ▸ hpd)
    exact ⟨this, e1 ▸ this⟩

open Classical in
/-- **C69.** The static obstacles are the parked ones in their order, placed at their initial pose, followed by
the static ones of the file; the spatial index holds their shapes at the same positions. -/
theorem C69_statics (env : Env L) (ego : Option (List Char)) (obs : List DynObs) (ss : List CrStatic)
    (bounds : ℝ → Except Err (List (Geo ℝ))) (ctx : Ctx L) (h : replica env ego obs ss bounds = .ok ctx) :
    ctx.statics = (obs.filter (fun o => decide (Parked o))).map (fun o => ⟨o.kind, applyGeo o.geo o.init.pose⟩) ++
      ss.map (fun s => ⟨s.kind, s.geo⟩) ∧ ctx.index = ctx.statics.map (·.shape) := by
  obtain ⟨hf, rfl⟩ := (replica_iff env ego obs ss bounds ctx).mp h
  exact ⟨rfl, rfl⟩

/-- **C69.** Nobody is both: an obstacle is parked, drives, or is left out. -/
theorem C69_exclusive (o : DynObs) : ¬ (Parked o ∧ Drives o) := fun h => h.2.1 h.1

/-- **C69.** The obstacles of a scenario: those given come first, then the road boundaries if they are asked for
and there is a map; the index lists the shapes in the same order. -/
theorem C69_scenario (bounds : Option (ℝ → Except Err (List (Geo ℝ)))) (given : Option (List StaticObs))
    (useBounds : Bool) (buffer : ℝ) (so : List StaticObs) (ix : List (Geo ℝ)) :
    dgScenario bounds given useBounds buffer = .ok (so, ix) ↔
      ix = so.map (·.shape) ∧ ∃ extra, so = given.getD [] ++ extra ∧
        ((useBounds = true ∧ ∃ b ls, bounds = some b ∧ 0 ≤ buffer ∧ b buffer = .ok ls ∧
            extra = ls.map fun l => ⟨.unknown, l⟩) ∨
          ((useBounds = false ∨ bounds = none) ∧ extra = [])) := by
  have triv : ∀ g : List StaticObs, (Except.ok (g, g.map (·.shape)) : Except Err _) = .ok (so, ix) ↔
      ix = so.map (·.shape) ∧ so = g := by
    intro g
    simp only [Except.ok.injEq, Prod.mk.injEq]
    constructor
    · rintro ⟨rfl, rfl⟩; exact ⟨rfl, rfl⟩
    · rintro ⟨h, rfl⟩; exact ⟨rfl, h.symm⟩
  unfold dgScenario
  cases useBounds with
  | false => simp only [triv]; simp
  | true =>
    cases bounds with
    | none => simp only [triv]; simp
    | some b =>
      simp only
      by_cases hb : buffer < 0
      · simp [hb, not_le.mpr hb]
      · simp only [hb, if_false]
        cases hbb : b buffer with
        | error e => simp [hbb]
        | ok ls =>
          simp only [triv]
          constructor
          · rintro ⟨h1, h2⟩
            exact ⟨h1, _, h2, Or.inl ⟨by trivial, b, ls, rfl, not_lt.mp hb, hbb, rfl⟩⟩
          · rintro ⟨h1, extra, h2, (⟨-, b', ls', hb', -, h3, h4⟩ | ⟨h3 | h3, -⟩)⟩
            · injection hb' with hb'
              subst hb'
              rw [hbb] at h3
              injection h3 with h3
              subst h3
              exact ⟨h1, by rw [h2, h4]⟩
            · cases h3
            · cases h3

/-- **C69.** A walking pedestrian makes the conversion of the whole scenario fail, although a model for
pedestrians exists: the lane follower cannot be built with its parameters. -/
theorem C69_false_pedestrian (env : Env L) (ego : Option (List Char)) (obs : List DynObs) (ss : List CrStatic)
    (bounds : ℝ → Except Err (List (Geo ℝ))) (o : DynObs) (ho : o ∈ obs) (hk : o.kind = .pedestrian)
    (hp : ¬ Parked o) : ¬ ∃ ctx, replica env ego obs ss bounds = .ok ctx := by
  rw [C69_total]
  intro h
  exact ((h o ho).2.2 hp).1 hk

/-! ## C85 -/

/-- The obstacle's shape in the frame of the map: turned by the heading, then moved to the position. -/
noncomputable def inMap (s : TState) (g : Geo ℝ) : Geo ℝ :=
  g.map fun p => (Real.cos s.theta * p.1 - Real.sin s.theta * p.2 + s.x,
    Real.sin s.theta * p.1 + Real.cos s.theta * p.2 + s.y)

theorem applyGeo_pose (s : TState) (g : Geo ℝ) : applyGeo g s.pose = inMap s g := by
  unfold applyGeo inMap
  congr 1
  funext p
  simp only [affine, TState.pose, rigid, neg_mul, ← sub_eq_add_neg]

/-- The full claim of C85: every parked or static obstacle of the file stands at its pose. -/
def Placed (obs : List DynObs) (ss : List CrStatic) (ctx : Ctx L) : Prop :=
  (∀ o ∈ obs, Parked o → ∃ s ∈ ctx.statics, s.kind = o.kind ∧ s.shape = inMap o.init o.geo) ∧
  (∀ c ∈ ss, ∃ s ∈ ctx.statics, s.kind = c.kind ∧ s.shape = inMap c.init c.geo)

/-- **C85**, the part that holds: parked obstacles stand at their initial pose. Missing: the static obstacles
of the file, see `C85_false_static`. -/
theorem C85_parked_partial (env : Env L) (ego : Option (List Char)) (obs : List DynObs) (ss : List CrStatic)
    (bounds : ℝ → Except Err (List (Geo ℝ))) (ctx : Ctx L) (h : replica env ego obs ss bounds = .ok ctx)
    (hs : ∀ c ∈ ss, c.init.x = 0 ∧ c.init.y = 0 ∧ c.init.theta = 0) : Placed obs ss ctx := by
  obtain ⟨h1, -⟩ := C69_statics env ego obs ss bounds ctx h
  constructor
  · intro o ho hp
    refine ⟨⟨o.kind, applyGeo o.geo o.init.pose⟩, ?_, rfl, ?_⟩
    · rw [h1]
      refine List.mem_append.mpr (Or.inl (List.mem_map.mpr ⟨o, ?_, rfl⟩))
      simp [List.mem_filter, ho, hp]
    · exact applyGeo_pose o.init o.geo
  · intro c hc
    refine ⟨⟨c.kind, c.geo⟩, ?_, rfl, ?_⟩
    · rw [h1]
      exact List.mem_append.mpr (Or.inr (List.mem_map.mpr ⟨c, hc, rfl⟩))
    · obtain ⟨a, b, d⟩ := hs c hc
      have : (fun p : ℝ × ℝ => (Real.cos c.init.theta * p.1 - Real.sin c.init.theta * p.2 + c.init.x,
          Real.sin c.init.theta * p.1 + Real.cos c.init.theta * p.2 + c.init.y)) = id := by
        funext p
        simp [a, b, d]
      simp only [inMap, this]
      cases c.geo <;> simp [Geo.map]

/-- **C85 is false** for the static obstacles of the file: their shape is not moved to their pose. A block of
one metre at (10, 0) ends up at the origin. -/
theorem C85_false_static (env : Env L) (bounds : ℝ → Except Err (List (Geo ℝ))) :
    ∃ (ss : List CrStatic) (ctx : Ctx L), replica env none [] ss bounds = .ok ctx ∧ ¬ Placed [] ss ctx := by
  refine ⟨[⟨.unknown, .polygon [(0, 0), (1, 0), (1, 1), (0, 1)] [], ⟨10, 0, 0⟩⟩],
    ⟨[⟨.unknown, .polygon [(0, 0), (1, 0), (1, 1), (0, 1)] []⟩],
     [.polygon [(0, 0), (1, 0), (1, 1), (0, 1)] []], [], []⟩, rfl, ?_⟩
  rintro ⟨-, h⟩
  obtain ⟨s, hs, -, h⟩ := h _ (List.mem_singleton.mpr rfl)
  rw [List.mem_singleton.mp hs] at h
  simp only [inMap, Geo.map, List.map_cons, Geo.polygon.injEq, List.cons.injEq, Prod.mk.injEq] at h
  norm_num at h

/-- **C85.** Only the ends of the trajectory are compared: a car that leaves and comes back is taken for
parked, and stays an obstacle at its initial pose for ever. -/
theorem C85_loop_counterexample (env : Env L) (bounds : ℝ → Except Err (List (Geo ℝ))) :
    ∃ (o : DynObs) (s : TState) (ctx : Ctx L), o.kind = .car ∧ s ∈ o.states ∧ 100 ≤ |s.x - o.init.x| ∧
      replica env none [o] [] bounds = .ok ctx ∧ ctx.models = [] ∧
      ctx.statics = [⟨.car, inMap o.init o.geo⟩] := by
  let o : DynObs := ⟨.car, true, .rectangle 4 2, .polygon [(2, 1), (-2, 1), (-2, -1), (2, -1)] [], ⟨0, 0, 0⟩, 10,
    [⟨100, 0, 0⟩, ⟨0, 0, 0⟩]⟩
  have hp : Parked o := ⟨⟨0, 0, 0⟩, rfl, by norm_num [o]⟩
  obtain ⟨ctx, hc⟩ := (C69_total env none [o] [] bounds).mpr (by
    intro o' ho'
    rw [List.mem_singleton.mp ho']
    exact ⟨rfl, by simp [o], fun h => absurd hp h⟩)
  refine ⟨o, ⟨100, 0, 0⟩, ctx, rfl, by simp [o], by norm_num [o], hc, ?_, ?_⟩
  · obtain ⟨-, -, -, hk⟩ := C69_order env none [o] [] bounds ctx hc
    have hd : ¬ Drives o := fun h => h.1 hp
    simp only [List.zipIdx_cons, List.zipIdx_nil, List.filter_cons, hd, decide_false, Bool.false_eq_true, if_false,
      List.filter_nil, List.map_nil, Dict.keys, List.map_eq_nil_iff] at hk
    exact hk
  · obtain ⟨hs, -⟩ := C69_statics env none [o] [] bounds ctx hc
    rw [hs]
    simp only [List.filter_cons, hp, decide_true, if_true, List.filter_nil, List.map_cons, List.map_nil,
      List.append_nil]
    rw [applyGeo_pose]

/-! ## A small scenario -/

namespace Town

/-- No lanelets: lanes are made of the trajectories. -/
noncomputable def env : Env Nat where
  net := ⟨fun _ => [], fun _ => []⟩
  heading := fun _ _ => 0
  behavior := ⟨10, 3, 1, 3 / 2⟩
  lights := [0, 1, 2, 3, 4]
  closest := fun _ _ => 0
  minim := fun _ lo _ => .ok lo

/-- A moving car, a parked truck, a moving obstacle of unknown type, a second car. -/
noncomputable def car (y : ℝ) : DynObs :=
  ⟨.car, true, .rectangle 4 2, .polygon [(2, 1), (-2, 1), (-2, -1), (2, -1)] [], ⟨0, y, 0⟩, 10,
    [⟨1, y, 0⟩, ⟨2, y, 0⟩]⟩

noncomputable def truck : DynObs :=
  ⟨.truck, true, .rectangle 8 2, .polygon [(4, 1), (-4, 1), (-4, -1), (4, -1)] [], ⟨20, 0, 0⟩, 0, [⟨20, 0, 0⟩]⟩

noncomputable def thing : DynObs :=
  ⟨.other 7, true, .other, .point (0, 0), ⟨0, 5, 0⟩, 1, [⟨1, 5, 0⟩]⟩

noncomputable def walker : DynObs :=
  ⟨.pedestrian, true, .other, .point (0, 0), ⟨0, 5, 0⟩, 1, [⟨1, 5, 0⟩]⟩

noncomputable def obs : List DynObs := [car 0, truck, thing, car 4]

theorem car_moves (y : ℝ) : ¬ Parked (car y) := by
  rintro ⟨e, he, h⟩
  simp only [car, List.getLast?_cons_cons, List.getLast?_singleton, Option.some.injEq] at he
  subst he
  norm_num [car] at h

theorem truck_parked : Parked truck := ⟨⟨20, 0, 0⟩, rfl, by norm_num [truck]⟩

theorem thing_moves : ¬ Parked thing := by
  rintro ⟨e, he, h⟩
  simp only [thing, List.getLast?_singleton, Option.some.injEq] at he
  subst he
  norm_num [thing] at h

theorem walker_moves : ¬ Parked walker := by
  rintro ⟨e, he, h⟩
  simp only [walker, List.getLast?_singleton, Option.some.injEq] at he
  subst he
  norm_num [walker] at h

theorem car_lane (y : ℝ) : Convertible env (car y) := by
  refine ⟨⟨4, 2, rfl, by norm_num⟩, laneFromTrajectory (car y).states, ?_⟩
  simp [inferLane, car, env]

theorem converts (b : ℝ → Except Err (List (Geo ℝ))) :
    ∃ ctx, replica env (some (playerName 3)) obs [] b = .ok ctx := by
  rw [C69_total]
  intro o ho
  simp only [obs, List.mem_cons, List.not_mem_nil, or_false] at ho
  rcases ho with rfl | rfl | rfl | rfl
  · exact ⟨rfl, by simp [car], fun _ => ⟨by simp [car], fun _ => car_lane 0⟩⟩
  · exact ⟨rfl, by simp [truck], fun h => absurd truck_parked h⟩
  · exact ⟨rfl, by simp [thing], fun _ => ⟨by simp [thing], fun h => by simp [thing, IsVehicle] at h⟩⟩
  · exact ⟨rfl, by simp [car], fun _ => ⟨by simp [car], fun _ => car_lane 4⟩⟩

/-- The names in this scenario: the first car, and the last one as the ego. -/
example (b : ℝ → Except Err (List (Geo ℝ))) (ctx : Ctx Nat)
    (h : replica env (some (playerName 3)) obs [] b = .ok ctx) :
    ctx.models.keys = [['P', '0'], ['E', 'g', 'o']] ∧ ctx.statics.length = 1 := by
  obtain ⟨-, -, -, hk⟩ := C69_order _ _ _ _ _ ctx h
  obtain ⟨hs, -⟩ := C69_statics _ _ _ _ _ ctx h
  have d1 : Drives (car 0) := ⟨car_moves 0, Or.inl rfl⟩
  have d4 : Drives (car 4) := ⟨car_moves 4, Or.inl rfl⟩
  have d2 : ¬ Drives truck := fun h => h.1 truck_parked
  have d3 : ¬ Drives thing := fun h => by simp [Drives, thing, IsVehicle] at h
  constructor
  · rw [hk]
    simp only [obs, List.zipIdx_cons, List.zipIdx_nil, List.filter_cons, d1, d2, d3, d4, decide_true, decide_false,
      if_true, Bool.false_eq_true, if_false, List.filter_nil, List.map_cons, List.map_nil]
    decide
  · rw [hs]
    simp only [obs, List.filter_cons, car_moves, truck_parked, thing_moves, decide_true, decide_false, if_true,
      Bool.false_eq_true, if_false, List.filter_nil, List.map_cons, List.map_nil, List.append_nil, List.length_singleton]

/-- The hypotheses of `C69_false_pedestrian`, with a car beside the pedestrian. -/
example (b : ℝ → Except Err (List (Geo ℝ))) : ¬ ∃ ctx, replica env none [car 0, walker] [] b = .ok ctx :=
  C69_false_pedestrian env none _ _ b walker (by simp) rfl walker_moves

/-- The error itself. -/
example (b : ℝ → Except Err (List (Geo ℝ))) : replica env none [walker] [] b = .error .attribute := by
  have : isStatic walker = .ok false := (isStatic_iff walker false).mpr ⟨by simp [walker], by simp [walker_moves]⟩
  have h2 : modelAgent env walker = .error (.err .attribute) := by
    simp [modelAgent, inferModel, walker, inferLane, env, agentOf]
  simp [replica, loopObs, stepObs, this, h2, show walker.trajPred = true from rfl]

example : ∃ so ix, dgScenario (some fun _ => .ok [.lineString [(0, 0), (1, 0)]])
    (some [⟨.car, .point (0, 0)⟩]) true (1 / 10) = .ok (so, ix) ∧ so.length = 2 := by
  refine ⟨[⟨.car, .point (0, 0)⟩, ⟨.unknown, .lineString [(0, 0), (1, 0)]⟩],
    [.point (0, 0), .lineString [(0, 0), (1, 0)]], ?_, rfl⟩
  norm_num [dgScenario]

end Town

end Scen
end Verif
