import Verif.Props.Text
import Verif.Props.OrderExact
/- C108: derived components made with `new` and any sequence of `with_param` calls. -/
namespace Httpsig
open Sfv Grammar

/-- `DerivedComponent::new(name)` followed by `with_param` calls. -/
def componentAfter (name : Str) (calls : List (Str × Str)) : DerivedComponent :=
  calls.foldl (fun d c => d.withParam c.1 c.2) (.new name)

/-- The text of the parameters after some `with_param` calls: each name once, in the order in which the names were first
used, with the value of the last call. -/
def callsText (calls : List (Str × Str)) : Str :=
  (calls.map Prod.fst).eraseDups.flatMap fun k => ';' :: k ++ '=' :: quoted ((lastValue calls k).getD [])

theorem componentAfter_bare (name : Str) (calls : List (Str × Str)) :
    (componentAfter name calls).item.bare = .string name := by
  unfold componentAfter
  induction calls using history_induction with
  | nil => rfl
  | snoc l a ih => rw [List.foldl_append]; exact ih

theorem componentAfter_params (name : Str) (calls : List (Str × Str)) :
    (componentAfter name calls).item.params =
      (calls.map fun c => (c.1, BareItem.string c.2)).foldl (fun (m : Params) e => IMap.insert m e.1 e.2) [] := by
  unfold componentAfter
  induction calls using history_induction with
  | nil => rfl
  | snoc l a ih =>
    rw [List.foldl_append, List.map_append, List.foldl_append, ← ih]
    rfl

theorem lastValue_map {V W : Type} (f : V → W) (calls : List (Str × V)) (k : Str) :
    lastValue (calls.map fun c => (c.1, f c.2)) k = (lastValue calls k).map f := by
  induction calls using history_induction with
  | nil => rfl
  | snoc l a ih =>
    rw [List.map_append]
    simp only [List.map_cons, List.map_nil]
    rw [lastValue_snoc, lastValue_snoc, ih]
    by_cases h : a.1 = k <;> simp [h]

theorem componentAfter_get (name : Str) (calls : List (Str × Str)) :
    (componentAfter name calls).item.params.map Prod.fst = (calls.map Prod.fst).eraseDups ∧
    IMap.NodupKeys (componentAfter name calls).item.params ∧
    ∀ k, IMap.get (componentAfter name calls).item.params k = (lastValue calls k).map .string := by
  rw [componentAfter_params]
  obtain ⟨h1, h2, h3⟩ := foldl_insert (calls.map fun c => (c.1, BareItem.string c.2))
  refine ⟨?_, h2, fun k => ?_⟩
  · rw [h1, List.map_map]; rfl
  · rw [h3, lastValue_map]

theorem lastValue_isSome {V : Type} (calls : List (Str × V)) (k : Str) :
    (lastValue calls k).isSome ↔ k ∈ calls.map Prod.fst := by
  induction calls using history_induction with
  | nil => simp [lastValue]
  | snoc l a ih =>
    rw [lastValue_snoc, List.map_append, List.mem_append, ← ih]
    by_cases h : a.1 = k
    · simp [h]
    · simp [h, Ne.symm h]

/-- C108. The name of a component built by calls is the one it was created with, and its parameter of any name is the last value
given for that name, if any. -/
theorem C108_getters (name : Str) (calls : List (Str × Str)) :
    (componentAfter name calls).name = .ok name ∧
    ∀ k, (componentAfter name calls).param k = lastValue calls k := by
  constructor
  · simp only [DerivedComponent.name, componentAfter_bare]; rfl
  · intro k
    simp only [DerivedComponent.param, (componentAfter_get name calls).2.2 k]
    cases lastValue calls k <;> rfl

theorem paramsText_strings {ks : List Str} {f : Str → Str} {s : Str} :
    ParamsText (ks.map fun k => (k, .string (f k))) s ↔
      (∀ k ∈ ks, NameText k ∧ ∀ c ∈ f k, 32 ≤ c.toNat ∧ c.toNat < 127) ∧
      s = ks.flatMap fun k => ';' :: k ++ '=' :: quoted (f k) := by
  induction ks generalizing s with
  | nil =>
    constructor
    · rintro ⟨⟩; simp
    · rintro ⟨_, rfl⟩; exact .nil
  | cons k ks ih =>
    constructor
    · intro h
      cases h with
      | value hk _ hb hp =>
        cases hb with
        | string hs =>
          obtain ⟨h1, rfl⟩ := ih.1 hp
          refine ⟨fun x hx => ?_, by simp⟩
          rcases List.mem_cons.1 hx with rfl | hx
          · exact ⟨hk, hs⟩
          · exact h1 x hx
    · rintro ⟨h1, rfl⟩
      have := ParamsText.value (h1 k (by simp)).1 (by simp) (.string (h1 k (by simp)).2)
        (ih.2 ⟨fun x hx => h1 x (by simp [hx]), rfl⟩)
      simpa using this

/-- C108. The text of a component built by calls, and when it has one (otherwise `to_string` panics): the name in quotes, and
after it each parameter once, with the value given last, in the order in which the names were first used. -/
theorem C108_text (name : Str) (calls : List (Str × Str)) (s : Str) :
    (componentAfter name calls).display = .ok s ↔
      (∀ c ∈ name, 32 ≤ c.toNat ∧ c.toNat < 127) ∧
      (∀ k v, lastValue calls k = some v → NameText k ∧ ∀ c ∈ v, 32 ≤ c.toNat ∧ c.toNat < 127) ∧
      s = quoted name ++ callsText calls := by
  have hd : ∀ d : DerivedComponent, d.display = .ok s ↔ WrittenItem d.item s := by
    intro d
    simp only [DerivedComponent.display, ← serItem_iff]
    cases serItem d.item <;> simp
  obtain ⟨h1, h2, h3⟩ := componentAfter_get name calls
  have hp : (componentAfter name calls).item.params =
      (calls.map Prod.fst).eraseDups.map fun k => (k, .string ((lastValue calls k).getD [])) := by
    rw [IMap.eq_of_keys h2, h1, ← List.filterMap_eq_map (f := fun k => (k, BareItem.string ((lastValue calls k).getD [])))]
    refine filterMap_congr' fun k hk => ?_
    rw [h3]
    have := (lastValue_isSome calls k).2 (List.mem_eraseDups.1 hk)
    cases hl : lastValue calls k with
    | none => rw [hl] at this; cases this
    | some v => simp [hl]
  rw [hd]
  have hi : (componentAfter name calls).item = ⟨.string name, (calls.map Prod.fst).eraseDups.map fun k => (k, .string ((lastValue calls k).getD []))⟩ := by
    rw [← hp, ← componentAfter_bare name calls]
  rw [hi]
  have hmem : (∀ k v, lastValue calls k = some v → NameText k ∧ ∀ c ∈ v, 32 ≤ c.toNat ∧ c.toNat < 127) ↔
      ∀ k ∈ (calls.map Prod.fst).eraseDups, NameText k ∧ ∀ c ∈ (lastValue calls k).getD [], 32 ≤ c.toNat ∧ c.toNat < 127 := by
    constructor
    · intro h k hk
      have := (lastValue_isSome calls k).2 (List.mem_eraseDups.1 hk)
      cases hl : lastValue calls k with
      | none => rw [hl] at this; cases this
      | some v => exact h k v hl
    · intro h k v hl
      have := h k (List.mem_eraseDups.2 ((lastValue_isSome calls k).1 (by rw [hl]; rfl)))
      rw [hl] at this
      exact this
  rw [hmem]
  constructor
  · intro h
    cases h with
    | mk hb ht =>
      cases hb with
      | string hs =>
        obtain ⟨ha, rfl⟩ := paramsText_strings.1 ht
        exact ⟨hs, ha, rfl⟩
  · rintro ⟨hs, ha, rfl⟩
    exact .mk (.string hs) (paramsText_strings.2 ⟨ha, rfl⟩)

theorem paramsRustEq_iff {a b : Params} (ha : IMap.NodupKeys a) (hb : IMap.NodupKeys b)
    (hs : ∀ e ∈ a, ∃ s, e.2 = .string s) :
    Params.rustEq a b = true ↔ ∀ k, IMap.get a k = IMap.get b k := by
  have hstr : ∀ (s : Str) w, BareItem.rustEq (.string s) w = true ↔ w = .string s := by
    intro s w
    cases w with
    | string t =>
      show (BareItem.string s == BareItem.string t) = true ↔ _
      rw [beq_iff_eq]; exact eq_comm
    | _ => exact ⟨fun h => (by cases h), fun h => (by cases h)⟩
  simp only [Params.rustEq, Bool.and_eq_true, beq_iff_eq, List.all_eq_true]
  have hperm : a.Perm b → ∀ k, IMap.get a k = IMap.get b k := by
    intro hp k
    cases hg : IMap.get a k with
    | some v => rw [get_of_mem hb (hp.mem_iff.1 (IMap.mem_of_get hg))]
    | none =>
      cases hg' : IMap.get b k with
      | none => rfl
      | some v =>
        rw [get_of_mem ha (hp.mem_iff.2 (IMap.mem_of_get hg'))] at hg
        cases hg
  constructor
  · rintro ⟨hl, h⟩
    refine hperm (perm_of_subset (nodup_of_keys ha) hl fun e he => ?_)
    have h1 := h e he
    obtain ⟨s, hs⟩ := hs e he
    cases hg : IMap.get b e.1 with
    | none => rw [hg] at h1; cases h1
    | some w =>
      rw [hg] at h1
      rw [hs] at h1
      have := (hstr s w).1 h1
      rw [← hs] at this
      have hm := IMap.mem_of_get hg
      rw [this] at hm
      exact hm
  · intro h
    have hsub : ∀ e, e ∈ a ↔ e ∈ b := by
      intro e
      constructor
      · intro he
        have := get_of_mem ha (k := e.1) (v := e.2) he
        rw [h] at this
        exact IMap.mem_of_get this
      · intro he
        have := get_of_mem hb (k := e.1) (v := e.2) he
        rw [← h] at this
        exact IMap.mem_of_get this
    refine ⟨((List.perm_ext_iff_of_nodup (nodup_of_keys ha) (nodup_of_keys hb)).2 hsub).length_eq, fun e he => ?_⟩
    rw [← h, get_of_mem ha (k := e.1) (v := e.2) he]
    obtain ⟨s, hs⟩ := hs e he
    simp only [hs]
    exact (hstr s _).2 rfl

/-- C108. Two components built by calls are equal if and only if they have the same name and the same last value under every
parameter name: the order of the calls does not matter otherwise. -/
theorem C108_equal (n m : Str) (cs ds : List (Str × Str)) :
    (componentAfter n cs).rustEq (componentAfter m ds) = true ↔ n = m ∧ ∀ k, lastValue cs k = lastValue ds k := by
  obtain ⟨-, h2, h3⟩ := componentAfter_get n cs
  obtain ⟨-, h2', h3'⟩ := componentAfter_get m ds
  simp only [DerivedComponent.rustEq, Item.rustEq, Bool.and_eq_true, componentAfter_bare]
  rw [paramsRustEq_iff h2 h2']
  · refine and_congr ?_ ?_
    · simp [BareItem.rustEq]
    · refine forall_congr' fun k => ?_
      rw [h3, h3']
      cases lastValue cs k <;> cases lastValue ds k <;> simp
  · intro e he
    have := get_of_mem h2 (k := e.1) (v := e.2) he
    rw [h3] at this
    cases hl : lastValue cs e.1 with
    | none => rw [hl] at this; cases this
    | some v => rw [hl] at this; exact ⟨v, (Option.some.inj this).symm⟩

/-- C108, non-vacuity: `name` is set twice; it keeps its place and takes the last value. -/
example : (componentAfter (str% "@query-params") [(str% "name", str% "a"), (str% "bs", str% "1"), (str% "name", str% "b")]).display =
    .ok (str% "\"@query-params\";name=\"b\";bs=\"1\"") := by
  rw [C108_text]
  refine ⟨by decide, ?_, rfl⟩
  intro k v h
  have hk := (lastValue_isSome _ k).1 (by rw [h]; rfl)
  have hk : k = str% "name" ∨ k = str% "bs" ∨ k = str% "name" := by simpa using hk
  rcases hk with rfl | rfl | rfl <;> cases h <;> exact ⟨(serName_iff.1 rfl).1, by decide⟩

/-- C108, non-vacuity: the same calls in another order give an equal component with another text. -/
example : (componentAfter (str% "@query-params") [(str% "a", str% "1"), (str% "b", str% "2")]).rustEq
    (componentAfter (str% "@query-params") [(str% "b", str% "3"), (str% "a", str% "1"), (str% "b", str% "2")]) = true := by
  rw [C108_equal]
  refine ⟨rfl, fun k => ?_⟩
  by_cases ha : str% "a" = k
  · subst ha; rfl
  · by_cases hb : str% "b" = k
    · subst hb; rfl
    · simp [lastValue, ha, hb]

/-- C108, non-vacuity: a parameter name with a capital letter has no text, so that the component cannot be written. -/
example (s : Str) : (componentAfter (str% "@query-params") [(str% "Name", str% "a")]).display ≠ .ok s := by
  intro h
  have hk := (((C108_text _ _ s).1 h).2.1 (str% "Name") _ rfl).1
  cases serName_iff.2 ⟨hk, rfl⟩

end Httpsig
