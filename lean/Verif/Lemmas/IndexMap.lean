import Verif.IndexMap
/- Facts about insertion-ordered maps. -/
namespace Httpsig.IMap
variable {V : Type}

theorem mem_keys_insert {m : IMap V} {k k' : Str} {v : V} :
    k' ∈ (insert m k v).map Prod.fst ↔ k' = k ∨ k' ∈ m.map Prod.fst := by
  induction m with
  | nil => simp [insert]
  | cons e m ih =>
    obtain ⟨a, b⟩ := e
    simp only [insert]
    split
    · rename_i h; subst h; simp
    · simp only [List.map_cons, List.mem_cons, ih]
      exact or_left_comm

theorem NodupKeys.insert {m : IMap V} (h : NodupKeys m) (k : Str) (v : V) : NodupKeys (IMap.insert m k v) := by
  induction m with
  | nil => simp [NodupKeys, IMap.insert]
  | cons e m ih =>
    obtain ⟨a, b⟩ := e
    simp only [NodupKeys, List.map_cons, List.nodup_cons] at h
    simp only [IMap.insert]
    split
    · simpa only [NodupKeys, List.map_cons, List.nodup_cons] using h
    · rename_i hne
      simp only [NodupKeys, List.map_cons, List.nodup_cons]
      refine ⟨?_, ih h.2⟩
      rw [mem_keys_insert]
      rintro (rfl | h')
      · exact hne rfl
      · exact h.1 h'

theorem nodupKeys_nil : NodupKeys ([] : IMap V) := by simp [NodupKeys]

theorem insert_of_not_mem {m : IMap V} {k : Str} {v : V} (h : k ∉ m.map Prod.fst) :
    insert m k v = m ++ [(k, v)] := by
  induction m with
  | nil => rfl
  | cons e m ih =>
    obtain ⟨a, b⟩ := e
    simp only [List.map_cons, List.mem_cons, not_or] at h
    rw [insert, if_neg (fun e => h.1 e.symm), ih h.2]; rfl

theorem mem_insert {m : IMap V} {k : Str} {v : V} {e : Str × V} (h : e ∈ insert m k v) :
    e = (k, v) ∨ e ∈ m := by
  induction m with
  | nil => simp [insert] at h; exact Or.inl h
  | cons x m ih =>
    obtain ⟨a, b⟩ := x
    simp only [insert] at h
    split at h
    · rename_i hk
      rcases List.mem_cons.1 h with h | h
      · exact Or.inl (by rw [h, hk])
      · exact Or.inr (List.mem_cons_of_mem _ h)
    · rcases List.mem_cons.1 h with h | h
      · exact Or.inr (by rw [h]; exact List.mem_cons_self ..)
      · rcases ih h with h | h
        · exact Or.inl h
        · exact Or.inr (List.mem_cons_of_mem _ h)

@[simp] theorem get_insert_self {m : IMap V} {k : Str} {v : V} : get (insert m k v) k = some v := by
  induction m with
  | nil => simp [insert, get]
  | cons e m ih =>
    obtain ⟨a, b⟩ := e
    simp only [insert]
    split
    · rename_i h; simp [get, h]
    · rename_i h; simp [get, h, ih]

theorem get_insert_ne {m : IMap V} {k k' : Str} {v : V} (hne : k' ≠ k) : get (insert m k v) k' = get m k' := by
  induction m with
  | nil => simp [insert, get, Ne.symm hne]
  | cons e m ih =>
    obtain ⟨a, b⟩ := e
    simp only [insert]
    split
    · rename_i h; subst h; simp [get, Ne.symm hne]
    · simp only [get, ih]

theorem get_eq_none_iff {m : IMap V} {k : Str} : get m k = none ↔ k ∉ m.map Prod.fst := by
  induction m with
  | nil => simp [get]
  | cons e m ih =>
    obtain ⟨a, b⟩ := e
    simp only [get, List.map_cons, List.mem_cons, not_or]
    split
    · rename_i h; simp [h]
    · rename_i h; rw [ih]; exact ⟨fun h' => ⟨fun e => h e.symm, h'⟩, fun h' => h'.2⟩

theorem mem_of_get {m : IMap V} {k : Str} {v : V} (h : get m k = some v) : (k, v) ∈ m := by
  induction m with
  | nil => simp [get] at h
  | cons e m ih =>
    obtain ⟨a, b⟩ := e
    simp only [get] at h
    split at h
    · rename_i hk; cases h; simp [hk]
    · exact List.mem_cons_of_mem _ (ih h)

theorem get_of_mem {m : IMap V} {k : Str} {v : V} (hn : NodupKeys m) (h : (k, v) ∈ m) : get m k = some v := by
  induction m with
  | nil => simp at h
  | cons e m ih =>
    obtain ⟨a, b⟩ := e
    simp only [NodupKeys, List.map_cons, List.nodup_cons] at hn
    simp only [get]
    rcases List.mem_cons.1 h with h | h
    · cases h; simp
    · rw [if_neg, ih hn.2 h]
      rintro rfl
      exact hn.1 (List.mem_map.2 ⟨_, h, rfl⟩)

end Httpsig.IMap
