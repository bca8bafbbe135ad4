import Verif.Lemmas.BaseExact
/-
Lines of a signature base, one of which is longer than every value with a newline.
-/
set_option linter.unusedSectionVars false
namespace Httpsig
open Sfv
variable [Deps]

/-- `t` is empty or ends in a newline. -/
def AtLineStart (t : Str) : Prop := t = [] ∨ ∃ t', t = t' ++ ['\n']

/-- `l` is a line of `t`. -/
def LineIn (l t : Str) : Prop := ∃ a b, AtLineStart a ∧ t = a ++ l ++ '\n' :: b

theorem specLines_atLineStart (ids vals : List Str) : AtLineStart (specLines ids vals) := specLines_nil_or_newline ids vals

/-- Two texts around a line each, put together: the lines are in the same place, or one is in what precedes the other. -/
theorem line_cases {a b a' b' l l' : Str} (ha : AtLineStart a) (ha' : AtLineStart a') (hl : '\n' ∉ l) (hl' : '\n' ∉ l')
    (h : a ++ l ++ '\n' :: b = a' ++ l' ++ '\n' :: b') :
    l = l' ∨ (LineIn l' a ∧ LineIn l b') ∨ (LineIn l a' ∧ LineIn l' b) := by
  have later : ∀ {a b a' b' l l' y : Str}, AtLineStart a → AtLineStart a' → '\n' ∉ l → a ++ l = a' ++ l' ++ '\n' :: y →
      b' = y ++ '\n' :: b → LineIn l' a ∧ LineIn l b' := by
    intro a b a' b' l l' y ha ha' hl e eb
    rcases ha with rfl | ⟨t, rfl⟩
    · exfalso
      rw [List.nil_append] at e
      rw [e] at hl
      simp at hl
    · have e' : t ++ '\n' :: l = (a' ++ l') ++ '\n' :: y := by simpa using e
      rcases append_cons_cases e' with ⟨rfl, rfl⟩ | ⟨z, rfl, rfl⟩ | ⟨z, _, ez⟩
      · exact ⟨⟨a', [], ha', by simp⟩, ⟨[], b, .inl rfl, by rw [eb]; simp⟩⟩
      · exact ⟨⟨a', z ++ ['\n'], ha', by simp⟩, ⟨z ++ ['\n'], b, .inr ⟨z, rfl⟩, by rw [eb]; simp⟩⟩
      · rw [ez] at hl; simp at hl
  rcases append_cons_cases h with ⟨e, _⟩ | ⟨y, e, e'⟩ | ⟨y, e, e'⟩
  · left
    rcases ha with rfl | ⟨t, rfl⟩ <;> rcases ha' with rfl | ⟨t', rfl⟩
    · simpa using e
    · rw [List.nil_append] at e; rw [e] at hl; simp at hl
    · rw [List.nil_append] at e; rw [← e] at hl'; simp at hl'
    · exact (append_cons_inj_right hl hl' (by simpa using e)).2
  · exact .inr (.inl (later ha ha' hl e e'))
  · exact .inr (.inr (later ha' ha hl' e e'))

/-- A line of the lines is one of them, or within a value. -/
theorem lineIn_specLines {id u : Str} (hid : '\n' ∉ id) (hu : '\n' ∉ u) : ∀ {ids vals : List Str}, vals.length = ids.length →
    (∀ i ∈ ids, '\n' ∉ i) → LineIn (id ++ str% ": " ++ u) (specLines ids vals) →
    (∃ (k : Nat) (i v x y : Str), ids[k]? = some i ∧ vals[k]? = some v ∧ i ++ str% ": " ++ (v ++ '\n' :: x) = id ++ str% ": " ++ (u ++ '\n' :: y)) ∨
    ∃ v ∈ vals, u.length < v.length ∧ '\n' ∈ v
  | [], vals, _, _, h => by
    obtain ⟨a, b, _, h⟩ := h
    simp [specLines] at h
  | i :: ids, [], h, _, _ => by simp at h
  | i :: ids, v :: vals, h1, h2, ⟨a, b, ha, h⟩ => by
    have hn : '\n' ∉ id ++ str% ": " ++ u := by simp [hid, hu]
    have hi : '\n' ∉ i ++ str% ": " := by simp [h2 i (by simp)]
    have next : LineIn (id ++ str% ": " ++ u) (specLines ids vals) →
        (∃ (k : Nat) (j w x y : Str), (i :: ids)[k]? = some j ∧ (v :: vals)[k]? = some w ∧
          j ++ str% ": " ++ (w ++ '\n' :: x) = id ++ str% ": " ++ (u ++ '\n' :: y)) ∨
        ∃ w ∈ v :: vals, u.length < w.length ∧ '\n' ∈ w := by
      intro hl
      rcases lineIn_specLines hid hu (by simpa using h1) (fun j hj => h2 j (by simp [hj])) hl with ⟨k, j, w, x, y, e1, e2, e3⟩ | ⟨w, hw, hlen⟩
      · exact .inl ⟨k + 1, j, w, x, y, by simpa using e1, by simpa using e2, e3⟩
      · exact .inr ⟨w, by simp [hw], hlen⟩
    rw [specLines_cons] at h
    rcases ha with rfl | ⟨t, rfl⟩
    · exact .inl ⟨0, i, v, _, _, rfl, rfl, by simpa using h⟩
    · have h' : (i ++ str% ": " ++ v) ++ '\n' :: specLines ids vals = t ++ '\n' :: ((id ++ str% ": " ++ u) ++ '\n' :: b) := by simpa using h
      rcases append_cons_cases h' with ⟨_, e⟩ | ⟨y, e, e'⟩ | ⟨y, _, e⟩
      · exact next ⟨[], b, .inl rfl, by rw [e]; simp⟩
      · right
        obtain ⟨z, _, hz⟩ := prefix_of_no_newline hi (show t ++ '\n' :: y = (i ++ str% ": ") ++ v from e.symm)
        obtain ⟨z', hz', _⟩ := prefix_of_no_newline hn e'.symm
        refine ⟨v, by simp, ?_, by rw [hz]; simp⟩
        rw [hz, hz']
        simp
        omega
      · exact next ⟨y ++ ['\n'], b, .inr ⟨y, rfl⟩, by rw [e]; simp⟩

theorem specLines_append : ∀ {ids ids' vals vals' : List Str}, vals.length = ids.length →
    specLines (ids ++ ids') (vals ++ vals') = specLines ids vals ++ specLines ids' vals'
  | [], _, [], _, _ => by simp [specLines]
  | i :: ids, ids', v :: vals, vals', h => by
    simp only [List.cons_append, specLines_cons, specLines_append (ids := ids) (by simpa using h)]
    simp

theorem split_at {α : Type} : ∀ {l : List α} {j : Nat} {x : α}, l[j]? = some x → ∃ a b, l = a ++ x :: b ∧ a.length = j
  | [], j, x, h => by simp at h
  | y :: l, 0, x, h => by simp at h; exact ⟨[], l, by rw [h]; rfl, rfl⟩
  | y :: l, j + 1, x, h => by
    obtain ⟨a, b, rfl, hl⟩ := split_at (l := l) (by simpa using h)
    exact ⟨y :: a, b, rfl, by simp [hl]⟩

/-- Equal lines: if a value without newline is, on each side, at least as long as every value with a newline, then it is the
same on both sides. The identifier of its line begins no other line. -/
theorem key_value_eq {ids vals vals' : List Str} {j : Nat} {id u u' : Str} (h1 : vals.length = ids.length) (h2 : vals'.length = ids.length)
    (hi : ∀ i ∈ ids, '\n' ∉ i) (hj : ids[j]? = some id) (hu : vals[j]? = some u) (hu' : vals'[j]? = some u')
    (nu : '\n' ∉ u) (nu' : '\n' ∉ u')
    (hid : ∀ i ∈ ids, ∀ x y, i ++ str% ": " ++ x = id ++ str% ": " ++ y → i = id)
    (hk : ∀ k : Nat, ids[k]? = some id → vals[k]? = some u ∧ vals'[k]? = some u')
    (hv : ∀ v ∈ vals, '\n' ∈ v → v.length ≤ u.length) (hv' : ∀ v ∈ vals', '\n' ∈ v → v.length ≤ u'.length)
    (h : specLines ids vals = specLines ids vals') : u = u' := by
  obtain ⟨i1, i2, e1, l1⟩ := split_at hj
  obtain ⟨v1, v2, e2, l2⟩ := split_at hu
  obtain ⟨w1, w2, e3, l3⟩ := split_at hu'
  have hidn : '\n' ∉ id := hi id (by rw [e1]; simp)
  have hl : ∀ {x : Str}, '\n' ∉ x → '\n' ∉ id ++ str% ": " ++ x := by intro x hx; simp [hidn, hx]
  -- a line with the identifier, in part of the lines of one side
  have inside : ∀ {is vs : List Str} {x x' : Str} (n : Nat), '\n' ∉ x → '\n' ∉ x' → vs.length = is.length → (∀ i ∈ is, i ∈ ids) →
      (∀ k : Nat, is[k]? = some id → vs[k]? = some x') → LineIn (id ++ str% ": " ++ x) (specLines is vs) →
      x = x' ∨ ∃ v ∈ vs, x.length < v.length ∧ '\n' ∈ v := by
    intro is vs x x' _ hx hx' hlen hsub hval hin
    rcases lineIn_specLines hidn hx hlen (fun i h => hi i (hsub i h)) hin with ⟨k, i, v, y, z, a, b, c⟩ | h
    · left
      have := hid i (hsub i (List.mem_iff_getElem?.2 ⟨k, a⟩)) _ _ c
      subst this
      have hvx : v = x' := Option.some.inj (b.symm.trans (hval k a))
      subst hvx
      have c := List.append_cancel_left c
      exact (append_cons_inj hx' hx c).1.symm
    · exact .inr h
  have hpart : ∀ i, i ∈ i1 ∨ i ∈ i2 → i ∈ ids := by intro i h; rw [e1]; rcases h with h | h <;> simp [h]
  have key1 : ∀ {vs : List Str} {x : Str}, (∀ k : Nat, ids[k]? = some id → vs[k]? = some x) → ∀ {p q : List Str} {z : Str}, vs = p ++ z :: q →
      p.length = j → (∀ k : Nat, i1[k]? = some id → p[k]? = some x) ∧ ∀ k : Nat, i2[k]? = some id → q[k]? = some x := by
    intro vs x hx p q z e lp
    constructor
    · intro k hk
      have hlt : k < i1.length := by
        rcases Nat.lt_or_ge k i1.length with h | h
        · exact h
        · rw [List.getElem?_eq_none h] at hk; cases hk
      have := hx k (by rw [e1, List.getElem?_append_left hlt]; exact hk)
      rw [e, List.getElem?_append_left (by omega)] at this
      exact this
    · intro k hk
      have := hx (j + 1 + k) (by
        rw [e1, List.getElem?_append_right (by omega), show j + 1 + k - i1.length = k + 1 by omega]
        simpa using hk)
      rw [e, List.getElem?_append_right (by omega), show j + 1 + k - p.length = k + 1 by omega] at this
      simpa using this
  have len : v1.length = i1.length ∧ v2.length = i2.length ∧ w1.length = i1.length ∧ w2.length = i2.length := by
    rw [e1, e2] at h1
    rw [e1, e3] at h2
    simp at h1 h2
    omega
  have ku := key1 (fun k hk' => (hk k hk').1) e2 l2
  have kw := key1 (fun k hk' => (hk k hk').2) e3 l3
  rw [e1, e2, e3, specLines_append len.1, specLines_append len.2.2.1, specLines_cons, specLines_cons] at h
  have h' : specLines i1 v1 ++ (id ++ str% ": " ++ u) ++ '\n' :: specLines i2 v2 =
      specLines i1 w1 ++ (id ++ str% ": " ++ u') ++ '\n' :: specLines i2 w2 := by simpa using h
  have subv : ∀ v, v ∈ v1 ∨ v ∈ v2 → v ∈ vals := by intro v h; rw [e2]; rcases h with h | h <;> simp [h]
  have subw : ∀ v, v ∈ w1 ∨ v ∈ w2 → v ∈ vals' := by intro v h; rw [e3]; rcases h with h | h <;> simp [h]
  rcases line_cases (specLines_atLineStart _ _) (specLines_atLineStart _ _) (hl nu) (hl nu') h' with e | ⟨a, b⟩ | ⟨a, b⟩
  · exact List.append_cancel_left e
  · rcases inside 0 nu' nu len.1 (fun i h => hpart i (.inl h)) ku.1 a with e | ⟨v, hvm, g1, g2⟩
    · exact e.symm
    rcases inside 0 nu nu' len.2.2.2 (fun i h => hpart i (.inr h)) kw.2 b with e | ⟨w, hwm, g3, g4⟩
    · exact e
    have := hv v (subv v (.inl hvm)) g2
    have := hv' w (subw w (.inr hwm)) g4
    omega
  · rcases inside 0 nu nu' len.2.2.1 (fun i h => hpart i (.inl h)) kw.1 a with e | ⟨v, hvm, g1, g2⟩
    · exact e
    rcases inside 0 nu' nu len.2.1 (fun i h => hpart i (.inr h)) ku.2 b with e | ⟨w, hwm, g3, g4⟩
    · exact e.symm
    have := hv' v (subw v (.inl hvm)) g2
    have := hv w (subv w (.inr hwm)) g4
    omega

/-- Equal lines have equal values if values are equal wherever there are newlines. -/
theorem specLines_values_eq : ∀ {ids vals vals' : List Str}, vals.length = ids.length → vals'.length = ids.length →
    (∀ i ∈ ids, '\n' ∉ i) → (∀ (k : Nat) (v v' : Str), vals[k]? = some v → vals'[k]? = some v' → '\n' ∈ v ∨ '\n' ∈ v' → v = v') →
    specLines ids vals = specLines ids vals' → vals = vals'
  | [], [], [], _, _, _, _, _ => rfl
  | i :: ids, v :: vals, v' :: vals', h1, h2, h3, hq, h => by
    have hi := h3 i (by simp)
    rw [specLines_cons, specLines_cons, List.append_assoc (i ++ _), List.append_assoc (i ++ _)] at h
    have h := List.append_cancel_left h
    have : v = v' ∧ specLines ids vals = specLines ids vals' := by
      by_cases hn : '\n' ∈ v ∨ '\n' ∈ v'
      · have := hq 0 v v' rfl rfl hn
        subst this
        exact ⟨rfl, by simpa using List.append_cancel_left h⟩
      · rw [not_or] at hn
        exact append_cons_inj hn.1 hn.2 h
    obtain ⟨rfl, he⟩ := this
    rw [specLines_values_eq (by simpa using h1) (by simpa using h2) (fun j hj => h3 j (by simp [hj]))
      (fun k => by simpa using hq (k + 1)) he]

end Httpsig
