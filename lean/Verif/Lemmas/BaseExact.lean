import Verif.Lemmas.CanonInj2
import Verif.Spec.Confusable
/-
Exactly when the lines of a signature base determine the values in them.
-/
set_option linter.unusedSectionVars false
namespace Httpsig
open Sfv

/-- If `x ++ n :: r = p ++ t` and `n` is not in `p`, then `p` is a prefix of `x`. -/
theorem prefix_of_no_newline {α : Type} {n : α} : ∀ {p x r t : List α}, n ∉ p → x ++ n :: r = p ++ t → ∃ y, x = p ++ y ∧ t = y ++ n :: r
  | [], x, r, t, _, h => ⟨x, rfl, h.symm⟩
  | a :: p, [], r, t, hn, h => by
    simp only [List.nil_append, List.cons_append, List.cons.injEq] at h
    exact absurd h.1 (by rintro rfl; simp at hn)
  | a :: p, b :: x, r, t, hn, h => by
    simp only [List.cons_append, List.cons.injEq] at h
    obtain ⟨y, hy, ht⟩ := prefix_of_no_newline (p := p) (by simp at hn; exact hn.2) h.2
    exact ⟨y, by rw [h.1, hy]; rfl, ht⟩

/-- Two ways of cutting a text at a separator: at the same place, or one before the other. -/
theorem append_cons_cases {α : Type} {n : α} : ∀ {a b s t : List α}, a ++ n :: s = b ++ n :: t →
    (a = b ∧ s = t) ∨ (∃ y, a = b ++ n :: y ∧ t = y ++ n :: s) ∨ (∃ y, b = a ++ n :: y ∧ s = y ++ n :: t)
  | [], [], s, t, h => by simp only [List.nil_append, List.cons.injEq, true_and] at h; exact .inl ⟨rfl, h⟩
  | [], x :: b, s, t, h => by
    simp only [List.nil_append, List.cons_append, List.cons.injEq] at h
    exact .inr (.inr ⟨b, by rw [h.1]; rfl, h.2⟩)
  | x :: a, [], s, t, h => by
    simp only [List.nil_append, List.cons_append, List.cons.injEq] at h
    exact .inr (.inl ⟨a, by rw [h.1]; rfl, h.2.symm⟩)
  | x :: a, y :: b, s, t, h => by
    simp only [List.cons_append, List.cons.injEq] at h
    obtain ⟨rfl, h⟩ := h
    rcases append_cons_cases h with ⟨rfl, rfl⟩ | ⟨z, rfl, rfl⟩ | ⟨z, rfl, rfl⟩
    · exact .inl ⟨rfl, rfl⟩
    · exact .inr (.inl ⟨z, rfl, rfl⟩)
    · exact .inr (.inr ⟨z, rfl, rfl⟩)

theorem specLines_cons (i : Str) (ids : List Str) (v : Str) (vals : List Str) :
    specLines (i :: ids) (v :: vals) = (i ++ str% ": ") ++ v ++ '\n' :: specLines ids vals := by
  simp [specLines]

/-- Lines that are read later than they begin: some value contains the start of its own line. -/
theorem late_lines : ∀ {ids vals vals' : List Str} {x : Str}, vals.length = ids.length → vals'.length = ids.length →
    (∀ i ∈ ids, '\n' ∉ i) → specLines ids vals = x ++ '\n' :: specLines ids vals' →
    ∃ (k : Nat) (v id : Str), vals[k]? = some v ∧ ids[k]? = some id ∧ Occurs (lineStart id) v
  | [], vals, vals', x, h1, h2, _, h => by simp [specLines] at h
  | i :: ids, v :: vals, w :: vals', x, h1, h2, h3, h => by
    have hp : '\n' ∉ i ++ str% ": " := by simp [h3 i (by simp)]
    rw [specLines_cons, specLines_cons] at h
    have h' : (i ++ str% ": " ++ v) ++ '\n' :: specLines ids vals =
        (x ++ '\n' :: (i ++ str% ": " ++ w)) ++ '\n' :: specLines ids vals' := by simpa using h
    have first : ∀ {y : Str}, i ++ str% ": " ++ v = x ++ '\n' :: (i ++ str% ": " ++ w) ++ y →
        ∃ (k : Nat) (u id : Str), (v :: vals)[k]? = some u ∧ (i :: ids)[k]? = some id ∧ Occurs (lineStart id) u := by
      intro y e
      have e' : x ++ '\n' :: ((i ++ str% ": " ++ w) ++ y) = (i ++ str% ": ") ++ v := by simpa using e.symm
      obtain ⟨z, _, hz⟩ := prefix_of_no_newline hp e'
      exact ⟨0, v, i, rfl, rfl, z, w ++ y, by rw [hz]; simp [lineStart]⟩
    rcases append_cons_cases h' with ⟨e, _⟩ | ⟨y, e, _⟩ | ⟨y, _, e⟩
    · exact first (y := []) (by simpa using e)
    · exact first (y := '\n' :: y) (by simpa using e)
    · obtain ⟨k, u, id, a, b, c⟩ := late_lines (by simpa using h1) (by simpa using h2) (fun j hj => h3 j (by simp [hj])) e
      exact ⟨k + 1, u, id, by simpa using a, by simpa using b, c⟩

theorem ConfusableText.cons {i v : Str} {ids vals : List Str} (h : ConfusableText ids vals) : ConfusableText (i :: ids) (v :: vals) := by
  obtain ⟨a, b, u, id, h1, h2, h3, h4⟩ := h
  exact ⟨a + 1, b + 1, u, id, by simpa using h1, by simpa using h2, by omega, h4⟩

/-- Values that are not confusable are determined by the lines, whatever the other values are. -/
theorem specLines_unique : ∀ {ids vals vals' : List Str}, vals.length = ids.length → vals'.length = ids.length →
    (∀ i ∈ ids, '\n' ∉ i) → ¬ ConfusableText ids vals → specLines ids vals = specLines ids vals' → vals = vals'
  | [], [], [], _, _, _, _, _ => rfl
  | i :: ids, v :: vals, w :: vals', h1, h2, h3, hn, h => by
    rw [specLines_cons, specLines_cons, List.append_assoc (i ++ _), List.append_assoc (i ++ _)] at h
    have h := List.append_cancel_left h
    have l1 : vals.length = ids.length := by simpa using h1
    have l2 : vals'.length = ids.length := by simpa using h2
    have g3 : ∀ j ∈ ids, '\n' ∉ j := fun j hj => h3 j (by simp [hj])
    rcases append_cons_cases h with ⟨rfl, e⟩ | ⟨y, e, e'⟩ | ⟨y, _, e⟩
    · rw [specLines_unique l1 l2 g3 (fun hc => hn hc.cons) e]
    · -- the value runs into the next line
      exfalso
      cases ids with
      | nil => simp [specLines] at e'
      | cons j ids =>
        cases vals' with
        | nil => simp at l2
        | cons w' vals' =>
          rw [specLines_cons, List.append_assoc] at e'
          obtain ⟨z, hz, _⟩ := prefix_of_no_newline (by simp [g3 j (by simp)]) e'.symm
          exact hn ⟨0, 1, v, j, rfl, rfl, .inl rfl, w, z, by rw [e, hz]; simp [lineStart]⟩
    · exfalso
      obtain ⟨k, u, id, a, b, c⟩ := late_lines l1 l2 g3 e
      exact hn ⟨k + 1, k + 1, u, id, by simpa using a, by simpa using b, .inr ⟨rfl, by omega⟩, c⟩

/-- Confusable values have an alternative. -/
theorem specLines_other : ∀ {ids vals : List Str}, vals.length = ids.length → ConfusableText ids vals →
    ∃ vals', vals'.length = ids.length ∧ vals' ≠ vals ∧ specLines ids vals' = specLines ids vals := by
  have step : ∀ {ids vals : List Str} (n : Nat), vals.length = ids.length →
      ∀ {i j : Nat} {v id : Str}, n = i → vals[i]? = some v → ids[j]? = some id → (j = i + 1 ∨ j = i ∧ 0 < i) → Occurs (lineStart id) v →
      ∃ vals', vals'.length = ids.length ∧ vals' ≠ vals ∧ specLines ids vals' = specLines ids vals := by
    intro ids vals n
    induction n generalizing ids vals with
    | zero =>
      intro hl i j v id hi hv hid hij ho
      subst hi
      obtain rfl : j = 1 := by omega
      match ids, vals, hl, hv, hid with
      | i0 :: i1 :: ids, v0 :: v1 :: vals, hl, hv, hid =>
        simp at hv hid
        subst hv hid
        obtain ⟨a, b, rfl⟩ := ho
        refine ⟨a :: (b ++ lineStart i1 ++ v1) :: vals, by simpa using hl, ?_, ?_⟩
        · intro e
          simp only [List.cons.injEq] at e
          have := congrArg List.length e.1
          simp [lineStart] at this
        · simp [specLines, lineStart]
    | succ n ih =>
      intro hl i j v id hi hv hid hij ho
      subst hi
      by_cases h1 : j = 1
      · -- own line, directly after the first one
        obtain rfl : n = 0 := by omega
        subst h1
        match ids, vals, hl, hv, hid with
        | i0 :: i1 :: ids, v0 :: v1 :: vals, hl, hv, hid =>
          simp at hv hid
          subst hv hid
          obtain ⟨a, b, rfl⟩ := ho
          refine ⟨(v0 ++ lineStart i1 ++ a) :: b :: vals, by simpa using hl, ?_, ?_⟩
          · intro e
            simp only [List.cons.injEq] at e
            have := congrArg List.length e.1
            simp [lineStart] at this
          · simp [specLines, lineStart]
      · match ids, vals, hl, hv, hid with
        | i0 :: ids, v0 :: vals, hl, hv, hid =>
          obtain ⟨j, rfl⟩ : ∃ j', j = j' + 1 := ⟨j - 1, by omega⟩
          obtain ⟨vals', a, b, c⟩ := ih (ids := ids) (vals := vals) (by simpa using hl) (i := n) (j := j) rfl (by simpa using hv)
            (by simpa using hid) (by omega) ho
          exact ⟨v0 :: vals', by simpa using a, fun e => b (List.cons.inj e).2, by simp [specLines, c]⟩
  intro ids vals hl ⟨i, j, v, id, hv, hid, hij, ho⟩
  exact step i hl rfl hv hid hij ho

section
variable [Deps]

theorem Forall2.getElem {α β : Type} {r : α → β → Prop} : ∀ {as : List α} {bs : List β}, Forall2 r as bs → ∀ {i : Nat} {b : β},
    bs[i]? = some b → ∃ a, as[i]? = some a ∧ r a b
  | _, _, .nil, i, b, h => by simp at h
  | _, _, .cons h1 h2, i, b, h => by
    cases i with
    | zero => simp at h; subst h; exact ⟨_, rfl, h1⟩
    | succ i => exact Forall2.getElem h2 (by simpa using h)

theorem confusable_text {R : Type} [RequestLike R] {r : R} {cs : List SignatureComponent} {ids vals : List Str}
    (hv : Values r cs vals) (hi : Forall2 Ident cs ids) (h : ConfusableText ids vals) : Confusable r cs := by
  obtain ⟨i, j, v, id, h1, h2, h3, h4⟩ := h
  obtain ⟨k, hk, hd⟩ := hv.getElem h1
  obtain ⟨l, hl, hid⟩ := hi.getElem h2
  exact ⟨i, j, k, l, v, id, hk, hl, h3, hd, hid, h4⟩

theorem text_confusable {R : Type} [RequestLike R] {r : R} {cs : List SignatureComponent} {ids vals : List Str}
    (hv : Values r cs vals) (hi : Forall2 Ident cs ids) (h : Confusable r cs) : ConfusableText ids vals := by
  obtain ⟨i, j, k, l, v, id, h1, h2, h3, hd, hid, h4⟩ := h
  refine ⟨i, j, v, id, ?_, ?_, h3, h4⟩
  · have := congrArg (fun l => l[i]?) hv
    simp only [List.getElem?_map, h1, Option.map_some, hd] at this
    cases hx : vals[i]? with
    | none => rw [hx] at this; cases this
    | some x => rw [hx] at this; cases this; rfl
  · have hlen := hi.length_eq
    have hj : j < cs.length := by
      rcases Nat.lt_or_ge j cs.length with h | h
      · exact h
      · rw [List.getElem?_eq_none h] at h2; cases h2
    obtain ⟨l', e, hid'⟩ := hi.getElem (i := j) (b := ids[j]'(by omega)) (List.getElem?_eq_getElem (by omega))
    rw [h2] at e
    cases e
    rw [hid.det hid']
    exact List.getElem?_eq_getElem _

end
end Httpsig
