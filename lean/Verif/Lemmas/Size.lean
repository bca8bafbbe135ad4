import Verif.Lemmas.Render
import Verif.Lemmas.Grammar2
import Verif.Lemmas.Base64Text
import Verif.Lemmas.QueryLength
/-
Sizes of texts: rewriting a structured field in canonical form makes it at most half as long again.
-/
set_option linter.unusedSectionVars false
namespace Httpsig
open Grammar Sfv

theorem digits_lt {s : Str} {n : Nat} (h : Digits s n) : n < 10 ^ s.length := by
  induction h with
  | nil => simp
  | snoc _ hd ih =>
    unfold Digit at hd
    rw [List.length_append, List.length_singleton, Nat.pow_succ]
    omega

theorem toDigits_size {s : Str} {n : Nat} (h : n < 10 ^ s.length) (h1 : 1 ≤ s.length) : (Nat.toDigits 10 n).length ≤ s.length :=
  (Nat.length_toDigits_le_iff (by omega) h1).2 h

theorem quoted_chars {s t : Str} (h : Chars s t) : (quoted t).length = s.length + 2 := by
  induction h with
  | nil => rfl
  | unescaped _ _ h1 h2 _ ih =>
    rw [quoted, List.flatMap_cons, if_neg (by simp [h1, h2])]
    rw [quoted] at ih
    simp only [List.length_append, List.length_cons, List.length_nil] at ih ⊢
    omega
  | escaped h1 _ ih =>
    rw [quoted, List.flatMap_cons, if_pos h1]
    rw [quoted] at ih
    simp only [List.length_append, List.length_cons, List.length_nil] at ih ⊢
    omega

theorem base64_size {s t : Str} {b : Bytes} (h : Base64Text s b) (ht : IsBase64 t b) : 2 * t.length ≤ 3 * s.length + 2 := by
  obtain ⟨syms, pad, extra, rfl, _, _, h1, h2⟩ := h
  obtain ⟨syms', pad', rfl, hp, h4, _, h3⟩ := ht
  have e1 := congrArg List.length h1
  have e2 := congrArg List.length h3
  rw [List.length_append, Httpsig.flatMap_bits_length, Httpsig.flatMap_bits_length] at e1 e2
  simp only [List.length_append, List.length_replicate] at e1 e2 h4 ⊢
  have e : syms.length = syms'.length := by omega
  rw [e] at *
  have : pad' = 0 ∨ pad' = 1 ∨ pad' = 2 := by omega
  rcases this with rfl | rfl | rfl <;> omega

theorem timeText_size {s : Str} {n : Nat} (neg : Bool) (h : Digits s n) (h1 : 1 ≤ s.length) :
    (timeText (if neg then -n else n)).length ≤ (Grammar.sign neg ++ s).length := by
  have hl := toDigits_size (digits_lt h) h1
  cases neg with
  | false =>
    have : ¬ ((n : Int) < 0) := by omega
    simp only [timeText, Grammar.sign, Bool.false_eq_true, if_false, this, List.nil_append, Int.natAbs_natCast]
    exact hl
  | true =>
    simp only [timeText, Grammar.sign, if_true, Int.natAbs_neg, Int.natAbs_natCast, List.length_append, List.length_singleton]
    split
    · simp; omega
    · simp; omega

theorem rounded_short {a b : Decimal} (h : Rounded a b) (h1 : a.scale ≤ 3) (h2 : b.scale = a.scale) : b = a := by
  obtain ⟨hn, t, e, u, l, _⟩ := h
  rw [h2] at e
  rw [← e] at u l
  have : 10 ^ a.scale ≤ 10 ^ 3 := Nat.pow_le_pow_right (by omega) h1
  obtain ⟨n, m, sc⟩ := a
  obtain ⟨n', m', sc'⟩ := b
  simp only at *
  subst hn h2
  have : m' = m := by omega
  rw [this]

theorem bare_size {s t : Str} {b : BareItem} (h : Bare s b) (ht : BareText b t) : 2 * t.length ≤ 3 * s.length := by
  cases h with
  | integer neg h h1 h2 =>
    cases ht with
    | integer _ _ =>
      have := timeText_size neg h h1
      omega
  | @decimal ip fp n neg h h1 h2 h3 h4 =>
    cases ht with
    | @decimal _ b f hr hs hi hf =>
      have hb : b = ⟨neg, n, fp.length⟩ := rounded_short hr h4 (by rw [hs]; exact Nat.min_eq_left h4)
      subst hb
      have hlt := digits_lt h
      rw [List.length_append, Nat.pow_add] at hlt
      have hl := toDigits_size (n := n / 10 ^ fp.length) (Nat.div_lt_of_lt_mul (by rw [Nat.mul_comm]; exact hlt)) h1
      have hfl : f.length ≤ fp.length := by
        cases hf with
        | zero _ => simpa using h3
        | digits _ e _ => exact Nat.le_of_eq e
      simp only [List.length_append, List.length_cons] at hl ⊢
      omega
  | string h =>
    cases ht with
    | string _ =>
      rw [quoted_chars h]
      simp only [List.length_append, List.length_cons, List.length_nil]
      omega
  | token _ => cases ht with | token _ => omega
  | binary h =>
    cases ht with
    | binary h' =>
      have := base64_size h h'
      simp only [List.length_append, List.length_cons, List.length_nil]
      omega
  | true => cases ht with | true => simp
  | false => cases ht with | false => simp

/-! ### Parameters -/

/-- Length of one parameter as written, 0 if it cannot be. -/
def paramCost (e : Str × BareItem) : Nat := ((serParams [e]).getD []).length

theorem paramsText_cost {ps : Params} {t : Str} (h : ParamsText ps t) : t.length = (ps.map paramCost).sum := by
  induction h with
  | nil => rfl
  | flag hk _ ih =>
    rw [List.map_cons, List.sum_cons, ← ih, paramCost, serParams_iff.2 (.flag hk .nil)]
    simp; omega
  | value hk hv ht _ ih =>
    rw [List.map_cons, List.sum_cons, ← ih, paramCost, serParams_iff.2 (.value hk hv ht .nil)]
    simp; omega

theorem insert_cost {V : Type} (f : Str × V → Nat) (m : IMap V) (k : Str) (v : V) :
    ((IMap.insert m k v).map f).sum ≤ (m.map f).sum + f (k, v) := by
  induction m with
  | nil => simp [IMap.insert]
  | cons e m ih =>
    obtain ⟨k', v'⟩ := e
    unfold IMap.insert
    split
    · rename_i h; subst h; simp only [List.map_cons, List.sum_cons]; omega
    · simp only [List.map_cons, List.sum_cons]; omega

theorem collect_cost {V : Type} (f : Str × V → Nat) (l : List (Str × V)) : ((collect l).map f).sum ≤ (l.map f).sum := by
  rw [← foldl_collect]
  suffices ∀ m : IMap V, ((l.foldl (fun (m : IMap V) e => IMap.insert m e.1 e.2) m).map f).sum ≤ (m.map f).sum + (l.map f).sum by
    simpa using this []
  induction l with
  | nil => simp
  | cons e l ih =>
    intro m
    have h1 := ih (IMap.insert m e.1 e.2)
    have h2 : _ ≤ _ + f e := insert_cost f m e.1 e.2
    simp only [List.foldl_cons, List.map_cons, List.sum_cons] at *
    omega

theorem parameters_cost {p : Str} {ps : List (Str × BareItem)} (h : Parameters p ps) : 2 * (ps.map paramCost).sum ≤ 3 * p.length := by
  induction h with
  | nil => simp
  | @flag w k s ps _ hk _ ih =>
    have : paramCost (k, .boolean Bool.true) = 1 + k.length := by
      rw [paramCost, serParams_iff.2 (.flag (.inr hk) .nil)]; simp; omega
    simp only [List.map_cons, List.sum_cons, List.length_append, List.length_cons, this]
    omega
  | @value w k v s b ps _ hk hb _ ih =>
    have : 2 * paramCost (k, b) ≤ 2 + 3 * k.length + 3 + 3 * v.length := by
      unfold paramCost
      cases e : serParams [(k, b)] with
      | none => simp
      | some t =>
        have := serParams_iff.1 e
        cases this with
        | flag _ h => cases h; simp; omega
        | value _ _ ht h =>
          cases h
          have := bare_size hb ht
          simp; omega
    simp only [List.map_cons, List.sum_cons, List.length_append, List.length_cons]
    omega

theorem params_size {p t : Str} {ps : List (Str × BareItem)} (h : Parameters p ps) (ht : ParamsText (collect ps) t) :
    2 * t.length ≤ 3 * p.length := by
  have h1 := paramsText_cost ht
  have h2 := collect_cost paramCost ps
  have h3 := parameters_cost h
  omega

theorem item_size {s t : Str} {i : Item} (h : ItemText s i) (ht : WrittenItem i t) : 2 * t.length ≤ 3 * s.length := by
  cases h with
  | mk hb hp =>
    cases ht with
    | mk hb' hp' =>
      have h1 := bare_size hb hb'
      have h2 := params_size hp hp'
      simp only [List.length_append]
      omega

/-! ### Lists -/

/-- Text of items, without the spaces between them, compared with the text of the list they come from. -/
theorem tail_size {t : Str} {is : List Item} (h : ItemsTail t is) :
    ∃ ss : List Str, Forall2 ItemText ss is ∧ (ss.map fun s => s.length + 1).sum ≤ t.length := by
  induction h with
  | nil _ => exact ⟨[], .nil, by simp⟩
  | @cons w s t i is _ hw hi _ ih =>
    obtain ⟨ss, h1, h2⟩ := ih
    refine ⟨s :: ss, .cons hi h1, ?_⟩
    have : 0 < w.length := List.length_pos_iff.2 hw
    simp only [List.map_cons, List.sum_cons, List.length_append]
    omega

/-- The parts of an inner list are texts of the text of the list. -/
theorem inner_size {t : Str} {l : InnerList} (h : InnerText t l) : ∃ (ss : List Str) (p : Str) (ps : List (Str × BareItem)),
    Forall2 ItemText ss l.items ∧ Parameters p ps ∧ l.params = collect ps ∧
      (ss.map fun s => s.length + 1).sum + p.length + 1 ≤ t.length ∧ p.length + 2 ≤ t.length := by
  cases h with
  | nil _ hp => exact ⟨[], _, _, .nil, hp, rfl, by simp; omega, by simp⟩
  | cons _ hi ht hp =>
    obtain ⟨ss, h1, h2⟩ := tail_size ht
    refine ⟨_ :: ss, _, _, .cons hi h1, hp, rfl, ?_, ?_⟩
    · simp only [List.map_cons, List.sum_cons, List.length_append, List.length_cons]; omega
    · simp only [List.length_append, List.length_cons]; omega

theorem members_size {s : Str} {ms : List (Str × ListEntry)} (h : Members s ms) {k : Str} {e : ListEntry} (he : (k, e) ∈ ms) :
    ∃ t, Member t k e ∧ t.length ≤ s.length := by
  induction h with
  | last h _ =>
    simp only [List.mem_singleton, Prod.mk.injEq] at he
    obtain ⟨rfl, rfl⟩ := he
    exact ⟨_, h, by simp⟩
  | more h _ _ _ ih =>
    rcases List.mem_cons.1 he with he | he
    · simp only [Prod.mk.injEq] at he
      obtain ⟨rfl, rfl⟩ := he
      exact ⟨_, h, by simp only [List.length_append]; omega⟩
    · obtain ⟨t, h1, h2⟩ := ih he
      exact ⟨t, h1, by simp only [List.length_append, List.length_cons]; omega⟩

theorem mem_of_collect {V : Type} {l : List (Str × V)} {e : Str × V} (h : e ∈ collect l) : e ∈ l := by
  unfold collect at h
  obtain ⟨k, _, h2⟩ := List.mem_filterMap.1 h
  unfold lastValue at h2
  cases hf : l.reverse.find? fun e => e.1 = k with
  | none => rw [hf] at h2; simp at h2
  | some x =>
    rw [hf] at h2
    have h3 := List.find?_some hf
    simp only [decide_eq_true_eq] at h3
    simp only [Option.map_some, Option.some.injEq] at h2
    subst h3 h2
    exact List.mem_reverse.1 (List.mem_of_find?_eq_some hf)

theorem dict_size {s : Str} {d : Dictionary} (h : Dict s d) {k : Str} {l : InnerList} (hl : d.head? = some (k, .innerList l)) :
    ∃ t, InnerText t l ∧ t.length + 2 ≤ s.length := by
  cases h with
  | empty _ => simp at hl
  | mk _ hm =>
    obtain ⟨t, h1, h2⟩ := members_size hm (mem_of_collect (List.mem_of_head? hl))
    cases h1 with
    | inner hk h =>
      obtain ⟨c, cs, rfl, _⟩ := Key.head hk
      refine ⟨_, h, ?_⟩
      simp only [List.length_append, List.length_cons] at h2 ⊢
      omega

end Httpsig
