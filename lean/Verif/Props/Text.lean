import Verif.Props.Builder
import Verif.Spec.TestDeps
/-
C107: the texts of components, lists and `Signature-Input` headers.
-/
set_option linter.unusedSectionVars false
namespace Httpsig
open Sfv Grammar

theorem fits_iff (m p : Nat) (hp : 0 < p) : m / p ≤ 999999999999 ↔ m < 1000000000000 * p := by
  rw [← Nat.div_lt_iff_lt_mul hp]
  omega

theorem half_even_lt {q r p N : Nat} (hr : r < p) (hN : N % 2 = 0) :
    (if 2 * r > p ∨ (2 * r = p ∧ q % 2 = 1) then q + 1 else q) < N ↔ 2 * (p * q + r) + p < 2 * (p * N) := by
  rcases Nat.lt_trichotomy (q + 1) N with h | h | h
  · have := Nat.mul_le_mul_left p (show q + 2 ≤ N by omega)
    rw [Nat.mul_add] at this
    generalize p * q = x at *
    generalize p * N = y at *
    split <;> omega
  · subst h
    have e : p * (q + 1) = p * q + p := Nat.mul_succ p q
    rw [e]
    generalize p * q = x at *
    split <;> omega
  · have := Nat.mul_le_mul_left p (show N ≤ q by omega)
    generalize p * q = x at *
    generalize p * N = y at *
    split <;> omega

theorem round3_fits (d : Decimal) : (Decimal.round3 d).mant / 10 ^ (Decimal.round3 d).scale ≤ 999999999999 ↔
    2000 * d.mant + (if d.scale ≤ 3 then 0 else 10 ^ d.scale) < 2000 * (1000000000000 * 10 ^ d.scale) := by
  rw [fits_iff _ _ (Nat.pow_pos (by omega))]
  by_cases hs : d.scale ≤ 3
  · rw [Decimal.round3, if_pos hs, if_pos hs]
    generalize 10 ^ d.scale = p
    omega
  · obtain ⟨n, hn⟩ : ∃ n, d.scale = n + 3 := ⟨d.scale - 3, by omega⟩
    have hp : 0 < 10 ^ n := Nat.pow_pos (by omega)
    have hdm := Nat.div_add_mod d.mant (10 ^ n)
    have hsize : 10 ^ d.scale = 10 ^ n * 1000 := by rw [hn, Nat.pow_add]
    have key := half_even_lt (q := d.mant / 10 ^ n) (Nat.mod_lt d.mant hp) (N := 1000000000000000) rfl
    rw [hdm] at key
    rw [Decimal.round3, if_neg hs, if_neg hs, hsize]
    simp only [hn, Nat.add_sub_cancel]
    rw [show (1000000000000 * 10 ^ 3 : Nat) = 1000000000000000 from rfl, key]
    generalize 10 ^ n = p
    omega

/-- C107. A value has a text if and only if it is representable, and then it has exactly one. -/
theorem C107_value_text (b : BareItem) :
    ((∃ t, BareText b t) ↔ Representable b) ∧ ∀ s t, BareText b s → BareText b t → s = t := by
  refine ⟨?_, fun s t hs ht => Option.some.inj ((serBare_iff.2 hs).symm.trans (serBare_iff.2 ht))⟩
  constructor
  · rintro ⟨t, h⟩
    cases h with
    | true => exact .boolean _
    | false => exact .boolean _
    | string h => exact .string h
    | binary h => exact .binary _
    | token h => exact .token h
    | integer h1 h2 => exact .integer (by omega)
    | decimal h1 h2 h3 h4 =>
      rename_i d b f
      obtain ⟨h5, h6⟩ := rounded_round3' d
      refine .decimal ((round3_fits d).1 ?_)
      rw [← rounded_unique h1 h5 (h2.trans h6.symm)]
      exact h3
  · intro h
    cases h with
    | boolean b => cases b; exact ⟨_, .false⟩; exact ⟨_, .true⟩
    | string h => exact ⟨_, .string h⟩
    | binary b => exact ⟨_, .binary (isBase64_encode b)⟩
    | token h => exact ⟨_, .token h⟩
    | integer h => exact ⟨_, .integer (by omega) (by omega)⟩
    | decimal h =>
      rename_i d
      rw [← round3_fits] at h
      cases hs : serDecimal d with
      | some t => exact ⟨t, serDecimal_iff.1 hs⟩
      | none =>
        simp only [serDecimal] at hs
        rw [if_neg (by omega)] at hs
        split at hs <;> cases hs

theorem paramsText_exists (ps : Params) : (∃ p, ParamsText ps p) ↔ ∀ e ∈ ps, NameText e.1 ∧ Representable e.2 := by
  induction ps with
  | nil => exact ⟨fun _ _ h => (by simp at h), fun _ => ⟨_, .nil⟩⟩
  | cons e ps ih =>
    obtain ⟨k, v⟩ := e
    simp only [List.forall_mem_cons, ← ih]
    constructor
    · rintro ⟨p, h⟩
      cases h with
      | flag hk hs => exact ⟨⟨hk, .boolean _⟩, _, hs⟩
      | value hk hv ht hs => exact ⟨⟨hk, (C107_value_text v).1.1 ⟨_, ht⟩⟩, _, hs⟩
    · rintro ⟨⟨hk, hv⟩, p, hp⟩
      by_cases e : v = .boolean true
      · subst e; exact ⟨_, .flag hk hp⟩
      · obtain ⟨t, ht⟩ := (C107_value_text v).1.2 hv
        exact ⟨_, .value hk e ht hp⟩

/-- C107. Exactly which items have a text. -/
theorem C107_item_text (i : Item) :
    (∃ s, WrittenItem i s) ↔ Representable i.bare ∧ ∀ e ∈ i.params, NameText e.1 ∧ Representable e.2 := by
  obtain ⟨b, ps⟩ := i
  rw [← (C107_value_text b).1, ← paramsText_exists]
  constructor
  · rintro ⟨_, h1, h2⟩; exact ⟨⟨_, h1⟩, _, h2⟩
  · rintro ⟨⟨_, h1⟩, _, h2⟩; exact ⟨_, .mk h1 h2⟩

variable [Deps]

theorem serInnerList_iff {l : InnerList} {t : Str} : serInnerList l = some t ↔ WrittenList l t := by
  obtain ⟨is, ps⟩ := l
  simp only [serInnerList, Option.bind_eq_bind, Option.bind_eq_some_iff, serItems_text, serParams_iff]
  constructor
  · rintro ⟨a, ⟨ids, h1, h2⟩, p, hp, h⟩
    cases h
    cases h1 with
    | nil =>
      have : '(' :: a ++ ')' :: p = ('(' :: a ++ [')']) ++ p := by simp
      rw [this, h2]
      exact .empty hp
    | cons h3 h4 =>
      have : '(' :: a ++ ')' :: p = ('(' :: a ++ [')']) ++ p := by simp
      rw [this, h2]
      have := WrittenList.items (serItem_iff.1 h3) (h4.imp (fun _ _ => serItem_iff.1)) hp
      simpa [specListText] using this
  · intro h
    cases h with
    | empty hp => exact ⟨[], ⟨[], .nil, rfl⟩, _, hp, by simp⟩
    | @items i is ps s p ss h1 h2 hp =>
      exact ⟨s ++ ss.flatMap (fun t => ' ' :: t), ⟨s :: ss, .cons (serItem_iff.2 h1) (h2.imp (fun _ _ => serItem_iff.2)),
        by simp [specListText]⟩, p, hp, by simp⟩

/-- C107. What a component prints: the name of a header, and a derived component as a structured-field item. It panics if and
only if there is no such text. -/
theorem C107_component_text :
    (∀ h : HeaderName, (SignatureComponent.header h).display = .ok h.str) ∧
    (∀ (d : DerivedComponent) (s : Str), (SignatureComponent.derived d).display = .ok s ↔ WrittenItem d.item s) ∧
    (∀ d : DerivedComponent, (∃ p, (SignatureComponent.derived d).display = .error p) ↔ ∀ s, ¬ WrittenItem d.item s) := by
  refine ⟨fun _ => rfl, fun d s => ?_, fun d => ?_⟩
  · simp only [SignatureComponent.display, DerivedComponent.display, ← serItem_iff]
    cases serItem d.item <;> simp
  · simp only [SignatureComponent.display, DerivedComponent.display, ← serItem_iff]
    cases serItem d.item <;> simp

/-- C107. What a list of components prints: an inner list. It panics if and only if there is no such text. -/
theorem C107_list_text (l : ComponentList) :
    (∀ s, l.display = .ok s ↔ WrittenList l.inner s) ∧ ((∃ p, l.display = .error p) ↔ ∀ s, ¬ WrittenList l.inner s) := by
  simp only [ComponentList.display, serSingletonList, ← serInnerList_iff]
  cases serInnerList l.inner <;> simp

/-- C107. What a `Signature-Input` value prints: the label, an equals sign and the inner list. It panics if and only if there
is no such text. -/
theorem C107_input_text (i : SignatureInput) :
    (∀ s, i.display = .ok s ↔ NameText i.label ∧ ∃ t, WrittenList i.list.inner t ∧ s = i.label ++ '=' :: t) ∧
    ((∃ p, i.display = .error p) ↔ ¬ NameText i.label ∨ ∀ t, ¬ WrittenList i.list.inner t) := by
  have e : serDict (IMap.insert [] i.label (.innerList i.list.inner)) = serMember i.label (.innerList i.list.inner) := rfl
  simp only [SignatureInput.display, e]
  have h : ∀ s, serMember i.label (.innerList i.list.inner) = some s ↔
      NameText i.label ∧ ∃ t, WrittenList i.list.inner t ∧ s = i.label ++ '=' :: t := by
    intro s
    simp only [serMember, Option.bind_eq_bind, Option.bind_eq_some_iff, serName_iff, serInnerList_iff]
    constructor
    · rintro ⟨k, ⟨hk, rfl⟩, t, ht, h⟩
      cases h
      exact ⟨hk, t, ht, rfl⟩
    · rintro ⟨hk, t, ht, rfl⟩
      exact ⟨_, ⟨hk, rfl⟩, t, ht, rfl⟩
  cases hs : serMember i.label (.innerList i.list.inner) with
  | some s =>
    rw [hs] at h
    refine ⟨fun t => by simpa using h t, ?_⟩
    obtain ⟨h1, t, h2, _⟩ := (h s).1 rfl
    simp only [reduceCtorEq, exists_false, false_iff, not_or, Classical.not_not]
    exact ⟨h1, fun h => h t h2⟩
  | none =>
    rw [hs] at h
    refine ⟨fun t => by simpa using h t, ?_⟩
    simp only [Except.error.injEq, exists_eq', true_iff]
    by_cases hn : NameText i.label
    · exact .inr fun t ht => by simpa using (h _).2 ⟨hn, t, ht, rfl⟩
    · exact .inl hn

/-- C107. Each of these texts is unique. -/
theorem C107_unique :
    (∀ (i : Item) (s t : Str), WrittenItem i s → WrittenItem i t → s = t) ∧
    (∀ (l : InnerList) (s t : Str), WrittenList l s → WrittenList l t → s = t) :=
  ⟨fun _ _ _ hs ht => Option.some.inj ((serItem_iff.2 hs).symm.trans (serItem_iff.2 ht)),
    fun _ _ _ hs ht => Option.some.inj ((serInnerList_iff.2 hs).symm.trans (serInnerList_iff.2 ht))⟩

/-- A value of each kind with its text; what cannot be written. -/
example : BareText (.string (str% "a\\\"b")) (str% "\"a\\\\\\\"b\"") ∧ BareText (.byteSeq [104, 105]) (str% ":aGk=:") ∧
    BareText (.integer (-42)) (str% "-42") ∧ BareText (.decimal ⟨true, 271828, 5⟩) (str% "-2.718") ∧
    BareText (.decimal ⟨false, 30, 1⟩) (str% "3.0") ∧ BareText (.decimal ⟨false, 1050, 3⟩) (str% "1.050") ∧
    ¬ Representable (.integer 1000000000000000) ∧ ¬ Representable (.string (str% "é")) ∧
    ¬ Representable (.decimal ⟨false, 9999999999999995, 4⟩) ∧ Representable (.decimal ⟨false, 9999999999999994, 4⟩) := by
  refine ⟨serBare_iff.1 rfl, serBare_iff.1 (by decide +kernel), serBare_iff.1 rfl, serBare_iff.1 rfl, serBare_iff.1 rfl,
    serBare_iff.1 rfl, ?_, ?_, ?_, .decimal (by decide)⟩
  · intro h; cases h with | integer h => exact absurd h (by decide)
  · intro h; cases h with | string h => exact absurd (h 'é' (by decide)) (by decide)
  · intro h; cases h with | decimal h => exact absurd h (by decide)

example : WrittenItem ⟨.string (str% "@query-params"), [(str% "name", .string (str% "id")), (str% "tr", .boolean true)]⟩
    (str% "\"@query-params\";name=\"id\";tr") := serItem_iff.1 rfl

example : ∃ c : CanonicalizeConfig, c.toSignatureInput.display = .ok (str% "x=(\"@method\" \"host\");created=7") :=
  ⟨((({} : CanonicalizeConfig).setComponents [.derived (.new (str% "@method")), .header hHost]).setLabel (str% "x")).setCreated 7, rfl⟩

end Httpsig
