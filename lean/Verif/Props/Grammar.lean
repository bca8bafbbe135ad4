import Verif.Lemmas.Grammar2
import Verif.Lemmas.FieldName
import Verif.Props.Keys
/-
C72: the language of `Signature-Input`. C73: the language of component names. C74: what happens to decimals.
-/
set_option linter.unusedSectionVars false
namespace Httpsig
open Sfv Grammar
variable [Deps]

/-! ### C72 -/

theorem ofItem_iff (i : Item) (k : SignatureComponent) : SignatureComponent.ofItem i = .ok k ↔ ComponentText i k := by
  obtain ⟨b, ps⟩ := i
  have pre : ∀ n : Str, (str% "@").isPrefixOf n = true ↔ n.head? = some '@' := by
    intro n; cases n with
    | nil => simp [List.isPrefixOf]
    | cons c cs =>
      show (('@' == c) && true) = true ↔ some c = some '@'
      rw [Bool.and_true, beq_iff_eq, Option.some.injEq]
      exact ⟨Eq.symm, Eq.symm⟩
  constructor
  · intro h
    unfold SignatureComponent.ofItem at h
    split at h
    · cases h
    rename_i nm hnm
    obtain rfl : b = .string nm := by cases b <;> simp [BareItem.asStr] at hnm; rw [hnm]
    split at h
    · rename_i hp
      cases h
      rw [pre] at hp
      cases nm with
      | nil => cases hp
      | cons c cs => cases hp; exact .derived
    · rename_i hp
      rw [pre] at hp
      split at h
      · rename_i hh; cases h; exact .header hp (names_iff.2 hh)
      · cases h
  · intro h
    cases h with
    | derived => rfl
    | header hp hh =>
      rename_i n h
      unfold SignatureComponent.ofItem
      simp only [BareItem.asStr]
      rw [if_neg (fun hpre => hp ((pre n).1 hpre)), names_iff.1 hh]

theorem mapM_ofItem_iff (l : List Item) (ks : List SignatureComponent) :
    l.mapM SignatureComponent.ofItem = (.ok ks : P _) ↔ Forall2 ComponentText l ks := by
  induction l generalizing ks with
  | nil =>
    constructor
    · intro h; cases h; exact .nil
    · intro h; cases h; rfl
  | cons i l ih =>
    rw [List.mapM_cons]
    constructor
    · intro h
      cases hi : SignatureComponent.ofItem i with
      | error e => rw [hi] at h; cases h
      | ok k =>
        rw [hi] at h
        cases hl : (l.mapM SignatureComponent.ofItem : P _) with
        | error e => simp only [hl] at h; cases h
        | ok ks' =>
          simp only [hl] at h
          cases h
          exact .cons ((ofItem_iff i k).1 hi) ((ih ks').1 hl)
    · intro h
      cases h with
      | cons h1 h2 =>
        rw [(ofItem_iff _ _).2 h1, (ih _).2 h2]
        rfl

theorem ofStr_ok_iff (s : Str) (x : SignatureInput) :
    SignatureInput.ofStr s = .ok x ↔ ∃ d, Dict s d ∧ d.head? = some (x.label, .innerList x.list.inner) := by
  unfold SignatureInput.ofStr
  constructor
  · intro h
    split at h
    · cases h
    rename_i d hd
    split at h
    · rename_i label e he
      cases e with
      | item i => cases h
      | innerList l => cases h; exact ⟨d, (parseDictionary_iff _ _).1 hd, he⟩
    · cases h
  · rintro ⟨d, hd, he⟩
    rw [(parseDictionary_iff _ _).2 hd]
    simp only [he]
    rfl

/-- C72. Exactly these `Signature-Input` values are accepted, and this is what they mean: the value is an RFC 8941
dictionary whose first member is an inner list; the label is the key of that member; the components are its items, in
order, each a string that is a header name or starts with `@`; the parameters are the parameters of the inner list. -/
theorem C72_accepted (s : Str) (c : CanonicalizeConfig) :
    CanonicalizeConfig.fromSignatureInput s = .ok (.ok c) ↔
      ∃ d label l, Dict s d ∧ d.head? = some (label, .innerList l) ∧
        c.label = some label ∧ Forall2 ComponentText l.items c.components ∧ c.params = ⟨l.params⟩ := by
  unfold CanonicalizeConfig.fromSignatureInput
  constructor
  · intro h
    split at h
    · cases h
    rename_i x hx
    obtain ⟨d, hd, hh⟩ := (ofStr_ok_iff s x).1 hx
    unfold CanonicalizeConfig.ofSignatureInput at h
    cases hm : (x.list.inner.items.mapM SignatureComponent.ofItem : P _) with
    | error e => rw [hm] at h; cases h
    | ok ks =>
      rw [hm] at h
      cases h
      exact ⟨d, _, _, hd, hh, rfl, (mapM_ofItem_iff _ _).1 hm, rfl⟩
  · rintro ⟨d, label, l, hd, hh, hl, hk, hp⟩
    rw [(ofStr_ok_iff s ⟨label, ⟨l⟩⟩).2 ⟨d, hd, hh⟩]
    simp only [CanonicalizeConfig.ofSignatureInput]
    rw [(mapM_ofItem_iff _ _).2 hk]
    obtain ⟨cl, cc, cp⟩ := c
    simp only at hl hp
    subst hl hp
    rfl

/-- C72. Exactly these values are refused, and with these errors: what is not a dictionary, and dictionaries that are empty
or whose first member is not an inner list. -/
theorem C72_refused (s : Str) (e : Error) :
    CanonicalizeConfig.fromSignatureInput s = .ok (.error e) ↔
      (e = .signatureInputParse ∧ ∀ d, ¬ Dict s d) ∨
      (e = .signatureInputError ∧ ∃ d, Dict s d ∧ ∀ label l, d.head? ≠ some (label, .innerList l)) := by
  have key : CanonicalizeConfig.fromSignatureInput s = .ok (.error e) ↔ SignatureInput.ofStr s = .error e := by
    unfold CanonicalizeConfig.fromSignatureInput
    constructor
    · intro h
      split at h
      · rename_i hx; cases h; exact hx
      · rename_i x _
        cases hc : CanonicalizeConfig.ofSignatureInput x <;> rw [hc] at h <;> cases h
    · intro h; rw [h]
  rw [key]
  unfold SignatureInput.ofStr
  constructor
  · intro h
    split at h
    · rename_i hn
      cases h
      refine .inl ⟨rfl, fun d hd => ?_⟩
      rw [(parseDictionary_iff _ _).2 hd] at hn
      cases hn
    rename_i d hd
    have hd' := (parseDictionary_iff _ _).1 hd
    split at h
    · rename_i label x he
      cases x with
      | item i => cases h; exact .inr ⟨rfl, d, hd', fun _ _ h => by rw [he] at h; cases h⟩
      | innerList l => cases h
    · rename_i he
      cases h
      exact .inr ⟨rfl, d, hd', fun _ _ h => by rw [he] at h; cases h⟩
  · rintro (⟨rfl, h⟩ | ⟨rfl, d, hd, h⟩)
    · cases hp : parseDictionary s with
      | none => rfl
      | some d => exact absurd ((parseDictionary_iff _ _).1 hp) (h d)
    · rw [(parseDictionary_iff _ _).2 hd]
      cases hh : d.head? with
      | none => simp only [hh]
      | some p =>
        obtain ⟨label, x⟩ := p
        cases x with
        | item i => simp only [hh]; rfl
        | innerList l => exact absurd hh (h label l)

/-- C72. The remaining values make it panic: dictionaries whose first member is an inner list with an item that is neither a
derived component nor a header name. -/
theorem C72_panics (s : Str) :
    (∃ p, CanonicalizeConfig.fromSignatureInput s = .error p) ↔
      ∃ d label l, Dict s d ∧ d.head? = some (label, .innerList l) ∧ ∃ i ∈ l.items, ∀ k, ¬ ComponentText i k := by
  constructor
  · rintro ⟨p, h⟩
    unfold CanonicalizeConfig.fromSignatureInput at h
    split at h
    · cases h
    rename_i x hx
    obtain ⟨d, hd, hh⟩ := (ofStr_ok_iff s x).1 hx
    refine ⟨d, _, _, hd, hh, ?_⟩
    unfold CanonicalizeConfig.ofSignatureInput at h
    cases hm : (x.list.inner.items.mapM SignatureComponent.ofItem : P _) with
    | ok ks => rw [hm] at h; cases h
    | error e =>
      clear h hx hh
      revert hm
      generalize x.list.inner.items = l
      intro hm
      induction l with
      | nil => cases hm
      | cons i l ih =>
        rw [List.mapM_cons] at hm
        cases hi : SignatureComponent.ofItem i with
        | error e' =>
          refine ⟨i, by simp, fun k hk => ?_⟩
          rw [(ofItem_iff i k).2 hk] at hi
          cases hi
        | ok k =>
          rw [hi] at hm
          cases hl : (l.mapM SignatureComponent.ofItem : P _) with
          | ok ks => simp only [hl] at hm; cases hm
          | error e' =>
            simp only [hl] at hm
            cases hm
            obtain ⟨j, hj, hn⟩ := ih hl
            exact ⟨j, by simp [hj], hn⟩
  · rintro ⟨d, label, l, hd, hh, i, hi, hn⟩
    cases hr : CanonicalizeConfig.fromSignatureInput s with
    | error p => exact ⟨p, rfl⟩
    | ok r =>
      exfalso
      cases r with
      | ok c =>
        obtain ⟨d', label', l', hd', hh', _, hk, _⟩ := (C72_accepted s c).1 hr
        have := (parseDictionary_iff _ _).2 hd
        rw [(parseDictionary_iff _ _).2 hd'] at this
        cases this
        rw [hh] at hh'
        cases hh'
        obtain ⟨k, _, hk⟩ := forall2_mem_left hk i hi
        exact hn k hk
      | error e =>
        rcases (C72_refused s e).1 hr with ⟨_, h⟩ | ⟨_, d', hd', h⟩
        · exact h d hd
        · have := (parseDictionary_iff _ _).2 hd
          rw [(parseDictionary_iff _ _).2 hd'] at this
          cases this
          exact h label l hh

/-- C19. What malformed means: a `Signature-Input` value is readable if and only if it is an RFC 8941 dictionary whose first
member is an inner list of strings, each starting with `@` or being a header name. -/
theorem C19_readable_iff (v : Str) :
    (∃ c, CanonicalizeConfig.fromSignatureInput v = .ok (.ok c)) ↔
      ∃ d label l, Dict v d ∧ d.head? = some (label, .innerList l) ∧
        ∀ i ∈ l.items, ∃ s, i.bare = .string s ∧ (s.head? = some '@' ∨ FieldName s) := by
  simp only [← parseDictionary_iff, fieldName_iff]
  exact readable_iff v

/-- C43. Of several members, the first counts: if the first member of a `Signature-Input` value is an inner list whose key no
other member has, the value is read as if the other members were not there, whatever they are. -/
theorem C43_first_text (s t w w' k : Str) (l : InnerList) (ms : List (Str × ListEntry)) (hs : Member s k (.innerList l))
    (hw : Ows w) (hw' : Ows w') (ht : Members t ms) (hk : ∀ m ∈ ms, m.1 ≠ k) :
    CanonicalizeConfig.fromSignatureInput (s ++ w ++ ',' :: w' ++ t) = CanonicalizeConfig.fromSignatureInput s := by
  have h1 : SignatureInput.ofStr s = .ok ⟨k, ⟨l⟩⟩ := by
    refine (ofStr_ok_iff _ _).2 ⟨collect [(k, .innerList l)], ?_, ?_⟩
    · have := Dict.mk (w := []) (by simp [Sp]) (Members.last (w := []) hs (by simp [Ows]))
      simpa using this
    · simp [collect, lastValue, List.eraseDups_cons]
  have h2 : SignatureInput.ofStr (s ++ w ++ ',' :: w' ++ t) = .ok ⟨k, ⟨l⟩⟩ := by
    refine (ofStr_ok_iff _ _).2 ⟨collect ((k, .innerList l) :: ms), ?_, ?_⟩
    · have := Dict.mk (w := []) (by simp [Sp]) (Members.more hs hw hw' ht)
      simpa using this
    · have hl : lastValue ((k, ListEntry.innerList l) :: ms) k = some (.innerList l) := by
        unfold lastValue
        rw [List.reverse_cons, List.find?_append, List.find?_eq_none.2]
        · simp
        · intro m hm
          simpa using hk m (List.mem_reverse.1 hm)
      simp [collect, List.eraseDups_cons, hl]
  unfold CanonicalizeConfig.fromSignatureInput
  rw [h1, h2]

/-- C43, non-vacuity: a second member that is no inner list. -/
example : CanonicalizeConfig.fromSignatureInput (str% "a=(\"date\");x, \tb=?0") = CanonicalizeConfig.fromSignatureInput (str% "a=(\"date\");x") := by
  have hkey : ∀ k : Str, serKey k = some k → k ≠ [] → Key k := fun k h hne => ((serName_iff.1 h).1).resolve_left hne
  refine C43_first_text (str% "a=(\"date\");x") (str% "b=?0") [] (str% " \t") (str% "a")
    ⟨[⟨.string (str% "date"), collect []⟩], collect [(str% "x", .boolean true)]⟩ [(str% "b", .item ⟨.boolean false, collect []⟩)]
    (.inner (k := str% "a") (s := str% "(\"date\");x") (hkey _ rfl (by decide)) ?_) (by simp [Ows]) (by simp [Ows])
    (.last (s := str% "b=?0") (w := []) (.item (k := str% "b") (s := str% "?0") (hkey _ rfl (by decide)) (.mk (p := []) .false .nil)) (by simp [Ows]))
    (by simp)
  refine .cons (w := []) (s := str% "\"date\"") (t := []) (p := str% ";x") (by simp [Sp])
    (.mk (s := str% "\"date\"") (p := []) (.string (s := str% "date") ?_) .nil) (.nil (by simp [Sp]))
    (.flag (w := []) (k := str% "x") (s := []) (by simp [Sp]) (hkey _ rfl (by decide)) .nil)
  exact .unescaped (by decide) (by decide) (by decide) (by decide) (.unescaped (by decide) (by decide) (by decide) (by decide)
    (.unescaped (by decide) (by decide) (by decide) (by decide) (.unescaped (by decide) (by decide) (by decide) (by decide) .nil)))

/-- C72. The grammar gives a text at most one meaning. -/
theorem C72_unambiguous (s : Str) (d d' : Dictionary) (h : Dict s d) (h' : Dict s d') : d = d' := by
  have := (parseDictionary_iff _ _).2 h
  rw [(parseDictionary_iff _ _).2 h'] at this
  exact (Option.some.inj this).symm

/-- A text with odd spacing, a duplicated parameter and a duplicated member, and what it means: the last member named `a`
counts, in the place of the first. -/
example : ∃ d label l, Dict (str% " a=1;x, b=2 ,\ta=( \"@path\";sf \"HOST\"  );v;v=-007.50\t") d ∧ d.head? = some (label, .innerList l) ∧
    label = str% "a" ∧ l.items.length = 2 ∧ l.params = [(str% "v", .decimal ⟨true, 750, 2⟩)] :=
  ⟨[(str% "a", .innerList ⟨[⟨.string (str% "@path"), [(str% "sf", .boolean true)]⟩, ⟨.string (str% "HOST"), []⟩],
      [(str% "v", .decimal ⟨true, 750, 2⟩)]⟩), (str% "b", .item ⟨.integer 2, []⟩)], _, _,
    (parseDictionary_iff _ _).1 (by rfl), rfl, rfl, rfl, rfl⟩

/-- Sixteen digits, a trailing comma, an upper-case key, a tab in front: no dictionaries. -/
example : (∀ d, ¬ Dict (str% "a=();n=1234567890123456") d) ∧ (∀ d, ¬ Dict (str% "a=(),") d) ∧ (∀ d, ¬ Dict (str% "A=()") d) ∧
    ∀ d, ¬ Dict (str% "\ta=()") d := by
  refine ⟨?_, ?_, ?_, ?_⟩ <;> (intro d hd; have := (parseDictionary_iff _ _).2 hd; revert this)
  · rw [show parseDictionary (str% "a=();n=1234567890123456") = none from rfl]; simp
  · rw [show parseDictionary (str% "a=(),") = none from rfl]; simp
  · rw [show parseDictionary (str% "A=()") = none from rfl]; simp
  · rw [show parseDictionary (str% "\ta=()") = none from rfl]; simp

/-! ### C73 -/

/-- C73. Exactly these texts are component names, and this is what they mean: header names, and quoted names starting with
`@` with their parameters, followed by any number of spaces. -/
theorem C73_component_text (s : Str) (k : SignatureComponent) : SignatureComponent.fromStr s = .ok k ↔
    (∃ h, k = .header h ∧ s.head? ≠ some '@' ∧ s.head? ≠ some '"' ∧ Names s h) ∨
    (∃ t w i rest, k = .derived ⟨i⟩ ∧ ItemText t i ∧ Sp w ∧ s = t ++ w ∧ s = '"' :: '@' :: rest) := by
  have pre : ∀ (c : Char) (n : Str), ([c]).isPrefixOf n = true ↔ n.head? = some c := by
    intro c n; cases n with
    | nil => simp [List.isPrefixOf]
    | cons d cs =>
      show ((c == d) && true) = true ↔ some d = some c
      rw [Bool.and_true, beq_iff_eq, Option.some.injEq]
      exact ⟨Eq.symm, Eq.symm⟩
  constructor
  · intro h
    unfold SignatureComponent.fromStr at h
    split at h
    · cases hd : DerivedComponent.fromStr s with
      | error e => rw [hd] at h; cases h
      | ok d =>
        rw [hd] at h
        cases h
        unfold DerivedComponent.fromStr at hd
        split at hd
        · rename_i hp
          split at hd
          · rename_i i hi
            cases hd
            have : ∃ cs, s = '"' :: '@' :: cs := by
              match s, hp with
              | [], hp => cases hp
              | [a], hp => simp [List.isPrefixOf] at hp
              | a :: b :: cs, hp =>
                simp [List.isPrefixOf] at hp
                exact ⟨cs, by rw [hp.1, hp.2]⟩
            obtain ⟨rest, hrest⟩ := this
            obtain ⟨w, t, w', hw, ht, hw', hs⟩ := (parseItem_iff _ _).1 hi
            cases w with
            | nil => exact .inr ⟨t, w', i, rest, rfl, ht, hw', by simpa using hs, hrest⟩
            | cons c w =>
              rw [hs] at hrest
              have := hw c (by simp)
              subst this
              cases hrest
          · cases hd
        · cases hd
    · rename_i hp
      simp only [Bool.or_eq_true, not_or] at hp
      split at h
      · rename_i hh
        cases h
        exact .inl ⟨_, rfl, fun e => hp.1 ((pre _ _).2 e), fun e => hp.2 ((pre _ _).2 e), names_iff.2 hh⟩
      · cases h
  · rintro (⟨h, rfl, h1, h2, hh⟩ | ⟨t, w, i, rest, rfl, ht, hw, hs, hr⟩)
    · unfold SignatureComponent.fromStr
      rw [if_neg, names_iff.1 hh]
      simp only [Bool.or_eq_true, not_or]
      exact ⟨fun e => h1 ((pre _ _).1 e), fun e => h2 ((pre _ _).1 e)⟩
    · have hp : parseItem s = some i := (parseItem_iff _ _).2 ⟨[], t, w, by simp [Sp], ht, hw, by simpa using hs⟩
      unfold SignatureComponent.fromStr
      have h1 : ((str% "@").isPrefixOf s || (str% "\"").isPrefixOf s) = true := by rw [hr]; rfl
      have h2 : (str% "\"@").isPrefixOf s = true := by rw [hr]; rfl
      rw [if_pos h1]
      unfold DerivedComponent.fromStr
      rw [if_pos h2, hp]
      rfl

/-- C73. Exactly these texts are refused, and with these errors: texts that start with neither `@` nor a quote and are no header names,
with an error that has the text; texts that start with `@`, or with a quote and not with a quote and `@`, with another that has the
text; and texts that start with a quote and `@` and are no items, with that error and a message instead. -/
theorem C73_refused (s : Str) (e : Error) : SignatureComponent.fromStr s = .error e ↔
    (e = .headerNameParse s ∧ s.head? ≠ some '@' ∧ s.head? ≠ some '"' ∧ ¬ FieldName s) ∨
    (e = .derivedComponentParse (some s) ∧ (s.head? = some '@' ∨ s.head? = some '"' ∧ s.tail.head? ≠ some '@')) ∨
    (e = .derivedComponentParse none ∧ s.head? = some '"' ∧ s.tail.head? = some '@' ∧
      ∀ t w i, ItemText t i → Sp w → s ≠ t ++ w) := by
  have hok := C73_component_text s
  unfold SignatureComponent.fromStr at hok ⊢
  match s with
  | [] =>
    have h0 : HeaderName.fromStr [] = none := by
      cases h : HeaderName.fromStr [] with
      | none => rfl
      | some x => exact absurd rfl (names_iff.2 h).1.1
    rw [if_neg (by decide), h0]
    refine ⟨fun h => .inl ⟨by cases h; rfl, by simp, by simp, fun h => h.1 rfl⟩, ?_⟩
    rintro (⟨rfl, _⟩ | ⟨_, h | h⟩ | ⟨_, h, _⟩)
    · rfl
    · cases h
    · cases h.1
    · cases h
  | c :: cs =>
    by_cases h1 : c = '@'
    · subst h1
      have : DerivedComponent.fromStr ('@' :: cs) = .error (.derivedComponentParse (some ('@' :: cs))) := by
        simp [DerivedComponent.fromStr, List.isPrefixOf]
      rw [if_pos (by simp [List.isPrefixOf]), this]
      refine ⟨fun h => .inr (.inl ⟨by cases h; rfl, .inl rfl⟩), ?_⟩
      rintro (⟨_, h, _⟩ | ⟨rfl, _⟩ | ⟨_, h, _⟩)
      · exact absurd rfl h
      · rfl
      · cases h
    by_cases h2 : c = '"'
    · subst h2
      rw [if_pos (by simp [List.isPrefixOf])] at hok ⊢
      by_cases h3 : cs.head? = some '@'
      · obtain ⟨ds, rfl⟩ : ∃ ds, cs = '@' :: ds := by
          cases cs with
          | nil => cases h3
          | cons d ds => exact ⟨ds, by rw [Option.some.inj h3]⟩
        unfold DerivedComponent.fromStr at hok ⊢
        rw [if_pos (by simp [List.isPrefixOf])] at hok ⊢
        cases hp : parseItem ('"' :: '@' :: ds) with
        | some i =>
          rw [hp] at hok
          refine ⟨(fun h => by cases h), ?_⟩
          obtain ⟨w, t, w', hw, ht, hw', hs⟩ := (parseItem_iff _ _).1 hp
          rintro (⟨_, _, h, _⟩ | ⟨_, h | h⟩ | ⟨_, _, _, h⟩)
          · exact absurd rfl h
          · cases h
          · exact absurd rfl h.2
          · rcases (hok (.derived ⟨i⟩)).1 rfl with ⟨_, h', _⟩ | ⟨t, w, j, _, _, ht, hw, hs, _⟩
            · cases h'
            · exact absurd hs (h t w j ht hw)
        | none =>
          refine ⟨fun h => .inr (.inr ⟨by cases h; rfl, rfl, rfl, fun t w i ht hw hs => ?_⟩), ?_⟩
          · have := (parseItem_iff _ _).2 ⟨[], t, w, by simp [Sp], ht, hw, by simpa using hs⟩
            rw [hp] at this
            cases this
          · rintro (⟨_, _, h, _⟩ | ⟨_, h | h⟩ | ⟨rfl, _⟩)
            · exact absurd rfl h
            · cases h
            · exact absurd rfl h.2
            · rfl
      · have : DerivedComponent.fromStr ('"' :: cs) = .error (.derivedComponentParse (some ('"' :: cs))) := by
          unfold DerivedComponent.fromStr
          rw [if_neg]
          cases cs with
          | nil => decide
          | cons d ds => simp only [List.head?_cons, Option.some.injEq] at h3; simp [List.isPrefixOf, Ne.symm h3]
        rw [this]
        refine ⟨fun h => .inr (.inl ⟨by cases h; rfl, .inr ⟨rfl, h3⟩⟩), ?_⟩
        rintro (⟨_, _, h, _⟩ | ⟨rfl, _⟩ | ⟨_, _, h, _⟩)
        · exact absurd rfl h
        · rfl
        · exact absurd h h3
    · rw [if_neg (by simp [List.isPrefixOf, Ne.symm h1, Ne.symm h2])]
      cases hh : HeaderName.fromStr (c :: cs) with
      | some x =>
        refine ⟨(fun h => by cases h), ?_⟩
        rintro (⟨_, _, _, h⟩ | ⟨_, h | h⟩ | ⟨_, h, _⟩)
        · exact absurd (names_iff.2 hh).1 h
        · exact absurd (Option.some.inj h) h1
        · exact absurd (Option.some.inj h.1) h2
        · exact absurd (Option.some.inj h) h2
      | none =>
        refine ⟨fun h => .inl ⟨by cases h; rfl, fun h => h1 (Option.some.inj h), fun h => h2 (Option.some.inj h), fun h => ?_⟩, ?_⟩
        · have := fieldName_iff.1 h
          rw [hh] at this
          cases this
        · rintro (⟨rfl, _⟩ | ⟨_, h | h⟩ | ⟨_, h, _⟩)
          · rfl
          · exact absurd (Option.some.inj h) h1
          · exact absurd (Option.some.inj h.1) h2
          · exact absurd (Option.some.inj h) h2

/-- One of each kind: a space in a header name, an unquoted and an unfinished derived component. -/
example : SignatureComponent.fromStr (str% "content type") = .error (.headerNameParse (str% "content type")) ∧
    SignatureComponent.fromStr (str% "@method") = .error (.derivedComponentParse (some (str% "@method"))) ∧
    SignatureComponent.fromStr (str% "\"@method") = .error (.derivedComponentParse none) := ⟨rfl, rfl, rfl⟩

/-- C73. The header names there are: tokens of at most 65535 characters without capital letters. Every text that is such a token, in
whatever case, names exactly one header. -/
theorem C73_header_names (n : Str) : ((∃ h : HeaderName, h.str = n) ↔ FieldName n ∧ lowered n = n) ∧
    (FieldName n → ∃ h, Names n h ∧ ∀ h', Names n h' → h' = h) := by
  refine ⟨⟨?_, fun ⟨h1, h2⟩ => ?_⟩, fun hn => ?_⟩
  · rintro ⟨h, rfl⟩
    have := names_iff.2 h.fromStr_str
    exact ⟨this.1, this.2.symm⟩
  · obtain ⟨h, hh⟩ := Option.isSome_iff_exists.1 (fieldName_iff.1 h1)
    exact ⟨h, (names_iff.2 hh).2.trans h2⟩
  · obtain ⟨h, hh⟩ := Option.isSome_iff_exists.1 (fieldName_iff.1 hn)
    refine ⟨h, names_iff.2 hh, fun h' e => ?_⟩
    rw [names_iff, hh] at e
    exact (Option.some.inj e).symm

example : FieldName (str% "Content-Type") ∧ ¬ FieldName (str% "content type") ∧ ¬ FieldName [] := by
  refine ⟨fieldName_iff.2 rfl, fun h => ?_, fun h => h.1 rfl⟩
  rcases h.2.2 ' ' (by decide) with h | h
  · revert h; decide
  · exact absurd h.1 (by decide)

theorem letters_iff (k : Nat) : (∃ h : HeaderName, h.str = List.replicate k 'a') ↔ 1 ≤ k ∧ k ≤ 65535 := by
  have h1 : lowered (List.replicate k 'a') = List.replicate k 'a' := by rw [lowered, List.map_replicate]; rfl
  rw [(C73_header_names _).1, FieldName, List.length_replicate, ne_eq, List.replicate_eq_nil_iff]
  refine ⟨fun h => ⟨by have := h.1.1; omega, h.1.2.1⟩, fun h => ⟨⟨by omega, h.2, fun c hc => ?_⟩, h1⟩⟩
  rw [List.eq_of_mem_replicate hc]
  exact .inl (by decide)

/-- The limit: one more letter is one too many. -/
example : (∃ h : HeaderName, h.str = List.replicate 65535 'a') ∧ ¬ ∃ h : HeaderName, h.str = List.replicate 65536 'a' := by
  rw [letters_iff, letters_iff]; omega

/-- A parameter, an escape and trailing spaces. -/
example : ∃ t w i rest, ItemText t i ∧ Sp w ∧ (str% "\"@query-params\";name=\"a\\\"b\"  ") = t ++ w ∧
    (str% "\"@query-params\";name=\"a\\\"b\"  ") = '"' :: '@' :: rest ∧ i.params = [(str% "name", .string (str% "a\"b"))] := by
  have h : SignatureComponent.fromStr (str% "\"@query-params\";name=\"a\\\"b\"  ") =
      .ok (.derived ⟨⟨.string (str% "@query-params"), [(str% "name", .string (str% "a\"b"))]⟩⟩) := rfl
  rcases (C73_component_text _ _).1 h with ⟨_, h, _⟩ | ⟨t, w, i, rest, h, h1, h2, h3, h4⟩
  · cases h
  · cases h; exact ⟨t, w, _, rest, h1, h2, h3, h4, rfl⟩

/-! ### C74 -/

theorem rounded_round3 (d : Decimal) : Rounded d (Decimal.round3 d).norm := by
  have hsc := round3_scale d
  have hidem : Decimal.round3 (Decimal.round3 d) = Decimal.round3 d := by
    rw [Decimal.round3.eq_def (Decimal.round3 d), if_pos hsc]
  -- the number of thousandths
  have hnorm : ∀ r : Decimal, r.scale ≤ 3 → Decimal.round3 r = r →
      r.norm.neg = r.neg ∧ r.norm.mant * 1000 = r.mant * 10 ^ (3 - r.scale) * 10 ^ r.norm.scale := by
    intro r hs hr
    have hpow : 10 ^ (3 - r.scale) * 10 ^ r.scale = 1000 := by
      rw [← Nat.pow_add, Nat.sub_add_cancel hs]
    unfold Decimal.norm
    simp only [hr]
    split
    · rename_i h0
      refine ⟨rfl, ?_⟩
      obtain ⟨u, hu⟩ := Nat.dvd_of_mod_eq_zero h0
      have hp : 0 < 10 ^ r.scale := Nat.pow_pos (by omega)
      have e1 : r.mant / 10 ^ r.scale = u := by rw [hu, Nat.mul_div_cancel_left _ hp]
      have e2 : r.mant * 10 ^ (3 - r.scale) = u * 1000 := by
        rw [hu, Nat.mul_comm (10 ^ r.scale) u, Nat.mul_assoc, Nat.mul_comm (10 ^ r.scale), hpow]
      simp only [e1, e2]
      omega
    · refine ⟨rfl, ?_⟩
      rw [Nat.mul_assoc, hpow]
  obtain ⟨hn1, hn2⟩ := hnorm _ hsc hidem
  by_cases hs : d.scale ≤ 3
  · have hr : Decimal.round3 d = d := by rw [Decimal.round3, if_pos hs]
    rw [hr] at hn1 hn2 ⊢
    refine ⟨hn1.symm, _, hn2, ?_⟩
    have hpow : d.mant * 10 ^ (3 - d.scale) * 10 ^ d.scale = d.mant * 1000 := by
      rw [Nat.mul_assoc, ← Nat.pow_add, Nat.sub_add_cancel hs]
    have hp : 0 < 10 ^ d.scale := Nat.pow_pos (by omega)
    rw [hpow]
    refine ⟨by omega, by omega, ?_⟩
    intro h; omega
  · obtain ⟨n, hn⟩ : ∃ n, d.scale = n + 3 := ⟨d.scale - 3, by omega⟩
    have hp : 0 < 10 ^ n := Nat.pow_pos (by omega)
    have hdm := Nat.div_add_mod d.mant (10 ^ n)
    have hlt := Nat.mod_lt d.mant hp
    have hsize : 10 ^ d.scale = 10 ^ n * 1000 := by rw [hn, Nat.pow_add]
    have e : Decimal.round3 d = ⟨d.neg, (if 2 * (d.mant % 10 ^ n) > 10 ^ n ∨ (2 * (d.mant % 10 ^ n) = 10 ^ n ∧ d.mant / 10 ^ n % 2 = 1)
        then d.mant / 10 ^ n + 1 else d.mant / 10 ^ n), 3⟩ := by
      rw [Decimal.round3, if_neg hs]
      simp only [hn, Nat.add_sub_cancel]
    rw [e] at hn1 hn2 ⊢
    refine ⟨hn1.symm, _, hn2, ?_⟩
    rw [hsize]
    simp only [Nat.sub_self, Nat.pow_zero, Nat.mul_one]
    generalize d.mant / 10 ^ n = q at *
    generalize d.mant % 10 ^ n = r at *
    generalize 10 ^ n = p at *
    generalize d.mant = m at *
    subst hdm
    have hqp : p * q = q * p := Nat.mul_comm _ _
    split
    · rename_i h
      have e1 : (q + 1) * (p * 1000) = (q * p + p) * 1000 := by rw [← Nat.mul_assoc, Nat.add_mul, Nat.one_mul]
      rw [e1, hqp]
      generalize q * p = x
      refine ⟨by omega, by omega, ?_⟩
      intro h2
      omega
    · rename_i h
      have e1 : q * (p * 1000) = q * p * 1000 := by rw [← Nat.mul_assoc]
      rw [e1, hqp]
      generalize q * p = x
      refine ⟨by omega, by omega, ?_⟩
      intro h2
      omega

/-- Distinct, non-empty names and no empty tokens. -/
def ParamsWritten (ps : Params) : Prop := IMap.NodupKeys ps ∧ ∀ e ∈ ps, e.1 ≠ [] ∧ e.2 ≠ .token []

@[inherit_doc ParamsWritten]
def ComponentWritten : SignatureComponent → Prop
  | .header _ => True
  | .derived d => d.Named ∧ ParamsWritten d.item.params

theorem roundParams_tidy' {ps : Params} (h : ParamsWritten ps) : ParamsTidy (roundParams ps) := by
  refine ⟨?_, ?_⟩
  · have := h.1
    unfold IMap.NodupKeys roundParams at *
    rw [List.map_map]
    exact this
  · intro e he
    simp only [roundParams, List.mem_map] at he
    obtain ⟨⟨k, v⟩, he', rfl⟩ := he
    obtain ⟨h1, h2⟩ := h.2 _ he'
    refine ⟨h1, ?_, ?_⟩
    · cases v <;> simp_all [roundBare]
    · intro d hd
      cases v <;> simp only [roundBare, BareItem.decimal.injEq, reduceCtorEq] at hd
      rw [← hd]
      exact round3_scale _

theorem roundedParams_norm (ps : Params) : RoundedParams ps (normParams (roundParams ps)) := by
  induction ps with
  | nil => exact .nil
  | cons e ps ih =>
    refine .cons ⟨rfl, ?_⟩ ih
    obtain ⟨k, v⟩ := e
    show RoundedBare v (roundBare v).norm
    cases v with
    | decimal d => exact rounded_round3 d
    | _ => rfl

/-- C74. What a `Signature-Input` made by this library says about decimals: a reader gets the same label, components and
parameters, except that every decimal is replaced by the nearest one with three places, ties going to the even one. -/
theorem C74_decimals_rounded (c : CanonicalizeConfig) (x : Str) (hr : c.toSignatureInput.display = .ok x)
    (hl : c.getLabel ≠ []) (hc : ∀ k ∈ c.components, ComponentWritten k) (hp : ParamsWritten c.params.params) :
    ∃ c', CanonicalizeConfig.fromSignatureInput x = .ok (.ok c') ∧ c'.label = some c.getLabel ∧
      Forall2 RoundedComponent c.components c'.components ∧ RoundedParams c.params.params c'.params.params := by
  have hr' : c.round.toSignatureInput.display = .ok x := by rw [display_round, hr]
  have htidy : ∀ k ∈ c.round.components, ComponentTidy k := by
    intro k hk
    simp only [CanonicalizeConfig.round, List.mem_map] at hk
    obtain ⟨k', hk', rfl⟩ := hk
    have := hc k' hk'
    cases k' with
    | header => trivial
    | derived d =>
      obtain ⟨⟨cs, hcs⟩, hp⟩ := this
      exact ⟨⟨cs, by simp [roundItem, roundBare, hcs]⟩, roundParams_tidy' hp⟩
  obtain ⟨hk, hcs, hps⟩ := componentTidy_read hr' hl htidy (roundParams_tidy' hp)
  obtain ⟨y, hy, _, hread⟩ := read_render hk hcs hps
  rw [hr'] at hy
  cases hy
  refine ⟨_, hread, rfl, ?_, roundedParams_norm _⟩
  show Forall2 RoundedComponent c.components ((c.components.map roundComponent).map _)
  generalize c.components = l at hc
  induction l with
  | nil => exact .nil
  | cons k l ih =>
    refine .cons ?_ (ih fun k hk => hc k (by simp [hk]))
    have := hc k (by simp)
    cases k with
    | header h => rfl
    | derived d =>
      obtain ⟨⟨cs, hcs⟩, _⟩ := this
      refine ⟨?_, roundedParams_norm _⟩
      simp [roundItem, hcs, roundBare, BareItem.norm, normItem]

/-- 0.0005 and 0.0015 are ties, rounded to 0 and 0.002; -2.71828 is not. -/
example : (Rounded ⟨false, 5, 4⟩ ⟨false, 0, 1⟩ ∧ ¬ Rounded ⟨false, 5, 4⟩ ⟨false, 1, 3⟩) ∧ Rounded ⟨false, 15, 4⟩ ⟨false, 2, 3⟩ ∧
    Rounded ⟨true, 271828, 5⟩ ⟨true, 2718, 3⟩ ∧ ¬ Rounded ⟨true, 271828, 5⟩ ⟨true, 2719, 3⟩ := by
  refine ⟨⟨⟨rfl, 0, by decide⟩, ?_⟩, ⟨rfl, 2, by decide⟩, ⟨rfl, 2718, by decide⟩, ?_⟩
  · rintro ⟨_, t, h1, h2, h3, h4⟩
    simp at h1 h2 h3 h4; omega
  · rintro ⟨_, t, h1, h2, h3, h4⟩
    simp at h1 h2 h3 h4; omega

example : ∃ c : CanonicalizeConfig, c.toSignatureInput.display = .ok (str% "sig=(\"@method\";x=0.002);y=-2.718") ∧ c.getLabel ≠ [] ∧
    (∀ k ∈ c.components, ComponentWritten k) ∧ ParamsWritten c.params.params ∧
    c.params.params = [(str% "y", .decimal ⟨true, 271828, 5⟩)] := by
  refine ⟨{ components := [.derived ⟨{ bare := .string atMethod, params := [(str% "x", .decimal ⟨false, 15, 4⟩)] }⟩],
            params := ⟨[(str% "y", .decimal ⟨true, 271828, 5⟩)]⟩ }, rfl, ?_, ?_, ?_, rfl⟩
  · intro h; cases h
  · intro k hk
    simp only [List.mem_singleton] at hk
    subst hk
    exact ⟨⟨str% "method", rfl⟩, by simp [IMap.NodupKeys], by simp⟩
  · exact ⟨by simp [IMap.NodupKeys], by simp⟩

end Httpsig
