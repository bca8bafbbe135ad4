import Verif.Lemmas.Strings
import Verif.Lemmas.Config4
import Verif.Spec.TestDeps
/-
C01, C02, C32: textual forms of signature inputs and of components.
-/
set_option linter.unusedSectionVars false
namespace Httpsig
open Sfv
variable [Deps]

/-! ### C01 -/

/-- C01 (partial). Any configuration that renders reads back as the same configuration, provided the label is not
empty, derived components have a name starting with `@`, no parameter has an empty name or is an empty token, and no
decimal has more than three fractional digits. What is missing for the full claim is false: see the `C01_neg_*`
theorems below, one per excluded case. -/
theorem C01_signature_input_round_trip_partial (c : CanonicalizeConfig) (x : Str)
    (hr : c.toSignatureInput.display = .ok x) (hl : c.getLabel ≠ [])
    (hc : ∀ k ∈ c.components, ComponentTidy k) (hp : ParamsTidy c.params.params) :
    ∃ c', CanonicalizeConfig.fromSignatureInput x = .ok (.ok c') ∧ c.Same c' ∧
      c'.toSignatureInput.display = .ok x := by
  obtain ⟨hk, hcs, hps⟩ := componentTidy_read hr hl hc hp
  obtain ⟨y, hy, _, hread⟩ := read_render hk hcs hps
  rw [hr] at hy
  cases hy
  exact ⟨_, hread, same_norm hcs hps, by rw [display_norm hcs hps, hr]⟩

/-- Non-vacuity: a derived component with a parameter, two headers, four parameters. -/
def exampleConfig : CanonicalizeConfig :=
  CanonicalizeConfig.run
    [.components [.derived ((DerivedComponent.new atQueryParams).withParam (str% "name") (str% "p \"q\" \\")), .header hHost, .header hDigest],
     .alg (str% "hmac-sha256"), .created 1618884475, .keyid (str% "test-key"), .nonce (str% "b3k2pp5k7z-50gnwp.yemd")]

example : exampleConfig.toSignatureInput.display = .ok
    (str% "sig=(\"@query-params\";name=\"p \\\"q\\\" \\\\\" \"host\" \"digest\");alg=\"hmac-sha256\";created=1618884475;keyid=\"test-key\";nonce=b3k2pp5k7z-50gnwp.yemd") := by
  rfl

example : exampleConfig.getLabel ≠ [] ∧ (∀ k ∈ exampleConfig.components, ComponentTidy k) ∧
    ParamsTidy exampleConfig.params.params := by
  refine ⟨(by intro h; cases h), ?_, ?_⟩
  · intro k hk
    have hk : k ∈ [SignatureComponent.derived ((DerivedComponent.new atQueryParams).withParam (str% "name") (str% "p \"q\" \\")), .header hHost, .header hDigest] := hk
    simp only [List.mem_cons, List.not_mem_nil, or_false] at hk
    rcases hk with rfl | rfl | rfl
    · refine ⟨⟨str% "query-params", rfl⟩, by simp [DerivedComponent.withParam, DerivedComponent.new, IMap.insert, IMap.NodupKeys], ?_⟩
      simp [DerivedComponent.withParam, DerivedComponent.new, IMap.insert, BareTidy]
    · trivial
    · trivial
  · exact setterParams_tidy (run_spec _).1 (by simp)

/-- C01 for configurations built through the setters, in any order and number: what reads back has the same label,
the same parameters (exactly), and the same components. -/
theorem C01_setter_history_partial (ops : List CanonicalizeConfig.Op) (x : Str)
    (hr : (CanonicalizeConfig.run ops).toSignatureInput.display = .ok x)
    (hlabel : .label [] ∉ ops) (hnonce : .nonce [] ∉ ops)
    (hcomp : ∀ l, .components l ∈ ops → ∀ k ∈ l, ComponentTidy k) :
    ∃ c', CanonicalizeConfig.fromSignatureInput x = .ok (.ok c') ∧ (CanonicalizeConfig.run ops).Same c' ∧
      c'.params = (CanonicalizeConfig.run ops).params := by
  obtain ⟨h1, h2, h3⟩ := run_spec ops
  have hl : (CanonicalizeConfig.run ops).getLabel ≠ [] := by
    unfold CanonicalizeConfig.getLabel
    cases h : (CanonicalizeConfig.run ops).label with
    | none => simp
    | some l => rintro rfl; exact hlabel (h2 _ h)
  have hc : ∀ k ∈ (CanonicalizeConfig.run ops).components, ComponentTidy k := fun k hk =>
    let ⟨l, hl, hkl⟩ := h3 k hk; hcomp l hl k hkl
  obtain ⟨hk, hcs, hps⟩ := componentTidy_read hr hl hc (setterParams_tidy h1 hnonce)
  obtain ⟨y, hy, _, hread⟩ := read_render hk hcs hps
  rw [hr] at hy
  cases hy
  refine ⟨_, hread, same_norm hcs hps, ?_⟩
  simp only [CanonicalizeConfig.norm, setterParams_norm h1]

example : ∃ (ops : List CanonicalizeConfig.Op) (x : Str),
    (CanonicalizeConfig.run ops).toSignatureInput.display = .ok x ∧ .label [] ∉ ops ∧ .nonce [] ∉ ops ∧
    (∀ l, .components l ∈ ops → ∀ k ∈ l, ComponentTidy k) ∧ ops.length = 4 :=
  ⟨[.components [.header hHost], .label (str% "mine"), .nonce (str% "n1"), .nonce (str% "n2")],
    str% "mine=(\"host\");nonce=n2", rfl, by simp, by simp,
    by
      intro l hl k hk
      simp only [List.mem_cons, CanonicalizeConfig.Op.components.injEq, List.not_mem_nil, reduceCtorEq, or_false] at hl
      subst hl
      simp only [List.mem_singleton] at hk
      subst hk
      trivial, rfl⟩

/-- C01, exactly. A configuration that renders reads back as itself if and only if its label is not empty, its derived
components have names starting with `@`, no parameter has an empty name or is an empty token, and no decimal needs more than
three fractional digits. -/
theorem C01_exact (c : CanonicalizeConfig) (x : Str) (hr : c.toSignatureInput.display = .ok x) :
    (∃ c', CanonicalizeConfig.fromSignatureInput x = .ok (.ok c') ∧ c.Same c') ↔
      c.getLabel ≠ [] ∧ (∀ k ∈ c.components, ComponentFaithful k) ∧ ParamsFaithful c.params.params := by
  constructor
  · rintro ⟨c', h1, h2, h3, h4⟩
    obtain ⟨⟨a, as, hk, _⟩, hcs, hps⟩ := fromSignatureInput_spec h1
    refine ⟨by rw [h2, hk]; simp, ?_, faithful_of_paramsSame h4 hps⟩
    intro k hk
    obtain ⟨k', hk', hs⟩ := forall2_mem_left h3 k hk
    exact faithful_of_componentSame hs (hcs k' hk')
  · rintro ⟨hl, hc, hp⟩
    have hr' : c.round.toSignatureInput.display = .ok x := by rw [display_round, hr]
    obtain ⟨c', h1, h2, _⟩ := C01_signature_input_round_trip_partial c.round x hr' hl
      (by
        intro k hk
        simp only [CanonicalizeConfig.round, List.mem_map] at hk
        obtain ⟨k', hk', rfl⟩ := hk
        have := hc k' hk'
        cases k' with
        | header => trivial
        | derived d =>
          obtain ⟨⟨cs, hcs⟩, hp⟩ := this
          exact ⟨⟨cs, by simp [roundItem, roundBare, hcs]⟩, roundParams_tidy hp⟩)
      (roundParams_tidy hp)
    exact ⟨c', h1, (same_round hc hp).trans h2⟩

/-- A decimal with five places of which three are needed. -/
example : ∃ (c : CanonicalizeConfig), c.toSignatureInput.display = .ok (str% "sig=(\"@method\";x=0.125)") ∧
    c.getLabel ≠ [] ∧ (∀ k ∈ c.components, ComponentFaithful k) ∧ ParamsFaithful c.params.params ∧ ¬ ∀ k ∈ c.components, ComponentTidy k := by
  refine ⟨{ components := [.derived ⟨{ bare := .string atMethod, params := [(str% "x", .decimal ⟨false, 12500, 5⟩)] }⟩] }, rfl, ?_, ?_, ?_, ?_⟩
  · intro h; cases h
  · intro k hk
    simp only [List.mem_singleton] at hk
    subst hk
    refine ⟨⟨str% "method", rfl⟩, by simp [IMap.NodupKeys], ?_⟩
    intro e he
    simp only [List.mem_singleton] at he
    subst he
    refine ⟨by simp, by simp, ?_⟩
    intro d hd
    cases hd
    rfl
  · exact ⟨by simp [IMap.NodupKeys], by simp⟩
  · intro h
    have := ((h _ (List.mem_singleton.2 rfl)).2.2 _ (List.mem_singleton.2 rfl)).2.2 _ rfl
    simp at this

/-- Components made with the public constructors are tidy: `DerivedComponent::new("@...")`, … -/
theorem C01_new_tidy (cs : Str) : ComponentTidy (.derived (.new ('@' :: cs))) :=
  ⟨⟨cs, rfl⟩, by simp [DerivedComponent.new, ParamsTidy, IMap.NodupKeys]⟩

/-- … `with_param` with a non-empty name, … -/
theorem C01_withParam_tidy (d : DerivedComponent) (k v : Str) (hd : ComponentTidy (.derived d)) (hk : k ≠ []) :
    ComponentTidy (.derived (d.withParam k v)) := by
  obtain ⟨hn, hp⟩ := hd
  refine ⟨hn, IMap.NodupKeys.insert hp.1 _ _, ?_⟩
  intro e he
  rcases IMap.mem_insert he with rfl | he
  · exact ⟨hk, by simp, by simp⟩
  · exact hp.2 e he

theorem bareOk_tidy {b : BareItem} (h : BareOk b) : BareTidy b := by
  refine ⟨?_, ?_⟩
  · rintro rfl
    obtain ⟨c, cs, h, _⟩ := h
    cases h
  · rintro d rfl
    exact h.1

theorem paramsOk_tidy {ps : Params} (h : ParamsOk ps) : ParamsTidy ps :=
  ⟨h.1, fun e he => ⟨by obtain ⟨c, cs, hk, _⟩ := (h.2 e he).1; simp [hk], bareOk_tidy (h.2 e he).2⟩⟩

/-- Reading an item that starts with `"@` gives a string starting with `@`. -/
theorem parseItem_at {cs : Str} {i : Item} (h : parseItem ('"' :: '@' :: cs) = some i) :
    ∃ s, i.bare = .string ('@' :: s) := by
  unfold parseItem at h
  split at h
  · split at h
    · rename_i d' r hd
      split at h
      · cases h
        rw [skipSp_of_head (by simp)] at hd
        simp only [parseItemBody, Option.bind_eq_bind, Option.bind_eq_some_iff] at hd
        obtain ⟨⟨b, r1⟩, hb, ⟨ps, r2⟩, hps, hd⟩ := hd
        cases hd
        rw [parseBare.eq_def] at hb
        simp only [show ('"' : Char) ≠ '?' by decide, if_false, if_true] at hb
        rw [parseStringBody.eq_def] at hb
        simp only [show ('@' : Char) ≠ '"' by decide, show ('@' : Char) ≠ '\\' by decide, if_false,
          show ¬ (('@' : Char).toNat = 0x7f ∨ ('@' : Char).toNat ≤ 0x1f) by decide] at hb
        simp only [Option.map_eq_some_iff] at hb
        obtain ⟨⟨s, r3⟩, ⟨⟨s', r4⟩, _, h1⟩, h2⟩ := hb
        cases h1
        cases h2
        exact ⟨s', rfl⟩
      · cases h
    · cases h
  · cases h

theorem fromStr_spec {s : Str} {d : DerivedComponent} (h : DerivedComponent.fromStr s = .ok d) :
    d.Named ∧ ItemOk d.item := by
  unfold DerivedComponent.fromStr at h
  split at h
  · rename_i hp
    split at h
    · rename_i i hi
      cases h
      have : ∃ cs, s = '"' :: '@' :: cs := by
        match s, hp with
        | [], hp => cases hp
        | [a], hp => simp [List.isPrefixOf] at hp
        | a :: b :: cs, hp =>
          simp [List.isPrefixOf] at hp
          exact ⟨cs, by rw [hp.1, hp.2]⟩
      obtain ⟨cs, rfl⟩ := this
      exact ⟨parseItem_at hi, parseItem_spec hi⟩
    · cases h
  · cases h

/-- … and `FromStr`. -/
theorem C01_fromStr_tidy (s : Str) (d : DerivedComponent) (h : DerivedComponent.fromStr s = .ok d) :
    ComponentTidy (.derived d) :=
  ⟨(fromStr_spec h).1, paramsOk_tidy (fromStr_spec h).2.2⟩

example : ∃ d, DerivedComponent.fromStr (str% "\"@query-params\";name=\"a\"") = .ok d := ⟨_, rfl⟩

/-- C01 fails for the empty label: whatever the rest, its rendering is never read back. -/
theorem C01_neg_empty_label (c : CanonicalizeConfig) (x : Str) (hl : c.getLabel = [])
    (hr : c.toSignatureInput.display = .ok x) :
    CanonicalizeConfig.fromSignatureInput x = .ok (.error .signatureInputParse) := by
  have h1 := display_eq_ok hr
  simp only [serDict] at h1
  obtain ⟨ls, _, _, rfl⟩ := serMember_inner h1
  have e : c.toSignatureInput.label = [] := hl
  rw [e]
  have hp : parseDictionary ('=' :: ls) = none := by
    unfold parseDictionary
    split
    · rw [skipSp_of_head (by simp)]
      rfl
    · rfl
  unfold CanonicalizeConfig.fromSignatureInput SignatureInput.ofStr
  rw [List.nil_append, hp]

example : ∃ (c : CanonicalizeConfig) (x : Str), c.getLabel = [] ∧ c.toSignatureInput.display = .ok x :=
  ⟨CanonicalizeConfig.run [.label []], str% "=()", rfl, rfl⟩

/-- C01 fails for an empty token, such as an empty nonce: whatever the rest, its rendering never reads back as the same configuration. -/
theorem C01_neg_empty_nonce (c : CanonicalizeConfig) (x k : Str) (hr : c.toSignatureInput.display = .ok x)
    (hk : (k, .token []) ∈ c.params.params) (c' : CanonicalizeConfig) (h : CanonicalizeConfig.fromSignatureInput x = .ok (.ok c')) :
    ¬ c.Same c' :=
  fun hs => (((C01_exact c x hr).1 ⟨c', h, hs⟩).2.2.2 _ hk).2.1 rfl

example : (CanonicalizeConfig.run [.nonce []]).toSignatureInput.display = .ok (str% "sig=();nonce=") ∧
    CanonicalizeConfig.fromSignatureInput (str% "sig=();nonce=") = .ok (.error .signatureInputParse) := ⟨rfl, rfl⟩

/-- C01 fails for a derived component whose name does not start with `@`, whatever the rest. -/
theorem C01_neg_unnamed_derived (c : CanonicalizeConfig) (x : Str) (d : DerivedComponent) (hr : c.toSignatureInput.display = .ok x)
    (hd : .derived d ∈ c.components) (hn : ∀ s, d.item.bare ≠ .string ('@' :: s)) (c' : CanonicalizeConfig)
    (h : CanonicalizeConfig.fromSignatureInput x = .ok (.ok c')) : ¬ c.Same c' :=
  fun hs => by
    obtain ⟨⟨s, hs⟩, _⟩ := ((C01_exact c x hr).1 ⟨c', h, hs⟩).2.1 _ hd
    exact hn s hs

/-- It may read back as a header. -/
example : (CanonicalizeConfig.run [.components [.derived (.new (str% "host"))]]).toSignatureInput.display = .ok (str% "sig=(\"host\")") ∧
    CanonicalizeConfig.fromSignatureInput (str% "sig=(\"host\")") =
      .ok (.ok { label := some (str% "sig"), components := [.header hHost] }) := ⟨rfl, rfl⟩

/-- C01 fails for an empty parameter name on a derived component, whatever the rest. -/
theorem C01_neg_empty_param_name (c : CanonicalizeConfig) (x : Str) (d : DerivedComponent) (v : BareItem)
    (hr : c.toSignatureInput.display = .ok x) (hd : .derived d ∈ c.components) (hv : ([], v) ∈ d.item.params) (c' : CanonicalizeConfig)
    (h : CanonicalizeConfig.fromSignatureInput x = .ok (.ok c')) : ¬ c.Same c' :=
  fun hs => ((((C01_exact c x hr).1 ⟨c', h, hs⟩).2.1 _ hd).2.2 _ hv).1 rfl

example : (CanonicalizeConfig.run [.components [.derived ((DerivedComponent.new atMethod).withParam [] (str% "v"))]]).toSignatureInput.display =
      .ok (str% "sig=(\"@method\";=\"v\")") ∧
    CanonicalizeConfig.fromSignatureInput (str% "sig=(\"@method\";=\"v\")") = .ok (.error .signatureInputParse) := ⟨rfl, rfl⟩

/-- C01 fails for a decimal that needs more than three fractional digits (reachable through `From<Item>` only), whatever the rest:
sfv rounds. -/
theorem C01_neg_long_decimal (c : CanonicalizeConfig) (x k : Str) (d : DerivedComponent) (n : Decimal)
    (hr : c.toSignatureInput.display = .ok x) (hd : .derived d ∈ c.components) (hv : (k, .decimal n) ∈ d.item.params)
    (hn : n.mant * 1000 % 10 ^ n.scale ≠ 0) (c' : CanonicalizeConfig)
    (h : CanonicalizeConfig.fromSignatureInput x = .ok (.ok c')) : ¬ c.Same c' :=
  fun hs => hn (((((C01_exact c x hr).1 ⟨c', h, hs⟩).2.1 _ hd).2.2 _ hv).2.2 n rfl)

/-- Such a configuration, and what it reads back as. -/
example :
    let c (n : Decimal) : CanonicalizeConfig :=
      { label := some (str% "sig"), components := [.derived ⟨{ bare := .string atMethod, params := [(str% "x", .decimal n)] }⟩] }
    (c ⟨false, 1234, 4⟩).toSignatureInput.display = .ok (str% "sig=(\"@method\";x=0.123)") ∧
    CanonicalizeConfig.fromSignatureInput (str% "sig=(\"@method\";x=0.123)") = .ok (.ok (c ⟨false, 123, 3⟩)) := ⟨rfl, rfl⟩

/-! ### C02 -/

/-- C02. Every accepted `Signature-Input` value re-renders without panic, the rendering reads back as the same
configuration, and rendering that again changes nothing. -/
theorem C02_accepted_inputs_rerender (h : Str) (c : CanonicalizeConfig)
    (hread : CanonicalizeConfig.fromSignatureInput h = .ok (.ok c)) :
    ∃ x c', c.toSignatureInput.display = .ok x ∧ CanonicalizeConfig.fromSignatureInput x = .ok (.ok c') ∧
      c.Same c' ∧ c'.toSignatureInput.display = .ok x := by
  obtain ⟨hk, hcs, hps⟩ := fromSignatureInput_spec hread
  obtain ⟨x, hx, _, hr⟩ := read_render hk hcs hps
  exact ⟨x, _, hx, hr, same_norm hcs hps, by rw [display_norm hcs hps, hx]⟩

/-- Non-vacuity: odd spacing, a duplicate parameter, a decimal, a byte sequence, a boolean, a second member. -/
example : CanonicalizeConfig.fromSignatureInput
    (str% "  a1=(  \"@path\";x=1.50   \"HOST\" );b=:YQ:;alg=\"x\";ok;alg=\"y\" , other=3") =
    .ok (.ok { label := some (str% "a1"),
               components := [.derived ⟨{ bare := .string atPath, params := [(str% "x", .decimal ⟨false, 150, 2⟩)] }⟩, .header hHost],
               params := ⟨[(str% "b", .byteSeq [97]), (str% "alg", .string (str% "y")), (str% "ok", .boolean true)]⟩ }) := by rfl

/-! ### C51 -/

/-- C51, partial. A derived component obtained through the public API has a name, so `name()` and `derive` never panic on
it, for any host, method and URL. Missing: the direct conversion from a structured-field item that is not a string, for
which it is false (`C51_neg_item_conversion`). -/
theorem C51_never_panics_partial (d : DerivedComponent) (hd : d.ReachableNamed) (host : Option Str) (m : Method) (u : Url) :
    (∃ s, d.item.bare = .string s ∧ d.name = .ok s) ∧ ∃ v, d.derive host m u = .ok v := by
  have key : ∃ s, d.item.bare = .string s := by
    induction hd with
    | new n => exact ⟨n, rfl⟩
    | withParam k v _ ih => exact ih
    | fromStr h => exact let ⟨cs, h⟩ := (fromStr_spec h).1; ⟨_, h⟩
    | item h => exact ⟨_, h⟩
    | @component i d h =>
      unfold SignatureComponent.ofItem at h
      split at h
      · cases h
      rename_i nm hnm
      split at h
      · cases h
        obtain ⟨b, ps⟩ := i
        cases b <;> simp [BareItem.asStr] at hnm
        exact ⟨_, rfl⟩
      · split at h <;> cases h
  obtain ⟨s, hs⟩ := key
  have hn : d.name = .ok s := by simp [DerivedComponent.name, hs, BareItem.asStr]
  refine ⟨⟨s, hs, hn⟩, ⟨d.deriveNamed s host m u, ?_⟩⟩
  simp only [DerivedComponent.derive, hn]
  rfl

/-- C51, negative. `From<Item>` accepts every item; if the item is not a string, `name()` and `derive` panic. -/
theorem C51_neg_item_conversion (i : Item) (hi : ∀ s, i.bare ≠ .string s) (host : Option Str) (m : Method) (u : Url) :
    (DerivedComponent.ofItem i).Reachable ∧ (DerivedComponent.ofItem i).name = .error .derivedNameNotString ∧
      (DerivedComponent.ofItem i).derive host m u = .error .derivedNameNotString := by
  have hn : (DerivedComponent.ofItem i).name = .error .derivedNameNotString := by
    unfold DerivedComponent.name DerivedComponent.ofItem
    obtain ⟨b, ps⟩ := i
    cases b <;> first | exact absurd rfl (hi _) | rfl
  refine ⟨.item i, hn, ?_⟩
  simp only [DerivedComponent.derive, hn]
  rfl

/-- C51. Exactly: `name()` and `derive` panic on a component if and only if its item is not a string. -/
theorem C51_panics_iff (d : DerivedComponent) (host : Option Str) (m : Method) (u : Url) :
    (∃ v, d.derive host m u = .ok v) ↔ ∃ s, d.item.bare = .string s := by
  constructor
  · rintro ⟨v, hv⟩
    apply Classical.byContradiction
    intro hne
    have := (C51_neg_item_conversion d.item (fun s hs => hne ⟨s, hs⟩) host m u).2.2
    rw [show DerivedComponent.ofItem d.item = d from rfl, hv] at this
    cases this
  · rintro ⟨s, hs⟩
    exact (C51_never_panics_partial (DerivedComponent.ofItem d.item) (.item hs) host m u).2

example : (DerivedComponent.ofItem { bare := .integer 1, params := [] }).name = .error .derivedNameNotString := rfl
example : DerivedComponent.ReachableNamed ((DerivedComponent.new (str% "@query-params")).withParam (str% "name") (str% "x")) :=
  .withParam _ _ (.new _)

/-! ### C32 -/

theorem bareRustEq_norm {b : BareItem} (h : BareOk b) : BareItem.rustEq b b.norm = true := by
  cases b with
  | decimal d =>
    have := bareSame_norm h
    simp only [BareItem.norm, BareItem.Same] at this
    simp only [BareItem.norm, BareItem.rustEq, Decimal.cmp, this]
    simp
  | _ => simp [BareItem.norm, BareItem.rustEq]

theorem get_normParams (ps : Params) (k : Str) : IMap.get (normParams ps) k = (IMap.get ps k).map BareItem.norm := by
  induction ps with
  | nil => rfl
  | cons e ps ih =>
    simp only [normParams, List.map_cons, IMap.get] at ih ⊢
    split
    · rfl
    · exact ih

theorem itemRustEq_norm {i : Item} (h : ItemOk i) : Item.rustEq i (normItem i) = true := by
  simp only [Item.rustEq, normItem, bareRustEq_norm h.1, Params.rustEq, Bool.true_and, Bool.and_eq_true, beq_iff_eq,
    List.all_eq_true]
  refine ⟨by simp [normParams], ?_⟩
  intro e he
  rw [get_normParams, IMap.get_of_mem h.2.1 he]
  exact bareRustEq_norm (h.2.2 e he).2

/-- C32, header components (partial: header names starting with a double quote, which the `http` crate may admit,
are excluded — they print as something that is parsed as a derived component). -/
theorem C32_header_print_parse_partial (h : HeaderName) (hq : ∀ c ∈ h.str.head?, c ≠ '"') :
    (SignatureComponent.header h).display = .ok h.str ∧ SignatureComponent.fromStr h.str = .ok (.header h) := by
  refine ⟨rfl, ?_⟩
  have h2 : (str% "\"").isPrefixOf h.str = false := by
    cases hs : h.str with
    | nil => rfl
    | cons c cs =>
      rw [hs] at hq
      have := hq c (by simp)
      simp [List.isPrefixOf, Ne.symm this]
  simp only [SignatureComponent.fromStr, h.not_at_prefix, h2, Bool.or_self, Bool.false_eq_true, if_false, h.fromStr_str]

example : ∃ h : HeaderName, h.str = str% "content-type" ∧ ∀ c ∈ h.str.head?, c ≠ '"' :=
  ⟨⟨str% "content-type", rfl⟩, rfl, by simp⟩

/-- C32, derived components: whatever can be printed, with a `@` name, parses back as an equal component
(equal in the sense of the code's `PartialEq`, and even with parameters in the same order). -/
theorem C32_derived_print_parse (d : DerivedComponent) (s : Str) (hd : ComponentTidy (.derived d))
    (hs : d.display = .ok s) :
    ∃ d', SignatureComponent.fromStr s = .ok (.derived d') ∧ d.rustEq d' = true ∧
      ComponentSame (.derived d) (.derived d') := by
  obtain ⟨⟨cs, hcs⟩, hp⟩ := hd
  unfold DerivedComponent.display at hs
  split at hs
  · rename_i x hx
    cases hs
    have hi : ItemOk d.item := itemOk_of_ser hx hp.1 (by simp [hcs, BareTidy]) hp.2
    obtain ⟨y, hy, hparse⟩ := parseItem_ser hi
    rw [hx] at hy
    cases hy
    have hpre : ∃ t, s = '"' :: '@' :: t := by
      simp only [serItem, hcs, serBare, Option.bind_eq_bind, Option.bind_eq_some_iff] at hx
      obtain ⟨a, ha, b, _, hx⟩ := hx
      cases hx
      unfold serString at ha
      split at ha
      · cases ha
        exact ⟨_, rfl⟩
      · cases ha
    obtain ⟨t, rfl⟩ := hpre
    refine ⟨⟨normItem d.item⟩, ?_, itemRustEq_norm hi, ⟨bareSame_norm hi.1, paramsSame_norm hi.2.2⟩⟩
    simp only [SignatureComponent.fromStr, DerivedComponent.fromStr, hparse.2]
    rfl
  · cases hs

example : ComponentTidy (.derived ((DerivedComponent.new atQueryParams).withParam (str% "name") (str% "x"))) ∧
    ((DerivedComponent.new atQueryParams).withParam (str% "name") (str% "x")).display =
      .ok (str% "\"@query-params\";name=\"x\"") :=
  ⟨C01_withParam_tidy _ _ _ (C01_new_tidy _) (by simp), rfl⟩

/-- C32: parsing a header component ignores ASCII letter case and printing gives the lower-case form. -/
theorem C32_header_case (s : Str) (h : HeaderName) (hs : SignatureComponent.fromStr s = .ok (.header h)) :
    (SignatureComponent.header h).display = .ok (lowered s) ∧
    ∀ s' : Str, lowered s' = lowered s → SignatureComponent.fromStr s' = .ok (.header h) := by
  simp only [lowered_eq]
  unfold SignatureComponent.fromStr at hs
  split at hs
  · cases hd : DerivedComponent.fromStr s <;> rw [hd] at hs <;> cases hs
  rename_i hpre
  split at hs
  · rename_i h' hh
    cases hs
    unfold HeaderName.fromStr at hh
    split at hh
    · rename_i hv
      cases hh
      refine ⟨rfl, ?_⟩
      intro s' hs'
      have hlow : ∀ (c : Char), (c = '@' ∨ c = '"') ↔ (asciiLower c = '@' ∨ asciiLower c = '"') := by
        intro c
        constructor
        · rintro (rfl | rfl)
          · exact Or.inl rfl
          · exact Or.inr rfl
        · intro h
          unfold asciiLower at h
          split at h
          · rename_i hu
            have hn : 65 ≤ c.toNat ∧ c.toNat ≤ 90 := (isUpper_iff c).1 hu
            have hval : (Char.ofNat (c.toNat + 32)).toNat = c.toNat + 32 := by
              exact charToNat_ofNat (isValidChar_of_lt (by omega))
            rcases h with h | h <;> · rw [h] at hval; simp at hval; omega
          · exact h
      have hpre' : ∀ t : Str, ((str% "@").isPrefixOf t || (str% "\"").isPrefixOf t) = true ↔
          ∃ c cs, t = c :: cs ∧ (c = '@' ∨ c = '"') := by
        intro t
        cases t with
        | nil => simp [List.isPrefixOf]
        | cons c cs =>
          simp only [List.isPrefixOf, Bool.and_true, Bool.or_eq_true, beq_iff_eq, List.cons.injEq]
          constructor
          · rintro (h | h)
            · exact ⟨c, cs, ⟨rfl, rfl⟩, Or.inl h.symm⟩
            · exact ⟨c, cs, ⟨rfl, rfl⟩, Or.inr h.symm⟩
          · rintro ⟨c', cs', ⟨rfl, rfl⟩, h⟩
            rcases h with h | h
            · exact Or.inl h.symm
            · exact Or.inr h.symm
      have hn : ¬ ((str% "@").isPrefixOf s' || (str% "\"").isPrefixOf s') = true := by
        rw [hpre'] at hpre ⊢
        rintro ⟨c, cs, rfl, hc⟩
        cases s with
        | nil => simp at hs'
        | cons d ds =>
          simp only [List.map_cons, List.cons.injEq] at hs'
          refine hpre ⟨d, ds, rfl, ?_⟩
          rw [hlow d, ← hs'.1, ← hlow c]
          exact hc
      unfold SignatureComponent.fromStr
      rw [if_neg hn]
      unfold HeaderName.fromStr
      rw [dif_pos (by rw [hs']; exact hv)]
      simp only [hs']
    · cases hh
  · cases hs

example : ∃ h, SignatureComponent.fromStr (str% "Content-Type") = .ok (.header h) := ⟨_, rfl⟩

/-- C32: `to_header_name` of a parsed component is the text in lower case, unless the text starts with `@` or a double quote: then the
component has no header name. -/
theorem C32_to_header_name (s : Str) (c : SignatureComponent) (hs : SignatureComponent.fromStr s = .ok c) (h : HeaderName) :
    c.toHeaderName = some h ↔ s.head? ≠ some '@' ∧ s.head? ≠ some '"' ∧ h.str = lowered s := by
  have hp : ∀ x : Char, [x].isPrefixOf s = true ↔ s.head? = some x := by
    intro x
    cases s with
    | nil => simp [List.isPrefixOf]
    | cons c cs =>
      simp only [List.isPrefixOf, Bool.and_true, beq_iff_eq, List.head?_cons, Option.some.injEq]
      exact eq_comm
  unfold SignatureComponent.fromStr at hs
  split at hs
  · rename_i hx
    rw [Bool.or_eq_true] at hx
    have hx : s.head? = some '@' ∨ s.head? = some '"' := hx.imp (hp _).1 (hp _).1
    cases hd : DerivedComponent.fromStr s with
    | error e => rw [hd] at hs; cases hs
    | ok d =>
      rw [hd] at hs; cases hs
      constructor
      · intro h; cases h
      · rintro ⟨h1, h2, _⟩
        rcases hx with hx | hx
        · exact absurd hx h1
        · exact absurd hx h2
  · rename_i hx
    rw [Bool.or_eq_true, not_or] at hx
    have h1 : s.head? ≠ some '@' := fun e => hx.1 ((hp _).2 e)
    have h2 : s.head? ≠ some '"' := fun e => hx.2 ((hp _).2 e)
    split at hs
    · rename_i h' hh
      cases hs
      have hl : h'.str = lowered s := by
        unfold HeaderName.fromStr at hh
        split at hh
        · cases hh; rw [lowered_eq]
        · cases hh
      constructor
      · intro e; cases e; exact ⟨h1, h2, hl⟩
      · rintro ⟨_, _, e⟩
        have : h'.str = h.str := hl.trans e.symm
        cases h; cases h'
        simp only at this
        subst this
        rfl
    · cases hs

example : ∃ c h, SignatureComponent.fromStr (str% "Content-Type") = .ok c ∧ c.toHeaderName = some h ∧ h.str = str% "content-type" :=
  ⟨_, ⟨str% "content-type", rfl⟩, rfl, (C32_to_header_name (str% "Content-Type") _ rfl _).2 ⟨by decide, by decide, rfl⟩, rfl⟩

/-- C32 fails for the spelling users expect: an unquoted derived name never parses. -/
theorem C32_neg_unquoted_derived (s : Str) :
    SignatureComponent.fromStr ('@' :: s) = .error (.derivedComponentParse (some ('@' :: s))) := by
  simp [SignatureComponent.fromStr, DerivedComponent.fromStr, List.isPrefixOf, Except.map]

/-- … nor does a quoted header name. -/
theorem C32_neg_quoted_header (s : Str) (hs : ∀ c ∈ s.head?, c ≠ '@') :
    SignatureComponent.fromStr ('"' :: s) = .error (.derivedComponentParse (some ('"' :: s))) := by
  have : (str% "\"@").isPrefixOf ('"' :: s) = false := by
    cases s with
    | nil => rfl
    | cons c cs =>
      have := hs c (by simp)
      simp [List.isPrefixOf, Ne.symm this]
  simp only [SignatureComponent.fromStr, DerivedComponent.fromStr, this]
  rfl

end Httpsig
