import Verif.Lemmas.SfvFuel
import Verif.Spec.Config
/- Rendering and reading of `SignatureInput`/`CanonicalizeConfig`. -/
set_option linter.unusedSectionVars false
namespace Httpsig
open Sfv

theorem normParams_of_clean {ps : Params} (h : ∀ e ∈ ps, e.2.norm = e.2) : normParams ps = ps := by
  unfold normParams
  conv => rhs; rw [← List.map_id ps]
  apply List.map_congr_left
  intro e he
  have := h e he
  obtain ⟨k, v⟩ := e
  simp only at this ⊢
  rw [this]; rfl

theorem BareClean.tidy {b : BareItem} (h : BareClean b) : BareTidy b := by
  refine ⟨h.1, ?_⟩
  rintro d rfl
  have h2 := h.2
  simp only [BareItem.norm, BareItem.decimal.injEq] at h2
  rw [← h2]
  unfold Decimal.norm
  simp only
  split
  · simp
  · exact round3_scale d

/-- Header-name characters are printable, so header names always render. -/
theorem isStringChar_of_headerNameChar [Deps] {c : Char} (h : isHeaderNameChar c = true) :
    isStringChar c = true ∧ c ≠ '@' ∧ c ≠ '\\' := by
  simp only [isHeaderNameChar, Bool.or_eq_true, Bool.and_eq_true, beq_iff_eq] at h
  rcases h with ⟨h, _⟩ | ⟨h, _⟩
  · charcls; omega
  · subst h; decide

variable [Deps]

theorem HeaderName.all_printable (h : HeaderName) : h.str.all isStringChar = true := by
  have := h.ok
  simp only [validHeaderName, Bool.and_eq_true] at this
  rw [List.all_eq_true]
  intro c hc
  exact (isStringChar_of_headerNameChar (List.all_eq_true.1 this.2 c hc)).1

theorem HeaderName.ne_nil (h : HeaderName) : h.str ≠ [] := by
  have := h.ok
  simp only [validHeaderName, Bool.and_eq_true, Bool.not_eq_true', List.isEmpty_eq_false_iff] at this
  exact this.1.1

theorem HeaderName.head_ne_at (h : HeaderName) : ∀ c ∈ h.str.head?, c ≠ '@' := by
  have := h.ok
  simp only [validHeaderName, Bool.and_eq_true] at this
  intro c hc
  exact (isStringChar_of_headerNameChar (List.all_eq_true.1 this.2 c (List.mem_of_mem_head? hc))).2.1

theorem HeaderName.not_at_prefix (h : HeaderName) : (str% "@").isPrefixOf h.str = false := by
  have := h.head_ne_at
  cases hs : h.str with
  | nil => rfl
  | cons c cs =>
    rw [hs] at this
    have := this c (by simp)
    simp [List.isPrefixOf, Ne.symm this]

theorem asciiLower_of_not_upper {c : Char} (h : c.isUpper = false) : asciiLower c = c := by
  simp [asciiLower, h]

theorem HeaderName.lower (h : HeaderName) : h.str.map asciiLower = h.str := by
  have := h.ok
  simp only [validHeaderName, Bool.and_eq_true] at this
  conv => rhs; rw [← List.map_id h.str]
  apply List.map_congr_left
  intro c hc
  have := List.all_eq_true.1 this.2 c hc
  simp only [isHeaderNameChar, Bool.or_eq_true, Bool.and_eq_true, beq_iff_eq] at this
  rcases this with ⟨_, h⟩ | ⟨h, _⟩
  · exact asciiLower_of_not_upper (by simpa using h)
  · subst h; decide

/-- Parsing the text of a header name gives the header name. -/
theorem HeaderName.fromStr_str (h : HeaderName) : HeaderName.fromStr h.str = some h := by
  unfold HeaderName.fromStr
  have e := h.lower
  rw [dif_pos (by rw [e]; exact h.ok)]
  congr 1
  cases h
  simp only at e
  simp [e]

theorem itemOk_header (h : HeaderName) : ItemOk (SignatureComponent.header h).toItem :=
  ⟨h.all_printable, paramsOk_nil⟩

/-! ### Rendering of a `SignatureInput` -/

theorem display_eq_ok {s : SignatureInput} {x : Str} (h : s.display = .ok x) :
    serDict [(s.label, .innerList s.list.inner)] = some x := by
  unfold SignatureInput.display at h
  split at h
  · rename_i y hy; cases h; exact hy
  · cases h

theorem display_of_ser {s : SignatureInput} {x : Str} (h : serDict [(s.label, .innerList s.list.inner)] = some x) :
    s.display = .ok x := by
  unfold SignatureInput.display
  rw [show IMap.insert [] s.label (ListEntry.innerList s.list.inner) = [(s.label, .innerList s.list.inner)] from rfl, h]

theorem innerOk_render {s : SignatureInput} (hk : KeyOk s.label) (hi : InnerOk s.list.inner) :
    ∃ x, s.display = .ok x ∧ x.all isStringChar = true ∧
      SignatureInput.ofStr x = .ok ⟨s.label, ⟨normInner s.list.inner⟩⟩ := by
  have hd : DictOk [(s.label, .innerList s.list.inner)] := by
    refine ⟨by simp, by simp [IMap.NodupKeys], ?_⟩
    intro e he
    simp at he
    subst he
    exact ⟨hk, hi⟩
  obtain ⟨x, hx, hp, hparse⟩ := parseDictionary_ser hd
  refine ⟨x, display_of_ser hx, hp, ?_⟩
  unfold SignatureInput.ofStr
  rw [hparse]
  rfl

theorem serMember_inner {k : Str} {l : InnerList} {x : Str} (h : serMember k (.innerList l) = some x) :
    ∃ ls, serKey k = some k ∧ serInnerList l = some ls ∧ x = k ++ '=' :: ls := by
  simp only [serMember, Option.bind_eq_bind, Option.bind_eq_some_iff] at h
  obtain ⟨ks, hks, ls, hls, h⟩ := h
  cases h
  have := serKey_eq hks
  subst this
  exact ⟨ls, hks, hls, rfl⟩

/-! ### Components read back -/

theorem ofItem_norm_toItem {c : SignatureComponent} (h : ComponentClean c) :
    SignatureComponent.ofItem (normItem c.toItem) = .ok c := by
  cases c with
  | header n =>
    simp only [SignatureComponent.toItem, normItem, BareItem.norm, normParams, List.map_nil,
      SignatureComponent.ofItem, BareItem.asStr, n.not_at_prefix, Bool.false_eq_true, if_false, n.fromStr_str]
  | derived d =>
    obtain ⟨⟨cs, hcs⟩, hp⟩ := h
    have e : normItem d.item = d.item := by
      obtain ⟨⟨b, ps⟩⟩ := d
      simp only at hcs hp ⊢
      subst hcs
      simp only [normItem, BareItem.norm, normParams_of_clean (fun e he => (hp.2 e he).2.2)]
    simp only [SignatureComponent.toItem, e, SignatureComponent.ofItem, hcs, BareItem.asStr]
    rfl

theorem mapM_ofItem {l : List SignatureComponent} (h : ∀ c ∈ l, ComponentClean c) :
    ((l.map SignatureComponent.toItem).map normItem).mapM SignatureComponent.ofItem = .ok l := by
  induction l with
  | nil => rfl
  | cons c l ih =>
    simp only [List.map_cons, List.mapM_cons, ofItem_norm_toItem (h c (by simp)), ih (fun x hx => h x (by simp [hx]))]
    rfl

theorem itemNe_of_clean {c : SignatureComponent} (h : ComponentClean c) :
    IMap.NodupKeys c.toItem.params ∧ BareTidy c.toItem.bare ∧
      ∀ e ∈ c.toItem.params, e.1 ≠ [] ∧ BareTidy e.2 := by
  cases c with
  | header n => exact ⟨by simp [SignatureComponent.toItem, IMap.NodupKeys], by simp [SignatureComponent.toItem, BareTidy], by simp [SignatureComponent.toItem]⟩
  | derived d =>
    obtain ⟨⟨cs, hcs⟩, hp⟩ := h
    refine ⟨hp.1, by simp [SignatureComponent.toItem, hcs, BareTidy], fun e he => ⟨(hp.2 e he).1, (hp.2 e he).2.tidy⟩⟩

/-- The round trip on clean configurations. -/
theorem round_trip {c : CanonicalizeConfig} {x : Str} (hr : c.toSignatureInput.display = .ok x)
    (hl : c.getLabel ≠ []) (hc : ∀ k ∈ c.components, ComponentClean k) (hp : ParamsClean c.params.params) :
    x.all isStringChar = true ∧
    CanonicalizeConfig.fromSignatureInput x =
      .ok (.ok { label := some c.getLabel, components := c.components, params := c.params }) := by
  have h1 := display_eq_ok hr
  simp only [serDict] at h1
  obtain ⟨ls, hk, hls, _⟩ := serMember_inner h1
  have hK : KeyOk c.toSignatureInput.label := keyOk_of_ser hk hl
  have hI : InnerOk c.toSignatureInput.list.inner := by
    refine innerOk_of_ser hls hp.1 (fun e he => ⟨(hp.2 e he).1, (hp.2 e he).2.tidy⟩) ?_
    intro i hi
    simp only [CanonicalizeConfig.toSignatureInput, SignatureInput.new, ComponentList.new, List.mem_map] at hi
    obtain ⟨k, hk, rfl⟩ := hi
    exact itemNe_of_clean (hc k hk)
  obtain ⟨y, hy, hpr, hparse⟩ := innerOk_render hK hI
  rw [hr] at hy
  cases hy
  refine ⟨hpr, ?_⟩
  unfold CanonicalizeConfig.fromSignatureInput
  rw [hparse]
  have hm := mapM_ofItem hc
  simp only [CanonicalizeConfig.ofSignatureInput, normInner, CanonicalizeConfig.toSignatureInput, SignatureInput.new,
    ComponentList.new]
  rw [hm, normParams_of_clean (fun e he => (hp.2 e he).2.2)]
  rfl

/-! ### Decimals -/

theorem norm_same_of_scale {d : Decimal} (h : d.scale ≤ 3) : BareItem.Same (.decimal d) (.decimal d.norm) := by
  have hr : Decimal.round3 d = d := by simp [Decimal.round3, h]
  unfold Decimal.norm
  simp only [hr]
  by_cases h0 : d.mant % 10 ^ d.scale = 0
  · rw [if_pos h0]
    simp only [BareItem.Same]
    have hd : d.mant = d.mant / 10 ^ d.scale * 10 ^ d.scale := by
      have := Nat.div_add_mod d.mant (10 ^ d.scale)
      rw [h0, Nat.mul_comm] at this; omega
    congr 2
    rw [Nat.pow_one]
    generalize d.mant / 10 ^ d.scale = q at *
    rw [hd, Nat.mul_assoc, Nat.mul_assoc, Nat.mul_comm 10]
  · rw [if_neg h0]; simp [BareItem.Same]

end Httpsig
