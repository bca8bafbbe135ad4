import Verif.Lemmas.Config
/- Rendering ignores decimal normalisation; configurations that were read can be rendered. -/
set_option linter.unusedSectionVars false
namespace Httpsig
open Sfv
variable [Deps]

theorem decimal_norm_scale {d : Decimal} (h : d.scale ≤ 3) : d.norm.scale ≤ 3 := by
  have hr : Decimal.round3 d = d := by simp [Decimal.round3, h]
  unfold Decimal.norm
  simp only [hr]
  split <;> simp_all

theorem serDecimal_norm {d : Decimal} (h : d.scale ≤ 3) : serDecimal d.norm = serDecimal d := by
  have hs := decimal_norm_scale h
  have hr : Decimal.round3 d = d := by simp [Decimal.round3, h]
  have hr' : Decimal.round3 d.norm = d.norm := by simp [Decimal.round3, hs]
  unfold serDecimal
  simp only [hr, hr']
  unfold Decimal.norm
  simp only [hr]
  by_cases h0 : d.mant % 10 ^ d.scale = 0
  · simp only [if_pos h0, Nat.pow_one, Nat.mul_div_cancel _ (show 0 < 10 by omega), Nat.mul_mod_left, if_true]
  · simp only [if_neg h0]

theorem serBare_norm {b : BareItem} (h : BareOk b) : serBare b.norm = serBare b := by
  cases b with
  | decimal d => exact serDecimal_norm h.1
  | _ => rfl

theorem norm_eq_true {b : BareItem} : b.norm = .boolean true ↔ b = .boolean true := by
  cases b <;> simp [BareItem.norm]

theorem serParams_norm {ps : Params} (h : ∀ e ∈ ps, KeyOk e.1 ∧ BareOk e.2) : serParams (normParams ps) = serParams ps := by
  induction ps with
  | nil => rfl
  | cons e ps ih =>
    obtain ⟨k, v⟩ := e
    have hv : BareOk v := (h (k, v) (by simp)).2
    have e1 : serParam k v.norm = serParam k v := by
      simp only [serParam, norm_eq_true, serBare_norm hv]
    have e2 := ih (fun e he => h e (by simp [he]))
    simp only [normParams, List.map_cons, serParams] at e2 ⊢
    rw [e1, e2]

theorem serItem_norm {i : Item} (h : ItemOk i) : serItem (normItem i) = serItem i := by
  simp only [serItem, normItem, serBare_norm h.1, serParams_norm h.2.2]

theorem serItems_norm {l : List Item} (h : ∀ i ∈ l, ItemOk i) : serItems (l.map normItem) = serItems l := by
  induction l with
  | nil => rfl
  | cons i l ih =>
    have ih := ih (fun j hj => h j (by simp [hj]))
    have hi := serItem_norm (h i (by simp))
    cases l with
    | nil => simpa [serItems] using hi
    | cons j l =>
      simp only [List.map_cons, serItems] at ih ⊢
      rw [hi, ih]

theorem serInner_norm {l : InnerList} (h : InnerOk l) : serInnerList (normInner l) = serInnerList l := by
  simp only [serInnerList, normInner, serItems_norm h.1, serParams_norm h.2.2]

/-! ### Well-formedness is preserved by normalisation -/

theorem bareOk_norm {b : BareItem} (h : BareOk b) : BareOk b.norm := by
  cases b with
  | decimal d =>
    refine ⟨decimal_norm_scale h.1, ?_⟩
    have hr : Decimal.round3 d = d := by simp [Decimal.round3, h.1]
    unfold Decimal.norm
    simp only [hr]
    split
    · simp only [Nat.pow_one, Nat.mul_div_cancel _ (show 0 < 10 by omega)]; exact h.2
    · exact h.2
  | _ => exact h

theorem paramsOk_norm {ps : Params} (h : ParamsOk ps) : ParamsOk (normParams ps) := by
  constructor
  · have := h.1
    unfold IMap.NodupKeys normParams at *
    rw [List.map_map]
    exact this
  · intro e he
    simp only [normParams, List.mem_map] at he
    obtain ⟨e', he', rfl⟩ := he
    exact ⟨(h.2 e' he').1, bareOk_norm (h.2 e' he').2⟩

theorem decimal_norm_eq {d : Decimal} (h : d.scale ≤ 3) :
    d.norm = if d.mant % 10 ^ d.scale = 0 then ⟨d.neg, d.mant / 10 ^ d.scale * 10, 1⟩ else d := by
  have hr : Decimal.round3 d = d := by simp [Decimal.round3, h]
  unfold Decimal.norm
  simp only [hr]

theorem normDecimal_idem {d : Decimal} (h : d.scale ≤ 3) : d.norm.norm = d.norm := by
  by_cases h0 : d.mant % 10 ^ d.scale = 0
  · rw [decimal_norm_eq h, if_pos h0, decimal_norm_eq (by simp)]
    simp
  · rw [decimal_norm_eq h, if_neg h0, decimal_norm_eq h, if_neg h0]

theorem bareNorm_idem {b : BareItem} (h : BareOk b) : b.norm.norm = b.norm := by
  cases b with
  | decimal d => simp only [BareItem.norm]; rw [normDecimal_idem h.1]
  | _ => rfl

theorem paramsNorm_clean {ps : Params} (h : ParamsOk ps) : ParamsClean (normParams ps) := by
  refine ⟨(paramsOk_norm h).1, ?_⟩
  intro e he
  simp only [normParams, List.mem_map] at he
  obtain ⟨e', he', rfl⟩ := he
  obtain ⟨hk, hb⟩ := h.2 e' he'
  obtain ⟨c, cs, hk, _⟩ := hk
  refine ⟨by simp [hk], ?_, bareNorm_idem hb⟩
  cases hb' : e'.2 with
  | token t =>
    rw [hb'] at hb
    obtain ⟨c, cs, rfl, _⟩ := hb
    simp [BareItem.norm]
  | _ => simp [BareItem.norm]

theorem bareSame_norm {b : BareItem} (h : BareOk b) : BareItem.Same b b.norm := by
  cases b with
  | decimal d => exact norm_same_of_scale h.1
  | _ => simp [BareItem.norm, BareItem.Same]

theorem paramsSame_norm {ps : Params} (h : ∀ e ∈ ps, KeyOk e.1 ∧ BareOk e.2) : ParamsSame ps (normParams ps) := by
  induction ps with
  | nil => exact .nil
  | cons e ps ih =>
    exact .cons ⟨rfl, bareSame_norm (h e (by simp)).2⟩ (ih (fun e he => h e (by simp [he])))


/-- Decimal normalisation of a component. -/
def normComponent : SignatureComponent → SignatureComponent
  | .header h => .header h
  | .derived d => .derived ⟨normItem d.item⟩

/-- A component produced by reading an item. -/
def ComponentRead : SignatureComponent → Prop
  | .header _ => True
  | .derived d => d.Named ∧ ItemOk d.item

theorem ofItem_read {i : Item} {c : SignatureComponent} (hi : ItemOk i) (h : SignatureComponent.ofItem i = .ok c) :
    ComponentRead c := by
  unfold SignatureComponent.ofItem at h
  split at h
  · cases h
  rename_i nm hnm
  split at h
  · rename_i hat
    cases h
    refine ⟨?_, hi⟩
    have : ∃ cs, nm = '@' :: cs := by
      cases nm with
      | nil => simp at hat
      | cons c cs => simp [List.isPrefixOf] at hat; exact ⟨cs, by rw [hat]⟩
    obtain ⟨cs, rfl⟩ := this
    refine ⟨cs, ?_⟩
    cases hb : i.bare <;> simp [BareItem.asStr, hb] at hnm
    rw [hnm]
  · split at h
    · cases h; trivial
    · cases h

theorem mapM_ofItem_read {l : List Item} {cs : List SignatureComponent} (hi : ∀ i ∈ l, ItemOk i)
    (h : l.mapM SignatureComponent.ofItem = .ok cs) : ∀ c ∈ cs, ComponentRead c := by
  induction l generalizing cs with
  | nil => cases h; simp
  | cons i l ih =>
    rw [List.mapM_cons] at h
    cases h1 : SignatureComponent.ofItem i with
    | error e => rw [h1] at h; cases h
    | ok c =>
      cases h2 : l.mapM SignatureComponent.ofItem with
      | error e => rw [h1, h2] at h; cases h
      | ok cs' =>
        rw [h1, h2] at h
        cases h
        intro x hx
        rcases List.mem_cons.1 hx with rfl | hx
        · exact ofItem_read (hi i (by simp)) h1
        · exact ih (fun j hj => hi j (by simp [hj])) h2 x hx

/-- What is known about a configuration that was read from a header. -/
theorem fromSignatureInput_spec {h : Str} {c : CanonicalizeConfig}
    (hr : CanonicalizeConfig.fromSignatureInput h = .ok (.ok c)) :
    KeyOk c.getLabel ∧ (∀ k ∈ c.components, ComponentRead k) ∧ ParamsOk c.params.params := by
  unfold CanonicalizeConfig.fromSignatureInput at hr
  cases hs : SignatureInput.ofStr h with
  | error e => rw [hs] at hr; cases hr
  | ok s =>
    rw [hs] at hr
    simp only at hr
    cases hc : CanonicalizeConfig.ofSignatureInput s with
    | error e => rw [hc] at hr; cases hr
    | ok c' =>
      rw [hc] at hr
      cases hr
      unfold CanonicalizeConfig.ofSignatureInput at hc
      cases hm : s.list.inner.items.mapM SignatureComponent.ofItem with
      | error e => rw [hm] at hc; cases hc
      | ok comps =>
        rw [hm] at hc
        cases hc
        unfold SignatureInput.ofStr at hs
        split at hs
        · cases hs
        rename_i d hd
        have hok := parseDictionary_spec hd
        split at hs
        · rename_i label entry hhead
          have hmem : (label, entry) ∈ d := List.mem_of_mem_head? hhead
          have := hok.2 _ hmem
          cases entry with
          | item i => cases hs
          | innerList l =>
            cases hs
            exact ⟨this.1, mapM_ofItem_read this.2.1 hm, this.2.2⟩
        · cases hs

theorem toItem_ok {c : SignatureComponent} (h : ComponentRead c) : ItemOk c.toItem := by
  cases c with
  | header n => exact itemOk_header n
  | derived d => exact h.2

theorem normComponent_toItem (c : SignatureComponent) : (normComponent c).toItem = normItem c.toItem := by
  cases c <;> rfl

theorem ofItem_normItem_toItem {c : SignatureComponent} (h : ComponentRead c) :
    SignatureComponent.ofItem (normItem c.toItem) = .ok (normComponent c) := by
  cases c with
  | header n => exact ofItem_norm_toItem (c := .header n) trivial
  | derived d =>
    obtain ⟨⟨cs, hcs⟩, hp⟩ := h
    simp only [SignatureComponent.toItem, SignatureComponent.ofItem, normItem, hcs, BareItem.norm, BareItem.asStr, normComponent]
    rfl

theorem mapM_ofItem_norm {l : List SignatureComponent} (h : ∀ c ∈ l, ComponentRead c) :
    ((l.map SignatureComponent.toItem).map normItem).mapM SignatureComponent.ofItem = .ok (l.map normComponent) := by
  induction l with
  | nil => rfl
  | cons c l ih =>
    simp only [List.map_cons, List.mapM_cons, ofItem_normItem_toItem (h c (by simp)), ih (fun x hx => h x (by simp [hx]))]
    rfl

theorem forall2_norm {l : List SignatureComponent} (h : ∀ c ∈ l, ComponentRead c) :
    Forall2 ComponentSame l (l.map normComponent) := by
  induction l with
  | nil => exact .nil
  | cons c l ih =>
    refine .cons ?_ (ih (fun x hx => h x (by simp [hx])))
    have hc := h c (by simp)
    cases c with
    | header n => rfl
    | derived d => exact ⟨bareSame_norm hc.2.1, paramsSame_norm hc.2.2.2⟩

end Httpsig
