import Verif.Lemmas.Config3
import Verif.Lemmas.Render
/-
Rounding the decimals of a configuration does not change its rendering; which values survive it.
-/
set_option linter.unusedSectionVars false
namespace Httpsig
open Sfv

theorem sign_natAbs (b : Bool) (n : Nat) : ((if b then -1 else 1 : Int) * (n : Int)).natAbs = n := by
  cases b <;> simp

theorem BareItem.Same.refl (b : BareItem) : BareItem.Same b b := by
  cases b <;> simp [BareItem.Same]

theorem BareItem.Same.trans {a b c : BareItem} (h1 : BareItem.Same a b) (h2 : BareItem.Same b c) : BareItem.Same a c := by
  cases a with
  | decimal a =>
    cases b with
    | decimal b =>
      cases c with
      | decimal c =>
        simp only [BareItem.Same] at h1 h2 ⊢
        have hpos : ((10 ^ b.scale : Nat) : Int) ≠ 0 := by
          have : 0 < 10 ^ b.scale := Nat.pow_pos (by omega)
          omega
        apply Int.eq_of_mul_eq_mul_right hpos
        simp only [Int.natCast_mul] at h1 h2 ⊢
        generalize (if a.neg = true then -1 else 1 : Int) = sa at *
        generalize (if b.neg = true then -1 else 1 : Int) = sb at *
        generalize (if c.neg = true then -1 else 1 : Int) = sc at *
        generalize ((10 ^ a.scale : Nat) : Int) = pa at *
        generalize ((10 ^ b.scale : Nat) : Int) = pb at *
        generalize ((10 ^ c.scale : Nat) : Int) = pc at *
        generalize (a.mant : Int) = ma at *
        generalize (b.mant : Int) = mb at *
        generalize (c.mant : Int) = mc at *
        calc sa * (ma * pc) * pb = sa * (ma * pb) * pc := by simp [Int.mul_comm, Int.mul_left_comm]
          _ = sb * (mb * pa) * pc := by rw [h1]
          _ = sb * (mb * pc) * pa := by simp [Int.mul_comm, Int.mul_left_comm]
          _ = sc * (mc * pb) * pa := by rw [h2]
          _ = sc * (mc * pa) * pb := by simp [Int.mul_comm, Int.mul_left_comm]
      | _ => simp [BareItem.Same] at h2
    | _ => simp [BareItem.Same] at h1
  | _ =>
    cases b with
    | decimal b => simp [BareItem.Same] at h1
    | _ =>
      simp only [BareItem.Same] at h1
      rw [h1]
      exact h2

/-- A decimal equal to one with at most three fractional digits needs no more. -/
theorem faithful_of_same {d d' : Decimal} (h : BareItem.Same (.decimal d) (.decimal d')) (hs : d'.scale ≤ 3) :
    d.mant * 1000 % 10 ^ d.scale = 0 := by
  simp only [BareItem.Same] at h
  have h := congrArg Int.natAbs h
  rw [sign_natAbs, sign_natAbs] at h
  have e : 1000 = 10 ^ d'.scale * 10 ^ (3 - d'.scale) := by
    rw [← Nat.pow_add, Nat.add_sub_cancel' hs]
  rw [e, ← Nat.mul_assoc, h, Nat.mul_right_comm]
  exact Nat.mul_mod_left _ _

theorem same_round3 {d : Decimal} (h : d.mant * 1000 % 10 ^ d.scale = 0) : BareItem.Same (.decimal d) (.decimal (Decimal.round3 d)) := by
  by_cases hs : d.scale ≤ 3
  · rw [Decimal.round3, if_pos hs]
    exact .refl _
  · obtain ⟨n, hn⟩ : ∃ n, d.scale = n + 3 := ⟨d.scale - 3, by omega⟩
    have hr : d.mant % 10 ^ n = 0 := by
      rw [hn, Nat.pow_add, show (10 : Nat) ^ 3 = 1000 from rfl, Nat.mul_mod_mul_right] at h
      omega
    have hp : 0 < 10 ^ n := Nat.pow_pos (by omega)
    have e : (Decimal.round3 d) = ⟨d.neg, d.mant / 10 ^ n, 3⟩ := by
      rw [Decimal.round3, if_neg hs]
      simp only [hn, Nat.add_sub_cancel, hr]
      rw [if_neg (by omega)]
    rw [e]
    simp only [BareItem.Same]
    congr 2
    rw [hn, Nat.pow_add, ← Nat.mul_assoc, Nat.div_mul_cancel (Nat.dvd_of_mod_eq_zero hr)]

/-- A value with its decimal rounded. -/
def roundBare : BareItem → BareItem
  | .decimal d => .decimal (Decimal.round3 d)
  | b => b

@[inherit_doc roundBare]
def roundParams (ps : Params) : Params := ps.map fun (k, v) => (k, roundBare v)

@[inherit_doc roundBare]
def roundItem (i : Item) : Item := ⟨roundBare i.bare, roundParams i.params⟩

theorem serBare_round (b : BareItem) : serBare (roundBare b) = serBare b := by
  cases b with
  | decimal d =>
    have : Decimal.round3 (Decimal.round3 d) = (Decimal.round3 d) := by
      rw [Decimal.round3.eq_def (Decimal.round3 d), if_pos (round3_scale d)]
    simp only [roundBare, serBare, serDecimal, this]
  | _ => rfl

theorem serParam_round (k : Str) (b : BareItem) : serParam k (roundBare b) = serParam k b := by
  have : roundBare b = .boolean true ↔ b = .boolean true := by cases b <;> simp [roundBare]
  simp only [serParam, serBare_round, this]

theorem serParams_round (ps : Params) : serParams (roundParams ps) = serParams ps := by
  induction ps with
  | nil => rfl
  | cons e ps ih =>
    obtain ⟨k, v⟩ := e
    have : roundParams ((k, v) :: ps) = (k, roundBare v) :: roundParams ps := rfl
    rw [this, serParams, serParams, serParam_round, ih]

theorem serItem_round (i : Item) : serItem (roundItem i) = serItem i := by
  simp only [serItem, roundItem, serBare_round, serParams_round]

theorem serItems_round : ∀ l : List Item, serItems (l.map roundItem) = serItems l
  | [] => rfl
  | [i] => serItem_round i
  | i :: j :: rest => by
    have ih := serItems_round (j :: rest)
    simp only [List.map_cons] at ih ⊢
    rw [serItems, serItems, serItem_round, ih]

section
variable [Deps]

@[inherit_doc roundBare]
def roundComponent : SignatureComponent → SignatureComponent
  | .header h => .header h
  | .derived d => .derived ⟨roundItem d.item⟩

@[inherit_doc roundBare]
def CanonicalizeConfig.round (c : CanonicalizeConfig) : CanonicalizeConfig :=
  { label := c.label, components := c.components.map roundComponent, params := ⟨roundParams c.params.params⟩ }

theorem display_round (c : CanonicalizeConfig) : c.round.toSignatureInput.display = c.toSignatureInput.display := by
  have e : c.round.toSignatureInput.list.inner =
      ⟨c.toSignatureInput.list.inner.items.map roundItem, roundParams c.toSignatureInput.list.inner.params⟩ := by
    simp only [CanonicalizeConfig.round, CanonicalizeConfig.toSignatureInput, SignatureInput.new, ComponentList.new,
      List.map_map]
    congr 1
    apply List.map_congr_left
    intro k _
    cases k <;> rfl
  unfold SignatureInput.display
  have e2 : c.round.toSignatureInput.label = c.toSignatureInput.label := rfl
  have e3 : ∀ (k : Str) (l : InnerList), serDict (IMap.insert [] k (.innerList l)) = serMember k (.innerList l) := fun _ _ => rfl
  rw [e2, e, e3, e3]
  simp only [serMember, serInnerList, serItems_round, serParams_round]

theorem roundParams_tidy {ps : Params} (h : ParamsFaithful ps) : ParamsTidy (roundParams ps) := by
  refine ⟨?_, ?_⟩
  · have := h.1
    unfold IMap.NodupKeys roundParams at *
    rw [List.map_map]
    exact this
  · intro e he
    simp only [roundParams, List.mem_map] at he
    obtain ⟨⟨k, v⟩, he', rfl⟩ := he
    obtain ⟨h1, h2, _⟩ := h.2 _ he'
    refine ⟨h1, ?_, ?_⟩
    · cases v <;> simp_all [roundBare]
    · intro d hd
      cases v <;> simp only [roundBare, BareItem.decimal.injEq, reduceCtorEq] at hd
      rw [← hd]
      exact round3_scale _

theorem roundParams_same {ps : Params} (h : ∀ e ∈ ps, BareFaithful e.2) : ParamsSame ps (roundParams ps) := by
  induction ps with
  | nil => exact .nil
  | cons e ps ih =>
    refine .cons ⟨rfl, ?_⟩ (ih fun e he => h e (by simp [he]))
    have := (h e (by simp)).2
    show BareItem.Same e.2 (roundBare e.2)
    cases hv : e.2 with
    | decimal d => exact same_round3 (this d hv)
    | _ => exact .refl _

theorem Forall2.trans' {α : Type} {R : α → α → Prop} (hR : ∀ a b c, R a b → R b c → R a c) :
    ∀ {a b c : List α}, Forall2 R a b → Forall2 R b c → Forall2 R a c
  | _, _, _, .nil, .nil => .nil
  | _, _, _, .cons h1 t1, .cons h2 t2 => .cons (hR _ _ _ h1 h2) (Forall2.trans' hR t1 t2)

theorem ParamsSame.trans {a b c : Params} (h1 : ParamsSame a b) (h2 : ParamsSame b c) : ParamsSame a c :=
  Forall2.trans' (fun _ _ _ h1 h2 => ⟨h1.1.trans h2.1, h1.2.trans h2.2⟩) h1 h2

theorem ComponentSame.trans {a b c : SignatureComponent} (h1 : ComponentSame a b) (h2 : ComponentSame b c) : ComponentSame a c := by
  cases a <;> cases b <;> simp only [ComponentSame] at h1 <;> cases c <;> simp only [ComponentSame] at h2 ⊢
  · exact ⟨h1.1.trans h2.1, h1.2.trans h2.2⟩
  · exact h1.trans h2

theorem CanonicalizeConfig.Same.trans {a b c : CanonicalizeConfig} (h1 : a.Same b) (h2 : b.Same c) : a.Same c :=
  ⟨h1.1.trans h2.1, Forall2.trans' (R := ComponentSame) (fun _ _ _ => ComponentSame.trans) h1.2.1 h2.2.1, h1.2.2.trans h2.2.2⟩

theorem same_round {c : CanonicalizeConfig} (hc : ∀ k ∈ c.components, ComponentFaithful k)
    (hp : ParamsFaithful c.params.params) : c.Same c.round := by
  refine ⟨rfl, ?_, roundParams_same fun e he => (hp.2 e he).2⟩
  unfold CanonicalizeConfig.round
  simp only
  generalize c.components = l at hc
  induction l with
  | nil => exact .nil
  | cons k l ih =>
    refine .cons ?_ (ih fun k hk => hc k (by simp [hk]))
    have := hc k (by simp)
    cases k with
    | header h => rfl
    | derived d =>
      refine ⟨?_, roundParams_same fun e he => (this.2.2 e he).2⟩
      obtain ⟨cs, hcs⟩ := this.1
      simp only [roundItem, hcs, roundBare]
      exact .refl _

theorem paramsSame_names {a b : Params} (h : ParamsSame a b) : a.map Prod.fst = b.map Prod.fst := by
  unfold ParamsSame at h
  induction h with
  | nil => rfl
  | cons h _ ih => simp [h.1, ih]

theorem faithful_of_paramsSame {a b : Params} (h : ParamsSame a b) (hb : ParamsOk b) : ParamsFaithful a := by
  refine ⟨by unfold IMap.NodupKeys; rw [paramsSame_names h]; exact hb.1, ?_⟩
  replace hb := hb.2
  unfold ParamsSame at h
  induction h with
  | nil => simp
  | @cons x y as bs h _ ih =>
    intro e he
    rcases List.mem_cons.1 he with rfl | he
    · obtain ⟨⟨c, cs, hk, _⟩, hv⟩ := hb y (by simp)
      refine ⟨by rw [h.1, hk]; simp, ?_, ?_⟩
      · intro ht
        have := h.2
        rw [ht] at this
        cases hy : y.2 <;> rw [hy] at this <;> simp only [BareItem.Same, reduceCtorEq] at this
        rw [hy] at hv
        obtain ⟨c, cs, h1, _⟩ := hv
        cases this
        cases h1
      · intro d hd
        have := h.2
        rw [hd] at this
        cases hy : y.2 <;> rw [hy] at this <;> try (simp only [BareItem.Same, reduceCtorEq] at this)
        rw [hy] at hv
        exact faithful_of_same (by simp only [BareItem.Same]; exact this) hv.1
    · exact ih (fun e he => hb e (by simp [he])) e he

theorem faithful_of_componentSame {a b : SignatureComponent} (h : ComponentSame a b) (hb : ComponentRead b) : ComponentFaithful a := by
  cases a with
  | header => trivial
  | derived d =>
    cases b with
    | header => cases h
    | derived d' =>
      obtain ⟨⟨cs, hcs⟩, hi⟩ := hb
      refine ⟨⟨cs, ?_⟩, faithful_of_paramsSame h.2 hi.2⟩
      have := h.1
      rw [hcs] at this
      cases hd : d.item.bare <;> rw [hd] at this <;> simp only [BareItem.Same, reduceCtorEq] at this
      exact this

theorem forall2_mem_left {α β : Type} {R : α → β → Prop} {as : List α} {bs : List β} (h : Forall2 R as bs) :
    ∀ a ∈ as, ∃ b ∈ bs, R a b := by
  induction h with
  | nil => simp
  | cons h _ ih =>
    intro a ha
    rcases List.mem_cons.1 ha with rfl | ha
    · exact ⟨_, by simp, h⟩
    · obtain ⟨b, hb, hr⟩ := ih a ha
      exact ⟨b, by simp [hb], hr⟩

end
end Httpsig
