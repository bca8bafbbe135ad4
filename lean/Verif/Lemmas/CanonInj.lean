import Verif.Lemmas.Canon
/- The signature base determines components, parameters and values. -/
set_option linter.unusedSectionVars false
namespace Httpsig
open Sfv
variable [Deps]

theorem append_cons_inj {α : Type} {x : α} : ∀ {a a' r r' : List α}, x ∉ a → x ∉ a' → a ++ x :: r = a' ++ x :: r' →
    a = a' ∧ r = r'
  | [], [], _, _, _, _, h => by simp at h; exact ⟨rfl, h⟩
  | [], c :: a', _, _, _, h2, h => by simp at h; exact absurd h.1 (by rintro rfl; simp at h2)
  | c :: a, [], _, _, h1, _, h => by simp at h; exact absurd h.1.symm (by rintro rfl; simp at h1)
  | c :: a, c' :: a', r, r', h1, h2, h => by
    simp only [List.cons_append, List.cons.injEq] at h
    simp only [List.mem_cons, not_or] at h1 h2
    obtain ⟨e1, e2⟩ := append_cons_inj h1.2 h2.2 h.2
    exact ⟨by rw [h.1, e1], e2⟩

theorem decimalSame_trans {a n b : Decimal} (h1 : BareItem.Same (.decimal a) (.decimal n))
    (h2 : BareItem.Same (.decimal b) (.decimal n)) : BareItem.Same (.decimal a) (.decimal b) := by
  simp only [BareItem.Same] at *
  generalize (if a.neg = true then (-1 : Int) else 1) = sa at *
  generalize (if b.neg = true then (-1 : Int) else 1) = sb at *
  generalize (if n.neg = true then (-1 : Int) else 1) = sn at *
  have hN : ((10 ^ n.scale : Nat) : Int) ≠ 0 := by
    have : 10 ^ n.scale ≠ 0 := Nat.pos_iff_ne_zero.1 (Nat.pow_pos (by omega))
    omega
  generalize 10 ^ n.scale = N at *
  generalize 10 ^ a.scale = A at *
  generalize 10 ^ b.scale = B at *
  rw [Int.natCast_mul] at *
  rw [Int.natCast_mul] at *
  generalize (N : Int) = N at *
  generalize (A : Int) = A at *
  generalize (B : Int) = B at *
  generalize (a.mant : Int) = ma at *
  generalize (b.mant : Int) = mb at *
  generalize (n.mant : Int) = mn at *
  apply Int.eq_of_mul_eq_mul_right hN
  have e1 : sa * (ma * B) * N = sa * (ma * N) * B := by
    simp only [Int.mul_comm, Int.mul_left_comm]
  have e2 : sb * (mb * A) * N = sb * (mb * N) * A := by
    simp only [Int.mul_comm, Int.mul_left_comm]
  rw [e1, e2, h1, h2]
  simp only [Int.mul_comm, Int.mul_left_comm]

theorem bareSame_of_norm {a b : BareItem} (ha : BareOk a) (hb : BareOk b) (h : a.norm = b.norm) : BareItem.Same a b := by
  cases a <;> cases b <;> simp_all [BareItem.norm, BareItem.Same]
  rename_i a b
  have h1 := norm_same_of_scale ha.1
  have h2 := norm_same_of_scale hb.1
  rw [← h] at h2
  have := decimalSame_trans h1 h2
  simpa [BareItem.Same] using this

theorem paramsSame_of_norm : ∀ {a b : Params}, (∀ e ∈ a, KeyOk e.1 ∧ BareOk e.2) → (∀ e ∈ b, KeyOk e.1 ∧ BareOk e.2) →
    normParams a = normParams b → ParamsSame a b
  | [], [], _, _, _ => .nil
  | [], _ :: _, _, _, h => by simp [normParams] at h
  | _ :: _, [], _, _, h => by simp [normParams] at h
  | x :: a, y :: b, ha, hb, h => by
    simp only [normParams, List.map_cons, List.cons.injEq, Prod.mk.injEq] at h
    exact .cons ⟨h.1.1, bareSame_of_norm (ha x (by simp)).2 (hb y (by simp)).2 h.1.2⟩
      (paramsSame_of_norm (fun e he => ha e (by simp [he])) (fun e he => hb e (by simp [he])) h.2)

theorem componentSame_of_norm {a b : SignatureComponent} (ha : ComponentRead a) (hb : ComponentRead b)
    (h : normComponent a = normComponent b) : ComponentSame a b := by
  cases a with
  | header x =>
    cases b with
    | header y => simpa [normComponent, ComponentSame] using h
    | derived y => simp [normComponent] at h
  | derived x =>
    cases b with
    | header y => simp [normComponent] at h
    | derived y =>
      simp only [normComponent, SignatureComponent.derived.injEq, DerivedComponent.mk.injEq, normItem, Item.mk.injEq] at h
      exact ⟨bareSame_of_norm ha.2.1 hb.2.1 h.1, paramsSame_of_norm ha.2.2.2 hb.2.2.2 h.2⟩

theorem componentsSame_of_norm : ∀ {a b : List SignatureComponent}, (∀ k ∈ a, ComponentRead k) → (∀ k ∈ b, ComponentRead k) →
    a.map normComponent = b.map normComponent → Forall2 ComponentSame a b
  | [], [], _, _, _ => .nil
  | [], _ :: _, _, _, h => by simp at h
  | _ :: _, [], _, _, h => by simp at h
  | x :: a, y :: b, ha, hb, h => by
    simp only [List.map_cons, List.cons.injEq] at h
    exact .cons (componentSame_of_norm (ha x (by simp)) (hb y (by simp)) h.1)
      (componentsSame_of_norm (fun k hk => ha k (by simp [hk])) (fun k hk => hb k (by simp [hk])) h.2)

theorem Ident.norm {a : SignatureComponent} {i : Str} (ha : ComponentRead a) (h : Ident a i) : Ident (normComponent a) i := by
  cases h with
  | header h => exact .header h
  | derived d s hs => exact .derived _ _ (serItem_iff.1 (by rw [show serItem (normItem d.item) = _ from serItem_norm ha.2]; exact serItem_iff.2 hs))

theorem ident_eq_of_norm {a b : SignatureComponent} {i j : Str} (ha : ComponentRead a) (hb : ComponentRead b)
    (h : normComponent a = normComponent b) (hi : Ident a i) (hj : Ident b j) : i = j := by
  have h1 := hi.norm ha
  have h2 := hj.norm hb
  rw [h] at h1
  exact h1.det h2

theorem idents_eq_of_norm : ∀ {a b : List SignatureComponent} {ids ids' : List Str}, (∀ k ∈ a, ComponentRead k) →
    (∀ k ∈ b, ComponentRead k) → a.map normComponent = b.map normComponent → Forall2 Ident a ids → Forall2 Ident b ids' →
    ids = ids'
  | [], [], _, _, _, _, _, h1, h2 => by cases h1; cases h2; rfl
  | [], _ :: _, _, _, _, _, h, _, _ => by simp at h
  | _ :: _, [], _, _, _, _, h, _, _ => by simp at h
  | x :: a, y :: b, _, _, ha, hb, h, h1, h2 => by
    simp only [List.map_cons, List.cons.injEq] at h
    cases h1 with
    | cons h3 h4 =>
      cases h2 with
      | cons h5 h6 =>
        rw [ident_eq_of_norm (ha x (by simp)) (hb y (by simp)) h.1 h3 h5,
          idents_eq_of_norm (fun k hk => ha k (by simp [hk])) (fun k hk => hb k (by simp [hk])) h.2 h4 h6]

theorem newline_not_mem_of_printable {s : Str} (h : s.all isStringChar = true) : '\n' ∉ s := by
  intro hm
  have := List.all_eq_true.1 h _ hm
  revert this
  decide

theorem ident_no_newline {a : SignatureComponent} {i : Str} (ha : ComponentRead a) (h : Ident a i) : '\n' ∉ i := by
  apply newline_not_mem_of_printable
  cases h with
  | header h =>
    have := h.all_printable
    simp only [List.cons_append, List.all_cons, List.all_append, this, List.all_nil]
    decide
  | derived d s hs =>
    obtain ⟨t, ht, hp, _⟩ := ha.2.ser
    rw [serItem_iff.2 hs] at ht
    cases ht
    exact hp

theorem idents_no_newline {l : List SignatureComponent} {ids : List Str} (hl : ∀ k ∈ l, ComponentRead k)
    (h : Forall2 Ident l ids) : ∀ i ∈ ids, '\n' ∉ i := by
  induction h with
  | nil => simp
  | cons h1 h2 ih =>
    intro i hi
    rcases List.mem_cons.1 hi with rfl | hi
    · exact ident_no_newline (hl _ (by simp)) h1
    · exact ih (fun k hk => hl k (by simp [hk])) i hi

/-- Rendering of the list, with the default label in front, is a `Signature-Input` value. -/
theorem display_default {c : CanonicalizeConfig} {sp : Str} (h : c.toSignatureInput.list.display = .ok sp) :
    ({ c with label := none } : CanonicalizeConfig).toSignatureInput.display = .ok (str% "sig=" ++ sp) := by
  have e : serInnerList c.toSignatureInput.list.inner = some sp := by
    unfold ComponentList.display serSingletonList at h
    split at h
    · rename_i s hs; cases h; exact hs
    · cases h
  apply display_of_ser
  show serDict [(str% "sig", .innerList c.toSignatureInput.list.inner)] = _
  simp only [serDict, serMember, e]
  rfl

/-- Everything `canonicalize` needs to know about a configuration. -/
theorem tidy_list_read {c : CanonicalizeConfig} {sp : Str} (h : c.toSignatureInput.list.display = .ok sp)
    (hc : ∀ k ∈ c.components, ComponentTidy k) (hp : ParamsTidy c.params.params) :
    (∀ k ∈ c.components, ComponentRead k) ∧ ParamsOk c.params.params ∧ '\n' ∉ sp ∧
      CanonicalizeConfig.fromSignatureInput (str% "sig=" ++ sp) =
        .ok (.ok ({ c with label := none } : CanonicalizeConfig).norm) := by
  obtain ⟨hk, h1, h2⟩ := componentTidy_read (display_default h) (by intro h; cases h) hc hp
  obtain ⟨x, hx, hpr, hread⟩ := read_render hk h1 h2
  have := display_default h
  rw [hx] at this
  cases this
  refine ⟨h1, h2, ?_, hread⟩
  have := newline_not_mem_of_printable hpr
  simp only [List.mem_append, not_or] at this
  exact this.2

end Httpsig
