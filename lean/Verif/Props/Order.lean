import Verif.Props.RoundTrip
import Verif.Lemmas.CanonInj
import Verif.Spec.Order
/-
C41: the ordering of components.
-/
set_option linter.unusedSectionVars false
namespace Httpsig
open Sfv

theorem bytesCmp_self : ∀ a : Bytes, bytesCmp a a = .eq
  | [] => rfl
  | x :: a => by simp [bytesCmp, bytesCmp_self a]

theorem bytesCmp_swap : ∀ a b : Bytes, bytesCmp b a = (bytesCmp a b).swap
  | [], [] => rfl
  | [], _ :: _ => rfl
  | _ :: _, [] => rfl
  | x :: a, y :: b => by
    unfold bytesCmp
    by_cases h1 : x < y
    · rw [if_neg (UInt8.lt_asymm h1), if_pos h1, if_pos h1]; rfl
    · by_cases h2 : y < x
      · rw [if_pos h2, if_neg h1, if_pos h2]; rfl
      · rw [if_neg h2, if_neg h1, if_neg h1, if_neg h2]; exact bytesCmp_swap a b

theorem u8_eq_of_not_lt {x y : UInt8} (h1 : ¬ x < y) (h2 : ¬ y < x) : x = y := by
  rw [UInt8.lt_iff_toNat_lt] at h1 h2
  exact UInt8.toNat.inj (by omega)

theorem bytesCmp_eq_iff : ∀ {a b : Bytes}, bytesCmp a b = .eq ↔ a = b
  | [], [] => by simp [bytesCmp]
  | [], _ :: _ => by simp [bytesCmp]
  | _ :: _, [] => by simp [bytesCmp]
  | x :: a, y :: b => by
    unfold bytesCmp
    by_cases h1 : x < y
    · rw [if_pos h1]
      simp only [reduceCtorEq, List.cons.injEq, false_iff, not_and]
      rintro rfl; exact absurd h1 (UInt8.lt_irrefl _)
    · by_cases h2 : y < x
      · rw [if_neg h1, if_pos h2]
        simp only [reduceCtorEq, List.cons.injEq, false_iff, not_and]
        rintro rfl; exact absurd h2 (UInt8.lt_irrefl _)
      · rw [if_neg h1, if_neg h2, bytesCmp_eq_iff, u8_eq_of_not_lt h1 h2]
        simp

theorem bytesCmp_trans : ∀ {a b c : Bytes}, bytesCmp a b = .lt → bytesCmp b c = .lt → bytesCmp a c = .lt
  | [], [], _, h, _ => by cases h
  | _ :: _, [], _, h, _ => by cases h
  | [], _ :: _, [], _, h => by cases h
  | [], _ :: _, _ :: _, _, _ => rfl
  | _ :: _, _ :: _, [], _, h => by cases h
  | x :: a, y :: b, z :: c, h1, h2 => by
    unfold bytesCmp at h1 h2 ⊢
    by_cases hxy : x < y
    · by_cases hyz : y < z
      · rw [if_pos (UInt8.lt_trans hxy hyz)]
      · rw [if_neg hyz] at h2
        by_cases hzy : z < y
        · rw [if_pos hzy] at h2; cases h2
        · rw [← u8_eq_of_not_lt hyz hzy, if_pos hxy]
    · rw [if_neg hxy] at h1
      by_cases hyx : y < x
      · rw [if_pos hyx] at h1; cases h1
      · rw [if_neg hyx] at h1
        have := u8_eq_of_not_lt hxy hyx
        subst this
        by_cases hyz : x < z
        · rw [if_pos hyz]
        · rw [if_neg hyz] at h2 ⊢
          by_cases hzy : z < x
          · rw [if_pos hzy] at h2; cases h2
          · rw [if_neg hzy] at h2 ⊢
            exact bytesCmp_trans h1 h2

theorem bytesCmp_lt_iff : ∀ {a b : Bytes}, bytesCmp a b = .lt ↔ Before a b
  | [], [] => by simp [bytesCmp, Before]
  | [], y :: b => by simp [bytesCmp, Before]
  | x :: a, [] => by simp [bytesCmp, Before]
  | x :: a, y :: b => by
    unfold bytesCmp
    have key : Before (x :: a) (y :: b) ↔ x < y ∨ x = y ∧ Before a b := by
      constructor
      · rintro (⟨c, r, h⟩ | ⟨p, u, v, r, s, h1, h2, h3⟩)
        · injection h with h1 h2
          exact .inr ⟨h1.symm, .inl ⟨c, r, h2⟩⟩
        · cases p with
          | nil =>
            injection h1 with h1 _; injection h2 with h2 _
            subst h1 h2; exact .inl h3
          | cons q p =>
            injection h1 with h1 h1'; injection h2 with h2 h2'
            exact .inr ⟨h1.trans h2.symm, .inr ⟨p, u, v, r, s, h1', h2', h3⟩⟩
      · rintro (h | ⟨rfl, ⟨c, r, h⟩ | ⟨p, u, v, r, s, h1, h2, h3⟩⟩)
        · exact .inr ⟨[], x, y, a, b, rfl, rfl, h⟩
        · exact .inl ⟨c, r, by rw [h]; rfl⟩
        · exact .inr ⟨x :: p, u, v, r, s, by rw [h1]; rfl, by rw [h2]; rfl, h3⟩
    rw [key]
    by_cases h1 : x < y
    · simp [h1]
    · by_cases h2 : y < x
      · rw [if_neg h1, if_pos h2]
        have : x ≠ y := by rintro rfl; exact h1 h2
        simp [h1, this]
      · rw [if_neg h1, if_neg h2, bytesCmp_lt_iff]
        simp [u8_eq_of_not_lt h1 h2]

variable [Deps]

theorem cmp_of_display {a b : SignatureComponent} {x y : Str} (ha : a.display = .ok x) (hb : b.display = .ok y) :
    a.cmp b = .ok (bytesCmp (utf8 x) (utf8 y)) := by
  unfold SignatureComponent.cmp
  rw [ha, hb]
  rfl

theorem display_of_cmp {a b : SignatureComponent} {o : Ordering} (h : a.cmp b = .ok o) :
    ∃ x y, a.display = .ok x ∧ b.display = .ok y ∧ o = bytesCmp (utf8 x) (utf8 y) := by
  unfold SignatureComponent.cmp at h
  cases ha : a.display with
  | error e => rw [ha] at h; cases h
  | ok x =>
    cases hb : b.display with
    | error e => rw [ha, hb] at h; cases h
    | ok y =>
      rw [ha, hb] at h
      cases h
      exact ⟨x, y, rfl, rfl, rfl⟩

/-- C41, order laws: comparing never panics on printable components, is reflexive and antisymmetric (swapping the operands
swaps the answer, and `Equal` means that both print alike), transitive, and `Equal` components compare alike with
everything. -/
theorem C41_total_order (a b c : SignatureComponent) (x y z : Str) (ha : a.display = .ok x) (hb : b.display = .ok y)
    (hc : c.display = .ok z) :
    (∃ o, a.cmp b = .ok o ∧ b.cmp a = .ok o.swap) ∧ a.cmp a = .ok .eq ∧ (a.cmp b = .ok .eq ↔ x = y) ∧
    (a.cmp b = .ok .lt → b.cmp c = .ok .lt → a.cmp c = .ok .lt) ∧ (a.cmp b = .ok .eq → a.cmp c = b.cmp c) := by
  rw [cmp_of_display ha hb, cmp_of_display hb ha, cmp_of_display ha ha, cmp_of_display hb hc, cmp_of_display ha hc]
  refine ⟨⟨_, rfl, by rw [bytesCmp_swap]⟩, by rw [bytesCmp_self], ?_, ?_, ?_⟩
  · rw [Except.ok.injEq, bytesCmp_eq_iff]
    exact ⟨utf8_injective, fun h => by rw [h]⟩
  · simp only [Except.ok.injEq]
    exact bytesCmp_trans
  · simp only [Except.ok.injEq, bytesCmp_eq_iff]
    intro h; rw [h]

/-- Components that cannot be printed cannot be compared: the comparison panics. -/
theorem C41_unprintable_panics (a b : SignatureComponent) (e : Panic) (ha : a.display = .error e) :
    a.cmp b = .error e ∧ ∃ e', b.cmp a = .error e' := by
  unfold SignatureComponent.cmp
  rw [ha]
  refine ⟨rfl, ?_⟩
  cases b.display with
  | error e' => exact ⟨e', rfl⟩
  | ok y => exact ⟨e, rfl⟩

example : (SignatureComponent.derived ((DerivedComponent.new atMethod).withParam (str% "Bad Name") [])).display =
    .error .displayDerived := rfl

/-- Non-vacuity: three printable components, in increasing order. -/
example : (SignatureComponent.derived (.new atMethod)).cmp (.header hDate) = .ok .lt ∧
    (SignatureComponent.header hDate).cmp (.header hHost) = .ok .lt ∧
    (SignatureComponent.derived (.new atMethod)).display = .ok (str% "\"@method\"") := by
  refine ⟨rfl, rfl, rfl⟩

theorem bareRustEq_of_same {a b : BareItem} (h : BareItem.Same a b) : a.rustEq b = true := by
  cases a <;> cases b <;> simp only [BareItem.Same, reduceCtorEq] at h <;> try (cases h; simp [BareItem.rustEq])
  simp only [BareItem.rustEq, Decimal.cmp, h]
  simp

theorem bareSame_of_rustEq {a b : BareItem} (h : a.rustEq b = true) : BareItem.Same a b := by
  cases a <;> cases b <;> simp_all [BareItem.Same, BareItem.rustEq, Decimal.cmp]

theorem paramsRustEq_of_same {a b : Params} (hb : IMap.NodupKeys b) (h : ParamsSame a b) : Params.rustEq a b = true := by
  unfold Params.rustEq
  have hlen : a.length = b.length := by
    unfold ParamsSame at h
    exact h.length_eq
  have hall : ∀ (a b : Params), ParamsSame a b → IMap.NodupKeys b → ∀ e ∈ a, ∃ w, IMap.get b e.1 = some w ∧ BareItem.Same e.2 w := by
    intro a b h hb
    unfold ParamsSame at h
    induction h with
    | nil => simp
    | @cons p q ps qs h1 _ ih =>
      intro e he
      rcases List.mem_cons.1 he with rfl | he
      · refine ⟨q.2, ?_, h1.2⟩
        obtain ⟨qk, qv⟩ := q
        simp only [h1.1, IMap.get, if_true]
      · have hb' : IMap.NodupKeys qs := (List.nodup_cons.1 hb).2
        obtain ⟨w, hw, hs⟩ := ih hb' e he
        refine ⟨w, ?_, hs⟩
        obtain ⟨qk, qv⟩ := q
        simp only [IMap.get]
        rw [if_neg, hw]
        rintro rfl
        have : ∃ v, (e.1, v) ∈ qs := ⟨w, IMap.mem_of_get hw⟩
        obtain ⟨v, hv⟩ := this
        exact (List.nodup_cons.1 hb).1 (List.mem_map.2 ⟨_, hv, rfl⟩)
  simp only [hlen, beq_self_eq_true, Bool.true_and, List.all_eq_true]
  intro e he
  obtain ⟨w, hw, hs⟩ := hall a b h hb e he
  simp only [hw]
  exact bareRustEq_of_same hs

/-- The identifier printed for a named derived component starts with a double quote. -/
theorem display_derived_quote {d : DerivedComponent} {x : Str} (hn : d.Named) (hx : d.display = .ok x) :
    ∃ t, x = '"' :: t := by
  obtain ⟨cs, hcs⟩ := hn
  unfold DerivedComponent.display at hx
  split at hx
  · rename_i s hs
    cases hx
    unfold serItem at hs
    rw [hcs] at hs
    simp only [serBare, serString] at hs
    split at hs
    · cases hs' : serParams d.item.params with
      | none => rw [hs'] at hs; cases hs
      | some p =>
        rw [hs'] at hs
        cases hs
        exact ⟨_, rfl⟩
    · cases hs
  · cases hx

theorem serItem_of_display {d : DerivedComponent} {x : Str} (hx : d.display = .ok x) : serItem d.item = some x := by
  unfold DerivedComponent.display at hx
  split at hx
  · rename_i s hs; cases hx; exact hs
  · cases hx

/-- C41, one direction (partial: header names starting with a double quote, and derived components that are not
`@`-named or have parameters sfv cannot render faithfully, are excluded; see `C41_neg_rounding`): components that
compare `Equal` are equal. -/
theorem C41_equal_are_equal_partial (a b : SignatureComponent) (ha : ComponentTidy a) (hb : ComponentTidy b)
    (hqa : ∀ h, a = .header h → ∀ c ∈ h.str.head?, c ≠ '"') (hqb : ∀ h, b = .header h → ∀ c ∈ h.str.head?, c ≠ '"')
    (h : a.cmp b = .ok .eq) : a.rustEq b = true := by
  obtain ⟨x, y, hx, hy, ho⟩ := display_of_cmp h
  have hxy : x = y := utf8_injective (bytesCmp_eq_iff.1 ho.symm)
  subst hxy
  cases a with
  | header n =>
    cases b with
    | header m =>
      cases hx
      obtain ⟨ms, mo⟩ := m
      have : n.str = ms := (Except.ok.inj hy).symm
      subst this
      simp [SignatureComponent.rustEq]
    | derived d =>
      exfalso
      cases hx
      obtain ⟨t, ht⟩ := display_derived_quote hb.1 hy
      exact hqa n rfl '"' (by simp [ht]) rfl
  | derived d =>
    cases b with
    | header m =>
      exfalso
      cases hy
      obtain ⟨t, ht⟩ := display_derived_quote ha.1 hx
      exact hqb m rfl '"' (by simp [ht]) rfl
    | derived e =>
      obtain ⟨⟨cs, hcs⟩, hp⟩ := ha
      obtain ⟨⟨es, hes⟩, hq⟩ := hb
      have hi : ItemOk d.item := itemOk_of_ser (serItem_of_display hx) hp.1 (by simp [hcs, BareTidy]) hp.2
      have hj : ItemOk e.item := itemOk_of_ser (serItem_of_display hy) hq.1 (by simp [hes, BareTidy]) hq.2
      obtain ⟨u, hu, hpu⟩ := parseItem_ser hi
      obtain ⟨v, hv, hpv⟩ := parseItem_ser hj
      rw [serItem_of_display hx] at hu
      rw [serItem_of_display hy] at hv
      cases hu
      cases hv
      have hnorm : normItem d.item = normItem e.item := Option.some.inj (hpu.2.symm.trans hpv.2)
      simp only [normItem, Item.mk.injEq] at hnorm
      change (d.item.bare.rustEq e.item.bare && d.item.params.rustEq e.item.params) = true
      rw [bareRustEq_of_same (bareSame_of_norm hi.1 hj.1 hnorm.1),
        paramsRustEq_of_same hq.1 (paramsSame_of_norm hi.2.2 hj.2.2 hnorm.2)]
      rfl

/-- C41, other direction (partial: derived components with at most one parameter, whose name and parameter value are
strings; for two parameters the claim is false, see `C41_neg_parameter_order`): equal components compare `Equal`. -/
theorem C41_equal_compare_equal_partial (a b : SignatureComponent) (x : Str)
    (ha : ∀ d, a = .derived d → (∃ s, d.item.bare = .string s) ∧ d.item.params.length ≤ 1 ∧ ∀ e ∈ d.item.params, ∃ s, e.2 = .string s)
    (hx : a.display = .ok x) (h : a.rustEq b = true) : a = b ∧ a.cmp b = .ok .eq := by
  suffices hab : a = b by
    subst hab
    exact ⟨rfl, by rw [cmp_of_display hx hx, bytesCmp_self]⟩
  cases a with
  | header n => cases b <;> simp_all [SignatureComponent.rustEq]
  | derived d =>
    cases b with
    | header n => simp [SignatureComponent.rustEq] at h
    | derived e =>
      obtain ⟨⟨s, hs⟩, hl, hp⟩ := ha d rfl
      obtain ⟨di, dp⟩ := d
      obtain ⟨ei, ep⟩ := e
      simp only at hs hl hp
      subst hs
      unfold SignatureComponent.rustEq DerivedComponent.rustEq Item.rustEq Params.rustEq at h
      simp only [Bool.and_eq_true, beq_iff_eq] at h
      have e1 : BareItem.string s = ei := by
        have := bareSame_of_rustEq h.1
        cases ei <;> simp [BareItem.Same] at this ⊢
        exact this
      subst e1
      congr 3
      match dp, ep, h.2 with
      | [], [], _ => rfl
      | [], _ :: _, ⟨h1, _⟩ => simp at h1
      | [_], [], ⟨h1, _⟩ => simp at h1
      | [_], _ :: _ :: _, ⟨h1, _⟩ => simp at h1
      | _ :: _ :: _, _, _ => simp at hl
      | [(k, v)], [(k', v')], ⟨_, h2⟩ =>
        obtain ⟨t, ht⟩ := hp (k, v) (by simp)
        simp only at ht
        subst ht
        simp only [List.all_cons, List.all_nil, Bool.and_true, IMap.get] at h2
        by_cases hk : k' = k
        · subst hk
          simp only [if_true] at h2
          have := bareSame_of_rustEq h2
          cases v' <;> simp_all [BareItem.Same]
        · simp [hk] at h2

/-- Non-vacuity: a header and a component with one parameter. -/
example : ComponentTidy (.header hHost) ∧ ComponentTidy (.derived ((DerivedComponent.new atQueryParams).withParam (str% "name") (str% "p"))) ∧
    (∀ c ∈ hHost.str.head?, c ≠ '"') ∧
    (SignatureComponent.derived ((DerivedComponent.new atQueryParams).withParam (str% "name") (str% "p"))).display =
      .ok (str% "\"@query-params\";name=\"p\"") := by
  refine ⟨trivial, C01_withParam_tidy _ _ _ (C01_new_tidy _) (by decide), ?_, rfl⟩
  intro c hc
  cases hc
  decide

/-- C41 fails: different components may compare `Equal`, if they have the same text. -/
theorem C41_neg_rounding : ∃ a b : SignatureComponent, a.rustEq b = false ∧ a.cmp b = .ok .eq := by
  -- The two differ beyond the third decimal.
  refine ⟨.derived (.ofItem { bare := .string (str% "@x"), params := [(str% "p", .decimal ⟨false, 10, 1⟩)] }),
    .derived (.ofItem { bare := .string (str% "@x"), params := [(str% "p", .decimal ⟨false, 10001, 4⟩)] }), rfl, rfl⟩

theorem Decimal.cmp_lt_iff (d e : Decimal) :
    Decimal.cmp d e = .lt ↔ numerator d * (10 : Int) ^ e.scale < numerator e * (10 : Int) ^ d.scale := by
  have h : ∀ (d : Decimal) (s : Nat), (if d.neg then -1 else 1) * ((d.mant * 10 ^ s : Nat) : Int) = numerator d * (10 : Int) ^ s := by
    intro d s
    unfold numerator
    cases d.neg <;> simp [Int.natCast_mul, Int.natCast_pow, Int.neg_mul]
  unfold Decimal.cmp
  simp only [h]
  rw [Std.compare_eq_lt]

theorem cmp_lt_iff (a b : DerivedComponent) : a.cmp b = .lt ↔ ValueLess a.item.bare b.item.bare := by
  unfold DerivedComponent.cmp
  generalize a.item.bare = x
  generalize b.item.bare = y
  constructor
  · intro h
    cases x <;> cases y <;> try (cases h; done)
    · exact .decimal ((Decimal.cmp_lt_iff _ _).1 h)
    · exact .integer (Std.compare_eq_lt.1 h)
    · exact .string (bytesCmp_lt_iff.1 h)
    · exact .byteSeq (bytesCmp_lt_iff.1 h)
    · rename_i p q
      revert h
      cases p <;> cases q <;> first | (intro _; exact .boolean) | (intro h; cases h)
    · exact .token (bytesCmp_lt_iff.1 h)
  · rintro (h | h | h | h | _ | h)
    · exact bytesCmp_lt_iff.2 h
    · exact bytesCmp_lt_iff.2 h
    · exact bytesCmp_lt_iff.2 h
    · exact Std.compare_eq_lt.2 h
    · rfl
    · exact (Decimal.cmp_lt_iff _ _).2 h

theorem derived_cmp_swap (a b : DerivedComponent) : b.cmp a = (a.cmp b).swap := by
  unfold DerivedComponent.cmp
  generalize a.item.bare = x
  generalize b.item.bare = y
  cases x <;> cases y <;> try rfl
  · exact Std.OrientedCmp.eq_swap (cmp := (compare : Int → Int → Ordering))
  · exact Std.OrientedCmp.eq_swap (cmp := (compare : Int → Int → Ordering))
  · exact bytesCmp_swap _ _
  · exact bytesCmp_swap _ _
  · rename_i p q; cases p <;> cases q <;> rfl
  · exact bytesCmp_swap _ _

/-- C41, `DerivedComponent`'s own ordering: `Less` exactly when the first name is of the same kind as the second and
smaller, `Greater` exactly when it is of the same kind and larger. Partial: what is left over is `Equal`, which includes
names of different kinds and names that differ in their parameters (the next two theorems). -/
theorem C41_derived_order_partial (a b : DerivedComponent) :
    (a.cmp b = .lt ↔ ValueLess a.item.bare b.item.bare) ∧ (a.cmp b = .gt ↔ ValueLess b.item.bare a.item.bare) := by
  refine ⟨cmp_lt_iff a b, ?_⟩
  rw [← cmp_lt_iff b a, derived_cmp_swap a b]
  cases a.cmp b <;> simp [Ordering.swap]

/-- C41, `DerivedComponent`'s own ordering between two text names, the only kind a parser or constructor makes: `Equal`
exactly when they are the same text. -/
theorem C41_derived_names (a b : DerivedComponent) (x y : Str) (ha : a.item.bare = .string x) (hb : b.item.bare = .string y) :
    a.cmp b = .eq ↔ x = y := by
  unfold DerivedComponent.cmp
  simp only [ha, hb]
  unfold strCmp
  rw [bytesCmp_eq_iff]
  exact ⟨fun h => utf8_injective h, fun h => by rw [h]⟩

example : (DerivedComponent.new atMethod).cmp (DerivedComponent.new atPath) = .lt := rfl
example : ValueLess (.string atMethod) (.string atPath) :=
  .string (.inr ⟨utf8 (str% "@"), 109, 112, utf8 (str% "ethod"), utf8 (str% "ath"), rfl, rfl, by decide⟩)
example : ValueLess (.decimal ⟨true, 15, 1⟩) (.decimal ⟨false, 149, 2⟩) := .decimal (by decide)
example : ValueLess (.token (str% "ab")) (.token (str% "abc")) := .token (.inl ⟨99, [], rfl⟩)

/-- C41 fails for `DerivedComponent`'s own ordering: components that differ in any parameter compare `Equal`. -/
theorem C41_neg_derived_ignores_parameters (d : DerivedComponent) (s k v w : Str) (hs : d.item.bare = .string s) (hvw : v ≠ w) :
    (d.withParam k v).cmp (d.withParam k w) = .eq ∧ d.withParam k v ≠ d.withParam k w := by
  constructor
  · unfold DerivedComponent.cmp DerivedComponent.withParam
    simp only [hs]
    exact bytesCmp_self _
  · intro h
    have h2 := congrArg (fun d : DerivedComponent => IMap.get d.item.params k) h
    simp only [DerivedComponent.withParam, IMap.get_insert_self, Option.some.injEq, BareItem.string.injEq] at h2
    exact hvw h2

example : (DerivedComponent.new atQueryParams).item.bare = .string atQueryParams := rfl

/-- C41 fails for `DerivedComponent`'s own ordering: `Equal` is not transitive. Any two different text names are `Equal` to any name of
another kind, but not to each other. -/
theorem C41_neg_derived_not_transitive (a b c : DerivedComponent) (x y : Str) (ha : a.item.bare = .string x) (hc : c.item.bare = .string y)
    (hxy : x ≠ y) (hb : ∀ s, b.item.bare ≠ .string s) : a.cmp b = .eq ∧ b.cmp c = .eq ∧ a.cmp c ≠ .eq := by
  refine ⟨?_, ?_, fun h => hxy ((C41_derived_names a c x y ha hc).1 h)⟩
  · unfold DerivedComponent.cmp
    rw [ha]
    cases hbb : b.item.bare <;> first | rfl | exact absurd hbb (hb _)
  · unfold DerivedComponent.cmp
    rw [hc]
    cases hbb : b.item.bare <;> first | rfl | exact absurd hbb (hb _)

example :
    let a := DerivedComponent.ofItem { bare := .string (str% "a"), params := [] }
    let b := DerivedComponent.ofItem { bare := .integer 1, params := [] }
    let c := DerivedComponent.ofItem { bare := .string (str% "c"), params := [] }
    a.cmp b = .eq ∧ b.cmp c = .eq ∧ a.cmp c = .lt := ⟨rfl, rfl, rfl⟩

end Httpsig
