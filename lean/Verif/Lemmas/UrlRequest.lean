import Verif.Lemmas.Keyed
import Verif.Lemmas.QueryLength
import Verif.Lemmas.EndToEnd
/-
Requests whose derived components come from a URL: a covered query makes the lines of the signature base unambiguous.
-/
set_option linter.unusedSectionVars false
namespace Httpsig
open Sfv
variable [Deps]

theorem coversQuery.cases {k : SignatureComponent} (h : coversQuery k) : ∃ nm cs, k = .derived (.new nm) ∧ nm = '@' :: cs ∧
    nm.all isStringChar = true ∧ (nm = str% "@query" ∨ nm = str% "@target-uri" ∨ nm = str% "@request-target") := by
  rcases h with rfl | rfl | rfl
  · exact ⟨_, _, rfl, rfl, rfl, .inl rfl⟩
  · exact ⟨_, _, rfl, rfl, rfl, .inr (.inl rfl)⟩
  · exact ⟨_, _, rfl, rfl, rfl, .inr (.inr rfl)⟩

theorem serParams_nil_iff {ps : Params} (h : serParams ps = some []) : ps = [] := by
  cases ps with
  | nil => rfl
  | cons e ps =>
    obtain ⟨k, v⟩ := e
    simp only [serParams, Option.bind_eq_bind, Option.bind_eq_some_iff] at h
    obtain ⟨a, ha, b, hb, h⟩ := h
    simp only [serParam, Option.bind_eq_bind, Option.bind_eq_some_iff] at ha
    obtain ⟨ks, hks, ha⟩ := ha
    split at ha
    · cases ha; cases h
    · simp only [Option.bind_eq_some_iff] at ha
      obtain ⟨vs, _, ha⟩ := ha
      cases ha; cases h

theorem ser_named {d : DerivedComponent} {cs i : Str} (hb : d.item.bare = .string cs) (h : serItem d.item = some i) :
    cs.all isStringChar = true ∧ ∃ p, serParams d.item.params = some p ∧ i = '"' :: (escape cs ++ '"' :: p) := by
  unfold serItem at h
  rw [hb] at h
  simp only [serBare, serString] at h
  split at h
  · rename_i ha
    simp only [Option.bind_eq_bind, Option.bind_eq_some_iff, Option.some.injEq] at h
    obtain ⟨a, rfl, b, hb, rfl⟩ := h
    exact ⟨ha, b, hb, by simp⟩
  · simp at h

/-- The line of a component without parameters begins no other line. -/
theorem plain_ident_unique {nm cs i j x y : Str} {l : SignatureComponent} (hnm : nm = '@' :: cs)
    (hi : Ident (.derived (.new nm)) i) (hl : ComponentTidy l) (hj : Ident l j) (h : j ++ str% ": " ++ x = i ++ str% ": " ++ y) :
    l = .derived (.new nm) := by
  cases hi with
  | derived _ _ hs =>
  obtain ⟨ha, p, hp, rfl⟩ := ser_named rfl (serItem_iff.2 hs)
  cases hp
  cases hj with
  | header n =>
    exfalso
    have hne : n.str ≠ [] := by
      have := n.ok
      unfold validHeaderName at this
      simp only [Bool.and_eq_true] at this
      simpa using this.1.1
    obtain ⟨c, t, hc⟩ := List.exists_cons_of_ne_nil hne
    have hh : isHeaderNameChar c = true := by
      have := n.ok
      unfold validHeaderName at this
      simp only [Bool.and_eq_true] at this
      exact List.all_eq_true.1 this.2 c (by rw [hc]; simp)
    have he : escape nm = '@' :: escape cs := by rw [hnm]; rfl
    rw [hc, he] at h
    simp only [List.cons_append, List.cons.injEq] at h
    rw [h.2.1] at hh
    revert hh
    unfold isHeaderNameChar
    rw [Bool.or_eq_true]
    rintro (h | h)
    · revert h; decide
    · simp at h
  | derived d _ hs' =>
    obtain ⟨⟨ds, hb⟩, _⟩ := hl
    obtain ⟨ha', p, hp, rfl⟩ := ser_named hb (serItem_iff.2 hs')
    simp only [List.cons_append, List.append_assoc, List.cons.injEq, true_and] at h
    have h1 := parseStringBody_escape ('@' :: ds) (p ++ ':' :: ' ' :: x) ha'
    rw [show escape ('@' :: ds) ++ '"' :: (p ++ ':' :: ' ' :: x) = _ from h] at h1
    have h2 := parseStringBody_escape nm (':' :: ' ' :: y) ha
    rw [show escape nm ++ '"' :: (':' :: ' ' :: y) = escape nm ++ '"' :: ([] ++ ':' :: ([] ++ ' ' :: y)) from rfl] at h2
    have h3 := h1.symm.trans h2
    simp only [Option.some.injEq, Prod.mk.injEq] at h3
    have hstop := serParams_append_head hp stopP_nil
    rw [List.append_nil] at hstop
    cases p with
    | nil =>
      have hpar := serParams_nil_iff hp
      obtain ⟨⟨b, ps⟩⟩ := d
      simp only at hb hpar
      subst hb hpar
      rw [h3.1]
      rfl
    | cons c p =>
      have : c = ':' := by simpa using congrArg List.head? h3.2
      subst this
      rcases hstop ':' (by simp) with h | h | h | h <;> exact absurd h (by decide)

theorem bareSame_symm {a b : BareItem} (h : BareItem.Same a b) : BareItem.Same b a := by
  cases a <;> cases b <;> simp only [BareItem.Same] at h ⊢ <;> exact h.symm

theorem componentSame_symm {a b : SignatureComponent} (h : ComponentSame a b) : ComponentSame b a := by
  have key : ∀ {p q : Params}, ParamsSame p q → ParamsSame q p := by
    intro p q h
    unfold ParamsSame at h ⊢
    induction h with
    | nil => exact .nil
    | cons h1 _ ih => exact .cons ⟨h1.1.symm, bareSame_symm h1.2⟩ ih
  cases a <;> cases b
  · exact ⟨bareSame_symm h.1, key h.2⟩
  · cases h
  · cases h
  · exact Eq.symm h

theorem same_new {nm : Str} {k : SignatureComponent} (h : ComponentSame (.derived (.new nm)) k) : k = .derived (.new nm) := by
  cases k with
  | header n => cases h
  | derived d =>
    obtain ⟨⟨b, ps⟩⟩ := d
    obtain ⟨h1, h2⟩ := h
    cases b with
    | string s =>
      have e : nm = s := by simpa [BareItem.Same, DerivedComponent.new] using h1
      have : ps = [] := by
        have := h2.length_eq
        simpa [DerivedComponent.new] using this.symm
      subst e this
      rfl
    | _ => simp [BareItem.Same, DerivedComponent.new] at h1

variable {R S : Type} [RequestLike R] [RequestLike S] {r : R} {s : S} {u u' : Url}

/-- A value with a newline is that of a query parameter. -/
theorem OfUrl.value_cases (h : OfUrl r u) {k : SignatureComponent} {v : Str} (hv : RequestLike.derive r k = .ok (some v)) :
    '\n' ∉ v ∨ ∃ d field ps vs, k = .derived d ∧ d.name = .ok (str% "@query-params") ∧ d.param (str% "name") = some field ∧
      QueryIs (utf8 (u.query.getD [])) ps ∧ Selected field ps vs ∧ v = joinLines vs := by
  cases k with
  | header n => exact .inl (h.header n v hv)
  | derived d =>
    obtain ⟨host, m, hh, hd⟩ := h.derived
    obtain ⟨n, hn, ht | ⟨rfl, field, ps, vs, h1, h2, h3, h4⟩⟩ := hd d v hv
    · left
      obtain ⟨hu1, hu2, hu3, hu4, hu5⟩ := u.no_newline
      simp only [derivedTable, List.mem_cons, List.not_mem_nil, or_false, Prod.mk.injEq, Option.some.injEq] at ht
      rcases ht with ⟨-, rfl⟩ | ⟨-, rfl⟩ | ⟨-, rfl⟩ | ⟨-, rfl⟩ | ⟨-, rfl⟩ | ⟨-, ht⟩ | ⟨-, ht⟩
      · exact newline_not_mem_of_printable (List.all_eq_true.2 fun c hc => by
          have := m.ok
          simp only [Bool.and_eq_true] at this
          have := List.all_eq_true.1 this.2 c hc
          revert this
          simp only [isTchar, isStringChar]
          charcls
          omega)
      · exact hu1
      · exact hu1
      · exact hu2
      · exact hu4
      · cases hq : u.query with
        | none => rw [hq] at ht; cases ht
        | some q => rw [hq] at ht; cases ht; simp [hu5 q hq]
      · exact hh v ht.symm
    · exact .inr ⟨d, field, ps, vs, rfl, called_iff.1 hn, hasParam_iff.1 h1, h2, h3, h4⟩

/-- The value of a component that covers the query. -/
theorem OfUrl.covers (h : OfUrl r u) {nm v : Str}
    (hk : nm = str% "@query" ∨ nm = str% "@target-uri" ∨ nm = str% "@request-target")
    (hv : RequestLike.derive r (.derived (.new nm)) = .ok (some v)) :
    if nm = str% "@query" then u.query.map ('?' :: ·) = some v else v = u.asStr := by
  obtain ⟨host, m, hh, hd⟩ := h.derived
  obtain ⟨n, hn, ht⟩ := hd _ v hv
  cases (show BareItem.string nm = .string n from hn)
  rcases hk with rfl | rfl | rfl
  · rw [if_pos rfl]
    simp [derivedTable, -Option.map_eq_some_iff] at ht
    exact ht.symm
  · simpa [derivedTable] using ht
  · simpa [derivedTable] using ht

theorem OfUrl.covers_length (h : OfUrl r u) {nm v : Str}
    (hk : nm = str% "@query" ∨ nm = str% "@target-uri" ∨ nm = str% "@request-target")
    (hv : RequestLike.derive r (.derived (.new nm)) = .ok (some v)) : '\n' ∉ v ∧ (u.query.getD []).length ≤ v.length := by
  have := h.covers hk hv
  split at this
  · cases hq : u.query with
    | none => rw [hq] at this; cases this
    | some q =>
      rw [hq] at this
      cases this
      exact ⟨by simp [(u.no_newline).2.2.2.2 q hq], by simp⟩
  · rw [this]
    exact ⟨u.no_newline.1, u.query_length_le⟩

theorem OfUrl.covers_query (h : OfUrl r u) (h' : OfUrl s u') {nm v : Str}
    (hk : nm = str% "@query" ∨ nm = str% "@target-uri" ∨ nm = str% "@request-target")
    (hv : RequestLike.derive r (.derived (.new nm)) = .ok (some v)) (hv' : RequestLike.derive s (.derived (.new nm)) = .ok (some v)) :
    u.query = u'.query := by
  have h1 := h.covers hk hv
  have h2 := h'.covers hk hv'
  split at h1 <;> rename_i e
  · rw [if_pos e, ← h1] at h2
    cases hq : u.query <;> cases hq' : u'.query <;> rw [hq, hq'] at h2 <;> simp_all [-h1]
  · rw [if_neg e, h1] at h2
    rw [Url.asStr_inj h2]

theorem OfUrl.long_length (h : OfUrl r u) {k : SignatureComponent} {v : Str} (hv : RequestLike.derive r k = .ok (some v))
    (hn : '\n' ∈ v) : v.length ≤ (u.query.getD []).length := by
  rcases h.value_cases hv with h | ⟨d, field, ps, vs, _, _, _, h1, h2, rfl⟩
  · exact absurd hn h
  · rw [← u.query_utf8_length]
    exact h1.length_le h2

/-- Values with newlines depend on the query only. -/
theorem OfUrl.long_same (h : OfUrl r u) (h' : OfUrl s u') (hq : u.query = u'.query) {k k' : SignatureComponent} {v v' : Str}
    (hk : ComponentSame k k') (hv : RequestLike.derive r k = .ok (some v)) (hv' : RequestLike.derive s k' = .ok (some v'))
    (hn : '\n' ∈ v) : v = v' := by
  rcases h.value_cases hv with h | ⟨d, field, ps, vs, rfl, hnm, hp, h1, h2, rfl⟩
  · exact absurd hn h
  · cases k' with
    | header n => cases hk
    | derived d' =>
      obtain ⟨host, m, hh, hd⟩ := h'.derived
      obtain ⟨n, hn', ht⟩ := hd _ v' hv'
      simp only [called_iff, hasParam_iff] at hn' ht
      have hname : d'.name = .ok (str% "@query-params") := by
        rw [← hnm]
        unfold DerivedComponent.name
        rw [same_asStr hk.1]
      have hpar : d'.param (str% "name") = some field := by
        have := same_param hk.2 (str% "name")
        unfold DerivedComponent.param at hp ⊢
        cases e1 : IMap.get d.item.params (str% "name") <;> cases e2 : IMap.get d'.item.params (str% "name") <;>
          rw [e1] at this hp <;> rw [e2] at this <;> simp_all
      rw [hname] at hn'
      cases hn'
      rcases ht with ht | ⟨_, field', ps', vs', g1, g2, g3, rfl⟩
      · simp [derivedTable] at ht
      · rw [hpar] at g1
        cases g1
        rw [← hq] at g2
        have e := (queryIs_iff.1 h1).symm.trans (queryIs_iff.1 g2)
        subst e
        rw [(selected_iff.1 h2).symm.trans (selected_iff.1 g3)]

theorem Values.at {cs : List SignatureComponent} {vals : List Str} (h : Values r cs vals) {i : Nat} {k : SignatureComponent}
    (hk : cs[i]? = some k) : ∃ v, vals[i]? = some v ∧ RequestLike.derive r k = .ok (some v) := by
  have h := congrArg (fun l => l[i]?) h
  simp only [List.getElem?_map, hk, Option.map_some] at h
  cases hv : vals[i]? with
  | none => rw [hv] at h; cases h
  | some v => rw [hv] at h; exact ⟨v, rfl, Option.some.inj h⟩

theorem Forall2.at {α β : Type} {p : α → β → Prop} {a : List α} {b : List β} (h : Forall2 p a b) :
    ∀ {i : Nat} {x : α}, a[i]? = some x → ∃ y, b[i]? = some y ∧ p x y := by
  induction h with
  | nil => intro i x hx; simp at hx
  | cons h1 _ ih =>
    intro i x hx
    cases i with
    | zero => simp at hx; subst hx; exact ⟨_, rfl, h1⟩
    | succ i => simpa using ih (by simpa using hx)

/-- Equal bases of requests of URLs have equal values, if the whole query is covered. -/
theorem keyed_base (hr : OfUrl r u) (hs : OfUrl s u') {c d : CanonicalizeConfig} {base : Bytes} {si si' : SignatureInput}
    (h1 : canonicalize r c = .ok (.ok (base, si))) (h2 : canonicalize s d = .ok (.ok (base, si')))
    (hc : ∀ k ∈ c.components, ComponentTidy k) (hp : ParamsTidy c.params.params)
    (hd : ∀ k ∈ d.components, ComponentTidy k) (hq : ParamsTidy d.params.params) (hk : ∃ k ∈ c.components, coversQuery k) :
    Forall2 ComponentSame c.components d.components ∧ ParamsSame c.params.params d.params.params ∧
      ∃ vals, Values r c.components vals ∧ Values s d.components vals := by
  obtain ⟨a, b, ids, vals, vals', hv, hv', hi, l2, hn, he⟩ := base_idents h1 h2 hc hp hd hq
  refine ⟨a, b, vals, hv, ?_⟩
  have l1 : vals.length = ids.length := by rw [hv.length, hi.length_eq]
  obtain ⟨k, hkm, hkc⟩ := hk
  obtain ⟨nm, cs, rfl, hnm, -, hnm'⟩ := hkc.cases
  obtain ⟨j, hj⟩ := List.mem_iff_getElem?.1 hkm
  obtain ⟨id, hid, hidk⟩ := hi.at hj
  obtain ⟨x, hx, hxk⟩ := hv.at hj
  have other : ∀ {i : Nat}, c.components[i]? = some (.derived (.new nm)) → d.components[i]? = some (.derived (.new nm)) := by
    intro i h
    obtain ⟨y, hy, hy'⟩ := a.at h
    rw [hy, same_new hy']
  obtain ⟨x', hx', hxk'⟩ := hv'.at (other hj)
  have same : ∀ {i : Nat}, ids[i]? = some id → c.components[i]? = some (.derived (.new nm)) := by
    intro i h
    obtain ⟨l, hl, hl'⟩ := hi.getElem h
    rw [hl, plain_ident_unique hnm hidk (hc l (List.mem_iff_getElem?.2 ⟨i, hl⟩)) hl' (x := []) (y := []) rfl]
  have hkey : x = x' := by
    refine key_value_eq (id := id) l1 l2 hn hid hx hx' (hr.covers_length hnm' hxk).1 (hs.covers_length hnm' hxk').1 ?_ ?_ ?_ ?_ he
    · intro i him y z e
      obtain ⟨p, hp⟩ := List.mem_iff_getElem?.1 him
      obtain ⟨l, hl, hl'⟩ := hi.getElem hp
      obtain rfl := plain_ident_unique hnm hidk (hc l (List.mem_iff_getElem?.2 ⟨p, hl⟩)) hl' e
      exact hl'.det hidk
    · intro p hp
      obtain ⟨v, g1, g2⟩ := hv.at (same hp)
      obtain ⟨v', g1', g2'⟩ := hv'.at (other (same hp))
      rw [hxk] at g2
      rw [hxk'] at g2'
      cases g2
      cases g2'
      exact ⟨g1, g1'⟩
    · intro v hm hnl
      obtain ⟨p, hp⟩ := List.mem_iff_getElem?.1 hm
      obtain ⟨l, _, hl⟩ := hv.getElem hp
      exact Nat.le_trans (hr.long_length hl hnl) (hr.covers_length hnm' hxk).2
    · intro v hm hnl
      obtain ⟨p, hp⟩ := List.mem_iff_getElem?.1 hm
      obtain ⟨l, _, hl⟩ := hv'.getElem hp
      exact Nat.le_trans (hs.long_length hl hnl) (hs.covers_length hnm' hxk').2
  subst hkey
  have hqq := hr.covers_query hs hnm' hxk hxk'
  have : vals = vals' := by
    refine specLines_values_eq l1 l2 hn ?_ he
    intro p v v' g g' hor
    obtain ⟨l, e1, e2⟩ := hv.getElem g
    obtain ⟨l', e1', e2'⟩ := hv'.getElem g'
    obtain ⟨l'', e3, e4⟩ := a.at e1
    rw [e1'] at e3
    cases e3
    rcases hor with h | h
    · exact hr.long_same hs hqq e4 e2 e2' h
    · exact (hs.long_same hr hqq.symm (componentSame_symm e4) e2' e2 h).symm
  rw [this]
  exact hv'

end Httpsig
