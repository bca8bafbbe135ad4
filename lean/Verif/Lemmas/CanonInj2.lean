import Verif.Lemmas.Sign4
/- The signature base determines components and parameters whatever the values, and the values if at most one of them can
contain newlines. -/
set_option linter.unusedSectionVars false
namespace Httpsig
open Sfv
variable [Deps]

theorem append_cons_inj_right {α : Type} {x : α} {a a' r r' : List α} (h1 : x ∉ r) (h2 : x ∉ r')
    (h : a ++ x :: r = a' ++ x :: r') : a = a' ∧ r = r' := by
  have h := congrArg List.reverse h
  simp only [List.reverse_append, List.reverse_cons, List.append_assoc, List.singleton_append] at h
  obtain ⟨e1, e2⟩ := append_cons_inj (by simpa using h1) (by simpa using h2) h
  exact ⟨List.reverse_inj.1 e2, List.reverse_inj.1 e1⟩

theorem specLines_nil_or_newline : ∀ (ids vals : List Str), specLines ids vals = [] ∨ ∃ t, specLines ids vals = t ++ ['\n']
  | [], _ => by simp [specLines]
  | _ :: _, [] => by simp [specLines]
  | i :: ids, v :: vals => by
    right
    rcases specLines_nil_or_newline ids vals with h | ⟨t, h⟩
    · exact ⟨i ++ ':' :: ' ' :: v, by simp [specLines, h]⟩
    · exact ⟨i ++ ':' :: ' ' :: v ++ '\n' :: t, by simp [specLines, h]⟩

/-- The last line is determined, whatever the lines before it contain. -/
theorem specLines_last {ids vals ids' vals' : List Str} {last last' : Str} (h1 : '\n' ∉ last) (h2 : '\n' ∉ last')
    (h : specLines ids vals ++ last = specLines ids' vals' ++ last') :
    specLines ids vals = specLines ids' vals' ∧ last = last' := by
  rcases specLines_nil_or_newline ids vals with e | ⟨t, e⟩ <;> rcases specLines_nil_or_newline ids' vals' with e' | ⟨t', e'⟩ <;>
    rw [e, e'] at h ⊢
  · exact ⟨rfl, by simpa using h⟩
  · simp only [List.nil_append, List.append_assoc, List.singleton_append] at h
    rw [h] at h1; simp at h1
  · simp only [List.nil_append, List.append_assoc, List.singleton_append] at h
    rw [← h] at h2; simp at h2
  · simp only [List.append_assoc, List.singleton_append] at h
    obtain ⟨a, b⟩ := append_cons_inj_right h1 h2 h
    exact ⟨by rw [a], b⟩

theorem specLines_snoc : ∀ {ids vals : List Str} (i v : Str), ids.length = vals.length →
    specLines (ids ++ [i]) (vals ++ [v]) = specLines ids vals ++ (i ++ ':' :: ' ' :: v ++ ['\n'])
  | [], [], i, v, _ => by simp [specLines]
  | a :: ids, b :: vals, i, v, h => by
    simp only [List.cons_append, specLines, specLines_snoc i v (by simpa using h), List.append_assoc]

/-- Lines without newlines can be taken off from the end. -/
theorem specLines_suffix {n : Nat} : ∀ {a a' : Str} {ids vals vals' : List Str}, ids.length = n → vals.length = n → vals'.length = n →
    (∀ i ∈ ids, '\n' ∉ i) → (∀ v ∈ vals, '\n' ∉ v) → (∀ v ∈ vals', '\n' ∉ v) →
    a ++ '\n' :: specLines ids vals = a' ++ '\n' :: specLines ids vals' → a = a' ∧ vals = vals' := by
  induction n with
  | zero =>
    intro a a' ids vals vals' h1 h2 h3 _ _ _ h
    rw [List.length_eq_zero_iff] at h1 h2 h3
    subst h1 h2 h3
    simp only [specLines] at h
    exact ⟨List.append_cancel_right h, rfl⟩
  | succ n ih =>
    intro a a' ids vals vals' h1 h2 h3 g1 g2 g3 h
    have snoc : ∀ {l : List Str}, l.length = n + 1 → ∃ l' x, l = l' ++ [x] ∧ l'.length = n := by
      intro l hl
      have hne : l ≠ [] := by intro e; simp [e] at hl
      exact ⟨l.dropLast, l.getLast hne, (List.dropLast_concat_getLast hne).symm, by simp [hl]⟩
    obtain ⟨ids, i, rfl, k1⟩ := snoc h1
    obtain ⟨vals, v, rfl, k2⟩ := snoc h2
    obtain ⟨vals', v', rfl, k3⟩ := snoc h3
    rw [specLines_snoc i v (by omega), specLines_snoc i v' (by omega)] at h
    have hi := g1 i (by simp)
    have hv := g2 v (by simp)
    have hv' := g3 v' (by simp)
    have h : (a ++ '\n' :: specLines ids vals) ++ (i ++ ':' :: ' ' :: v) = (a' ++ '\n' :: specLines ids vals') ++ (i ++ ':' :: ' ' :: v') := by
      have : ((a ++ '\n' :: specLines ids vals) ++ (i ++ ':' :: ' ' :: v)) ++ ['\n'] =
          ((a' ++ '\n' :: specLines ids vals') ++ (i ++ ':' :: ' ' :: v')) ++ ['\n'] := by
        simpa using h
      exact List.append_cancel_right this
    have key : (a ++ '\n' :: specLines ids vals) = (a' ++ '\n' :: specLines ids vals') ∧
        (i ++ ':' :: ' ' :: v) = (i ++ ':' :: ' ' :: v') := by
      have n1 : '\n' ∉ i ++ ':' :: ' ' :: v := by simp [hi, hv]
      have n2 : '\n' ∉ i ++ ':' :: ' ' :: v' := by simp [hi, hv']
      have form : ∀ (b : Str) (w : List Str), ∃ t, b ++ '\n' :: specLines ids w = t ++ ['\n'] := by
        intro b w
        rcases specLines_nil_or_newline ids w with e | ⟨t, e⟩
        · exact ⟨b, by rw [e]⟩
        · exact ⟨b ++ '\n' :: t, by rw [e]; simp⟩
      obtain ⟨t, e⟩ := form a vals
      obtain ⟨t', e'⟩ := form a' vals'
      rw [e, e'] at h ⊢
      rw [List.append_assoc, List.append_assoc, List.singleton_append, List.singleton_append] at h
      obtain ⟨x, y⟩ := append_cons_inj_right n1 n2 h
      exact ⟨by rw [x], y⟩
    obtain ⟨x, y⟩ := ih k1 k2 k3 (fun j hj => g1 j (by simp [hj])) (fun j hj => g2 j (by simp [hj])) (fun j hj => g3 j (by simp [hj])) key.1
    have := List.append_cancel_left key.2
    simp only [List.cons.injEq, true_and] at this
    exact ⟨x, by rw [y, this]⟩

/-- Of two lists of values, at most one position has a value with a newline. -/
def OneLong (vals vals' : List Str) : Prop :=
  ∀ i j : Nat, i ≠ j → ((∀ v ∈ vals[i]?, '\n' ∉ v) ∧ ∀ v ∈ vals'[i]?, '\n' ∉ v) ∨ ((∀ v ∈ vals[j]?, '\n' ∉ v) ∧ ∀ v ∈ vals'[j]?, '\n' ∉ v)

theorem specLines_values_inj : ∀ {ids vals vals' : List Str}, vals.length = ids.length → vals'.length = ids.length →
    (∀ i ∈ ids, '\n' ∉ i) → OneLong vals vals' → specLines ids vals = specLines ids vals' → vals = vals'
  | [], [], [], _, _, _, _, _ => rfl
  | i :: ids, v :: vals, v' :: vals', h1, h2, h3, ho, h => by
    have hi := h3 i (by simp)
    simp only [specLines, List.append_assoc, List.cons_append] at h
    by_cases h0 : '\n' ∉ v ∧ '\n' ∉ v'
    · have h' : (i ++ ':' :: ' ' :: v) ++ '\n' :: specLines ids vals = (i ++ ':' :: ' ' :: v') ++ '\n' :: specLines ids vals' := by
        simpa using h
      obtain ⟨x, y⟩ := append_cons_inj (by simp [hi, h0.1]) (by simp [hi, h0.2]) h'
      have := List.append_cancel_left x
      simp only [List.cons.injEq, true_and] at this
      rw [this, specLines_values_inj (by simpa using h1) (by simpa using h2) (fun j hj => h3 j (by simp [hj])) ?_ y]
      intro a b hab
      have := ho (a + 1) (b + 1) (by omega)
      simpa using this
    · have h' : (i ++ ':' :: ' ' :: v) ++ '\n' :: specLines ids vals = (i ++ ':' :: ' ' :: v') ++ '\n' :: specLines ids vals' := by
        simpa using h
      have rest : ∀ a : Nat, (∀ w ∈ vals[a]?, '\n' ∉ w) ∧ ∀ w ∈ vals'[a]?, '\n' ∉ w := by
        intro a
        rcases ho 0 (a + 1) (by omega) with hz | hz
        · exact absurd (by simpa using hz) h0
        · simpa using hz
      have mem : ∀ {l : List Str}, (∀ a : Nat, ∀ w ∈ l[a]?, '\n' ∉ w) → ∀ w ∈ l, '\n' ∉ w := by
        intro l hl w hw
        obtain ⟨a, ha⟩ := List.mem_iff_getElem?.1 hw
        exact hl a w ha
      obtain ⟨x, y⟩ := specLines_suffix (n := ids.length) rfl (by simpa using h1) (by simpa using h2)
        (fun j hj => h3 j (by simp [hj])) (mem fun a => (rest a).1) (mem fun a => (rest a).2) h'
      have := List.append_cancel_left x
      simp only [List.cons.injEq, true_and] at this
      rw [this, y]

/-- Equal bases have the same components and parameters, and the same lines; the values themselves are compared in
`specLines_values_inj`. -/
theorem base_idents {R S : Type} [RequestLike R] [RequestLike S] {r : R} {s : S} {c d : CanonicalizeConfig} {base : Bytes}
    {si si' : SignatureInput} (h1 : canonicalize r c = .ok (.ok (base, si))) (h2 : canonicalize s d = .ok (.ok (base, si')))
    (hc : ∀ k ∈ c.components, ComponentTidy k) (hp : ParamsTidy c.params.params)
    (hd : ∀ k ∈ d.components, ComponentTidy k) (hq : ParamsTidy d.params.params) :
    Forall2 ComponentSame c.components d.components ∧ ParamsSame c.params.params d.params.params ∧
      ∃ ids vals vals', Values r c.components vals ∧ Values s d.components vals' ∧ Forall2 Ident c.components ids ∧
        vals'.length = ids.length ∧ (∀ i ∈ ids, '\n' ∉ i) ∧ specLines ids vals = specLines ids vals' := by
  obtain ⟨vals, ids, lids, ps, hv, hi, hl, hps, hb, _⟩ := canonicalize_ok_iff.1 h1
  obtain ⟨vals', ids', lids', ps', hv', hi', hl', hps', hb', _⟩ := canonicalize_ok_iff.1 h2
  have hd1 := display_list_iff.2 ⟨lids, ps, hl, hps, rfl⟩
  have hd2 := display_list_iff.2 ⟨lids', ps', hl', hps', rfl⟩
  obtain ⟨hr1, hok1, hn, hread⟩ := tidy_list_read hd1 hc hp
  obtain ⟨hr2, hok2, hn', hread'⟩ := tidy_list_read hd2 hd hq
  have htext := utf8_injective (hb.symm.trans hb')
  unfold specBase at htext
  rw [List.append_assoc, List.append_assoc, List.append_assoc, List.append_assoc] at htext
  have hpre : '\n' ∉ (str% "\"@signature-params\": ") := by decide
  obtain ⟨hz, hlast⟩ := specLines_last (by rw [List.mem_append, not_or]; exact ⟨hpre, hn⟩)
    (by rw [List.mem_append, not_or]; exact ⟨hpre, hn'⟩) htext
  have hsp := List.append_cancel_left hlast
  rw [hsp, hread', Except.ok.injEq, Except.ok.injEq] at hread
  simp only [CanonicalizeConfig.norm, CanonicalizeConfig.mk.injEq, SignatureParams.mk.injEq] at hread
  have hids := idents_eq_of_norm hr1 hr2 hread.2.1.symm hi hi'
  subst hids
  exact ⟨componentsSame_of_norm hr1 hr2 hread.2.1.symm, paramsSame_of_norm hok1.2 hok2.2 hread.2.2.symm, ids, vals, vals', hv, hv',
    hi, by rw [hv'.length, hi'.length_eq], idents_no_newline hr1 hi, hz⟩

theorem base_components {R S : Type} [RequestLike R] [RequestLike S] {r : R} {s : S} {c d : CanonicalizeConfig} {base : Bytes}
    {si si' : SignatureInput} (h1 : canonicalize r c = .ok (.ok (base, si))) (h2 : canonicalize s d = .ok (.ok (base, si')))
    (hc : ∀ k ∈ c.components, ComponentTidy k) (hp : ParamsTidy c.params.params)
    (hd : ∀ k ∈ d.components, ComponentTidy k) (hq : ParamsTidy d.params.params) :
    Forall2 ComponentSame c.components d.components ∧ ParamsSame c.params.params d.params.params ∧
      ∃ ids vals vals', Values r c.components vals ∧ Values s d.components vals' ∧ vals.length = ids.length ∧
        vals'.length = ids.length ∧ (∀ i ∈ ids, '\n' ∉ i) ∧ specLines ids vals = specLines ids vals' := by
  obtain ⟨a, b, ids, vals, vals', hv, hv', hi, l2, hn, he⟩ := base_idents h1 h2 hc hp hd hq
  exact ⟨a, b, ids, vals, vals', hv, hv', by rw [hv.length, hi.length_eq], l2, hn, he⟩

theorem Values.getElem {R : Type} [RequestLike R] {r : R} : ∀ {cs : List SignatureComponent} {vals : List Str}, Values r cs vals →
    ∀ {i : Nat} {v : Str}, vals[i]? = some v → ∃ k, cs[i]? = some k ∧ RequestLike.derive r k = .ok (some v)
  | [], vals, h, i, v, hv => by rw [Values.nil_iff] at h; subst h; simp at hv
  | c :: cs, vals, h, i, v, hv => by
    obtain ⟨w, ws, rfl, h1, h2⟩ := Values.cons_iff.1 h
    cases i with
    | zero => simp at hv; subst hv; exact ⟨c, rfl, h1⟩
    | succ i => exact Values.getElem h2 (by simpa using hv)

theorem AtMostOneLong.values {R S : Type} [RequestLike R] [RequestLike S] {r : R} {s : S} {cs ds : List SignatureComponent}
    {vals vals' : List Str} (h : AtMostOneLong r cs s ds) (h1 : Values r cs vals) (h2 : Values s ds vals') : OneLong vals vals' := by
  intro i j hij
  have key : ∀ a : Nat, ((∀ k ∈ cs[a]?, OneLine r k) ∧ ∀ k ∈ ds[a]?, OneLine s k) →
      (∀ v ∈ vals[a]?, '\n' ∉ v) ∧ ∀ v ∈ vals'[a]?, '\n' ∉ v := by
    intro a ha
    constructor
    · intro v hv
      obtain ⟨k, hk, hd⟩ := h1.getElem hv
      exact ha.1 k hk v hd
    · intro v hv
      obtain ⟨k, hk, hd⟩ := h2.getElem hv
      exact ha.2 k hk v hd
  rcases h i j hij with h | h
  · exact Or.inl (key i h)
  · exact Or.inr (key j h)

/-- Equal bases have the same components, parameters and values, if at most one value can have newlines. -/
theorem base_inj {R S : Type} [RequestLike R] [RequestLike S] {r : R} {s : S} {c d : CanonicalizeConfig} {base : Bytes}
    {si si' : SignatureInput} (h1 : canonicalize r c = .ok (.ok (base, si))) (h2 : canonicalize s d = .ok (.ok (base, si')))
    (hc : ∀ k ∈ c.components, ComponentTidy k) (hp : ParamsTidy c.params.params)
    (hd : ∀ k ∈ d.components, ComponentTidy k) (hq : ParamsTidy d.params.params)
    (hn : AtMostOneLong r c.components s d.components) :
    Forall2 ComponentSame c.components d.components ∧ ParamsSame c.params.params d.params.params ∧
      ∃ vals, Values r c.components vals ∧ Values s d.components vals := by
  obtain ⟨a, b, ids, vals, vals', hv, hv', l1, l2, hi, he⟩ := base_components h1 h2 hc hp hd hq
  have := specLines_values_inj l1 l2 hi (hn.values hv hv') he
  subst this
  exact ⟨a, b, vals, hv, hv'⟩

theorem ident_one_line {a : SignatureComponent} {i : Str} (h : Ident a i) : '\n' ∉ i := by
  apply newline_not_mem_of_printable
  cases h with
  | header h =>
    have := h.all_printable
    simp only [List.cons_append, List.all_cons, List.all_append, this, List.all_nil]
    decide
  | derived d s hs => exact serItem_printable (serItem_iff.2 hs)

/-- Under one configuration (whatever it is), equal bases have the same values, if at most one value can have newlines. -/
theorem values_eq_of_base {R S : Type} [RequestLike R] [RequestLike S] {r : R} {s : S} {c : CanonicalizeConfig} {base : Bytes}
    {si si' : SignatureInput} (h1 : canonicalize r c = .ok (.ok (base, si))) (h2 : canonicalize s c = .ok (.ok (base, si')))
    (hn : AtMostOneLong r c.components s c.components) :
    ∃ vals, Values r c.components vals ∧ Values s c.components vals := by
  obtain ⟨v1, i1, l1, p1, a1, b1, c1, d1, e1, -⟩ := canonicalize_ok_iff.1 h1
  obtain ⟨v2, i2, l2, p2, a2, b2, c2, d2, e2, -⟩ := canonicalize_ok_iff.1 h2
  have det : ∀ {r : SignatureComponent → Str → Prop} {a : List SignatureComponent} {b b' : List Str},
      (∀ x y z, r x y → r x z → y = z) → Forall2 r a b → Forall2 r a b' → b = b' := by
    intro r a b b' hr h
    induction h generalizing b' with
    | nil => intro h'; cases h'; rfl
    | cons h1 h2 ih => intro h'; cases h' with | cons g1 g2 => rw [hr _ _ _ h1 g1, ih g2]
  have hi : i1 = i2 := det (r := Ident) (fun _ _ _ a b => a.det b) b1 b2
  have hl : l1 = l2 := det (r := ListIdent) (fun _ _ _ a b => a.det b) c1 c2
  subst hi hl
  have d2 := d1.det d2
  cases d2
  have he := utf8_injective (e1.symm.trans e2)
  unfold specBase at he
  rw [List.append_assoc, List.append_assoc, List.append_assoc, List.append_assoc] at he
  have hone : ∀ i ∈ i1, '\n' ∉ i := by
    clear he e1 e2 b2 hn a1 a2 c1 c2 d1 h1 h2
    generalize c.components = cs at b1
    induction b1 with
    | nil => simp
    | cons x y ih =>
      intro i hi
      rcases List.mem_cons.1 hi with rfl | hi
      · exact ident_one_line x
      · exact ih i hi
  have := specLines_values_inj (by rw [a1.length, b1.length_eq]) (by rw [a2.length, b1.length_eq]) hone (hn.values a1 a2)
    (List.append_cancel_right he)
  subst this
  exact ⟨v1, a1, a2⟩

end Httpsig
