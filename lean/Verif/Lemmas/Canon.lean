import Verif.Lemmas.Config3
import Verif.Spec.Base
import Verif.Lemmas.Render
/- `canonicalize` against its specification. -/
set_option linter.unusedSectionVars false
namespace Httpsig
open Sfv
variable [Deps] {R : Type} [RequestLike R]

theorem toItem_eq (c : SignatureComponent) : c.toItem = itemOf c := by cases c <;> rfl

theorem map_toItem (cs : List SignatureComponent) : cs.map SignatureComponent.toItem = cs.map itemOf :=
  List.map_congr_left fun c _ => toItem_eq c

theorem deriveAll_spec (req : R) (val : SignatureComponent → Option Str) :
    ∀ (comps : List SignatureComponent), (∀ k ∈ comps, RequestLike.derive req k = .ok (val k)) →
    deriveAll req comps =
      .ok (comps.filterMap (fun k => (val k).map fun v => (k, v)), comps.filter (fun k => (val k).isNone))
  | [], _ => rfl
  | c :: cs, h => by
    have ih := deriveAll_spec req val cs (fun k hk => h k (by simp [hk]))
    have hc := h c (by simp)
    simp only [deriveAll, ih, hc]
    cases hv : val c with
    | none => simp [hv, Bind.bind, Except.bind, pure, Except.pure]
    | some v => simp [hv, Bind.bind, Except.bind, pure, Except.pure]

theorem deriveAll_ok {req : R} : ∀ {comps : List SignatureComponent} {x},
    deriveAll req comps = .ok x → ∀ k ∈ comps, ∃ v, RequestLike.derive req k = .ok v
  | [], _, _ => by simp
  | c :: cs, x, h => by
    simp only [deriveAll] at h
    cases hc : RequestLike.derive req c with
    | error e => rw [hc] at h; cases h
    | ok v =>
      rw [hc] at h
      cases hcs : deriveAll req cs with
      | error e => rw [hcs] at h; cases h
      | ok y =>
        intro k hk
        rcases List.mem_cons.1 hk with rfl | hk
        · exact ⟨v, hc⟩
        · exact deriveAll_ok hcs k hk

theorem derive_valueOf {req : R} {k : SignatureComponent} {v : Option Str} (h : RequestLike.derive req k = .ok v) :
    valueOf req k = v := by simp [valueOf, h]

theorem Values.nil_iff {req : R} {vals : List Str} : Values req [] vals ↔ vals = [] := by
  unfold Values; cases vals <;> simp

theorem Values.cons_iff {req : R} {c : SignatureComponent} {cs : List SignatureComponent} {vals : List Str} :
    Values req (c :: cs) vals ↔ ∃ v vs, vals = v :: vs ∧ RequestLike.derive req c = .ok (some v) ∧ Values req cs vs := by
  unfold Values
  cases vals with
  | nil => simp
  | cons v vs =>
    simp only [List.map_cons, List.cons.injEq]
    constructor
    · rintro ⟨h1, h2⟩; exact ⟨v, vs, ⟨rfl, rfl⟩, h1, h2⟩
    · rintro ⟨v', vs', ⟨rfl, rfl⟩, h1, h2⟩; exact ⟨h1, h2⟩

theorem Values.length {req : R} {cs : List SignatureComponent} {vals : List Str} (h : Values req cs vals) :
    vals.length = cs.length := by
  unfold Values at h
  have := congrArg List.length h
  simpa using this.symm

theorem Values.deriveAll {req : R} : ∀ {cs : List SignatureComponent} {vals : List Str}, Values req cs vals →
    deriveAll req cs = .ok (cs.zip vals, [])
  | [], vals, h => by rw [Values.nil_iff] at h; subst h; rfl
  | c :: cs, vals, h => by
    rw [Values.cons_iff] at h
    obtain ⟨v, vs, rfl, h1, h2⟩ := h
    simp only [Httpsig.deriveAll, h1, Values.deriveAll h2]
    rfl

/-- `canonicalize`'s first phase succeeds without missing components exactly when every component has a value. -/
theorem deriveAll_nil_iff {req : R} {cs : List SignatureComponent} {found : List (SignatureComponent × Str)} :
    deriveAll req cs = .ok (found, []) ↔ ∃ vals, Values req cs vals ∧ found = cs.zip vals := by
  constructor
  · intro h
    induction cs generalizing found with
    | nil => cases h; exact ⟨[], Values.nil_iff.2 rfl, rfl⟩
    | cons c cs ih =>
      simp only [deriveAll] at h
      cases hc : RequestLike.derive req c with
      | error e => rw [hc] at h; cases h
      | ok v =>
        cases hcs : deriveAll req cs with
        | error e => rw [hc, hcs] at h; cases h
        | ok y =>
          obtain ⟨f, m⟩ := y
          rw [hc, hcs] at h
          cases v with
          | none => cases h
          | some v =>
            cases h
            obtain ⟨vals, h1, h2⟩ := ih hcs
            exact ⟨v :: vals, Values.cons_iff.2 ⟨v, vals, rfl, hc, h1⟩, by simp [h2]⟩
  · rintro ⟨vals, h, rfl⟩
    exact h.deriveAll

/-! ### Identifiers and lines -/

theorem serString_printable {s : Str} (h : s.all isStringChar = true) : ∃ t, serString s = some t := by
  unfold serString; rw [if_pos h]; exact ⟨_, rfl⟩

theorem ident_derived_iff {d : DerivedComponent} {s : Str} : Ident (.derived d) s ↔ serItem d.item = some s :=
  ⟨fun h => by cases h with | derived _ _ h => exact serItem_iff.2 h, fun h => .derived d s (serItem_iff.1 h)⟩

theorem listIdent_iff {c : SignatureComponent} {s : Str} : ListIdent c s ↔ serItem c.toItem = some s := by
  cases c with
  | derived d =>
    exact ⟨fun h => by cases h with | derived _ _ h => exact serItem_iff.2 h, fun h => .derived d s (serItem_iff.1 h)⟩
  | header n =>
    have e : serItem (SignatureComponent.header n).toItem = some (quoted n.str) := by
      simp only [SignatureComponent.toItem, serItem, serBare, serString, n.all_printable, if_true, serParams, ← escape_eq]
      simp
    rw [e]
    exact ⟨fun h => by cases h; rfl, fun h => by cases h; exact .header n⟩

theorem ListIdent.det {c : SignatureComponent} {i j : Str} (h1 : ListIdent c i) (h2 : ListIdent c j) : i = j :=
  Option.some.inj ((listIdent_iff.1 h1).symm.trans (listIdent_iff.1 h2))

theorem Ident.det {c : SignatureComponent} {i j : Str} (h1 : Ident c i) (h2 : Ident c j) : i = j := by
  cases h1 with
  | header h => cases h2; rfl
  | derived d s hs => cases h2 with | derived _ _ hs' => exact Option.some.inj ((serItem_iff.2 hs).symm.trans (serItem_iff.2 hs'))

theorem baseLine_eq {c : SignatureComponent} {v line : Str} :
    baseLine (c, v) = .ok line ↔ ∃ i, Ident c i ∧ line = i ++ ':' :: ' ' :: v := by
  cases c with
  | header h =>
    simp only [baseLine, SignatureComponent.display]
    constructor
    · intro e; cases e
      exact ⟨_, .header h, by simp⟩
    · rintro ⟨i, hi, rfl⟩
      cases hi
      simp [Bind.bind, Except.bind, pure, Except.pure]
  | derived d =>
    simp only [baseLine, SignatureComponent.display, DerivedComponent.display]
    cases hs : serItem d.item with
    | none =>
      constructor
      · intro e; cases e
      · rintro ⟨i, hi, rfl⟩
        cases hi with
        | derived _ _ h => rw [serItem_iff.2 h] at hs; cases hs
    | some s =>
      constructor
      · intro e; cases e
        exact ⟨_, .derived d s (serItem_iff.1 hs), by simp⟩
      · rintro ⟨i, hi, rfl⟩
        cases hi with
        | derived _ _ h => rw [serItem_iff.2 h] at hs; cases hs; simp [Bind.bind, Except.bind, pure, Except.pure]

theorem joinWith_cons {sep a : Str} {l : List Str} (h : l ≠ []) : joinWith sep (a :: l) = a ++ sep ++ joinWith sep l := by
  cases l with
  | nil => exact absurd rfl h
  | cons b l => rfl

theorem sigParams_line (sp : Str) : baseLine (SignatureComponent.derived (.new atSignatureParams), sp) =
    .ok (str% "\"@signature-params\": " ++ sp) := rfl

theorem mapM_baseLine {sp : Str} : ∀ {cs : List SignatureComponent} {vals : List Str} {lines : List Str},
    vals.length = cs.length →
    ((cs.zip vals ++ [(SignatureComponent.derived (.new atSignatureParams), sp)]).mapM baseLine = .ok lines ↔
      ∃ ids, Forall2 Ident cs ids ∧ lines ≠ [] ∧
        lines = (List.zipWith (fun i v => i ++ ':' :: ' ' :: v) ids vals) ++ [str% "\"@signature-params\": " ++ sp])
  | [], [], lines, _ => by
    simp only [List.zip_nil_left, List.nil_append, List.mapM_cons, List.mapM_nil, sigParams_line]
    constructor
    · intro h; cases h
      exact ⟨[], .nil, by simp, rfl⟩
    · rintro ⟨ids, hids, _, rfl⟩
      cases hids
      rfl
  | c :: cs, v :: vals, lines, h => by
    have ih := fun lines => mapM_baseLine (sp := sp) (cs := cs) (vals := vals) (lines := lines) (by simpa using h)
    simp only [List.zip_cons_cons, List.cons_append, List.mapM_cons]
    cases hb : baseLine (c, v) with
    | error e =>
      constructor
      · intro h; cases h
      · rintro ⟨ids, hids, _, rfl⟩
        cases hids with
        | cons h1 h2 =>
          have := baseLine_eq (v := v).2 ⟨_, h1, rfl⟩
          rw [hb] at this; cases this
    | ok line =>
      obtain ⟨i, hi, rfl⟩ := baseLine_eq.1 hb
      cases hm : (cs.zip vals ++ [(SignatureComponent.derived (.new atSignatureParams), sp)]).mapM baseLine with
      | error e =>
        constructor
        · intro h; cases h
        · rintro ⟨ids, hids, _, rfl⟩
          cases hids with
          | @cons _ _ _ is h1 h2 =>
            have := (ih _).2 ⟨is, h2, by simp, rfl⟩
            rw [hm] at this; cases this
      | ok ls =>
        obtain ⟨ids, hids, hne, rfl⟩ := (ih _).1 hm
        constructor
        · intro h; cases h
          exact ⟨i :: ids, .cons hi hids, by simp, by simp⟩
        · rintro ⟨ids', hids', _, rfl⟩
          cases hids' with
          | @cons _ i' _ is h1 h2 =>
            have e2 := (ih _).2 ⟨is, h2, by simp, rfl⟩
            rw [hm] at e2
            rw [Except.ok.injEq] at e2
            have e3 : i = i' := hi.det h1
            subst e3
            show Except.ok _ = _
            simp only [List.zipWith_cons_cons, List.cons_append, (List.append_inj' e2 rfl).1]

theorem joinWith_lines : ∀ {ids vals : List Str} {last : Str}, vals.length = ids.length →
    joinWith (str% "\n") (List.zipWith (fun i v => i ++ ':' :: ' ' :: v) ids vals ++ [last]) = specLines ids vals ++ last
  | [], [], last, _ => rfl
  | i :: ids, v :: vals, last, h => by
    have ih := joinWith_lines (ids := ids) (vals := vals) (last := last) (by simpa using h)
    simp only [List.zipWith_cons_cons, List.cons_append]
    rw [joinWith_cons (by simp), ih]
    simp [specLines]

theorem Forall2.length_eq {α β : Type} {r : α → β → Prop} {as : List α} {bs : List β} (h : Forall2 r as bs) :
    as.length = bs.length := by
  induction h with
  | nil => rfl
  | cons _ _ ih => simp [ih]

theorem escape_of_plain {s : Str} (h : ∀ c ∈ s, c ≠ '"' ∧ c ≠ '\\') : escape s = s := by
  induction s with
  | nil => rfl
  | cons c cs ih =>
    have hc := h c (by simp)
    rw [escape, if_neg (by rintro (h | h); exact hc.2 h; exact hc.1 h), ih (fun d hd => h d (by simp [hd]))]

/-- Line identifier and list identifier agree unless a header name contains a double quote. -/
theorem listIdent_of_ident {c : SignatureComponent} {s : Str} (h : ∀ n, c = .header n → '"' ∉ n.str) :
    ListIdent c s ↔ Ident c s := by
  cases c with
  | derived d =>
    constructor
    · intro h; cases h with | derived _ _ h => exact .derived d s h
    · intro h; cases h with | derived _ _ h => exact .derived d s h
  | header n =>
    have hn := h n rfl
    have hb : ∀ c ∈ n.str, c ≠ '"' ∧ c ≠ '\\' := by
      intro c hc
      refine ⟨fun e => hn (e ▸ hc), ?_⟩
      have hok := n.ok
      simp only [validHeaderName, Bool.and_eq_true] at hok
      exact (isStringChar_of_headerNameChar (List.all_eq_true.1 hok.2 c hc)).2.2
    have e : serItem (SignatureComponent.header n).toItem = some ('"' :: n.str ++ ['"']) := by
      simp only [SignatureComponent.toItem, serItem, serBare, serString, n.all_printable, if_true, escape_of_plain hb, serParams]
      simp
    rw [listIdent_iff, e]
    constructor
    · intro h; cases h; exact .header n
    · intro h; cases h; rfl

theorem specListText_close (ids : List Str) : ∃ y, '(' :: y ++ [')'] = specListText ids := by
  cases ids with
  | nil => exact ⟨[], rfl⟩
  | cons i is => exact ⟨i ++ is.flatMap (fun j => ' ' :: j), rfl⟩

theorem serItems_text : ∀ {l : List Item} {a : Str},
    serItems l = some a ↔ ∃ ids, Forall2 (fun i s => serItem i = some s) l ids ∧
      '(' :: a ++ [')'] = specListText ids
  | [], a => by
    simp only [serItems]
    constructor
    · intro h; cases h; exact ⟨[], .nil, rfl⟩
    · rintro ⟨ids, h, e⟩
      cases h
      simp [specListText] at e
      cases a with
      | nil => rfl
      | cons x xs => simp at e
  | [i], a => by
    simp only [serItems]
    constructor
    · intro h; exact ⟨[a], .cons h .nil, by simp [specListText]⟩
    · rintro ⟨ids, h, e⟩
      cases h with
      | cons h1 h2 =>
        cases h2
        simp [specListText] at e
        rw [e]; exact h1
  | i :: j :: rest, a => by
    have ih := fun a => serItems_text (l := j :: rest) (a := a)
    simp only [serItems, Option.bind_eq_bind, Option.bind_eq_some_iff]
    constructor
    · rintro ⟨x, hx, y, hy, h⟩
      cases h
      obtain ⟨ids, h1, h2⟩ := (ih y).1 hy
      refine ⟨x :: ids, .cons hx h1, ?_⟩
      cases h1 with
      | cons h3 h4 =>
        simp only [specListText, List.cons_append, List.cons.injEq, true_and] at h2 ⊢
        simp only [List.flatMap_cons, List.append_assoc, List.cons_append] at h2 ⊢
        rw [h2]
    · rintro ⟨ids, h1, h2⟩
      cases h1 with
      | @cons _ x _ ids h3 h4 =>
        obtain ⟨y, hy⟩ := specListText_close ids
        refine ⟨x, h3, y, (ih y).2 ⟨ids, h4, hy⟩, ?_⟩
        cases h4 with
        | cons h5 h6 =>
          simp only [specListText, List.cons_append, List.cons.injEq, true_and] at h2 hy
          simp only [List.flatMap_cons, List.append_assoc, List.cons_append] at h2 hy
          have : x ++ ' ' :: (y ++ [')']) = a ++ [')'] := by rw [hy, h2]
          rw [show x ++ ' ' :: (y ++ [')']) = (x ++ ' ' :: y) ++ [')'] by simp] at this
          rw [(List.append_inj' this rfl).1]

theorem Forall2.imp {α β : Type} {p q : α → β → Prop} (h : ∀ a b, p a b → q a b) {l : List α} {m : List β}
    (hl : Forall2 p l m) : Forall2 q l m := by
  induction hl with
  | nil => exact .nil
  | cons h1 _ ih => exact .cons (h _ _ h1) ih

theorem forall2_map_left {α β γ : Type} {r : β → γ → Prop} {f : α → β} : ∀ {l : List α} {m : List γ},
    Forall2 r (l.map f) m ↔ Forall2 (fun a c => r (f a) c) l m
  | [], m => by
    constructor
    · intro h; cases h; exact .nil
    · intro h; cases h; exact .nil
  | a :: l, m => by
    have ih := fun m => forall2_map_left (r := r) (f := f) (l := l) (m := m)
    constructor
    · intro h; cases h with | cons h1 h2 => exact .cons h1 ((ih _).1 h2)
    · intro h; cases h with | cons h1 h2 => exact .cons h1 ((ih _).2 h2)

theorem display_list_iff {c : CanonicalizeConfig} {sp : Str} :
    c.toSignatureInput.list.display = .ok sp ↔
      ∃ lids ps, Forall2 ListIdent c.components lids ∧ ParamsText c.params.params ps ∧
        sp = specListText lids ++ ps := by
  have e : c.toSignatureInput.list.display = .ok sp ↔ serInnerList c.toSignatureInput.list.inner = some sp := by
    unfold ComponentList.display serSingletonList
    cases serInnerList c.toSignatureInput.list.inner <;> simp
  rw [e]
  simp only [serInnerList, Option.bind_eq_bind, Option.bind_eq_some_iff]
  have hit : c.toSignatureInput.list.inner.items = c.components.map SignatureComponent.toItem := rfl
  have hps : c.toSignatureInput.list.inner.params = c.params.params := rfl
  rw [hit, hps]
  constructor
  · rintro ⟨a, ha, b, hb, h⟩
    cases h
    obtain ⟨ids, h1, h2⟩ := serItems_text.1 ha
    exact ⟨ids, b, ((forall2_map_left (f := SignatureComponent.toItem)).1 h1).imp (fun _ _ => listIdent_iff.2), serParams_iff.1 hb, by rw [← h2]; simp⟩
  · rintro ⟨lids, ps, h1, h2, rfl⟩
    obtain ⟨y, hy⟩ := specListText_close lids
    exact ⟨y, serItems_text.2 ⟨lids, (forall2_map_left (f := SignatureComponent.toItem)).2 (h1.imp (fun _ _ => listIdent_iff.1)), hy⟩, ps, serParams_iff.2 h2, by rw [← hy]; simp⟩

/-- `canonicalize` succeeds exactly when every component has a value and everything can be rendered, and then the
result is the specified text. -/
theorem canonicalize_ok_iff {req : R} {c : CanonicalizeConfig} {base : Bytes} {si : SignatureInput} :
    canonicalize req c = .ok (.ok (base, si)) ↔
      ∃ vals ids lids ps, Values req c.components vals ∧ Forall2 Ident c.components ids ∧
        Forall2 ListIdent c.components lids ∧ ParamsText c.params.params ps ∧
        base = utf8 (specBase ids lids vals ps) ∧ si = c.toSignatureInput := by
  unfold canonicalize
  constructor
  · intro h
    cases hd : deriveAll req c.components with
    | error e => rw [hd] at h; cases h
    | ok x =>
      obtain ⟨found, missing⟩ := x
      rw [hd] at h
      simp only [Bind.bind, Except.bind] at h
      split at h
      · cases h
      rename_i hm
      have hm : missing = [] := by simpa using hm
      subst hm
      obtain ⟨vals, hv, rfl⟩ := deriveAll_nil_iff.1 hd
      cases hs : c.toSignatureInput.list.display with
      | error e => rw [hs] at h; cases h
      | ok sp =>
        rw [hs] at h
        simp only at h
        split at h
        · cases h
        rename_i lines hl
        cases h
        obtain ⟨ids, hi, _, rfl⟩ := (mapM_baseLine hv.length).1 hl
        obtain ⟨lids, ps, h1, h2, rfl⟩ := display_list_iff.1 hs
        refine ⟨vals, ids, lids, ps, hv, hi, h1, h2, ?_, rfl⟩
        rw [joinWith_lines (by rw [hv.length, hi.length_eq])]
        simp [specBase]
  · rintro ⟨vals, ids, lids, ps, hv, hi, hl, hps, rfl, rfl⟩
    have hd := hv.deriveAll
    have hs := display_list_iff.2 ⟨lids, ps, hl, hps, rfl⟩
    have hb := (mapM_baseLine (sp := specListText lids ++ ps) hv.length).2 ⟨ids, hi, by simp, rfl⟩
    rw [hd]
    simp only [Bind.bind, Except.bind, ne_eq, not_true_eq_false, if_false, hs, hb, pure, Except.pure]
    rw [joinWith_lines (by rw [hv.length, hi.length_eq])]
    simp [specBase]

end Httpsig
