import Verif.Props.Grammar
import Verif.Props.Derive
import Verif.Props.KeyFiles
import Verif.Props.Main
import Verif.Props.Unsigned
/-
C96-C99: exact forms of claims that are false as first stated (C32, C34, C35, C61).
-/
set_option linter.unusedSectionVars false
namespace Httpsig
open Sfv
variable [Deps]

/-! ### C96: component texts -/

/-- C96. A component that prints reads back as itself if and only if it is a header whose name does not begin with a double
quote, or a derived component whose name begins with `@`, whose parameters have names and are not empty tokens, and whose
decimals need at most three fractional digits. -/
theorem C96_component_text_exact (k : SignatureComponent) (s : Str) (hs : k.display = .ok s) :
    (∃ k', SignatureComponent.fromStr s = .ok k' ∧ ComponentSame k k') ↔
      ComponentFaithful k ∧ ∀ h, k = .header h → h.str.head? ≠ some '"' := by
  constructor
  · rintro ⟨k', h1, h2⟩
    refine ⟨?_, ?_⟩
    · refine faithful_of_componentSame h2 ?_
      cases k' with
      | header => trivial
      | derived d =>
        unfold SignatureComponent.fromStr at h1
        split at h1
        · cases hd : DerivedComponent.fromStr s with
          | error e => rw [hd] at h1; cases h1
          | ok d' =>
            rw [hd] at h1
            cases h1
            exact fromStr_spec hd
        · split at h1 <;> cases h1
    · rintro h rfl
      have : s = h.str := (Except.ok.inj hs).symm
      subst this
      rcases (C73_component_text _ _).1 h1 with ⟨_, _, _, hq, _⟩ | ⟨_, _, i, _, rfl, _⟩
      · exact hq
      · cases h2
  · rintro ⟨hf, hq⟩
    cases k with
    | header h =>
      have : s = h.str := (Except.ok.inj hs).symm
      subst this
      refine ⟨.header h, (C32_header_print_parse_partial h ?_).2, rfl⟩
      intro c hc e
      subst e
      exact hq h rfl hc
    | derived d =>
      have hd : DerivedComponent.display ⟨roundItem d.item⟩ = .ok s := by
        have : d.display = .ok s := hs
        unfold DerivedComponent.display at this ⊢
        simp only [serItem_round]
        exact this
      obtain ⟨⟨cs, hcs⟩, hp⟩ := hf
      obtain ⟨d', h1, _, h2⟩ := C32_derived_print_parse ⟨roundItem d.item⟩ s
        ⟨⟨cs, by simp [roundItem, roundBare, hcs]⟩, roundParams_tidy hp⟩ hd
      have h0 : ComponentSame (.derived d) (.derived ⟨roundItem d.item⟩) := by
        refine ⟨?_, roundParams_same fun e he => (hp.2 e he).2⟩
        simp only [roundItem, hcs, roundBare]
        exact .refl _
      exact ⟨_, h1, h0.trans h2⟩

/-- A component with a five-digit decimal that reads back, and one that does not. -/
example : (SignatureComponent.derived ⟨{ bare := .string atPath, params := [(str% "x", .decimal ⟨false, 12500, 5⟩)] }⟩).display =
      .ok (str% "\"@path\";x=0.125") ∧
    ComponentFaithful (.derived ⟨{ bare := .string atPath, params := [(str% "x", .decimal ⟨false, 12500, 5⟩)] }⟩) ∧
    (SignatureComponent.derived ⟨{ bare := .string atPath, params := [(str% "x", .decimal ⟨false, 12501, 5⟩)] }⟩).display =
      .ok (str% "\"@path\";x=0.125") ∧
    ¬ ComponentFaithful (.derived ⟨{ bare := .string atPath, params := [(str% "x", .decimal ⟨false, 12501, 5⟩)] }⟩) := by
  refine ⟨rfl, ⟨⟨str% "path", rfl⟩, by simp [IMap.NodupKeys], ?_⟩, rfl, ?_⟩
  · intro e he
    simp only [List.mem_singleton] at he
    subst he
    refine ⟨by simp, by simp, ?_⟩
    intro d hd
    cases hd
    rfl
  · intro h
    have := (h.2.2 _ (List.mem_singleton.2 rfl)).2.2 _ rfl
    simp at this

/-! ### C97: query parameters -/

/-- The lines of a list of values, one value after the other; every value has at least one line. -/
inductive LinesOf : List Str → List Str → Prop
  | nil : LinesOf [] []
  | cons {ls ms : List Str} {vs : List Str} : ls ≠ [] → (∀ l ∈ ls, '\n' ∉ l) → LinesOf vs ms → LinesOf (joinLines ls :: vs) (ls ++ ms)

/-- The lines that stand for a list of values in a signature base: the lines of the values, or a single empty line if there is
no value. -/
def Shown (vs ls : List Str) : Prop := (vs ≠ [] ∧ LinesOf vs ls) ∨ (vs = [] ∧ ls = [[]])

omit [Deps] in
theorem joinLines_append : ∀ {a b : List Str}, a ≠ [] → b ≠ [] → joinLines (a ++ b) = joinLines a ++ '\n' :: joinLines b
  | [], _, h, _ => absurd rfl h
  | [s], [], _, h => absurd rfl h
  | [s], t :: rest, _, _ => rfl
  | s :: t :: rest, b, _, hb => by
    have ih := joinLines_append (a := t :: rest) (b := b) (by simp) hb
    simp only [List.cons_append] at ih ⊢
    rw [joinLines, joinLines, ih]
    simp

omit [Deps] in
theorem linesOf_ne_nil {vs ls : List Str} (h : LinesOf vs ls) (hv : vs ≠ []) : ls ≠ [] := by
  cases h with
  | nil => exact absurd rfl hv
  | cons h _ _ => simp [h]

omit [Deps] in
theorem linesOf_join {vs ls : List Str} (h : LinesOf vs ls) : joinLines ls = joinLines vs := by
  induction h with
  | nil => rfl
  | @cons ls ms vs hl _ hr ih =>
    cases vs with
    | nil => cases hr; simp [joinLines]
    | cons w ws =>
      rw [joinLines_append hl (linesOf_ne_nil hr (by simp)), ih]
      rfl

omit [Deps] in
theorem linesOf_one_line {vs ls : List Str} (h : LinesOf vs ls) : ∀ l ∈ ls, '\n' ∉ l := by
  induction h with
  | nil => simp
  | cons _ hn _ ih =>
    intro l hl
    rcases List.mem_append.1 hl with hl | hl
    · exact hn l hl
    · exact ih l hl

omit [Deps] in
theorem lines_exist : ∀ v : Str, ∃ ls : List Str, ls ≠ [] ∧ (∀ l ∈ ls, '\n' ∉ l) ∧ joinLines ls = v
  | [] => ⟨[[]], by simp, by simp, rfl⟩
  | c :: v => by
    obtain ⟨ls, h1, h2, h3⟩ := lines_exist v
    cases ls with
    | nil => exact absurd rfl h1
    | cons l rest =>
      by_cases hc : c = '\n'
      · subst hc
        refine ⟨[] :: l :: rest, by simp, ?_, by rw [joinLines, h3]; rfl⟩
        intro m hm
        rcases List.mem_cons.1 hm with rfl | hm
        · simp
        · exact h2 m hm
      · refine ⟨(c :: l) :: rest, by simp, ?_, ?_⟩
        · intro m hm
          rcases List.mem_cons.1 hm with rfl | hm
          · simp [Ne.symm hc, h2 l (by simp)]
          · exact h2 m (by simp [hm])
        · rw [← h3]
          cases rest <;> rfl

omit [Deps] in
theorem linesOf_exist : ∀ vs : List Str, ∃ ls, LinesOf vs ls
  | [] => ⟨_, .nil⟩
  | v :: vs => by
    obtain ⟨ms, hm⟩ := linesOf_exist vs
    obtain ⟨ls, h1, h2, rfl⟩ := lines_exist v
    exact ⟨_, .cons h1 h2 hm⟩

omit [Deps] in
theorem shown_exists (vs : List Str) : ∃ ls, Shown vs ls := by
  by_cases h : vs = []
  · exact ⟨_, .inr ⟨h, rfl⟩⟩
  · obtain ⟨ls, hl⟩ := linesOf_exist vs
    exact ⟨ls, .inl ⟨h, hl⟩⟩

omit [Deps] in
theorem shown_join {vs ls : List Str} (h : Shown vs ls) : joinLines ls = joinLines vs ∧ ls ≠ [] ∧ ∀ l ∈ ls, '\n' ∉ l := by
  rcases h with ⟨h, hl⟩ | ⟨rfl, rfl⟩
  · exact ⟨linesOf_join hl, linesOf_ne_nil hl h, linesOf_one_line hl⟩
  · exact ⟨rfl, by simp, by simp⟩

/-- C97. Two queries are told apart by `@query-params;name=field` if and only if the values of the field do not fall into the
same lines. -/
theorem C97_query_params_exact (r s : ReqwestRequest) (d : DerivedComponent) (field : Str) (ps qs : List (Str × Str))
    (vs ws : List Str) (hn : d.Called (str% "@query-params")) (hp : d.HasParam (str% "name") field)
    (hr : QueryIs (utf8 (r.url.query.getD [])) ps) (hs : QueryIs (utf8 (s.url.query.getD [])) qs)
    (hv : Selected field ps vs) (hw : Selected field qs ws) :
    RequestLike.derive r (.derived d) = RequestLike.derive s (.derived d) ↔ ∃ ls, Shown vs ls ∧ Shown ws ls := by
  rw [C34_selects r d field ps vs hn hp hr hv, C34_selects s d field qs ws hn hp hs hw]
  constructor
  · intro h
    have h : joinLines vs = joinLines ws := Option.some.inj (Except.ok.inj h)
    obtain ⟨ls, hl⟩ := shown_exists vs
    obtain ⟨ms, hm⟩ := shown_exists ws
    obtain ⟨a1, a2, a3⟩ := shown_join hl
    obtain ⟨b1, b2, b3⟩ := shown_join hm
    have : ls = ms := joinLines_inj a2 b2 a3 b3 (by rw [a1, b1, h])
    subst this
    exact ⟨ls, hl, hm⟩
  · rintro ⟨ls, h1, h2⟩
    rw [← (shown_join h1).1, ← (shown_join h2).1]

/-- C97. In particular a single value is told apart from every other single value, line feeds or not. -/
theorem C97_single_values (r s : ReqwestRequest) (d : DerivedComponent) (field v w : Str) (ps qs : List (Str × Str))
    (hn : d.Called (str% "@query-params")) (hp : d.HasParam (str% "name") field)
    (hr : QueryIs (utf8 (r.url.query.getD [])) ps) (hs : QueryIs (utf8 (s.url.query.getD [])) qs)
    (hv : Selected field ps [v]) (hw : Selected field qs [w]) :
    RequestLike.derive r (.derived d) = RequestLike.derive s (.derived d) ↔ v = w := by
  rw [C34_selects r d field ps _ hn hp hr hv, C34_selects s d field qs _ hn hp hs hw]
  exact ⟨fun h => Option.some.inj (Except.ok.inj h), fun h => by rw [h]⟩

/-- One value with a line feed, two values, and three: the same lines in the first two cases. -/
example : Shown [str% "a\nb"] [str% "a", str% "b"] ∧ Shown [str% "a", str% "b"] [str% "a", str% "b"] ∧
    ¬ Shown [str% "a", str% "b", []] [str% "a", str% "b"] := by
  refine ⟨.inl ⟨by simp, .cons (ls := [str% "a", str% "b"]) (by simp) (by decide) .nil⟩,
    .inl ⟨by simp, .cons (ls := [str% "a"]) (by simp) (by decide) (.cons (ls := [str% "b"]) (by simp) (by decide) .nil)⟩, ?_⟩
  intro h
  have := (shown_join h).1
  revert this
  decide

/-- The hypotheses of C97: a query with one value and a query with two, which are not told apart. -/
example : ((DerivedComponent.new atQueryParams).withParam (str% "name") (str% "p")).Called (str% "@query-params") ∧
    ((DerivedComponent.new atQueryParams).withParam (str% "name") (str% "p")).HasParam (str% "name") (str% "p") ∧
    QueryIs (utf8 (str% "p=a%0Ab&q")) [(str% "p", str% "a\nb"), (str% "q", [])] ∧
    QueryIs (utf8 (str% "p=a&p=b")) [(str% "p", str% "a"), (str% "p", str% "b")] ∧
    Selected (str% "p") [(str% "p", str% "a\nb"), (str% "q", [])] [str% "a\nb"] ∧
    Selected (str% "p") [(str% "p", str% "a"), (str% "p", str% "b")] [str% "a", str% "b"] :=
  ⟨rfl, hasParam_iff.2 rfl, queryIs_iff.2 (by decide +kernel), queryIs_iff.2 (by decide +kernel), .take (.skip (by decide) .nil), .take (.take .nil)⟩

/-! ### C98: header values -/

theorem specLines_differ : ∀ {ids vals vals' : List Str}, vals.length = ids.length → vals'.length = ids.length →
    (∀ i ∈ ids, '\n' ∉ i) → Forall2 (fun v w => v = w ∨ ('\n' ∉ v ∧ '\n' ∉ w)) vals vals' →
    specLines ids vals = specLines ids vals' → vals = vals'
  | [], [], [], _, _, _, _, _ => rfl
  | i :: ids, v :: vals, v' :: vals', h1, h2, h3, .cons hv hr, h => by
    have hi := h3 i (by simp)
    have h : (i ++ ':' :: ' ' :: v) ++ '\n' :: specLines ids vals = (i ++ ':' :: ' ' :: v') ++ '\n' :: specLines ids vals' := by
      simpa [specLines] using h
    have key : v = v' ∧ specLines ids vals = specLines ids vals' := by
      rcases hv with rfl | ⟨a, b⟩
      · exact ⟨rfl, by simpa using h⟩
      · obtain ⟨x, y⟩ := append_cons_inj (by simp [hi, a]) (by simp [hi, b]) h
        have := List.append_cancel_left x
        simp only [List.cons.injEq, true_and] at this
        exact ⟨this, y⟩
    rw [key.1, specLines_differ (by simpa using h1) (by simpa using h2) (fun j hj => h3 j (by simp [hj])) hr key.2]

/-- C98. If two requests differ only in covered components whose values are single lines, then they have the same signature base
only if they do not differ in any covered component. -/
theorem C98_one_line_changes {R S : Type} [RequestLike R] [RequestLike S] (r : R) (s : S) (c : CanonicalizeConfig) (base : Bytes)
    (si : SignatureInput) (h1 : canonicalize r c = .ok (.ok (base, si)))
    (hd : ∀ k ∈ c.components, RequestLike.derive r k = RequestLike.derive s k ∨ (OneLine r k ∧ OneLine s k)) :
    canonicalize s c = .ok (.ok (base, si)) ↔ ∀ k ∈ c.components, RequestLike.derive r k = RequestLike.derive s k := by
  constructor
  · intro h2
    obtain ⟨v1, i1, l1, p1, a1, b1, c1, d1, e1, -⟩ := canonicalize_ok_iff.1 h1
    obtain ⟨v2, i2, l2, p2, a2, b2, c2, d2, e2, -⟩ := canonicalize_ok_iff.1 h2
    have hi : i1 = i2 := forall2_det (r := Ident) (fun _ _ _ a b => a.det b) b1 b2
    have hl : l1 = l2 := forall2_det (r := ListIdent) (fun _ _ _ a b => a.det b) c1 c2
    subst hi hl
    have d2 := d1.det d2
    cases d2
    have he := utf8_injective (e1.symm.trans e2)
    unfold specBase at he
    rw [List.append_assoc, List.append_assoc, List.append_assoc, List.append_assoc] at he
    have hone : ∀ i ∈ i1, '\n' ∉ i := by
      intro i hi
      obtain ⟨k, _, hk⟩ := forall2_right b1 i hi
      exact ident_one_line hk
    have hv : Forall2 (fun v w => v = w ∨ ('\n' ∉ v ∧ '\n' ∉ w)) v1 v2 := by
      clear h1 h2 b1 b2 c1 c2 d1 e1 e2 he
      generalize c.components = cs at *
      induction cs generalizing v1 v2 with
      | nil => rw [Values.nil_iff] at a1 a2; subst a1 a2; exact .nil
      | cons k ks ih =>
        obtain ⟨x, xs, rfl, hx, hxs⟩ := Values.cons_iff.1 a1
        obtain ⟨y, ys, rfl, hy, hys⟩ := Values.cons_iff.1 a2
        refine .cons ?_ (ih _ _ (fun k hk => hd k (by simp [hk])) hxs hys)
        rcases hd k (by simp) with h | ⟨h, h'⟩
        · rw [hx, hy] at h
          exact .inl (Option.some.inj (Except.ok.inj h))
        · exact .inr ⟨h x hx, h' y hy⟩
    have := specLines_differ (by rw [a1.length, b1.length_eq]) (by rw [a2.length, b1.length_eq]) hone hv (List.append_cancel_right he)
    subst this
    intro k hk
    obtain ⟨v, hv, hw⟩ := values_mem a1 a2 hk
    rw [hv, hw]
  · intro h
    rw [← canonicalize_congr h]
    exact h1

/-- C98. Requests of the reqwest types: if the values under a covered header name are changed, in whatever way, the signature base
stays the same if and only if the first value stays the same. -/
theorem C98_reqwest_header_exact (r : ReqwestRequest) (m : HeaderMap) (c : CanonicalizeConfig) (h : HeaderName) (base : Bytes)
    (si : SignatureInput) (hc : .header h ∈ c.components) (hother : ∀ n, n ≠ h → m.getAll n = r.headers.getAll n)
    (h1 : canonicalize r c = .ok (.ok (base, si))) :
    canonicalize { r with headers := m } c = .ok (.ok (base, si)) ↔ (m.getAll h).head? = (r.headers.getAll h).head? := by
  have hdr : ∀ (x : ReqwestRequest) n, RequestLike.derive x (.header n) = .ok (((x.headers.getAll n).head?).bind HeaderValue.toStr) := by
    intro x n
    show Except.ok (reqwestHeader x.headers n) = _
    unfold reqwestHeader
    rw [get_eq_head]
  refine (C98_one_line_changes r { r with headers := m } c base si h1 ?_).trans ?_
  rotate_left
  · constructor
    · intro hall
      have := hall _ hc
      obtain ⟨vals, _, _, _, hv, _⟩ := canonicalize_ok_iff.1 h1
      obtain ⟨v, hd, _⟩ := values_mem hv hv hc
      rw [hd, hdr] at this
      rw [hdr] at hd
      have e1 := Except.ok.inj hd
      have e2 := (Except.ok.inj this).symm
      obtain ⟨x, hx, hx'⟩ := Option.bind_eq_some_iff.1 e1
      obtain ⟨y, hy, hy'⟩ := Option.bind_eq_some_iff.1 e2
      rw [hx]
      refine Eq.trans hy ?_
      rw [toStr_inj hx' hy']
    · intro he k _
      cases k with
      | derived d => rfl
      | header n =>
        rw [hdr, hdr]
        by_cases hn : n = h
        · subst hn; rw [← he]
        · show _ = Except.ok (((m.getAll n).head?).bind HeaderValue.toStr)
          rw [hother n hn]
  · intro k _
    cases k with
    | derived d => exact .inl rfl
    | header n =>
      exact .inr ⟨fun v hv => reqwestDerive_no_newline (k := .header n) (fun _ e => nomatch e) hv,
        fun v hv => reqwestDerive_no_newline (k := .header n) (fun _ e => nomatch e) hv⟩

/-- The hypotheses of C98, with a second value that is not seen and a new first value that is. -/
example : SignatureComponent.header hHost ∈ exBaseConfig.components ∧
    (∃ base si, canonicalize exReqwest exBaseConfig = .ok (.ok (base, si))) ∧
    ∀ x : HeaderValue, (∀ n, n ≠ hHost → HeaderMap.getAll (exReqwest.headers ++ [(hHost, x)]) n = exReqwest.headers.getAll n) ∧
      (HeaderMap.getAll (exReqwest.headers ++ [(hHost, x)]) hHost).head? = (exReqwest.headers.getAll hHost).head? ∧
      (∀ n, n ≠ hHost → HeaderMap.getAll ((hHost, x) :: exReqwest.headers) n = exReqwest.headers.getAll n) ∧
      (HeaderMap.getAll ((hHost, x) :: exReqwest.headers) hHost).head? = some x := by
  refine ⟨.tail _ (.head _), ⟨_, _, rfl⟩, fun x => ⟨?_, rfl, ?_, rfl⟩⟩
  · intro n hn
    simp [HeaderMap.getAll, Ne.symm hn]
  · intro n hn
    simp [HeaderMap.getAll, Ne.symm hn]

/-- C98. The validator's requests, on the server side: the same, except that a value that is not text counts as an empty value. -/
theorem C98_mock_header_exact (r : MockRequest) (m : HeaderMap) (c : CanonicalizeConfig) (h : HeaderName) (base : Bytes)
    (si : SignatureInput) (hc : .header h ∈ c.components) (hother : ∀ n, n ≠ h → m.getAll n = r.headers.getAll n)
    (h1 : @canonicalize _ MockRequest (ServerRequestLike.toRequestLike (Remnant := Unit)) r c = .ok (.ok (base, si))) :
    @canonicalize _ MockRequest (ServerRequestLike.toRequestLike (Remnant := Unit)) { r with headers := m } c = .ok (.ok (base, si)) ↔
      (m.getAll h).head?.map (fun v => v.toStr.getD []) = (r.headers.getAll h).head?.map (fun v => v.toStr.getD []) := by
  letI : RequestLike MockRequest := ServerRequestLike.toRequestLike (Remnant := Unit)
  have hdr : ∀ (x : MockRequest) n, RequestLike.derive x (.header n) = .ok ((x.headers.getAll n).head?.map fun v => v.toStr.getD []) := by
    intro x n
    rw [← get_eq_head]
    exact mock_derive_header x n
  have hone : ∀ (x : MockRequest) n, OneLine x (.header n) := by
    intro x n v hv
    rw [hdr] at hv
    obtain ⟨w, _, rfl⟩ := Option.map_eq_some_iff.1 (Except.ok.inj hv)
    cases hw : w.toStr with
    | none => simp
    | some t => exact toStr_no_newline hw
  refine (C98_one_line_changes r { r with headers := m } c base si h1 ?_).trans ⟨?_, ?_⟩
  · intro k _
    cases k with
    | derived d => exact .inl rfl
    | header n => exact .inr ⟨hone _ _, hone _ _⟩
  · intro hall
    have := hall _ hc
    rw [hdr, hdr] at this
    exact (Except.ok.inj this).symm
  · intro he k _
    cases k with
    | derived d => rfl
    | header n =>
      rw [hdr, hdr]
      by_cases hn : n = h
      · subst hn; rw [← he]
      · show _ = Except.ok ((m.getAll n).head?.map fun v => v.toStr.getD [])
        rw [hother n hn]

/-! ### C99: output of a validator run that fails -/

/-- C99. The validator fails with something on its standard output if and only if it signs, the signed request has a header value that
is not text, and the output is the request file up to that header. -/
theorem C99_failed_output_exact (a : Args) (h : Host) (out : Bytes) (hne : out ≠ []) :
    ((a.main h).stdout = out ∧ (a.main h).status ≠ .ok (.ok ())) ↔
      a.mode = .sign ∧ ∃ req r' before n v after, ReadsRequest a h req ∧ Signs a h req r' ∧ r'.headers = before ++ (n, v) :: after ∧
        v.toStr = none ∧ FileOf { r' with headers := before, body := none } out := by
  constructor
  · rintro ⟨ho, hs⟩
    rcases C61_output_partial a h (by rw [ho]; exact hne) with h1 | ⟨hm, h1⟩
    · exact absurd h1 hs
    · refine ⟨hm, (C61_truncated_exact a h out hm).1 ?_⟩
      cases hx : a.main h with
      | mk o st => rw [hx] at ho h1; cases ho; cases h1; rfl
  · rintro ⟨hm, hx⟩
    have := (C61_truncated_exact a h out hm).2 hx
    rw [this]
    exact ⟨rfl, fun e => nomatch e⟩

end Httpsig

namespace Httpsig
section
attribute [local instance] toyDeps

/-- C99: a run that signs a request with a header that is not text, and so fails with some output. -/
example : (({ exSignArgs with inFile := some (str% "odd"), headers := some (some (str% "host")) } : Args).main exHost).stdout ≠ [] ∧
    (({ exSignArgs with inFile := some (str% "odd"), headers := some (some (str% "host")) } : Args).main exHost).status ≠ .ok (.ok ()) := by
  refine ⟨by decide +kernel, ?_⟩
  have : (({ exSignArgs with inFile := some (str% "odd"), headers := some (some (str% "host")) } : Args).main exHost).kind = 1 := by
    decide +kernel
  rw [Exit.kind_write this]
  exact fun e => nomatch e

end
end Httpsig
