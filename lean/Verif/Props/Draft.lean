import Verif.Spec.Draft
import Verif.Props.BaseExact
import Verif.Props.Authority
/-
C88: the signature base and the draft.
-/
set_option linter.unusedSectionVars false
namespace Httpsig
open Sfv
variable [Deps]

/-! ### C88 -/

theorem asciiLower_eq_iff {c : Char} : asciiLower c = c ↔ c.isUpper = false := by
  unfold asciiLower
  cases h : c.isUpper with
  | false => simp
  | true =>
    simp only [if_true, Bool.true_eq_false, iff_false]
    intro e
    have hu : 65 ≤ c.toNat ∧ c.toNat ≤ 90 := by
      unfold Char.isUpper at h
      simp only [decide_eq_true_eq] at h
      exact ⟨UInt32.le_iff_toNat_le.1 h.1, UInt32.le_iff_toNat_le.1 h.2⟩
    have := congrArg Char.toNat e
    rw [charToNat_ofNat (isValidChar_of_lt (by omega))] at this
    omega

theorem map_lower_iff {s : Str} : s.map asciiLower = s ↔ NoUpper s := by
  unfold NoUpper
  induction s with
  | nil => simp
  | cons c s ih => simp [ih, asciiLower_eq_iff]

theorem trimmed_self_iff {p : Char → Bool} {s t : Str} (h : Trimmed p s t) : s = t ↔ Trimmed p s s := by
  constructor
  · rintro rfl; exact h
  · intro h'
    rw [trimmed_iff] at h h'
    rw [← h, h']

theorem joined_ne {p : Char → Bool} {s t u : Str} (hp : p ',' = false) (h : Trimmed p s t) : s ≠ t ++ str% ", " ++ u := by
  obtain ⟨a, b, rfl, ha, hb, hh, _⟩ := h
  intro e
  cases a with
  | nil =>
    simp only [List.nil_append, List.append_assoc] at e
    have e := List.append_cancel_left e
    rw [e] at hb
    have := hb ',' (by simp)
    rw [hp] at this
    cases this
  | cons x a =>
    have hx := ha x (by simp)
    cases t with
    | nil =>
      simp only [List.append_nil, List.nil_append, List.cons_append, List.cons.injEq] at e
      rw [e.1, hp] at hx
      cases hx
    | cons c t =>
      simp only [List.cons_append, List.cons.injEq] at e
      have := hh c (by simp)
      rw [← e.1, hx] at this
      cases this

theorem FieldValue.ne_nil {w : Str} (h : FieldValue [] w) : False := nomatch h

theorem regular_derived {m : Message} {d : DerivedComponent} (h : Regular m (.derived d)) :
    d = .new (str% "@method") ∨
    (d = .new (str% "@target-uri") ∧ ∃ a, m.url.authority = some a ∧ a.userinfo = none ∧ m.url.fragment = none) ∨
    (d = .new (str% "@authority") ∧ ∃ a, m.url.authority = some a ∧ a.host ≠ [] ∧ a.port = none ∧ NoUpper a.host) ∨
    d = .new (str% "@scheme") ∨ (d = .new (str% "@path") ∧ m.url.path ≠ []) ∨
    (d = .new (str% "@query") ∧ ∃ q, m.url.query = some q) := by
  generalize hk : SignatureComponent.derived d = k at h
  cases h <;> cases hk <;> simp_all

theorem lowered_host {a : Authority} : a.host = lowered a.hostPort ↔ a.port = none ∧ NoUpper a.host := by
  rw [lowered_eq]
  constructor
  · intro h
    have hp : a.port = none := by
      apply hostPort_iff.1
      have := congrArg List.length h
      rw [List.length_map] at this
      unfold Authority.hostPort at this ⊢
      rw [List.length_append] at this
      rw [List.length_eq_zero_iff.1 (show (portText a.port).length = 0 by omega), List.append_nil]
    refine ⟨hp, map_lower_iff.1 ?_⟩
    rw [← hostPort_iff.2 hp] at h
    exact h.symm
  · rintro ⟨h1, h2⟩
    rw [← hostPort_iff.2 h1, map_lower_iff.2 h2]

theorem scheme_lower (u : Url) : lowered u.scheme = u.scheme := by
  rw [lowered_eq, map_lower_iff]
  intro c hc
  have := List.all_eq_true.1 (UrlParts.valid_scheme u.ok).2 c hc
  simp only [UrlParts.schemeChar, Char.isLower, Char.isDigit, Char.isUpper, Bool.or_eq_true, Bool.and_eq_true, decide_eq_true_eq, beq_iff_eq,
    decide_eq_false_iff_not, char_eq_iff, Char.reduceToNat, UInt32.le_iff_toNat_le, ge_iff_le] at this ⊢
  simp only [Char.reduceVal, UInt32.reduceToNat, Char.toNat] at this ⊢
  omega

/-- C88. On a request of `reqwest`, take a component to which the draft gives the value `w`. The library finds this value
exactly on regular requests: a field must have one line, without white space at the ends; the URL must have no user information
and fragment for `@target-uri`, a host without upper case and no port for `@authority`, a path for `@path`, a query for `@query`;
`@request-target` never has the value of the draft, `@method` and `@scheme` always. -/
theorem C88_values_exact (r : ReqwestRequest) (k : SignatureComponent) (w : Str) (hw : DraftValue r.message k w) :
    RequestLike.derive r k = .ok (some w) ↔ Regular r.message k := by
  cases hw with
  | @field n _ hf =>
    have hd : RequestLike.derive r (.header n) = .ok ((r.headers.getAll n).head?.bind HeaderValue.toStr) := by
      rw [← get_eq_head]; rfl
    rw [hd]
    change FieldValue (r.headers.getAll n) w at hf
    generalize hv : r.headers.getAll n = vs at hf
    have reg : Regular r.message (.header n) ↔ ∃ v s, vs = [v] ∧ v.toStr = some s ∧ Trimmed isOws s s := by
      constructor
      · intro h
        cases h with
        | field h1 h2 h3 => exact ⟨_, _, hv.symm.trans h1, h2, h3⟩
      · rintro ⟨v, s, h1, h2, h3⟩
        exact .field (hv.trans h1) h2 h3
    rw [reg]
    cases hf with
    | @one v s t h1 h2 =>
      simp only [List.head?_cons, Option.bind_some, h1, Except.ok.injEq, Option.some.injEq, trimmed_self_iff h2]
      constructor
      · intro h; exact ⟨v, s, rfl, h1, h⟩
      · rintro ⟨v', s', e, h3, h4⟩
        cases e
        rw [h1] at h3; cases h3
        exact h4
    | @more v vs s t u h1 h2 h3 =>
      simp only [List.head?_cons, Option.bind_some, h1, Except.ok.injEq, Option.some.injEq]
      constructor
      · intro h; exact absurd h (joined_ne (by rfl) h2)
      · rintro ⟨v', s', e, _⟩
        cases e
        exact h3.ne_nil.elim
  | method => exact ⟨fun _ => .method, fun _ => rfl⟩
  | @targetUri a ha =>
    refine (C80_target_uri_partial r a ha).1.trans ⟨fun h => .targetUri ha h.1 h.2, fun h => ?_⟩
    rcases regular_derived h with h | ⟨_, b, hb, h⟩ | ⟨h, _⟩ | h | ⟨h, _⟩ | ⟨h, _⟩
    · cases h
    · rw [ha] at hb; cases hb; exact h
    all_goals cases h
  | @authority a ha =>
    have hd : RequestLike.derive r (.derived (.new (str% "@authority"))) = .ok r.url.host := rfl
    have hh : r.url.host = if a.host = [] then none else some a.host := by
      unfold Url.host
      rw [show r.url.authority = some a from ha]
    rw [hd, hh]
    have reg : Regular r.message (.derived (.new (str% "@authority"))) ↔ a.host ≠ [] ∧ a.port = none ∧ NoUpper a.host := by
      refine ⟨fun h => ?_, fun h => .authority ha h.1 h.2.1 h.2.2⟩
      rcases regular_derived h with h | ⟨h, _⟩ | ⟨_, b, hb, h⟩ | h | ⟨h, _⟩ | ⟨h, _⟩
      · cases h
      · cases h
      · rw [ha] at hb; cases hb; exact h
      all_goals cases h
    rw [reg, ← lowered_host]
    by_cases h0 : a.host = []
    · simp [h0]
    · simp [h0]
  | scheme =>
    refine ⟨fun _ => .scheme, fun _ => ?_⟩
    rw [show r.message.url.scheme = r.url.scheme from rfl, scheme_lower]
    rfl
  | requestTarget =>
    constructor
    · intro h
      have h : (Except.ok (some r.url.asStr) : P (Option Str)) =
        .ok (some ((if r.url.path = [] then str% "/" else r.url.path) ++ markedText '?' r.url.query)) := h
      have e := congrArg List.length (Option.some.inj (Except.ok.inj h))
      have h0 := List.length_pos_iff.2 (UrlParts.valid_scheme r.url.ok).1
      simp only [Url.asStr, UrlParts.text, List.length_append, List.length_cons] at e
      split at e
      · simp only [List.length_cons, List.length_nil] at e
        omega
      · omega
    · intro h
      rcases regular_derived h with h | ⟨h, _⟩ | ⟨h, _⟩ | h | ⟨h, _⟩ | ⟨h, _⟩ <;> cases h
  | path =>
    have hd : RequestLike.derive r (.derived (.new (str% "@path"))) = .ok (some r.url.path) := rfl
    rw [hd]
    change (Except.ok (some r.url.path) : P (Option Str)) = .ok (some (if r.url.path = [] then str% "/" else r.url.path)) ↔ _
    have reg : Regular r.message (.derived (.new (str% "@path"))) ↔ r.url.path ≠ [] := by
      refine ⟨fun h => ?_, fun h => .path h⟩
      rcases regular_derived h with h | ⟨h, _⟩ | ⟨h, _⟩ | h | ⟨_, h⟩ | ⟨h, _⟩
      · cases h
      · cases h
      · cases h
      · cases h
      · exact h
      · cases h
    rw [reg]
    by_cases h0 : r.url.path = []
    · simp [h0]
    · simp [h0]
  | query =>
    have hd : RequestLike.derive r (.derived (.new (str% "@query"))) = .ok (r.url.query.map ('?' :: ·)) := rfl
    rw [hd]
    change (Except.ok (r.url.query.map ('?' :: ·)) : P (Option Str)) = .ok (some ('?' :: r.url.query.getD [])) ↔ _
    have reg : Regular r.message (.derived (.new (str% "@query"))) ↔ ∃ q, r.url.query = some q := by
      refine ⟨fun h => ?_, fun ⟨q, h⟩ => .query h⟩
      rcases regular_derived h with h | ⟨h, _⟩ | ⟨h, _⟩ | h | ⟨h, _⟩ | ⟨_, h⟩
      · cases h
      · cases h
      · cases h
      · cases h
      · cases h
      · exact h
    rw [reg]
    cases r.url.query with
    | none => simp
    | some q => simp


theorem FieldValue.no_newline {vs : List HeaderValue} {w : Str} (h : FieldValue vs w) : '\n' ∉ w := by
  have trim : ∀ {v : HeaderValue} {s t : Str}, v.toStr = some s → Trimmed isOws s t → '\n' ∉ t := by
    intro v s t h1 h2 hm
    obtain ⟨a, b, rfl, -⟩ := h2
    exact toStr_no_newline h1 (by simp [hm])
  induction h with
  | one h1 h2 => exact trim h1 h2
  | more h1 h2 _ ih => simp [trim h1 h2, ih]

theorem DraftValue.no_newline {r : ReqwestRequest} {k : SignatureComponent} {w : Str} (h : DraftValue r.message k w) : '\n' ∉ w := by
  obtain ⟨_, hs, _, hp, hq⟩ := r.url.no_newline
  have ha : ∀ a, r.url.authority = some a → '\n' ∉ a.hostPort := by
    intro a ha hm
    have hm : '\n' ∈ r.url.authorityText := by
      unfold UrlParts.authorityText
      rw [ha]
      simp only [Authority.text]
      rw [List.append_assoc (userinfoText _)]
      exact List.mem_append_right _ (List.mem_append_right _ hm)
    rcases UrlParts.authorityText_chars r.url.ok hm with h | h | h <;> revert h <;> decide
  have hqt : '\n' ∉ markedText '?' r.url.query := by
    cases h : r.url.query with
    | none => simp [markedText]
    | some q => simp [markedText, hq q h]
  cases h with
  | field h => exact h.no_newline
  | method => exact method_no_newline _
  | targetUri h =>
    change '\n' ∉ r.url.targetUri _
    simp [UrlParts.targetUri, UrlParts.originForm, hs, ha _ h, hp, hqt]
  | authority h =>
    intro hm
    rw [lowered_eq] at hm
    obtain ⟨c, hc, he⟩ := List.mem_map.1 hm
    refine ha _ h ?_
    have : c = '\n' := by
      cases hu : c.isUpper with
      | false => rw [asciiLower_eq_iff.2 hu] at he; exact he
      | true =>
        unfold asciiLower at he
        rw [if_pos hu] at he
        unfold Char.isUpper at hu
        simp only [decide_eq_true_eq] at hu
        have h1 := UInt32.le_iff_toNat_le.1 hu.1
        have h2 := UInt32.le_iff_toNat_le.1 hu.2
        have h1 : 65 ≤ c.toNat := h1
        have h2 : c.toNat ≤ 90 := h2
        have := congrArg Char.toNat he
        rw [charToNat_ofNat (isValidChar_of_lt (by omega))] at this
        simp only [Char.reduceToNat] at this
        omega
    rwa [← this]
  | scheme =>
    change '\n' ∉ lowered r.url.scheme
    rw [scheme_lower]; exact hs
  | requestTarget =>
    change '\n' ∉ (if r.url.path = [] then str% "/" else r.url.path) ++ markedText '?' r.url.query
    split <;> simp [hp, hqt]
  | path =>
    change '\n' ∉ (if r.url.path = [] then str% "/" else r.url.path)
    split <;> simp [hp]
  | query =>
    change '\n' ∉ '?' :: r.url.query.getD []
    cases h : r.url.query with
    | none => simp
    | some q => simp [hq q h]

theorem Regular.value {m : Message} {k : SignatureComponent} (h : Regular m k) : ∃ w, DraftValue m k w := by
  cases h with
  | field h1 h2 h3 => exact ⟨_, .field (by rw [h1]; exact .one h2 h3)⟩
  | method => exact ⟨_, .method⟩
  | targetUri h => exact ⟨_, .targetUri h⟩
  | authority h => exact ⟨_, .authority h⟩
  | scheme => exact ⟨_, .scheme⟩
  | path => exact ⟨_, .path⟩
  | query => exact ⟨_, .query⟩

theorem DraftValue.not_params {m : Message} {k : SignatureComponent} {w : Str} (h : DraftValue m k w) :
    ∀ d, k = .derived d → d.item.bare ≠ .string atQueryParams := by
  rintro d rfl
  generalize hk : SignatureComponent.derived d = k at h
  cases h <;> cases hk <;> exact (fun e => nomatch e)

theorem draft_values {r : ReqwestRequest} : ∀ {ks : List SignatureComponent} {vals : List Str}, Forall2 (DraftValue r.message) ks vals →
    (Values r ks vals ↔ ∀ k ∈ ks, Regular r.message k)
  | [], [], .nil => by simp [Values.nil_iff]
  | k :: ks, w :: ws, .cons h1 h2 => by
    rw [Values.cons_iff]
    simp only [List.mem_cons, forall_eq_or_imp, ← C88_values_exact r k w h1, ← draft_values h2, List.cons.injEq]
    constructor
    · rintro ⟨v, vs, ⟨rfl, rfl⟩, h3, h4⟩; exact ⟨h3, h4⟩
    · rintro ⟨h3, h4⟩; exact ⟨w, ws, ⟨rfl, rfl⟩, h3, h4⟩

theorem regular_values {r : ReqwestRequest} : ∀ {ks : List SignatureComponent}, (∀ k ∈ ks, Regular r.message k) →
    ∃ vals, Forall2 (DraftValue r.message) ks vals
  | [], _ => ⟨[], .nil⟩
  | k :: ks, h => by
    obtain ⟨w, hw⟩ := (h k (by simp)).value
    obtain ⟨ws, hws⟩ := regular_values (ks := ks) (fun j hj => h j (by simp [hj]))
    exact ⟨w :: ws, .cons hw hws⟩

theorem forall2_no_newline {r : ReqwestRequest} {ks : List SignatureComponent} {vals : List Str}
    (h : Forall2 (DraftValue r.message) ks vals) : ∀ v ∈ vals, '\n' ∉ v := by
  intro v hv
  obtain ⟨n, hn⟩ := List.mem_iff_getElem?.1 hv
  obtain ⟨k, _, hk⟩ := h.getElem hn
  exact hk.no_newline


/-- C88. Let the draft give a signature base to a request of `reqwest`, a list of components and parameters. The library computes
this base exactly if the request is regular for all of the components. -/
theorem C88_base_exact (r : ReqwestRequest) (c : CanonicalizeConfig) (base : Str)
    (hb : DraftBase r.message c.components c.params.params base) :
    (∃ si, canonicalize r c = .ok (.ok (utf8 base, si))) ↔ ∀ k ∈ c.components, Regular r.message k := by
  obtain ⟨_, vals, ids, ps, hv, hi, hl, hp, rfl⟩ := hb
  rw [← draft_values hv]
  constructor
  · rintro ⟨si, h⟩
    obtain ⟨v1, i1, l1, p1, a1, b1, c1, d1, e1, -⟩ := canonicalize_ok_iff.1 h
    have e2 : ids = i1 := forall2_det (r := Ident) (fun _ _ _ a b => a.det b) hi b1
    have e3 : ids = l1 := forall2_det (r := ListIdent) (fun _ _ _ a b => a.det b) hl c1
    subst e2
    rw [← e3] at e1
    have d1 := hp.det d1
    cases d1
    have he := utf8_injective e1
    unfold specBase at he
    rw [List.append_assoc, List.append_assoc, List.append_assoc, List.append_assoc] at he
    have hone : ∀ i ∈ ids, '\n' ∉ i := by
      intro i h
      obtain ⟨n, hn⟩ := List.mem_iff_getElem?.1 h
      obtain ⟨k, _, hk⟩ := hi.getElem hn
      exact ident_one_line hk
    have hd := forall2_no_newline hv
    have hlib : ∀ v ∈ v1, '\n' ∉ v := by
      intro v h
      obtain ⟨n, hn⟩ := List.mem_iff_getElem?.1 h
      have hn' := congrArg (fun l => l[n]?) a1
      simp only [List.getElem?_map, hn, Option.map_some] at hn'
      obtain ⟨k, hk, hk'⟩ := Option.map_eq_some_iff.1 hn'
      obtain ⟨w, hw⟩ := forall2_left hv k (List.mem_of_getElem? hk)
      exact reqwestDerive_no_newline hw.not_params hk'
    have := specLines_values_inj (by rw [← hv.length_eq, hi.length_eq]) (by rw [a1.length, hi.length_eq]) hone
      (fun i j _ => .inl ⟨fun v h => hd v (List.mem_of_getElem? h), fun v h => hlib v (List.mem_of_getElem? h)⟩)
      (List.append_cancel_right he)
    rw [this]; exact a1
  · intro h
    exact ⟨_, canonicalize_ok_iff.2 ⟨vals, ids, ids, ps, h, hi, hl, hp, rfl, rfl⟩⟩

/-- C88, the other way: a base computed by the library is the base of the draft exactly if no component is listed twice and the
request is regular for all of them. (Only header names without double quotes are listed, as in HTTP.) -/
theorem C88_computed_exact (r : ReqwestRequest) (c : CanonicalizeConfig) (base : Str) (si : SignatureInput)
    (hq : ∀ h, .header h ∈ c.components → '"' ∉ h.str) (h : canonicalize r c = .ok (.ok (utf8 base, si))) :
    DraftBase r.message c.components c.params.params base ↔ c.components.Nodup ∧ ∀ k ∈ c.components, Regular r.message k := by
  constructor
  · intro hb
    exact ⟨hb.1, (C88_base_exact r c base hb).1 ⟨si, h⟩⟩
  · rintro ⟨hn, hr⟩
    obtain ⟨vals, hv⟩ := regular_values hr
    obtain ⟨v1, i1, l1, p1, a1, b1, c1, d1, e1, -⟩ := canonicalize_ok_iff.1 h
    have hl : i1 = l1 := forall2_det (r := Ident) (fun _ _ _ a b => a.det b) b1
      (forall2_mono c1 fun k hk s hs => (listIdent_of_ident (fun n e => hq n (e ▸ hk))).1 hs)
    subst hl
    have : v1 = vals := (List.map_inj_right (fun _ _ h => Option.some.inj (Except.ok.inj h))).1
      (Eq.trans (Eq.symm a1) ((draft_values hv).2 hr))
    subst this
    exact ⟨hn, v1, i1, p1, hv, b1, c1, d1, utf8_injective e1⟩

/-- C88 for blocking requests: they have the bases of asynchronous requests with the same method, URL and headers. -/
theorem C88_blocking (r : BlockingRequest) (body : AsyncBody) (c : CanonicalizeConfig) :
    canonicalize r c = canonicalize (⟨r.method, r.url, r.headers, body⟩ : ReqwestRequest) c := canonicalize_congr fun _ _ => rfl

/-- C88, negative. The library signs a list with a component twice, on every request; the draft has no base for such a list. -/
theorem C88_neg_duplicates (r : ReqwestRequest) (params : SignatureParams) : ∃ c : CanonicalizeConfig, c.params = params ∧
    (∀ ps, ParamsText params.params ps → ∃ base si, canonicalize r c = .ok (.ok (base, si))) ∧
    ∀ ps base, ¬ DraftBase r.message c.components ps base := by
  refine ⟨⟨none, [.derived (.new (str% "@method")), .derived (.new (str% "@method"))], params⟩, rfl, fun ps hps => ?_, ?_⟩
  · exact ⟨_, _, canonicalize_ok_iff.2 ⟨[r.method.str, r.method.str], [str% "\"@method\"", str% "\"@method\""],
      [str% "\"@method\"", str% "\"@method\""], ps, rfl, .cons (ident_derived_iff.2 rfl) (.cons (ident_derived_iff.2 rfl) .nil),
      .cons (listIdent_iff.2 rfl) (.cons (listIdent_iff.2 rfl) .nil), hps, rfl, rfl⟩⟩
  · rintro ps base ⟨h, _⟩
    exact absurd h (by simp)

/-- C88, negative. `@request-target` is always signed with another value than that of the draft. -/
theorem C88_neg_request_target (r : ReqwestRequest) : ∃ v w, v ≠ w ∧
    RequestLike.derive r (.derived (.new (str% "@request-target"))) = .ok (some v) ∧
    DraftValue r.message (.derived (.new (str% "@request-target"))) w := by
  refine ⟨r.url.asStr, _, fun e => ?_, rfl, .requestTarget⟩
  have := (C88_values_exact r _ _ .requestTarget).1 (congrArg (fun v => Except.ok (some v)) e)
  rcases regular_derived this with h | ⟨h, _⟩ | ⟨h, _⟩ | h | ⟨h, _⟩ | ⟨h, _⟩ <;> cases h

/-- C88, negative. Without a query the library has no value for `@query`, and so signs no list with it; the draft has the value `?`. -/
theorem C88_neg_query_absent (r : ReqwestRequest) (h : r.url.query = none) :
    DraftValue r.message (.derived (.new (str% "@query"))) (str% "?") ∧
    ∀ c : CanonicalizeConfig, .derived (.new (str% "@query")) ∈ c.components → ∀ base si, canonicalize r c ≠ .ok (.ok (base, si)) := by
  constructor
  · have := DraftValue.query (m := r.message)
    rw [show r.message.url.query = none from h] at this
    exact this
  · intro c hc base si hcan
    obtain ⟨vals, _, _, _, hv, _⟩ := canonicalize_ok_iff.1 hcan
    obtain ⟨i, hi⟩ := List.mem_iff_getElem?.1 hc
    obtain ⟨v, _, hd⟩ := hv.at hi
    have hd : (Except.ok (r.url.query.map ('?' :: ·)) : P (Option Str)) = .ok (some v) := hd
    rw [h] at hd
    cases hd

/-! ### Examples -/

/-- A regular request and list of components. -/
theorem exReqwest_regular : ∀ k ∈ [SignatureComponent.derived (.new (str% "@method")), .derived (.new (str% "@authority")),
    .derived (.new (str% "@path")), .derived (.new (str% "@query")), .derived (.new (str% "@target-uri")), .header hHost],
    Regular exReqwest.message k := by
  intro k hk
  simp only [List.mem_cons, List.not_mem_nil, or_false] at hk
  rcases hk with rfl | rfl | rfl | rfl | rfl | rfl
  · exact .method
  · exact .authority (a := { host := str% "example.com" }) rfl (by simp) rfl (by unfold NoUpper; decide)
  · exact .path (by intro h; cases h)
  · exact .query rfl
  · exact .targetUri (a := { host := str% "example.com" }) rfl rfl rfl
  · exact .field (v := ⟨utf8 (str% "example.com"), rfl⟩) (s := str% "example.com") rfl rfl (trimmed_iff.2 rfl)

/-- The base of the draft for it, computed by the library. -/
example : ∃ si, canonicalize exReqwest ⟨none, [.derived (.new (str% "@method")), .derived (.new (str% "@authority")),
      .derived (.new (str% "@path")), .derived (.new (str% "@query")), .header hHost], ⟨[(str% "created", .integer 5)]⟩⟩ =
    .ok (.ok (utf8 (str% "\"@method\": POST\n\"@authority\": example.com\n\"@path\": /foo\n\"@query\": ?param=value&pet=dog\n\"host\": example.com\n\"@signature-params\": (\"@method\" \"@authority\" \"@path\" \"@query\" \"host\");created=5"), si)) :=
  ⟨_, rfl⟩
example : ∃ base, DraftBase exReqwest.message [.derived (.new (str% "@method")), .header hHost] [] base :=
  ⟨_, ((C88_computed_exact exReqwest ⟨none, [.derived (.new (str% "@method")), .header hHost], ⟨[]⟩⟩
    (str% "\"@method\": POST\n\"host\": example.com\n\"@signature-params\": (\"@method\" \"host\")") _
    (by
      intro n hn
      simp only [List.mem_cons, List.not_mem_nil, or_false, reduceCtorEq, false_or, SignatureComponent.header.injEq] at hn
      subst hn
      show '"' ∉ str% "host"
      decide) rfl).2 ⟨by simp, fun k hk => exReqwest_regular k (by
      simp only [List.mem_cons, List.not_mem_nil, or_false] at hk ⊢
      rcases hk with rfl | rfl <;> simp)⟩)⟩

/-- Two lines, and white space at the ends: values of the draft that the library does not find. -/
example : DraftValue (⟨exPost, exUrl.toUrlParts, [(hHost, ⟨utf8 (str% " a "), rfl⟩), (hHost, ⟨utf8 (str% "b"), rfl⟩)]⟩ : Message) (.header hHost) (str% "a, b") ∧
    RequestLike.derive (⟨exPost, exUrl, [(hHost, ⟨utf8 (str% " a "), rfl⟩), (hHost, ⟨utf8 (str% "b"), rfl⟩)], .absent⟩ : ReqwestRequest)
      (.header hHost) = .ok (some (str% " a ")) :=
  ⟨.field (.more (v := ⟨utf8 (str% " a "), rfl⟩) (s := str% " a ") (t := str% "a") rfl (trimmed_iff.2 rfl)
    (.one (v := ⟨utf8 (str% "b"), rfl⟩) (s := str% "b") rfl (trimmed_iff.2 rfl))), rfl⟩

end Httpsig
