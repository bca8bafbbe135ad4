import Verif.Spec.Wire
import Verif.Props.Authority
import Verif.Props.RequestFile
import Verif.Props.Delivery
/-
C81: signed requests that travel as HTTP/1.1 messages and are read by the validator.
-/
set_option linter.unusedSectionVars false
namespace Httpsig
open Sfv
variable [Deps]

/-! ### Reading a message -/

theorem LineEnd.split {eol : Str} (h : LineEnd eol) : ∃ cr, eol = cr ++ ['\n'] ∧ (cr = [] ∨ cr = ['\r']) := by
  rcases h with rfl | rfl
  · exact ⟨['\r'], rfl, .inr rfl⟩
  · exact ⟨[], rfl, .inl rfl⟩

theorem utf8_line (l : Str) (rest : Bytes) : utf8 (l ++ ['\n']) ++ rest = utf8 l ++ 10 :: rest := by
  rw [utf8_append, List.append_assoc]; rfl

theorem headerName_chars {n : HeaderName} {c : Char} (h : c ∈ n.str) : c ≠ '\n' ∧ c ≠ ':' ∧ whiteSpace c = false := by
  have := headerNameChar_plain (n.char_ok c h)
  exact ⟨this.2.2, this.2.1, isRustWhitespace_eq ▸ this.1⟩

theorem headerName_lower (n : HeaderName) : n.str = lowered n.str := by
  rw [lowered_eq]
  have := n.fromStr_str'
  unfold HeaderName.fromStr at this
  split at this
  · exact (congrArg HeaderName.str (Option.some.inj this)).symm
  · cases this

theorem headerValue_no_newline {v : HeaderValue} {s : Str} (h : v.bytes = utf8 s) : '\n' ∉ s := by
  intro hm
  obtain ⟨a, b, rfl⟩ := List.append_of_mem hm
  have := List.all_eq_true.1 v.ok 10 (by rw [h, utf8_newline]; simp)
  revert this
  decide

theorem wire_headers {cr : Str} (hcr : cr = [] ∨ cr = ['\r']) (body : Bytes) : ∀ (hs : HeaderMap),
    (∀ e ∈ hs, ∃ s, e.2.bytes = utf8 s ∧ Trimmed whiteSpace s s) →
    HeaderBlock (wireHeaders (cr ++ ['\n']) hs ++ (utf8 (cr ++ ['\n']) ++ body)) hs (some body)
  | [], _ => by
    have hn : '\n' ∉ cr := by rcases hcr with rfl | rfl <;> decide
    refine .blank (l := cr) ?_ ?_ ?_
    · simp [wireHeaders, utf8_line]
    · rw [wireHeaders, List.nil_append, utf8_line]
      exact .full hn
    · rcases hcr with rfl | rfl
      · simp
      · decide
  | (n, v) :: hs, h => by
    obtain ⟨s, hs1, a, b, e, h1, h2, h3, h4⟩ := h (n, v) (by simp)
    have ih := wire_headers hcr body hs fun e he => h e (by simp [he])
    have hn : '\n' ∉ cr := by rcases hcr with rfl | rfl <;> decide
    have hvn := headerValue_no_newline hs1
    have hl : wireHeaders (cr ++ ['\n']) ((n, v) :: hs) ++ (utf8 (cr ++ ['\n']) ++ body) =
        utf8 (n.str ++ ':' :: (' ' :: s ++ cr)) ++ 10 :: (wireHeaders (cr ++ ['\n']) hs ++ (utf8 (cr ++ ['\n']) ++ body)) := by
      show utf8 (n.str ++ str% ": ") ++ v.bytes ++ utf8 (cr ++ ['\n']) ++ wireHeaders (cr ++ ['\n']) hs ++ _ = _
      rw [hs1, ← utf8_line]
      simp only [utf8_append, List.append_assoc]
      simp [utf8]
    rw [hl]
    refine .header (.full ?_) (fun hm => (headerName_chars hm).2.1 rfl)
      (trimmed_self fun c hc => (headerName_chars hc).2.2) (v' := s) ?_ ?_ hs1 ih
    · simp only [List.mem_append, List.mem_cons, not_or]
      exact ⟨fun hm => (headerName_chars hm).1 rfl, by decide, ⟨by decide, hvn⟩, hn⟩
    · refine ⟨[' '], cr, rfl, by decide, ?_, h3, h4⟩
      rcases hcr with rfl | rfl
      · simp
      · decide
    · exact headerName_lower n

theorem lastValues_self {hs : HeaderMap} (h : (hs.map Prod.fst).Nodup) : LastValues hs hs := by
  have key : ∀ (lines pre : HeaderMap), ((pre ++ lines).map Prod.fst).Nodup →
      lines.foldl (fun (m : HeaderMap) e => m.insert e.1 e.2) pre = pre ++ lines := by
    intro lines
    induction lines with
    | nil => intro pre _; simp
    | cons e lines ih =>
      intro pre h
      rw [List.foldl_cons, HeaderMap.insert_new, ih]
      · simp
      · simpa using h
      · rw [List.map_append, List.nodup_append] at h
        exact fun hm => h.2.2 _ hm e.1 (by simp) rfl
  rw [lastValues_iff, key hs [] (by simpa using h)]
  rfl

theorem originForm_chars (u : Url) (hp : ' ' ∉ u.path) : ∀ c ∈ u.originForm, ¬ Blank c := by
  intro c hc
  have hpr : UrlParts.graphic c = true := by
    rcases List.mem_append.1 hc with hc | hc
    · have := List.all_eq_true.1 (UrlParts.valid_path u.ok) c hc
      have hne : c ≠ ' ' := fun e => hp (e ▸ hc)
      simp only [UrlParts.pathChar, UrlParts.printable, UrlParts.graphic, Bool.and_eq_true, decide_eq_true_eq, bne_iff_ne, ne_eq,
        char_eq_iff, Char.reduceToNat] at this hne ⊢
      omega
    · cases hq : u.query with
      | none => rw [hq] at hc; cases hc
      | some q =>
        rw [hq] at hc
        rcases List.mem_cons.1 hc with rfl | hc
        · decide
        · have := List.all_eq_true.1 (UrlParts.valid_query u.ok hq) c hc
          simp only [UrlParts.queryChar, Bool.and_eq_true] at this
          exact this.1
  simp only [UrlParts.graphic, Bool.and_eq_true, decide_eq_true_eq] at hpr
  unfold Blank
  simp only [List.mem_cons, List.not_mem_nil, or_false, char_eq_iff, Char.reduceToNat]
  omega

theorem method_chars (m : Method) : m.str ≠ [] ∧ ∀ c ∈ m.str, ¬ Blank c := by
  have := m.ok
  simp only [Bool.and_eq_true, List.all_eq_true, Bool.not_eq_true', List.isEmpty_eq_false_iff] at this
  refine ⟨this.1, fun c hc => ?_⟩
  have h := (tchar_plain (this.2 c hc)).2.1
  unfold isAsciiWs at h
  simp only [Bool.or_eq_false_iff, beq_eq_false_iff_ne] at h
  unfold Blank
  simp only [List.mem_cons, List.not_mem_nil, or_false, not_or]
  exact ⟨h.1.1.1.1, h.1.1.1.2, h.1.1.2, h.1.2, h.2⟩

theorem words_first {m p v cr : Str} (hm : m ≠ [] ∧ ∀ c ∈ m, ¬ Blank c) (hp : p ≠ [] ∧ ∀ c ∈ p, ¬ Blank c)
    (hv : v ≠ [] ∧ ∀ c ∈ v, ¬ Blank c) (hcr : cr = [] ∨ cr = ['\r']) : Words (m ++ str% " " ++ p ++ str% " " ++ v ++ cr) [m, p, v] := by
  have h3 : Words (str% " " ++ v ++ cr) [v] := by
    refine .cons (by unfold Blank; decide) hv.1 hv.2 ?_ (.nil ?_)
    · rcases hcr with rfl | rfl <;> unfold Blank <;> decide
    · rcases hcr with rfl | rfl <;> unfold Blank <;> decide
  have h2 : Words (str% " " ++ p ++ (str% " " ++ v ++ cr)) [p, v] :=
    .cons (by unfold Blank; decide) hp.1 hp.2 (by unfold Blank; simp) h3
  have h1 := Words.cons (a := []) (w := m) (rest := str% " " ++ p ++ (str% " " ++ v ++ cr)) (by simp) hm.1 hm.2
    (by unfold Blank; simp) h2
  simpa [List.append_assoc] using h1

theorem seen_text {u : Url} {a : Authority} (ha : u.authority = some a) (port : Bool) :
    (u.seen port).asStr = str% "http://" ++ (if port then a.hostPort else a.host) ++ u.originForm := by
  rw [Url.asStr_parts (u.seen port) { host := a.host, port := if port then a.port else none } (by simp [Url.seen, ha])]
  cases port <;> simp [Url.seen, Authority.hostPort, userinfoText, markedText, UrlParts.originForm, portText]

/-- The validator reads a message as the request that it describes. -/
theorem wire_read {eol : Str} (heol : LineEnd eol) {u : Url} {sent : HeaderMap} {port : Bool} (hw : OnWire u sent port)
    (honce : (sent.map Prod.fst).Nodup) (htext : ∀ e ∈ sent, ∃ s, e.2.bytes = utf8 s ∧ Trimmed whiteSpace s s)
    (m : Method) (body : Bytes) (trace : Bool) (htr : trace = true → ∃ s, utf8 s = body) :
    MockRequest.fromReader (wireText eol m u.toUrlParts sent body) trace =
      .ok (some (served .http11 u.originForm m (u.seen port) sent (some body))) := by
  obtain ⟨cr, rfl, hcr⟩ := heol.split
  have hn : '\n' ∉ cr := by rcases hcr with rfl | rfl <;> decide
  obtain ⟨a, v, ha, hv, hvs⟩ := hw.host
  have hov := originForm_chars u hw.path.2
  refine (C60_reads_exactly _ _ _).2 ⟨⟨⟨m.str ++ str% " " ++ u.originForm ++ str% " " ++ str% "HTTP/1.1" ++ cr,
    wireHeaders (cr ++ ['\n']) sent ++ (utf8 (cr ++ ['\n']) ++ body), [], sent, ?_,
    words_first (method_chars m) ⟨?_, hov⟩ ⟨by decide, by unfold Blank; decide⟩ hcr,
    wire_headers hcr body sent htext, lastValues_self honce⟩, ?_⟩, ?_⟩
  · have : wireText (cr ++ ['\n']) m u.toUrlParts sent body =
        utf8 (m.str ++ str% " " ++ u.originForm ++ str% " " ++ str% "HTTP/1.1" ++ cr) ++ 10 ::
          (wireHeaders (cr ++ ['\n']) sent ++ (utf8 (cr ++ ['\n']) ++ body)) := by
      rw [← utf8_line]
      unfold wireText
      simp [List.append_assoc]
    rw [this]
    refine .full ?_
    intro hm
    simp only [List.mem_append] at hm
    rcases hm with ((((h | h) | h) | h) | h) | h
    · exact method_no_newline m h
    · revert h; decide
    · exact hov _ h (by unfold Blank; decide)
    · revert h; decide
    · revert h; decide
    · exact hn h
  · unfold UrlParts.originForm
    have := hw.path.1
    simp [this]
  · refine .inr ⟨hw.relative, v, _, ?_, hvs, ?_⟩
    · rw [← HeaderMap.get_eq_head_getAll]; exact hv
    · show Deps.parseUrl (str% "http://" ++ (if port then a.hostPort else a.host) ++ u.originForm) = _
      rw [← seen_text ha]
      exact hw.parse
  · intro ht b hb
    cases hb
    exact htr ht

/-! ### What the server sees -/

theorem sent_header {hs sent : HeaderMap} (h : SentHeaders hs sent) {n : HeaderName} {x : Str} (hx : reqwestHeader hs n = some x) :
    (sent.get n).map (fun v => v.toStr.getD []) = some x := by
  simp only [reqwestHeader, Option.bind_eq_some_iff] at hx
  obtain ⟨w, h1, h2⟩ := hx
  have : sent.getAll n = hs.getAll n := by
    by_cases hn : n = hHost
    · subst hn
      refine h.same _ (.inr fun e => ?_)
      rw [HeaderMap.get_eq_head_getAll, e] at h1
      cases h1
    · exact h.same _ (.inl hn)
  rw [HeaderMap.get_eq_head_getAll, this, ← HeaderMap.get_eq_head_getAll, h1]
  simp [h2]

/-- Every component except `@authority` has a value at the server; only the whole URL and the scheme can have changed. -/
theorem seen_cases {m : Method} {u : Url} {hs sent : HeaderMap} (hsent : SentHeaders hs sent) (port : Bool) (path : Str)
    (b : Option Bytes) {k : SignatureComponent} {x : Str} (hk : NotAuthority k) (h : reqwestDerive m u hs k = .ok (some x)) :
    ∃ y, (∀ k', ComponentSame k k' → (served .http11 path m (u.seen port) sent b).derive k' = .ok (some y)) ∧
      (y = x ∧ ¬ WholeUrl k ∧ ¬ Named (str% "@scheme") k ∨ WholeUrl k ∧ x = u.asStr ∧ y = (u.seen port).asStr ∨
        Named (str% "@scheme") k ∧ x = u.scheme ∧ y = str% "http") := by
  cases k with
  | header n =>
    refine ⟨x, fun k' hk' => ?_, .inl ⟨rfl, ?_, id⟩⟩
    · rw [← mock_derive_same _ hk']
      have := sent_header hsent (Except.ok.inj h)
      show Except.ok ((sent.get n).map fun v => v.toStr.getD []) = _
      rw [this]
    · rintro (h | h) <;> exact h
  | derived d =>
    have h : d.derive u.host m u = .ok (some x) := h
    rw [derive_no_host hk] at h
    unfold DerivedComponent.derive DerivedComponent.name at h
    cases hn : d.item.bare.asStr with
    | none => rw [hn] at h; cases h
    | some nm =>
      rw [hn] at h
      have h : d.deriveNamed nm none m u = some x := Except.ok.inj h
      have hv : ∀ y, d.deriveNamed nm none m (u.seen port) = some y →
          ∀ k', ComponentSame (.derived d) k' → (served .http11 path m (u.seen port) sent b).derive k' = .ok (some y) := by
        intro y hy k' hk'
        rw [← mock_derive_same _ hk']
        show d.derive none m (u.seen port) = _
        unfold DerivedComponent.derive DerivedComponent.name
        rw [hn]
        exact congrArg Except.ok hy
      have name : ∀ n, Named n (.derived d) ↔ nm = n := by
        intro n
        show d.item.bare = .string n ↔ _
        rw [← asStr_iff]
        rw [hn]
        simp
      by_cases h1 : nm = str% "@target-uri"
      · subst h1
        refine ⟨_, hv _ rfl, .inr (.inl ⟨.inl ((name _).2 rfl), (Option.some.inj h).symm, rfl⟩)⟩
      · by_cases h2 : nm = str% "@request-target"
        · subst h2
          refine ⟨_, hv _ rfl, .inr (.inl ⟨.inr ((name _).2 rfl), (Option.some.inj h).symm, rfl⟩)⟩
        · by_cases h3 : nm = str% "@scheme"
          · subst h3
            exact ⟨_, hv _ rfl, .inr (.inr ⟨(name _).2 rfl, (Option.some.inj h).symm, rfl⟩)⟩
          · refine ⟨x, hv x ?_, .inl ⟨rfl, ?_, fun e => h3 ((name _).1 e)⟩⟩
            · rw [← h]
              have h1 : nm ≠ atTargetUri := h1
              have h2 : nm ≠ atRequestTarget := h2
              have h3 : nm ≠ atScheme := h3
              simp only [DerivedComponent.deriveNamed, h1, h2, h3, if_false, Url.queryPairs]
              rfl
            · rintro (e | e)
              · exact h1 ((name _).1 e)
              · exact h2 ((name _).1 e)

/-- A URL of the web whose text does not get shorter on the way is the same at the server. -/
theorem seen_eq {u : Url} {a : Authority} (ha : u.authority = some a) (hs : u.scheme = str% "http" ∨ u.scheme = str% "https")
    (port : Bool) : (u.seen port).asStr.length ≤ u.asStr.length ∧ ((u.seen port).asStr.length = u.asStr.length → u.seen port = u) := by
  have hl : (u.seen port).asStr.length = 7 + a.host.length + (if port then (portText a.port).length else 0) + u.originForm.length := by
    rw [seen_text ha]
    cases port <;> simp [Authority.hostPort] <;> omega
  have hu : u.asStr.length = u.scheme.length + 3 + (userinfoText a.userinfo).length + a.host.length + (portText a.port).length +
      u.originForm.length + (markedText '#' u.fragment).length := by
    rw [Url.asStr_parts u a ha]
    simp [Authority.hostPort]
    omega
  have h4 : 4 ≤ u.scheme.length := by rcases hs with h | h <;> rw [h] <;> decide
  refine ⟨?_, fun e => ?_⟩
  · rw [hl, hu]; split <;> omega
  · rw [hl, hu] at e
    have e1 : u.scheme.length = 4 := by split at e <;> omega
    have e2 : userinfoText a.userinfo = [] := List.length_eq_zero_iff.1 (by split at e <;> omega)
    have e3 : markedText '#' u.fragment = [] := List.length_eq_zero_iff.1 (by split at e <;> omega)
    have e4 : (if port then a.port else none) = a.port := by
      cases port
      · exact (portText_nil (List.length_eq_zero_iff.1 (by simp at e; omega))).symm
      · rfl
    have e5 : u.scheme = str% "http" := by
      rcases hs with h | h
      · exact h
      · rw [h] at e1; cases e1
    have e6 := userinfoText_nil e2
    have e7 := markedText_nil e3
    have : (u.seen port).toUrlParts = u.toUrlParts := by
      show UrlParts.mk _ _ _ _ _ = _
      rw [ha]
      simp only [Option.map_some, e4]
      obtain ⟨⟨sc, au, pa, qu, fr⟩, ok⟩ := u
      obtain ⟨ui, ho, po⟩ := a
      simp only at ha e5 e6 e7
      subst ha e5 e6 e7
      rfl
    obtain ⟨p, ok⟩ := u
    have this : (Url.seen ⟨p, ok⟩ port).toUrlParts = p := this
    generalize Url.seen ⟨p, ok⟩ port = w at this
    obtain ⟨p', ok'⟩ := w
    subst this
    rfl

theorem specLines_length_le : ∀ {ids vals vals' : List Str}, ids.length = vals.length → vals'.length = vals.length →
    (∀ (i : Nat) (x y : Str), vals[i]? = some x → vals'[i]? = some y → y.length ≤ x.length) →
    (specLines ids vals').length ≤ (specLines ids vals).length ∧
      ((specLines ids vals').length = (specLines ids vals).length → ∀ (i : Nat) (x y : Str), vals[i]? = some x → vals'[i]? = some y → y.length = x.length)
  | [], [], [], _, _, _ => by simp
  | i :: is, v :: vs, w :: ws, h1, h2, h => by
    obtain ⟨ih1, ih2⟩ := specLines_length_le (ids := is) (vals := vs) (vals' := ws) (by simpa using h1) (by simpa using h2)
      fun j x y hx hy => h (j + 1) x y (by simpa using hx) (by simpa using hy)
    have h0 := h 0 v w rfl rfl
    constructor
    · simp only [specLines, List.length_append, List.length_cons]; omega
    · intro e j x y hx hy
      simp only [specLines, List.length_append, List.length_cons] at e
      cases j with
      | zero => cases hx; cases hy; omega
      | succ j => exact ih2 (by omega) j x y (by simpa using hx) (by simpa using hy)

/-! ### C81 -/

/-- C81, exactly. A `reqwest` request with a body in memory, signed with a MAC key and the automatic digest, is sent as an
HTTP/1.1 message and read by the validator, which has the key and does not validate dates. The message can be read. It is
accepted exactly within the created/expires window if the tag of the signed base also fits the base computed by the server; and
the two bases are the same exactly when each of `@target-uri` and `@request-target` is only covered if the URL is the one that
the server derives, and `@scheme` only if the scheme is `http`. (The last "only" is for URLs of schemes `http` and `https`.) -/
theorem C81_exact (r r' : ReqwestRequest) (config : SigningConfig) (env : SignEnv) (sk : HttpSignatureVerify)
    (h : sign r config env = .ok (r', .ok ())) (hd : Deliverable config) (hm : MacPair config.signature sk)
    (hcd : config.computeDigest = true) (hsd : StandardDigest config.digest) (hno : r.headers.getAll hDigest = [])
    (b : Bytes) (hb : r.body = .bytes b) (sent : HeaderMap) (hsent : SentHeaders r'.headers sent) (port : Bool)
    (hw : OnWire r.url sent port) (eol : Str) (heol : LineEnd eol) (trace : Bool) (htr : trace = true → ∃ s, utf8 s = b) :
    ∃ req base base' v c si, MockRequest.fromReader (wireText eol r.method r.url.toUrlParts sent b) trace = .ok (some req) ∧
      SignedBase r r' config (env.sysNow / 1000000000) base ∧
      req.derive (.header hSignatureInput) = .ok (some v) ∧ CanonicalizeConfig.fromSignatureInput v = .ok (.ok c) ∧
      canonicalize req c = .ok (.ok (base', si)) ∧
      (∀ venv : VerifyEnv, 0 ≤ venv.sysNow → (verify req (plainVerifier config.keyId sk) venv = .ok (.ok ((), config.keyId)) ↔
        WithinWindow config (env.sysNow / 1000000000) (venv.sysNow / 1000000000) ∧
          config.signature.sign env.rnd base' = config.signature.sign env.rnd base)) ∧
      ((∀ k ∈ coveredComponents r r' config, (WholeUrl k → r.url.seen port = r.url) ∧
        (Named (str% "@scheme") k → r.url.scheme = str% "http")) → base' = base) ∧
      (base' = base → r.url.scheme = str% "http" ∨ r.url.scheme = str% "https" →
        ∀ k ∈ coveredComponents r r' config, (WholeUrl k → r.url.seen port = r.url) ∧
          (Named (str% "@scheme") k → r.url.scheme = str% "http")) := by
  obtain ⟨f1, f2, f3, _⟩ := C24_reqwest_frame _ _ _ _ _ h
  have hp := deliverable_portable hd hm env.rnd
  have hread := wire_read heol hw hsent.once hsent.text r.method b trace htr
  generalize hreq : served .http11 r.url.originForm r.method (r.url.seen port) sent (some b) = req at hread
  have cases' : ∀ k x, NotAuthority k → RequestLike.derive r' k = .ok (some x) → ∃ y,
      (∀ k', ComponentSame k k' → req.derive k' = .ok (some y)) ∧
      (y = x ∧ ¬ WholeUrl k ∧ ¬ Named (str% "@scheme") k ∨ WholeUrl k ∧ x = r.url.asStr ∧ y = (r.url.seen port).asStr ∨
        Named (str% "@scheme") k ∧ x = r.url.scheme ∧ y = str% "http") := by
    intro k x hk hx
    rw [← hreq]
    refine seen_cases hsent port _ _ hk ?_
    rw [← f1, ← f2]
    exact hx
  have hdr : ∀ n x, RequestLike.derive r' (.header n) = .ok (some x) → req.derive (.header n) = .ok (some x) := by
    intro n x hx
    obtain ⟨y, hy, hc⟩ := cases' (.header n) x trivial hx
    rcases hc with ⟨rfl, _⟩ | ⟨h1, _⟩ | ⟨h1, _⟩
    · exact hy _ rfl
    · rcases h1 with h1 | h1 <;> exact h1.elim
    · exact h1.elim
  obtain ⟨⟨si, hsi, _⟩, ss, hss⟩ := signed_headers_readable h hp
  have harr : Arrived r r' config req := by
    refine ⟨(hdr _ _ hsi).trans hsi.symm, (hdr _ _ hss).trans hss.symm, fun k hk => ?_⟩
    obtain ⟨x, hx, _⟩ := covered_value h hd hk
    obtain ⟨y, hy, _⟩ := cases' k x (hd.components k (covered_subset hk)).2 hx
    exact ⟨y, hy⟩
  obtain ⟨v, ids, lids, vals, vals', hbase, hmap, hvals, hlen, hrd, hv, hc, hcan, hiff⟩ := verify_arrived_iff h harr hp
  have pair : ∀ (i : Nat) k, (coveredComponents r r' config)[i]? = some k → ∃ x y, vals[i]? = some x ∧ vals'[i]? = some y ∧
      (y = x ∧ ¬ WholeUrl k ∧ ¬ Named (str% "@scheme") k ∨ WholeUrl k ∧ x = r.url.asStr ∧ y = (r.url.seen port).asStr ∨
        Named (str% "@scheme") k ∧ x = r.url.scheme ∧ y = str% "http") := by
    intro i k hk
    have hkm := List.mem_of_getElem? hk
    obtain ⟨x, hx, hxs⟩ := covered_value h hd hkm
    obtain ⟨y, hy, hxy⟩ := cases' k x (hd.components k (covered_subset hkm)).2 hx
    refine ⟨x, y, ?_, ?_, hxy⟩
    · have := congrArg (fun l => l[i]?) hmap
      simp only [List.getElem?_map, hk, Option.map_some, hxs] at this
      cases hvi : vals[i]? with
      | none => rw [hvi] at this; cases this
      | some x' => rw [hvi] at this; cases this; rfl
    · obtain ⟨y', h1, h2⟩ := hvals.at (i := i) (k := normComponent k) (by simp [hk])
      have e := hy _ (componentSame_norm (hrd k hkm))
      have h2 : req.derive (normComponent k) = .ok (some y') := h2
      rw [e] at h2
      cases h2
      exact h1
  have hl' : vals'.length = vals.length := by
    have h1 := congrArg List.length hmap
    have h2 := hvals.length
    simp only [List.length_map] at h1 h2
    omega
  have vals_cov : ∀ (i : Nat) x, vals[i]? = some x → ∃ k, (coveredComponents r r' config)[i]? = some k := by
    intro i x hx
    have h1 := congrArg List.length hmap
    simp only [List.length_map] at h1
    have : i < vals.length := (List.getElem?_eq_some_iff.1 hx).1
    exact ⟨_, List.getElem?_eq_getElem (by omega)⟩
  refine ⟨req, _, _, v, _, _, hread, hbase, hv, hc, hcan, fun venv hclock => ?_, fun hk => ?_, fun e hsch k hk => ?_⟩
  · rw [hiff]
    have hkey : (∃ k ∈ (plainVerifier config.keyId sk).keyProvider config.keyId,
          k.verify (utf8 (specBase ids lids vals' (signedParamsText config (env.sysNow / 1000000000))))
            (config.signature.sign env.rnd (utf8 (specBase ids lids vals (signedParamsText config (env.sysNow / 1000000000))))) = true) ↔
        config.signature.sign env.rnd (utf8 (specBase ids lids vals' (signedParamsText config (env.sysNow / 1000000000)))) =
          config.signature.sign env.rnd (utf8 (specBase ids lids vals (signedParamsText config (env.sysNow / 1000000000)))) := by
      have : (plainVerifier config.keyId sk).keyProvider config.keyId = [sk] := by
        simp [plainVerifier, VerifyingConfig.setValidateDate, VerifyingConfig.new]
      rw [this]
      simp only [List.mem_singleton, exists_eq_left]
      generalize config.signature = s at hm
      cases hm with
      | sha256 key => exact ((C30_hmac_unmalleable key _ env.rnd _).1).trans eq_comm
      | sha512 key => exact ((C30_hmac_unmalleable key _ env.rnd _).2).trans eq_comm
    rw [hkey]
    constructor
    · rintro ⟨_, _, _, h1, h2, h3, _⟩
      exact ⟨⟨h1, h2⟩, h3⟩
    · rintro ⟨⟨h1, h2⟩, h3⟩
      refine ⟨hd.label, rfl, hclock, h1, h2, h3, ?_, rfl, ?_⟩
      · intro c hc
        simp [plainVerifier, VerifyingConfig.setValidateDate, VerifyingConfig.new] at hc
      · have hno' : reqwestHeader r.headers hDigest = none := by
          unfold reqwestHeader; rw [HeaderMap.get_eq_head_getAll, hno]; rfl
        obtain ⟨⟨t, ht, hdg⟩, hacc⟩ := C39_auto_digest_accepted r r' config env _ h hcd hsd (by
          show Except.ok (reqwestHeader r.headers hDigest) = _; rw [hno']) b
          (by simp [ClientRequestLike.computeDigest, hb])
        refine hacc _ _ _ ?_ rfl rfl ?_
        · rw [hdg]; exact hdr _ _ hdg
        · rw [← hreq]; rfl
  · have : vals' = vals := by
      refine List.ext_getElem? fun i => ?_
      cases hi : vals[i]? with
      | none =>
        rw [List.getElem?_eq_none_iff] at hi ⊢
        omega
      | some x =>
        obtain ⟨k, hki⟩ := vals_cov i x hi
        obtain ⟨x', y, h1, h2, hxy⟩ := pair i k hki
        rw [hi] at h1
        cases h1
        rw [h2]
        obtain ⟨hk1, hk2⟩ := hk k (List.mem_of_getElem? hki)
        rcases hxy with ⟨rfl, _⟩ | ⟨hwu, rfl, rfl⟩ | ⟨hn, rfl, rfl⟩
        · rfl
        · rw [hk1 hwu]
        · rw [hk2 hn]
    rw [this]
  · obtain ⟨i, hi⟩ := List.mem_iff_getElem?.1 hk
    obtain ⟨a, _, ha, _⟩ := hw.host
    have hseen := seen_eq ha hsch port
    have hle : ∀ (i : Nat) (x y : Str), vals[i]? = some x → vals'[i]? = some y → y.length ≤ x.length := by
      intro i x y hx hy
      obtain ⟨k, hki⟩ := vals_cov i x hx
      obtain ⟨x', y', h1, h2, hxy⟩ := pair i k hki
      rw [hx] at h1; cases h1
      rw [hy] at h2; cases h2
      rcases hxy with ⟨rfl, _⟩ | ⟨_, rfl, rfl⟩ | ⟨_, rfl, rfl⟩
      · exact Nat.le_refl _
      · exact hseen.1
      · rcases hsch with h | h <;> rw [h] <;> decide
    have e := congrArg List.length (utf8_injective e)
    simp only [specBase, List.length_append] at e
    have hlens := (specLines_length_le hlen hl' hle).2 (by omega)
    obtain ⟨x, y, h1, h2, hxy⟩ := pair i k hi
    have hxyl := hlens i x y h1 h2
    rcases hxy with ⟨_, n1, n2⟩ | ⟨hwu, rfl, rfl⟩ | ⟨hn, rfl, rfl⟩
    · exact ⟨fun h => absurd h n1, fun h => absurd h n2⟩
    · have hs := hseen.2 hxyl
      refine ⟨fun _ => hs, fun _ => ?_⟩
      rw [← hs]; rfl
    · refine ⟨fun hwu => ?_, fun _ => ?_⟩
      · cases k with
        | header n => exact hn.elim
        | derived d =>
          have hn : d.item.bare = .string (str% "@scheme") := hn
          rcases hwu with h | h
          · have h : d.item.bare = _ := h
            rw [hn] at h; cases h
          · have h : d.item.bare = _ := h
            rw [hn] at h; cases h
      · rcases hsch with h | h
        · exact h
        · rw [h] at hxyl; cases hxyl

/-- C81, partial. A signed request with a body is accepted by the server that reads its message exactly within the created/expires
window, provided that `@target-uri` and `@request-target` are only covered if the URL is the one that the server derives, and
`@scheme` only if it is `http`. Missing: other URLs, requests without body, and what is missing from C06. -/
theorem C81_delivered_partial (r r' : ReqwestRequest) (config : SigningConfig) (env : SignEnv) (sk : HttpSignatureVerify)
    (h : sign r config env = .ok (r', .ok ())) (hd : Deliverable config) (hm : MacPair config.signature sk)
    (hcd : config.computeDigest = true) (hsd : StandardDigest config.digest) (hno : r.headers.getAll hDigest = [])
    (b : Bytes) (hb : r.body = .bytes b) (sent : HeaderMap) (hsent : SentHeaders r'.headers sent) (port : Bool)
    (hw : OnWire r.url sent port) (eol : Str) (heol : LineEnd eol) (trace : Bool) (htr : trace = true → ∃ s, utf8 s = b)
    (hk : ∀ k ∈ config.components, (WholeUrl k → r.url.seen port = r.url) ∧ (Named (str% "@scheme") k → r.url.scheme = str% "http")) :
    ∃ req, MockRequest.fromReader (wireText eol r.method r.url.toUrlParts sent b) trace = .ok (some req) ∧
      ∀ venv : VerifyEnv, 0 ≤ venv.sysNow → (verify req (plainVerifier config.keyId sk) venv = .ok (.ok ((), config.keyId)) ↔
        WithinWindow config (env.sysNow / 1000000000) (venv.sysNow / 1000000000)) := by
  obtain ⟨req, base, base', v, c, si, h1, _, _, _, _, h2, h3, _⟩ := C81_exact r r' config env sk h hd hm hcd hsd hno b hb sent hsent port hw
    eol heol trace htr
  refine ⟨req, h1, fun venv hclock => ?_⟩
  rw [h2 venv hclock, h3 fun k hkm => hk k (covered_subset hkm)]
  simp

/-- C81, negative. If a covered `@target-uri` or `@request-target` is not the URL that the server derives, or a covered `@scheme`
is `https`, then the server computes another base than the signed one, and accepts only if their tags collide. -/
theorem C81_neg_url (r r' : ReqwestRequest) (config : SigningConfig) (env : SignEnv) (sk : HttpSignatureVerify)
    (h : sign r config env = .ok (r', .ok ())) (hd : Deliverable config) (hm : MacPair config.signature sk)
    (hcd : config.computeDigest = true) (hsd : StandardDigest config.digest) (hno : r.headers.getAll hDigest = [])
    (b : Bytes) (hb : r.body = .bytes b) (sent : HeaderMap) (hsent : SentHeaders r'.headers sent) (port : Bool)
    (hw : OnWire r.url sent port) (eol : Str) (heol : LineEnd eol) (trace : Bool) (htr : trace = true → ∃ s, utf8 s = b)
    (hsch : r.url.scheme = str% "http" ∨ r.url.scheme = str% "https") (k : SignatureComponent) (hk : k ∈ coveredComponents r r' config)
    (hkn : WholeUrl k ∧ r.url.seen port ≠ r.url ∨ Named (str% "@scheme") k ∧ r.url.scheme = str% "https") :
    ∃ req base base' v c si, MockRequest.fromReader (wireText eol r.method r.url.toUrlParts sent b) trace = .ok (some req) ∧
      SignedBase r r' config (env.sysNow / 1000000000) base ∧
      req.derive (.header hSignatureInput) = .ok (some v) ∧ CanonicalizeConfig.fromSignatureInput v = .ok (.ok c) ∧
      canonicalize req c = .ok (.ok (base', si)) ∧ base' ≠ base ∧
      ∀ venv : VerifyEnv, 0 ≤ venv.sysNow → verify req (plainVerifier config.keyId sk) venv = .ok (.ok ((), config.keyId)) →
        config.signature.sign env.rnd base' = config.signature.sign env.rnd base := by
  obtain ⟨req, base, base', v, c, si, h1, h2, h3, h4, h5, h6, _, h8⟩ := C81_exact r r' config env sk h hd hm hcd hsd hno b hb sent hsent
    port hw eol heol trace htr
  refine ⟨req, base, base', v, c, si, h1, h2, h3, h4, h5, fun e => ?_, fun venv hc hv => ((h6 venv hc).1 hv).2⟩
  obtain ⟨a1, a2⟩ := h8 e hsch k hk
  rcases hkn with ⟨h, hne⟩ | ⟨h, hs⟩
  · exact hne (a1 h)
  · have := a2 h
    rw [hs] at this
    cases this

/-- C81, negative. A request with a port, whose `Host` header was added by `sign`, never arrives with its URL. -/
theorem C81_neg_port (r r' : ReqwestRequest) (config : SigningConfig) (env : SignEnv) (res : Except Error Unit)
    (h : sign r config env = .ok (r', res)) (hc : config.addHost = true) (hno : r.headers.getAll hHost = [])
    (a : Authority) (ha : r.url.authority = some a) (hh : a.host ≠ []) (hp : a.port ≠ none)
    (sent : HeaderMap) (hsent : SentHeaders r'.headers sent) (port : Bool) (hw : OnWire r.url sent port) :
    r.url.seen port ≠ r.url := by
  have hno' : RequestLike.derive r (.header hHost) = .ok none := by
    show Except.ok (reqwestHeader r.headers hHost) = _
    unfold reqwestHeader; rw [HeaderMap.get_eq_head_getAll, hno]; rfl
  have hu := Url.host_some ha hh
  have hd := (C52_automatic_headers r r' config env res h).2.1 hc hno' a.host hu (Url.host_visible hu)
  have hs := sent_header hsent (n := hHost) (x := a.host) (Except.ok.inj hd)
  obtain ⟨a', v, ha', hv, hvs⟩ := hw.host
  rw [ha] at ha'
  cases ha'
  rw [hv] at hs
  simp only [Option.map_some, hvs, Option.getD_some, Option.some.injEq] at hs
  cases port with
  | true => exact absurd (hostPort_iff.1 hs.symm) hp
  | false =>
    intro e
    have : (r.url.seen false).authority = some a := by rw [e, ha]
    simp only [Url.seen, ha, Option.map_some, Option.some.injEq] at this
    exact hp (by rw [← this]; rfl)

/-- C81, negative. A message without a body and without a digest is read as a request with an empty body, and refused whenever
digests are required, which is the default. So a signed request without a body is never accepted. -/
theorem C81_neg_no_body (r r' : ReqwestRequest) (config : SigningConfig) (env : SignEnv)
    (h : sign r config env = .ok (r', .ok ())) (hcd : config.computeDigest = true) (hno : r.headers.getAll hDigest = [])
    (hb : r.body = .absent) (sent : HeaderMap) (hsent : SentHeaders r'.headers sent) (port : Bool)
    (hw : OnWire r.url sent port) (eol : Str) (heol : LineEnd eol) (trace : Bool) :
    ∃ req, MockRequest.fromReader (wireText eol r.method r.url.toUrlParts sent []) trace = .ok (some req) ∧ req.body = some [] ∧
      ∀ (vc : VerifyingConfig) (venv : VerifyEnv) (kid : Str), vc.requireDigest = true → verify req vc venv ≠ .ok (.ok ((), kid)) := by
  refine ⟨_, wire_read heol hw hsent.once hsent.text r.method [] trace (fun _ => ⟨[], rfl⟩), rfl, fun vc venv kid hreq hv => ?_⟩
  have hno' : reqwestHeader r.headers hDigest = none := by
    unfold reqwestHeader; rw [HeaderMap.get_eq_head_getAll, hno]; rfl
  have habs := (C46_reqwest_bodies r r' config env _ hcd (congrArg Except.ok hno') h).2.1 (.inr hb)
  obtain ⟨c, sig, base, _, _, _, hdig⟩ := verify_ok_iff.1 hv
  have hsd : sent.get hDigest = none := by
    rw [HeaderMap.get_eq_head_getAll, hsent.same hDigest (.inl (fun e => nomatch congrArg HeaderName.str e)), habs, hno]
    rfl
  rcases hdig with ⟨v, hv, _⟩ | ⟨_, hd⟩
  · have hv : (Except.ok ((sent.get hDigest).map fun v => v.toStr.getD []) : P (Option Str)) = .ok (some v) := hv
    rw [hsd] at hv
    cases hv
  · rw [if_pos hreq] at hd
    cases hd

end Httpsig

namespace Httpsig

/-- Every name once, and values that are text without white space at the ends. -/
def wireReady [Deps] (hs : HeaderMap) : Bool :=
  decide (hs.map Prod.fst).Nodup && hs.all fun e => match e.2.toStr with | some s => trim s == s | none => false

theorem wireReady_sent [Deps] {hs : HeaderMap} (h : wireReady hs = true) : SentHeaders hs hs := by
  unfold wireReady at h
  simp only [Bool.and_eq_true, decide_eq_true_eq, List.all_eq_true] at h
  refine ⟨fun _ _ => rfl, h.1, fun e he => ?_⟩
  have := h.2 e he
  cases hs : e.2.toStr with
  | none => rw [hs] at this; cases this
  | some s =>
    rw [hs] at this
    refine ⟨s, ?_, trimmed_iff.2 (by simpa [trim_eq] using this)⟩
    have hf := (toStr_facts hs).1
    unfold HeaderValue.fromStr HeaderValue.fromBytes at hf
    split at hf
    · rw [← Option.some.inj hf]
    · cases hf

section
attribute [local instance] toyDeps

/-- Signing whatever names the target. -/
def exWireSigning : SigningConfig :=
  exMacSigning.setComponents [.derived (.new atTargetUri), .derived (.new atScheme), .derived (.new atPath), .header hHost, .header hDigest]

def exWire (u : Url) (body : AsyncBody) : ReqwestRequest := { exReqwest with url := u, body := body }

/-- Signing succeeds with headers that can be sent. -/
def wireSigned (r : ReqwestRequest) (c : SigningConfig) : Bool :=
  match sign r c exSignEnv with
  | .ok (r', .ok ()) => wireReady r'.headers && decide (r'.headers.get hHost = some ⟨utf8 (str% "example.com"), rfl⟩)
  | _ => false

theorem wireSigned_iff {r : ReqwestRequest} {c : SigningConfig} (h : wireSigned r c = true) :
    ∃ r', sign r c exSignEnv = .ok (r', .ok ()) ∧ SentHeaders r'.headers r'.headers ∧
      r'.headers.get hHost = some ⟨utf8 (str% "example.com"), rfl⟩ := by
  unfold wireSigned at h
  split at h
  · rename_i r' heq
    simp only [Bool.and_eq_true, decide_eq_true_eq] at h
    exact ⟨r', heq, wireReady_sent h.1, h.2⟩
  · cases h

theorem exWire_deliverable : Deliverable exWireSigning := by
  refine ⟨?_, by decide, by decide, by decide, rfl⟩
  intro k hk
  have hk : k ∈ [.derived (.new atTargetUri), .derived (.new atScheme), .derived (.new atPath), .header hHost, .header hDigest] := hk
  simp only [List.mem_cons, List.not_mem_nil, or_false] at hk
  rcases hk with rfl | rfl | rfl | rfl | rfl
  · exact ⟨C01_new_tidy _, by simp [NotAuthority, DerivedComponent.Called, DerivedComponent.new, atTargetUri]⟩
  · exact ⟨C01_new_tidy _, by simp [NotAuthority, DerivedComponent.Called, DerivedComponent.new, atScheme]⟩
  · exact ⟨C01_new_tidy _, by simp [NotAuthority, DerivedComponent.Called, DerivedComponent.new, atPath]⟩
  all_goals exact ⟨trivial, trivial⟩

theorem exOnWire {hs : HeaderMap} (h : hs.get hHost = some ⟨utf8 (str% "example.com"), rfl⟩) :
    OnWire (exUrl.seen true) hs true ∧ OnWire exUrl hs true :=
  ⟨⟨⟨_, _, rfl, h, rfl⟩, ⟨by decide, by decide⟩, rfl, plainParseUrl_text _⟩, ⟨⟨_, _, rfl, h, rfl⟩, ⟨by decide, by decide⟩, rfl, plainParseUrl_text _⟩⟩

/-- C81: a signed POST request arrives and is accepted at 150 s and at 210 s but not at 211 s. -/
example : ∃ r' req, sign (exWire (exUrl.seen true) (.bytes (utf8 (str% "hello")))) exWireSigning exSignEnv = .ok (r', .ok ()) ∧
    MockRequest.fromReader (wireText (str% "\r\n") exPost (exUrl.seen true).toUrlParts r'.headers (utf8 (str% "hello"))) true = .ok (some req) ∧
    ∀ s : Int, 0 ≤ s → (verify req (plainVerifier (str% "k1") (hmacSha256Verify [1, 2])) ⟨s * 1000000000, 0⟩ = .ok (.ok ((), str% "k1")) ↔
      150 ≤ s ∧ s ≤ 210) := by
  obtain ⟨r', h, h1, h2⟩ := wireSigned_iff (r := exWire (exUrl.seen true) (.bytes (utf8 (str% "hello")))) (c := exWireSigning) (by decide +kernel)
  obtain ⟨req, hr, hv⟩ := C81_delivered_partial _ r' exWireSigning exSignEnv (hmacSha256Verify [1, 2]) h exWire_deliverable (.sha256 _) rfl (.inl rfl)
    rfl _ rfl r'.headers h1 true (exOnWire h2).1 (str% "\r\n") (.inl rfl) true (fun _ => ⟨_, rfl⟩) (fun _ _ => ⟨fun _ => rfl, fun _ => rfl⟩)
  refine ⟨r', req, h, hr, fun s hs => ?_⟩
  refine (hv ⟨s * 1000000000, 0⟩ (by show 0 ≤ s * 1000000000; omega)).trans ?_
  have e : s * 1000000000 / 1000000000 = s := by omega
  show (∀ t, some (150 : Int) = some t → t ≤ s * 1000000000 / 1000000000) ∧
    (∀ t, some (210 : Int) = some t → s * 1000000000 / 1000000000 ≤ t) ↔ _
  rw [e]
  constructor
  · rintro ⟨h1, h2⟩; exact ⟨h1 _ rfl, h2 _ rfl⟩
  · rintro ⟨h1, h2⟩
    exact ⟨fun t ht => by cases ht; exact h1, fun t ht => by cases ht; exact h2⟩

/-- C81: a signed `https` request, and a signed request without a body, can be sent. -/
example : (∃ r', sign (exWire exUrl (.bytes (utf8 (str% "hello")))) exWireSigning exSignEnv = .ok (r', .ok ()) ∧
      SentHeaders r'.headers r'.headers ∧ OnWire exUrl r'.headers true ∧ exUrl.seen true ≠ exUrl ∧
      .derived (.new atTargetUri) ∈ coveredComponents (exWire exUrl (.bytes (utf8 (str% "hello")))) r' exWireSigning) ∧
    ∃ r', sign (exWire (exUrl.seen true) .absent) (exWireSigning.setComponents [.header hHost]) exSignEnv = .ok (r', .ok ()) ∧
      SentHeaders r'.headers r'.headers ∧ OnWire (exUrl.seen true) r'.headers true := by
  constructor
  · obtain ⟨r', h, h1, h2⟩ := wireSigned_iff (r := exWire exUrl (.bytes (utf8 (str% "hello")))) (c := exWireSigning) (by decide +kernel)
    exact ⟨r', h, h1, (exOnWire h2).2, by decide, List.mem_filter.2 ⟨List.mem_cons_self, rfl⟩⟩
  · obtain ⟨r', h, h1, h2⟩ := wireSigned_iff (r := exWire (exUrl.seen true) .absent) (c := exWireSigning.setComponents [.header hHost])
      (by decide +kernel)
    exact ⟨r', h, h1, (exOnWire h2).1⟩

/-- C81: a request to a port, with the automatic `Host` header. -/
example : ∃ r', sign { exWire (exPortUrl (some 8080)) .absent with headers := [] } ((exWireSigning.setComponents [.header hHost]).setAddHost true) exSignEnv =
      .ok (r', .ok ()) ∧ SentHeaders r'.headers r'.headers ∧ OnWire (exPortUrl (some 8080)) r'.headers false := by
  obtain ⟨r', h, h1, h2⟩ := wireSigned_iff (r := { exWire (exPortUrl (some 8080)) .absent with headers := [] })
    (c := (exWireSigning.setComponents [.header hHost]).setAddHost true) (by decide +kernel)
  exact ⟨r', h, h1, ⟨⟨_, _, rfl, h2, rfl⟩, ⟨by decide, by decide⟩, rfl, plainParseUrl_text _⟩⟩

end
end Httpsig
