import Verif.Spec.Wire
import Verif.Lemmas.Url
import Verif.Props.TargetUri
/-
C79 and C80: the components that name the target of a request, against RFC 9110 and RFC 9112.
-/
set_option linter.unusedSectionVars false
namespace Httpsig
open Sfv
variable [Deps]

/-! ### Lemmas -/

theorem portText_nil {p : Option Nat} (h : portText p = []) : p = none := by
  cases p with
  | none => rfl
  | some n => cases h

theorem userinfoText_nil {p : Option Str} (h : userinfoText p = []) : p = none := by
  cases p with
  | none => rfl
  | some n => simp [userinfoText] at h

theorem markedText_nil {c : Char} {p : Option Str} (h : markedText c p = []) : p = none := by
  cases p with
  | none => rfl
  | some n => cases h

theorem Url.asStr_parts (u : Url) (a : Authority) (ha : u.authority = some a) :
    u.asStr = u.scheme ++ str% "://" ++ userinfoText a.userinfo ++ a.hostPort ++ u.originForm ++ markedText '#' u.fragment := by
  simp [Url.asStr, UrlParts.text, UrlParts.authorityText, ha, Authority.text, Authority.hostPort, UrlParts.originForm]

theorem Url.host_visible {u : Url} {h : Str} (hh : u.host = some h) : h.all isVisibleChar = true := by
  unfold Url.host at hh
  cases ha : u.authority with
  | none => rw [ha] at hh; cases hh
  | some a =>
    rw [ha] at hh
    simp only at hh
    split at hh
    · cases hh
    · cases hh
      rw [visible_iff]
      intro c hc
      have := UrlParts.host_chars (UrlParts.valid_some u.ok ha).1.2 hc
      unfold UrlParts.authorityChar UrlParts.graphic at this
      simp only [Bool.and_eq_true, decide_eq_true_eq] at this
      unfold VisibleChar
      omega

/-- A derived component that is not the whole URL does not depend on port and user information. -/
theorem derive_sameHost {u w : Url} (h : SameHost u w) (host : Option Str) (m : Method) (d : DerivedComponent)
    (hk : ¬ WholeUrl (.derived d)) : d.derive host m u = d.derive host m w := by
  unfold DerivedComponent.derive DerivedComponent.name DerivedComponent.deriveNamed
  cases hn : d.item.bare.asStr with
  | none => rfl
  | some nm =>
    have h1 : nm ≠ atTargetUri := fun e => hk (.inl (asStr_iff.1 (hn.trans (congrArg some e))))
    have h2 : nm ≠ atRequestTarget := fun e => hk (.inr (asStr_iff.1 (hn.trans (congrArg some e))))
    simp only [Bind.bind, Except.bind, h1, h2, if_false, h.scheme, h.path, h.query, Url.queryPairs]

theorem SameHost.host_eq {u w : Url} (h : SameHost u w) : u.host = w.host := by
  obtain ⟨a, b, h1, h2, h3⟩ := h.host
  unfold Url.host
  rw [h1, h2]
  simp only [h3]

theorem Url.host_some {u : Url} {a : Authority} (ha : u.authority = some a) (hh : a.host ≠ []) : u.host = some a.host := by
  unfold Url.host
  rw [ha]
  simp only [hh, if_false]

theorem hostPort_iff {a : Authority} : a.host = a.hostPort ↔ a.port = none := by
  constructor
  · intro h
    exact portText_nil (by simpa [Authority.hostPort] using h)
  · intro h
    simp [Authority.hostPort, h, portText]

/-! ### C79 -/

/-- C79, partial. The value of `@authority` is the authority of the target URI, `host:port` without a default port, exactly
for URLs without a port. Missing: URLs with a port other than the default one of the scheme. -/
theorem C79_authority_partial (r : ReqwestRequest) (a : Authority) (ha : r.url.authority = some a) (hh : a.host ≠ []) :
    (RequestLike.derive r (.derived (.new (str% "@authority"))) = .ok (some a.hostPort) ↔ a.port = none) ∧
    ∀ b : BlockingRequest, b.url = r.url →
      (RequestLike.derive b (.derived (.new (str% "@authority"))) = .ok (some a.hostPort) ↔ a.port = none) := by
  have key : (Except.ok r.url.host : P (Option Str)) = .ok (some a.hostPort) ↔ a.port = none := by
    rw [Url.host_some ha hh, ← hostPort_iff]
    simp
  refine ⟨key, fun b hb => ?_⟩
  rw [← hb] at key
  exact key

/-- C79, partial. When `sign` adds the `Host` header, its value is what RFC 9110 requires, `host:port` without a default port,
exactly for URLs without a port. -/
theorem C79_host_header_partial (r r' : ReqwestRequest) (config : SigningConfig) (env : SignEnv) (res : Except Error Unit)
    (h : sign r config env = .ok (r', res)) (hc : config.addHost = true) (hno : r.headers.getAll hHost = [])
    (a : Authority) (ha : r.url.authority = some a) (hh : a.host ≠ []) :
    RequestLike.derive r' (.header hHost) = .ok (some a.hostPort) ↔ a.port = none := by
  have hno' : RequestLike.derive r (.header hHost) = .ok none := by
    show Except.ok (reqwestHeader r.headers hHost) = _
    unfold reqwestHeader; rw [HeaderMap.get_eq_head_getAll, hno]; rfl
  have hu := Url.host_some ha hh
  rw [(C52_automatic_headers r r' config env res h).2.1 hc hno' a.host hu (Url.host_visible hu), ← hostPort_iff]
  simp

/-- C79, partial, for blocking requests. -/
theorem C79_blocking_host_header_partial (r r' : BlockingRequest) (config : SigningConfig) (env : SignEnv) (res : Except Error Unit)
    (h : sign r config env = .ok (r', res)) (hc : config.addHost = true) (hno : r.headers.getAll hHost = [])
    (a : Authority) (ha : r.url.authority = some a) (hh : a.host ≠ []) :
    RequestLike.derive r' (.header hHost) = .ok (some a.hostPort) ↔ a.port = none := by
  have hno' : RequestLike.derive r (.header hHost) = .ok none := by
    show Except.ok (reqwestHeader r.headers hHost) = _
    unfold reqwestHeader; rw [HeaderMap.get_eq_head_getAll, hno]; rfl
  have hu := Url.host_some ha hh
  rw [(C52_automatic_headers r r' config env res h).2.1 hc hno' a.host hu (Url.host_visible hu), ← hostPort_iff]
  simp

/-- C79, negative. Port and user information are only signed with `@target-uri` and `@request-target`: without these, requests
to two ports of a host have the same base. -/
theorem C79_neg_port_unsigned (r : ReqwestRequest) (w : Url) (h : SameHost r.url w) (c : CanonicalizeConfig)
    (hc : ∀ k ∈ c.components, ¬ WholeUrl k) : canonicalize r c = canonicalize { r with url := w } c := by
  refine canonicalize_congr fun k hk => ?_
  cases k with
  | header n => rfl
  | derived d =>
    show d.derive r.url.host r.method r.url = d.derive w.host r.method w
    rw [h.host_eq]
    exact derive_sameHost h _ _ _ (hc _ hk)

/-- C79, negative. A request that is accepted on one port of a host is accepted on all ports, unless `@target-uri` or
`@request-target` is listed. -/
theorem C79_neg_port_accepted (r : MockRequest) (w : Url) (h : SameHost r.url w) (config : VerifyingConfig) (env : VerifyEnv)
    (hc : ∀ v c, r.headers.get hSignatureInput = some v → CanonicalizeConfig.fromSignatureInput (v.toStr.getD []) = .ok (.ok c) →
      ∀ k ∈ c.components, ¬ WholeUrl k) (kid : Str) :
    verify r config env = .ok (.ok ((), kid)) ↔ verify { r with url := w } config env = .ok (.ok ((), kid)) := by
  have key := C37_uncovered_data_irrelevant (Rem := Unit) (Rem' := Unit) r { r with url := w } config env rfl rfl rfl
    (by
      intro v c hv hf k hk
      have hv : (Except.ok ((r.headers.get hSignatureInput).map fun v => v.toStr.getD []) : P (Option Str)) = .ok (some v) := hv
      simp only [Except.ok.injEq, Option.map_eq_some_iff] at hv
      obtain ⟨x, hx, rfl⟩ := hv
      cases k with
      | header n => rfl
      | derived d => exact derive_sameHost h none r.method _ (hc x c hx hf _ hk))
    (fun _ => rfl)
  have out : ∀ {x : P (Except Unit (Unit × Str))}, x = .ok (.ok ((), kid)) ↔ outcome x = .ok (some kid) := by
    intro x
    rcases x with _ | _ | ⟨_, _⟩ <;> simp [outcome]
  rw [out, out, key]

/-! ### C80 -/

/-- C80, partial. The value of `@target-uri` is the target URI of RFC 9110 exactly when the URL has no user information and no
fragment, for each of the three request types. -/
theorem C80_target_uri_partial (r : ReqwestRequest) (a : Authority) (ha : r.url.authority = some a) :
    (RequestLike.derive r (.derived (.new (str% "@target-uri"))) = .ok (some (r.url.targetUri a)) ↔
      a.userinfo = none ∧ r.url.fragment = none) ∧
    (∀ b : BlockingRequest, b.url = r.url →
      (RequestLike.derive b (.derived (.new (str% "@target-uri"))) = .ok (some (r.url.targetUri a)) ↔
        a.userinfo = none ∧ r.url.fragment = none)) ∧
    (∀ m : MockRequest, m.url = r.url →
      (m.derive (.derived (.new (str% "@target-uri"))) = .ok (some (r.url.targetUri a)) ↔
        a.userinfo = none ∧ r.url.fragment = none)) := by
  have key : (.ok (some r.url.asStr) : P (Option Str)) = .ok (some (r.url.targetUri a)) ↔ a.userinfo = none ∧ r.url.fragment = none := by
    rw [Url.asStr_parts _ a ha, UrlParts.targetUri]
    constructor
    · intro h
      have h := congrArg List.length (Option.some.inj (Except.ok.inj h))
      simp only [List.length_append] at h
      exact ⟨userinfoText_nil (List.length_eq_zero_iff.1 (by omega)), markedText_nil (c := '#') (List.length_eq_zero_iff.1 (by omega))⟩
    · rintro ⟨h1, h2⟩
      rw [h1, h2]
      simp [userinfoText, markedText]
  refine ⟨key, fun b hb => ?_, fun m hm => ?_⟩
  · have : RequestLike.derive b (.derived (.new (str% "@target-uri"))) = .ok (some b.url.asStr) := rfl
    rw [this, hb]
    exact key
  · have : m.derive (.derived (.new (str% "@target-uri"))) = .ok (some m.url.asStr) := rfl
    rw [this, hm]
    exact key

/-- C80, negative. What `@target-uri` and `@request-target` sign need not be on the wire: URLs that differ only in fragment and
user information give the same message and different values. -/
theorem C80_neg_not_on_wire (r : ReqwestRequest) (w : Url) (hw : w ≠ r.url) (hp : w.path = r.url.path) (hq : w.query = r.url.query)
    (k : SignatureComponent) (hk : coversUrl k) :
    RequestLike.derive r k ≠ RequestLike.derive { r with url := w } k ∧
    ∀ eol hs body, wireText eol r.method r.url.toUrlParts hs body = wireText eol r.method w.toUrlParts hs body := by
  refine ⟨?_, fun eol hs body => by simp [wireText, UrlParts.originForm, hp, hq]⟩
  have : (Except.ok (some r.url.asStr) : P (Option Str)) ≠ .ok (some w.asStr) := by
    intro h
    exact hw (Url.asStr_inj (Option.some.inj (Except.ok.inj h))).symm
  rcases hk with rfl | rfl <;> exact this

/-- C80, negative. `@request-target` is never the request target that the origin server receives, path and query. -/
theorem C80_neg_request_target {R : Type} [RequestLike R] (r : R) (u : Url) (hr : OfUrl r u) (v : Str)
    (h : RequestLike.derive r (.derived (.new (str% "@request-target"))) = .ok (some v)) : v ≠ u.originForm := by
  have : v = u.asStr := coversUrl.value hr (.inr rfl) h
  rw [this]
  intro e
  have e := congrArg List.length e
  simp only [Url.asStr, UrlParts.text, UrlParts.originForm, List.length_append, List.length_cons] at e
  omega

/-! ### Examples -/

/-- A URL with a port, user information and a fragment. -/
def exPortUrl (port : Option Nat) (h : (match port with | some n => decide (n < 65536) | none => true) = true := by rfl) : Url where
  scheme := str% "http"
  authority := some { userinfo := some (str% "u:p"), host := str% "example.com", port := port }
  path := str% "/a"
  query := some (str% "x=1")
  fragment := some (str% "top")
  ok := by
    cases port with
    | none => rfl
    | some n => simp only [UrlParts.valid, h]; rfl

example : (exPortUrl (some 8443)).asStr = str% "http://u:p@example.com:8443/a?x=1#top" ∧
    SameHost (exPortUrl (some 8443)) (exPortUrl none) ∧
    RequestLike.derive { exReqwest with url := exPortUrl (some 8443) } (.derived (.new atAuthority)) = .ok (some (str% "example.com")) ∧
    (∀ k ∈ [SignatureComponent.derived (.new atAuthority), .derived (.new atPath)], ¬ WholeUrl k) := by
  refine ⟨rfl, ⟨rfl, ⟨_, _, rfl, rfl, rfl⟩, rfl, rfl, rfl⟩, rfl, ?_⟩
  intro k hk
  simp only [List.mem_cons, List.not_mem_nil, or_false] at hk
  rcases hk with rfl | rfl
  · rintro (h | h) <;> cases h
  · rintro (h | h) <;> cases h

/-- An accepted request, at two ports. -/
example : verify { exMock (exIdHeaders ⟨utf8 (str% "1"), rfl⟩) none with url := exPortUrl (some 8443) } exIdConfig exEnv = .ok (.ok ((), str% "k")) ∧
    verify { exMock (exIdHeaders ⟨utf8 (str% "1"), rfl⟩) none with url := exPortUrl (some 22) } exIdConfig exEnv = .ok (.ok ((), str% "k")) :=
  ⟨rfl, rfl⟩

/-- The automatic `Host` header of a request with a port. -/
example : ∃ r', sign { exReqwest with url := exPortUrl (some 8443), headers := [] }
      ((exSigning.setComponents [.header hHost]).setAddHost true) exSignEnv = .ok (r', .ok ()) ∧
    RequestLike.derive r' (.header hHost) = .ok (some (str% "example.com")) := ⟨_, rfl, rfl⟩

end Httpsig
