import Verif.Props.Authority
/-
C83: requests built with the constructors of the validator's request type.
-/
namespace Httpsig
open Sfv

section
variable [Deps]

/-- `r'` is `r` with the one value `v` under the header name `n`; all else is the same. -/
structure HeaderSet (r r' : MockRequest) (n : HeaderName) (v : HeaderValue) : Prop where
  version : r'.version = r.version
  method : r'.method = r.method
  url : r'.url = r.url
  path : r'.path = r.path
  body : r'.body = r.body
  set : r'.headers.getAll n = [v]
  others : ∀ m, m ≠ n → r'.headers.getAll m = r.headers.getAll m

theorem setHeader_set (r : MockRequest) (n : HeaderName) (v : HeaderValue) : HeaderSet r (r.setHeader n v) n v :=
  ⟨rfl, rfl, rfl, rfl, rfl, HeaderMap.getAll_insert_self _ _ _, fun _ h => HeaderMap.getAll_insert_ne _ _ h⟩

theorem name_iff {s : Str} {n : HeaderName} : HeaderName.fromStr s = some n ↔ n.str = lowered s := by
  rw [lowered_eq]
  unfold HeaderName.fromStr
  constructor
  · intro h
    split at h
    · rw [← Option.some.inj h]
    · cases h
  · intro h
    rw [dif_pos (h ▸ n.ok)]
    cases n
    cases h
    rfl

omit [Deps] in
theorem value_bytes_iff {b : Bytes} {v : HeaderValue} : HeaderValue.fromBytes b = some v ↔ v.bytes = b := by
  unfold HeaderValue.fromBytes
  constructor
  · intro h
    split at h
    · rw [← Option.some.inj h]
    · cases h
  · rintro rfl
    rw [dif_pos v.ok]

/-- C83. `with_header` sets one header: if the lower-cased name and the bytes of the value are legal, the result has that value under
that name, in place of all earlier ones, and is otherwise the same request. -/
theorem C83_with_header (r : MockRequest) (name value : Str) (n : HeaderName) (v : HeaderValue) (hn : n.str = lowered name)
    (hv : v.bytes = utf8 value) : ∃ r', r.withHeader name value = .ok r' ∧ HeaderSet r r' n v ∧ r'.hasHeader n = true ∧
      r'.header n = some v ∧ ∀ m, m ≠ n → r'.header m = r.header m ∧ r'.hasHeader m = r.hasHeader m := by
  refine ⟨r.setHeader n v, ?_, setHeader_set r n v, ?_, HeaderMap.get_insert_self _ _ _, fun m hm => ⟨HeaderMap.get_insert_ne _ _ hm, ?_⟩⟩
  · unfold MockRequest.withHeader
    rw [name_iff.2 hn, value_bytes_iff.2 hv]
  · show ((r.headers.insert n v).get n).isSome = true
    rw [HeaderMap.get_insert_self]; rfl
  · show ((r.headers.insert n v).get m).isSome = _
    rw [HeaderMap.get_insert_ne _ _ hm]; rfl

/-- C83. `with_header` panics exactly if the name or the value is not legal. -/
theorem C83_with_header_panics (r : MockRequest) (name value : Str) :
    (∃ p, r.withHeader name value = .error p) ↔
      (¬ ∃ n : HeaderName, n.str = lowered name) ∨ ¬ ∃ v : HeaderValue, v.bytes = utf8 value := by
  constructor
  · rintro ⟨p, hp⟩
    by_cases h : ∃ n : HeaderName, n.str = lowered name
    · obtain ⟨n, hn⟩ := h
      refine .inr fun ⟨v, hv⟩ => ?_
      obtain ⟨r', hr, _⟩ := C83_with_header r name value n v hn hv
      rw [hp] at hr; cases hr
    · exact .inl h
  · intro h
    cases hr : r.withHeader name value with
    | error p => exact ⟨p, rfl⟩
    | ok r' =>
      unfold MockRequest.withHeader at hr
      split at hr
      · rename_i n v hn hv
        rcases h with h | h
        · exact absurd ⟨n, name_iff.1 hn⟩ h
        · exact absurd ⟨v, value_bytes_iff.1 hv⟩ h
      · cases hr

omit [Deps] in
theorem natStr_pos_head (n : Nat) : 0 < n → (natStr n).head? ≠ some '0' := by
  induction n using Nat.strongRecOn with
  | _ n ih =>
    intro hn
    by_cases h : n < 10
    · rw [natStr_lt_ten h]
      have : ∀ k : Fin 10, k.val ≠ 0 → [digitOf k.val].head? ≠ some '0' := by decide
      exact this ⟨n, h⟩ (by simpa using by omega)
    · rw [natStr_step (by omega), List.head?_append]
      have := ih (n / 10) (by omega) (by omega)
      cases hx : natStr (n / 10) with
      | nil => exact absurd hx (natStr_ne_nil _)
      | cons c cs => rw [hx] at this; exact this

omit [Deps] in
theorem natStr_head (n : Nat) : natStr n = ['0'] ∨ (natStr n).head? ≠ some '0' := by
  by_cases h : n = 0
  · subst h; exact .inl (by decide)
  · exact .inr (natStr_pos_head n (by omega))

/-- C83. `with_body` never panics. The request has the body, `Content-Length` is its length in decimal, and nothing else changes. -/
theorem C83_with_body (r : MockRequest) (b : Bytes) : ∃ r' n v s, r.withBody b = .ok r' ∧ n.str = str% "content-length" ∧
    HeaderSet { r with body := some b } r' n v ∧ r'.body = some b ∧ v.toStr = some s ∧ RequestLike.derive r' (.header n) = .ok (some s) ∧
    (∀ c ∈ s, c.isDigit = true) ∧ digitsVal s = b.length ∧ (s = ['0'] ∨ s.head? ≠ some '0') := by
  obtain ⟨v, hv, hs⟩ := fromStr_visible (s := natStr b.length) (List.all_eq_true.2 fun c hc => by
    have := natStr_all _ c hc
    simp only [Char.isDigit, Bool.and_eq_true, decide_eq_true_eq] at this
    have h1 : 48 ≤ c.toNat := this.1
    have h2 : c.toNat ≤ 57 := this.2
    simp only [isVisibleChar, Bool.or_eq_true, Bool.and_eq_true, decide_eq_true_eq]
    exact .inl ⟨by omega, by omega⟩)
  refine ⟨MockRequest.setHeader { r with body := some b } ⟨str% "content-length", rfl⟩ v, _, v, natStr b.length, ?_, rfl, setHeader_set _ _ _, rfl,
    hs, ?_, natStr_all _, digitsVal_natStr _, ?_⟩
  · unfold MockRequest.withBody MockRequest.withHeader
    have : HeaderName.fromStr (str% "Content-Length") = some ⟨str% "content-length", rfl⟩ := rfl
    rw [this, show HeaderValue.fromBytes (utf8 (natStr b.length)) = some v from hv]
  · show Except.ok ((HeaderMap.get (r.headers.insert _ v) _).map fun v => v.toStr.getD []) = _
    rw [HeaderMap.get_insert_self]
    simp only [Option.map_some, hs, Option.getD_some]
  · exact natStr_head b.length

/-- C83. `new` panics exactly if the text is not an absolute URL. -/
theorem C83_new_panics (version : Version) (method : Method) (path : Str) (headers : HeaderMap) :
    (∃ p, MockRequest.new version method path headers = .error p) ↔ ∀ u, Deps.parseUrl path ≠ .ok u := by
  unfold MockRequest.new
  cases hp : Deps.parseUrl path with
  | ok u =>
    simp only [ne_eq, UrlParse.ok.injEq, forall_eq', iff_false, not_exists]
    have hgo : ∀ p, ¬ (match u.host with
      | some host => (⟨version, method, u, path, headers, none⟩ : MockRequest).withHeader (str% "Host") host
      | none => .ok ⟨version, method, u, path, headers, none⟩) = .error p := by
      intro p
      cases hh : u.host with
      | none => exact fun h => nomatch h
      | some host =>
        obtain ⟨v, hv, _⟩ := fromStr_visible (Url.host_visible hh)
        obtain ⟨r', hr, _⟩ := C83_with_header ⟨version, method, u, path, headers, none⟩ (str% "Host") host hHost v rfl
          (value_bytes_iff.1 hv)
        simp only [hr]
        exact fun h => nomatch h
    exact fun p h => hgo p h
  | relative => simp
  | bad => simp

/-- C83. `new` makes a request with the given version, method and headers, the URL, the text as path, and no body; if the URL has a
host then that is the only value of `Host`, even if the headers have another. -/
theorem C83_new (version : Version) (method : Method) (path : Str) (headers : HeaderMap) (r : MockRequest)
    (h : MockRequest.new version method path headers = .ok r) :
    r.version = version ∧ r.method = method ∧ Deps.parseUrl path = .ok r.url ∧ r.path = path ∧ r.body = none ∧
      (∀ m, m ≠ hHost → r.headers.getAll m = headers.getAll m) ∧
      (∀ host, r.url.host = some host → ∃ v, r.headers.getAll hHost = [v] ∧ v.toStr = some host) ∧
      (r.url.host = none → r.headers.getAll hHost = headers.getAll hHost) := by
  unfold MockRequest.new at h
  cases hp : Deps.parseUrl path with
  | relative => rw [hp] at h; cases h
  | bad => rw [hp] at h; cases h
  | ok u =>
    simp only [hp] at h
    cases hh : u.host with
    | none =>
      simp only [hh] at h
      cases h
      exact ⟨rfl, rfl, rfl, rfl, rfl, fun _ _ => rfl, fun host e => (nomatch hh.symm.trans e), fun _ => rfl⟩
    | some host =>
      simp only [hh] at h
      obtain ⟨v, hv, hs⟩ := fromStr_visible (Url.host_visible hh)
      obtain ⟨r', hr, hset, _⟩ := C83_with_header ⟨version, method, u, path, headers, none⟩ (str% "Host") host hHost v rfl
        (value_bytes_iff.1 hv)
      rw [hr] at h
      cases h
      have hu : r.url = u := hset.url
      rw [hu]
      refine ⟨hset.version, hset.method, rfl, hset.path, hset.body, hset.others, fun x hx => ?_, fun e => ?_⟩
      · rw [hh] at hx
        cases hx
        exact ⟨v, hset.set, hs⟩
      · rw [hh] at e; cases e

end
end Httpsig

namespace Httpsig
section
attribute [local instance] toyDeps

/-- `C83_new`, `C83_with_header`, `C83_with_body`: a request with a `Host` header from its URL, another header, and a body. -/
example : ∃ r r' r'', MockRequest.new .http11 exPost (str% "https://example.com/foo?a=b") [(hHost, ⟨utf8 (str% "other"), rfl⟩)] = .ok r ∧
    r.url.host = some (str% "example.com") ∧ r.headers = [(hHost, ⟨utf8 (str% "example.com"), rfl⟩)] ∧
    r.withHeader (str% "X-Test") (str% "1 2") = .ok r' ∧ r'.withBody (utf8 (str% "hello, world")) = .ok r'' ∧
    r''.headers = [(hHost, ⟨utf8 (str% "example.com"), rfl⟩), (⟨str% "x-test", rfl⟩, ⟨utf8 (str% "1 2"), rfl⟩),
      (⟨str% "content-length", rfl⟩, ⟨utf8 (str% "12"), rfl⟩)] := ⟨_, _, _, rfl, by decide +kernel, by decide +kernel, rfl, rfl, by decide +kernel⟩

/-- The panics: an illegal name, an illegal value, a relative URL. -/
example : (¬ ∃ n : HeaderName, n.str = lowered (str% "X Test")) ∧ (¬ ∃ v : HeaderValue, v.bytes = utf8 (str% "a\nb")) ∧
    ∀ u, Deps.parseUrl (str% "/foo") ≠ .ok u :=
  ⟨fun ⟨n, h⟩ => absurd n.ok (by rw [h]; decide), fun ⟨v, h⟩ => absurd v.ok (by rw [h]; decide), fun _ => nofun⟩

end
end Httpsig
