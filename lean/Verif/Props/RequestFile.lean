import Verif.Lemmas.FieldName
import Verif.Lemmas.RequestFile
import Verif.Props.Pipeline
/-
C60: which files the validator reads as requests, and as which.
-/
set_option linter.unusedSectionVars false
namespace Httpsig
open Sfv
variable [Deps]

/-- `fromReader` up to the URL. -/
theorem fromReader_eq {input : Bytes} {trace : Bool} {method : Method} {path : Str} {version : Version} {headers : HeaderMap}
    {body : Option Bytes} (h : RequestText input method path version headers body) :
    MockRequest.fromReader input trace =
      if trace && body.any (fun b => (utf8Decode b).isNone) then .error .traceBody
      else (MockRequest.deriveUrl path headers).map fun u => u.map fun url => ⟨version, method, url, path, headers, body⟩ := by
  obtain ⟨line, rest, more, lines, hl, hw, hb, hv⟩ := h.parts
  obtain ⟨hrest, text, hd, hor⟩ := textLine_readLine hl
  have hsplit := words_iff.1 ((words_line hor _).2 hw)
  have hread : MockRequest.readHeaders [] (readLine input).2 = some (headers, body.isSome, body.getD []) := by
    rw [readHeaders_block, hrest]
    refine ⟨lines, ?_, ?_, lastValues_iff.1 hv⟩
    · cases body with
      | none => exact hb
      | some b => exact hb
    · cases body with
      | none => intro _; rfl
      | some b => intro h; cases h
  unfold MockRequest.fromReader
  rw [hd]
  simp only [hsplit, method_iff.2 rfl, version_iff.2 rfl, hread]
  have hbody : (if body.isSome = true then some (body.getD []) else none) = body := by cases body <;> rfl
  have htr : (trace && body.isSome && (utf8Decode (body.getD [])).isNone) = (trace && body.any (fun b => (utf8Decode b).isNone)) := by
    cases body <;> simp
  rw [hbody, htr]
  by_cases hc : (trace && body.any (fun b => (utf8Decode b).isNone)) = true
  · rw [if_pos hc, if_pos hc]; rfl
  · rw [if_neg hc, if_neg hc]
    cases MockRequest.deriveUrl path headers with
    | error e => rfl
    | ok u => cases u <;> rfl

/-- Anything else is an error, and not a panic. -/
theorem fromReader_malformed {input : Bytes} (trace : Bool)
    (h : ∀ method path version headers body, ¬ RequestText input method path version headers body) :
    MockRequest.fromReader input trace = .ok none := by
  unfold MockRequest.fromReader
  split
  · rfl
  · rename_i text hd
    obtain ⟨l, hl, hor⟩ := readLine_textLine hd
    split
    · rename_i m path v more hw
      split
      · rename_i method version hm hv
        split
        · rfl
        · rename_i headers hasBody rest hh
          obtain ⟨lines, hb, _, he⟩ := readHeaders_block.1 hh
          refine absurd ⟨l, _, more, lines, hl, ?_, hb, lastValues_iff.2 he⟩ (fun hp => h method path version headers _ ⟨hp⟩)
          rw [← words_line hor, words_iff, hw, method_iff.1 hm, version_iff.1 hv]
      · rfl
    · rfl

theorem trace_iff {trace : Bool} {body : Option Bytes} :
    (trace && body.any (fun b => (utf8Decode b).isNone)) = true ↔ trace = true ∧ ∃ b, body = some b ∧ ∀ s, utf8 s ≠ b := by
  cases body with
  | none => simp
  | some b => simp [← utf8Decode_none]

/-- C60. The validator reads exactly the files of the grammar `RequestFile`, and reads each as the request the grammar gives,
unless trace logging is on and the body is not text. -/
theorem C60_reads_exactly (input : Bytes) (trace : Bool) (r : MockRequest) :
    MockRequest.fromReader input trace = .ok (some r) ↔
      RequestFile input r ∧ (trace = true → ∀ b, r.body = some b → ∃ s, utf8 s = b) := by
  constructor
  · intro h
    refine ⟨?_, (fromReader_facts h).2⟩
    by_cases hex : ∃ method path version headers body, RequestText input method path version headers body
    · obtain ⟨method, path, version, headers, body, ht⟩ := hex
      rw [fromReader_eq ht] at h
      split at h
      · cases h
      · cases hu : MockRequest.deriveUrl path headers with
        | error e => rw [hu] at h; cases h
        | ok u =>
          rw [hu] at h
          cases u with
          | none => cases h
          | some url =>
            cases h
            exact ⟨ht, urlOf_iff.2 hu⟩
    · rw [fromReader_malformed trace fun m p v hs b hh => hex ⟨m, p, v, hs, b, hh⟩] at h
      cases h
  · rintro ⟨⟨ht, hu⟩, htr⟩
    rw [fromReader_eq ht, if_neg, urlOf_iff.1 hu]
    · rfl
    · rw [trace_iff]
      rintro ⟨h1, b, h2, h3⟩
      obtain ⟨s, hs⟩ := htr h1 b h2
      exact h3 s hs

/-- C60. The methods and header values that such a file can have: tokens with whatever capital letters, and bytes other than
control characters (but tabs). Which header names: C73. -/
theorem C60_methods_and_values (s : Str) (b : Bytes) :
    ((∃ m : Method, m.str = s) ↔ s ≠ [] ∧ ∀ c ∈ s, Grammar.Tchar c) ∧
    ((∃ v : HeaderValue, v.bytes = b) ↔ ∀ x ∈ b, x.toNat = 9 ∨ (32 ≤ x.toNat ∧ x.toNat ≠ 127)) := by
  constructor
  · constructor
    · rintro ⟨m, rfl⟩
      exact ⟨m.chars.1, fun c hc => (tchar_iff c).1 (m.chars.2 c hc)⟩
    · rintro ⟨h1, h2⟩
      refine ⟨⟨s, ?_⟩, rfl⟩
      rw [Bool.and_eq_true, List.all_eq_true]
      exact ⟨by cases s <;> simp_all, fun c hc => (tchar_iff c).2 (h2 c hc)⟩
  · have key : ∀ x : UInt8, isHeaderValueByte x = true ↔ x.toNat = 9 ∨ (32 ≤ x.toNat ∧ x.toNat ≠ 127) := by
      intro x
      simp only [isHeaderValueByte, Bool.or_eq_true, Bool.and_eq_true, decide_eq_true_eq, bne_iff_ne, beq_iff_eq]
      exact Or.comm
    constructor
    · rintro ⟨v, rfl⟩ x hx
      exact (key x).1 (List.all_eq_true.1 v.ok x hx)
    · intro h
      exact ⟨⟨b, List.all_eq_true.2 fun x hx => (key x).2 (h x hx)⟩, rfl⟩

example : (∃ m : Method, m.str = str% "M-Search") ∧ (¬ ∃ m : Method, m.str = str% "GET/") ∧
    (∃ v : HeaderValue, v.bytes = [200, 9, 32]) ∧ ¬ ∃ v : HeaderValue, v.bytes = [97, 10] := by
  refine ⟨⟨⟨_, rfl⟩, rfl⟩, fun h => ?_, ⟨⟨_, rfl⟩, rfl⟩, fun h => ?_⟩
  · exact absurd (((C60_methods_and_values _ []).1.1 h).2 '/' (by decide)) (by decide)
  · exact absurd ((C60_methods_and_values [] _).2.1 h 10 (by decide)) (by decide)

/-- C60. The header values that can be read as text are those of visible ASCII characters, spaces and tabs, and the text read is the
one whose UTF-8 form they are. -/
theorem C60_readable_values (v : HeaderValue) (s : Str) :
    v.toStr = some s ↔ utf8 s = v.bytes ∧ ∀ c ∈ s, c = '\t' ∨ (32 ≤ c.toNat ∧ c.toNat < 127) := by
  have key : ∀ c : Char, isVisibleChar c = true ↔ c = '\t' ∨ (32 ≤ c.toNat ∧ c.toNat < 127) := by
    intro c
    have h9 : c = '\t' ↔ c.toNat = 9 := ⟨fun h => by rw [h]; rfl, fun h => by
      rw [← Char.ofNat_toNat c, h]⟩
    simp only [isVisibleChar, Bool.or_eq_true, Bool.and_eq_true, decide_eq_true_eq, beq_iff_eq, h9]
    exact Or.comm
  have bytes : ∀ {w : HeaderValue}, HeaderValue.fromStr s = some w → utf8 s = w.bytes := by
    intro w hw
    unfold HeaderValue.fromStr HeaderValue.fromBytes at hw
    split at hw
    · cases hw; rfl
    · cases hw
  constructor
  · intro h
    obtain ⟨h1, h2⟩ := toStr_facts h
    exact ⟨bytes h1, fun c hc => (key c).1 (h2 c hc)⟩
  · rintro ⟨h1, h2⟩
    obtain ⟨w, hw, ht⟩ := fromStr_visible (List.all_eq_true.2 fun c hc => (key c).2 (h2 c hc))
    have e : w = v := by
      cases w; cases v
      simp only [HeaderValue.mk.injEq]
      exact (bytes hw).symm.trans h1
    exact e ▸ ht

example : (∃ v : HeaderValue, v.toStr = some (str% "a\tb")) ∧ ∀ v : HeaderValue, v.bytes = [200] → ∀ s, v.toStr ≠ some s := by
  refine ⟨⟨⟨[97, 9, 98], rfl⟩, rfl⟩, fun v hv s h => ?_⟩
  unfold HeaderValue.toStr at h
  rw [hv] at h
  cases h

/-- C60. A file has at most one reading. -/
theorem C60_unambiguous (input : Bytes) (r r' : MockRequest) (h : RequestFile input r) (h' : RequestFile input r') : r = r' := by
  have h1 := (C60_reads_exactly input false r).2 ⟨h, by simp⟩
  have h2 := (C60_reads_exactly input false r').2 ⟨h', by simp⟩
  rw [h1] at h2
  cases h2
  rfl

/-- The URL cannot be made: the path is relative, and put behind the host named in the file it is not a URL. -/
def UrlPanics (path : Str) (headers : HeaderMap) : Prop :=
  Deps.parseUrl path = .relative ∧ ∃ v h, (headers.getAll hHost).head? = some v ∧ v.toStr = some h ∧
    ∀ u, Deps.parseUrl (str% "http://" ++ h ++ path) ≠ .ok u

theorem urlPanics_iff {path : Str} {headers : HeaderMap} {p : Panic} :
    MockRequest.deriveUrl path headers = .error p ↔ p = .mockRequest ∧ UrlPanics path headers := by
  unfold MockRequest.deriveUrl UrlPanics
  rw [HeaderMap.get_eq_head_getAll]
  constructor
  · intro h
    split at h
    · cases h
    · cases h
    · rename_i hrel
      split at h
      · cases h
      · rename_i v hv
        split at h
        · cases h
        · rename_i t ht
          split at h
          · cases h
          · rename_i hno
            cases h
            exact ⟨rfl, hrel, v, t, hv, ht, hno⟩
  · rintro ⟨rfl, h1, v, t, h2, h3, h4⟩
    rw [h1]
    simp only [h2, h3]

/-- C60. Reading panics in exactly two cases: a body that is not text under trace logging, and a relative path that does not
make a URL with the host in the file. -/
theorem C60_reading_panics_exactly (input : Bytes) (trace : Bool) :
    (∃ p, MockRequest.fromReader input trace = .error p) ↔
      ∃ method path version headers body, RequestText input method path version headers body ∧
        ((trace = true ∧ ∃ b, body = some b ∧ ∀ s, utf8 s ≠ b) ∨ UrlPanics path headers) := by
  by_cases hex : ∃ method path version headers body, RequestText input method path version headers body
  · constructor
    · rintro ⟨p, hp⟩
      obtain ⟨method, path, version, headers, body, ht⟩ := hex
      refine ⟨method, path, version, headers, body, ht, ?_⟩
      rw [fromReader_eq ht] at hp
      split at hp
      · rename_i hc; exact .inl (trace_iff.1 hc)
      · cases hu : MockRequest.deriveUrl path headers with
        | ok u => rw [hu] at hp; cases hp
        | error e => exact .inr (urlPanics_iff.1 hu).2
    · rintro ⟨method, path, version, headers, body, ht, hc⟩
      rw [fromReader_eq ht]
      by_cases htr : (trace && body.any (fun b => (utf8Decode b).isNone)) = true
      · rw [if_pos htr]; exact ⟨_, rfl⟩
      · rw [if_neg htr]
        rcases hc with hc | hc
        · exact absurd (trace_iff.2 hc) htr
        · rw [urlPanics_iff.2 ⟨rfl, hc⟩]; exact ⟨_, rfl⟩
  · rw [fromReader_malformed trace fun m p v hs b hh => hex ⟨m, p, v, hs, b, hh⟩]
    constructor
    · rintro ⟨_, h⟩; cases h
    · rintro ⟨m, p, v, hs, b, hh, _⟩; exact absurd ⟨m, p, v, hs, b, hh⟩ hex

end Httpsig

namespace Httpsig
section
attribute [local instance] toyDeps

/-- A file with white space around names and values, a repeated header, and no line feed at the end of the body. -/
example : ∃ r, RequestFile (utf8 (str% "POST /a?x=1 HTTP/1.0 junk\nHost : h\nX:  1 \nx:2:3\n \nbody\n\nmore")) r ∧ r.version = .http10 ∧
    (r.headers.map fun e => (e.1.str, e.2.toStr)) = [(str% "host", some (str% "h")), (str% "x", some (str% "2:3"))] ∧
    r.body = some (utf8 (str% "body\n\nmore")) := by
  have h : (match MockRequest.fromReader (utf8 (str% "POST /a?x=1 HTTP/1.0 junk\nHost : h\nX:  1 \nx:2:3\n \nbody\n\nmore")) false with
    | .ok (some r) => decide (r.version = .http10 ∧ (r.headers.map fun e => (e.1.str, e.2.toStr)) =
        [(str% "host", some (str% "h")), (str% "x", some (str% "2:3"))] ∧ r.body = some (utf8 (str% "body\n\nmore")))
    | _ => false) = true := by decide +kernel
  split at h
  · rename_i r hr
    exact ⟨r, ((C60_reads_exactly _ _ _).1 hr).1, of_decide_eq_true h⟩
  · cases h

end

/-- Dependencies whose URL parser rejects the host `h`. -/
@[reducible] def pickyDeps : Deps :=
  { toyDeps with parseUrl := fun s => if (str% "http://h/").isPrefixOf s then .bad else plainParseUrl s }

section
attribute [local instance] pickyDeps

/-- The second case of `C60_reading_panics_exactly` (the first is in `C48_neg_trace`). -/
example : UrlPanics (str% "/a") [(hHost, ⟨utf8 (str% "h"), rfl⟩)] ∧
    ∃ p, MockRequest.fromReader (utf8 (str% "GET /a HTTP/1.1\nHost: h\n")) false = .error p := by
  refine ⟨⟨rfl, _, str% "h", rfl, by decide +kernel, by intro u h; cases h⟩, ?_⟩
  have h : (match MockRequest.fromReader (utf8 (str% "GET /a HTTP/1.1\nHost: h\n")) false with | .error _ => true | _ => false) = true := by
    decide +kernel
  split at h
  · exact ⟨_, by assumption⟩
  · cases h

end
end Httpsig
