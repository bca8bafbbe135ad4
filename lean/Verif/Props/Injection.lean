import Verif.Props.Tamper
import Verif.Props.Derive
/-
C36: an accepted tampered request, when `@query-params` is covered twice.
-/
set_option linter.unusedSectionVars false
namespace Httpsig
open Sfv
variable [Deps]
/-- A request with the given query, host header, `Signature-Input` and `Signature`. -/
def exSwapRequest (q : QueryText) (host input signature : HeaderValue) : MockRequest :=
  { exMock [(hHost, host), (hSignatureInput, input), (hSignature, signature)] none with url := (exQueryRequest q).url }

/-- Its `Signature-Input`. -/
def exSwapInput : Str := str% "sig=(\"@query-params\";name=\"p\" \"host\" \"@query-params\";name=\"q\");alg=\"a\";keyid=\"k\""
/-- What the header reads as. -/
def exSwapConfig : CanonicalizeConfig :=
  { label := some (str% "sig"), components := [qp (str% "p"), .header hHost, qp (str% "q")],
    params := ⟨[(kAlg, .string (str% "a")), (kKeyid, .string (str% "k"))]⟩ }
/-- The signature base that both requests have. -/
def exSwapBase : Bytes := utf8 (str% "\"@query-params\";name=\"p\": x\n\"host\": a\n\"@query-params\";name=\"q\": 1\n\"host\": b\n\"@query-params\";name=\"q\": 2\n\"@signature-params\": (\"@query-params\";name=\"p\" \"host\" \"@query-params\";name=\"q\");alg=\"a\";keyid=\"k\"")

/-- C36 fails when `@query-params` is covered twice. For every HMAC key there are two requests with the same
`Signature-Input` and `Signature` headers and different hosts, the single `host` header being covered, that are both accepted. -/
theorem C36_neg_two_queries (name : Str) (mac : Bytes → Bytes) : ∃ (v w : HeaderValue) (r s : MockRequest),
    r.headers = [(hHost, ⟨utf8 (str% "a"), rfl⟩), (hSignatureInput, v), (hSignature, w)] ∧
    s.headers = [(hHost, ⟨utf8 (str% "b"), rfl⟩), (hSignatureInput, v), (hSignature, w)] ∧
    CanonicalizeConfig.fromSignatureInput (v.toStr.getD []) = .ok (.ok exSwapConfig) ∧ .header hHost ∈ exSwapConfig.components ∧
    ∀ env : VerifyEnv, 0 ≤ env.sysNow → ∀ config, config = ((VerifyingConfig.new fun _ => [hmacVerify name mac]).setValidateDate false) →
      verify r config env = .ok (.ok ((), str% "k")) ∧ verify s config env = .ok (.ok ((), str% "k")) := by
  have htext : (str% "sig=:" ++ Base64.encode (mac exSwapBase) ++ [':']).all isVisibleChar = true := by
    apply visible_of_printable
    have : (Base64.encode (mac exSwapBase)).all isStringChar = true := by
      have := serBare_printable (b := .byteSeq (mac exSwapBase)) rfl
      simp only [List.cons_append, List.all_cons, List.all_append, Bool.and_eq_true] at this
      exact this.2.1
    simp only [List.all_append, this]
    decide
  obtain ⟨w, _, hw⟩ := fromStr_visible htext
  obtain ⟨v, _, hv⟩ := fromStr_visible (s := exSwapInput) (by decide)
  have hmem : ∀ c ∈ Base64.encode (mac exSwapBase), (c == ':') = false := by
    intro c hc
    have := List.all_eq_true.1 (Base64.encode_all (mac exSwapBase)) c hc
    rcases h : (c == ':') with _ | _
    · rfl
    · simp at h; subst h; revert this; decide
  have main : ∀ q host vals, Values (exSwapRequest q host v w) exSwapConfig.components vals →
      exSwapBase = utf8 (specBase [str% "\"@query-params\";name=\"p\"", str% "\"host\"", str% "\"@query-params\";name=\"q\""]
        [str% "\"@query-params\";name=\"p\"", str% "\"host\"", str% "\"@query-params\";name=\"q\""] vals (str% ";alg=\"a\";keyid=\"k\"")) →
      ∀ env : VerifyEnv, 0 ≤ env.sysNow → ∀ config, config = ((VerifyingConfig.new fun _ => [hmacVerify name mac]).setValidateDate false) →
      verify (exSwapRequest q host v w) config env = .ok (.ok ((), str% "k")) := by
    rintro q host vals hvals hbase env henv _ rfl
    have get : ∀ n, (exSwapRequest q host v w).headers.get n =
        if hHost = n then some host else if hSignatureInput = n then some v else if hSignature = n then some w else none := by
      intro n
      simp only [exSwapRequest, exMock, HeaderMap.get, List.find?_cons, List.find?_nil]
      by_cases h1 : hHost = n
      · simp [h1]
      · by_cases h2 : hSignatureInput = n
        · simp [h1, h2]
        · by_cases h3 : hSignature = n <;> simp [h1, h2, h3]
    refine verify_ok_iff.2 ⟨exSwapConfig, Base64.encode (mac exSwapBase), exSwapBase, ?_, ?_, ?_, ?_⟩
    · refine ⟨⟨exSwapInput, ?_, rfl⟩, ⟨str% "sig=:" ++ Base64.encode (mac exSwapBase) ++ [':'], str% "sig", ?_, ?_, rfl⟩, by simp [exSwapConfig, kKeyid], ⟨str% "a", by simp [exSwapConfig, kAlg]⟩, henv,
        ⟨by intro t h; simp [exSwapConfig, kAlg, kKeyid] at h, by intro t h; simp [exSwapConfig, kAlg, kKeyid] at h⟩,
        ⟨_, canonicalize_ok_iff.2 ⟨vals, _, _, _, hvals, .cons (ident_derived_iff.2 rfl) (.cons (.header _) (.cons (ident_derived_iff.2 rfl) .nil)),
          .cons (listIdent_iff.2 rfl) (.cons (listIdent_iff.2 rfl) (.cons (listIdent_iff.2 rfl) .nil)), serParams_iff.1 rfl, hbase, rfl⟩⟩, ⟨_, List.mem_singleton.2 rfl, ?_⟩⟩
      · show Except.ok (((exSwapRequest q host v w).headers.get hSignatureInput).map fun v => v.toStr.getD []) = _
        rw [get, if_neg (by intro h; cases h), if_pos rfl]
        simp [hv]
      · show Except.ok (((exSwapRequest q host v w).headers.get hSignature).map fun v => v.toStr.getD []) = _
        rw [get, if_neg (by intro h; cases h), if_neg (by intro h; cases h), if_pos rfl, Option.map_some, hw]
        rfl
      · refine ⟨':' :: Base64.encode (mac exSwapBase) ++ [':'], by simp, by decide, [':'], [':'], by simp, by simp, by simp, ?_, ?_⟩
        · intro c hc; exact hmem c (List.mem_of_mem_head? hc)
        · intro c hc; exact hmem c (List.mem_of_getLast? hc)
      · exact hmacVerify_iff.2 (Base64.strictDecode_encode _)
    · intro k hk
      cases hk
    · intro h; cases h
    · right
      refine ⟨?_, rfl⟩
      show Except.ok (((exSwapRequest q host v w).headers.get hDigest).map fun v => v.toStr.getD []) = _
      rw [get, if_neg (by intro h; cases h), if_neg (by intro h; cases h), if_neg (by intro h; cases h)]
      rfl
  have hq : ∀ q n host, RequestLike.derive (self := ServerRequestLike.toRequestLike (Remnant := Unit)) (exSwapRequest q host v w) (qp n) =
    .ok (some (joinWith (str% "\n") (((formParse (utf8 q.text)).filter fun p => n = p.1).map Prod.snd))) := fun _ _ _ => rfl
  have hh : ∀ q host, RequestLike.derive (self := ServerRequestLike.toRequestLike (Remnant := Unit)) (exSwapRequest q host v w) (.header hHost) =
    .ok (some (host.toStr.getD [])) := fun _ _ => rfl
  refine ⟨v, w, exSwapRequest exSwapA ⟨utf8 (str% "a"), rfl⟩ v w, exSwapRequest exSwapB ⟨utf8 (str% "b"), rfl⟩ v w, rfl, rfl, ?_, by simp [exSwapConfig], ?_⟩
  · rw [hv]; rfl
  · intro env henv config hconfig
    refine ⟨main _ _ [str% "x", str% "a", str% "1\n\"host\": b\n\"@query-params\";name=\"q\": 2"] ?_ rfl env henv config hconfig,
      main _ _ [str% "x\n\"host\": a\n\"@query-params\";name=\"q\": 1", str% "b", str% "2"] ?_ rfl env henv config hconfig⟩
    · simp only [Values, exSwapConfig, List.map_cons, List.map_nil, hq, hh, exSwapA_pairs]
      rfl
    · simp only [Values, exSwapConfig, List.map_cons, List.map_nil, hq, hh, exSwapB_pairs]
      rfl
end Httpsig
