import Verif.Spec.Readme
import Verif.Spec.TestDeps
import Verif.Props.Status
import Verif.Vectors.Files
/-
C133: what the commands in the validator's README do.
-/
namespace Httpsig
open Sfv
section
variable [Deps]

/-- The header the canonicalize command asks for. -/
def hContentDigest : HeaderName := ⟨str% "content-digest", rfl⟩

theorem readme_option {o : Opt} {s : Str} {l comps : List SignatureComponent} (ho : o.headers = some (some s))
    (hs : (splitAsciiWs s).mapM SignatureComponent.fromStr = .ok l) : HeaderOption o comps ↔ comps = l := by
  rw [headerOption_iff]
  unfold Opt.parseHeaders
  rw [ho]
  simp only [hs]
  constructor
  · rintro ⟨x, h, rfl⟩; cases h; rfl
  · rintro rfl; exact ⟨some _, rfl, rfl⟩

theorem readme_canonicalize_option (h : Host) {comps : List SignatureComponent} :
    HeaderOption (readmeCanonicalize.opt h) comps ↔ comps = [.header hHost, .header hDate, .header hContentDigest] :=
  readme_option rfl rfl

theorem readme_sign_option (h : Host) {comps : List SignatureComponent} :
    HeaderOption (readmeSign.opt h) comps ↔ comps = [.header hHost, .header hDate, .header hDigest] :=
  readme_option rfl rfl

theorem field_iff {r : MockRequest} {n : HeaderName} {s : Str} : Field r n.str s ↔ ComponentValue r (.header n) s := by
  constructor
  · rintro ⟨m, hm, h⟩
    cases m; cases n; cases hm
    exact .field h
  · intro h; cases h with | field h => exact ⟨n, rfl, h⟩

theorem noField_iff {r : MockRequest} {n : HeaderName} : NoField r n.str ↔ Absent r (.header n) := by
  constructor
  · intro h v hv
    cases hv with
    | field hv =>
      obtain ⟨w, hw, _⟩ := fieldText_iff.1 hv
      obtain ⟨a, b, e, _⟩ := firstLine_iff.2 hw
      exact h (n, w) (by rw [e]; simp) rfl
  · intro h e he hn
    cases hg : r.headers.get n with
    | some w => exact h _ (.field (fieldText_iff.2 ⟨w, hg, rfl⟩))
    | none =>
      unfold HeaderMap.get at hg
      rw [Option.map_eq_none_iff, List.find?_eq_none] at hg
      refine hg e he (decide_eq_true ?_)
      cases h1 : e.1; cases n; rw [h1] at hn; cases hn; rfl

theorem values_three {r : MockRequest} {a b c : HeaderName} {vals : List Str} :
    Values r [.header a, .header b, .header c] vals ↔
      ∃ x y z, vals = [x, y, z] ∧ Field r a.str x ∧ Field r b.str y ∧ Field r c.str z := by
  simp only [field_iff]
  refine values_text.trans ⟨fun h => ?_, ?_⟩
  · cases h with
    | cons h1 h => cases h with
      | cons h2 h => cases h with
        | cons h3 h => cases h; exact ⟨_, _, _, rfl, h1, h2, h3⟩
  · rintro ⟨x, y, z, rfl, h1, h2, h3⟩
    exact .cons h1 (.cons h2 (.cons h3 .nil))

theorem idents_three {a b c : HeaderName} {ids : List Str} :
    Forall2 Ident [.header a, .header b, .header c] ids ↔
      ids = ['"' :: a.str ++ ['"'], '"' :: b.str ++ ['"'], '"' :: c.str ++ ['"']] := by
  refine ⟨fun h => ?_, ?_⟩
  · cases h with
    | cons h1 h => cases h with
      | cons h2 h => cases h with
        | cons h3 h => cases h; cases h1; cases h2; cases h3; rfl
  · rintro rfl; exact .cons (.header a) (.cons (.header b) (.cons (.header c) .nil))

theorem listIdents_three {a b c : HeaderName} {ids : List Str} :
    Forall2 ListIdent [.header a, .header b, .header c] ids ↔ ids = [quoted a.str, quoted b.str, quoted c.str] := by
  refine ⟨fun h => ?_, ?_⟩
  · cases h with
    | cons h1 h => cases h with
      | cons h2 h => cases h with
        | cons h3 h => cases h; cases h1; cases h2; cases h3; rfl
  · rintro rfl; exact .cons (.header a) (.cons (.header b) (.cons (.header c) .nil))

/-- C133. The command for canonicalizing prints, for every request on standard input that has the three fields, their lines and the
line the README shows, and otherwise does not succeed. -/
theorem C133_canonicalize (h : Host) (out : Bytes) :
    readmeCanonicalize.main h = ⟨out, .ok (.ok ())⟩ ↔
      ∃ req host date digest, ReadsRequest readmeCanonicalize h req ∧ Field req (str% "host") host ∧
        Field req (str% "date") date ∧ Field req (str% "content-digest") digest ∧
        out = utf8 (str% "\"host\": " ++ host ++ str% "\n\"date\": " ++ date ++ str% "\n\"content-digest\": " ++ digest ++
          '\n' :: readmeLastLine) := by
  rw [C62_canonicalize_exact readmeCanonicalize h out rfl]
  constructor
  · rintro ⟨req, alg, comps, ids, lids, vals, h1, h2, _, h4, h5, h6, h7, _, rfl⟩
    cases h2
    cases (readme_canonicalize_option h).1 h4
    obtain ⟨x, y, z, rfl, hx, hy, hz⟩ := values_three.1 h5
    cases idents_three.1 h6
    cases listIdents_three.1 h7
    refine ⟨req, x, y, z, h1, hx, hy, hz, congrArg utf8 ?_⟩
    simp [specBase, specLines, specListText, canonParamsText, readmeCanonicalize, readmeLastLine, hHost, hDate, hContentDigest, quoted]
  · rintro ⟨req, x, y, z, h1, hx, hy, hz, rfl⟩
    refine ⟨req, _, _, _, _, _, h1, rfl, by decide, (readme_canonicalize_option h).2 rfl, values_three.2 ⟨x, y, z, rfl, hx, hy, hz⟩,
      idents_three.2 rfl, listIdents_three.2 rfl, ⟨nofun, nofun, nofun, ?_⟩, congrArg utf8 ?_⟩
    · intro k hk; cases hk; decide
    · simp [specBase, specLines, specListText, canonParamsText, readmeCanonicalize, readmeLastLine, hHost, hDate, hContentDigest, quoted]

theorem readme_base (x y z : Str) :
    specBase ['"' :: hHost.str ++ ['"'], '"' :: hDate.str ++ ['"'], '"' :: hDigest.str ++ ['"']]
      [quoted hHost.str, quoted hDate.str, quoted hDigest.str] [x, y, z] (signParamsText readmeSign (str% "rsa-v1_5-sha256")) =
      readmeBase x y z := by
  simp [specBase, specLines, specListText, signParamsText, readmeSign, readmeBase, readmeInput, hHost, hDate, hDigest, quoted]

/-- C133. The command for signing succeeds exactly if the request on standard input has the three fields, the file has a private key
and the clock works; it then writes the request with these two headers. They never say `hmac-sha256`, as in the README. -/
theorem C133_sign (h : Host) (out : Bytes) :
    readmeSign.main h = ⟨out, .ok (.ok ())⟩ ↔
      ∃ req host date digest pem key vi vs, ReadsRequest readmeSign h req ∧ Field req (str% "host") host ∧
        Field req (str% "date") date ∧ Field req (str% "digest") digest ∧
        h.files (str% "../test_data/rsa-private.pem") = .contents pem ∧ privatePkcs8Pem pem = some key ∧ 0 ≤ h.signEnv.sysNow ∧
        vi.bytes = utf8 (str% "sig=" ++ readmeInput) ∧
        vs.bytes = utf8 (str% "sig=:" ++ Base64.encode (Deps.asymSign .rsaPkcs1Sha256 key h.signEnv.rnd
          (utf8 (readmeBase host date digest))) ++ str% ":") ∧
        FileOf ((req.setHeader hSignatureInput vi).setHeader hSignature vs) out := by
  have hi : str% "sig=" ++ (specListText [quoted hHost.str, quoted hDate.str, quoted hDigest.str] ++
      signParamsText readmeSign (str% "rsa-v1_5-sha256")) = str% "sig=" ++ readmeInput := by
    simp [specListText, signParamsText, readmeSign, readmeInput, hHost, hDate, hDigest, quoted]
  rw [C62_sign_exact readmeSign h out rfl]
  constructor
  · rintro ⟨req, r', h1, ⟨name, prim, key, comps, ids, lids, vals, vi, vs, ⟨alg, pem, ha, hsup, ⟨path, hp, hf⟩, hk, ho⟩, hc, _, _, hv,
      h6, h7, hvi, hvs, rfl⟩, ho'⟩
    cases ha
    cases hp
    cases hsup
    cases (readme_sign_option h).1 ho
    obtain ⟨x, y, z, rfl, hx, hy, hz⟩ := values_three.1 hv
    cases idents_three.1 h6
    cases listIdents_three.1 h7
    rw [hi] at hvi
    rw [readme_base] at hvs
    exact ⟨req, x, y, z, pem, key, vi, vs, h1, hx, hy, hz, hf, hk, hc, hvi, hvs, ho'⟩
  · rintro ⟨req, x, y, z, pem, key, vi, vs, h1, hx, hy, hz, hf, hk, hc, hvi, hvs, ho'⟩
    rw [← hi] at hvi
    rw [← readme_base] at hvs
    exact ⟨req, _, h1, ⟨_, _, key, _, _, _, _, vi, vs, ⟨_, pem, rfl, .pkcs256, ⟨_, rfl, hf⟩, hk, (readme_sign_option h).2 rfl⟩, hc,
      ⟨nofun, nofun⟩, ⟨nofun, nofun, by decide⟩, values_three.2 ⟨x, y, z, rfl, hx, hy, hz⟩, idents_three.2 rfl,
      listIdents_three.2 rfl, hvi, hvs, rfl⟩, ho'⟩

theorem silent_of_error {a : Args} {h : Host} {e : AppError} (hs : (a.main h).status = .ok (.error e)) (he : e ≠ .write) :
    a.main h = ⟨[], .ok (.error e)⟩ := by
  have ho : (a.main h).stdout = [] := by
    apply Classical.byContradiction
    intro hn
    rcases C61_output_partial a h hn with h' | ⟨_, h'⟩
    · rw [hs] at h'; cases h'
    · rw [hs] at h'; cases h'; exact he rfl
  cases hm : a.main h with
  | mk o st =>
    rw [hm] at ho hs
    cases ho; cases hs; rfl

/-- C133. With a request that lacks one of the three fields, like the one in the file that the README uses, the command for
signing fails: it writes no request, and its error does not say which field is missing. -/
theorem C133_sign_missing (h : Host) (req : MockRequest) (pem key : Bytes) (hr : ReadsRequest readmeSign h req)
    (hf : h.files (str% "../test_data/rsa-private.pem") = .contents pem) (hk : privatePkcs8Pem pem = some key)
    (hc : 0 ≤ h.signEnv.sysNow) (hm : ∃ n ∈ [str% "host", str% "date", str% "digest"], NoField req n) :
    readmeSign.main h = ⟨[], .ok (.error (.lib .canonicalize))⟩ := by
  refine silent_of_error ((C125_errors readmeSign h _).2 ⟨req, hr, .components rfl
    ⟨_, pem, rfl, .pkcs256, ⟨_, rfl, hf⟩, hk, (readme_sign_option h).2 rfl⟩ hc ⟨nofun, nofun⟩ ?_⟩) nofun
  obtain ⟨n, hn, hno⟩ := hm
  simp only [List.mem_cons, List.not_mem_nil, or_false] at hn
  rcases hn with rfl | rfl | rfl
  · exact ⟨_, by simp, (noField_iff (n := hHost)).1 hno⟩
  · exact ⟨_, by simp, (noField_iff (n := hDate)).1 hno⟩
  · exact ⟨_, by simp, (noField_iff (n := hDigest)).1 hno⟩

/-- C133. The command for verifying panics on what the failed command for signing has written, whatever keys, clocks and
log level. -/
theorem C133_pipe_empty (h : Host) (hs : h.stdin = some []) : readmeVerify.main h = ⟨[], .error .readInput⟩ := by
  have hi : readmeVerify.input h = .ok [] := by
    show (match h.stdin with | none => .error .readInput | some b => .ok b : P Bytes) = _
    rw [hs]
  have hn : MockRequest.fromReader [] h.trace = .ok none := by
    have hd : utf8Decode (readLine []).1 = some [] := by decide +kernel
    have hw : splitAsciiWs [] = [] := by decide +kernel
    unfold MockRequest.fromReader
    rw [hd]
    simp only [hw]
  unfold Args.main
  rw [hi]
  simp only [hn]

omit [Deps] in
theorem readme_label : PlainLabel (readmeSign.label.getD (str% "sig")) := by
  constructor
  · intro c hc
    simp only [readmeSign, Option.getD_some, List.mem_cons, List.not_mem_nil, or_false] at hc
    rcases hc with rfl | rfl | rfl <;> exact ⟨by unfold VisibleChar; decide, by decide⟩
  · intro c hc
    cases hc
    unfold Blank; decide

/-- C133. The two commands in a pipe: exactly when the second accepts what the first wrote. -/
theorem C133_pipe (h : Host) (out : Bytes) (hs : readmeSign.main h = ⟨out, .ok (.ok ())⟩) :
    ∃ req host date digest pem key, ReadsRequest readmeSign h req ∧ Field req (str% "host") host ∧
      Field req (str% "date") date ∧ Field req (str% "digest") digest ∧
      h.files (str% "../test_data/rsa-private.pem") = .contents pem ∧ privatePkcs8Pem pem = some key ∧
      ∀ h' : Host, h'.stdin = some out → (h'.trace = true → h.trace = true) →
        (readmeVerify.main h').stdout = [] ∧
        ((readmeVerify.main h').status = .ok (.ok ()) ↔ 0 ≤ h'.verifyEnv.sysNow ∧ DigestFits req ∧
          ∃ pem' key', h'.files (str% "../test_data/rsa-public.pem") = .contents pem' ∧
            (publicSpkiPem pem' = some key' ∨ publicSpkiPem pem' = none ∧ publicPkcs1Pem pem' = some key') ∧
            Deps.asymVerify .rsaPkcs1Sha256 key' (utf8 (readmeBase host date digest))
              (Deps.asymSign .rsaPkcs1Sha256 key h.signEnv.rnd (utf8 (readmeBase host date digest))) = true) := by
  have hno : NoSignatureHeaders (readmeSign.opt h) := by
    intro comps hc
    cases (readme_sign_option h).1 hc
    have hne : ∀ {x y : HeaderName}, x.str ≠ y.str → SignatureComponent.header x ≠ .header y := by
      intro x y h e; cases e; exact h rfl
    have d1 : str% "signature" ≠ str% "host" ∧ str% "signature" ≠ str% "date" ∧ str% "signature" ≠ str% "digest" := by decide
    have d2 : str% "signature-input" ≠ str% "host" ∧ str% "signature-input" ≠ str% "date" ∧ str% "signature-input" ≠ str% "digest" := by
      decide
    constructor
    · intro hm
      simp only [List.mem_cons, List.not_mem_nil, or_false] at hm
      rcases hm with e | e | e
      · exact hne d1.1 e
      · exact hne d1.2.1 e
      · exact hne d1.2.2 e
    · intro hm
      simp only [List.mem_cons, List.not_mem_nil, or_false] at hm
      rcases hm with e | e | e
      · exact hne d2.1 e
      · exact hne d2.2.1 e
      · exact hne d2.2.2 e
  obtain ⟨req, name, prim, key, comps, base, hr, ⟨alg, pem, ha, hsup, ⟨path, hp, hf⟩, hk, ho⟩, hb, hiff⟩ :=
    C49_processes readmeSign h out rfl hs readme_label hno
  cases ha
  cases hp
  cases hsup
  obtain ⟨comps', ids, lids, vals, ho', hv, h6, h7, rfl⟩ := hb
  cases (readme_sign_option h).1 ho'
  obtain ⟨x, y, z, rfl, hx, hy, hz⟩ := values_three.1 hv
  cases idents_three.1 h6
  cases listIdents_three.1 h7
  rw [show optParamsText (readmeSign.opt h) (str% "rsa-v1_5-sha256") = signParamsText readmeSign (str% "rsa-v1_5-sha256") from rfl,
    readme_base] at hiff
  refine ⟨req, x, y, z, pem, key, hr, hx, hy, hz, hf, hk, fun h' hin ht => ⟨(C62_verify_exact readmeVerify h' rfl).1, ?_⟩⟩
  rw [hiff readmeVerify h' rfl rfl hin ht]
  constructor
  · rintro ⟨_, h1, _, _, h2, name, prim, key', ⟨alg, pem', ha, hsup, ⟨path, hp, hf'⟩, hk'⟩, _, h3⟩
    cases ha
    cases hp
    cases hsup
    rcases hk' with ⟨_, hk'⟩ | ⟨hk', _⟩
    · exact ⟨h1, h2, pem', key', hf', hk', h3⟩
    · exact absurd rfl hk'
  · rintro ⟨h1, h2, pem', key', hf', hk', h3⟩
    exact ⟨rfl, h1, nofun, nofun, h2, _, _, key', ⟨_, pem', rfl, .pkcs256, ⟨_, rfl, hf'⟩, .inl ⟨rfl, hk'⟩⟩, rfl, h3⟩

/-- C133. The README's recipe for a key writes a DER file. The command for signing refuses every key file without the first
line of a PEM document. -/
theorem C133_der_key (h : Host) (req : MockRequest) (der : Bytes) (hr : ReadsRequest readmeSign h req)
    (hf : h.files (str% "../test_data/rsa-private.pem") = .contents der)
    (hd : ∀ pre post, der ≠ pre ++ utf8 (str% "-----BEGIN ") ++ post) :
    readmeSign.main h = ⟨[], .ok (.error .badKey)⟩ := by
  have hn : privatePkcs8Pem der = none := by
    unfold privatePkcs8Pem
    cases hp : Pem.parse der with
    | none => rfl
    | some c =>
      obtain ⟨pre, data, post, label, _, _, e⟩ := Pem.parse_document hp
      refine absurd ?_ (hd pre (utf8 (label ++ str% "-----") ++ data ++ utf8 (str% "-----END " ++ label ++ str% "-----") ++ post))
      rw [e, show str% "-----BEGIN " ++ label ++ str% "-----" = str% "-----BEGIN " ++ (label ++ str% "-----") from List.append_assoc ..,
        utf8_append]
      simp only [List.append_assoc]
  refine silent_of_error ((C125_errors readmeSign h _).2 ⟨req, hr, .options (.badKey _ _ _ der ?_ rfl .pkcs256 hn)⟩) nofun
  show some (h.files _).read = _
  rw [hf]
  rfl

end

section
attribute [local instance] toyDeps

/-- The request of the README's commands with the README's key files (their contents shortened). -/
def exReadmeHost : Host where
  files p := if p = str% "../test_data/rsa-private.pem" ∨ p = str% "../test_data/rsa-public.pem" then .contents exKeyFile else .missing
  stdin := some basicRequestTxt
  trace := true
  signEnv := ⟨0, 150000000000, 0⟩
  verifyEnv := ⟨200000000000, 0⟩

/-- A request with the field the command for signing wants. -/
def exReadmeDigest : Host :=
  { exReadmeHost with
    stdin := some (utf8 (str% "POST /a HTTP/1.1\nHost: h\nDate: today\nDigest: SHA-256=aGVsbG8=\n\nhello")) }

/-- `C133_canonicalize` on the README's request gives the README's output. -/
example : readmeCanonicalize.main exReadmeHost = ⟨utf8 (str% "\"host\": example.com\n\"date\": Tue, 20 Apr 2021 02:07:55 GMT\n\"content-digest\": sha-256=:X48E9qOokqqrvdts8nOJRJN3OWDUoyWxBf7kbu9DBPE=:\n\"@signature-params\": (\"host\" \"date\" \"content-digest\");keyid=\"test-key-rsa\";alg=\"rsa-v1_5-sha256\""),
    .ok (.ok ())⟩ := by
  have hk : (readmeCanonicalize.main exReadmeHost).kind = 0 := by decide +kernel
  have ho : (readmeCanonicalize.main exReadmeHost).stdout = utf8 (str% "\"host\": example.com\n\"date\": Tue, 20 Apr 2021 02:07:55 GMT\n\"content-digest\": sha-256=:X48E9qOokqqrvdts8nOJRJN3OWDUoyWxBf7kbu9DBPE=:\n\"@signature-params\": (\"host\" \"date\" \"content-digest\");keyid=\"test-key-rsa\";alg=\"rsa-v1_5-sha256\"") := by
    decide +kernel
  rw [← ho, ← Exit.kind_ok hk]

/-- The hypotheses of `C133_sign_missing`: the README's own request has no `digest` field. -/
example : ∃ req pem key, ReadsRequest readmeSign exReadmeHost req ∧
    exReadmeHost.files (str% "../test_data/rsa-private.pem") = .contents pem ∧ privatePkcs8Pem pem = some key ∧
    0 ≤ exReadmeHost.signEnv.sysNow ∧ NoField req (str% "digest") := by
  have hk : (privatePkcs8Pem exKeyFile).isSome = true := by decide +kernel
  obtain ⟨key, hk⟩ := Option.isSome_iff_exists.1 hk
  have hr : ((MockRequest.fromReader basicRequestTxt true).toOption.bind id).map (fun r => r.headers.map fun e => e.1.str) =
      some [str% "host", str% "date", str% "content-type", str% "content-digest", str% "example-dict", str% "content-length"] := by
    decide +kernel
  cases hf : MockRequest.fromReader basicRequestTxt true with
  | error p => rw [hf] at hr; cases hr
  | ok x =>
    cases x with
    | none => rw [hf] at hr; cases hr
    | some req =>
      rw [hf] at hr
      obtain ⟨h1, h2⟩ := (C60_reads_exactly basicRequestTxt true req).1 hf
      refine ⟨req, exKeyFile, key, ⟨_, rfl, h1, h2⟩, rfl, hk, by decide, ?_⟩
      intro e he hd
      have : (req.headers.map fun e => e.1.str) = _ := Option.some.inj hr
      have hm : str% "digest" ∈ req.headers.map fun e => e.1.str := List.mem_map.2 ⟨e, he, hd⟩
      rw [this] at hm
      exact absurd hm (by decide)
/-- So the README's command for signing fails, and the pipe ends with a panic. -/
example : (readmeSign.main exReadmeHost).kind = 2 ∧
    (readmeVerify.main { exReadmeHost with stdin := some (readmeSign.main exReadmeHost).stdout }).kind = 3 := by decide +kernel

/-- A request with the three fields: the commands of `C133_sign` and `C133_pipe` succeed. -/
example : (readmeSign.main exReadmeDigest).kind = 0 ∧
    (readmeVerify.main { exReadmeDigest with stdin := some (readmeSign.main exReadmeDigest).stdout }).kind = 0 := by decide +kernel

/-- A file as `C133_der_key` wants it: DER, which starts with the byte 48. -/
example : ∀ pre post, ([48, 130, 4, 189, 2, 1, 0] : Bytes) ≠ pre ++ utf8 (str% "-----BEGIN ") ++ post := by
  intro pre post h
  have := congrArg List.length h
  simp [show (utf8 (str% "-----BEGIN ")).length = 11 from by decide +kernel] at this
  omega
example : (readmeSign.main { exReadmeDigest with files := fun _ => .contents [48, 130, 4, 189, 2, 1, 0] }).kind = 2 := by decide +kernel

end
end Httpsig
