# Formal model of dskyberg/httpsig in Lean 4 — design

`lean/Verif/` holds a function-by-function transcription of `/repo/src` and `/repo/httpsig-validator/src` into total,
computable Lean functions, specifications written without those functions, and theorems that connect the two. Every
definition of the model cites the file and lines it models. Properties: `properties.jsonl`. Theorems per property:
`MANIFEST.json`, generated by `tools/manifest.py` from the theorem names and `tools/notes.json`.

## 1. Trusted base

* Lean 4.33.0's kernel. Mathlib is used for C136–C140 and C142–C145 only: `Lemmas/RsaMath` (Fermat's little theorem, the primality of two Mersenne numbers), `Lemmas/Pratt` (primality certificates), `Spec/Ecdsa` (the group of points of a Weierstrass curve: the meaning of C138 rests on this definition) and `Lemmas/P256`, `Lemmas/P256Order`, `Lemmas/Ecdsa`, `Lemmas/EcPkcs8`, `Lemmas/RsaPublic`, `Lemmas/RsaPkcs8`; everything else is based on Lean core.
* The axioms listed per theorem in section 8: at most `propext`, `Quot.sound` and `Classical.choice`. No axiom is added. There
  is no `sorry`, `admit`, `native_decide` or `bv_decide`.
* The reading of /repo recorded in the comments of `Verif/Model/*` (section 3 says what is modelled, section 4 what is not).
* The models of dependency crates (section 5). They are not in /repo, and neither their source nor their
  documentation was available while the models were written: the models are from recollection of both, and have not been compared
  with the source or with runs of these crates, except through the recorded outputs in `Verif/Vectors`. What /repo does not determine is a parameter of the theorems, not an assumption.
* The statements: definitions in `Verif/Spec/*`, which have to be read to know what a theorem says.

`Verif/Vectors` is evidence for the reading, not part of the proofs: it evaluates the model on the recorded outputs in /repo
(its unit tests, its files of test data), and on keys and signatures made with the `openssl` command (3.0.13), with SHA-2, HMAC, RSA and ECDSA implemented in Lean. All agree, with one exception: the
repository's own test `test_derive_authority` cannot pass on the code as it is, because `MockRequest` has no authority.

## 2. Conventions

* `String`, `&str` → `Str = List Char` (Lean's `Char` is a Unicode scalar value, like Rust's). `&[u8]` → `List UInt8`. Text is
  turned to bytes by Lean core's `String.utf8EncodeChar`. `i64` → `Int`, with saturation where the code saturates.
* A panic (`unwrap`, `expect`, `to_string` on a failing `Display`) is a value: functions that can panic return
  `P α = Except Panic α`, with one `Panic` constructor per call site. A `Result` is a nested `Except Error α`.
* `&mut` becomes state passing. `sign` returns the request as it is left, also on error.
* Traits become Lean classes of functions, so that theorems hold for every implementation. The concrete instances are
  `reqwest::Request`, `reqwest::blocking::Request` and the validator's `MockRequest` (both as client and as server request).
* Clock readings, random coins and undetermined dependency behaviour are universally quantified (`SignEnv`, `VerifyEnv`,
  `class Deps`).
* Loops become structural recursion, or recursion with fuel where a proof shows that the fuel does not run out
  (`Lemmas/SfvFuel`).

## 3. What is modelled

| code | model |
| --- | --- |
| src/signature_component.rs, src/derived.rs, src/errors.rs | Model/Component |
| src/signature_params.rs, src/signature_input.rs | Model/Input |
| src/canonicalize.rs | Model/Canonicalize |
| src/algorithm.rs, and the name tables and primitives of src/algorithm/ring.rs and src/algorithm/openssl.rs | Model/Algorithm |
| constructors from key files in src/algorithm/ring.rs and src/algorithm/openssl.rs | Model/KeyFiles |
| src/signing.rs | Model/Signing; with its calls of user code: Model/Calls; with a key whose operation may panic: Model/SignFail |
| src/verifying.rs | Model/Verifying; with its info records: Model/Logging; with its calls of user code: Model/Calls; with the trace records of src/canonicalize.rs and src/verifying.rs: Model/Trace |
| `hmac` crate, as used by src/algorithm.rs | Model/Hmac, for C135 |
| PKCS#1 v1.5 signatures of `ring` and `openssl`, as used by src/algorithm/ring.rs and src/algorithm/openssl.rs | Model/Rsa, for C136 |
| PSS signatures of `ring`, as used by src/algorithm/ring.rs | Model/Pss, for C137 |
| ECDSA of `ring` on P-256 with DER signatures, as used by src/algorithm/ring.rs | Model/Ecdsa, for C138 and C139 |
| `EcdsaKeyPair::from_pkcs8` of `ring` 0.16, as used by src/algorithm/ring.rs | Model/EcPkcs8, for C139 |
| reading of RSA public keys by `ring` 0.16, as used by src/algorithm/ring.rs | Model/RsaPublic, for C140 |
| `RsaKeyPair::from_pkcs8`, `from_der` and `sign` of `ring` 0.16, as used by src/algorithm/ring.rs | Model/RsaPkcs8, for C143 |
| `Signer::sign_oneshot_to_vec` and `Verifier::verify_oneshot` of `openssl` with `Padding::PKCS1`, as used by src/algorithm/openssl.rs:79-107 | Model/OsslRsa, for C144 |
| src/reqwest_impls.rs | Model/Reqwest |
| httpsig-validator/src/mock_request.rs | Model/Mock |
| httpsig-validator/src/main.rs: words of plain command lines to options | Model/Argv |
| httpsig-validator/src/main.rs: options to configurations and modes | Model/Cli |
| httpsig-validator/src/main.rs: the program, from arguments, files and standard input to output, exit status and panics | Model/Main; with its log: Model/MainLog; what it reports: Model/Status |
| src/macros.rs, src/lib.rs, httpsig-validator/src/error.rs | nothing of their own: expanded, re-exports, one constructor |
| httpsig-validator/README.md: the four commands | Spec/Readme (as arguments of Model/Main) |

Simplifications:

* `HeaderMap` iterates in the order of a list; the crate calls its order arbitrary. No theorem about verification depends on
  it; C48, C61 and C62 speak of output in this order.
* A `Url` is scheme, authority (userinfo, host, port), path, query and fragment, with the characters each may contain
  (`Verif/Url`); its printed form is a function of them. `Url::parse` is a parameter of all theorems but C122, for which `Verif/UrlParse` models
  it for the schemes http, https, ws, wss and ftp; there the parsing of hosts and of other schemes is a parameter. C126 also
  models the parsing of hosts (`Verif/UrlHost`), with international domain names a parameter.
* Error values carry what the code puts in them where a caller can match on it (missing components), and no message texts,
  except for the validator's own messages about its options (C76).
* A number of seconds from `as_secs() as i64` is not wrapped (that needs a clock beyond the year 292 billion). A `HeaderMap`
  can grow without limit; the crate panics when its table would need more than 32768 slots.
* Signing and verification with a key are functions of primitive, key, coins and message. The `expect`s that end the signing
  operations (src/algorithm/ring.rs:94,194, src/algorithm/openssl.rs:81,84) are taken not to fire, except in C59, which is about openssl's,
  and in C141, in which the signing operation may panic in any way on any text.
* The process model of the validator: the files it opens are a function from paths to contents or failure; it writes to
  standard output line by line, and what is written before a failure stays written.
* `ct_eq` and `verify_slice` are equality. C128 models them as the crates carry them out (`Model/ConstantTime`) and proves the results
  the same.
* The two `unwrap`s of openssl's `http_verify` (src/algorithm/openssl.rs:97-98) do not fail: a verifying key is always an RSA public key.

## 4. What is not modelled

* src/actix_web_impls.rs. It does not compile at this commit (missing imports, `.await` in a function that is not async,
  names of another framework) and is behind a feature that is off by default. It has no behaviour.
* src/lib.rs:46, a commented-out module.
* Command lines other than plain ones (C134): what structopt and clap do with other words, help and error texts. Failures of standard output.
* What env_logger makes of records (filters, time, module, colours). The records themselves are modelled, at levels info and trace
  (Model/Logging, Model/Trace, Model/MainLog, C116 to C118, C123); how chrono formats durations, which
  characters outside ASCII `Debug` considers printable, the reasons sfv gives, and `{:#?}` of the validator's request, are parameters
  (`Fmt`, `AppFmt`); the rest of `Debug` and of the error texts is in Model/Debug.
* The `dbg!` of src/algorithm/openssl.rs:103, which writes OpenSSL's error to standard error when a verification cannot be carried out.
* Threads, memory, cost; timing except for C128. The messages of panics, and the texts of errors made by other crates (I/O, key parsers, `ToStrError`),
  which are parameters (`ErrFmt`).

## 5. Dependencies

| crate | modelled as |
| --- | --- |
| `sfv` 0.9 | parser and serialiser (`Verif/Sfv`), including that an empty token or key is serialised without error, that decimals are rounded to three places, half to even, and that base64 is read leniently. C72 proves the parser equal to the grammar of RFC 8941 in `Spec/Grammar`, C107 the serialiser to the texts of `Spec/Render` |
| `rust_decimal` (through sfv) | sign, mantissa, scale, unbounded; comparison by value; `round_dp` half to even. Zero keeps its sign when it is rounded and printed, and trailing zeros of a fraction that is not zero are printed (`C100_decimals_needed` depends on this) |
| `indexmap` | association list: overwriting keeps the place, new keys go last |
| `base64` | encoder, strict decoder (`STANDARD`), lenient decoder (as sfv uses it). C31 and `Lemmas/Base64Text` relate them to RFC 4648 |
| `http` 0.2 | `HeaderName` (non-empty, at most 65535, lower-cased), `HeaderValue` (bytes from 32 except 127, and TAB), `HeaderMap`. Whether `"` is a legal header-name character (in http 0.2's table, not in RFC 7230) is a parameter: every theorem holds for both answers |
| `url` 2.4 | parts of a URL, their invariants, `host_str`, `to_string`. Parsing is a parameter, modelled for web schemes in `Verif/UrlParse` (input trimmed and TAB, LF, CR removed; scheme; any number of slashes and backslashes; userinfo up to the last `@`; port; dot segments, also as %2e; the sets of characters that are percent-encoded) and specified in `Spec/UrlParse`. Hosts (domains, IPv4 and IPv6 addresses, their printing) in `Verif/UrlHost`, specified in `Spec/UrlHost`; the `idna` crate is a parameter there. `Spec/Url` has a reader that shows that the printed form determines the parts |
| `form_urlencoded` | `query_pairs` as a function, related to the form encoding by C34 |
| `hmac` 0.12 | the tag is a parameter; RFC 2104 in Model/Hmac, for C135 only |
| `chrono` | nanoseconds since 1970; formatting by DATE_FORMAT, related to the calendar by C47; the range of `from_timestamp_opt` is a parameter |
| `pem` 1.x | `pem::parse`: the first block of the file, its two labels, lines trimmed at their ends, base64 with optional padding |
| `der` 0.7, `spki` 0.7 | reading of `SubjectPublicKeyInfo`: tags, lengths, order, trailing bytes. Validity of object identifiers and of the algorithm parameters' contents are parameters |
| `ring`: ECDSA on P-256 | parameters; FIPS 186-4 in Model/Ecdsa, for C138 and C139 only (nonces are arbitrary); its reading of PKCS #8 files in Model/EcPkcs8, for C139 only |
| `ring`, `openssl`: PKCS#1 v1.5 and PSS | parameters; RFC 8017 in Model/Rsa and Model/Pss, for C136, C137, C140 and C142–C145 only; ring's reading of RSA public keys in Model/RsaPublic, for C140 and C143–C145 only; its reading of RSA private keys and its signing by the Chinese remainder theorem in Model/RsaPkcs8, for C143 and C145 only; the limits that OpenSSL puts on keys in Model/OsslRsa, for C144 and C145 only; which DER files OpenSSL reads is a hypothesis of C145 (Spec/OsslFiles), compared with the functions `d2i_RSA_PUBKEY`, `d2i_RSAPrivateKey` and `d2i_PKCS8_PRIV_KEY_INFO` of libcrypto 3.0.13, and with its signatures for keys of unusual shapes (primes in either order, of different sizes, large and small exponents) |
| `sha2`, other primitives of `ring` and `openssl` | uninterpreted functions. No hardness is assumed; where a property needs it, a collision is an explicit alternative in the conclusion |

## 6. Method

* One specification file per topic in `Verif/Spec`, written from the RFCs and the documentation: relations (`Grammar`,
  `RequestFile`, `Query`, `KeyFiles`, `Order`, `Base64`, `Calendar`) or separate conditions without control flow (`Verify`,
  `Base`, `Sign`, `EndToEnd`, `Main`).
* Beside each theorem an `example` gives a case that meets its hypotheses. `Spec/TestDeps` is an instance of `Deps` for them.
* Where the code violates a property as a user would state it, `Cnn_neg_…` proves the violation, for a whole family of cases
  when there is one, and `Cnn_…_partial` proves the strongest part that holds. The claims C66–C71 and C92–C100 are the exact conditions
  (equivalences) that say the list of exceptions is complete.
* Theorems about signing hold for any request type that obeys the laws `LawfulClient`, `HeaderStore` and `HeaderReads` (`Spec/Sign`) or
  `BuiltIn` (`Props/BuiltIn`). The laws are proved for all three request types of the repository.
* Wrong programs: `tools/mutate.py` edits the model as a bug would, builds, replaces each theorem that fails by a stub, and
  repeats, so that it finds all the theorems that depend on the edit. `seeded/LOG.jsonl` has the result per edit and
  `seeded/tightened.json` what was strengthened because of it.
* Implicit variables are a Lake default here; all files are also checked with `-DautoImplicit=false`.

## 7. Plan per property

| id | proof | files (Verif/Props) |
| --- | --- | --- |
| C01, C02, C66 | the parser inverts the serialiser, by induction per syntactic category; rounding for the exact version | RoundTrip |
| C03, C04 | independent layout; induction over the components | Base |
| C05 | unique decomposition at line ends, then C01; exactly when a value can be moved between lines. Neg: two covered `@query-params` whose decoded values contain line ends | Base, BaseExact |
| C06, C39, C67 | C01, and what `set_header` leaves alone; from each client type to the server type | EndToEnd, Delivery |
| C07 | Neg: Signature-Input always says `sig` | EndToEnd |
| C08 | Neg: the signer never emits the `date` parameter the verifier wants | EndToEnd |
| C09–C18 | symbolic execution to an acceptance predicate (equivalence); C12, C14, C18 Neg | Verify, Required |
| C19, C69 | all panics of verification (equivalence) | Keys |
| C20–C23 | histories of key-store operations; C23 Neg | Keys |
| C24–C29, C46, C47, C52, C68 | symbolic execution, frame lemmas, calendar; C28 Neg with all panics | Sign |
| C30, C31, C38, C45 | base 64 as bits; tables; C45 Neg | Algo |
| C32 | item round trip; Neg for two spellings | RoundTrip |
| C33–C35 | case analysis, form encoding; Neg for absent parameters, further values and any header between two query parameters | Derive, Shift |
| C36, C37 | C05 and C10; Neg with an accepted tampered request | Tamper, Injection, BaseExact |
| C40, C53, C65 | histories of setter calls, by induction | Config, Builder |
| C41 | lexicographic order as a relation; Neg | Order |
| C42, C43 | splitting; Neg | EndToEnd |
| C44 | frame lemmas | Repeat |
| C48, C60 | grammar of request files, both directions; Neg | Cli, RequestFile |
| C49, C50, C61–C64, C70, C71 | the validator as a program; Neg | Cli, Pipeline, Main |
| C51 | From<Item>: Neg with all panics | RoundTrip |
| C54–C59 | key files against PEM and DER as relations; C55, C57–C59 Neg | KeyFiles |
| C72–C74 | parser equal to the grammar, in both directions, by induction; nearest even thousandth | Grammar |
| C75 | the signed text is the base of a table of values; a base whose values do not contain the start of a line belongs to one message | Forgery |
| C76 | an inductive list of refusals per mode; case analysis in both directions | Refused |
| C77 | the query determines the decoded parameters, so a shorter or longer parameter value would need a longer query line; lengths exclude every second reading of the base | TargetUri |
| C78 | C77 and the injectivity of printing a URL | TargetUri |
| C79 | evaluate the accessors on the parts of a URL; two URLs with the same parts but for the port have the same derived values, so the same base | Authority |
| C80 | cancel common prefixes and suffixes of the printed URLs; the origin form starts with `/`, a printed URL with a scheme | Authority |
| C81 | reading the printed message gives back its parts (C61); then the delivery theorem for requests that agree on covered components. The message (`Spec/Wire.lean`) is specification: no code of the project writes it | Wire |
| C82 | C54 and C56 reduce every format to the DER constructors; the table of types is finite | KeyPairs |
| C83 | inserting a header replaces one name; hosts are visible ASCII | MockBuild |
| C84 | unfolding, and C29 | Signed |
| C85 | the acceptance condition (C10) at two clocks | Monotone |
| C86 | the acceptance condition at two configurations ordered by `Laxer` | Monotone |
| C87 | case split on the reading of the header | Monotone |
| C88 | cases of the draft's components against the accessors of the URL; injectivity of the base | Draft |
| C89 | success of `sign`, reading of its headers by the grammar, the draft's base | DraftSign |
| C90 | the acceptance condition (C10) with the header readings fixed | DraftVerify |
| C91 | the acceptance condition at two readings with the same list; the base does not depend on the label | Unsigned |
| C92–C95 | equivalences proved with C88, C89, C90 and C48 | Draft, DraftSign, DraftVerify, Cli |
| C96–C99 | exact forms of C32, C34, C35 and C61 | Exact |
| C100 | exact form of C41, from C96 | OrderExact |
| C101–C105 | contracts stated in the documentation: frame lemmas of C24, key store of C20, C11 and C06 | Contracts |
| C106 | names of headers as literals, from C24, C29, C52, C09, C16 | Names |
| C107 | relations between values and texts (`Spec/Render`), the serialiser refines them; rounding half to even bounded exactly | Text |
| C108 | induction over the `with_param` calls | Component |
| C109 | case analysis; grammar of `Spec/Grammar` and texts of `Spec/Render` through the parser round trip | InputData |
| C110 | false: parameters of header names are dropped when read, so they can be added and removed freely (C110_neg_parameters_unsigned, C110_neg_rewritten) | Unsigned |
| C111 | equivalence between acceptance of the rewritten request and a relation on the lists that are read; both directions | Rewriting |
| C112 | case analysis of `sign`; uniqueness of the specified result; header texts are decided by their characters via UTF-8 | Outcome |
| C113 | soundness of the PEM reader: its searches cut the file into the parts named, and strict base64 decoding is inverted by encoding | KeyFiles |
| C114 | case analysis of `verify` over the acceptance conditions of C10; replacing the digest function of the request type | Rejected |
| C115 | C28 and C112 with their assumptions discharged: hosts of URLs and base64 texts are visible, algorithm names are printable, only names that are not strings make a component incomputable | BuiltIn |
| C116 | the functions of verification with records, in a writer monad that keeps the records of a panicking run; every case against an inductive list of reasons, in both directions | Logging |
| C117 | the texts of C116; what the parser of structured fields lets through and what Debug escapes | Logging |
| C118 | the traced functions against the untraced ones, as the same run with records put in front; decoding UTF-8 undoes encoding | Trace |
| C119 | the acceptance theorem C10 and the panics of C19, with every function of the library in them replaced by what C03, C33, C34, C72 and C107 say of it | Accept |
| C120 | the exact acceptance of signed requests (C06) for requests that arrive with other values, with the injectivity of the signature base (C05) | SelfCover |
| C121 | C119 and the file grammar (C60) composed along main; the options by C50 and C76 | Process |
| C122 | model of the parser of url 2.4 for http, https, ws, wss and ftp; a specification by relations on texts, and an equivalence for each stage (scheme, authority, path with dot segments, query, fragment); the printed form of a read URL is a fixed point; the assumption of C81 on the parser discharged | UrlParse |
| C123 | records of the whole program against the texts of its input; noninterference by comparing runs on two file systems that differ in one file | MainLog |
| C124 | character by character, then a decoder for one escaped character; a notion of delimited text carried through numbers, quoted strings and lists; the texts against inductive relations, both ways | Debug |
| C125 | case analysis of each mode over its earlier exact theorems (C63, C76, C112, C121), texts by C124; two runs that differ in the key file followed side by side | Status |
| C126 | model of `Host::parse` and of the printing of hosts of url 2.4; relations for numerals, IPv4 and IPv6 addresses and domains, and an equivalence for each stage; the first longest run of zeros by an invariant of the loop; written addresses unique and among their spellings; the host conditions of C122 discharged | UrlHost |
| C127 | canonical rewriting makes a field at most half as long again, by induction on the grammar; a byte weight for decoding with replacement; an explicit family reaching the bounds | Size |
| C128 | bit arithmetic on one byte over all 256 differences; induction over the loop for answer and observations; relational (two runs) for `verify` | ConstantTime |
| C129 | transition system whose state is the key store; the store's keys characterised by the history (C20), C75 for the signed text, the acceptance condition (C10) for times and body; replay by rebuilding the acceptance condition at the later state | History |
| C130 | the printed form of a component never starts with `@`, so the requirements look at headers only; then C06 and C112 for the configuration without derived components | Policy |
| C131 | the functions of verification in a monad that keeps the calls of a panicking run; `UpTo` for loops that stop early; then the conditions of C114 and C116 | Calls |
| C132 | the functions of signing in the monad of C131; the conditions of later steps are carried back to the original request by the laws of request types | SignCalls |
| C133 | the exact conditions of C49, C62 and C125 for the three command lines, with the lists of components computed | Readme |
| C134 | the words read are exactly the groups that spell the options; digits and sign of numbers; every sayable option has a spelling | Argv |
| C135 | keys have equal blocks exactly if they are the same; masks are injective; outer, then inner texts compared | Hmac |
| C136 | Fermat's little theorem for both primes (Mathlib); bytes and numbers are inverse; the padded hash is below the modulus and determines the hash and its kind | Rsa |
| C137 | what is checked is exactly what is encoded with some salt (masks cancel, the cleared bits are zero); the encoding is below the modulus; then as C136 | Pss |
| C138 | ECDSA: which signatures are accepted, key pairs, the second form of a signature | Ecdsa |
| C139 | EC private key files: exactly which are taken, pairs with SPKI files, refusals; the reader of ring related to DER values | EcPkcs8 |
| C140 | RSA public keys of ring: exactly which signatures are accepted, keys that accept nothing, one encoding, not for ECDSA too, useless key files in the validator; the reader of ring related to DER values | RsaPublic |
| C141 | signing with an operation that panics: the same as before if it returns, exactly when it panics, what is left of the request, not accepted, openssl keys | SignFail |
| C142 | the back ends and rsa-pss-sha512: no common signature of the two paddings, unless the first hash of the PSS mask has bytes FF only; requests from one to the other rejected; the other names understood | BackEnds |
| C143 | RSA private key files of the ring back end: which are taken, what signing with them gives, exactly when it panics, that correct files never do, pairs with public key files, the private exponent not used; bad keys of sign mode and the README's pipe | RsaPkcs8, RsaReadme |
| C144 | RSA keys of the openssl back end: exactly which signatures are accepted, exactly which keys make signing panic, no least size, the exponent 1, comparison with the ring back end | OsslRsa |
| C145 | RSA key files of the openssl back end: the kinds are kept apart, the files of a pair work, which files work with both back ends, the same signatures | OsslFiles |

## 8. Axioms per theorem

| axioms | theorems |
| --- | --- |
| `propext` | `C05_neg_unnamed_derived`, `C41_unprintable_panics`, `C41_neg_rounding`, `C41_neg_derived_ignores_parameters`, `C42_no_equals`, `C45_names_partial`, `C45_types_partial`, `C45_distinct_names`, `C45_neg_openssl_pss`, `C45_neg_ring_pss256`, `C45_neg_back_ends_differ`, `C58_neg_pem_rejected`, `C58_neg_pem_differs`, `C59_neg_other_kind`, `C84_signed_exact`, `C100_decimals_needed`, `C109_list`, `C126_ipv6`, `C134_readme`, `C145_spki` |
| `Quot.sound`, `propext` | `C01_new_tidy`, `C01_withParam_tidy`, `C01_neg_empty_label`, `C04_missing_components_exact`, `C04_no_error_when_present`, `C15_never_panics`, `C18_neg_digest_not_covered`, `C19_neg_malformed_input_panics`, `C19_mock_total`, `C20_keys_since_creation`, `C20_keys_since_removal`, `C22_order_irrelevant`, `C23_neg_key_names_ignored`, `C25_convertHeader_leaves_input`, `C30_hmac_unmalleable`, `C30_no_reuse`, `C31_lossless`, `C31_injective`, `C32_header_case`, `C32_to_header_name`, `C33_reqwest`, `C33_blocking`, `C33_validator`, `C33_derivable_reqwest`, `C33_derivable_blocking`, `C33_derivable_validator`, `C33_authority`, `C34_needs_name`, `C35_neg_further_values`, `C37_uncovered_data_irrelevant`, `C37_mock_headers_only`, `C40_signing_histories`, `C40_created_histories`, `C40_expires_histories`, `C40_verifying_histories`, `C40_required_components_set`, `C42_extracts`, `C44_deterministic`, `C45_halves_match`, `C45_hmac_halves_match`, `C48_writable_iff`, `C50_verifying_exact`, `C50_neg_nonce`, `C51_neg_item_conversion`, `C53_neg_default_requires_nothing`, `C59_neg_short_key`, `C59_signs_partial`, `C60_methods_and_values`, `C64_verify`, `C64_canonicalize`, `C64_sign`, `C65_getters`, `C73_header_names`, `C76_verify_refused`, `C79_authority_partial`, `C79_neg_port_unsigned`, `C79_neg_port_accepted`, `C80_target_uri_partial`, `C80_neg_request_target`, `C82_signing_key_exact`, `C82_kinds_not_confused`, `C82_openssl_key_pairs`, `C88_blocking`, `C101_has_component`, `C101_last_set`, `C108_getters`, `C109_new`, `C109_get_item`, `C109_get_param`, `C109_getters`, `C123_signer`, `C128_early_exit_leaks`, `C133_pipe_empty`, `C135_same`, `C135_zeros_and_long`, `C135_binding`, `C135_other_type` |
| `Classical.choice`, `Quot.sound`, `propext` | `C01_signature_input_round_trip_partial`, `C01_setter_history_partial`, `C01_exact`, `C01_fromStr_tidy`, `C01_neg_empty_nonce`, `C01_neg_unnamed_derived`, `C01_neg_empty_param_name`, `C01_neg_long_decimal`, `C02_accepted_inputs_rerender`, `C03_base_layout`, `C03_same_identifiers`, `C03_empty`, `C05_coverage_determined`, `C05_base_determines_message_partial`, `C05_read_headers_partial`, `C05_reqwest_partial`, `C05_neg_query_params`, `C05_exact`, `C05_unconfusable_partial`, `C05_quote_free_partial`, `C06_reqwest_to_server_partial`, `C06_blocking_to_server_partial`, `C06_neg_authority`, `C06_signed_requests_verify_partial`, `C06_exact`, `C07_neg_other_labels`, `C07_labels_partial`, `C08_neg_default_rejects`, `C08_without_date_partial`, `C09_soundness`, `C10_acceptance_iff`, `C11_setter`, `C11_required_headers_covered`, `C12_neg_required_derived_never_accepted`, `C12_required_headers_satisfiable_partial`, `C13_window_enforced`, `C13_window_inclusive`, `C14_neg_any_time`, `C14_integers_never_ignored_partial`, `C15_date_leeway_exact`, `C16_digest_enforced`, `C16_rejected`, `C16_digest_iff`, `C17_require_digest_iff`, `C17_undigested_body_rejected`, `C18_neg_any_body`, `C18_required_digest_binds_body_partial`, `C19_readable_iff`, `C19_only_malformed_input_panics_partial`, `C19_mock_partial`, `C19_exact`, `C19_mock_exact`, `C20_histories`, `C21_no_keys_no_success`, `C21_revoked`, `C21_never_added`, `C22_monotone`, `C23_neg_any_algorithm`, `C23_alg_present_partial`, `C24_reqwest_frame`, `C24_blocking_frame`, `C24_mock_frame`, `C24_components_frame`, `C25_no_signature_on_error`, `C25_reqwest`, `C26_skip_never_missing`, `C26_missing_fails`, `C26_covered`, `C27_times_of_success`, `C27_bad_times_rejected`, `C27_configured_times`, `C27_relative_expiry`, `C28_neg_unwritable_panics`, `C28_exact`, `C28_no_panic_partial`, `C28_plain_exact`, `C29_emitted_headers`, `C31_rfc4648`, `C31_header_safe`, `C32_header_print_parse_partial`, `C32_derived_print_parse`, `C32_neg_unquoted_derived`, `C32_neg_quoted_header`, `C34_every_query_decodes`, `C34_selects`, `C34_selects_blocking`, `C34_selects_validator`, `C34_form_round_trip`, `C34_neg_absent`, `C34_neg_newline`, `C34_distinguishes_partial`, `C35_single_values_partial`, `C35_neg_two_queries`, `C35_neg_any_header`, `C36_unconfusable_partial`, `C36_neg_two_queries`, `C36_tampering_detected_partial`, `C36_mock_partial`, `C38_default_provider`, `C38_default_provider_unknown`, `C38_first_supported`, `C38_skips_unsupported`, `C39_entry`, `C39_auto_digest_accepted`, `C40_new_default`, `C41_total_order`, `C41_equal_are_equal_partial`, `C41_equal_compare_equal_partial`, `C41_derived_order_partial`, `C41_derived_names`, `C41_neg_derived_not_transitive`, `C41_neg_parameter_order`, `C42_no_equals_rejected`, `C42_text_is_checked`, `C43_first_input`, `C43_first_partial`, `C43_neg_not_first`, `C43_neg_signature_list`, `C43_first_text`, `C44_repeatable`, `C44_reqwest`, `C46_reqwest_bodies`, `C46_blocking_bodies`, `C46_mock_bodies`, `C46_reader_buffered`, `C47_imf_fixdate`, `C47_tick`, `C47_every_year`, `C47_valid_header`, `C48_round_trip_partial`, `C48_reread`, `C48_stable`, `C48_neg_blanks`, `C48_neg_repeated`, `C48_neg_version`, `C48_exact`, `C48_neg_trace`, `C49_processes`, `C49_exact`, `C49_pipeline_partial`, `C49_neg_label`, `C49_neg_self_cover`, `C50_signing_exact`, `C50_canonicalize_exact`, `C50_rejects`, `C50_no_algorithm_rejects`, `C50_neg_hmac`, `C50_reflected_partial`, `C51_never_panics_partial`, `C51_panics_iff`, `C52_automatic_headers`, `C53_neg_default_covers_nothing`, `C54_pem_same_as_der`, `C54_layout_irrelevant`, `C55_neg_label_ignored`, `C55_framing_partial`, `C56_spki_exact`, `C56_same_as_pkcs1`, `C56_no_trailing`, `C56_validator_both_formats`, `C57_neg_pkcs1_unchecked`, `C57_neg_algorithm_ignored`, `C57_spki_checked_partial`, `C57_neg_validator`, `C60_reads_exactly`, `C60_readable_values`, `C60_unambiguous`, `C60_reading_panics_exactly`, `C61_output_partial`, `C61_truncated_exact`, `C61_neg_truncated`, `C61_neg_truncated_verifies`, `C62_verify_exact`, `C62_canonicalize_exact`, `C62_sign_exact`, `C63_exact`, `C63_neg_unreadable`, `C63_neg_signature_input`, `C65_text`, `C72_accepted`, `C72_refused`, `C72_panics`, `C72_unambiguous`, `C73_component_text`, `C73_refused`, `C74_decimals_rounded`, `C75_authentic_or_forged`, `C75_hmac_reqwest`, `C76_sign_refused`, `C76_canonicalize_refused`, `C76_reported`, `C77_base_determines_message`, `C77_reqwest`, `C77_tampering_detected`, `C77_authentic_or_forged`, `C78_base_determines_url`, `C78_tampering_detected`, `C78_accepted_url`, `C79_host_header_partial`, `C79_blocking_host_header_partial`, `C80_neg_not_on_wire`, `C81_exact`, `C81_delivered_partial`, `C81_neg_url`, `C81_neg_port`, `C81_neg_no_body`, `C82_key_pairs`, `C82_validator_signing_key`, `C83_with_header`, `C83_with_header_panics`, `C83_with_body`, `C83_new_panics`, `C83_new`, `C84_result_is_signed`, `C85_accepted_again_iff`, `C85_one_interval`, `C85_never_expires`, `C86_laxer_accepts_more`, `C86_checks_off`, `C87_only_presented_key`, `C88_values_exact`, `C88_base_exact`, `C88_computed_exact`, `C88_neg_duplicates`, `C88_neg_request_target`, `C88_neg_query_absent`, `C89_draft_verifier`, `C89_conforms_partial`, `C89_neg_label_nonce`, `C90_draft_signatures_partial`, `C90_neg_authority`, `C90_exact`, `C90_neg_alg`, `C90_neg_two_signatures`, `C91_spelling_and_label_unsigned`, `C91_rewritten`, `C96_component_text_exact`, `C97_query_params_exact`, `C97_single_values`, `C98_one_line_changes`, `C98_reqwest_header_exact`, `C98_mock_header_exact`, `C99_failed_output_exact`, `C100_compare_exact`, `C100_equal_exact`, `C100_agree_exact`, `C101_reqwest_set`, `C101_blocking_set`, `C101_mock_set`, `C102_neg_no_algorithm`, `C102_some_key_partial`, `C103_digest_required_denies`, `C103_options_admit`, `C104_neg_readme_transfer`, `C105_neg_authorization_untouched`, `C106_only_these`, `C106_signature_headers`, `C106_automatic_headers`, `C106_verify_reads`, `C106_verify_digest`, `C107_value_text`, `C107_item_text`, `C107_component_text`, `C107_list_text`, `C107_input_text`, `C107_unique`, `C108_text`, `C108_equal`, `C109_read`, `C109_refused`, `C109_round_trip`, `C110_neg_parameters_unsigned`, `C110_neg_rewritten`, `C111_exact`, `C112_algorithms`, `C112_result`, `C112_success`, `C113_pem_contents`, `C114_rejected_iff`, `C114_body_not_read`, `C114_handed_back`, `C115_panics`, `C115_success`, `C115_result`, `C116_result`, `C116_rejected`, `C116_accepted`, `C116_panic`, `C117_printable`, `C118_verify`, `C118_records`, `C118_accepted`, `C118_sign`, `C118_signed`, `C119_accepted`, `C119_panics`, `C119_rejected`, `C120_exact`, `C120_own_headers`, `C120_own_headers_hmac`, `C120_pipeline`, `C121_accepts`, `C121_panics`, `C121_fails`, `C121_refuses`, `C122_relative`, `C122_read`, `C122_tidy`, `C122_reread`, `C122_request`, `C122_origin_form`, `C122_blank_host`, `C122_user_host`, `C122_on_wire`, `C122_pairs`, `C122_alias_up`, `C122_alias_here`, `C122_alias_backslash`, `C122_alias_encoded`, `C122_alias_target`, `C122_same_target`, `C123_exit`, `C123_reading`, `C123_unreadable`, `C123_info_quiet`, `C123_info_failed`, `C123_info_homeless`, `C123_info_panic`, `C123_info_printable`, `C123_trace_canonicalize`, `C123_trace_verify`, `C123_trace_sign`, `C123_trace_signed`, `C123_private_key`, `C124_bytes`, `C124_input`, `C124_component`, `C124_display`, `C124_debug`, `C124_values`, `C124_errors`, `C124_missing`, `C124_one_line`, `C125_errors`, `C125_report`, `C125_code`, `C125_one_line`, `C125_told`, `C125_private_key`, `C126_read`, `C126_one`, `C126_clean`, `C126_again`, `C126_domain`, `C126_ipv4`, `C126_addresses`, `C126_alias_case`, `C126_alias_encoded`, `C126_reread`, `C126_on_wire`, `C126_alias_authority`, `C126_same_host`, `C127_base_size`, `C127_value_size_mock`, `C127_value_size_reqwest`, `C127_value_size_blocking`, `C127_request_bound`, `C127_repeated`, `C127_superlinear`, `C128_hmac_value`, `C128_hmac_leak`, `C128_verify_value`, `C128_verify_leak`, `C129_accepted`, `C129_reqwest`, `C129_revoked`, `C129_replay`, `C130_derived_dropped`, `C130_request_line`, `C131_result`, `C131_calls`, `C131_one_lookup`, `C131_key_before_body`, `C132_result`, `C132_calls`, `C132_changes`, `C132_key_once`, `C132_asked`, `C133_canonicalize`, `C133_sign`, `C133_sign_missing`, `C133_pipe`, `C133_der_key`, `C134_exact`, `C134_order`, `C134_refused`, `C134_sayable`, `C135_accepted`, `C135_accepted_sha512`, `C136_pair`, `C136_one_signature`, `C136_binding`, `C136_accepted`, `C136_readme`, `C137_pair`, `C137_signatures`, `C137_salted`, `C137_binding`, `C137_accepted`, `C138_accepted`, `C138_pair`, `C138_keys`, `C138_two_forms`, `C138_other_form`, `C138_other_key`, `C138_few_keys`, `C138_request`, `C139_one_key`, `C139_every_key`, `C139_accepted`, `C139_pair`, `C139_refused`, `C140_accepted`, `C140_accepted_pss`, `C140_keys`, `C140_pair`, `C140_one_encoding`, `C140_kinds`, `C140_wrong_format`, `C140_validator`, `C140_useless_files`, `C141_returns`, `C141_same`, `C141_panics`, `C141_left_as_unwritable`, `C141_left`, `C141_left_input`, `C141_not_accepted`, `C141_openssl`, `C142_one_padding`, `C142_not_understood`, `C142_own`, `C142_understood`, `C142_requests`, `C143_one_key`, `C143_taken`, `C143_signatures`, `C143_value`, `C143_panics`, `C143_fit`, `C143_pair`, `C143_exponent_unused`, `C143_refused`, `C143_requests`, `C143_validator_refuses`, `C143_validator_pair`, `C143_readme`, `C144_accepted`, `C144_panics`, `C144_short`, `C144_pair`, `C144_exponent_one`, `C144_forge`, `C144_requests`, `C144_ring`, `C145_not_spki`, `C145_kinds`, `C145_pair`, `C145_public`, `C145_pkcs1`, `C145_private`, `C145_cross`, `C145_same_key`, `C145_servers`, `C145_same_signer`, `C145_clients` |
