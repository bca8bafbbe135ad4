{
 "C01": {
  "note": "False as stated for five kinds of configuration, each refuted by a C01_neg theorem (empty label, empty nonce, derived name without @, empty parameter name, decimal with more than three fractional digits). C01_exact shows that there are no others."
 },
 "C02": {
  "note": "Proved for every text accepted by the reader, no exception."
 },
 "C03": {
  "note": "Both directions: success iff every component has a value and the text is writable, and the bytes equal an independently specified layout."
 },
 "C05": {
  "note": "False when @query-params is covered twice (C05_neg_query_params) or a derived name lacks @ (C05_neg_unnamed_derived). Coverage and parameters are determined without exception (C05_coverage_determined). C05_exact says exactly when the values are determined: iff no value contains the start of the next line or of its own line; C05_unconfusable_partial and C05_quote_free_partial assume this of one message only."
 },
 "C06": {
  "note": "False for @authority on the server type of this repository (C06_neg_authority), for other labels (C07) and with date validation on (C08). C06_exact gives the necessary and sufficient conditions; the delivery theorems go from reqwest requests to the server type."
 },
 "C07": {
  "note": "False: Signature-Input always says sig. The negative theorem covers every other label; the partial theorem says exactly what is written."
 },
 "C08": {
  "note": "False: default options reject every signed request. The partial theorem has the same defaults with date validation off."
 },
 "C12": {
  "note": "False for every derived component (for all requests, not one witness). Holds for headers."
 },
 "C14": {
  "note": "False for values of another type, for every request (C14_neg_any_time). Holds for integers wherever they stand."
 },
 "C18": {
  "note": "False: unless the signature lists the digest header, body and digest of every accepted request can be replaced (C18_neg_any_body). Holds once digest is itself a required component."
 },
 "C19": {
  "note": "False: a malformed Signature-Input panics, for every request. C19_exact gives all the panics; for the server type without conditions on the request."
 },
 "C23": {
  "note": "False: key names never matter. What is enforced is that alg is present as a string."
 },
 "C25": {
  "note": "The statement names the exception (failure to encode the Signature header value); C25_convertHeader_leaves_input shows that it is needed."
 },
 "C28": {
  "note": "False: unwritable key id, nonce, times. C28_exact gives all the panics."
 },
 "C32": {
  "note": "False for the unquoted spelling of derived names and the quoted spelling of header names; print-then-parse holds for all derived components with @ names and for all headers whose name does not begin with a double quote."
 },
 "C34": {
  "note": "First half proved for all three request types. Second half false (C34_neg_absent, C34_neg_newline); the partial theorem says when values are distinguished. C97 has the exact condition."
 },
 "C35": {
  "note": "False for any further value under a name, and, for every header and every two values, between two covered query parameters (C35_neg_any_header). Holds for first values; C98 has the exact condition."
 },
 "C36": {
  "note": "False when @query-params is covered twice (C36_neg_two_queries, for every HMAC key). Holds if one of the two requests is not confusable (C36_unconfusable_partial) or at most one covered value has a newline, a collision of the tag function being an explicit alternative in the conclusion."
 },
 "C40": {
  "note": "Default means the default of the code; that the defaults of the component lists are not the documented ones is C53."
 },
 "C41": {
  "note": "The order laws hold for printable components. Equal but differently ordered (C41_neg_parameter_order), different but Equal (C41_neg_rounding); DerivedComponent's own ordering ignores parameters and kinds. C100 has the exact condition."
 },
 "C43": {
  "note": "Only the first signature counts, and a Signature header listing two is rejected by every verifier."
 },
 "C45": {
  "note": "False for the openssl PSS types and ring RsaPssSha256. Names are right for all others."
 },
 "C48": {
  "note": "False for the version, header values with blanks at the ends, repeated names, and with trace logging for binary bodies. C48_exact is an equivalence; every request read from a file is in the shape that files can express (C48_reread)."
 },
 "C49": {
  "note": "False for labels other than sig and when the signature headers are covered. C49_exact gives the necessary and sufficient conditions and says what was signed."
 },
 "C50": {
  "note": "False for the nonce and for two listed algorithms that never sign. The configuration of each mode is characterised exactly."
 },
 "C51": {
  "note": "False for From<Item> with an item that is not a string. C51_panics_iff is exact."
 },
 "C53": {
  "note": "False on both sides, for every history of setter calls; nothing of it holds."
 },
 "C55": {
  "note": "False: the label is not looked at. Holds for the framing, for equality of the two labels and for the base64 between them."
 },
 "C57": {
  "note": "False for PKCS#1 (no check at all) and for the algorithm in SPKI. Holds for the structure of SPKI files."
 },
 "C58": {
  "note": "False: the constructor hands the PEM text to the DER parser. No file is accepted, so nothing of the claim holds; the rejection is proved for every file that begins with its PEM header, under the stated condition on the DER parser."
 },
 "C59": {
  "note": "False for non-RSA keys and short keys. Holds for RSA keys long enough for the digest."
 },
 "C61": {
  "note": "False in sign mode when a header value of the request is not ASCII: the lines before it are already written, and the truncated output can verify on its own. Exactly when this happens, and with which output, is C61_truncated_exact; it is the only case (C61_output_partial)."
 },
 "C63": {
  "note": "False: unreadable input, malformed Signature-Input and unwritable options panic. C63_exact lists all the panics."
 },
 "C60": {
  "note": "Both directions and uniqueness; the two panics are characterised exactly."
 },
 "C66": {
  "also": [
   "C01_exact"
  ],
  "note": ""
 },
 "C67": {
  "also": [
   "C06_exact"
  ],
  "note": ""
 },
 "C68": {
  "also": [
   "C28_exact",
   "C28_plain_exact"
  ],
  "note": ""
 },
 "C69": {
  "also": [
   "C19_exact",
   "C19_mock_exact",
   "C19_readable_iff"
  ],
  "note": ""
 },
 "C70": {
  "also": [
   "C49_exact",
   "C49_processes"
  ],
  "note": ""
 },
 "C71": {
  "also": [
   "C63_exact"
  ],
  "note": ""
 },
 "C88": {
  "note": "False for irregular requests: exactly those are listed in Regular (C88_values_exact, C88_base_exact), and repeated components (C88_computed_exact)."
 },
 "C89": {
  "note": "False for labels other than 'sig' and with a nonce; exactly when it holds is C89_draft_verifier."
 },
 "C90": {
  "note": "False without alg, with @authority, and with two signatures in a line. Holds for one signature with alg on regular requests without @authority; C90_exact is an equivalence."
 },
 "C92": {
  "also": [
   "C88_values_exact",
   "C88_base_exact",
   "C88_computed_exact",
   "C88_blocking"
  ],
  "note": ""
 },
 "C93": {
  "also": [
   "C89_draft_verifier"
  ],
  "note": ""
 },
 "C94": {
  "also": [
   "C90_exact"
  ],
  "note": ""
 },
 "C95": {
  "also": [
   "C48_exact"
  ],
  "note": ""
 },
 "C79": {
  "note": "False whenever the URL has a port (C79_authority_partial is an equivalence); two ports of a host cannot be told apart (C79_neg_port_unsigned, C79_neg_port_accepted)."
 },
 "C80": {
  "note": "False for @request-target always, and for @target-uri exactly with user information or a fragment (C80_target_uri_partial is an equivalence)."
 },
 "C81": {
  "note": "False when the whole URL or @scheme is covered and the server sees another URL (C81_neg_url), with a port and an automatic Host header (C81_neg_port), and without a body under require_digest (C81_neg_no_body). C81_exact is the equivalence."
 },
 "C96": {
  "note": ""
 },
 "C97": {
  "note": ""
 },
 "C98": {
  "note": ""
 },
 "C99": {
  "note": ""
 },
 "C100": {
  "note": ""
 },
 "C101": {
  "note": ""
 },
 "C102": {
  "note": "False: a request without a string alg is never accepted (C102_neg_no_algorithm), and with one every key stored under the id is tried (C102_some_key_partial is an equivalence)."
 },
 "C103": {
  "note": ""
 },
 "C104": {
  "note": "False: its two headers are valid for every other request, at any time (C104_neg_readme_transfer), because nothing is covered by default (C53) and there is no created or expires.",
  "also": [
   "C53_neg_default_covers_nothing"
  ]
 },
 "C105": {
  "note": "False: Authorization is never touched; Signature and Signature-Input are set (C29).",
  "also": [
   "C29_emitted_headers"
  ]
 },
 "C106": {
  "note": ""
 },
 "C107": {
  "note": ""
 },
 "C108": {
  "note": ""
 },
 "C109": {
  "note": ""
 },
 "C110": {
  "note": "False: the parameters of fields are dropped on reading, so adding, changing or removing them never makes a difference (C110_neg_parameters_unsigned, for every request). Parameters of derived components are signed: C111_exact.",
  "also": [
   "C111_exact"
  ]
 },
 "C111": {
  "note": "Completes C91 and C110: what C91 and C110 allow is, up to zeros of decimals, everything that is accepted."
 },
 "C112": {
  "note": "The five results are one inductive relation; the theorem is an equivalence, so no other result is possible. Panics are classified by C28_exact."
 },
 "C113": {
  "note": ""
 },
 "C114": {
  "note": ""
 },
 "C115": {
  "note": ""
 },
 "C116": {
  "note": ""
 },
 "C117": {
  "note": "The hypothesis Fmt.Printable is about Display of chrono's TimeDelta and Debug of rust_decimal's Decimal, which are not modelled."
 },
 "C118": {
  "note": "Trace records may contain line breaks, since the signature base does; C117 is about level info."
 },
 "C119": {
  "note": "Composes C10, C19, C03, C33, C34, C72 and C107 into one equivalence whose right-hand side mentions no function of the library."
 },
 "C120": {
  "note": "Generalises the single counterexample C49_neg_self_cover to all requests, keys and options, and C49_exact to options that name the signature headers."
 },
 "C121": {
  "note": "C121_accepts, C121_panics, C121_fails and C121_refuses cover all exits of verify mode; their right-hand sides use texts, the grammar of structured fields, base64 and the file grammar only."
 },
 "C122": {
  "note": "Parsing of hosts (domain to ASCII, IP addresses) and of schemes other than http, https, ws, wss and ftp are parameters of the parser's model."
 },
 "C123": {
  "note": "`{:#?}` of the request is a parameter; env_logger's decoration and filtering of lines is not modelled."
 },
 "C124": {
  "note": "The reason that sfv gives for a parse error and the set of printable characters outside ASCII are parameters (Fmt)."
 },
 "C125": {
  "note": "Debug texts of I/O errors, of the key parsers' errors and of http's ToStrError are parameters, and so is whether a key parser's error quotes its input; the message of a panic is not modelled, only that there is one and which."
 },
 "C126": {
  "note": "The conversion of international domain names (`idna`) is a parameter; domains of ASCII characters without `xn--` labels do not use it. The length limits of IDNA processing are off in the url crate."
 },
 "C127": {
  "note": "Sizes are in bytes of UTF-8. The body is not in the base. The verifier computes the base only if it knows the key id, so for every key id C127_superlinear gives a request whose signature is checked over a base larger than any chosen multiple of the request; that theorem is for a configuration with no required components and no date check."
 },
 "C128": {
  "note": "subtle's slice comparison and digest's verify_slice are modelled from their sources as known; observed are branches and indices at the level of the source, not what a compiler or processor makes of them. The computation of the tag and of the digest, and the base64 decoder, are left out of what is observed."
 },
 "C129": {
  "note": "Authenticity assumes, as C75 does, that the signing clients are careful (tidy components, no empty nonce, no signed value that contains the start of a line of the base); for reqwest requests this follows when decoded query values contain no double quote. That a forgery is infeasible is not assumed: it is the second alternative."
 },
 "C130": {
  "note": "The signature headers themselves must not be covered; automatic headers are visible ASCII unless missing components are skipped, as in C112."
 },
 "C131": {
  "note": "Calls of derive, has_component and name are not recorded. User code is a function of its arguments (see DESIGN.md)."
 },
 "C132": {
  "note": "Calls of derive, has_component and name are not recorded."
 },
 "C133": {
  "note": "The claim says what the commands do. The README's own request file has no digest field, so two of its four commands fail; this is an example beside the theorems."
 },
 "C134": {
  "note": "clap 2 and structopt 0.3 are not in /repo; only plain command lines are modelled, and what the model refuses may be a form of clap's that is not modelled"
 },
 "C135": {
  "note": "the hmac crate is modelled as RFC 2104 in Model/Hmac; SHA-256 and SHA-512 of Vectors/Sha2 meet the hypotheses (realHmac)"
 },
 "C136": {
  "note": "PKCS#1 v1.5 is modelled in Model/Rsa; the functions of Vectors/Rsa with SHA-2 meet the hypotheses (realRsa)"
 },
 "C137": {
  "note": "PSS is modelled in Model/Pss, tested on a signature made with the openssl command (Vectors/Openssl); the functions of Vectors/Rsa with SHA-512 meet the hypotheses (realPss)"
 },
 "C138": {
  "note": "P-256 is modelled in Model/Ecdsa and proved to be the group of the curve in Mathlib, which has q elements (Lemmas/P256, P256Order); tested on a signature made with the openssl command (Vectors/Openssl)"
 },
 "C139": {
  "note": "ring's reader is modelled in Model/EcPkcs8 from recollection of ring 0.16 (pkcs8.rs, io/der.rs, ec/suite_b.rs), whose source was not available to compare with; tested on test_data/ecc-private.pem and on files written with the openssl command (Vectors/Openssl), not against ring"
 },
 "C140": {
  "note": "Model/RsaPublic models how ring reads public keys, from recollection; the back end's calls are those of Model/Algorithm. Proved for every instance of the parameters with `RingRsa`."
 },
 "C141": {
  "note": "The signing operation is an arbitrary function that may panic; under which circumstances ring's fail is not modelled. What is left of the request matters to callers that catch panics."
 },
 "C142": {
  "note": "Proved for every instance of the parameters with `RealRsa` and `RealPss`. A SHA-512 hash with 62 given bytes is not known; that there is none cannot be proved for an arbitrary hash, so it is the other part of the disjunction."
 },
 "C143": {
  "note": "The reading of the files and the arithmetic of signing are those of ring 0.16 in Model/RsaPkcs8, written from recollection of its source (DESIGN.md, section 1); the blinding and the Montgomery arithmetic are not modelled."
 },
 "C144": {
  "note": "Rests on the model of OpenSSL's limits in Model/OsslRsa, which was compared with the openssl command at the limits (Vectors/OsslRsa). Private keys whose numbers do not belong together are not covered; key files are in C145."
 },
 "C145": {
  "note": "What OpenSSL reads is assumed, in Spec/OsslFiles: the files of the standards, and what tells the kinds apart. The assumptions were compared with libcrypto 3.0.13. Which other files OpenSSL reads (for example PKCS #8 with attributes, which it checks and ring does not), its PEM files, and RSASSA-PSS are not covered."
 }
}
