{"id": "C01", "title": "Signature-Input round trip", "statement": "Rendering a canonicalisation configuration as a Signature-Input header and reading that header back yields the same label, the same covered components in the same order and the same signature parameters (names, values and order).", "quantifier": "every label, component list and parameter map whose rendering succeeds", "why_tests_cant": "component names, parameter values and label are arbitrary strings with escaping, and lists are unbounded; tests only render a few fixed headers", "anchors": ["src/canonicalize.rs CanonicalizeConfig::from_signature_input, to_signature_input", "src/signature_input.rs SignatureInput Display, TryFrom<&str>"]}
{"id": "C02", "title": "Accepted Signature-Input headers re-render canonically", "statement": "Whenever a Signature-Input header value is accepted by from_signature_input, rendering the resulting configuration succeeds (no panic), and reading the rendering back gives an equal configuration; rendering is therefore a canonical form and a second render changes nothing.", "quantifier": "every header string accepted by the parser (any spacing, duplicates, number formats, byte sequences)", "why_tests_cant": "the set of accepted header strings is infinite and attacker controlled", "anchors": ["src/canonicalize.rs CanonicalizeConfig::from_signature_input, to_signature_input", "src/signature_input.rs"]}
{"id": "C03", "title": "Layout of the signature base", "statement": "When canonicalize succeeds, the signature base is exactly one line per covered component in configured order (quoted identifier, colon, space, value), followed by the \"@signature-params\" line whose value is the rendered component list and parameters, joined by single newlines, UTF-8 encoded, with no trailing newline.", "quantifier": "every request type, every request and every configuration", "why_tests_cant": "layout must hold for every number, kind and value of component", "anchors": ["src/canonicalize.rs CanonicalizeExt::canonicalize"]}
{"id": "C04", "title": "Missing components are reported exactly", "statement": "canonicalize returns MissingComponents if and only if the request has no value for at least one configured component, and the error lists precisely the components without a value, in configured order; no signature base is produced in that case.", "quantifier": "every request, every component list", "why_tests_cant": "any subset of an unbounded component list may be missing", "anchors": ["src/canonicalize.rs CanonicalizeExt::canonicalize", "src/errors.rs Error::MissingComponents"]}
{"id": "C05", "title": "The signature base determines what was signed", "statement": "Two canonicalisations with the same signature base cover the same component identifiers in the same order, have the same signature parameters, and have the same value for every covered component (no two different messages share a base).", "quantifier": "every pair of requests and configurations", "why_tests_cant": "injectivity is a statement about all pairs of inputs; collisions need adversarial values", "anchors": ["src/canonicalize.rs CanonicalizeExt::canonicalize", "src/derived.rs DerivedComponent::derive"]}
{"id": "C06", "title": "Signed requests verify", "statement": "A request signed with sign and received with the same component values verifies successfully under a configuration holding the matching key for the key id, as long as the verification time lies in the created/expires window and the body matches.", "quantifier": "every request, every component selection, key, key id, nonce, created/expires setting and every clock value in the window", "why_tests_cant": "the end-to-end property ranges over all configurations, requests and clock values", "anchors": ["src/signing.rs SigningExt::sign", "src/verifying.rs VerifyingExt::verify"]}
{"id": "C07", "title": "The configured signature label is used consistently", "statement": "sign emits Signature-Input and Signature headers under the same, configured label, so that a verifier can match them whatever label was configured.", "quantifier": "every label and request", "why_tests_cant": "tests only use the label \"sig\"", "anchors": ["src/signing.rs SigningConfig::new, SigningExt::sign", "src/canonicalize.rs CanonicalizeConfig::get_label", "src/verifying.rs verify_signature_only"]}
{"id": "C08", "title": "Default verification accepts signed requests", "statement": "A request signed by this library is accepted by VerifyingConfig::new(provider) with default options when date checking can succeed (date within leeway).", "quantifier": "every signed request and every clock value", "why_tests_cant": "tests switch date validation off; the claim ranges over all requests", "anchors": ["src/verifying.rs verify_except_digest, VerifyingConfig::new", "src/signing.rs SigningExt::sign"]}
{"id": "C09", "title": "Verification is sound with respect to the keys", "statement": "If verify succeeds, the returned key id is the keyid parameter of the request's Signature-Input header and at least one key that the key provider returns for that key id accepted the Signature header's signature over the signature base rebuilt from this very request.", "quantifier": "every request, configuration, key provider and signature algorithm", "why_tests_cant": "absence of false acceptance cannot be sampled", "anchors": ["src/verifying.rs VerifyingExt::verify, verify_signature_only, VerificationDetails::key_id"]}
{"id": "C10", "title": "Exact acceptance condition of verification", "statement": "verify succeeds if and only if: both signature headers are readable, labels match, keyid and alg parameters are present as strings, time window is respected, a key accepts, all required components are listed, the date check passes and the digest check passes; no other condition matters.", "quantifier": "every request, configuration and clock value", "why_tests_cant": "an if-and-only-if over all inputs and all option combinations", "anchors": ["src/verifying.rs verify_signature_only, verify_except_digest, verify"]}
{"id": "C11", "title": "Required header components are covered", "statement": "If verify succeeds, every header component in required_components is one of the covered components of the signature, and its value on the request is part of the verified signature base.", "quantifier": "every required-component set, request and key", "why_tests_cant": "a bypass would be an adversarial Signature-Input header", "anchors": ["src/verifying.rs VerifyingConfig::set_required_components, verify_except_digest", "src/signature_input.rs ComponentList::get_item"]}
{"id": "C12", "title": "Required derived components can be satisfied", "statement": "A request whose signature covers a required derived component (such as @method) passes the required-components check.", "quantifier": "every required derived component and every request covering it", "why_tests_cant": "tests never require a derived component", "anchors": ["src/verifying.rs verify_except_digest", "src/signature_component.rs Display", "src/derived.rs Display"]}
{"id": "C13", "title": "created/expires window enforced on verification", "statement": "A request whose Signature-Input carries an integer created later than the current Unix second, or an integer expires earlier than it, is rejected; equality on either side is accepted.", "quantifier": "every pair of timestamps and every current time", "why_tests_cant": "boundary behaviour at every timestamp", "anchors": ["src/verifying.rs verify_signature_only", "src/canonicalize.rs created, expires"]}
{"id": "C14", "title": "Unreadable created/expires values do not disable the check", "statement": "A Signature-Input whose created or expires parameter is present but not an integer is not treated as if it were absent.", "quantifier": "every parameter value of a non-integer type", "why_tests_cant": "needs parameter types no test generates", "anchors": ["src/signature_params.rs get_created, get_expires", "src/verifying.rs verify_signature_only"]}
{"id": "C15", "title": "Date leeway is symmetric and exact", "statement": "With date validation enabled, a request is accepted only if its integer date parameter differs from the current time, in either direction, by at most date_leeway (nanosecond exact, boundary included), and the computation never panics.", "quantifier": "every date parameter, clock value and leeway", "why_tests_cant": "boundary exactness over unbounded integers, both signs", "anchors": ["src/verifying.rs verify_except_digest, VerifyingConfig::set_date_leeway"]}
{"id": "C16", "title": "Body digest is enforced when validated", "statement": "With digest validation enabled and a digest header on the request, verify succeeds only if the first digest entry with a supported algorithm equals the digest the request computes over its body with that algorithm; a body that cannot be digested or a header with no supported algorithm is rejected.", "quantifier": "every digest header string, body and digest provider", "why_tests_cant": "digest headers are arbitrary attacker-controlled strings", "anchors": ["src/verifying.rs VerifyingExt::verify, DigestProvider"]}
{"id": "C17", "title": "require_digest rejects undigested bodies", "statement": "With require_digest enabled, a request with a body but no digest header is rejected, and a request with neither body nor digest header is not rejected for that reason.", "quantifier": "every request and configuration", "why_tests_cant": "ranges over all configurations and bodies", "anchors": ["src/verifying.rs VerifyingExt::verify, VerifyingConfig::set_require_digest"]}
{"id": "C18", "title": "require_digest forces the digest into the signature", "statement": "With require_digest and validate_digest enabled, verify only accepts a request with a body if the digest header is present and included in the signature (so the body is bound to the signature).", "quantifier": "every request with a body", "why_tests_cant": "a bypass is an adversarial request whose digest header is not covered", "anchors": ["src/verifying.rs VerifyingConfig::require_digest documentation, VerifyingExt::verify"]}
{"id": "C19", "title": "Verification never panics on hostile input", "statement": "verify returns Ok or Err for every request, whatever bytes an attacker puts in the Signature-Input, Signature and Digest headers.", "quantifier": "every header content", "why_tests_cant": "the crashing inputs are malformed headers outside any finite test set", "anchors": ["src/verifying.rs verify_signature_only (unwrap)", "src/signature_component.rs From<Item> for SignatureComponent"]}
{"id": "C20", "title": "SimpleKeyProvider behaves like a map from key id to key list", "statement": "After any sequence of new/add/remove_all/clear, provide_keys(id) returns exactly the keys added under id since the last clear or removal of id, in insertion order, and nothing for other ids.", "quantifier": "every operation history", "why_tests_cant": "histories are unbounded", "anchors": ["src/verifying.rs SimpleKeyProvider::new, add, clear, remove_all, provide_keys"]}
{"id": "C21", "title": "Unknown or revoked keys never verify", "statement": "If the key provider returns no keys for the request's key id (never added, or removed/cleared after any history), verify does not succeed.", "quantifier": "every history of key-store operations and every request", "why_tests_cant": "quantifies over histories and requests", "anchors": ["src/verifying.rs verify_signature_only, SimpleKeyProvider"]}
{"id": "C22", "title": "Key rotation: any registered key suffices, order is irrelevant", "statement": "With several keys under one key id, the verification outcome depends only on the set of keys, not on their order, and adding further keys never turns an accepted request into a rejected one.", "quantifier": "every list of keys and every request", "why_tests_cant": "all permutations and supersets of key lists", "anchors": ["src/verifying.rs verify_signature_only"]}
{"id": "C23", "title": "The alg parameter constrains the key", "statement": "A request whose alg parameter names a different algorithm than the key that verifies it is rejected.", "quantifier": "every request and key list", "why_tests_cant": "needs keys with mismatching names; adversarial", "anchors": ["src/verifying.rs verify_signature_only, SimpleKeyProvider documentation", "src/algorithm.rs HttpSignatureVerify::name"]}
{"id": "C24", "title": "Signing only touches the documented headers", "statement": "Signing never changes method, URL, body or any header other than date, host, digest, signature-input and signature; date, host and digest already readable on the request keep their values.", "quantifier": "every request, configuration and outcome (success or error)", "why_tests_cant": "a frame condition over all headers and all requests", "anchors": ["src/signing.rs add_auto_headers, sign", "src/reqwest_impls.rs set_header"]}
{"id": "C25", "title": "Failed signing does not leave a signature", "statement": "When sign returns an error, the request's signature header is the one it had before the call; for every error except the failure to encode the Signature header value, signature-input is unchanged as well.", "quantifier": "every failing configuration and request", "why_tests_cant": "every error path and request state", "anchors": ["src/signing.rs SigningExt::sign", "src/errors.rs"]}
{"id": "C26", "title": "skip_missing semantics", "statement": "With skip_missing enabled signing never fails because of a missing component and covers exactly the configured components present on the request, in order; with it disabled signing fails with Canonicalize if any configured component is absent and otherwise covers all of them.", "quantifier": "every component list and request", "why_tests_cant": "any subset of components may be missing", "anchors": ["src/signing.rs add_auto_headers, SigningConfig::set_skip_missing"]}
{"id": "C27", "title": "Timestamps of a new signature", "statement": "A successful sign carries created (configured or current second) never in the future and expires never in the past; a configured created in the future or expires in the past makes sign fail; a relative expiry is current second plus offset, saturating at the i64 range.", "quantifier": "every clock value and every configured offset or timestamp, including i64 extremes", "why_tests_cant": "boundary and overflow behaviour over the whole i64 range", "anchors": ["src/signing.rs SignatureCreated::get, SignatureExpires::get, sign"]}
{"id": "C28", "title": "Signing never panics on configuration values", "statement": "sign returns Ok or Err for every configured key id, nonce, expiry and component list accepted by the configuration API.", "quantifier": "every key id, nonce, timestamp and component", "why_tests_cant": "needs values outside the structured-field range (non-token nonce, non-ASCII key id, huge expiry)", "anchors": ["src/signing.rs sign", "src/signature_params.rs set_nonce, set_keyid, set_expires", "src/signature_input.rs Display"]}
{"id": "C29", "title": "Content of the emitted headers", "statement": "After a successful sign, the Signature-Input header reads sig=(components);alg;created?;expires?;keyid;nonce? with exactly the configured values, and the Signature header is label=:S: where S is the algorithm's signature over the signature base of the request for that component list and those parameters.", "quantifier": "every request and configuration", "why_tests_cant": "all combinations of optional parameters and arbitrary values", "anchors": ["src/signing.rs SigningExt::sign"]}
{"id": "C30", "title": "HMAC signatures are unmalleable", "statement": "For the HMAC algorithms http_verify accepts a string for given content if and only if it is exactly the string http_sign produces for it (no alternative base64 spelling, padding or trailing bits is accepted).", "quantifier": "every key, content and signature string", "why_tests_cant": "alternative encodings are an infinite family", "anchors": ["src/algorithm.rs hmac_signature!"]}
{"id": "C31", "title": "Base64 transport of tags and digests is lossless", "statement": "The base64 text used in Signature and Digest headers decodes to exactly the bytes that were encoded, consists only of header-safe characters and never contains ':' or ','.", "quantifier": "every byte string of every length", "why_tests_cant": "all lengths modulo 3 and all byte values", "anchors": ["src/algorithm.rs http_sign, http_digest"]}
{"id": "C32", "title": "Component names parse and print consistently", "statement": "Printing a signature component and parsing the text gives back an equal component; header names are case-insensitive when parsed and are always printed in lower case.", "quantifier": "every header name and every derived component (with parameters)", "why_tests_cant": "unbounded names, parameters and escaping", "anchors": ["src/signature_component.rs FromStr, Display", "src/derived.rs FromStr, Display"]}
{"id": "C33", "title": "Derived component values", "statement": "For the built-in client request types, @method, @target-uri, @request-target, @scheme, @path, @query, @authority derive to the request's method, full URL, full URL, scheme, path, '?'-prefixed query (absent if there is none) and host; every other derived name except @query-params has no value.", "quantifier": "every request and every derived component name", "why_tests_cant": "all names (including unknown ones) and all URLs", "anchors": ["src/derived.rs DerivedComponent::derive", "src/reqwest_impls.rs derive"]}
{"id": "C34", "title": "@query-params selects exactly the named parameter", "statement": "@query-params with a name parameter derives to the decoded values of all query pairs with that name, in order, joined by newlines; a query without that parameter is distinguishable from one where it is empty.", "quantifier": "every query string and parameter name", "why_tests_cant": "percent-decoding, repetition and order over arbitrary queries", "anchors": ["src/derived.rs DerivedComponent::derive"]}
{"id": "C35", "title": "Covering a header covers all its values", "statement": "If a header name is covered by the signature, changing any of the values the request carries under that name changes the signature base.", "quantifier": "every header multimap", "why_tests_cant": "multi-valued headers never occur in tests", "anchors": ["src/reqwest_impls.rs derive", "src/canonicalize.rs module documentation"]}
{"id": "C36", "title": "Tampering with a covered component is detected", "statement": "If two requests are both accepted with the same Signature-Input and Signature headers under an HMAC key whose tag function has no collision, they agree on the value of every covered component.", "quantifier": "every pair of requests", "why_tests_cant": "adversarial modification of any covered value", "anchors": ["src/verifying.rs VerifyingExt::verify", "src/canonicalize.rs canonicalize"]}
{"id": "C37", "title": "Uncovered data does not influence the signature check", "statement": "Two requests that agree on Signature-Input, Signature and Digest headers, on all covered components and on their body digests get the same verification outcome.", "quantifier": "every pair of requests agreeing on those values", "why_tests_cant": "non-interference ranges over all pairs of requests", "anchors": ["src/verifying.rs VerifyingExt::verify"]}
{"id": "C38", "title": "Digest algorithm lookup", "statement": "The default digest provider recognises SHA-256 and SHA-512 in any letter case and nothing else; unsupported entries in a digest header are skipped and the first supported one is used.", "quantifier": "every algorithm name and header string", "why_tests_cant": "arbitrary names and lists", "anchors": ["src/verifying.rs DefaultDigestProvider, VerifyingExt::verify"]}
{"id": "C39", "title": "Automatic digest header is accepted by verification", "statement": "The digest header added by sign for a request with an in-memory body has the form NAME=BASE64 and passes digest validation against that same body with the default digest provider.", "quantifier": "every body and both supported digest algorithms", "why_tests_cant": "all bodies; base64 contains '=' which the header syntax also uses", "anchors": ["src/signing.rs add_auto_headers", "src/verifying.rs VerifyingExt::verify"]}
{"id": "C40", "title": "Configuration builders are last-write-wins and independent", "statement": "After any sequence of SigningConfig setters, each getter returns the most recently set value (or the documented default) and is not affected by setters of other options; the created/expires modes are mutually exclusive. new_default gives the label and key id passed to it, HMAC with SHA-256 and the key, and the defaults.", "quantifier": "every sequence of setter calls", "why_tests_cant": "unbounded call histories", "anchors": ["src/signing.rs SigningConfig", "src/verifying.rs VerifyingConfig"]}
{"id": "C41", "title": "Component ordering is a total order consistent with equality", "statement": "The ordering used for component sets is a total order, and two components compare equal exactly when they are equal.", "quantifier": "every pair and triple of components", "why_tests_cant": "order laws quantify over all triples", "anchors": ["src/signature_component.rs Ord", "src/derived.rs Ord, PartialEq"]}
{"id": "C42", "title": "Signature header grammar", "statement": "The verifier extracts label and signature from a header of the form label=:signature: exactly, for every label without '=' and every base64 signature; a header without '=' is rejected.", "quantifier": "every header string", "why_tests_cant": "arbitrary strings, trimming of repeated colons", "anchors": ["src/verifying.rs parse_signature_header"]}
{"id": "C43", "title": "Requests carrying several signatures", "statement": "When Signature-Input lists several signatures, a request is verifiable through any one of them (at least the first).", "quantifier": "every multi-signature request", "why_tests_cant": "needs multi-signature headers which tests lack", "anchors": ["src/signature_input.rs TryFrom<&str>", "src/verifying.rs parse_signature_header"]}
{"id": "C44", "title": "Signing is deterministic and repeatable", "statement": "With a deterministic algorithm and the same clock reading, signing an already signed request again with the same configuration yields the same request (when the signature headers themselves are not covered).", "quantifier": "every request and configuration", "why_tests_cant": "idempotence over all requests", "anchors": ["src/signing.rs SigningExt::sign"]}
{"id": "C45", "title": "Algorithm names identify the primitive used", "statement": "Each signature type uses the primitive it is called after and its reported name names that primitive, its sign and verify halves use the same primitive and report the same name, and different primitives have different names.", "quantifier": "every signature type of both crypto back ends", "why_tests_cant": "tests never compare names to primitives; the openssl back end is not built in tests", "anchors": ["src/algorithm/ring.rs", "src/algorithm/openssl.rs", "src/algorithm.rs"]}
{"id": "C46", "title": "Streaming bodies", "statement": "For non-blocking streaming requests no digest header is added and signing proceeds without it; for buffered bodies and blocking readable bodies the digest header is added when absent and the body content is unchanged; a request without a body gets no digest header. For the validator's requests, likewise.", "quantifier": "every body kind and content", "why_tests_cant": "all body kinds and contents", "anchors": ["src/reqwest_impls.rs compute_digest", "README.md note 1", "httpsig-validator/src/mock_request.rs:266-268"]}
{"id": "C47", "title": "Automatic date header is a valid HTTP date", "statement": "The date header added by sign is always a valid header value and is the IMF-fixdate of the current UTC second (for years 0 to 9999), so the expect() on it never fires. In other years it is the same text with a sign before the year, of a clock that shows the epoch at second 0 and ticks once per second.", "quantifier": "every clock value", "why_tests_cant": "calendar arithmetic over all dates", "anchors": ["src/signing.rs add_auto_headers", "src/lib.rs DATE_FORMAT"]}
{"id": "C48", "title": "Validator request reader/writer round trip", "statement": "Reading back a request written by the validator yields the same method, path, URL, headers and body.", "quantifier": "every request that can be written", "why_tests_cant": "arbitrary headers and bodies (including bodies with blank lines or binary data)", "anchors": ["httpsig-validator/src/mock_request.rs from_reader, write"]}
{"id": "C49", "title": "Validator sign-then-verify pipeline", "statement": "The output of the validator's sign mode is accepted by its verify mode with the matching key, for every request and component list for which sign succeeds.", "quantifier": "every request file and option set", "why_tests_cant": "ranges over all requests and options", "anchors": ["httpsig-validator/src/main.rs", "httpsig-validator/src/mock_request.rs"]}
{"id": "C50", "title": "Validator options are honoured", "statement": "The options given to the validator (nonce, created, expires, label, key id, header list) are reflected in what it signs; unknown algorithms and missing keys are rejected.", "quantifier": "every option combination", "why_tests_cant": "all combinations of options", "anchors": ["httpsig-validator/src/main.rs signing_config, canonicalize_config, verification_config"]}
{"id": "C51", "title": "Derived components never panic when their value is computed", "statement": "A DerivedComponent obtained in any way the public API offers (new, with_param, FromStr, conversion from a structured-field item) has a readable name, so asking for its name or deriving its value from any host, method and URL never panics.", "quantifier": "every derived component obtainable through the public API, every host, method and URL", "why_tests_cant": "components are built by unbounded call sequences and from arbitrary parsed text", "anchors": ["src/derived.rs DerivedComponent::{new,with_param,name,derive,from_str}", "src/signature_component.rs From<Item>"]}
{"id": "C52", "title": "Automatic headers carry the documented values", "statement": "When signing with the automatic date, host and digest headers enabled on a request that has no readable value for them, the resulting request carries the date of the signing clock in HTTP date format, the host of its URL and NAME=DIGEST of its body; without a digestible body no digest header appears.", "quantifier": "every request, every signing configuration, every clock value, whatever the outcome of signing", "why_tests_cant": "tests fix one request and one clock value; the claim covers every combination of options, pre-existing headers and bodies", "anchors": ["src/signing.rs add_auto_headers", "src/reqwest_impls.rs ClientRequestLike"]}
{"id": "C53", "title": "Documented defaults protect the message", "statement": "A signing configuration on which no component list was set covers host, date and digest, and a verifying configuration on which no required components were set requires the request target and date, as documented; in particular two different messages do not get interchangeable signatures by default.", "quantifier": "every history of setter calls without a component setter, every request", "why_tests_cant": "tests always set the component list explicitly; the claim covers every configuration history and request", "anchors": ["src/signing.rs SigningConfig::new, components", "src/verifying.rs VerifyingConfig::new, required_components"]}
{"id": "C54", "title": "PEM and DER key constructors agree", "statement": "Loading a key from a PEM file behaves exactly as loading the DER contained in it with the corresponding constructor (PKCS#8, PKCS#1 or SPKI): same success or failure, same signatures, same verification results, whatever text surrounds the PEM block, however long its lines are and whichever line ends it uses.", "quantifier": "every PEM file, every content, every signature type of the ring back end", "why_tests_cant": "tests load a handful of key files in one layout; the claim covers every content and layout", "anchors": ["src/algorithm/ring.rs new_pkcs8_pem, new_pkcs1_pem, new_spki_pem and their DER counterparts"]}
{"id": "C55", "title": "PEM constructors accept only the documented file type", "statement": "A PEM constructor accepts only a file whose begin and end lines carry the documented label of its format (PRIVATE KEY, RSA PRIVATE KEY, RSA PUBLIC KEY, PUBLIC KEY).", "quantifier": "every file, every signature type of the ring back end", "why_tests_cant": "tests only load correct files", "anchors": ["src/algorithm/ring.rs documentation of new_pkcs8_pem and new_pkcs1_pem"]}
{"id": "C56", "title": "SPKI and PKCS#1 public keys are interchangeable", "statement": "The SPKI constructor accepts exactly well-formed SubjectPublicKeyInfo structures, without trailing or missing bytes, and the resulting verifier is the one the PKCS#1 constructor makes from the key inside; in the validator with rsa-v1_5-sha256 both kinds of file give the same verification.", "quantifier": "every byte string, every key, every signature type of the ring back end", "why_tests_cant": "tests load two key files; the claim characterizes acceptance over all byte strings", "anchors": ["src/algorithm/ring.rs new_spki_der, new_pkcs1_der, spki_to_unparsed_public_key", "httpsig-validator/src/main.rs verification_config"]}
{"id": "C57", "title": "Public key constructors reject material of another kind", "statement": "Constructing a verifier from bytes that are not a public key of the type's algorithm fails with an error instead of producing a verifier that can never succeed.", "quantifier": "every byte string, every signature type of the ring back end, every validator option set", "why_tests_cant": "tests only load correct keys", "anchors": ["src/algorithm/ring.rs new_pkcs1_der, new_pkcs1_pem, new_spki_der", "httpsig-validator/src/main.rs verification_config"]}
{"id": "C58", "title": "The openssl back end loads PKCS#8 PEM files", "statement": "new_pkcs8_pem of the openssl signature types loads a PEM file with the result that new_pkcs8 has for the DER contained in it.", "quantifier": "every PEM file with every content", "why_tests_cant": "the repository has no test of this constructor; the claim covers every file", "anchors": ["src/algorithm/openssl.rs new_pkcs8_pem"]}
{"id": "C59", "title": "Signing with a loaded openssl key never panics", "statement": "Whatever key the constructors of the openssl signature types accept, signing any message with it succeeds and the signature is accepted by the verifier with the matching public key.", "quantifier": "every key file, every openssl signature type, every message", "why_tests_cant": "tests sign with one 2048-bit RSA key; the claim covers every accepted key and message", "anchors": ["src/algorithm/openssl.rs http_sign, new_pkcs8, new_pkcs1_der, new_pkcs1_pem"]}
{"id": "C60", "title": "The validator reads exactly the documented request files", "statement": "The validator accepts an input exactly when it is a request line, header lines, and optionally an empty line and a body, in the grammar of the tool; the request it works on is the one the text denotes, and no text denotes two requests. Reading panics only if trace logging meets a body that is not UTF-8 or if the host named in the file does not make a URL with the path. Methods are tokens in whatever case, and header values are bytes other than control characters (but tabs).", "quantifier": "every byte string as input, every log level", "why_tests_cant": "the accepted texts are infinitely many and the claim is an equivalence, so it also covers every rejected text", "anchors": ["httpsig-validator/src/mock_request.rs from_reader, derive_url"]}
{"id": "C61", "title": "The validator writes output only when it succeeds", "statement": "Whatever the command line and the input, if the validator fails it has written nothing to standard output; in particular a failed sign run leaves no partial request for the next program of a pipe.", "quantifier": "every command line, file system, input and clock", "why_tests_cant": "the failing runs that write something need an unusual header value, and the claim covers every failing run", "anchors": ["httpsig-validator/src/main.rs main, sign", "httpsig-validator/src/mock_request.rs write"]}
{"id": "C62", "title": "Each mode of the validator succeeds exactly when it should, with exactly the specified output", "statement": "Verify mode writes nothing and exits with success exactly when the request has an acceptable signature and a fitting digest; canonicalize mode succeeds with an output exactly when the output is the signature base of the listed components; sign mode succeeds with an output exactly when the output is the file of the signed request.", "quantifier": "every command line, file system, input and clock", "why_tests_cant": "the claim is an equivalence over all inputs and options, including every reason to fail", "anchors": ["httpsig-validator/src/main.rs main, canonicalize, sign, verify"]}
{"id": "C63", "title": "Bad input makes the validator report an error and not panic", "statement": "Whatever bytes are on the input and whatever the options, the validator ends with success or with an error message, and never by a panic.", "quantifier": "every command line, file system, input and clock that is not before 1970", "why_tests_cant": "tests feed well-formed requests; the claim is about every malformed one", "anchors": ["httpsig-validator/src/main.rs main", "httpsig-validator/src/mock_request.rs from_reader", "src/canonicalize.rs from_signature_input"]}
{"id": "C64", "title": "A mode of the validator looks only at its own options", "statement": "Verify mode depends only on the input, --algorithm, --keyid and the public key file; canonicalize mode only on the input and on the options that describe the signature parameters; sign mode only on the input, its options without --nonce, the private key file and the clock. All other options and files have no influence on output or exit status.", "quantifier": "every pair of command lines and file systems that agree on those", "why_tests_cant": "non-interference relates every pair of runs", "anchors": ["httpsig-validator/src/main.rs main, Opt"]}
{"id": "C65", "title": "CanonicalizeConfig setters are last-write-wins and keep the order of parameters", "statement": "After any sequence of setter calls on a new CanonicalizeConfig, every getter returns the value of the last call of its setter (label sig, otherwise nothing, if there was none), and the rendered Signature-Input text is the label, the components set last, and the parameters in the order in which each was first set with the value set last; it can be rendered exactly when label, components and those values can be written.", "quantifier": "every sequence of setter calls", "why_tests_cant": "unbounded call histories with repeated and interleaved calls", "anchors": ["src/canonicalize.rs CanonicalizeConfig", "src/signature_params.rs SignatureParams", "src/signature_input.rs Display"]}
{"id": "C66", "title": "Exactly which configurations survive a Signature-Input header", "statement": "A configuration that renders is read back as the same label, components and parameters if and only if its label is not empty, every component is a header or a derived component whose name starts with @, and no parameter name is empty, no token value is empty and no decimal has more than three fractional digits.", "quantifier": "every configuration that renders", "why_tests_cant": "an equivalence over all configurations", "anchors": ["src/canonicalize.rs to_signature_input, from_signature_input"]}
{"id": "C67", "title": "Exactly which signed requests are accepted", "statement": "A request that was signed successfully and arrives with the same covered values and signature headers is accepted by a verifier, under a key id and with a remnant, if and only if: the signing label is sig, the key id is the signer's, the clock is within the window, one of the verifier's keys for that key id accepts the signature of the signature base, every required component is covered in printed form, date validation is off, and the digest check passes.", "quantifier": "every request type, signing configuration, verifying configuration, clock and key provider", "why_tests_cant": "an equivalence over all configurations and clocks", "anchors": ["src/signing.rs sign", "src/verifying.rs verify"]}
{"id": "C68", "title": "Exactly when signing panics", "statement": "Signing panics if and only if an automatic header cannot be written, or the clock is before 1970, or the value of a covered component cannot be computed (and missing components are skipped or the times are acceptable), or, with acceptable times and no component missing (or missing ones skipped), a signature parameter or a covered component that has a value cannot be written.", "quantifier": "every request, configuration and clock (automatic header texts being visible ASCII unless missing components are skipped)", "why_tests_cant": "an equivalence over all configurations", "anchors": ["src/signing.rs sign", "src/canonicalize.rs canonicalize"]}
{"id": "C69", "title": "Exactly when verification panics", "statement": "Verification panics if and only if the Signature-Input header is malformed, or the clock is before 1970 and the request presents a signature, or the signature is accepted and the required components are covered up to one that cannot be printed.", "quantifier": "every request whose component values can be computed (every request of the validator's type), every configuration and clock", "why_tests_cant": "an equivalence over all hostile requests", "anchors": ["src/verifying.rs verify", "src/canonicalize.rs from_signature_input"]}
{"id": "C70", "title": "Exactly when verify mode accepts the output of sign mode", "statement": "What the validator's sign mode wrote, for options with a plain label that list no signature header, is accepted by its verify mode if and only if the label is sig, the clock is within the window, the digest header (if any) fits the body, the key ids are the same, and the primitive of the verifying key accepts the signature.", "quantifier": "every input, pair of command lines, key files and clock", "why_tests_cant": "an equivalence over all pairs of runs", "anchors": ["httpsig-validator/src/main.rs main", "httpsig-validator/src/mock_request.rs"]}
{"id": "C71", "title": "Exactly when the validator panics", "statement": "The validator panics if and only if its input cannot be read as a request, or in canonicalize and sign mode its options are usable and nothing is missing but a value cannot be written (or in sign mode the clock is before 1970), or in verify mode its options are usable and the Signature-Input header is malformed (or the clock is before 1970 and the request presents a signature).", "quantifier": "every command line, file system, input and clock", "why_tests_cant": "an equivalence over all runs", "anchors": ["httpsig-validator/src/main.rs main"]}
{"id": "C72", "title": "The language of Signature-Input", "statement": "A Signature-Input value is accepted if and only if it is an RFC 8941 dictionary whose first member is an inner list of strings each of which starts with @ or is a header name; the configuration read has the member's key as label, the components in the order written, and the parameters of the inner list. It is refused with a parse error if and only if it is not a dictionary, with another error if and only if the dictionary is empty or its first member is not an inner list, and makes the reader panic in exactly the remaining cases. No text has two meanings.", "quantifier": "every text", "why_tests_cant": "an equivalence between a parser and a grammar over all texts", "anchors": ["src/canonicalize.rs from_signature_input", "src/signature_input.rs from_str", "src/signature_component.rs From<Item>"]}
{"id": "C73", "title": "The language of component names", "statement": "A text names a component if and only if it is a header name not starting with a quote, or a quoted RFC 8941 string starting with @ with optional parameters and trailing spaces; the component is that header name or that item. A header name is a token of at most 65535 characters, whose letters are taken in lower case. Every other text is refused: with HeaderNameParse and the text if it starts with neither @ nor a quote, and with DerivedComponentParse otherwise, with the text unless it starts with a quote and @.", "quantifier": "every text", "why_tests_cant": "an equivalence between a parser and a grammar over all texts", "anchors": ["src/signature_component.rs from_str", "src/derived.rs from_str"]}
{"id": "C74", "title": "What a reader of Signature-Input gets for decimals", "statement": "Reading back the Signature-Input this library writes gives the same label, components and parameters, with every decimal replaced by the nearest one with three places, ties going to the even last digit, and the same sign.", "quantifier": "every configuration that can be rendered, with non-empty label and parameter names, derived components named by @-strings, and no empty tokens", "why_tests_cant": "decimals of every size and precision", "anchors": ["src/canonicalize.rs Display", "src/signature_input.rs", "sfv serializer"]}
{"id": "C75", "title": "Accepted requests say what was signed", "statement": "Take any collection of successful signing calls. A request that verify accepts carries exactly the covered components, values, parameters and key id of one of these calls, or else its Signature header is a signature, valid under a key provided for its key id, of a text that was never signed.", "quantifier": "every list of signing calls (any keys, configurations, clocks) whose signed values do not contain the start of a line of the base, every request, verifier configuration and clock", "why_tests_cant": "it quantifies over all histories of signing calls and all requests an attacker can assemble from them", "anchors": ["src/signing.rs sign", "src/verifying.rs verify_signature_only", "src/canonicalize.rs canonicalize"]}
{"id": "C76", "title": "The validator says exactly why it refuses its options", "statement": "In each mode the options are refused exactly for the listed reasons (unreadable key file, unknown algorithm, no algorithm, no key, unsupported algorithm, unusable key, a word of --headers that names no component), the earliest reason in that order is the one reported, with its exact message, and nothing is written to the output.", "quantifier": "every combination of options, every content of the key files, every readable request", "why_tests_cant": "combinations of wrong options, with all texts of options and all contents of files", "anchors": ["httpsig-validator/src/main.rs signing_config", "httpsig-validator/src/main.rs verification_config", "httpsig-validator/src/main.rs canonicalize_config"]}
{"id": "C77", "title": "Covering the query makes query parameters unambiguous", "statement": "When @query, @target-uri or @request-target is covered (without parameters), two requests with the same signature base have the same covered components, the same parameters, the same covered values and the same query, whatever @query-params components are covered and whatever newlines their decoded values contain. Consequently a request with the same signature headers that is accepted under the same HMAC key has the same covered values, or exhibits a collision, and an accepted request says what was signed in some signing call, or carries a signature of a text never signed.", "quantifier": "every pair of requests of any of the request types, every configuration that covers one of the three components, every history of signing calls that did", "why_tests_cant": "the ambiguity of C05 and C36 needs particular queries; that it is gone holds for all pairs of queries at once", "anchors": ["src/derive.rs", "src/canonicalize.rs canonicalize", "src/verifying.rs verify_signature_only"]}
{"id": "C78", "title": "Covering the target URI pins the whole URL", "statement": "When @target-uri or @request-target is covered, requests with the same signature base have the same URL: scheme, user information, host, port, path, query and fragment. An accepted request is for the URL of a request that was signed, or carries a signature of a text never signed.", "quantifier": "every pair of requests and configurations that cover one of the two components; every history of signing calls on reqwest requests and every request at the validator", "why_tests_cant": "all pairs of URLs and all histories", "anchors": ["src/derive.rs", "src/canonicalize.rs canonicalize", "src/reqwest_impls.rs", "httpsig-validator/src/mock_request.rs"]}
{"id": "C79", "title": "The signed authority names the port", "statement": "The value of @authority, and the Host header added automatically when signing, are the host of the URL followed by its port when that is not the default one (RFC 9110 7.2). It holds exactly for URLs without a port. Otherwise the port is left out: unless @target-uri or @request-target is covered, requests that differ only in port or user information have the same signature base, and a request accepted for one port is accepted for all.", "quantifier": "every URL with a host, every request of either request type, every configuration that covers neither whole-URL component, all pairs of ports", "why_tests_cant": "tests use URLs without a port; that a signature for one port is good for every other is a statement about all ports and all configurations", "anchors": ["src/derive.rs", "src/reqwest_impls.rs host", "httpsig-validator/src/mock_request.rs host", "src/signing.rs sign"]}
{"id": "C80", "title": "The signed target is the target that is sent", "statement": "The value of @target-uri is the target URI of the request, which leaves out user information and the fragment. It holds exactly for URLs that have neither; otherwise something that is not sent is signed. The value of @request-target (without parameters) is the whole URL and so never the origin form that is sent in the request line.", "quantifier": "every URL with an authority and every request of either request type", "why_tests_cant": "all URLs; the equivalence says exactly which URLs are wrong", "anchors": ["src/derive.rs", "src/reqwest_impls.rs derive", "httpsig-validator/src/mock_request.rs derive"]}
{"id": "C81", "title": "A signed request survives being sent and read", "statement": "A request signed by the client library, written as an HTTP/1.1 message (with CRLF or LF) and read by the validator, is read with the same method, path, query, headers and body, and with scheme http and the authority of its Host header; the validator then accepts it exactly inside its time window, provided the components that name the scheme, port, user information or fragment are covered only when those survive. If they are covered and do not survive, the validator computes a different signature base. The automatic Host header loses the port. A request without a body is read as one with an empty body and refused when digests are required.", "quantifier": "every reqwest request and HMAC configuration that signs, every list of sent headers with distinct names, every clock", "why_tests_cant": "crosses both programs, for all requests, all messages and all clocks", "anchors": ["src/signing.rs sign", "httpsig-validator/src/mock_request.rs from_reader", "src/verifying.rs verify", "src/reqwest_impls.rs"]}
{"id": "C82", "title": "Key pairs in files work in every format", "statement": "Each signing type of the ring back end takes from a PKCS#8 file exactly the keys of the kind its algorithm needs, reports the algorithm's name and signs with that primitive; types that need different kinds of keys never take the same file. A private key file (PKCS#8 or PKCS#1, DER or PEM) and a public key file (SPKI or PKCS#1, DER or PEM) of one key pair give a signer and a verifier of the same name that fit together. In the openssl back end the same holds for RSA private keys (PKCS#8 in DER, PKCS#1 in DER or PEM) long enough for the hash and public keys in DER or PEM. The validator's sign mode takes from a PEM file exactly the RSA keys in PKCS#8 form, and signs with that key.", "quantifier": "every signature type of both back ends, every key pair, every pair of file formats, every message and random choice", "why_tests_cant": "tests use one fixed key in one or two formats; the combinations of types, formats and layouts are many and the files unbounded", "anchors": ["src/algorithm/ring.rs rsa_signature", "src/algorithm/ring.rs ecdsa_signature", "src/algorithm/openssl.rs rsa_signature"]}
{"id": "C83", "title": "Building requests for the validator", "statement": "MockRequest::new panics exactly if the text is not an absolute URL; otherwise the request has the given version, method, headers, the URL, the text as path, no body, and the URL's host as the only Host header. with_header panics exactly if the lower-cased name or the value is illegal; otherwise it sets that one header and changes nothing else. with_body never panics, sets the body and Content-Length to its length in decimal without leading zeros, and changes nothing else.", "quantifier": "every version, method, text, header list, name, value and body", "why_tests_cant": "all texts and all headers; the panics are exact conditions", "anchors": ["httpsig-validator/src/mock_request.rs new", "httpsig-validator/src/mock_request.rs with_header", "httpsig-validator/src/mock_request.rs with_body"]}
{"id": "C84", "title": "The consuming form of signing is all or nothing", "statement": "signed succeeds exactly when sign does, and gives the request as sign leaves it; it returns sign's error without a request; it panics exactly when sign does. Its result has exactly one Signature-Input and one Signature header with the specified contents.", "quantifier": "every request type, request, configuration and environment", "why_tests_cant": "all requests and configurations, including those where in-place signing leaves a partly signed request", "anchors": ["src/signing.rs signed", "src/signing.rs sign"]}
{"id": "C85", "title": "A request is accepted during one interval of time", "statement": "If verify accepts a request at one time, it accepts the same request with the same configuration at another time exactly when the clock is not before 1970, its second lies between created and expires (where these are integers), and, with date validation, the date parameter is within the leeway of it. So the times of acceptance form one interval, the verifier has no memory of earlier requests, and without expires and date validation an accepted request is accepted at every later time.", "quantifier": "every request type, request, configuration and all clock readings", "why_tests_cant": "all pairs and triples of times; a test checks a few moments", "anchors": ["src/verifying.rs verify_signature_only", "src/verifying.rs verify_except_digest"]}
{"id": "C86", "title": "A laxer configuration accepts more", "statement": "If verify accepts with one configuration, it accepts, with the same key id, with every configuration that has at least the same keys, no further required components, no further date or digest checks, a leeway at least as large, and the same digest algorithms where digests are checked.", "quantifier": "every request type, request, pair of comparable configurations and clock", "why_tests_cant": "all pairs of configurations and all requests", "anchors": ["src/verifying.rs verify", "src/verifying.rs VerifyingConfig"]}
{"id": "C87", "title": "Only the presented key id is looked up", "statement": "Two key providers that give the same keys for the key id named in the request's Signature-Input header lead to the same outcome of verify, whether acceptance, rejection or panic; keys for other ids make no difference.", "quantifier": "every request type, request, configuration, clock and pair of key providers", "why_tests_cant": "all providers that differ elsewhere", "anchors": ["src/verifying.rs verify_signature_only", "src/verifying.rs KeyProvider"]}
{"id": "C88", "title": "The signature base is the one of the draft", "statement": "For a reqwest request, a list of covered components and parameters to which draft-ietf-httpbis-message-signatures-17 (the version the README names) gives a signature base, the library computes exactly this base. Where this fails the exact condition is given: it holds if and only if every covered field has a single line without white space at its ends, the URL has no user information or fragment for @target-uri, no port and no upper case in the host for @authority, a path for @path, a query for @query, and @request-target is not covered; and a list with a repeated component, which the library signs, has no base in the draft.", "quantifier": "every reqwest request, list of covered components and parameters", "why_tests_cant": "agreement of two texts over all URLs, header maps and component lists, in both directions", "anchors": ["src/reqwest_impls.rs derive_component", "src/derived.rs", "src/canonicalize.rs canonicalize"]}
{"id": "C89", "title": "Signed requests are accepted by verifiers that follow the draft", "statement": "After a successful sign, a verifier that follows the draft (a dictionary of inner lists, a dictionary of byte sequences under the same label, the parameter types of the draft, the base of the draft) accepts the request if its key accepts the signature. Where this fails the exact condition is given: such a verifier accepts if and only if the label is 'sig', no nonce is configured, and the signature fits the draft's base; with any other label or any nonce no such verifier accepts, whatever its keys.", "quantifier": "every reqwest request, signing configuration, clock, randomness, and every verifier of the draft with its key", "why_tests_cant": "all independent verifiers and all configurations; round-trip tests use the library's own verifier only", "anchors": ["src/signing.rs sign", "src/signature_params.rs", "src/signature_input.rs"]}
{"id": "C90", "title": "Signatures made after the draft are accepted", "statement": "If a request arrives with Signature-Input and Signature headers made after the draft, and the draft's base is what the key accepts, verify accepts it if the clock is in the window and the configured checks pass. Where this fails: signatures without the alg parameter, which the draft makes optional, and Signature lines with a second member are always refused; the statement holds for one signature with alg, different components without @authority, and regular requests.", "quantifier": "every request, dictionary, list of components, parameters, verifying configuration and clock", "why_tests_cant": "all signers that follow the draft; tests only verify what the library signed", "anchors": ["src/verifying.rs verify", "src/verifying.rs verify_signature_only", "src/signature_input.rs"]}
{"id": "C91", "title": "Label and spelling of the signature headers are not signed", "statement": "If the Signature-Input values of two requests list the same components and parameters, in whatever spelling, under whatever labels and with whatever further dictionary members, the Signature values carry the same signature under the respective label, and the requests agree on the covered components, the digest header and the digests of their bodies, then one is accepted exactly if the other is. So anyone can relabel and respell the headers of an accepted request.", "quantifier": "all pairs of requests, possibly of different types, all dictionaries, labels, configurations and clocks", "why_tests_cant": "all spellings of a structured field and all pairs of requests", "anchors": ["src/verifying.rs verify_signature_only", "src/signature_input.rs"]}
{"id": "C92", "title": "Exactly when the signature base is the one of the draft", "statement": "Where the draft gives a signature base, the library computes it if and only if the request is regular for each covered component (the conditions listed in C88); a base computed by the library is the draft's if and only if in addition no component is repeated; per component, the library finds the draft's value if and only if the request is regular for it.", "quantifier": "every reqwest request (asynchronous or blocking), list of components and parameters", "why_tests_cant": "an equivalence over all requests and lists", "anchors": ["src/reqwest_impls.rs derive_component", "src/canonicalize.rs canonicalize"]}
{"id": "C93", "title": "Exactly when verifiers that follow the draft accept signed requests", "statement": "After a successful sign with a key as label and an algorithm with base64 signatures, a verifier that follows the draft accepts the signature named l if and only if l and the configured label are both 'sig', there is no nonce, and its key accepts the signature over the base that the draft gives to the signed request.", "quantifier": "every reqwest request, configuration, clock, randomness, label and key of the other verifier", "why_tests_cant": "an equivalence over all configurations and all verifiers", "anchors": ["src/signing.rs sign"]}
{"id": "C94", "title": "Exactly which signatures made after the draft are accepted", "statement": "Let a request arrive with one Signature-Input line and one Signature line with one member after the draft, whose signature the keys accept for no other text than the draft's base. The library accepts it under a key id if and only if keyid has this value, alg is present, the clock is in the window, the key accepts the signature, the configured checks pass, the request is regular for the covered components and @authority is not covered.", "quantifier": "every request of the server type, dictionary, configuration and clock", "why_tests_cant": "an equivalence over all requests signed by others", "anchors": ["src/verifying.rs verify", "httpsig-validator/src/mock_request.rs"]}
{"id": "C95", "title": "Exactly which requests survive the validator's file format", "statement": "A request that can be written is read back as the same request if and only if its version is HTTP/1.1, its method, path and URL are what a reader derives from the file, header names do not repeat, header values have no blanks at their ends, and, with trace logging, its body is text.", "quantifier": "every request of the validator and both settings of trace logging", "why_tests_cant": "an equivalence over all requests", "anchors": ["httpsig-validator/src/mock_request.rs write", "httpsig-validator/src/mock_request.rs from_reader"]}
{"id": "C96", "title": "Exactly which components read back from their text", "statement": "A component that can be printed reads back as an equal component if and only if it is a header whose name does not begin with a double quote, or a derived component whose name begins with @, whose parameters have non-empty names and are not empty tokens, and whose decimals need at most three fractional digits.", "quantifier": "every header name and derived component that prints", "why_tests_cant": "an equivalence over unbounded names and parameters", "anchors": ["src/signature_component.rs FromStr, Display", "src/derived.rs FromStr, Display"]}
{"id": "C97", "title": "Exactly which queries @query-params tells apart", "statement": "Two requests have the same value for @query-params with a given name if and only if the values of that parameter fall into the same lines, where no value at all counts as one empty line. Two single values are always told apart.", "quantifier": "every pair of query strings and every parameter name", "why_tests_cant": "an equivalence over all pairs of queries", "anchors": ["src/derived.rs DerivedComponent::derive"]}
{"id": "C98", "title": "Exactly which changes to a covered header are seen", "statement": "If the values under a covered header name are replaced by any others and nothing else is changed, the signature base stays the same if and only if the first value stays the same. For the validator's requests a value that is not text counts as an empty one.", "quantifier": "every request, configuration and list of new values", "why_tests_cant": "an equivalence over all header multimaps", "anchors": ["src/reqwest_impls.rs derive", "httpsig-validator/src/mock_request.rs derive", "src/canonicalize.rs"]}
{"id": "C99", "title": "Exactly what a failed run of the validator writes", "statement": "The validator fails after writing something to standard output if and only if it is in sign mode, signs the request, and the signed request has a header value that is not text; the output is then the request file up to the first such header, without body.", "quantifier": "every command line, file system, input and clock", "why_tests_cant": "covers every failing run", "anchors": ["httpsig-validator/src/main.rs main, sign", "httpsig-validator/src/mock_request.rs write"]}
{"id": "C100", "title": "Exactly when comparing and equality of components agree", "statement": "Take two components that can be printed and read back and whose parameters are not decimals. Comparing them gives Equal if and only if they are the same with their parameters in the same order; they are equal if and only if they are the same up to the order of their parameters. So a sorted set of components can hold equal components exactly when these differ in the order of their parameters.", "quantifier": "every pair of such components", "why_tests_cant": "an equivalence over all pairs of components", "anchors": ["src/signature_component.rs Ord, PartialEq", "src/derived.rs PartialEq"]}
{"id": "C101", "title": "Reading a request reflects what was written to it", "statement": "For each of the three request types: after set_header the value read under that name is the text of the new value (nothing for reqwest, empty for the validator if it is not text) and every other component reads as before; after any sequence of calls the last one decides; has_component says yes exactly if derive then returns a value.", "quantifier": "every request, header name, value, component and sequence of calls", "why_tests_cant": "universal over requests and sequences of calls", "anchors": ["src/canonicalize.rs RequestLike", "src/reqwest_impls.rs", "httpsig-validator/src/mock_request.rs"]}
{"id": "C102", "title": "The first key is used if the request names no algorithm", "statement": "As documented on SimpleKeyProvider: if no algorithm is specified in the request, the first key added for that key id is used.", "quantifier": "every request and key store", "why_tests_cant": "universal over requests and stores", "anchors": ["src/verifying.rs SimpleKeyProvider"]}
{"id": "C103", "title": "Requiring the digest header denies requests without a body", "statement": "As documented on required_components: with the digest header among the required components, requests without a body (which have no such header) are denied; relying on the digest options instead, they are not.", "quantifier": "every request, verifier history and environment", "why_tests_cant": "universal over requests and verifier configurations", "anchors": ["src/verifying.rs set_required_components", "src/verifying.rs verify"]}
{"id": "C104", "title": "The README's signature is bound to the signed request", "statement": "A signature made as in the README's example is accepted only for the request that was signed.", "quantifier": "every request, key, key id and time", "why_tests_cant": "universal over pairs of requests", "anchors": ["README.md", "src/signing.rs new_default", "src/verifying.rs verify"]}
{"id": "C105", "title": "Signing sets the Authorization header", "statement": "As documented on set_header: the Authorization header is always set when a message was signed successfully.", "quantifier": "every request and configuration", "why_tests_cant": "universal over requests and configurations", "anchors": ["src/signing.rs ClientRequestLike::set_header"]}
{"id": "C106", "title": "The names of the headers", "statement": "Signing changes no header but Signature, Signature-Input, Date, Host and Digest, leaves exactly one Signature and one Signature-Input header when it succeeds, and puts what it adds automatically into the headers of these names; a request is accepted only with readable headers Signature and Signature-Input, and the digest that is validated is the one in the Digest header.", "quantifier": "every request, configuration and environment", "why_tests_cant": "universal over requests and header names", "anchors": ["src/signature_component.rs SignatureComponent", "src/signing.rs sign", "src/verifying.rs verify"]}
{"id": "C107", "title": "The text of components and of Signature-Input", "statement": "Printing a component, a list of components or a Signature-Input value gives exactly the RFC 8941 text: strings in quotes with quotes and backslashes escaped, binaries in base 64 between colons, integers in decimal, decimals rounded to at most three places with at least one digit after the point, parameters as ;name=value or ;name for true, items separated by single spaces. It panics exactly if there is no such text, that is if a name, string or token has a character that is not allowed or a number is too large.", "quantifier": "every component, list, label and parameter list", "why_tests_cant": "universal over structured-field values", "anchors": ["src/derived.rs Display for DerivedComponent", "src/signature_input.rs Display for ComponentList", "src/signature_input.rs Display for SignatureInput"]}
{"id": "C108", "title": "Building derived components", "statement": "A derived component made with new and any sequence of with_param calls has the name it was created with, and under each parameter name the value given last. Printing it gives the quoted name followed by each parameter once, in the order in which the names were first used, and panics exactly if the name or a last value has a character that is not printable ASCII or a parameter name is not a structured-field key. Two such components are equal exactly if the names are and every parameter has the same last value.", "quantifier": "every name and every sequence of with_param calls", "why_tests_cant": "universal over call sequences of any length", "anchors": ["src/derived.rs new", "src/derived.rs with_param", "src/derived.rs param", "src/derived.rs PartialEq for DerivedComponent"]}
{"id": "C109", "title": "Signature-Input values as data", "statement": "A component list has one item per component in order and the given parameters; get_item returns the first item whose value is the given string; as_list and try_from are inverse and a list is read from its first entry if that is an inner list; get_param returns the value under the name; the getters of the parameters return integers for created and expires, strings for alg and keyid and tokens for nonce, and nothing for values of other types; a text is read as a Signature-Input value exactly if it is an RFC 8941 dictionary whose first member is an inner list, and refused with the matching error otherwise; and a printed value, whatever its items, is read back as itself with decimals rounded to three places, provided no name or token is empty.", "quantifier": "every component list, label, parameter list and text", "why_tests_cant": "universal over structured-field values and texts", "anchors": ["src/signature_input.rs ComponentList", "src/signature_input.rs SignatureInput", "src/signature_input.rs TryFrom<&str> for SignatureInput", "src/signature_params.rs:46-104"]}
{"id": "C110", "title": "Parameters of covered fields are signed", "statement": "The parameters of a covered header field in Signature-Input (such as ;sf, ;key, ;bs or ;req, which change what is covered) are part of what is signed: a request whose Signature-Input lists other parameters for a field than the signed one is not accepted.", "quantifier": "all pairs of requests, possibly of different types, all dictionaries, labels, parameters, configurations and clocks", "why_tests_cant": "all parameters on all covered fields; tests never put parameters on fields", "anchors": ["src/signature_component.rs From<Item>", "src/verifying.rs verify_signature_only", "src/canonicalize.rs"]}
{"id": "C111", "title": "Exactly which rewritings of Signature-Input are accepted", "statement": "Let a request be accepted under a key id, where the keys for this id accept its signature for one text only and the signature headers are not covered. Replace Signature-Input by any other value and Signature by the same signature under any label. The new request is accepted if and only if the new value is a dictionary whose first member has this label and is an inner list with the same components in the same order and the same parameters, up to the parameters and letter case of header names and the number of zeros of decimals without fraction.", "quantifier": "every request of the server type, replacement values, label, configuration and clock", "why_tests_cant": "an equivalence over all texts of the header", "anchors": ["src/verifying.rs verify_signature_only", "src/signature_input.rs", "src/canonicalize.rs"]}
{"id": "C112", "title": "The result of signing is determined by the request and the configuration", "statement": "Whenever signing returns, its result is determined as follows: a configured creation time in the future gives InvalidSignatureCreationDate; otherwise an expiry in the past gives InvalidSignatureExpiresDate; otherwise, unless missing components are skipped, a configured component that the request lacks and no automatic header supplies gives Canonicalize; otherwise a control character in the label gives ConvertHeader; otherwise signing succeeds. SignatureInputError never occurs. Hence signing succeeds exactly when automatic headers can be written, the clock is after the epoch, the times are acceptable, every component can be computed and none is missing, parameters and components can be written, and the label has no control character. (Unless missing components are skipped, the texts of automatic headers are taken to be visible ASCII.)", "quantifier": "every request of a client type, signing configuration with an algorithm of the library, clock and randomness", "why_tests_cant": "a total classification of outcomes over all configurations and requests; tests only sample it", "anchors": ["src/signing.rs:433-486", "src/signing.rs:372-431"]}
{"id": "C113", "title": "What a PEM constructor uses is the base64 between the lines", "statement": "If one of the ring PEM constructors accepts a file, then the file contains a begin line and an end line with the same non-empty label, the lines between them, without white space at their ends, are the base64 of some bytes (of which only padding may be missing), and the constructor gives what the corresponding DER constructor gives for these bytes.", "quantifier": "every file, every signature type of the ring back end, each of the four formats", "why_tests_cant": "every file; tests load a few correct ones", "anchors": ["src/algorithm/ring.rs new_pkcs8_pem, new_pkcs1_pem, new_spki_pem"]}
{"id": "C114", "title": "Rejected requests are handed back unread", "statement": "When verification returns, accepting or rejecting, it hands back what completing the request left: completing it with a digest of the body if every condition of acceptance but the digest condition holds and a digest is wanted (the digest header is validated and has a supported entry, or the header is required and missing), and without a digest in every other case. In the other cases the outcome does not depend on the body's digest at all, so that no one without a key can make a server read a body. A request is rejected exactly when verification does not panic and one of the conditions fails.", "quantifier": "every request type and its completion functions, request, configuration and clock", "why_tests_cant": "a classification of all outcomes for all implementations of the server trait; the repository's only implementation has an empty remnant, so its tests cannot see it", "anchors": ["src/verifying.rs:320-337", "src/verifying.rs:556-638"]}
{"id": "C115", "title": "Signing with the library's own types", "statement": "For requests of the library's types, signed with an algorithm and a digest of the library, signing succeeds if and only if the clock is after the epoch, created is not in the future and expires not in the past, every derived component is named by a string, none is missing (or missing ones are skipped), the key id is printable, the times have at most 15 digits, the nonce is a token or empty, every component that has a value can be written, and the label has no control character. It panics if and only if the clock is before the epoch, or a derived component is not named by a string, or the times and components are in order but the key id, a time, the nonce or a component cannot be written. In the remaining cases it returns the one error that the request and the configuration determine. No property of URLs, hosts or bodies matters otherwise.", "quantifier": "every request of the three types, signing configuration with the library's algorithms and digests, clock and randomness", "why_tests_cant": "two equivalences over all requests and configurations, including all hosts a URL can have and all bodies", "anchors": ["src/signing.rs:365-487", "src/reqwest_impls.rs:5-68", "httpsig-validator/src/mock_request.rs:239-272"]}
{"id": "C116", "title": "The log says why a request was rejected", "statement": "Take the records verify writes at level info. A request that is accepted leaves none. A request that is rejected leaves the text of the first check it does not pass, and that text alone: missing Signature-Input, missing Signature, malformed Signature (written twice), different labels, missing keyid, missing alg, created in the future, expired, unknown key with its id and algorithm, missing components with their names, invalid signature, required component not covered, missing, invalid or skewed date, digest without supported algorithm, not computable, different or missing. The checks are made in this order. Before a panic nothing is written, except that a Signature-Input value that cannot be read is reported, with the reason when it is no dictionary or an empty one. Writing the records does not change the outcome.", "quantifier": "for every request type, request, configuration, clock and formatting of the values that other crates format", "why_tests_cant": "the tests do not look at the log, and which record is the right one depends on all checks before it, for every combination of headers and configuration", "anchors": ["src/verifying.rs:368-375", "src/verifying.rs:385-490", "src/verifying.rs:492-551", "src/verifying.rs:556-638", "src/signature_input.rs:137-157", "src/macros.rs:1-13", "src/errors.rs:19"]}
{"id": "C117", "title": "No log injection", "statement": "Every record verify writes at level info is one line of printable ASCII characters. Whoever sends a request cannot break a record into two lines or put control characters into the log, whatever the headers, the URL and the body contain, and also when verify panics.", "quantifier": "for every request type, request, configuration and clock, and every formatting of durations and decimal numbers as printable ASCII", "why_tests_cant": "a test tries some hostile header values; the claim is about all of them, including those quoted in the record for an unknown key and for missing components", "anchors": ["src/verifying.rs:385-490", "src/verifying.rs:492-551", "src/verifying.rs:556-638", "src/signature_input.rs:137-157", "src/errors.rs:19", "src/signature_component.rs:16", "src/derived.rs:53"]}
{"id": "C118", "title": "Trace logging changes nothing and shows the signature base", "statement": "With trace records on, signing and verification have the same result, change the request in the same way and panic in the same cases as without a logger; in particular the conversions of the signature base inside the trace messages never panic. Verification writes its info records after at most one group of trace records, which is determined by the outcome of canonicalizing the covered components. For an accepted request the trace shows the very string against which the signature was verified, for a signed request the very string that was signed.", "quantifier": "for every request type, request, configuration, clock, randomness and formatting of the values that other crates format", "why_tests_cant": "the trace messages contain expect calls that are evaluated only with a logger at level trace; that none of them fails is a statement about all requests and configurations", "anchors": ["src/canonicalize.rs:192-244", "src/verifying.rs:467-476", "src/signing.rs:433-486"]}
{"id": "C119", "title": "What verification accepts can be read off the texts of the request", "statement": "For the validator's request type, verification succeeds with a key id exactly when: the first Signature-Input field line is, by the grammar of structured fields, a dictionary whose first member is a list of component names; the Signature field has a value for its label; keyid and alg are strings among the parameters; created and expires are not in the future or past; some key of the provider for keyid accepts the signature for the text built from the components' values, which are the first field line of the name or what the table of derived components says about method, URL and query; every required component's text is the name of a covered one; the date parameter is within the leeway if dates are validated; and the Digest field matches the body if present and validated, or is absent with no body if required. It panics exactly when the Signature-Input field is not such a dictionary, the clock is before 1970 with a signature presented, or with a valid signature a required component that cannot be written is reached. Everything else is rejected.", "quantifier": "all requests of the validator, all verifying configurations (key and digest providers are arbitrary functions), all clocks, all key ids", "why_tests_cant": "The claim is an equivalence over all requests, configurations and clocks between the behaviour of the code and a description that mentions only texts; tests compare single requests.", "anchors": ["src/verifying.rs:385-638", "src/canonicalize.rs:192-244", "src/signature_input.rs:1-120", "src/derived.rs:1-230", "httpsig-validator/src/mock_request.rs:241-286"]}
{"id": "C120", "title": "Signatures that cover the signature headers, and signed requests that arrive changed", "statement": "A signed request that arrives with the two headers of its signature is checked against a text that is the signed text exactly if each covered component still has the value that was signed, and is otherwise accepted under exactly the conditions of an unchanged request. In particular a signature that covers Signature or Signature-Input covers the value from before signing: if signing changes that header, the result is accepted only if a key accepts the signature for a text that is not the signed one (for an HMAC key, only if two texts have the same tag). This describes what the validator's verify mode does with the output of its sign mode for every choice of covered headers, not only those without the signature headers.", "quantifier": "all signing events of all request types, all configurations that can be read back and whose signed values do not imitate lines of the signature base; all requests that arrive; all verifiers, clocks and keys; for the validator all request files and options with a plain label", "why_tests_cant": "It is an equivalence over all requests, configurations, keys and times; a test of one self-covering signature cannot tell a rejection by accident from a rejection by construction.", "anchors": ["src/signing.rs:388-470", "src/verifying.rs:385-560", "src/canonicalize.rs:192-244", "httpsig-validator/src/main.rs:225-330"]}
{"id": "C121", "title": "The exit of the validator's verify mode is described by the bytes it reads", "statement": "The exit of `httpsig-validator verify` is determined as follows by the bytes of its input, its options, the public key file and the clock. It exits with success exactly when the input is a request file, the options name a supported algorithm and a file with a public key of the right form, the request presents a signature under the given key id whose created and expires times admit the clock, whose base64 is a signature by that key of the text made of the listed components and their values, and the first known digest in a Digest field, if there is one, is that of the body. It panics exactly when the input is no request file, or the options are in order and the Signature-Input field is not a dictionary that begins with a list of component names or the clock is before 1970 while a signature is presented. It reports a failed verification exactly when the options are in order and neither of these is the case. It reports another error exactly when the options are refused for that reason.", "quantifier": "for all inputs, command lines, key files, clocks, log levels and behaviours of the dependencies", "why_tests_cant": "a test fixes one input file and one key; the claim is an equivalence over all byte strings that may arrive on standard input, all option values and all clocks", "anchors": ["httpsig-validator/src/main.rs:310-342", "httpsig-validator/src/main.rs:225-305", "httpsig-validator/src/mock_request.rs:85-215", "src/verifying.rs:385-639", "src/algorithm.rs:79-87"]}
{"id": "C122", "title": "Which URL a request line and a Host header mean, and which request lines mean the same", "statement": "The URL whose parts the validator signs or verifies is determined as follows by the request target and the Host header. A target that is no URL is appended to `http://` and the Host value. If the target begins with a slash or backslash and the Host value has no slash, backslash, `?`, `#` or character up to space, then the URL's authority is what the Host value says, its port left out if it is 80, and its path, query and fragment are what the target says: segments `.` and `..`, also written with %2e, are resolved, backslashes read as slashes and other characters percent-encoded. Hence request targets that differ in these respects only have the same URL and every signature verifies on one exactly if it does on the other, and the pairs of the query are those of the text sent. If the target does not begin with a slash the Host header's host is not the URL's: with target `@e/p` it is `e` and the Host value is userinfo; with an empty Host value and target `/e/p` it is `e`. A URL read this way is printed so that reading it again gives the same URL, and a signed http, https, ws, wss or ftp URL sent in origin form is read back with the same host, path and query, and with the same port unless that is 80.", "quantifier": "for all request targets, header maps, host parsers, verification configurations and keys", "why_tests_cant": "the texts are unbounded and the aliases of a target are infinitely many; a test compares a few spellings of one path", "anchors": ["httpsig-validator/src/mock_request.rs:81-98", "httpsig-validator/src/mock_request.rs:188-216", "httpsig-validator/src/mock_request.rs:218-286", "src/canonicalize.rs:33-61"]}
{"id": "C123", "title": "What the validator's log contains", "statement": "Logging changes neither output nor exit status. At level info a run of the validator leaves no record if it succeeds or stops with an error other than a failed verification; if verification fails, the records are exactly the text of the first check the request does not pass; before a panic there are none, or those for an unreadable Signature-Input value, or the target of a request without Host header whose target is not an absolute URL. All of these are lines of printable ASCII, except that this target is logged as it was received. At level trace there are in addition, in this order: the body, the attempt to use the Host header, the request, in verify mode the key id, the steps of loading the key and, in all modes, the signature base; for a successful signing or verification this is the very text signed or verified. The private key is never logged: for a given command line and input the log takes at most two values over all contents of the private key file, depending only on whether the options are refused, and the records of signing do not depend on the signing function.", "quantifier": "for all command lines, file systems, inputs, clocks, keys and contents of key files, at both log levels", "why_tests_cant": "that no content of a key file influences the log is a statement about pairs of runs over all contents; what can appear in the log ranges over all inputs", "anchors": ["httpsig-validator/src/main.rs:225-342", "httpsig-validator/src/mock_request.rs:117-216", "src/canonicalize.rs:192-244", "src/verifying.rs:389-640"]}
{"id": "C124", "title": "Texts of values and errors are exact, unambiguous and on one line", "statement": "The text with which a component, a Signature-Input value or bytes appear in a message, and both texts (message and debug form) of every error of the library, are as written down in a separate specification: fixed words around quoted strings, in which quotes, backslashes, control characters and unprintable characters are escaped. A text belongs to one value only: two components, Signature-Input values or byte strings with the same text are the same, even if other text follows; two errors with the same text are the same error with the same data, so a message about missing components tells exactly which ones and in which order. No such text contains a control character of ASCII, so nothing that a request contains can break a line of a log or forge another message.", "quantifier": "for all components, Signature-Input values, byte strings and errors, whatever their strings contain, and whichever characters outside ASCII count as printable", "why_tests_cant": "that no two values share a text is a statement about all pairs of values; escaping has to hold for every character in every position", "anchors": ["src/errors.rs:10-62", "src/signature_component.rs:16", "src/derived.rs:53", "src/signature_input.rs:9,81", "src/canonicalize.rs:216-232"]}
{"id": "C125", "title": "What the validator reports: every error, its line on standard error and the exit status", "statement": "Running the validator ends with an error exactly in the listed cases, and with exactly the listed error: its options are refused; in canonicalize mode some of the components asked for have no value, and the error lists precisely those, in order; in sign mode the creation time is in the future, the expiry in the past, a component has no value (the error does not say which), the label has a control character, or the signed request has a header that is not text; in verify mode the request is not in order without making the program panic. The process then writes one line, 'Error: ' and the debug text of the error, to standard error and exits with status 1; status 0 in verify mode means exactly that the request was accepted, and an input that is no request gives 101. The line has no control characters whatever the options and the request contain, and two different errors of the library or the validator never share a line. How the program ends does not depend on the private key: two contents of the key file that are both private keys, both no private key, or both unreadable lead to the same error, success or panic.", "quantifier": "all arguments, file systems, standard inputs, clocks, coins and requests; all contents of the key file; all formats of errors that other code makes", "why_tests_cant": "Completeness of the list of errors and independence of the key are statements about all inputs and pairs of runs; tests see the messages of the cases they think of.", "anchors": ["httpsig-validator/src/main.rs:149-342", "httpsig-validator/src/error.rs:3-10", "src/errors.rs:10-61", "src/verifying.rs:21-25", "src/signing.rs:433-486", "src/canonicalize.rs"]}
{"id": "C126", "title": "Which host a Host header means, and which Host headers mean the same", "statement": "The host of a URL that is signed or verified is the one that the text in the Host header means by the URL standard: percent-encoding is resolved, letters are lowered, international names become ASCII; if the last label is a number the text must be an IPv4 address, of one to four decimal, octal or hexadecimal numbers, and it is written as four decimal bytes; in brackets it must be an IPv6 address, which is written in lower case with the first longest run of two or more zeros as `::`. A host is never empty and has no character that could begin another part of a URL. Two texts that differ in case or percent-encoding only, or spell the same address, mean the same host. So two requests for the same target with such Host headers have the same values of all derived components (@authority, @target-uri and so on), and only a covered `host` header tells them apart. A URL that was read is read again as itself, and arrives on the wire with the same host, without the conditions on hosts that C122 and C81 have.", "quantifier": "for all texts, addresses, header maps, request targets, and conversions of international domain names to ASCII (for reading again: those whose results are fixed points)", "why_tests_cant": "an address has unboundedly many spellings (leading zeros) and a name 2^n mixtures of case and percent-encoding; a test compares a few", "anchors": ["httpsig-validator/src/mock_request.rs:81-98", "httpsig-validator/src/mock_request.rs:188-216", "httpsig-validator/src/mock_request.rs:218-286"]}
{"id": "C127", "title": "How large the signature base can get", "statement": "A Signature-Input value names at most one component per four of its characters, and the signature base computed for it has at most n*M + 4*L + 7 bytes, where L is the length of the value, n the number of components and M the length of the longest component value. On the built-in request types M is at most the length of the method, of the URL or of the longest header value: decoding a query never makes it longer. So the base of a request of s bytes has at most s*s/4 + 4*s + 7 bytes. Growth of that order does happen: a value that names one header n times is accepted, repeats the header's value n times in the base, and needs only 4*n + 3 characters, so no multiple of the size of the request bounds the size of the base. Anyone who knows a key id the verifier has keys for can send such a request, and the verifier checks the signature over the whole base.", "quantifier": "for all Signature-Input values, requests and component values; for all n, all header values and all factors", "why_tests_cant": "A test measures the base of a few requests; the bound is over all texts the structured-field parser accepts (including repeated parameters, unpadded base64 and repeated dictionary keys), and the absence of a linear bound is a statement about an infinite family.", "anchors": ["src/canonicalize.rs:61-64", "src/canonicalize.rs:155-174", "src/canonicalize.rs:192-244", "src/derived.rs:94-128", "src/verifying.rs:385-490"]}
{"id": "C128", "title": "Comparing digests and HMAC tags shows nothing but lengths and the answer", "statement": "The comparison of the presented digest with the computed one, and of a presented HMAC tag with the right one, as the libraries carry them out byte by byte (exclusive or, accumulated without a branch), answers true exactly for equal contents, so verification gives the results described by the other properties. The branches taken and the array elements read during an HMAC verification are a function of the size of the presented tag and of the answer alone: they are the same for all keys, all messages and all presented tags. The same holds for the digest check of verify: requests that differ only in their bodies, with digests of equal size and the same answer, cannot be told apart by it. A comparison that stops at the first difference would show how many bytes of a guess are right.", "quantifier": "for all keys, messages, signatures, requests, bodies, configurations and clocks", "why_tests_cant": "Independence of secret data is a statement about pairs of runs for all secrets; a timing test samples a few pairs and measures noise. That the branch-free byte comparison is equality depends on bit arithmetic that a test with random tags hardly ever exercises near equality.", "anchors": ["src/verifying.rs:590-597", "src/algorithm.rs:79-87"]}
{"id": "C129", "title": "What holds in every history of signing, sending and key changes", "statement": "Take any sequence of actions: clients sign requests with any configurations and clocks, anybody delivers any requests to a server at any clock, and the server's SimpleKeyProvider is changed in between. Whenever a request is accepted, a key that is registered under the returned key id at that moment (there from the start or added, and not removed since) accepts its signature. Either the request says what some client signed earlier in the sequence under that key id, the second of acceptance lies between the created and expires times that client wrote, and the body has the digest the signed Digest header names (if the server validates digests and the header was covered); or the key accepts a signature on a text that no client signed before. After the keys of a key id are removed, and until one is added again, nothing is accepted under it. There is no protection against replay: an accepted request is accepted again whatever happened in between, as long as no key of its key id was removed and its times allow it.", "quantifier": "for all sequences of actions, all requests, configurations, clocks, keys and initial key stores", "why_tests_cant": "The claim is about all interleavings of unboundedly many actions with an arbitrary adversary choosing the delivered requests; a test runs one scripted sequence.", "anchors": ["src/signing.rs:433-486", "src/verifying.rs:60-100", "src/verifying.rs:385-638"]}
{"id": "C130", "title": "No server can insist that the request line is signed", "statement": "Whatever a server requires, it does not notice when a client stops to sign parts of the request line. If the server accepts a request that a client signed, then the client can sign the same request with only those of its components that are headers, the server accepts that as well at the same time, and it goes on to accept the same headers and body with every method and every URL. (Requiring a derived component does not help: then nothing is accepted, C12.)", "quantifier": "every client type, request, signing configuration with a signature scheme whose signatures the server's key accepts, server configuration, clock, and every replacement for version, method, URL and path", "why_tests_cant": "It is a statement about all server configurations and all request lines: a test can try one policy and one replaced method.", "anchors": ["src/verifying.rs:498-511", "src/verifying.rs:295-311", "src/derived.rs:201-206", "src/signing.rs:433-486"]}
{"id": "C131", "title": "Which user code verification calls, when, and how often", "statement": "Verification calls what its user supplies in this order and in no other way. If labels, parameters and times are in order the key provider is asked once, for the key id in Signature-Input; otherwise not at all. The keys it gave are tried in their order, on the signature base and the presented signature text, up to and including the first that accepts and no further. If all conditions other than the digest hold and the digest is to be validated, the digest provider is asked for the algorithm names in the digest header in their order, up to and including the first it knows. Last, the request is completed exactly once, with a digest only if every other condition holds and a digest is wanted. In particular the body is read only after a key accepted the signature. A run that panics never completes the request. Recording the calls does not change the outcome.", "quantifier": "for all requests of every request type, all configurations (with arbitrary key providers, keys and digest providers) and clocks", "why_tests_cant": "An early lookup, a key tried after one accepted, or a body read before the signature is checked changes no result; tests look at results.", "anchors": ["src/verifying.rs:385-490", "src/verifying.rs:492-551", "src/verifying.rs:556-638", "src/verifying.rs:43-54", "src/verifying.rs:104-112"]}
{"id": "C132", "title": "Which user code signing calls, when, and how often", "statement": "Signing calls what its user supplies in this order: set date if it is to be added and no date can be read; ask for the host and set it likewise; compute the digest with the configured algorithm and set it likewise; set Signature-Input; use the key on the signature base; set Signature. The request is changed by these calls and in no other way. The key is used at most once, never in a run that panics or that refuses for another reason than that the finished header cannot be written, and always on the signature base of what is covered. The body is asked for a digest, and the request for its host, only if that header is to be added and has no readable value, also in runs that panic. (The documentation promises that the host is asked for only if the header is not set; a header that is set but not readable also leads to the question.)", "quantifier": "for all requests of every request type whose header access is consistent (proved for the three of the repository), all configurations (with arbitrary signing keys and digests), clocks and coins", "why_tests_cant": "A second use of a key or a digest computed and thrown away changes no result; the runs that fail in between are not reached by tests.", "anchors": ["src/signing.rs:14-32", "src/signing.rs:376-423", "src/signing.rs:433-486"]}
{"id": "C133", "title": "What the commands in the validator's README do", "statement": "The README's canonicalize command prints the lines of host, date and content-digest and exactly the last line the README shows, and succeeds only for requests with these three fields. The sign command succeeds exactly if the request has host, date and digest, the key file can be read and the clock is not before 1970; it adds Signature-Input with alg=\"rsa-v1_5-sha256\" (the README shows hmac-sha256) and a signature over exactly these fields. For a request that lacks one of the fields, like the file the README uses, it writes nothing and fails with an error that names no field, and the verify command behind the pipe panics. With the three fields the pipe succeeds, silently, exactly if the digest is that of the body, the verifier's clock is not before 1970 and the public key accepts the signature. Key files as made by the README's recipe (DER, no PEM line) are refused.", "quantifier": "for all contents of standard input and of the key files, all clocks, coins and log levels", "why_tests_cant": "The README's commands are not run by any test, and a run shows one request and one key only.", "anchors": ["httpsig-validator/README.md", "httpsig-validator/src/main.rs:180-342"]}
{"id": "C134", "title": "The words of the validator's command line determine its options", "statement": "A command line of the mode word followed by options, each written as -x value, --long value or --long=value (and -d also without a value), gives each option exactly the value written after its own letter or name and leaves all others unset. The order and spelling of the options do not matter. An option given twice, or a created or expires time that is not a 64-bit decimal number, is refused; a value beginning with a dash can be given only behind =. Exactly the options without empty texts and with 64-bit times can be given this way, negative times among them. The README's command lines give the options C133 speaks of.", "quantifier": "for all lists of words that are such a command line, and all options", "why_tests_cant": "ten options in any order, three spellings and arbitrary values cannot be enumerated; a swapped letter shows only in the command lines that use it", "anchors": ["httpsig-validator/src/main.rs:22-77", "httpsig-validator/src/main.rs:313", "httpsig-validator/README.md:11-89"]}
{"id": "C135", "title": "Which HMAC keys are the same key, and what an HMAC signature binds", "statement": "HMAC key objects made from two byte strings sign and verify identically if the strings, after those longer than a block (64 bytes for HmacSha256, 128 for HmacSha512) are replaced by their hash, differ only in zero bytes at the end: a key with zero bytes appended is the same key, and so is the hash of a long key. Conversely a signature made with one key on one text is accepted with another key on another text only if the keys are the same in this sense and the texts are equal, or the strings that HMAC hashed for the two are a collision of SHA-256 (SHA-512). A signature of one of the two types is never accepted by a key of the other. Hence if a request carries the signature of another signed request and is accepted by a verifier that has any number of HMAC keys of either type for the key id, one of them is the same key and the request says what was signed, or there is such a collision.", "quantifier": "for all keys, texts, requests, configurations and clocks, and any hash functions with values of 32 and 64 bytes", "why_tests_cant": "that no other pair of keys or texts shares a signature is a statement about all pairs, reduced to explicit collisions; the interchangeable keys form an infinite family", "anchors": ["src/algorithm.rs:62-91", "src/algorithm.rs:95-96"]}
{"id": "C136", "title": "RSA key pairs fit together, and there is one signature per text", "statement": "With PKCS#1 v1.5 (all RSA types of the openssl back end, and the rsa-v1_5 types of ring): what the private key of an RSA key pair signs, the public key accepts; for every text exactly one signature string is accepted, the one that the signer makes. A signature is accepted on another text, or by the type with the other hash, only if the types have the same hash and the texts have equal hashes. Hence an accepted request with the signature of another signed request says what was signed, or the two signed texts are a collision of the hash. The signing and verifying commands of the validator's README, in a pipe and with the two files of a key pair, succeed exactly if the clock is after 1970 and the digest is right.", "quantifier": "for all RSA keys (products of two primes, inverse exponents, at least 94 bytes), texts, signature strings, requests, configurations, clocks, and hash functions with values of 32 and 64 bytes", "why_tests_cant": "that a key pair works for every text is Fermat's theorem, not a sample; that no second signature is accepted quantifies over all strings", "anchors": ["src/algorithm/ring.rs:84-118", "src/algorithm/ring.rs:223-224", "src/algorithm/openssl.rs:78-118", "httpsig-validator/README.md"]}
{"id": "C137", "title": "Which signatures are accepted with RSA-PSS, and what they bind", "statement": "With PSS (the rsa-pss types of ring): what the private key of an RSA key pair signs, the public key accepts, whatever salt is drawn; the strings that are accepted for a text are exactly those that the signer can make, and two of them are equal exactly if their salts are. A signature is accepted on another text exactly if the strings that PSS hashes for the two texts, with the salt of the signature, have the same hash. Hence an accepted request with the signature of another signed request says what was signed, or there is a collision of SHA-512 among the texts that were hashed for the two.", "quantifier": "for all RSA keys (products of two primes, inverse exponents, at least 132 bytes), texts, salts, signature strings, requests, configurations, clocks, and hash functions with values of 64 bytes", "why_tests_cant": "the exact set of accepted strings quantifies over all strings and salts; a test sees a few signatures", "anchors": ["src/algorithm/ring.rs:84-118", "src/algorithm/ring.rs:225-226"]}
{"id": "C138", "title": "ECDSA keys fit together; every ECDSA signature has a second form that anyone can compute and that is accepted as well", "statement": "With ECDSA on P-256 as in FIPS 186-4: (1) a signature text is accepted for a text exactly if it is the base64 of the DER encoding of two numbers that are an ECDSA signature on the SHA-256 of the text for a key that is a point of the curve; (2) a private key and its public key (the multiple of the base point) fit together, whatever nonces the signer takes; every private key from 1 to the order minus 1 has exactly one public key and every public key belongs to one such number; (3) every accepted signature text has exactly one other form (same first number, second number negated), which is a different text and is accepted by every key on the same texts; so the Signature header of an accepted request, if it is not covered, can be replaced by anyone and the request is still accepted: a server must not identify requests by their signatures; (4) a signature does not determine the key: for every accepted signature and every other text there is a public key with which it is accepted on that text; but a signature on a text is accepted with at most four public keys.", "quantifier": "all keys, texts, signature texts, nonces, and all requests of the validator's type accepted with ECDSA keys", "why_tests_cant": "The group has about 2^256 elements; that all of its points have the same prime order, and that the addition formulas are associative, cannot be seen from samples.", "anchors": ["src/algorithm/ring.rs:137-222", "src/algorithm/ring.rs:227", "src/verifying.rs"]}
{"id": "C139", "title": "Which private key files the ECDSA type takes, and that what they sign is accepted with their public key", "statement": "With ring's reading of PKCS #8 files for keys on P-256: (1) the ECDSA signing type can be made from a file exactly if it is a PKCS #8 PrivateKeyInfo of version 0 for id-ecPublicKey on prime256v1 (perhaps with attributes) that contains an ECPrivateKey with a number of 32 bytes between 1 and the order minus 1, perhaps the name of the curve again, and the public key that belongs to the number; (2) a file has one private and one public key, files have the same private key exactly if they have the same public key, and every such number is in some file; (3) whatever is signed with the key of such a file, in DER or PEM, is accepted by every verifying type made from an SPKI file, in DER or PEM, with the same public key bits; (4) refused are: bare ECPrivateKey files as openssl ecparam and openssl ec write them, PKCS #8 of another version, PKCS #8 without the public key although RFC 5915 makes it optional, and PKCS #8 with the public key of another private key.", "quantifier": "all files, keys, texts and nonces", "why_tests_cant": "The repository has one EC key file and no test that loads it; files can differ in lengths, attributes, names of curves and public keys, and that the public key belongs to the private key is a statement about about 2^256 numbers.", "anchors": ["src/algorithm/ring.rs:131-134", "src/algorithm/ring.rs:151-187", "src/algorithm/ring.rs:190-201"]}
{"id": "C140", "title": "RSA public keys of the ring back end: which accept anything, and exactly what they accept", "statement": "Let the RSA primitives be those of RFC 8017, with public keys read as ring reads them. (1) A verifier of one of the two PKCS#1 v1.5 types accepts a signature text on a message exactly if its key is the DER encoding of an RSAPublicKey with an odd modulus of 2041 to 8192 bits (2040 bits are too few: the length is rounded up to whole bytes) and an odd exponent between 3 and 2^33, the text is the base64 of as many bytes as the modulus has, these are a number below the modulus, and its power is the block 00 01 FF...FF 00 with the DigestInfo of the hash of the message. (2) Likewise for the PSS types, with the EMSA-PSS encoding of the message for some salt of 64 bytes. (3) So a verifier of an RSA type that is constructed with anything else (the PKCS#1 constructors check nothing) accepts no signature whatsoever: an SPKI file or a private key given to a PKCS#1 constructor, a key of 2040 bits or less. (4) The bytes of a key determine its numbers and are determined by them. (5) No key bytes work for both an RSA type and the ECDSA type. (6) In the validator, a public key file with such a key is loaded without error, and then verify mode accepts no request: in particular every file in SPKI format unless the algorithm is rsa-v1_5-sha256, and every key of 2040 bits or less. (7) A private key and the RSAPublicKey with the same modulus and an inverse exponent, of a supported size, are a key pair for each RSA type: what the one signs the other accepts.", "quantifier": "for all key bytes, messages, signature texts, PEM files, options of the validator and requests", "why_tests_cant": "A test has a few keys and signatures; that a malformed or short key accepts nothing at all, for every message and signature, and that no key works for two kinds of algorithm, is about infinitely many inputs.", "anchors": ["src/algorithm/ring.rs new_spki_der, new_pkcs1_der, http_verify of the RSA types", "httpsig-validator/src/main.rs verification_config"]}
{"id": "C141", "title": "Signing with a key whose operation panics", "statement": "The signing operations of the crate's key types end in expect, and a key type of the user may panic as well. Let sign be called with a key whose signing operation may panic in any way on any text. (1) If the operation returns on the text it is used on, signing makes the same calls and has the same outcome as with a key that always gives this signature; so with an operation that never panics all other claims apply. (2) sign panics exactly if it would panic with a key that returns, or if it gets as far as using the key and the operation panics on the signature base. (3) In the second case, Signature-Input was set just before and nothing is called afterwards; the calls are those of a signing whose signature cannot be written to a header, and the request is left as by that one. (4) So the request keeps the Signature header it had, if any, and all else except for Signature-Input and the automatic headers; Signature-Input is the one of the signature that was not made, replacing what was there. (5) A request that had no readable Signature before is accepted by no verifier if it is sent nevertheless. (6) With keys of the openssl back end, signing panics as soon as it uses a key that is not a plain RSA key or is too short for the digest, and with no other key.", "quantifier": "for all signing operations, requests, configurations, clocks, coins, and (in 5) verifiers", "why_tests_cant": "A failure of the operating system's randomness or of the check of an RSA signature cannot be provoked in a test, and the operation of a user can be anything; the claim is about every operation and what is left of every request.", "anchors": ["src/signing.rs sign", "src/algorithm/ring.rs http_sign", "src/algorithm/openssl.rs http_sign"]}
{"id": "C142", "title": "The back ends do not understand each other's rsa-pss-sha512", "statement": "Both back ends have a signature type with the name rsa-pss-sha512; ring's pads with PSS, openssl's with PKCS#1 v1.5. With RSA as in RFC 8017 and a modulus of more than 2040 bits: (1) No signature text is accepted with PKCS#1 v1.5 for some text and with PSS for some text, by the same public key, unless one of the texts that PSS hashed has a SHA-512 hash whose last 62 bytes are all FF. (2) So, with this exception, a signature made by the type rsa-pss-sha512 of one back end is accepted by the type with this name of the other back end for no text, although the keys are a pair and each back end accepts its own signatures. (3) A server all of whose keys are of the type rsa-pss-sha512 of one back end accepts no request that carries a signature made by the type of the other back end. (4) The signatures of the other names that both back ends have are understood by the other back end.", "quantifier": "for all RSA key pairs with more than 2040 bits, texts, coins, signature texts, requests, verifiers, and both directions", "why_tests_cant": "The two back ends are alternatives of a build, so no test of the crate has both; and that no signature at all is common to the two paddings is a statement about every key, salt and text.", "anchors": ["src/algorithm/ring.rs rsa_signature", "src/algorithm/openssl.rs rsa_signature", "Cargo.toml features"]}
{"id": "C143", "title": "RSA private key files of the ring back end", "statement": "With ring's reading of RSA private keys as in ring 0.16 and its signing as in RFC 8017: (1) A file has one key and is of one kind, and a key has only one file without PKCS #8. (2) The RSA types of the ring back end take exactly the files, in DER or PEM, that hold an RSAPrivateKey of version 0, bare for the PKCS #1 functions and in a PrivateKeyInfo for the PKCS #8 functions, whose numbers pass the checks: sizes of 2047, 2048, 3071, 3072, 4095 or 4096 bits, primes of half the size, odd numbers, a public exponent from 65537 on and below 2^33, factors whose product the modulus divides, and an inverse that is right or not looked at (and that have less than 65540 bytes). In particular a modulus below 2^2046 or from 2^4096 on, a public exponent below 65537, a version other than 0, a file of the other kind, and a key on P-256 are refused. (3) Whatever the primes and exponents in the file: if signing returns, the signature is accepted with the public key that has its modulus and its public exponent, and it is the one that RFC 8017 gives with the private exponent belonging to these. (4) With primes in the file, signing panics exactly if one of the two prime exponents gives another power of the padded hash than the private exponent, so that a file is taken, and fails only when a request is signed. (5) If the numbers are those of an RSA key, signing never panics, and the key is a pair with every public key file with the same modulus and public exponent. (6) The private exponent in the file is not used. (7) When a request is signed with such a key, either signing panics, or the signature that is sent is accepted for the signature base. (8) Sign mode of the validator refuses a private key file in PEM as a bad key exactly if it does not hold such a key in PKCS #8; and the README's two commands in a pipe, with the two files of an RSA key, end with acceptance exactly if the clock is after 1970 and the digest in the request is right for the body.", "quantifier": "for all files, numbers, key types of the ring back end for RSA, texts, salts, requests and configurations", "why_tests_cant": "Tests use one generated key; which files are taken, that a wrong number in a file never leads to a wrong signature but to a panic when signing, and that a right one never does, are statements about all numbers of up to 4096 bits.", "anchors": ["src/algorithm/ring.rs rsa_signature", "src/algorithm/ring.rs new_pkcs8_pem, new_pkcs1_pem", "src/algorithm/ring.rs http_sign", "httpsig-validator/src/main.rs signing_config", "httpsig-validator/README.md"]}
{"id": "C144", "title": "RSA keys of the openssl back end", "statement": "Assume that OpenSSL signs and verifies PKCS#1 v1.5 as RFC 8017 says, within its limits on keys. (1) A verifying type of the openssl back end accepts a signature text for a text exactly if the modulus is odd and has at most 16384 bits, the exponent is below the modulus and has at most 64 bits if the modulus has more than 3072, and the signature text is the base64 of as many bytes as the modulus has, which are a number below the modulus whose power is the block with the DigestInfo of the text. (2) Signing with an RSA key panics exactly if the modulus has fewer than 62 bytes (SHA-256) or 94 bytes (SHA-512), for every text, and a verifying type with such a key accepts nothing. (3) All other RSA key pairs within the limits work, however small, and the one text that is accepted is the one that signing returns. (4) With public exponent 1 a signature is the encoded block itself, so anyone can make accepted signatures for every text from the public key. (5) Signing a request with a key that is too short panics as soon as the key is used, and otherwise is as in the other claims. (6) The PKCS#1 v1.5 types of the ring back end accept, for a key with the same numbers, the same texts if the key has 2041 to 8192 bits and an odd exponent from 3 to 2^33, and nothing otherwise.", "quantifier": "for all keys, texts, signature texts, requests and configurations, and all hash functions with 32 and 64 bytes", "why_tests_cant": "There are infinitely many keys and texts, and the limits are at single values of numbers with thousands of bits; that no other signature is accepted is a statement about all byte strings.", "anchors": ["src/algorithm/openssl.rs:79-86", "src/algorithm/openssl.rs:92-107", "src/algorithm/openssl.rs:115-118", "src/algorithm/ring.rs:84-118"]}
{"id": "C145", "title": "RSA key files of the openssl back end, and of both back ends", "statement": "Assume that OpenSSL reads the RSA key files of the standards as what they are, and takes as SPKI only files that begin with an algorithm, as PKCS #1 only private key files that continue with a number after the version, and as PKCS #8 only ones that continue with an algorithm. (1) `new_der` of a verifying type of the openssl back end takes every RSA public key in SPKI and refuses every RSA public key in PKCS #1 and every private key file. (2) `new_pkcs8` refuses every PKCS #1 private key file and `new_pkcs1_der` every PKCS #8 file for RSA or for a curve. (3) With the numbers of an RSA key in a private key file of either kind (PKCS #1, or PKCS #8 without attributes) and the public key in SPKI, both constructors succeed, signing returns, and what it returns is the one text that the verifying type accepts. (4) An RSA public key in SPKI is taken by both back ends, by `new_spki_der` of ring and by `new_der` of openssl; they accept the same signatures if the key has a size that ring supports, and ring's type accepts none otherwise. (5) No file works with `new_pkcs1_der` of ring's verifying types and with `new_der` of openssl's: the second refuses it or the first accepts no signature. (6) A private key file as in (3) that the ring back end takes gives the same signature for every text in both back ends, with the types for the same hash. (7) With such a file and the public key in SPKI, for every text there is one signature text: the signing types of both back ends return it, and the verifying types of both accept it and no other. (8) A server that changes the back end, and keeps its SPKI files and the names of the types (other than rsa-pss-sha512), gives the same answer to every request, if its keys have sizes that ring supports. (9) A client that changes the back end, and keeps a private key file as in (6) and the name of the type (other than rsa-pss-sha512), signs every request as before.", "quantifier": "for all files, keys, texts and signature texts, and all hash functions with 32 and 64 bytes", "why_tests_cant": "There are infinitely many keys, files and texts; that two independent back ends never disagree about a file is a statement about all of them, and the types of both back ends cannot be linked with the same test vectors for all keys.", "anchors": ["src/algorithm/openssl.rs:39-42", "src/algorithm/openssl.rs:51-56", "src/algorithm/openssl.rs:68-70", "src/algorithm/ring.rs:25-50", "src/algorithm/ring.rs:55-80"]}
