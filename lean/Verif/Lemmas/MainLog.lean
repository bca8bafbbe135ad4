import Verif.Spec.MainLog
import Verif.Props.Trace
import Verif.Props.Process
/- The log of the validator against its specification. -/
set_option linter.unusedSectionVars false
set_option linter.unusedSimpArgs false
namespace Httpsig
open Sfv
variable [Deps]

theorem get_none_iff {headers : HeaderMap} {n : HeaderName} : headers.get n = none ↔ headers.getAll n = [] := by
  rw [HeaderMap.get_eq_head_getAll, List.head?_eq_none_iff]

theorem deriveUrlLogged_spec (trace : Bool) (path : Str) (headers : HeaderMap) :
    (MockRequest.deriveUrlLogged trace path headers).result = MockRequest.deriveUrl path headers ∧
    TargetRecords trace path headers (MockRequest.deriveUrlLogged trace path headers).records := by
  unfold MockRequest.deriveUrlLogged MockRequest.deriveUrl
  cases hp : Deps.parseUrl path with
  | ok u => exact ⟨rfl, .url (by simp [hp])⟩
  | bad => exact ⟨rfl, .url (by simp [hp])⟩
  | relative =>
    simp only
    cases hh : headers.get hHost with
    | none => exact ⟨rfl, .noHost hp (get_none_iff.1 hh)⟩
    | some v =>
      have hne : headers.getAll hHost ≠ [] := fun e => by rw [get_none_iff.2 e] at hh; cases hh
      cases trace with
      | true =>
        have key : ∀ x : Logged (Option Url), x.records = [] →
            TargetRecords true path headers (tracing (str% "Attempting to use host header") >>= fun _ => x).records := by
          intro x hx
          show TargetRecords true path headers (_ :: x.records)
          rw [hx]
          exact .host hp hne rfl
        cases hs : v.toStr with
        | none => simp only [hs]; exact ⟨rfl, key _ rfl⟩
        | some s =>
          simp only [hs]
          cases Deps.parseUrl (str% "http://" ++ s ++ path) <;> exact ⟨rfl, key _ rfl⟩
      | false =>
        cases hs : v.toStr with
        | none => simp only [hs]; exact ⟨rfl, .hostOff hp hne rfl⟩
        | some s =>
          simp only [hs]
          cases Deps.parseUrl (str% "http://" ++ s ++ path) <;> exact ⟨rfl, .hostOff hp hne rfl⟩

theorem bind_url {α β : Type} (x : Logged (Option α)) (g : α → β) :
    (do let u ← x; return u.map g : Logged (Option β)) = ⟨x.records, x.result.map fun o => o.map g⟩ := by
  obtain ⟨l, r⟩ := x
  cases r with
  | error p => rfl
  | ok o => rw [Logged.bind_mk_ok]; simp [Logged.pure_eq, Except.map]

theorem utf8_of_decode {b : Bytes} {s : Str} (h : utf8Decode b = some s) : b = utf8 s := by
  have hn : ¬ utf8Decode b = none := by rw [h]; simp
  rw [utf8Decode_none] at hn
  simp only [ne_eq, Classical.not_forall, Classical.not_not] at hn
  obtain ⟨s', rfl⟩ := hn
  rw [utf8Decode_utf8] at h
  cases h
  rfl

theorem fromReaderLogged_eq {input : Bytes} {trace : Bool} {method : Method} {path : Str} {version : Version} {headers : HeaderMap}
    {body : Option Bytes} (h : RequestText input method path version headers body) :
    MockRequest.fromReaderLogged input trace =
      (match body with | none => pure () | some b => MockRequest.bodyRecord trace b) >>= fun _ =>
        ⟨(MockRequest.deriveUrlLogged trace path headers).records, (MockRequest.deriveUrlLogged trace path headers).result.map fun o =>
          o.map fun url => ⟨version, method, url, path, headers, body⟩⟩ := by
  obtain ⟨line, rest, more, lines, hl, hw, hb, hv⟩ := h.parts
  obtain ⟨hrest, text, hd, hor⟩ := textLine_readLine hl
  have hsplit := words_iff.1 ((words_line hor _).2 hw)
  have hread : MockRequest.readHeaders [] (readLine input).2 = some (headers, body.isSome, body.getD []) := by
    rw [readHeaders_block, hrest]
    refine ⟨lines, ?_, ?_, lastValues_iff.1 hv⟩
    · cases body <;> exact hb
    · cases body with
      | none => intro _; rfl
      | some b => intro h; cases h
  unfold MockRequest.fromReaderLogged
  rw [hd]
  simp only [hsplit, method_iff.2 rfl, version_iff.2 rfl, hread]
  have hbody : (if body.isSome = true then some (body.getD []) else none) = body := by cases body <;> rfl
  rw [hbody]
  simp only [bind_url]
  cases body <;> rfl

theorem fromReaderLogged_malformed {input : Bytes} (trace : Bool)
    (h : ∀ method path version headers body, ¬ RequestText input method path version headers body) :
    MockRequest.fromReaderLogged input trace = ⟨[], .ok none⟩ := by
  unfold MockRequest.fromReaderLogged
  split
  · rfl
  · rename_i text hd
    obtain ⟨l, hl, hor⟩ := readLine_textLine hd
    split
    · rename_i m path v more hw
      split
      · rename_i method version hm hv
        split
        · rfl
        · rename_i headers hasBody rest hh
          obtain ⟨lines, hb, _, he⟩ := readHeaders_block.1 hh
          refine absurd ⟨l, _, more, lines, hl, ?_, hb, lastValues_iff.2 he⟩ (fun hp => h method path version headers _ ⟨hp⟩)
          rw [← words_line hor, words_iff, hw, method_iff.1 hm, version_iff.1 hv]
      · rfl
    · rfl

theorem fromReaderLogged_spec (input : Bytes) (trace : Bool) :
    (MockRequest.fromReaderLogged input trace).result = MockRequest.fromReader input trace ∧
    ReadRecords trace input (MockRequest.fromReaderLogged input trace).records := by
  by_cases hex : ∃ method path version headers body, RequestText input method path version headers body
  · obtain ⟨method, path, version, headers, body, ht⟩ := hex
    obtain ⟨h1, h2⟩ := deriveUrlLogged_spec trace path headers
    rw [fromReaderLogged_eq ht, fromReader_eq ht, h1]
    cases body with
    | none => exact ⟨by simp [Logged.bind_pure], .text ht .none h2⟩
    | some b =>
      cases trace with
      | false => exact ⟨by simp [MockRequest.bodyRecord, Logged.bind_pure], .text ht (.off rfl) h2⟩
      | true =>
        simp only [if_true, MockRequest.bodyRecord, Bool.true_and, Option.any_some]
        cases hu : utf8Decode b with
        | none => exact ⟨rfl, .body ht rfl (utf8Decode_none.1 hu)⟩
        | some s =>
          cases utf8_of_decode hu
          refine ⟨rfl, ReadRecords.text ht (.text rfl) h2⟩
  · have hex : ∀ method path version headers body, ¬ RequestText input method path version headers body :=
      fun m p v hs b hh => hex ⟨m, p, v, hs, b, hh⟩
    rw [fromReaderLogged_malformed trace hex, fromReader_malformed trace hex]
    exact ⟨rfl, .malformed hex⟩

theorem bind_traceAt {β : Type} (trace : Bool) (s : Str) (g : Unit → Logged β) :
    traceAt trace s >>= g = ⟨(if trace then [s] else []) ++ (g ()).records, (g ()).result⟩ := by
  cases trace <;> rfl

/-- The records of `verification_config` at level trace. -/
def configRecords (o : Opt) : List Str :=
  [str% "Using key_id: " ++ o.keyId.getD [],
   if o.publicKey = none then str% "No public key was read.  This is bad." else str% "Reading public key from file"] ++
  match Opt.readKey o.publicKey, o.checkAlgorithm, o.algorithm with
  | .ok _, .ok _, none => [str% "No recognized algorithm was provided", str% "No key was loaded"]
  | .ok none, .ok _, some _ => [str% "No key provided"]
  | .ok (some pkey), .ok _, some a =>
    if Opt.verifierFor a = none then []
    else (str% "Loading " ++ a) ::
      if a = str% "rsa-v1_5-sha256" ∧ publicSpkiPem pkey = none then [str% "Not an SPKI formatted key.  Trying PKCS1"] else []
  | _, _, _ => []

theorem verificationConfigLogged_eq (o : Opt) (trace : Bool) :
    o.verificationConfigLogged trace = ⟨if trace then configRecords o else [], .ok o.verificationConfig⟩ := by
  unfold Opt.verificationConfigLogged Opt.verificationConfig configRecords
  simp only [bind_traceAt]
  cases hk : o.publicKey with
  | none =>
    simp only [Opt.readKey, bind_traceAt]
    cases o.checkAlgorithm with
    | error e => cases trace <;> rfl
    | ok u =>
      cases ha : o.algorithm <;> cases trace <;> rfl
  | some k =>
    simp only [bind_traceAt]
    cases k with
    | none => cases trace <;> rfl
    | some pkey =>
      simp only [Opt.readKey]
      cases o.checkAlgorithm with
      | error e => cases trace <;> rfl
      | ok u =>
        cases ha : o.algorithm with
        | none => cases trace <;> rfl
        | some a =>
          simp only [Logged.bind_pure, ha]
          cases hv : Opt.verifierFor a with
          | none => cases trace <;> simp [hv, Logged.pure_eq, Bind.bind, Except.bind, throw, throwThe, MonadExceptOf.throw]
          | some build =>
            simp only [bind_traceAt, hv]
            by_cases hs : a = str% "rsa-v1_5-sha256" ∧ publicSpkiPem pkey = none
            · simp only [if_pos hs]
              cases hb : build pkey <;> cases trace <;> simp [hb, hv, Logged.pure_eq, Bind.bind, Except.bind, Pure.pure, Except.pure, throw, throwThe, MonadExceptOf.throw]
            · simp only [if_neg hs]
              cases hb : build pkey <;> cases trace <;> simp [hb, hv, Logged.pure_eq, Bind.bind, Except.bind, Pure.pure, Except.pure, throw, throwThe, MonadExceptOf.throw]

theorem targetRecords_unique {trace : Bool} {path : Str} {headers : HeaderMap} {l l' : List Str}
    (h : TargetRecords trace path headers l) (h' : TargetRecords trace path headers l') : l = l' := by
  cases h <;> cases h' <;> first | rfl | (simp_all; done)

theorem readRecords_iff {input : Bytes} {trace : Bool} {l : List Str} :
    ReadRecords trace input l ↔ (MockRequest.fromReaderLogged input trace).records = l := by
  constructor
  · intro h
    cases h with
    | malformed h => rw [fromReaderLogged_malformed trace h]
    | body ht hr hn =>
      rw [fromReaderLogged_eq ht]
      cases hr
      simp only [MockRequest.bodyRecord, if_true, utf8Decode_none.2 hn]
      rfl
    | @text method path version headers body l1 l2 ht hb htg =>
      rw [fromReaderLogged_eq ht, targetRecords_unique htg (deriveUrlLogged_spec trace path headers).2]
      cases hb with
      | none => rfl
      | off e => cases e; rfl
      | text e =>
        cases e
        simp only [MockRequest.bodyRecord, if_true, utf8Decode_utf8]
        rfl
  · rintro rfl
    exact (fromReaderLogged_spec input trace).2

theorem then_exit {α : Type} (x : Logged α) (g : α → LoggedExit) :
    (x.then g).toExit = match x.result with | .error p => ⟨[], .error p⟩ | .ok a => (g a).toExit := by
  unfold Logged.then
  cases x.result <;> rfl

theorem then_records {α : Type} (x : Logged α) (g : α → LoggedExit) :
    (x.then g).records = match x.result with | .error _ => x.records | .ok a => x.records ++ (g a).records := by
  unfold Logged.then
  cases x.result <;> rfl

theorem canonicalizeAt_result (f : AppFmt) (trace : Bool) (req : MockRequest) (c : CanonicalizeConfig) :
    (canonicalizeAt f trace req c).result = canonicalize req c := by
  cases trace
  · rfl
  · exact (canonTraced f.toFmt req c).1

theorem signAt_result (f : AppFmt) (trace : Bool) (req : MockRequest) (c : SigningConfig) (env : SignEnv) :
    (signAt f trace req c env).result = sign req c env := by
  cases trace
  · rfl
  · exact C118_sign f.toFmt req c env

theorem verifyAt_result (f : AppFmt) (trace : Bool) (req : MockRequest) (c : VerifyingConfig) (env : VerifyEnv) :
    (verifyAt f trace req c env).result = verify (Rem := Unit) req c env := by
  cases trace
  · exact C116_result f.toFmt req c env
  · exact C118_verify f.toFmt req c env

theorem runLogged_exit (f : AppFmt) (a : Args) (h : Host) (req : MockRequest) : (a.runLogged f h req).toExit = a.run h req := by
  unfold Args.runLogged Args.run
  cases a.mode with
  | canonicalize =>
    simp only [runCanonicalize]
    cases (a.opt h).canonicalizeConfig with
    | error e => rfl
    | ok c =>
      simp only [then_exit, canonicalizeAt_result]
      cases hc : canonicalize req c with
      | error p => rfl
      | ok o => cases o <;> rfl
  | sign =>
    simp only
    cases (a.opt h).signingConfig with
    | error e => rfl
    | ok c =>
      simp only [then_exit, signAt_result]
      cases hc : sign req c h.signEnv with
      | error p => rfl
      | ok o => obtain ⟨r, o⟩ := o; cases o <;> rfl
  | verify =>
    simp only [runVerify, then_exit, verificationConfigLogged_eq]
    cases (a.opt h).verificationConfig with
    | error e => rfl
    | ok c =>
      simp only [then_exit, verifyAt_result]
      cases hc : verify (Rem := Unit) req c h.verifyEnv with
      | error p => rfl
      | ok o => cases o <;> rfl

theorem mainLogged_exit (f : AppFmt) (a : Args) (h : Host) : (a.mainLogged f h).toExit = a.main h := by
  unfold Args.mainLogged Args.main
  cases a.input h with
  | error p => rfl
  | ok input =>
    simp only [then_exit, (fromReaderLogged_spec input h.trace).1]
    cases MockRequest.fromReader input h.trace with
    | error p => rfl
    | ok o =>
      cases o with
      | none => rfl
      | some req =>
        simp only [then_exit, ← runLogged_exit f]
        cases h.trace <;> rfl

theorem traceAt_eq (on : Bool) (s : Str) : traceAt on s = ⟨if on then [s] else [], .ok ()⟩ := by cases on <;> rfl

theorem mainLogged_reads {f : AppFmt} {a : Args} {h : Host} {req : MockRequest} (hr : ReadsRequest a h req) (l : List Str) :
    StartRecords f a h req l → (a.mainLogged f h).records = l ++ (a.runLogged f h req).records := by
  rintro ⟨input, l', h1, h2, rfl⟩
  obtain ⟨input', h1', h3, h4⟩ := hr
  have e : input = input' := by have := (source_iff.2 h1).symm.trans (source_iff.2 h1'); cases this; rfl
  cases e
  unfold Args.mainLogged
  rw [source_iff.2 h1]
  simp only [then_records, (fromReaderLogged_spec input h.trace).1, (C60_reads_exactly input h.trace req).2 ⟨h3, h4⟩,
    readRecords_iff.1 h2, traceAt_eq, List.append_assoc]

theorem startRecords_ex (f : AppFmt) {a : Args} {h : Host} {req : MockRequest} (hr : ReadsRequest a h req) :
    ∃ l, StartRecords f a h req l := by
  obtain ⟨input, h1, _⟩ := hr
  exact ⟨_, input, _, h1, (fromReaderLogged_spec input h.trace).2, rfl⟩

theorem mainLogged_unreadable {f : AppFmt} {a : Args} {h : Host} (hr : ∀ req, ¬ ReadsRequest a h req) (l : List Str) :
    (a.mainLogged f h).records = l ↔ (l = [] ∧ ∀ input, ¬ Source a h input) ∨ ∃ input, Source a h input ∧ ReadRecords h.trace input l := by
  cases hi : a.input h with
  | error p =>
    have hn : ∀ input, ¬ Source a h input := fun input hs => by rw [source_iff.2 hs] at hi; cases hi
    have : (a.mainLogged f h).records = [] := by unfold Args.mainLogged; rw [hi]
    rw [this]
    constructor
    · rintro rfl; exact .inl ⟨rfl, hn⟩
    · rintro (⟨rfl, _⟩ | ⟨i, h1, _⟩)
      · rfl
      · exact absurd h1 (hn i)
  | ok input =>
    have hs := source_iff.1 hi
    have hrec : (a.mainLogged f h).records = (MockRequest.fromReaderLogged input h.trace).records := by
      unfold Args.mainLogged
      rw [hi]
      simp only [then_records, (fromReaderLogged_spec input h.trace).1]
      cases hf : MockRequest.fromReader input h.trace with
      | error p => rfl
      | ok o =>
        cases o with
        | none => simp
        | some req =>
          obtain ⟨h3, h4⟩ := (C60_reads_exactly input h.trace req).1 hf
          exact absurd ⟨input, hs, h3, h4⟩ (hr req)
    rw [hrec, ← readRecords_iff]
    constructor
    · intro e; exact .inr ⟨input, hs, e⟩
    · rintro (⟨_, e⟩ | ⟨i, h1, h2⟩)
      · exact absurd hs (e input)
      · rw [source_iff.2 h1] at hi; cases hi; exact h2

/-- At level info nothing is recorded about a request that can be read. -/
theorem start_info {f : AppFmt} {a : Args} {h : Host} {req : MockRequest} {l : List Str} (hr : ReadsRequest a h req)
    (ht : h.trace = false) (hl : StartRecords f a h req l) : l = [] := by
  obtain ⟨input, l', h1, h2, rfl⟩ := hl
  obtain ⟨input', h1', h3, h4⟩ := hr
  have e : input = input' := by have := (source_iff.2 h1).symm.trans (source_iff.2 h1'); cases this; rfl
  cases e
  rw [ht] at h2 ⊢
  simp only [Bool.false_eq_true, if_false, List.append_nil]
  have hread := (C60_reads_exactly input false req).2 ⟨h3, by simp⟩
  cases h2 with
  | malformed => rfl
  | body => rfl
  | @text method path version headers body l1 l2 ht hb htg =>
    have e1 : l1 = [] := by cases hb with | none => rfl | off => rfl | text e => cases e
    rw [e1]
    cases htg with
    | url => rfl
    | hostOff => rfl
    | host _ _ e => cases e
    | noHost hp hh =>
      rw [fromReader_eq ht] at hread
      simp only [Bool.false_and, Bool.false_eq_true, if_false, MockRequest.deriveUrl, hp, get_none_iff.2 hh] at hread
      cases hread

end Httpsig
