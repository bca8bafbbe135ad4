import Verif.Spec.Main
import Verif.Props.RequestFile
import Verif.Props.Pipeline
/-
The validator as a program: reading, writing and options.
-/
set_option linter.unusedSectionVars false
namespace Httpsig
open Sfv
variable [Deps]

/-! ### Reading -/

theorem source_iff {a : Args} {h : Host} {input : Bytes} : a.input h = .ok input ↔ Source a h input := by
  unfold Args.input Source
  cases a.inFile with
  | none => cases h.stdin <;> simp
  | some p => cases hp : h.files p <;> simp [hp]

theorem main_reads {a : Args} {h : Host} {req : MockRequest} (hr : ReadsRequest a h req) : a.main h = a.run h req := by
  obtain ⟨input, h1, h2, h3⟩ := hr
  unfold Args.main
  rw [source_iff.2 h1]
  simp only
  rw [(C60_reads_exactly input h.trace req).2 ⟨h2, h3⟩]

theorem main_unreadable {a : Args} {h : Host} (hr : ∀ req, ¬ ReadsRequest a h req) : ∃ p, a.main h = ⟨[], .error p⟩ := by
  unfold Args.main
  cases hi : a.input h with
  | error p => exact ⟨p, rfl⟩
  | ok input =>
    simp only
    cases hf : MockRequest.fromReader input h.trace with
    | error p => exact ⟨p, rfl⟩
    | ok o =>
      cases o with
      | none => exact ⟨.readInput, rfl⟩
      | some req => exact absurd ⟨input, source_iff.1 hi, (C60_reads_exactly input h.trace req).1 hf⟩ (hr req)

theorem reads_unique {a : Args} {h : Host} {req req' : MockRequest} (hr : ReadsRequest a h req) (hr' : ReadsRequest a h req') :
    req = req' := by
  obtain ⟨i, h1, h2, _⟩ := hr
  obtain ⟨i', h1', h2', _⟩ := hr'
  have := (source_iff.2 h1).symm.trans (source_iff.2 h1')
  cases this
  exact C60_unambiguous _ _ _ h2 h2'

/-! ### Writing -/

theorem headerLines_iff : ∀ {m : HeaderMap} {t : Str}, MockRequest.writeHeaders m = some t ↔ HeaderLines m t
  | [], t => by
    constructor
    · intro h; cases h; exact .nil
    · intro h; cases h; rfl
  | (n, v) :: m, t => by
    simp only [MockRequest.writeHeaders, Option.bind_eq_bind, Option.bind_eq_some_iff, Option.some.injEq]
    constructor
    · rintro ⟨s, hs, t', ht, rfl⟩
      have := HeaderLines.cons (n := n) hs (headerLines_iff.1 ht)
      simpa using this
    · intro h
      cases h with
      | cons hs ht => exact ⟨_, hs, _, headerLines_iff.2 ht, by simp⟩

theorem write_iff {r : MockRequest} {out : Bytes} : r.write = some out ↔ FileOf r out := by
  unfold MockRequest.write FileOf
  simp only [Option.bind_eq_bind, Option.bind_eq_some_iff, headerLines_iff]
  cases r.body with
  | none => simp [eq_comm]
  | some b => simp [eq_comm]

theorem writeHeadersTo_ok : ∀ {m : HeaderMap} {t : Str}, MockRequest.writeHeadersTo m = (t, true) ↔ MockRequest.writeHeaders m = some t
  | [], t => by simp [MockRequest.writeHeadersTo, MockRequest.writeHeaders]
  | (n, v) :: m, t => by
    unfold MockRequest.writeHeadersTo MockRequest.writeHeaders
    cases v.toStr with
    | none => simp
    | some s =>
      have ih := fun t => writeHeadersTo_ok (m := m) (t := t)
      generalize MockRequest.writeHeadersTo m = x at ih
      obtain ⟨x, b⟩ := x
      cases b with
      | false =>
        cases hw : MockRequest.writeHeaders m with
        | none => simp
        | some t' => rw [hw] at ih; have := (ih t').2 rfl; cases this
      | true =>
        rw [(ih x).1 rfl]
        simp

/-- What has been written when writing fails: the lines before the first header whose value is not readable text. -/
theorem writeHeadersTo_stuck : ∀ {m : HeaderMap} {t : Str}, MockRequest.writeHeadersTo m = (t, false) ↔
    ∃ a n v b, m = a ++ (n, v) :: b ∧ v.toStr = none ∧ HeaderLines a t
  | [], t => by simp [MockRequest.writeHeadersTo]
  | (n, v) :: m, t => by
    unfold MockRequest.writeHeadersTo
    cases hv : v.toStr with
    | none =>
      simp only [Prod.mk.injEq, and_true]
      constructor
      · rintro rfl; exact ⟨[], n, v, m, rfl, hv, .nil⟩
      · rintro ⟨a, n', v', b, he, hv', hl⟩
        cases a with
        | nil => cases hl; rfl
        | cons e a =>
          cases he
          cases hl with
          | cons hs _ => rw [hv] at hs; cases hs
    | some s =>
      have ih := fun t => writeHeadersTo_stuck (m := m) (t := t)
      generalize MockRequest.writeHeadersTo m = x at ih
      obtain ⟨x, b⟩ := x
      simp only [Prod.mk.injEq]
      constructor
      · rintro ⟨rfl, rfl⟩
        obtain ⟨a, n', v', b, rfl, h1, h2⟩ := (ih x).1 rfl
        exact ⟨(n, v) :: a, n', v', b, rfl, h1, by simpa using HeaderLines.cons (n := n) hv h2⟩
      · rintro ⟨a, n', v', b', he, hv', hl⟩
        cases a with
        | nil => cases he; rw [hv] at hv'; cases hv'
        | cons e a =>
          cases he
          cases hl with
          | cons hs ht =>
            rw [hv] at hs; cases hs
            have := (ih _).2 ⟨a, n', v', b', rfl, hv', ht⟩
            cases this
            exact ⟨by simp, rfl⟩

theorem writeTo_ok {r : MockRequest} {out : Bytes} : r.writeTo = (out, true) ↔ FileOf r out := by
  rw [← write_iff]
  unfold MockRequest.writeTo MockRequest.write
  have h := fun t => writeHeadersTo_ok (m := r.headers) (t := t)
  generalize MockRequest.writeHeadersTo r.headers = x at h
  obtain ⟨x, b⟩ := x
  cases b with
  | true =>
    rw [(h x).1 rfl]
    simp only [if_true]
    cases r.body <;> simp
  | false =>
    cases hw : MockRequest.writeHeaders r.headers with
    | none => simp
    | some t => rw [hw] at h; have := (h t).2 rfl; cases this

theorem writeTo_stuck {r : MockRequest} {out : Bytes} : r.writeTo = (out, false) ↔
    ∃ a n v b, r.headers = a ++ (n, v) :: b ∧ v.toStr = none ∧ FileOf { r with headers := a, body := none } out := by
  have h := fun t => writeHeadersTo_stuck (m := r.headers) (t := t)
  unfold MockRequest.writeTo
  generalize MockRequest.writeHeadersTo r.headers = x at h
  obtain ⟨x, b⟩ := x
  cases b with
  | true =>
    simp only [if_true]
    constructor
    · intro e; cases hb : r.body <;> rw [hb] at e <;> cases e
    · rintro ⟨a, n, v, b, h1, h2, t, h3, _⟩
      have := (h t).2 ⟨a, n, v, b, h1, h2, h3⟩
      cases this
  | false =>
    simp only [Bool.false_eq_true, if_false, Prod.mk.injEq, and_true]
    constructor
    · rintro rfl
      obtain ⟨a, n, v, b, h1, h2, h3⟩ := (h x).1 rfl
      exact ⟨a, n, v, b, h1, h2, x, h3, by simp⟩
    · rintro ⟨a, n, v, b, h1, h2, t, h3, rfl⟩
      have := (h t).2 ⟨a, n, v, b, h1, h2, h3⟩
      cases this
      simp

/-! ### Options -/

theorem keyFile_iff {h : Host} {o : Option Str} {pem : Bytes} :
    (o.map fun p => (h.files p).read) = some (some pem) ↔ KeyFile h o pem := by
  unfold KeyFile
  cases o with
  | none => simp
  | some p =>
    simp only [Option.map_some, Option.some.injEq, exists_eq_left']
    cases h.files p <;> simp [FileState.read]

theorem signingConfig_iff {a : Args} {h : Host} {c : SigningConfig} :
    (a.opt h).signingConfig = .ok c ↔ ∃ name prim key comps, SignOptions a h name prim key comps ∧
      c = optSigning (a.opt h) name prim key comps := by
  rw [C50_signing_exact]
  unfold SignOptions
  constructor
  · rintro ⟨alg, name, prim, pem, key, comps, h1, h2, h3, h4, h5, h6⟩
    exact ⟨name, prim, key, comps, ⟨alg, pem, h1, h2, keyFile_iff.1 h3, h4, h5⟩, h6⟩
  · rintro ⟨name, prim, key, comps, ⟨alg, pem, h1, h2, h3, h4, h5⟩, h6⟩
    exact ⟨alg, name, prim, pem, key, comps, h1, h2, keyFile_iff.2 h3, h4, h5, h6⟩

theorem optSigning_noAuto (o : Opt) (name : Str) (prim : Primitive) (key : Bytes) (comps : List SignatureComponent) :
    NoAuto (optSigning o name prim key comps) := ⟨rfl, rfl, rfl⟩

/-- Components named on the command line can be listed. -/
theorem headerOption_listed {o : Opt} {comps : List SignatureComponent} (h : HeaderOption o comps) :
    ∀ k ∈ comps, ComponentRead k ∧ ∃ i, ListIdent k i := by
  unfold HeaderOption at h
  split at h
  · subst h; simp
  · subst h; simp
  · obtain ⟨ws, _, hf⟩ := h
    intro k hk
    obtain ⟨w, _, hw⟩ := forall2_right hf k hk
    unfold SignatureComponent.fromStr at hw
    split at hw
    · cases hd : DerivedComponent.fromStr w with
      | error e => rw [hd] at hw; cases hw
      | ok d =>
        rw [hd] at hw; cases hw
        obtain ⟨h1, h2⟩ := fromStr_spec hd
        obtain ⟨i, hi, _⟩ := h2.ser
        exact ⟨⟨h1, h2⟩, i, listIdent_iff.2 hi⟩
    · split at hw
      · cases hw; exact ⟨trivial, listIdent_header _⟩
      · cases hw

/-- An optional parameter. -/
theorem serParams_opt {α : Type} {k : Str} (hk : serKey k = some k) {f : α → BareItem} (hf : ∀ t, f t ≠ .boolean true)
    {C : α → Prop} {g : α → Str} (hg : ∀ t x, serBare (f t) = some x ↔ C t ∧ x = g t) (o : Option α) (rest : Params) (s : Str) :
    serParams (o.toList.map (fun t => (k, f t)) ++ rest) = some s ↔
      ∃ b, serParams rest = some b ∧ (∀ t, o = some t → C t) ∧
        s = (match o with | some t => ';' :: k ++ '=' :: g t | none => []) ++ b := by
  cases o with
  | none => simp [eq_comm]
  | some t =>
    simp only [Option.toList_some, List.map_cons, List.map_nil, List.cons_append, List.nil_append]
    rw [serParams_cons_iff hk (hf t)]
    simp only [hg]
    constructor
    · rintro ⟨a, b, ⟨h1, rfl⟩, h2, rfl⟩
      exact ⟨b, h2, fun t' e => by cases e; exact h1, by simp⟩
    · rintro ⟨b, h2, h1, rfl⟩
      exact ⟨_, b, ⟨h1 t rfl, rfl⟩, h2, by simp⟩

theorem known_printable {alg : Str} (h : alg ∈ algorithmNames) : ∀ c ∈ alg, 32 ≤ c.toNat ∧ c.toNat < 127 := by
  simp only [algorithmNames, List.mem_cons, List.not_mem_nil, or_false] at h
  rcases h with rfl | rfl | rfl | rfl | rfl | rfl <;> decide

/-- The parameters of canonicalize mode as text. -/
theorem serParams_options {a : Args} {h : Host} {alg : Str} {comps : List SignatureComponent} {ps : Str}
    (hk : alg ∈ algorithmNames) :
    serParams (optCanonicalize (a.opt h) alg comps).params.params = some ps ↔ WritableOptions a ∧ ps = canonParamsText a alg := by
  have hlast : ∀ s, serParams [(str% "alg", BareItem.string alg)] = some s ↔ s = str% ";alg=" ++ quoted alg := by
    intro s
    rw [serParams_cons_iff (by decide) (by simp)]
    simp only [serBare, serString_some_iff, serParams]
    constructor
    · rintro ⟨_, _, ⟨_, rfl⟩, e, rfl⟩; cases e; simp
    · rintro rfl; exact ⟨_, _, ⟨known_printable hk, rfl⟩, rfl, by simp⟩
  show serParams (a.created.toList.map (fun t => (str% "created", .integer t)) ++
    a.expires.toList.map (fun t => (str% "expires", .integer t)) ++
    a.nonce.toList.map (fun n => (str% "nonce", .token n)) ++
    a.keyId.toList.map (fun k => (str% "keyid", .string k)) ++ [(str% "alg", .string alg)]) = some ps ↔ _
  rw [List.append_assoc, List.append_assoc, List.append_assoc]
  rw [serParams_opt (by decide) (by simp) (fun t x => by simp only [serBare, serInteger_some_iff]; rfl)]
  simp only [serParams_opt (k := str% "expires") (by decide) (f := BareItem.integer) (by simp) (fun t x => by simp only [serBare, serInteger_some_iff]; rfl)]
  simp only [serParams_opt (k := str% "nonce") (by decide) (f := BareItem.token) (by simp) (fun t x => by simp only [serBare, serTokenText_iff]; rfl)]
  simp only [serParams_opt (k := str% "keyid") (by decide) (f := BareItem.string) (by simp) (fun t x => by simp only [serBare, serString_some_iff]; rfl)]
  simp only [hlast]
  constructor
  · rintro ⟨_, ⟨_, ⟨_, ⟨_, rfl, h4, rfl⟩, h3, rfl⟩, h2, rfl⟩, h1, rfl⟩
    refine ⟨⟨h1, h2, h3, h4⟩, ?_⟩
    unfold canonParamsText
    cases a.created <;> cases a.expires <;> cases a.nonce <;> cases a.keyId <;> simp
  · rintro ⟨⟨h1, h2, h3, h4⟩, rfl⟩
    refine ⟨_, ⟨_, ⟨_, ⟨_, rfl, h4, rfl⟩, h3, rfl⟩, h2, rfl⟩, h1, ?_⟩
    unfold canonParamsText
    cases a.created <;> cases a.expires <;> cases a.nonce <;> cases a.keyId <;> simp

end Httpsig

namespace Httpsig
open Sfv
variable [Deps]

theorem headerValue_iff {s : Str} {v : HeaderValue} : HeaderValue.fromStr s = some v ↔ v.bytes = utf8 s := by
  constructor
  · exact fromStr_bytes
  · intro h
    unfold HeaderValue.fromStr HeaderValue.fromBytes
    rw [← h, dif_pos v.ok]

theorem optTimes {a : Args} {h : Host} {name : Str} {prim : Primitive} {key : Bytes} {comps : List SignatureComponent} {now : Int} :
    createdTime (optSigning (a.opt h) name prim key comps) now = a.created ∧
    expiresTime (optSigning (a.opt h) name prim key comps) now = a.expires := by
  rw [← created_get, ← expires_get]
  show (SignatureCreated.get (match a.created with | some t => .absolute t | none => .omit) now = _) ∧
    (SignatureExpires.get (match a.expires with | some t => .absolute t | none => .omit) now = _)
  cases a.created <;> cases a.expires <;> exact ⟨rfl, rfl⟩

theorem optSigning_times {a : Args} {h : Host} {name : Str} {prim : Primitive} {key : Bytes} {comps : List SignatureComponent}
    {now : Int} : TimesOk (optSigning (a.opt h) name prim key comps) now ↔ OptionTimesOk a now := by
  unfold TimesOk OptionTimesOk
  rw [optTimes.1, optTimes.2]

theorem optSigning_writable {a : Args} {h : Host} {alg name : Str} {prim : Primitive} {key : Bytes} {comps : List SignatureComponent}
    {now : Int} (hs : Supports alg name prim) :
    WritableParams (optSigning (a.opt h) name prim key comps) now ↔ WritableSignOptions a := by
  constructor
  · intro hw
    exact ⟨fun t e => hw.created t (by rw [optTimes.1, e]), fun t e => hw.expires t (by rw [optTimes.2, e]), hw.keyid⟩
  · intro hw
    refine ⟨?_, hw.keyid, fun t e => hw.created t (by rw [optTimes.1] at e; exact e),
      fun t e => hw.expires t (by rw [optTimes.2] at e; exact e), fun n e => by cases e⟩
    show ∀ c ∈ name, _
    cases hs <;> decide

theorem optSigning_text {a : Args} {h : Host} {name : Str} {prim : Primitive} {key : Bytes} {comps : List SignatureComponent}
    {now : Int} : signedParamsText (optSigning (a.opt h) name prim key comps) now = signParamsText a name := by
  unfold signedParamsText signParamsText
  rw [optTimes.1, optTimes.2]
  show _ ++ [] = _
  rw [List.append_nil]
  rfl

end Httpsig
