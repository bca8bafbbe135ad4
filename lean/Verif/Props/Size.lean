import Verif.Spec.Size
import Verif.Spec.TestDeps
import Verif.Lemmas.Size2
import Verif.Lemmas.Size3
import Verif.Lemmas.Sign2
import Verif.Props.Verify
/-
C127: how large the signature base can get.
-/
set_option linter.unusedSectionVars false
namespace Httpsig
open Grammar Sfv

section
variable [Deps]

/-- C127. A `Signature-Input` value lists at most one component per four of its bytes, and the signature base has at most one
value per component and four times the bytes of the `Signature-Input` value besides. -/
theorem C127_base_size {R : Type} [RequestLike R] (M : Nat) (v : Str) (c : CanonicalizeConfig) (req : R) (base : Bytes) (si : SignatureInput)
    (h : CanonicalizeConfig.fromSignatureInput v = .ok (.ok c)) (hc : canonicalize req c = .ok (.ok (base, si)))
    (hM : ∀ k ∈ c.components, ∀ x, RequestLike.derive req k = .ok (some x) → (utf8 x).length ≤ M) :
    4 * c.components.length + 3 ≤ v.length ∧ base.length ≤ c.components.length * M + 4 * v.length + 7 :=
  base_size h hc hM

theorem get_mem {m : HeaderMap} {n : HeaderName} {v : HeaderValue} (h : m.get n = some v) : (n, v) ∈ m := by
  unfold HeaderMap.get at h
  cases hf : m.find? fun e => e.1 = n with
  | none => rw [hf] at h; cases h
  | some e =>
    rw [hf] at h
    cases h
    have := List.find?_some hf
    simp only [decide_eq_true_eq] at this
    subst this
    exact List.mem_of_find?_eq_some hf

/-- C127, the values. On the validator's requests no component has a value with more bytes than the method, the URL or the
longest header value. (Decoding a query does not make it longer, even where bytes are replaced.) -/
theorem C127_value_size_mock (M : Nat) (r : MockRequest) (k : SignatureComponent) (x : Str) (hm : r.method.str.length ≤ M)
    (hu : r.url.asStr.length ≤ M) (hh : ∀ e ∈ r.headers, e.2.bytes.length ≤ M) (h : r.derive k = .ok (some x)) :
    (utf8 x).length ≤ M := by
  cases k with
  | header n =>
    have h := Except.ok.inj h
    cases hg : r.headers.get n with
    | none => rw [hg] at h; cases h
    | some w =>
      rw [hg] at h
      simp only [Option.map_some, Option.some.injEq] at h
      subst h
      cases hw : w.toStr with
      | none => simp [utf8]
      | some s =>
        show (utf8 s).length ≤ M
        rw [toStr_size hw]
        exact hh _ (get_mem hg)
  | derived d =>
    rcases derive_size (.inl rfl) h with rfl | h
    · rw [r.method.utf8_length]; exact hm
    · omega

theorem reqwest_value_size {M : Nat} {m : Method} {u : Url} {hs : HeaderMap} {k : SignatureComponent} {x : Str} (hm : m.str.length ≤ M)
    (hu : u.asStr.length ≤ M) (hh : ∀ e ∈ hs, e.2.bytes.length ≤ M) (h : reqwestDerive m u hs k = .ok (some x)) :
    (utf8 x).length ≤ M := by
  cases k with
  | header n =>
    have h : reqwestHeader hs n = some x := Except.ok.inj h
    simp only [reqwestHeader, Option.bind_eq_some_iff] at h
    obtain ⟨w, hg, hw⟩ := h
    rw [toStr_size hw]
    exact hh _ (get_mem hg)
  | derived d =>
    rcases derive_size (.inr rfl) h with rfl | h
    · rw [m.utf8_length]; exact hm
    · omega

/-- C127, the values, for `reqwest` requests. -/
theorem C127_value_size_reqwest (M : Nat) (r : ReqwestRequest) (k : SignatureComponent) (x : Str) (hm : r.method.str.length ≤ M)
    (hu : r.url.asStr.length ≤ M) (hh : ∀ e ∈ r.headers, e.2.bytes.length ≤ M) (h : RequestLike.derive r k = .ok (some x)) :
    (utf8 x).length ≤ M :=
  reqwest_value_size hm hu hh h

/-- C127, the values, for blocking `reqwest` requests. -/
theorem C127_value_size_blocking (M : Nat) (r : BlockingRequest) (k : SignatureComponent) (x : Str) (hm : r.method.str.length ≤ M)
    (hu : r.url.asStr.length ≤ M) (hh : ∀ e ∈ r.headers, e.2.bytes.length ≤ M) (h : RequestLike.derive r k = .ok (some x)) :
    (utf8 x).length ≤ M :=
  reqwest_value_size hm hu hh h

theorem length_le_utf8 (v : Str) : v.length ≤ (utf8 v).length := by
  induction v with
  | nil => simp
  | cons c v ih =>
    rw [utf8_cons', List.length_append, String.length_utf8EncodeChar]
    have := c.utf8Size_pos
    simp only [List.length_cons]
    omega

theorem le_headerSize {m : HeaderMap} {e : HeaderName × HeaderValue} (h : e ∈ m) : e.1.str.length + e.2.bytes.length ≤ headerSize m := by
  unfold headerSize
  induction m with
  | nil => cases h
  | cons a m ih =>
    simp only [List.map_cons, List.sum_cons]
    rcases List.mem_cons.1 h with rfl | h
    · omega
    · have := ih h
      omega

/-- C127, the bound for a request to verify. The signature base of a request with `n` bytes in method, URL and headers has at
most `n²/4 + 4n + 7` bytes. -/
theorem C127_request_bound (r : MockRequest) (v : Str) (c : CanonicalizeConfig) (base : Bytes) (si : SignatureInput)
    (hv : r.derive (.header hSignatureInput) = .ok (some v)) (h : CanonicalizeConfig.fromSignatureInput v = .ok (.ok c))
    (hc : canonicalize r c = .ok (.ok (base, si))) :
    4 * base.length ≤ r.size * r.size + 16 * r.size + 28 := by
  have hval : ∀ k x, r.derive k = .ok (some x) → (utf8 x).length ≤ r.size := fun k x hx =>
    C127_value_size_mock r.size r k x (by unfold MockRequest.size; omega) (by unfold MockRequest.size; omega)
      (fun e he => by have := le_headerSize he; unfold MockRequest.size; omega) hx
  obtain ⟨h1, h2⟩ := base_size h hc fun k _ x hx => hval k x hx
  have hvl : v.length ≤ r.size := Nat.le_trans (length_le_utf8 v) (hval _ _ hv)
  have h3 : 4 * (c.components.length * r.size) ≤ r.size * r.size := by
    rw [← Nat.mul_assoc]
    exact Nat.mul_le_mul_right _ (by omega)
  omega

theorem repeatedInput_dict {label name : Str} (hl : Key label) (hn : ∀ c ∈ name, Tchar c) (n : Nat) {p : Str}
    {ps : List (Str × BareItem)} (hp : Parameters p ps) :
    Dict (repeatedInput label name n ++ p) [(label, .innerList ⟨List.replicate (n + 1) ⟨.string name, []⟩, collect ps⟩)] := by
  have hch : Chars name name := by
    induction name with
    | nil => exact .nil
    | cons c s ih =>
      have hc := hn c (by simp)
      have : 32 ≤ c.toNat ∧ c.toNat ≤ 126 ∧ c ≠ '"' ∧ c ≠ '\\' := by
        unfold Tchar Alpha Lcalpha Digit at hc
        simp only [List.mem_cons, List.not_mem_nil, or_false] at hc
        revert hc
        simp only [char_eq_iff, ne_eq, Char.reduceToNat]
        omega
      exact .unescaped this.1 this.2.1 this.2.2.1 this.2.2.2 (ih fun d hd => hn d (by simp [hd]))
  have hit : ItemText ('"' :: name ++ ['"'] ++ []) ⟨.string name, []⟩ := ItemText.mk (.string hch) .nil
  have htail : ∀ n, ItemsTail (List.replicate n (str% " \"" ++ name ++ str% "\"")).flatten (List.replicate n ⟨.string name, []⟩) := by
    intro n
    induction n with
    | zero => exact .nil (by intro c hc; cases hc)
    | succ n ih =>
      have := ItemsTail.cons (w := [' ']) (by intro c hc; simpa using hc) (by simp) hit ih
      simpa [List.replicate_succ] using this
  have hin := InnerText.cons (w := []) (by intro c hc; cases hc) hit (htail n) hp
  have := Dict.mk (w := []) (by intro c hc; cases hc) (.last (w := []) (.inner hl hin) (by intro c hc; cases hc))
  have e : collect [(label, ListEntry.innerList ⟨⟨.string name, []⟩ :: List.replicate n ⟨.string name, []⟩, collect ps⟩)] =
      [(label, .innerList ⟨List.replicate (n + 1) ⟨.string name, []⟩, collect ps⟩)] := by
    generalize collect ps = q
    simp [collect, lastValue, List.replicate_succ, List.eraseDups_cons]
  rw [e] at this
  simpa [repeatedInput] using this

theorem Forall2.replicate {α β : Type} {p : α → β → Prop} {a : α} {b : β} (h : p a b) : ∀ n, Forall2 p (List.replicate n a) (List.replicate n b)
  | 0 => .nil
  | n + 1 => .cons h (Forall2.replicate h n)

theorem repeated_base {R : Type} [RequestLike R] {req : R} {h : HeaderName} {x : Str} (n : Nat) (hs : h.str = str% "a")
    (hx : RequestLike.derive req (.header h) = .ok (some x)) {p q : Str} {ps : List (Str × BareItem)} (hp : Parameters p ps)
    (hq : ParamsText (collect ps) q) :
    CanonicalizeConfig.fromSignatureInput (repeatedInput (str% "s") (str% "a") n ++ p) =
      .ok (.ok ⟨some (str% "s"), List.replicate (n + 1) (.header h), ⟨collect ps⟩⟩) ∧
    ∃ base si, canonicalize req ⟨some (str% "s"), List.replicate (n + 1) (.header h), ⟨collect ps⟩⟩ = .ok (.ok (base, si)) ∧
      base.length = (n + 1) * ((utf8 x).length + 10) + 22 + q.length := by
  refine ⟨?_, _, _, (C03_base_layout _ _ _ _).2
    ⟨List.replicate (n + 1) x, List.replicate (n + 1) (str% "\"a\""), List.replicate (n + 1) (str% "\"a\""), q, ?_, ?_, ?_, hq, rfl, rfl⟩, ?_⟩
  · refine (C72_accepted _ _).2 ⟨_, str% "s", _,
      repeatedInput_dict (label := str% "s") (name := str% "a") (.mk (.inl ⟨by decide, by decide⟩) (by simp)) ?_ n hp, rfl, rfl, ?_, rfl⟩
    · intro c hc
      rw [List.mem_singleton.1 hc]
      exact .inl (.inl ⟨by decide, by decide⟩)
    · apply Forall2.replicate
      refine ComponentText.header (by decide) ⟨⟨by decide, by decide, ?_⟩, by rw [hs]; rfl⟩
      intro c hc
      rw [List.mem_singleton.1 hc]
      exact .inl (.inl (.inl ⟨by decide, by decide⟩))
  · unfold Values
    rw [List.map_replicate, List.map_replicate, hx]
  · apply Forall2.replicate
    have := Ident.header h
    rwa [hs] at this
  · apply Forall2.replicate
    have := ListIdent.header h
    rwa [hs] at this
  · have hlines : ∀ n, (utf8 (specLines (List.replicate n (str% "\"a\"")) (List.replicate n x))).length = n * ((utf8 x).length + 6) := by
      intro n
      induction n with
      | zero => simp [specLines, utf8]
      | succ n ih =>
        simp only [List.replicate_succ, specLines, List.cons_append, List.nil_append, utf8_append, utf8_cons', List.length_append, ih,
          String.length_utf8EncodeChar, Nat.succ_mul]
        have e : ('"').utf8Size = 1 ∧ ('a').utf8Size = 1 ∧ (':').utf8Size = 1 ∧ (' ').utf8Size = 1 ∧ ('\n').utf8Size = 1 := by decide
        omega
    have hlist : (utf8 (specListText (List.replicate (n + 1) (str% "\"a\"")))).length = 4 * n + 5 := by
      have hf : ∀ n, ((List.replicate n (str% "\"a\"")).flatMap fun j => ' ' :: j).length = 4 * n := by
        intro n
        induction n with
        | zero => rfl
        | succ n ih => simp only [List.replicate_succ, List.flatMap_cons, List.length_append, ih, List.length_cons, List.length_nil]; omega
      rw [printable_utf8]
      · simp only [List.replicate_succ, specListText, List.length_cons, List.length_append, List.length_nil, hf]
        omega
      · apply specListText_printable
        intro i hi
        rw [List.eq_of_mem_replicate hi]
        decide
    have e21 : (utf8 (str% "\"@signature-params\": ")).length = 21 := rfl
    unfold specBase
    rw [utf8_append, utf8_append, utf8_append]
    simp only [List.length_append, hlines, hlist, e21, printable_utf8 (serParams_printable (serParams_iff.2 hq)), Nat.mul_add]
    omega

theorem repeatedInput_length (n : Nat) : (repeatedInput (str% "s") (str% "a") n).length = 4 * (n + 1) + 3 := by
  simp [repeatedInput]
  omega

/-- C127, the bounds are reached. `Signature-Input` values naming the same header over and over are accepted; the header's
value is in the signature base as many times. -/
theorem C127_repeated {R : Type} [RequestLike R] (req : R) (h : HeaderName) (x : Str) (n : Nat) (hs : h.str = str% "a")
    (hx : RequestLike.derive req (.header h) = .ok (some x)) :
    ∃ c base si, CanonicalizeConfig.fromSignatureInput (repeatedInput (str% "s") (str% "a") n) = .ok (.ok c) ∧
      canonicalize req c = .ok (.ok (base, si)) ∧ c.components.length = n + 1 ∧
      (repeatedInput (str% "s") (str% "a") n).length = 4 * (n + 1) + 3 ∧
      base.length = (n + 1) * ((utf8 x).length + 10) + 22 := by
  obtain ⟨h1, base, si, h2, h3⟩ := repeated_base n hs hx .nil (.nil : ParamsText (collect []) [])
  rw [List.append_nil] at h1
  exact ⟨_, base, si, h1, h2, by simp, repeatedInput_length n, h3⟩

theorem chars_quoted {s : Str} (h : ∀ c ∈ s, 32 ≤ c.toNat ∧ c.toNat ≤ 126) : ∃ t, Chars t s ∧ '"' :: t ++ ['"'] = quoted s := by
  unfold quoted
  refine ⟨_, ?_, rfl⟩
  induction s with
  | nil => exact .nil
  | cons c s ih =>
    rw [List.flatMap_cons]
    have ih := ih fun d hd => h d (by simp [hd])
    split
    · rename_i hc; exact .escaped hc ih
    · rename_i hc
      rw [not_or] at hc
      exact .unescaped (h c (by simp)).1 (h c (by simp)).2 hc.1 hc.2 ih

/-- C127, there is no linear bound. For every factor and every key id there is a request whose signature base is larger than that
many times the request, and a verifier that has keys for the key id does check its signature over that base. (Nothing but the key
id is needed to send the request.) -/
theorem C127_superlinear (K : Nat) (id : Str) (hid : ∀ c ∈ id, 32 ≤ c.toNat ∧ c.toNat ≤ 126) :
    ∃ (r : MockRequest) (sig : Str) (base : Bytes), K * r.size < base.length ∧
      ∀ (config : VerifyingConfig) (env : VerifyEnv), config.requiredComponents = [] → config.validateDate = false → 0 ≤ env.sysNow →
        (verify r config env = .ok (.ok ((), id)) ↔ ∃ k ∈ config.keyProvider id, k.verify base sig = true) := by
  obtain ⟨t, ht, htq⟩ := chars_quoted hid
  obtain ⟨p, hpe⟩ : ∃ p, p = str% ";keyid=" ++ quoted id ++ str% ";alg=\"x\"" := ⟨_, rfl⟩
  have hp : Parameters p [(str% "keyid", .string id), (str% "alg", .string (str% "x"))] := by
    have := Parameters.value (w := []) (k := str% "keyid") (by intro c hc; cases hc) (.mk (.inl ⟨by decide, by decide⟩) (by unfold Lcalpha Digit; decide)) (.string ht)
      (.value (w := []) (k := str% "alg") (by intro c hc; cases hc) (.mk (.inl ⟨by decide, by decide⟩) (by unfold Lcalpha Digit; decide))
        (.string (.unescaped (c := 'x') (by decide) (by decide) (by decide) (by decide) .nil)) .nil)
    rw [hpe, ← htq]
    simpa using this
  have hc : collect [(str% "keyid", BareItem.string id), (str% "alg", .string (str% "x"))] =
      [(str% "keyid", .string id), (str% "alg", .string (str% "x"))] := by
    simp [collect, lastValue, List.eraseDups_cons]
  have hq : ParamsText (collect [(str% "keyid", .string id), (str% "alg", .string (str% "x"))]) p := by
    have := ParamsText.value (k := str% "keyid") (.inr (.mk (.inl ⟨by decide, by decide⟩) (by unfold Lcalpha Digit; decide))) (by simp)
      (.string (s := id) fun c hc => by have := hid c hc; omega)
      (.value (k := str% "alg") (.inr (.mk (.inl ⟨by decide, by decide⟩) (by unfold Lcalpha Digit; decide))) (by simp)
        (.string (s := str% "x") (by decide)) .nil)
    rw [hc, hpe]
    simpa [quoted] using this
  have hpp := serParams_printable (serParams_iff.2 hq)
  let a : HeaderName := ⟨str% "a", rfl⟩
  obtain ⟨n, hn⟩ : ∃ n, n = K * (54 + p.length) := ⟨_, rfl⟩
  let x : HeaderValue := ⟨List.replicate (n + 1) 120, by simp [isHeaderValueByte]⟩
  let v := repeatedInput (str% "s") (str% "a") n ++ p
  have hvp : v.all isStringChar = true := by
    rw [List.all_append, hpp, Bool.and_true]
    refine List.all_eq_true.2 fun c hc => ?_
    have : c ∈ str% "s=(\"a )" := by
      simp only [repeatedInput, List.mem_append, List.mem_flatten, List.mem_replicate] at hc
      rcases hc with ((((hc | hc) | hc) | hc) | ⟨l, ⟨_, rfl⟩, hc⟩) | hc <;>
        simp only [List.mem_append, List.mem_cons, List.not_mem_nil, or_false] at hc ⊢ <;> grind
    clear hc
    revert c
    decide
  obtain ⟨w, hw, hwt⟩ := fromStr_visible (visible_of_printable hvp)
  let hs : HeaderMap := [(hSignatureInput, w), (a, x), (hSignature, ⟨utf8 (str% "s=x"), rfl⟩)]
  let r : MockRequest := ⟨.http11, ⟨str% "GET", rfl⟩, ⟨⟨str% "http", some ⟨none, str% "a", none⟩, str% "/", none, none⟩, rfl⟩, str% "/",
    hs, none⟩
  have hne : hSignatureInput ≠ a := fun h => absurd (congrArg HeaderName.str h) (show ¬ str% "signature-input" = str% "a" by decide)
  have hne2 : hSignatureInput ≠ hSignature := fun h =>
    absurd (congrArg HeaderName.str h) (show ¬ str% "signature-input" = str% "signature" by decide)
  have hne3 : a ≠ hSignature := fun h => absurd (congrArg HeaderName.str h) (show ¬ str% "a" = str% "signature" by decide)
  have hne4 : hSignatureInput ≠ hDigest := fun h => absurd (congrArg HeaderName.str h) (show ¬ str% "signature-input" = str% "digest" by decide)
  have hne5 : a ≠ hDigest := fun h => absurd (congrArg HeaderName.str h) (show ¬ str% "a" = str% "digest" by decide)
  have hne6 : hSignature ≠ hDigest := fun h => absurd (congrArg HeaderName.str h) (show ¬ str% "signature" = str% "digest" by decide)
  have hxs : x.toStr = some (List.replicate (n + 1) 'x') := by
    simp [HeaderValue.toStr, x, isVisibleByte]
  have hx : r.derive (.header a) = .ok (some (List.replicate (n + 1) 'x')) := by
    show Except.ok ((HeaderMap.get hs a).map _) = _
    simp [HeaderMap.get, hs, hne, hxs]
  have hin : r.derive (.header hSignatureInput) = .ok (some v) := by
    show Except.ok ((HeaderMap.get hs hSignatureInput).map _) = _
    simp [HeaderMap.get, hs, hwt]
  have hsg : r.derive (.header hSignature) = .ok (some (str% "s=x")) := by
    show Except.ok ((HeaderMap.get hs hSignature).map _) = _
    simp [HeaderMap.get, hs, hne2, hne3]
    rfl
  have hdg : r.derive (.header hDigest) = .ok none := by
    show Except.ok ((HeaderMap.get hs hDigest).map _) = _
    simp [HeaderMap.get, hs, hne4, hne5, hne6]
  obtain ⟨h1, base, si, h2, h3⟩ := repeated_base (req := r) n rfl hx hp hq
  refine ⟨r, str% "x", base, ?_, ?_⟩
  · have hwl : w.bytes.length = 4 * (n + 1) + 3 + p.length := by
      rw [← toStr_size hwt, printable_utf8 hvp, List.length_append, repeatedInput_length]
    have hsz : r.size = 3 + 9 + ((15 + w.bytes.length) + ((1 + (n + 1)) + (9 + 3))) := by
      have : x.bytes.length = n + 1 := by simp [x]
      rw [← this]
      rfl
    have hsz' : r.size = 5 * n + 48 + p.length := by omega
    rw [h3, hsz', printable_utf8 (by simp [isStringChar]), List.length_replicate]
    cases K with
    | zero => omega
    | succ K =>
      have h4 : 5 * n + 48 + p.length ≤ (54 + p.length) * n := by
        have : 1 ≤ n := by rw [hn, Nat.succ_mul]; omega
        have := Nat.mul_le_mul_left (49 + p.length) this
        rw [show 54 + p.length = 49 + p.length + 5 by omega, Nat.add_mul]
        omega
      have h5 := Nat.mul_le_mul_left (K + 1) h4
      rw [← Nat.mul_assoc, ← hn] at h5
      have h6 : n * n ≤ (n + 1) * (n + 1 + 10) := Nat.mul_le_mul (by omega) (by omega)
      omega
  · intro config env hr hd hclock
    rw [C10_acceptance_iff]
    constructor
    · rintro ⟨c, sig, base', hso, _⟩
      obtain ⟨v', e1, e2⟩ := hso.input
      cases Option.some.inj (Except.ok.inj (hin.symm.trans e1))
      have e2 := h1.symm.trans e2
      cases e2
      obtain ⟨si', e3⟩ := hso.canon
      cases h2.symm.trans e3
      obtain ⟨v', label, e4, e5, _⟩ := hso.signature
      cases Option.some.inj (Except.ok.inj (hsg.symm.trans e4))
      have e6 : sig = str% "x" := by
        have := parseSignatureHeader_iff.2 e5
        have h0 : parseSignatureHeader (str% "s=x") = some (str% "s", str% "x") := rfl
        rw [h0] at this
        exact ((Prod.mk.inj (Option.some.inj this)).2).symm
      exact e6 ▸ hso.key
    · intro hk
      refine ⟨_, str% "x", base, ⟨⟨v, hin, h1⟩, ⟨str% "s=x", str% "s", hsg, ?_, rfl⟩, ?_, ?_, hclock, ?_, ⟨si, h2⟩, hk⟩, ?_, ?_, .inr ⟨hdg, ?_⟩⟩
      · exact parseSignatureHeader_iff.1 rfl
      · rw [hc]; simp
      · rw [hc]; exact ⟨str% "x", by simp⟩
      · unfold InWindow
        rw [hc]
        simp
      · unfold RequiredOk
        rw [hr]
        simp
      · unfold DateOk
        rw [hd]
        simp
      · split <;> rfl

end

/-! ### Examples -/

section
attribute [local instance] toyDeps

/-- A request with a query that is not UTF-8. -/
def sizeReq : MockRequest :=
  ⟨.http11, ⟨str% "GET", rfl⟩, ⟨⟨str% "http", some ⟨none, str% "h", none⟩, str% "/", some (str% "a=%FF%C3%A9"), none⟩, rfl⟩, str% "/",
    [(hHost, ⟨[104], rfl⟩)], none⟩

/-- The hypotheses of C127_base_size and its bounds: 23 = 0 · M + 4 · 4 + 7, so the bound is reached. -/
example : ∃ c si, CanonicalizeConfig.fromSignatureInput (str% "a=()") = .ok (.ok c) ∧
    canonicalize sizeReq c = .ok (.ok (utf8 (str% "\"@signature-params\": ()"), si)) ∧
    (utf8 (str% "\"@signature-params\": ()")).length = 0 * 0 + 4 * (str% "a=()").length + 7 :=
  ⟨_, _, rfl, rfl, rfl⟩

/-- The hypotheses of the theorems on values: the first byte is replaced by a character of three bytes. -/
example : sizeReq.derive (.derived ⟨⟨.string (str% "@query-params"), [(str% "name", .string (str% "a"))]⟩⟩) = .ok (some (str% "\uFFFDé")) := by
  have : sizeReq.url.queryPairs = [(str% "a", str% "\uFFFDé")] := by decide +kernel
  show Except.ok (some (joinWith (str% "\n") ((sizeReq.url.queryPairs.filter fun p => str% "a" = p.1).map Prod.snd))) = _
  rw [this]
  rfl

/-- The hypotheses of C127_repeated. -/
example : RequestLike.derive (sizeReq.setHeader ⟨str% "a", rfl⟩ ⟨[120, 121], rfl⟩) (.header ⟨str% "a", rfl⟩) = .ok (some (str% "xy")) := rfl

end

end Httpsig
