import Verif.Spec.History
import Verif.Props.Forgery
import Verif.Props.Keys
import Verif.Props.Monotone
/-
C129: what holds in every history of a system of clients, a server and anybody who can send requests.
-/
set_option linter.unusedSectionVars false
namespace Httpsig
open Sfv
section
variable [Deps] {R S Rem : Type} [ClientRequestLike R] [ServerRequestLike S Rem]

/-- The operations on the key store in a history. -/
def keyOps (h : List (Action R S × Outcome R Rem)) : List KeyOp :=
  h.filterMap fun
    | (.keys op, _) => some op
    | _ => none

theorem mem_keyOps {h : List (Action R S × Outcome R Rem)} {op : KeyOp} : op ∈ keyOps h ↔ ∃ o, (.keys op, o) ∈ h := by
  unfold keyOps
  simp only [List.mem_filterMap]
  constructor
  · rintro ⟨⟨a, o⟩, hm, e⟩
    cases a <;> simp at e
    subst e
    exact ⟨o, hm⟩
  · rintro ⟨o, hm⟩
    exact ⟨_, hm, rfl⟩

/-- The state in which an action of a history happened. -/
theorem history_split {vc : VerifyingConfig} : ∀ {acts : List (Action R S)} {store : SimpleKeyProvider}
    {pre post : List (Action R S × Outcome R Rem)} {a : Action R S} {o : Outcome R Rem},
    history vc store acts = pre ++ (a, o) :: post → o = (step vc ((keyOps pre).foldl KeyOp.apply store) a).2 ∧
      ∃ rest, history vc (step vc ((keyOps pre).foldl KeyOp.apply store) a : SimpleKeyProvider × Outcome R Rem).1 rest = post
  | [], _, pre, _, _, _, h => by simp [history] at h
  | x :: acts, store, pre, post, a, o, h => by
    unfold history at h
    cases pre with
    | nil =>
      simp only [List.nil_append, List.cons.injEq, Prod.mk.injEq] at h
      obtain ⟨⟨rfl, rfl⟩, rfl⟩ := h
      exact ⟨rfl, acts, rfl⟩
    | cons y pre =>
      simp only [List.cons_append, List.cons.injEq] at h
      obtain ⟨rfl, h⟩ := h
      have := history_split h
      cases x <;> exact this

theorem keyOps_append (p q : List (Action R S × Outcome R Rem)) : keyOps (p ++ q) = keyOps p ++ keyOps q := by
  simp [keyOps]

theorem keyOps_split {k : KeyOp} : ∀ {h : List (Action R S × Outcome R Rem)} {p q : List KeyOp}, keyOps h = p ++ k :: q →
    ∃ a o b, h = a ++ (.keys k, o) :: b ∧ keyOps a = p ∧ keyOps b = q
  | [], p, q, e => by simp [keyOps] at e
  | (x, o) :: h, p, q, e => by
    cases x with
    | keys op =>
      have e' : op :: keyOps h = p ++ k :: q := e
      cases p with
      | nil =>
        simp only [List.nil_append, List.cons.injEq] at e'
        obtain ⟨rfl, rfl⟩ := e'
        exact ⟨[], o, h, rfl, rfl, rfl⟩
      | cons op' p =>
        simp only [List.cons_append, List.cons.injEq] at e'
        obtain ⟨rfl, e'⟩ := e'
        obtain ⟨a, o', b, rfl, rfl, rfl⟩ := keyOps_split e'
        exact ⟨_ :: a, o', b, rfl, rfl, rfl⟩
    | sign b c en =>
      obtain ⟨a, o', b, rfl, rfl, rfl⟩ := keyOps_split (h := h) e
      exact ⟨_ :: a, o', b, rfl, rfl, rfl⟩
    | deliver r en =>
      obtain ⟨a, o', b, rfl, rfl, rfl⟩ := keyOps_split (h := h) e
      exact ⟨_ :: a, o', b, rfl, rfl, rfl⟩

theorem mem_addedUnder {id : Str} {ops : List KeyOp} {k : HttpSignatureVerify} : k ∈ addedUnder id ops ↔ KeyOp.add id k ∈ ops := by
  unfold addedUnder
  simp only [List.mem_filterMap]
  constructor
  · rintro ⟨op, hm, e⟩
    cases op with
    | add i k' =>
      simp only [Option.ite_none_right_eq_some, Option.some.injEq] at e
      obtain ⟨rfl, rfl⟩ := e
      exact hm
    | removeAll i => cases e
    | clear => cases e
  · intro hm
    exact ⟨_, hm, by simp⟩

/-- The keys the store provides are the registered ones. -/
theorem registered_iff (init : List (Str × HttpSignatureVerify)) (h : List (Action R S × Outcome R Rem)) (id : Str)
    (k : HttpSignatureVerify) : k ∈ (SimpleKeyProvider.after init (keyOps h)).provideKeys id ↔ Registered init h id k := by
  have forget : ∀ {q : List (Action R S × Outcome R Rem)}, (∀ op o, (.keys op, o) ∈ q → ¬ op.Forgets id) ↔
      ∀ op ∈ keyOps q, ¬ op.Forgets id := fun {q} =>
    ⟨fun hq op hm => by obtain ⟨o, ho⟩ := mem_keyOps.1 hm; exact hq op o ho, fun hq op o hm => hq op (mem_keyOps.2 ⟨o, hm⟩)⟩
  unfold Registered
  simp only [forget]
  rcases C20_histories (keyOps h) id with hn | ⟨b, op, a, e, hop, ha⟩
  · rw [C20_keys_since_creation init _ id hn]
    simp only [List.mem_append, List.mem_map, List.mem_filter, decide_eq_true_eq, mem_addedUnder]
    constructor
    · rintro (⟨⟨i, k'⟩, ⟨hm, rfl⟩, rfl⟩ | hm)
      · exact .inl ⟨hm, hn⟩
      · obtain ⟨p, q, e⟩ := List.append_of_mem hm
        obtain ⟨x, o, y, rfl, rfl, rfl⟩ := keyOps_split e
        exact .inr ⟨x, o, y, rfl, fun op hop => hn op (by simp [e, hop])⟩
    · rintro (⟨hm, _⟩ | ⟨p, o, q, rfl, _⟩)
      · exact .inl ⟨_, ⟨hm, rfl⟩, rfl⟩
      · exact .inr (by simp [keyOps])
  · rw [e, C20_keys_since_removal init b a op id hop ha, mem_addedUnder]
    constructor
    · intro hm
      obtain ⟨p, q, rfl⟩ := List.append_of_mem hm
      have e' : keyOps h = (b ++ op :: p) ++ KeyOp.add id k :: q := by rw [e]; simp
      obtain ⟨x, o, y, rfl, _, rfl⟩ := keyOps_split e'
      exact .inr ⟨x, o, y, rfl, fun op hop => ha op (by simp [hop])⟩
    · rintro (⟨_, hn⟩ | ⟨p, o, q, rfl, hq⟩)
      · exact absurd hop (hn op (by simp))
      · have e' : keyOps p ++ KeyOp.add id k :: keyOps q = b ++ op :: a := by rw [← e]; simp [keyOps]
        rcases List.append_eq_append_iff.1 e' with ⟨c, e1, e2⟩ | ⟨c, e1, e2⟩
        · cases c with
          | nil =>
            simp only [List.nil_append, List.cons.injEq] at e2
            rw [← e2.1] at hop
            exact hop.elim
          | cons d c =>
            simp only [List.cons_append, List.cons.injEq] at e2
            exact absurd hop (hq op (by simp [e2.2]))
        · cases c with
          | nil =>
            simp only [List.nil_append, List.cons.injEq] at e2
            rw [e2.1] at hop
            exact hop.elim
          | cons d c =>
            simp only [List.cons_append, List.cons.injEq] at e2
            simp [e2.2]

/-- The signing events of a history, as a list. -/
theorem events_list (h : List (Action R S × Outcome R Rem)) : ∃ events : List (SigningEvent R), ∀ e, e ∈ events ↔ e.Happened h := by
  induction h with
  | nil => exact ⟨[], fun e => by simp [SigningEvent.Happened]⟩
  | cons x h ih =>
    obtain ⟨events, ih⟩ := ih
    by_cases hx : ∃ e : SigningEvent R, x = (.sign e.before e.config e.env, .signed (.ok (e.after, .ok ())))
    · obtain ⟨e, rfl⟩ := hx
      refine ⟨e :: events, fun e' => ?_⟩
      rw [List.mem_cons, ih]
      unfold SigningEvent.Happened
      rw [List.mem_cons]
      refine or_congr_left ⟨?_, ?_⟩
      · rintro rfl; rfl
      · intro he
        simp only [Prod.mk.injEq, Action.sign.injEq, Outcome.signed.injEq, Except.ok.injEq, and_true] at he
        cases e; cases e'
        obtain ⟨⟨rfl, rfl, rfl⟩, rfl⟩ := he
        rfl
    · refine ⟨events, fun e' => ?_⟩
      rw [ih]
      unfold SigningEvent.Happened
      rw [List.mem_cons]
      exact ⟨.inr, fun h => h.elim (fun h => absurd ⟨e', h.symm⟩ hx) id⟩

theorem forall2_exists {α β : Type} {r : α → β → Prop} {as : List α} {bs : List β} (h : Forall2 r as bs) {a : α} (ha : a ∈ as) :
    ∃ b ∈ bs, r a b := by
  induction h with
  | nil => cases ha
  | cons h1 _ ih =>
    rcases List.mem_cons.1 ha with rfl | ha
    · exact ⟨_, by simp, h1⟩
    · obtain ⟨b, hb, hr⟩ := ih ha
      exact ⟨b, by simp [hb], hr⟩

theorem validAt_of_window {e : SigningEvent R} {c : CanonicalizeConfig} {now : Int}
    (hp : ParamsSame (SignedParams e.config e.second) c.params.params) (hw : InWindow c now) : e.ValidAt now := by
  have key : ∀ {n : Str} {t : Int}, (n, BareItem.integer t) ∈ SignedParams e.config e.second → (n, BareItem.integer t) ∈ c.params.params := by
    intro n t hm
    obtain ⟨⟨n', b⟩, hb, e1, e2⟩ := forall2_exists hp hm
    cases e1
    cases b <;> simp [BareItem.Same] at e2
    subst e2
    exact hb
  refine ⟨fun t ht => hw.1 t (key ?_), fun t ht => hw.2 t (key ?_)⟩ <;> simp [SignedParams, ht]

variable [LawfulClient R]

/-- C129. In every history (any order of signing, deliveries and changes to the key store, any requests and any clocks): when a request
is accepted, a key that is registered under its key id at that moment accepts its signature. And either the request says what a
client has signed before, under that key id, the second lies within the times the client wrote into the signature, and the body is the one
the signed digest speaks of; or the key accepts a signature on a text that no client has signed before. -/
theorem C129_accepted (vc : VerifyingConfig) (init : List (Str × HttpSignatureVerify)) (acts : List (Action R S))
    (pre post : List (Action R S × Outcome R Rem)) (req : S) (env : VerifyEnv) (rem : Rem) (kid : Str)
    (h : history vc (SimpleKeyProvider.new init) acts = pre ++ (.deliver req env, .verdict (.ok (.ok (rem, kid)))) :: post)
    (hc : ∀ e : SigningEvent R, e.Happened pre → e.Careful) :
    ∃ k v c w label sig base si, Registered init pre kid k ∧ k.verify base sig = true ∧
      RequestLike.derive req (.header hSignatureInput) = .ok (some v) ∧ CanonicalizeConfig.fromSignatureInput v = .ok (.ok c) ∧
      canonicalize req c = .ok (.ok (base, si)) ∧ RequestLike.derive req (.header hSignature) = .ok (some w) ∧
      SignatureHeader w label sig ∧
      ((∃ e : SigningEvent R, e.Happened pre ∧ e.config.keyId = kid ∧ Authentic e req c.components c.params.params ∧
        e.ValidAt (env.sysNow / 1000000000) ∧ e.BodyMatches (Rem := Rem) vc req) ∨
      ∀ e : SigningEvent R, e.Happened pre → ¬ e.Base base) := by
  have ho := (history_split h).1
  have hv : verify req { vc with keyProvider := (SimpleKeyProvider.after init (keyOps pre)).provideKeys } env = .ok (.ok (rem, kid)) :=
    (Outcome.verdict.inj ho).symm
  obtain ⟨events, hev⟩ := events_list pre
  obtain ⟨v, c, w, label, sig, base, si, h1, h2, h3, h4, h5, ⟨k, hk, hkv⟩, h6⟩ :=
    C75_authentic_or_forged events (fun e he => hc e ((hev e).1 he)) req _ env rem kid hv
  refine ⟨k, v, c, w, label, sig, base, si, (registered_iff init pre kid k).1 hk, hkv, h1, h2, h3, h4, h5, ?_⟩
  rcases h6 with ⟨e, he, hkid, hau⟩ | h6
  · refine .inl ⟨e, (hev e).1 he, hkid, hau, ?_⟩
    obtain ⟨c', sig', base', hok, _, _, hd⟩ := verify_ok_iff.1 hv
    obtain ⟨v', e1, e2⟩ := hok.input
    cases Option.some.inj (Except.ok.inj (h1.symm.trans e1))
    cases h2.symm.trans e2
    refine ⟨validAt_of_window hau.params hok.window, fun hval hcov => ?_⟩
    obtain ⟨k', hk', hs, x, hx, hx'⟩ := forall2_exists hau.components hcov
    have : k' = .header hDigest := by
      cases k' with
      | header n => exact congrArg _ (show hDigest = n from hs).symm
      | derived d => exact hs.elim
    subst this
    rcases hd with ⟨v', e3, e4⟩ | ⟨e3, _⟩
    · cases Option.some.inj (Except.ok.inj (hx'.symm.trans e3))
      rw [if_pos hval] at e4
      obtain ⟨alg, value, e5, e6⟩ := e4
      exact ⟨x, alg, value, hx, e5, congrArg Prod.fst e6⟩
    · cases hx'.symm.trans e3
  · exact .inr fun e he => h6 e ((hev e).2 he)

/-- C129 for `reqwest` clients, in terms of what they are asked to sign: the components have tidy names, the nonce is not empty and the
decoded query has no double quote. -/
theorem C129_reqwest (vc : VerifyingConfig) (init : List (Str × HttpSignatureVerify)) (acts : List (Action ReqwestRequest S))
    (pre post : List (Action ReqwestRequest S × Outcome ReqwestRequest Rem)) (req : S) (env : VerifyEnv) (rem : Rem) (kid : Str)
    (h : history vc (SimpleKeyProvider.new init) acts = pre ++ (.deliver req env, .verdict (.ok (.ok (rem, kid)))) :: post)
    (hc : ∀ before config env', .sign before config env' ∈ acts → (∀ k ∈ config.components, ComponentTidy k) ∧ config.nonce ≠ some [] ∧
      before.url.QuoteFree) :
    ∃ k v c w label sig base si, Registered init pre kid k ∧ k.verify base sig = true ∧
      RequestLike.derive req (.header hSignatureInput) = .ok (some v) ∧ CanonicalizeConfig.fromSignatureInput v = .ok (.ok c) ∧
      canonicalize req c = .ok (.ok (base, si)) ∧ RequestLike.derive req (.header hSignature) = .ok (some w) ∧
      SignatureHeader w label sig ∧
      ((∃ e : SigningEvent ReqwestRequest, e.Happened pre ∧ e.config.keyId = kid ∧ Authentic e req c.components c.params.params ∧
        e.ValidAt (env.sysNow / 1000000000) ∧ e.BodyMatches (Rem := Rem) vc req) ∨
      ∀ e : SigningEvent ReqwestRequest, e.Happened pre → ¬ e.Base base) := by
  refine C129_accepted vc init acts pre post req env rem kid h fun e he => ?_
  have hm : .sign e.before e.config e.env ∈ acts := by
    have : ∀ (acts : List (Action ReqwestRequest S)) (store : SimpleKeyProvider),
        ((history vc store acts : List (_ × Outcome ReqwestRequest Rem)).map Prod.fst) = acts := by
      intro acts
      induction acts with
      | nil => intro _; rfl
      | cons a as ih => intro store; simp [history, ih]
    rw [← this acts (SimpleKeyProvider.new init), h]
    exact List.mem_map.2 ⟨_, List.mem_append_left _ he, rfl⟩
  exact e.careful_reqwest (hc _ _ _ hm).1 (hc _ _ _ hm).2.1 (hc _ _ _ hm).2.2

/-- C129, revocation. If the last change to the keys of a key id forgot them, no request is accepted under that key id. -/
theorem C129_revoked (vc : VerifyingConfig) (init : List (Str × HttpSignatureVerify)) (acts : List (Action R S))
    (p q post : List (Action R S × Outcome R Rem)) (op : KeyOp) (o : Outcome R Rem) (req : S) (env : VerifyEnv)
    (result : P (Except Rem (Rem × Str))) (kid : Str) (hop : op.Forgets kid) (hq : ∀ k o, (.keys (.add kid k), o) ∉ q)
    (h : history vc (SimpleKeyProvider.new init) acts = p ++ (.keys op, o) :: q ++ (.deliver req env, .verdict result) :: post) :
    ∀ rem, result ≠ .ok (.ok (rem, kid)) := by
  rintro rem rfl
  have ho := (history_split h).1
  refine C21_revoked req _ env rem kid init (keyOps p) (keyOps q) op ?_ hop ?_ (Outcome.verdict.inj ho).symm
  · show _ = (SimpleKeyProvider.after init _).provideKeys
    unfold SimpleKeyProvider.after
    simp [keyOps]
  · intro k hk
    obtain ⟨o, ho⟩ := mem_keyOps.1 hk
    exact hq k o ho

/-- C129, replay. A request that was accepted is accepted again, whatever happened in between, as long as no key of its key id was
removed and the times allow it. -/
theorem C129_replay (vc : VerifyingConfig) (init : List (Str × HttpSignatureVerify)) (acts : List (Action R S))
    (pre mid post : List (Action R S × Outcome R Rem)) (req : S) (env env' : VerifyEnv) (rem : Rem) (kid v : Str)
    (c : CanonicalizeConfig) (o : Outcome R Rem)
    (h : history vc (SimpleKeyProvider.new init) acts = pre ++ (.deliver req env, .verdict (.ok (.ok (rem, kid)))) ::
      mid ++ (.deliver req env', o) :: post)
    (hmid : ∀ op o, (.keys op, o) ∈ mid → ¬ op.Forgets kid)
    (hv : RequestLike.derive req (.header hSignatureInput) = .ok (some v)) (hc : CanonicalizeConfig.fromSignatureInput v = .ok (.ok c))
    (hclock : 0 ≤ env'.sysNow) (hw : InWindow c (env'.sysNow / 1000000000)) (hd : DateOk vc env' c) :
    o = .verdict (.ok (.ok (rem, kid))) := by
  have h1 := (history_split (pre := pre) (a := .deliver req env) (o := .verdict (.ok (.ok (rem, kid))))
    (post := mid ++ (.deliver req env', o) :: post) (by rw [h]; simp)).1
  have h2 := (history_split h).1
  rw [h2]
  have h1 := (Outcome.verdict.inj h1).symm
  refine congrArg Outcome.verdict ?_
  obtain ⟨c', sig, base, hok, hr, _, hdg⟩ := verify_ok_iff.1 h1
  obtain ⟨v', e1, e2⟩ := hok.input
  cases Option.some.inj (Except.ok.inj (hv.symm.trans e1))
  cases hc.symm.trans e2
  refine verify_ok_iff.2 ⟨c, sig, base, ⟨hok.input, hok.signature, hok.keyid, hok.alg, hclock, hw, hok.canon, ?_⟩, hr, hd, hdg⟩
  obtain ⟨k, hk, hkv⟩ := hok.key
  refine ⟨k, (registered_iff init _ kid k).2 ?_, hkv⟩
  rcases (registered_iff init pre kid k).1 hk with ⟨hi, hn⟩ | ⟨p, o', q, rfl, hq⟩
  · refine .inl ⟨hi, fun op o hm => ?_⟩
    rw [List.mem_append, List.mem_cons] at hm
    rcases hm with hm | hm | hm
    · exact hn op o hm
    · cases hm
    · exact hmid op o hm
  · refine .inr ⟨p, o', q ++ (.deliver req env, .verdict (.ok (.ok (rem, kid)))) :: mid, by simp, fun op o hm => ?_⟩
    rw [List.mem_append, List.mem_cons] at hm
    rcases hm with hm | hm | hm
    · exact hq op o hm
    · cases hm
    · exact hmid op o hm
end

/-! ### Examples -/

section
variable [Deps]

/-- The key is registered, a client signs, the request arrives twice, the key is removed, the request arrives again. -/
def exActions : List (Action ReqwestRequest MockRequest) :=
  [.keys (.add (str% "k1") exKey), .sign exReqwest exSigning exSignEnv, .deliver exArrived exEnv, .deliver exArrived exEnv,
    .keys (.removeAll (str% "k1")), .deliver exArrived exEnv]

/-- The hypotheses of all three theorems: the second arrival is a replay and the third comes after the removal. -/
example : history exVerifying (SimpleKeyProvider.new []) exActions =
    [(.keys (.add (str% "k1") exKey), .done), (.sign exReqwest exSigning exSignEnv, .signed (.ok (exReqwestSigned, .ok ()))),
      (.deliver exArrived exEnv, .verdict (.ok (.ok ((), str% "k1")))), (.deliver exArrived exEnv, .verdict (.ok (.ok ((), str% "k1")))),
      (.keys (.removeAll (str% "k1")), .done), (.deliver exArrived exEnv, .verdict (.ok (.error ())))] := by
  rfl

/-- The only signing event of this history is careful. -/
example : exEvent.Careful := by
  refine exEvent.careful_reqwest exPortable.components exPortable.nonce ⟨_, queryIs_iff.2 rfl, ?_⟩
  show ∀ p ∈ formParse (utf8 (exUrl.query.getD [])), _
  have : formParse (utf8 (exUrl.query.getD [])) = [(str% "param", str% "value"), (str% "pet", str% "dog")] := by
    show formParse (utf8 (str% "param=value&pet=dog")) = _
    decide +kernel
  rw [this]
  decide

end

end Httpsig
