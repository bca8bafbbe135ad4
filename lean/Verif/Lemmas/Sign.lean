import Verif.Spec.Sign
import Verif.Lemmas.Canon
import Verif.Lemmas.IndexMap
import Verif.Model.Reqwest
import Verif.Model.Mock
/- `sign` against its specification. -/
set_option linter.unusedSectionVars false
namespace Httpsig
open Sfv
variable [Deps]

/-! ### Header maps -/

theorem HeaderMap.getAll_insert_ne : ∀ (m : HeaderMap) {h n : HeaderName} (v : HeaderValue), n ≠ h →
    (m.insert h v).getAll n = m.getAll n
  | [], h, n, v, hn => by simp [HeaderMap.insert, HeaderMap.getAll, hn.symm]
  | e :: m, h, n, v, hn => by
    have ih := getAll_insert_ne m v hn
    unfold HeaderMap.insert
    unfold HeaderMap.getAll at ih ⊢
    by_cases he : e.1 = h
    · have hen : ¬ e.1 = n := fun h' => hn (h'.symm.trans he)
      have hf : ∀ l : HeaderMap, (l.filter fun e => e.1 ≠ h).filter (fun e => e.1 = n) = l.filter fun e => e.1 = n := by
        intro l
        rw [List.filter_filter]
        apply List.filter_congr
        intro e _
        by_cases he : e.1 = n
        · simp [he, hn]
        · simp [he]
      rw [if_pos he, List.filter_cons_of_neg (by simpa using hn.symm), List.filter_cons_of_neg (by simpa using hen), hf]
    · rw [if_neg he]
      by_cases hen : e.1 = n
      · rw [List.filter_cons_of_pos (by simpa using hen), List.filter_cons_of_pos (by simpa using hen), List.map_cons, List.map_cons, ih]
      · rw [List.filter_cons_of_neg (by simpa using hen), List.filter_cons_of_neg (by simpa using hen), ih]

theorem HeaderMap.get_eq_head_getAll (m : HeaderMap) (n : HeaderName) : m.get n = (m.getAll n).head? := by
  unfold HeaderMap.get HeaderMap.getAll
  rw [List.head?_map, List.head?_filter]

theorem HeaderMap.get_insert_ne (m : HeaderMap) {h n : HeaderName} (v : HeaderValue) (hn : n ≠ h) :
    (m.insert h v).get n = m.get n := by
  rw [get_eq_head_getAll, get_eq_head_getAll, getAll_insert_ne m v hn]

theorem HeaderMap.getAll_insert_self : ∀ (m : HeaderMap) (h : HeaderName) (v : HeaderValue), (m.insert h v).getAll h = [v]
  | [], h, v => by simp [HeaderMap.insert, HeaderMap.getAll]
  | e :: m, h, v => by
    have ih := getAll_insert_self m h v
    unfold HeaderMap.insert
    unfold HeaderMap.getAll at ih ⊢
    by_cases he : e.1 = h
    · have hf : (m.filter fun e => e.1 ≠ h).filter (fun e => e.1 = h) = [] := by
        rw [List.filter_filter, List.filter_eq_nil_iff]; intro e _; simp
      rw [if_pos he, List.filter_cons_of_pos (by simp), hf]
      rfl
    · rw [if_neg he, List.filter_cons_of_neg (by simpa using he), ih]

theorem HeaderMap.get_insert_self (m : HeaderMap) (h : HeaderName) (v : HeaderValue) : (m.insert h v).get h = some v := by
  rw [get_eq_head_getAll, getAll_insert_self]
  rfl

theorem HeaderMap.mem_insert : ∀ {m : HeaderMap} {n : HeaderName} {v : HeaderValue} {e : HeaderName × HeaderValue},
    e ∈ m.insert n v → e ∈ m ∨ e = (n, v)
  | [], _, _, _, h => .inr (by simpa [HeaderMap.insert] using h)
  | f :: m, n, v, e, h => by
    unfold HeaderMap.insert at h
    split at h
    · rcases List.mem_cons.1 h with h | h
      · exact .inr h
      · exact .inl (List.mem_cons_of_mem _ (List.mem_filter.1 h).1)
    · rcases List.mem_cons.1 h with h | h
      · exact .inl (h ▸ List.mem_cons_self)
      · rcases mem_insert h with h | h
        · exact .inl (List.mem_cons_of_mem _ h)
        · exact .inr h

/-! ### The three request types satisfy the laws -/

theorem ok_map {ε α β : Type} (f : α → β) (x : Except ε α) : (do return f (← x)) = x.map f := by cases x <;> rfl

theorem reqwestHeader_set_same {m : HeaderMap} {h : HeaderName} {v : HeaderValue} {s : Str} (hv : v.toStr = some s) :
    reqwestHeader (m.insert h v) h = some s := by
  simp [reqwestHeader, HeaderMap.get_insert_self, hv]

instance : LawfulClient ReqwestRequest where
  has_eq r k := ok_map Option.isSome _
  derive_header r h := ⟨_, rfl⟩
  derive_set_same r h v s hv := by
    show Except.ok (reqwestHeader (r.headers.insert h v) h) = _
    rw [reqwestHeader_set_same hv]
  derive_set_ne r h v k hk := by
    cases k with
    | derived d => rfl
    | header n =>
      show Except.ok (reqwestHeader (r.headers.insert h v) n) = Except.ok (reqwestHeader r.headers n)
      unfold reqwestHeader
      rw [HeaderMap.get_insert_ne _ _ (by rintro rfl; exact hk rfl)]
  derive_digest r d k := by
    show reqwestDerive _ _ _ k = reqwestDerive _ _ _ k
    simp only [ClientRequestLike.computeDigest]
    split <;> rfl
  host_set r h v := rfl
  digest_set r h v d := by
    simp only [ClientRequestLike.computeDigest, ClientRequestLike.setHeader]
    split <;> rfl
  host_digest r d := by
    simp only [ClientRequestLike.computeDigest, ClientRequestLike.host]
    split <;> rfl
  digest_digest r d d' := by
    cases r with | mk m u h b => cases b with
      | _ => rfl

instance : LawfulClient BlockingRequest where
  has_eq r k := ok_map Option.isSome _
  derive_header r h := ⟨_, rfl⟩
  derive_set_same r h v s hv := by
    show Except.ok (reqwestHeader (r.headers.insert h v) h) = _
    rw [reqwestHeader_set_same hv]
  derive_set_ne r h v k hk := by
    cases k with
    | derived d => rfl
    | header n =>
      show Except.ok (reqwestHeader (r.headers.insert h v) n) = Except.ok (reqwestHeader r.headers n)
      unfold reqwestHeader
      rw [HeaderMap.get_insert_ne _ _ (by rintro rfl; exact hk rfl)]
  derive_digest r d k := by
    show reqwestDerive _ _ _ k = reqwestDerive _ _ _ k
    simp only [ClientRequestLike.computeDigest]
    split <;> rfl
  host_set r h v := rfl
  digest_set r h v d := by
    simp only [ClientRequestLike.computeDigest, ClientRequestLike.setHeader]
    split <;> rfl
  host_digest r d := by
    simp only [ClientRequestLike.computeDigest, ClientRequestLike.host]
    split <;> rfl
  digest_digest r d d' := by
    cases r with | mk m u h b => cases b with
      | reader c => cases c <;> rfl
      | _ => rfl

instance : LawfulClient MockRequest where
  has_eq r k := ok_map Option.isSome _
  derive_header r h := ⟨_, rfl⟩
  derive_set_same r h v s hv := by
    show Except.ok (((r.headers.insert h v).get h).map fun v => v.toStr.getD []) = _
    rw [HeaderMap.get_insert_self]
    simp [hv]
  derive_set_ne r h v k hk := by
    cases k with
    | derived d => rfl
    | header n =>
      show Except.ok (((r.headers.insert h v).get n).map fun v => v.toStr.getD []) =
        Except.ok ((r.headers.get n).map fun v => v.toStr.getD [])
      rw [HeaderMap.get_insert_ne _ _ (by rintro rfl; exact hk rfl)]
  derive_digest r d k := rfl
  host_set r h v := rfl
  digest_set r h v d := rfl
  host_digest r d := rfl
  digest_digest r d d' := rfl

/-! ### The canonicalisation configuration -/

theorem created_get (config : SigningConfig) (now : Int) : config.created.get now = createdTime config now := by
  unfold createdTime; cases config.created <;> rfl

theorem expires_get (config : SigningConfig) (now : Int) : config.expires.get now = expiresTime config now := by
  unfold expiresTime
  cases config.expires with
  | relative off =>
    simp only [SignatureExpires.get, satAdd, i64Min, i64Max, Option.some.injEq]
    omega
  | _ => rfl

theorem insert_alg (s : BareItem) : IMap.insert ([] : Params) kAlg s = [(kAlg, s)] := rfl

theorem buildCanonicalizeConfig_ok_iff {config : SigningConfig} {comps : List SignatureComponent} {now : Int} {c : CanonicalizeConfig} :
    buildCanonicalizeConfig config comps now = .ok c ↔
      TimesOk config now ∧ c = { label := none, components := comps, params := ⟨SignedParams config now⟩ } := by
  unfold buildCanonicalizeConfig TimesOk SignedParams
  rw [created_get, expires_get]
  cases hc : createdTime config now with
  | none =>
    cases he : expiresTime config now with
    | none =>
      cases hn : config.nonce <;>
      · constructor
        · intro h; cases h; exact ⟨⟨nofun, nofun⟩, rfl⟩
        · rintro ⟨_, rfl⟩; rfl
    | some e =>
      by_cases hlt : e < now
      · simp only [Bind.bind, Except.bind, pure, Except.pure, if_pos hlt]
        constructor
        · intro h; cases h
        · rintro ⟨⟨_, h⟩, _⟩; have := h e rfl; omega
      · have hle : now ≤ e := by omega
        simp only [Bind.bind, Except.bind, pure, Except.pure, if_neg hlt]
        cases hn : config.nonce <;>
        · constructor
          · intro h; cases h; exact ⟨⟨nofun, fun t ht => by cases ht; exact hle⟩, rfl⟩
          · rintro ⟨_, rfl⟩; rfl
  | some t =>
    by_cases hgt : t > now
    · simp only [Bind.bind, Except.bind, pure, Except.pure, if_pos hgt]
      constructor
      · intro h; cases h
      · rintro ⟨⟨h, _⟩, _⟩; have := h t rfl; omega
    · have hle' : t ≤ now := by omega
      simp only [Bind.bind, Except.bind, pure, Except.pure, if_neg hgt]
      cases he : expiresTime config now with
      | none =>
        cases hn : config.nonce <;>
        · constructor
          · intro h; cases h; exact ⟨⟨fun t ht => by cases ht; exact hle', nofun⟩, rfl⟩
          · rintro ⟨_, rfl⟩; rfl
      | some e =>
        by_cases hlt : e < now
        · simp only [if_pos hlt]
          constructor
          · intro h; cases h
          · rintro ⟨⟨_, h⟩, _⟩; have := h e rfl; omega
        · have hle : now ≤ e := by omega
          simp only [if_neg hlt]
          cases hn : config.nonce <;>
          · constructor
            · intro h; cases h
              exact ⟨⟨fun t ht => by cases ht; exact hle', fun t ht => by cases ht; exact hle⟩, rfl⟩
            · rintro ⟨_, rfl⟩; rfl

/-! ### Automatic headers -/

variable {R : Type} [ClientRequestLike R]

theorem headerValueOrPanic_ok {p : Panic} {s : Str} {v : HeaderValue} :
    headerValueOrPanic p s = .ok v ↔ HeaderValue.fromStr s = some v := by
  unfold headerValueOrPanic
  cases HeaderValue.fromStr s <;> simp

variable [LawfulClient R]

theorem has_false {r : R} {h : HeaderName} (hd : RequestLike.derive r (.header h) = .ok none) :
    RequestLike.hasComponent r (.header h) = .ok false := by rw [LawfulClient.has_eq, hd]; rfl

theorem has_true {r : R} {h : HeaderName} {s : Str} (hd : RequestLike.derive r (.header h) = .ok (some s)) :
    RequestLike.hasComponent r (.header h) = .ok true := by rw [LawfulClient.has_eq, hd]; rfl

/-- The date step: skipped if switched off or a date is readable, otherwise the date is set. -/
theorem addDateHeader_iff {r r' : R} {config : SigningConfig} {env : SignEnv} :
    addDateHeader r config env = .ok r' ↔
      (config.addDate = true ∧ RequestLike.derive r (.header hDate) = .ok none ∧
        ∃ v, HeaderValue.fromStr (formatDate env.utcNow) = some v ∧ r' = ClientRequestLike.setHeader r hDate v) ∨
      ((config.addDate = false ∨ ∃ s, RequestLike.derive r (.header hDate) = .ok (some s)) ∧ r' = r) := by
  obtain ⟨x, hx⟩ := LawfulClient.derive_header r hDate
  unfold addDateHeader
  cases hc : config.addDate with
  | false => simp [pure, Except.pure, eq_comm]
  | true =>
    cases x with
    | some s =>
      rw [has_true hx]
      simp [Bind.bind, Except.bind, pure, Except.pure, hx, eq_comm]
    | none =>
      rw [has_false hx]
      simp only [Bind.bind, Except.bind, pure, Except.pure, Bool.not_false, if_true, hx]
      cases hv : headerValueOrPanic .dateHeader (formatDate env.utcNow) with
      | error p =>
        simp only [reduceCtorEq, true_and, false_iff]
        rintro (⟨v, h, _⟩ | ⟨h | ⟨s, h⟩, _⟩)
        · rw [headerValueOrPanic_ok.2 h] at hv; cases hv
        · cases h
        · cases h
      | ok v =>
        have hv' := headerValueOrPanic_ok.1 hv
        simp [hv', eq_comm]

/-- The host step: skipped if switched off, a host is readable or the request has none; otherwise it is set. -/
theorem addHostHeader_iff {r r' : R} {config : SigningConfig} :
    addHostHeader r config = .ok r' ↔
      (∃ host v, config.addHost = true ∧ RequestLike.derive r (.header hHost) = .ok none ∧
        ClientRequestLike.host r = some host ∧
        HeaderValue.fromStr host = some v ∧ r' = ClientRequestLike.setHeader r hHost v) ∨
      ((config.addHost = false ∨ (∃ s, RequestLike.derive r (.header hHost) = .ok (some s)) ∨
        ClientRequestLike.host r = none) ∧ r' = r) := by
  obtain ⟨x, hx⟩ := LawfulClient.derive_header r hHost
  unfold addHostHeader
  cases hc : config.addHost with
  | false => simp [pure, Except.pure, eq_comm]
  | true =>
    cases x with
    | some s =>
      rw [has_true hx]
      simp [Bind.bind, Except.bind, pure, Except.pure, hx, eq_comm]
    | none =>
      rw [has_false hx]
      simp only [Bind.bind, Except.bind, pure, Except.pure, Bool.not_false, if_true, hx]
      cases hh : ClientRequestLike.host r with
      | none => simp [eq_comm]
      | some host =>
        simp only
        cases hv : headerValueOrPanic .hostHeader host with
        | error p =>
          simp only [reduceCtorEq, true_and, false_iff]
          rintro (⟨host', v, h1, h, _⟩ | ⟨h | ⟨s, h⟩ | h, _⟩)
          · cases h1; rw [headerValueOrPanic_ok.2 h] at hv; cases hv
          · cases h
          · cases h
          · cases h
        | ok v =>
          have hv' := headerValueOrPanic_ok.1 hv
          simp only [Except.ok.injEq, true_and, reduceCtorEq, exists_false, false_and, or_false, Option.some.injEq]
          constructor
          · rintro rfl; exact ⟨host, v, rfl, hv', rfl⟩
          · rintro ⟨host', v', rfl, h2, rfl⟩; rw [hv'] at h2; cases h2; rfl

/-- The digest step: skipped if switched off or a digest is readable; otherwise a digest is computed (which may change
the body's representation) and set if there is one. -/
theorem addDigestHeader_iff {r r' : R} {config : SigningConfig} :
    addDigestHeader r config = .ok r' ↔
      (∃ s v, config.computeDigest = true ∧ RequestLike.derive r (.header hDigest) = .ok none ∧
        (ClientRequestLike.computeDigest r config.digest).2 = some s ∧
        HeaderValue.fromStr (config.digest.name ++ str% "=" ++ s) = some v ∧
        r' = ClientRequestLike.setHeader (ClientRequestLike.computeDigest r config.digest).1 hDigest v) ∨
      (config.computeDigest = true ∧ RequestLike.derive r (.header hDigest) = .ok none ∧
        (ClientRequestLike.computeDigest r config.digest).2 = none ∧ r' = (ClientRequestLike.computeDigest r config.digest).1) ∨
      ((config.computeDigest = false ∨ ∃ s, RequestLike.derive r (.header hDigest) = .ok (some s)) ∧ r' = r) := by
  obtain ⟨x, hx⟩ := LawfulClient.derive_header r hDigest
  unfold addDigestHeader
  cases hc : config.computeDigest with
  | false => simp [pure, Except.pure, eq_comm]
  | true =>
    cases x with
    | some s =>
      rw [has_true hx]
      simp [Bind.bind, Except.bind, pure, Except.pure, hx, eq_comm]
    | none =>
      rw [has_false hx]
      simp only [Bind.bind, Except.bind, pure, Except.pure, Bool.not_false, if_true, hx]
      cases hd : (ClientRequestLike.computeDigest r config.digest).2 with
      | none => simp [eq_comm]
      | some s =>
        simp only
        cases hv : headerValueOrPanic .digestHeader (config.digest.name ++ str% "=" ++ s) with
        | error p =>
          simp only [reduceCtorEq, true_and, false_iff]
          rintro (⟨s', v, h1, h, _⟩ | ⟨h, _⟩ | ⟨h | ⟨s, h⟩, _⟩)
          · cases h1; rw [headerValueOrPanic_ok.2 h] at hv; cases hv
          · cases h
          · cases h
          · cases h
        | ok v =>
          have hv' := headerValueOrPanic_ok.1 hv
          simp only [Except.ok.injEq, true_and, reduceCtorEq, exists_false, false_and, or_false, Option.some.injEq]
          constructor
          · rintro rfl; exact ⟨s, v, rfl, hv', rfl⟩
          · rintro ⟨s', v', rfl, h2, rfl⟩; rw [hv'] at h2; cases h2; rfl

theorem filterPresent_spec {r : R} : ∀ {l l' : List SignatureComponent},
    filterPresent r l = .ok l' ↔ (∀ k ∈ l, ∃ v, RequestLike.derive r k = .ok v) ∧ l' = l.filter fun k => (valueOf r k).isSome
  | [], l' => by simp [filterPresent, eq_comm]
  | c :: cs, l' => by
    simp only [filterPresent, LawfulClient.has_eq]
    cases hc : RequestLike.derive r c with
    | error p =>
      constructor
      · intro h; cases h
      · rintro ⟨h, _⟩; obtain ⟨v, hv⟩ := h c (by simp); rw [hc] at hv; cases hv
    | ok v =>
      have hval := derive_valueOf hc
      cases hcs : filterPresent r cs with
      | error p =>
        constructor
        · intro h; cases h
        · rintro ⟨h, _⟩
          have := filterPresent_spec.2 ⟨fun k hk => h k (List.mem_cons_of_mem _ hk), rfl⟩
          rw [hcs] at this; cases this
      | ok cs' =>
        obtain ⟨h1, rfl⟩ := filterPresent_spec.1 hcs
        simp only [Except.map, Bind.bind, Except.bind, pure, Except.pure, Except.ok.injEq]
        constructor
        · rintro rfl
          refine ⟨?_, ?_⟩
          · intro k hk
            rcases List.mem_cons.1 hk with rfl | hk
            · exact ⟨v, hc⟩
            · exact h1 k hk
          · cases v <;> simp [hval]
        · rintro ⟨_, rfl⟩
          cases v <;> simp [hval]

end Httpsig
