import Verif.Lemmas.Sign
import Verif.Lemmas.SfvRound
import Verif.Lemmas.Config3
/- `sign` as a whole. -/
set_option linter.unusedSectionVars false
namespace Httpsig
open Sfv

/-! ### Header values made from text -/

theorem utf8_ascii {s : Str} (h : ∀ c ∈ s, c.toNat < 128) : utf8 s = s.map fun c => UInt8.ofNat c.toNat := by
  induction s with
  | nil => rfl
  | cons c s ih =>
    have hc := utf8EncodeChar_ascii (h c (by simp))
    simp only [utf8, List.flatMap_cons] at ih ⊢
    rw [hc, ih fun d hd => h d (by simp [hd])]
    rfl

theorem fromStr_visible {s : Str} (h : s.all isVisibleChar = true) :
    ∃ v, HeaderValue.fromStr s = some v ∧ v.toStr = some s := by
  have hs : ∀ c ∈ s, (32 ≤ c.toNat ∧ c.toNat < 127) ∨ c.toNat = 9 := by
    intro c hc
    simpa [isVisibleChar] using List.all_eq_true.1 h c hc
  have hu := utf8_ascii (s := s) fun c hc => by have := hs c hc; omega
  have hb : (utf8 s).all isVisibleByte = true := by
    rw [hu, List.all_map, List.all_eq_true]
    intro c hc
    have := hs c hc
    simp only [Function.comp, isVisibleByte, UInt8.toNat_ofNat']
    rw [Nat.mod_eq_of_lt (by omega)]
    simpa using this
  have hb' : (utf8 s).all isHeaderValueByte = true := by
    rw [List.all_eq_true] at hb ⊢
    intro b hb0
    have := hb b hb0
    simp only [isVisibleByte, isHeaderValueByte, Bool.or_eq_true, Bool.and_eq_true, decide_eq_true_eq, beq_iff_eq, bne_iff_ne] at this ⊢
    omega
  refine ⟨⟨utf8 s, hb'⟩, by simp [HeaderValue.fromStr, HeaderValue.fromBytes, hb'], ?_⟩
  simp only [HeaderValue.toStr, hb, if_true, Option.some.injEq]
  rw [hu, List.map_map]
  conv => rhs; rw [← List.map_id s]
  apply List.map_congr_left
  intro c hc
  have := hs c hc
  simp only [Function.comp, UInt8.toNat_ofNat', id]
  rw [Nat.mod_eq_of_lt (by omega)]
  exact Char.ofNat_toNat c

theorem visible_of_printable {s : Str} (h : s.all isStringChar = true) : s.all isVisibleChar = true := by
  rw [List.all_eq_true] at h ⊢
  intro c hc
  have := h c hc
  simp only [isStringChar, isVisibleChar, Bool.or_eq_true, Bool.and_eq_true, decide_eq_true_eq] at this ⊢
  omega

/-- A readable header value made from a text reads as that text. -/
theorem toStr_fromStr {s t : Str} {v : HeaderValue} (h : HeaderValue.fromStr s = some v) (ht : v.toStr = some t) : t = s := by
  unfold HeaderValue.fromStr HeaderValue.fromBytes at h
  split at h
  · cases h
    unfold HeaderValue.toStr at ht
    split at ht
    · rename_i hvis
      cases ht
      have hs : ∀ c ∈ s, isVisibleChar c = true := by
        intro c hc
        have h1 : ∀ b ∈ String.utf8EncodeChar c, isVisibleByte b = true := by
          intro b hb
          exact List.all_eq_true.1 hvis b (List.mem_flatMap.2 ⟨c, hc, hb⟩)
        by_cases hlt : c.toNat < 128
        · rw [utf8EncodeChar_ascii hlt] at h1
          have := h1 _ (List.mem_singleton.2 rfl)
          simp only [isVisibleByte, UInt8.toNat_ofNat'] at this
          rw [Nat.mod_eq_of_lt (by omega)] at this
          exact this
        · exfalso
          have hge : ∃ b ∈ String.utf8EncodeChar c, 128 ≤ b.toNat := by
            have hlt' : 127 < c.val.toNat := by have : ¬ c.val.toNat < 128 := hlt; omega
            have hm : c.val.toNat < 1114112 := by have := c.valid; omega
            simp only [String.utf8EncodeChar, Nat.not_le.2 hlt', ite_false]
            have e1 : c.val.toNat / 64 % 32 < 32 := Nat.mod_lt _ (by omega)
            have e2 : c.val.toNat / 4096 % 16 < 16 := Nat.mod_lt _ (by omega)
            have e3 : c.val.toNat / 262144 % 8 < 8 := Nat.mod_lt _ (by omega)
            repeat' split
            · refine ⟨_, .head _, ?_⟩; simp only [UInt8.toNat_ofNat']; omega
            · refine ⟨_, .head _, ?_⟩; simp only [UInt8.toNat_ofNat']; omega
            · refine ⟨_, .head _, ?_⟩; simp only [UInt8.toNat_ofNat']; omega
          obtain ⟨b, hb, hb'⟩ := hge
          have := h1 b hb
          simp only [isVisibleByte, Bool.or_eq_true, Bool.and_eq_true, decide_eq_true_eq, beq_iff_eq] at this
          omega
      obtain ⟨v, hv, hv'⟩ := fromStr_visible (List.all_eq_true.2 hs)
      unfold HeaderValue.fromStr HeaderValue.fromBytes at hv
      split at hv
      · cases hv
        unfold HeaderValue.toStr at hv'
        simp only [hvis, if_true, Option.some.injEq] at hv'
        exact hv'
      · rename_i hbytes hnot
        exact absurd hbytes hnot
    · cases ht
  · cases h

/-! ### `sign` -/
variable [Deps]
variable {R : Type} [ClientRequestLike R] [LawfulClient R]

theorem addAutoHeaders_iff {r r' : R} {config : SigningConfig} {env : SignEnv} {comps : List SignatureComponent} :
    addAutoHeaders r config env = .ok (r', comps) ↔
      ∃ a b, addDateHeader r config env = .ok a ∧ addHostHeader a config = .ok b ∧ addDigestHeader b config = .ok r' ∧
        if config.skipMissing then (∀ k ∈ config.components, ∃ v, RequestLike.derive r' k = .ok v) ∧
          comps = config.components.filter fun k => (valueOf r' k).isSome
        else comps = config.components := by
  unfold addAutoHeaders
  cases h1 : addDateHeader r config env with
  | error p => simp [Bind.bind, Except.bind]
  | ok a =>
    simp only [Bind.bind, Except.bind]
    cases h2 : addHostHeader a config with
    | error p => simp [h2]
    | ok b =>
      simp only
      cases h3 : addDigestHeader b config with
      | error p => simp [h2, h3]
      | ok r1 =>
        simp only
        cases hs : config.skipMissing with
        | false =>
          simp only [Bool.false_eq_true, if_false, pure, Except.pure, Except.ok.injEq, Prod.mk.injEq]
          constructor
          · rintro ⟨rfl, rfl⟩; exact ⟨a, b, rfl, h2, h3, rfl⟩
          · rintro ⟨a', b', rfl, h, h', rfl⟩
            rw [h2] at h; cases h; rw [h3] at h'; cases h'; exact ⟨rfl, rfl⟩
        | true =>
          simp only [if_true]
          cases hf : filterPresent r1 config.components with
          | error p =>
            simp only [reduceCtorEq, false_iff]
            rintro ⟨a', b', e, h, h', h4⟩
            cases e
            rw [h2] at h; cases h; rw [h3] at h'; cases h'
            rw [filterPresent_spec.2 h4] at hf; cases hf
          | ok l =>
            simp only [pure, Except.pure, Except.ok.injEq, Prod.mk.injEq]
            constructor
            · rintro ⟨rfl, rfl⟩; exact ⟨a, b, rfl, h2, h3, filterPresent_spec.1 hf⟩
            · rintro ⟨a', b', rfl, h, h', h4⟩
              rw [h2] at h; cases h; rw [h3] at h'; cases h'
              rw [filterPresent_spec.2 h4] at hf
              cases hf; exact ⟨rfl, rfl⟩

/-- All ways in which `sign` can return. -/
theorem sign_iff {r r' : R} {config : SigningConfig} {env : SignEnv} {res : Except Error Unit} :
    sign r config env = .ok (r', res) ↔
      ∃ r1 comps, addAutoHeaders r config env = .ok (r1, comps) ∧ 0 ≤ env.sysNow ∧
      ((∃ e, buildCanonicalizeConfig config comps (env.sysNow / 1000000000) = .error e ∧ r' = r1 ∧ res = .error e) ∨
       ∃ cc, buildCanonicalizeConfig config comps (env.sysNow / 1000000000) = .ok cc ∧
       ((∃ e, canonicalize r1 cc = .ok (.error e) ∧ r' = r1 ∧ res = .error .canonicalize) ∨
        ∃ base si x, canonicalize r1 cc = .ok (.ok (base, si)) ∧ si.display = .ok x ∧
        ((HeaderValue.fromStr x = none ∧ r' = r1 ∧ res = .error .signatureInputError) ∨
         ∃ v, HeaderValue.fromStr x = some v ∧
         ((HeaderValue.fromStr (config.label ++ str% "=:" ++ config.signature.sign env.rnd base ++ str% ":") = none ∧
            r' = ClientRequestLike.setHeader r1 hSignatureInput v ∧ res = .error .convertHeader) ∨
          ∃ w, HeaderValue.fromStr (config.label ++ str% "=:" ++ config.signature.sign env.rnd base ++ str% ":") = some w ∧
            r' = ClientRequestLike.setHeader (ClientRequestLike.setHeader r1 hSignatureInput v) hSignature w ∧ res = .ok ())))) := by
  unfold sign
  cases ha : addAutoHeaders r config env with
  | error p => simp [Bind.bind, Except.bind]
  | ok y =>
    obtain ⟨r1, comps⟩ := y
    simp only [Bind.bind, Except.bind, Except.ok.injEq, Prod.mk.injEq, unixTimestamp]
    by_cases hn : env.sysNow < 0
    · rw [if_pos hn]
      simp only [reduceCtorEq, false_iff]
      rintro ⟨_, _, _, h, _⟩
      omega
    rw [if_neg hn]
    have hn' : 0 ≤ env.sysNow := by omega
    simp only
    cases hb : buildCanonicalizeConfig config comps (env.sysNow / 1000000000) with
    | error e =>
      simp only [pure, Except.pure, Except.ok.injEq, Prod.mk.injEq]
      constructor
      · rintro ⟨rfl, rfl⟩; exact ⟨r1, comps, ⟨rfl, rfl⟩, hn', Or.inl ⟨e, hb, rfl, rfl⟩⟩
      · rintro ⟨_, _, ⟨rfl, rfl⟩, _, ⟨e', h, rfl, rfl⟩ | ⟨cc, h, _⟩⟩
        · rw [hb] at h; cases h; exact ⟨rfl, rfl⟩
        · rw [hb] at h; cases h
    | ok cc =>
      simp only
      cases hcan : canonicalize r1 cc with
      | error p =>
        simp only [reduceCtorEq, false_iff]
        rintro ⟨_, _, ⟨rfl, rfl⟩, _, ⟨e, h, _⟩ | ⟨c', h, ⟨e, h', _⟩ | ⟨_, _, _, h', _⟩⟩⟩
        · rw [hb] at h; cases h
        · rw [hb] at h; cases h; rw [hcan] at h'; cases h'
        · rw [hb] at h; cases h; rw [hcan] at h'; cases h'
      | ok z =>
        cases z with
        | error e =>
          simp only [pure, Except.pure, Except.ok.injEq, Prod.mk.injEq]
          constructor
          · rintro ⟨rfl, rfl⟩; exact ⟨r1, comps, ⟨rfl, rfl⟩, hn', Or.inr ⟨cc, hb, Or.inl ⟨e, hcan, rfl, rfl⟩⟩⟩
          · rintro ⟨_, _, ⟨rfl, rfl⟩, _, ⟨e, h, _⟩ | ⟨c', h, ⟨e, h', rfl, rfl⟩ | ⟨_, _, _, h', _⟩⟩⟩
            · rw [hb] at h; cases h
            · exact ⟨rfl, rfl⟩
            · rw [hb] at h; cases h; rw [hcan] at h'; cases h'
        | ok z =>
          obtain ⟨base, si⟩ := z
          simp only
          cases hx : si.display with
          | error p =>
            simp only [reduceCtorEq, false_iff]
            rintro ⟨_, _, ⟨rfl, rfl⟩, _, ⟨e, h, _⟩ | ⟨c', h, ⟨e, h', _⟩ | ⟨_, _, _, h', h'', _⟩⟩⟩
            · rw [hb] at h; cases h
            · rw [hb] at h; cases h; rw [hcan] at h'; cases h'
            · rw [hb] at h; cases h; rw [hcan] at h'; cases h'; rw [hx] at h''; cases h''
          | ok x =>
            simp only
            cases hv : HeaderValue.fromStr x with
            | none =>
              simp only [pure, Except.pure, Except.ok.injEq, Prod.mk.injEq]
              constructor
              · rintro ⟨rfl, rfl⟩
                exact ⟨r1, comps, ⟨rfl, rfl⟩, hn', Or.inr ⟨cc, hb, Or.inr ⟨base, si, x, hcan, hx, Or.inl ⟨hv, rfl, rfl⟩⟩⟩⟩
              · rintro ⟨_, _, ⟨rfl, rfl⟩, _, ⟨e, h, _⟩ | ⟨c', h, ⟨e, h', rfl, rfl⟩ | ⟨_, _, _, h', h'', ⟨_, rfl, rfl⟩ | ⟨v, h3, _⟩⟩⟩⟩
                · rw [hb] at h; cases h
                · rw [hb] at h; cases h; rw [hcan] at h'; cases h'
                · exact ⟨rfl, rfl⟩
                · rw [hb] at h; cases h; rw [hcan] at h'; cases h'; rw [hx] at h''; cases h''; rw [hv] at h3; cases h3
            | some v =>
              simp only
              cases hw : HeaderValue.fromStr (config.label ++ str% "=:" ++ config.signature.sign env.rnd base ++ str% ":") with
              | none =>
                simp only [pure, Except.pure, Except.ok.injEq, Prod.mk.injEq]
                constructor
                · rintro ⟨rfl, rfl⟩
                  exact ⟨r1, comps, ⟨rfl, rfl⟩, hn', Or.inr ⟨cc, hb, Or.inr ⟨base, si, x, hcan, hx, Or.inr ⟨v, hv, Or.inl ⟨hw, rfl, rfl⟩⟩⟩⟩⟩
                · rintro ⟨_, _, ⟨rfl, rfl⟩, _, ⟨e, h, _⟩ | ⟨c', h, ⟨e, h', rfl, rfl⟩ | ⟨_, _, _, h', h'', ⟨h3, rfl, rfl⟩ | ⟨v, h3, ⟨_, rfl, rfl⟩ | ⟨w, h4, _⟩⟩⟩⟩⟩
                  · rw [hb] at h; cases h
                  · rw [hb] at h; cases h; rw [hcan] at h'; cases h'
                  · rw [hb] at h; cases h; rw [hcan] at h'; cases h'; rw [hx] at h''; cases h''; rw [hv] at h3; cases h3
                  · rw [hb] at h; cases h; rw [hcan] at h'; cases h'; rw [hx] at h''; cases h''; rw [hv] at h3; cases h3; exact ⟨rfl, rfl⟩
                  · rw [hb] at h; cases h; rw [hcan] at h'; cases h'; rw [hw] at h4; cases h4
              | some w =>
                simp only [pure, Except.pure, Except.ok.injEq, Prod.mk.injEq]
                constructor
                · rintro ⟨rfl, rfl⟩
                  exact ⟨r1, comps, ⟨rfl, rfl⟩, hn', Or.inr ⟨cc, hb, Or.inr ⟨base, si, x, hcan, hx, Or.inr ⟨v, hv, Or.inr ⟨w, hw, rfl, rfl⟩⟩⟩⟩⟩
                · rintro ⟨_, _, ⟨rfl, rfl⟩, _, ⟨e, h, _⟩ | ⟨c', h, ⟨e, h', rfl, rfl⟩ | ⟨_, _, _, h', h'', ⟨h3, rfl, rfl⟩ | ⟨v, h3, ⟨h4, rfl, rfl⟩ | ⟨w, h4, rfl, rfl⟩⟩⟩⟩⟩
                  · rw [hb] at h; cases h
                  · rw [hb] at h; cases h; rw [hcan] at h'; cases h'
                  · rw [hb] at h; cases h; rw [hcan] at h'; cases h'; rw [hx] at h''; cases h''; rw [hv] at h3; cases h3
                  · rw [hb] at h; cases h; rw [hcan] at h'; cases h'; rw [hw] at h4; cases h4
                  · rw [hb] at h; cases h; rw [hcan] at h'; cases h'; rw [hx] at h''; cases h''; rw [hv] at h3; cases h3
                    rw [hw] at h4; cases h4; exact ⟨rfl, rfl⟩

end Httpsig
