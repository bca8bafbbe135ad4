import Verif.Lemmas.UrlParse
import Verif.Lemmas.Query
import Verif.Lemmas.HeaderText
/-
The encoding of the query by the URL parser does not change its name-value pairs.
-/
namespace Httpsig
namespace UrlParser

/-- One byte of an encoded query. -/
def queryByte (b : UInt8) : Bytes :=
  if keepQuery (Char.ofNat b.toNat) then [b]
  else [37, UInt8.ofNat (hexUpper (b.toNat / 16)).toNat, UInt8.ofNat (hexUpper (b.toNat % 16)).toNat]

theorem keepByte_iff (b : UInt8) : keepQuery (Char.ofNat b.toNat) = true ↔
    33 ≤ b.toNat ∧ b.toNat ≤ 126 ∧ b.toNat ∉ [34, 35, 60, 62, 39] := by
  have h : ∀ n < 256, keepQuery (Char.ofNat n) = true ↔ 33 ≤ n ∧ n ≤ 126 ∧ n ∉ [34, 35, 60, 62, 39] := by decide +kernel
  exact h b.toNat b.toNat_lt

theorem utf8_pctByte (b : UInt8) : utf8 (pctByte b) =
    [37, UInt8.ofNat (hexUpper (b.toNat / 16)).toNat, UInt8.ofNat (hexUpper (b.toNat % 16)).toNat] := by
  rw [pctByte_eq, utf8_ascii_map]
  · rfl
  · intro c hc
    have hlt := b.toNat_lt
    simp only [List.mem_cons, List.not_mem_nil, or_false] at hc
    rcases hc with rfl | rfl | rfl
    · decide
    · exact (hexUpper_lt (by omega)).1
    · exact (hexUpper_lt (by omega)).1

theorem utf8_cons (c : Char) (s : Str) : utf8 (c :: s) = String.utf8EncodeChar c ++ utf8 s := by simp [utf8]

theorem utf8_encode (s : Str) : utf8 (encode keepQuery s) = (utf8 s).flatMap queryByte := by
  induction s with
  | nil => rfl
  | cons c s ih =>
    have e : encode keepQuery (c :: s) = (if keepQuery c then [c] else (String.utf8EncodeChar c).flatMap pctByte) ++ encode keepQuery s := rfl
    rw [e, utf8_append, ih, utf8_cons, List.flatMap_append]
    congr 1
    by_cases hc : c.toNat < 128
    · have hb : String.utf8EncodeChar c = [UInt8.ofNat c.toNat] := utf8EncodeChar_ascii hc
      have hn : (UInt8.ofNat c.toNat).toNat = c.toNat := by simp; omega
      have hcc : Char.ofNat (UInt8.ofNat c.toNat).toNat = c := by rw [hn, Char.ofNat_toNat]
      rw [hb]
      simp only [List.flatMap_cons, List.flatMap_nil, List.append_nil]
      unfold queryByte
      rw [hcc]
      split
      · rw [utf8_cons, hb]; rfl
      · exact utf8_pctByte _
    · have hk : keepQuery c = false := by
        unfold keepQuery UrlParts.graphic
        have : decide (c.toNat ≤ 126) = false := by simp; omega
        simp [this]
      rw [hk, if_neg (by decide)]
      have hbs : ∀ b ∈ String.utf8EncodeChar c, 128 ≤ b.toNat := by
        intro b hb
        by_cases h : b.toNat < 128
        · have := utf8EncodeChar_small hb h
          grind
        · omega
      generalize String.utf8EncodeChar c = bs at hbs
      induction bs with
      | nil => rfl
      | cons b bs ih' =>
        have h1 : queryByte b = utf8 (pctByte b) := by
          rw [utf8_pctByte]
          unfold queryByte
          rw [if_neg]
          intro h
          have := (keepByte_iff b).1 h
          have := hbs b (by simp)
          omega
        rw [List.flatMap_cons, List.flatMap_cons, utf8_append, ih' fun x hx => hbs x (by simp [hx]), h1]

theorem not_hex_37 {x : Nat} : ¬ HexDigit 37 x := by
  rw [hexDigit_iff]
  have : hexVal 37 = none := by decide
  rw [this]
  simp

theorem hexDigit_keep {b : UInt8} {x : Nat} (h : HexDigit b x) : queryByte b = [b] := by
  have hk : keepQuery (Char.ofNat b.toNat) = true := by
    rw [keepByte_iff]
    cases h with
    | digit i hi => rw [UInt8.toNat_ofNat']; simp; omega
    | upper i hi => rw [UInt8.toNat_ofNat']; simp; omega
    | lower i hi => rw [UInt8.toNat_ofNat']; simp; omega
  unfold queryByte
  rw [if_pos hk]

theorem startsHex_encode {b : Bytes} (h : StartsHex (b.flatMap queryByte)) : StartsHex b := by
  obtain ⟨p, q, rest, x, y, e, hp, hq⟩ := h
  have key : ∀ (a : UInt8) (as : Bytes) (z : UInt8) (zs : Bytes) (n : Nat), (a :: as).flatMap queryByte = z :: zs → HexDigit z n →
      a = z ∧ as.flatMap queryByte = zs := by
    intro a as z zs n e hz
    rw [List.flatMap_cons] at e
    unfold queryByte at e
    split at e
    · cases e; exact ⟨rfl, rfl⟩
    · cases e; exact absurd hz not_hex_37
  cases b with
  | nil => cases e
  | cons a as =>
    obtain ⟨rfl, e'⟩ := key _ _ _ _ _ e hp
    cases as with
    | nil => cases e'
    | cons a' as =>
      obtain ⟨rfl, _⟩ := key _ _ _ _ _ e' hq
      exact ⟨_, _, _, _, _, rfl, hp, hq⟩

theorem formBytes_query {b c : Bytes} (h : FormBytes b c) : FormBytes (b.flatMap queryByte) c := by
  induction h with
  | nil => exact .nil
  | plus _ ih =>
    rw [List.flatMap_cons, show queryByte 43 = [43] by decide +kernel]
    exact .plus ih
  | pct h1 h2 _ ih =>
    rw [List.flatMap_cons, List.flatMap_cons, List.flatMap_cons, show queryByte 37 = [37] by decide +kernel, hexDigit_keep h1,
      hexDigit_keep h2]
    exact .pct h1 h2 ih
  | bare h1 _ ih =>
    rw [List.flatMap_cons, show queryByte 37 = [37] by decide +kernel]
    exact .bare (fun h => h1 (startsHex_encode h)) ih
  | literal h1 h2 _ ih =>
    rename_i a b c _
    rw [List.flatMap_cons]
    generalize b.flatMap queryByte = eb at ih
    unfold queryByte
    split
    · exact .literal h1 h2 ih
    · have hlt := a.toNat_lt
      have := FormBytes.pct (hexDigit_iff.2 (hexVal_hexUpper (n := a.toNat / 16) (by omega)))
        (hexDigit_iff.2 (hexVal_hexUpper (n := a.toNat % 16) (by omega))) ih
      rw [show 16 * (a.toNat / 16) + a.toNat % 16 = a.toNat by omega] at this
      simpa using this

theorem queryByte_mem {x a : UInt8} (h : x ∈ queryByte a) (hx : x = 61 ∨ x = 38) : a = x := by
  unfold queryByte at h
  split at h
  · exact (List.mem_singleton.1 h).symm
  · have hlt := a.toNat_lt
    have h1 := hexUpper_lt (n := a.toNat / 16) (by omega)
    have h2 := hexUpper_lt (n := a.toNat % 16) (by omega)
    have key : ∀ c : Char, c.toNat < 128 ∧ 48 ≤ c.toNat ∧ c.toNat ≠ 61 → UInt8.ofNat c.toNat ≠ x := by
      rintro c hc rfl
      have e : ∀ n, UInt8.ofNat c.toNat = UInt8.ofNat n → n < 256 → c.toNat = n := by
        intro n e hn
        have := congrArg UInt8.toNat e
        simp only [UInt8.toNat_ofNat'] at this
        omega
      rcases hx with hx | hx
      · have := e 61 hx (by omega); omega
      · have := e 38 hx (by omega); omega
    simp only [List.mem_cons, List.not_mem_nil, or_false] at h
    rcases h with rfl | h | h
    · rcases hx with hx | hx <;> exact absurd hx (by decide)
    · exact absurd h.symm (key _ h1)
    · exact absurd h.symm (key _ h2)

theorem not_mem_query {x : UInt8} (hx : x = 61 ∨ x = 38) {b : Bytes} (h : x ∉ b) : x ∉ b.flatMap queryByte := by
  intro hm
  obtain ⟨a, ha, hxa⟩ := List.mem_flatMap.1 hm
  exact h (queryByte_mem hxa hx ▸ ha)

theorem queryByte_ne (b : UInt8) : queryByte b ≠ [] := by unfold queryByte; split <;> simp

theorem formText_query {b : Bytes} {s : Str} (h : FormText b s) : FormText (b.flatMap queryByte) s := by
  obtain ⟨c, h1, h2⟩ := h
  exact ⟨c, formBytes_query h1, h2⟩

theorem formPair_query {seg : Bytes} {p : Str × Str} (h : FormPair seg p) : FormPair (seg.flatMap queryByte) p := by
  rcases h with ⟨n, v, rfl, h1, h2, h3⟩ | ⟨h1, h2, h3⟩
  · refine .inl ⟨n.flatMap queryByte, v.flatMap queryByte, ?_, not_mem_query (.inl rfl) h1, formText_query h2, formText_query h3⟩
    rw [List.flatMap_append, List.flatMap_cons, show queryByte 61 = [61] by decide +kernel]
    rfl
  · exact .inr ⟨not_mem_query (.inl rfl) h1, formText_query h2, h3⟩

theorem joinAmp_query : ∀ segs : List Bytes, (joinAmp segs).flatMap queryByte = joinAmp (segs.map fun s => s.flatMap queryByte)
  | [] => rfl
  | [s] => rfl
  | s :: t :: rest => by
    have ih := joinAmp_query (t :: rest)
    show (s ++ 38 :: joinAmp (t :: rest)).flatMap queryByte = _
    rw [List.flatMap_append, List.flatMap_cons, ih, show queryByte 38 = [38] by decide +kernel]
    rfl

theorem filter_query (segs : List Bytes) : (segs.map fun s => s.flatMap queryByte).filter (fun s => !s.isEmpty) =
    (segs.filter fun s => !s.isEmpty).map fun s => s.flatMap queryByte := by
  rw [List.filter_map]
  congr 1
  refine List.filter_congr fun s _ => ?_
  cases s with
  | nil => rfl
  | cons a s =>
    show (!((a :: s).flatMap queryByte).isEmpty) = true
    rw [List.flatMap_cons]
    have := queryByte_ne a
    cases h : queryByte a with
    | nil => exact absurd h this
    | cons => rfl

theorem forall2_mapLeft {α β : Type} {R : α → β → Prop} {f : α → α} (hf : ∀ a b, R a b → R (f a) b) {l : List α} {m : List β}
    (h : Forall2 R l m) : Forall2 R (l.map f) m := by
  induction h with
  | nil => exact .nil
  | cons h1 _ ih => exact .cons (hf _ _ h1) ih

theorem queryIs_bytes {q : Bytes} {ps : List (Str × Str)} (h : QueryIs q ps) : QueryIs (q.flatMap queryByte) ps := by
  obtain ⟨segs, h1, rfl, h2, h3⟩ := h
  refine ⟨segs.map fun s => s.flatMap queryByte, by simpa using h1, joinAmp_query segs, ?_, ?_⟩
  · intro s hs
    obtain ⟨t, ht, rfl⟩ := List.mem_map.1 hs
    exact not_mem_query (.inr rfl) (h2 t ht)
  · rw [filter_query]
    exact forall2_mapLeft (fun a b => formPair_query) h3

theorem queryIs_encoded {s t : Str} (h : Encoded queryCodes s t) {ps : List (Str × Str)} :
    QueryIs (utf8 t) ps ↔ QueryIs (utf8 s) ps := by
  rw [encoded_iff keepQuery_iff] at h
  subst h
  rw [utf8_encode]
  refine ⟨fun h => ?_, queryIs_bytes⟩
  have h' := queryIs_bytes (queryIs_iff.2 (rfl : formParse (utf8 s) = _))
  rw [queryIs_iff] at h h' ⊢
  rw [← h, ← h']

end UrlParser
end Httpsig
