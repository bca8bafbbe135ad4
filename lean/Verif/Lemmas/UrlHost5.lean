import Verif.Lemmas.UrlHost4
import Verif.Lemmas.UrlQuery
/-
Spellings of hosts.
-/
namespace Httpsig
namespace UrlHost

theorem lower_digit {c : Char} (h : c.toNat < 128) : digit (asciiLower c) = digit c := by
  have key : ∀ n < 128, digit (asciiLower (Char.ofNat n)) = digit (Char.ofNat n) := by decide
  have := key _ h
  rwa [Char.ofNat_toNat] at this

theorem digit_ascii {c : Char} {d : Nat} (h : digit c = some d) : c.toNat < 128 := by
  have key : (∀ i < 10, (Char.ofNat (48 + i)).toNat < 128) ∧ (∀ i < 6, (Char.ofNat (65 + i)).toNat < 128) ∧
      ∀ i < 6, (Char.ofNat (97 + i)).toNat < 128 := by decide
  cases digitIs_iff.2 h with
  | digit i hi => exact key.1 _ hi
  | upper i hi => exact key.2.1 _ hi
  | lower i hi => exact key.2.2 _ hi

theorem value_lowered {r : Nat} {s : Str} (h : ∀ c ∈ s, c.toNat < 128) : value r (lowered s) = value r s := by
  induction s with
  | nil => rfl
  | cons c s ih =>
    have e : lowered (c :: s) = asciiLower c :: lowered s := by rw [lowered_eq, lowered_eq]; rfl
    have el : (lowered s).length = s.length := by rw [lowered_eq]; simp
    rw [e, value_cons, value_cons, lower_digit (h c (by simp)), ih fun c hc => h c (by simp [hc]), el]

theorem isDigit_lower {r : Nat} {c : Char} (h : isDigit r c = true) : isDigit r (asciiLower c) = true := by
  obtain ⟨d, hd, hlt⟩ := isDigit_iff.1 h
  exact isDigit_iff.2 ⟨d, by rw [lower_digit (digit_ascii hd), hd], hlt⟩

theorem Numeral.lowered {r : Nat} {s : Str} {n : Nat} (h : Numeral r s n) : Numeral r (lowered s) n := by
  obtain ⟨h1, h2, h3⟩ := numeral_iff.1 h
  refine numeral_iff.2 ⟨?_, ?_, ?_⟩
  · rw [lowered_eq]; simpa using h1
  · rw [lowered_eq]
    intro c hc
    obtain ⟨d, hd, rfl⟩ := List.mem_map.1 hc
    exact isDigit_lower (h2 d hd)
  · rw [value_lowered fun c hc => ?_, h3]
    obtain ⟨d, hd, _⟩ := isDigit_iff.1 (h2 c hc)
    exact digit_ascii hd

theorem Ipv4Part.lowered {s : Str} {n : Nat} (h : Ipv4Part s n) : Ipv4Part (lowered s) n := by
  have e : ∀ (c : Char) (t : Str), Httpsig.lowered (c :: t) = asciiLower c :: Httpsig.lowered t := fun c t => by
    rw [lowered_eq, lowered_eq]; rfl
  have hx : ∀ {x : Char}, x ∈ ['x', 'X'] → asciiLower x ∈ ['x', 'X'] := fun {x} h => by
    simp only [List.mem_cons, List.not_mem_nil, or_false] at h
    rcases h with rfl | rfl <;> decide
  cases h with
  | decimal h h0 =>
    refine .decimal h.lowered fun hd => ?_
    cases s with
    | nil => cases hd
    | cons c s =>
      rw [e] at hd
      have := ((UrlParser.asciiLower_eq (d := '0') (by decide)).1 (Option.some.inj hd)).1
      subst this
      rw [lowered_eq, List.length_map]
      exact h0 rfl
  | octal h => rw [e]; exact .octal h.lowered
  | hex h1 h2 => rw [e, e]; exact .hex (hx h1) h2.lowered
  | hexNothing h => rw [e, e]; exact .hexNothing (hx h)

theorem lowered_append (a b : Str) : lowered (a ++ b) = lowered a ++ lowered b := by simp [lowered_eq]

theorem lowered_join (ps : List Str) : lowered (joinWith (str% ".") ps) = joinWith (str% ".") (ps.map lowered) := by
  induction ps with
  | nil => rfl
  | cons p ps ih =>
    cases ps with
    | nil => rfl
    | cons q qs =>
      simp only [joinWith, List.map_cons] at ih ⊢
      rw [lowered_append, lowered_append, ih]
      rfl

theorem Ipv4Is.lowered {s : Str} {n : Nat} (h : Ipv4Is s n) : Ipv4Is (lowered s) n := by
  obtain ⟨parts, bytes, last, ⟨hne, hs⟩, hp, h1, h2, h3, h4⟩ := h
  refine ⟨parts.map Httpsig.lowered, bytes, last, ⟨by simpa using hne, ?_⟩, ?_, h1, h2, h3, h4⟩
  · rcases hs with rfl | rfl
    · exact .inl (lowered_join parts)
    · right; rw [lowered_append, lowered_join]; rfl
  · generalize bytes ++ [last] = l at hp
    clear hs hne h3 h4
    induction hp with
    | nil => exact .nil
    | cons h _ ih => exact .cons h.lowered ih

theorem mem_join {ps : List Str} {c : Char} (h : c ∈ joinWith (str% ".") ps) : c = '.' ∨ ∃ p ∈ ps, c ∈ p := by
  induction ps with
  | nil => cases h
  | cons p ps ih =>
    cases ps with
    | nil => exact .inr ⟨p, by simp, h⟩
    | cons q qs =>
      have e : joinWith (str% ".") (p :: q :: qs) = p ++ '.' :: joinWith (str% ".") (q :: qs) := by simp [joinWith]
      rw [e] at h
      rcases List.mem_append.1 h with h | h
      · exact .inr ⟨p, by simp, h⟩
      · rcases List.mem_cons.1 h with h | h
        · exact .inl h
        · rcases ih h with h | ⟨r, hr, h⟩
          · exact .inl h
          · exact .inr ⟨r, List.mem_cons_of_mem _ hr, h⟩

theorem Ipv4Part.chars {s : Str} {n : Nat} (h : Ipv4Part s n) : ∀ c ∈ s, c ∈ str% "0123456789abcdefABCDEFxX." := by
  have hd : ∀ {r t m}, Numeral r t m → ∀ c ∈ t, c ∈ str% "0123456789abcdefABCDEFxX." := fun h c hc => by
    obtain ⟨d, hd, _⟩ := isDigit_iff.1 ((numeral_iff.1 h).2.1 c hc)
    have key : (∀ i < 10, Char.ofNat (48 + i) ∈ str% "0123456789abcdefABCDEFxX.") ∧
        (∀ i < 6, Char.ofNat (65 + i) ∈ str% "0123456789abcdefABCDEFxX.") ∧
        ∀ i < 6, Char.ofNat (97 + i) ∈ str% "0123456789abcdefABCDEFxX." := by decide
    cases digitIs_iff.2 hd with
    | digit i hi => exact key.1 _ hi
    | upper i hi => exact key.2.1 _ hi
    | lower i hi => exact key.2.2 _ hi
  have hx : ∀ {x : Char}, x ∈ ['x', 'X'] → x ∈ str% "0123456789abcdefABCDEFxX." := fun {x} h => by
    simp only [List.mem_cons, List.not_mem_nil, or_false] at h
    rcases h with rfl | rfl <;> decide
  intro c hc
  cases h with
  | decimal h h0 => exact hd h c hc
  | octal h =>
    rcases List.mem_cons.1 hc with rfl | hc
    · decide
    · exact hd h c hc
  | hex h1 h2 =>
    rcases List.mem_cons.1 hc with rfl | hc
    · decide
    · rcases List.mem_cons.1 hc with rfl | hc
      · exact hx h1
      · exact hd h2 c hc
  | hexNothing h =>
    simp only [List.mem_cons, List.not_mem_nil, or_false] at hc
    rcases hc with rfl | rfl
    · decide
    · exact hx h

theorem Ipv4Is.chars {s : Str} {n : Nat} (h : Ipv4Is s n) : ∀ c ∈ s, c ∈ str% "0123456789abcdefABCDEFxX." := by
  obtain ⟨parts, bytes, last, ⟨_, hs⟩, hp, _⟩ := h
  have key : ∀ c ∈ joinWith (str% ".") parts, c ∈ str% "0123456789abcdefABCDEFxX." := fun c hc => by
    rcases mem_join hc with rfl | ⟨p, hm, hc⟩
    · decide
    · obtain ⟨m, _, h⟩ := forall2_left' hp p hm
      exact h.chars c hc
  intro c hc
  rcases hs with rfl | rfl
  · exact key c hc
  · rcases List.mem_append.1 hc with hc | hc
    · exact key c hc
    · simp only [List.mem_singleton] at hc; subst hc; decide

theorem Ipv4Part.like {s : Str} {n : Nat} (h : Ipv4Part s n) : NumberLike s := by
  have hd : ∀ {r t m}, r ≤ 10 → Numeral r t m → ∀ c ∈ t, ∃ d, DigitIs c d ∧ d < 10 := fun hr h c hc => by
    obtain ⟨d, hd, hlt⟩ := isDigit_iff.1 ((numeral_iff.1 h).2.1 c hc)
    exact ⟨d, digitIs_iff.2 hd, by omega⟩
  cases h with
  | decimal h h0 => exact .inl ⟨(numeral_iff.1 h).1, hd (by decide) h⟩
  | octal h =>
    refine .inl ⟨by simp, fun c hc => ?_⟩
    rcases List.mem_cons.1 hc with rfl | hc
    · exact ⟨0, .digit 0 (by decide), by decide⟩
    · exact hd (by decide) h c hc
  | hex h1 h2 =>
    refine .inr ⟨_, _, rfl, h1, fun c hc => ?_⟩
    obtain ⟨d, hd, _⟩ := isDigit_iff.1 ((numeral_iff.1 h2).2.1 c hc)
    exact ⟨d, digitIs_iff.2 hd⟩
  | hexNothing h => exact .inr ⟨_, [], rfl, h, by simp⟩

theorem join_snoc (ps : List Str) (l : Str) : ∃ pre, joinWith (str% ".") (ps ++ [l]) = pre ++ l ∧ (pre = [] ∨ ∃ p, pre = p ++ str% ".") := by
  induction ps with
  | nil => exact ⟨[], rfl, .inl rfl⟩
  | cons p ps ih =>
    obtain ⟨pre, e, hp⟩ := ih
    refine ⟨p ++ '.' :: pre, ?_, .inr ?_⟩
    · cases ps with
      | nil => simp [joinWith] at e ⊢; exact e
      | cons q qs => simp only [List.cons_append, joinWith] at e ⊢; rw [e]; simp
    · rcases hp with rfl | ⟨p', rfl⟩
      · exact ⟨p, rfl⟩
      · exact ⟨p ++ '.' :: p', by simp⟩

theorem Ipv4Is.numberLast {s : Str} {n : Nat} (h : Ipv4Is s n) : NumberLast s := by
  obtain ⟨parts, bytes, last, ⟨hne, hs⟩, hp, _⟩ := h
  obtain ⟨ps, l, rfl⟩ : ∃ ps l, parts = ps ++ [l] := by
    rcases List.eq_nil_or_concat parts with h | ⟨w, c, h⟩
    · exact absurd h hne
    · exact ⟨w, c, by rw [h, List.concat_eq_append]⟩
  obtain ⟨m, _, hl⟩ := forall2_left' hp l (by simp)
  obtain ⟨pre, e, hpre⟩ := join_snoc ps l
  rcases hs with rfl | rfl
  · exact ⟨pre, l, [], by rw [e]; simp, hpre, .inl rfl, hl.like⟩
  · exact ⟨pre, l, str% ".", by rw [e], hpre, .inr rfl, hl.like⟩

theorem numeric_char : ∀ c ∈ str% "0123456789abcdefABCDEFxX.", c.toNat < 128 ∧ 32 < c.toNat ∧ c ∉ forbiddenChars ∧
    32 < (asciiLower c).toNat ∧ (asciiLower c).toNat < 127 ∧ asciiLower c ∉ forbiddenChars ∧ asciiLower c ≠ 'n' := by decide

theorem Ipv4Is.own {s : Str} {n : Nat} (h : Ipv4Is s n) : OwnAscii s := by
  refine ⟨fun c hc => (numeric_char c (h.chars c hc)).1, fun pre x t e _ hx => ?_⟩
  match x, hx with
  | [], hx => exact absurd hx (by decide)
  | [a], hx => rw [lowered_eq] at hx; exact absurd (congrArg List.length hx) (by simp)
  | a :: b :: x, hx =>
    have := (numeric_char b (h.chars b (by rw [e]; simp))).2.2.2.2.2.2
    rw [lowered_eq] at hx
    exact this (List.cons.inj (List.cons.inj hx).2).1

theorem Ipv4Is.ne_nil {s : Str} {n : Nat} (h : Ipv4Is s n) : s ≠ [] := by
  obtain ⟨pre, l, dot, e, _, _, hl⟩ := h.numberLast
  rintro rfl
  have : l = [] := by
    have := e.symm
    simp at this
    exact this.2.1
  subst this
  rcases hl with ⟨h, _⟩ | ⟨_, _, h, _⟩
  · exact h rfl
  · cases h

theorem plain_domain {idna : Str → Option { t : Str // ∀ c ∈ t, c.toNat < 128 }} {s : Str} (hs : s ≠ []) (ho : OwnAscii s)
    (hc : ∀ c ∈ s, 32 < c.toNat ∧ c.toNat ≠ 127 ∧ c ∉ forbiddenChars) : DomainIs idna s (lowered s) := by
  refine ⟨fun h => ?_, ⟨s, pctText_plain fun hm => (hc _ hm).2.2 (by decide), .inl ⟨ho, rfl⟩⟩, by rw [lowered_eq]; simpa using hs, fun c hm => ?_⟩
  · cases s with
    | nil => cases h
    | cons c s => obtain rfl := Option.some.inj h; exact (hc '[' (by simp)).2.2 (by decide)
  · rw [lowered_eq] at hm
    obtain ⟨d, hd, rfl⟩ := List.mem_map.1 hm
    have key : ∀ n < 128, 32 < n ∧ n ≠ 127 ∧ Char.ofNat n ∉ forbiddenChars → 32 < (asciiLower (Char.ofNat n)).toNat ∧
        (asciiLower (Char.ofNat n)).toNat ≠ 127 ∧ asciiLower (Char.ofNat n) ∉ forbiddenChars := by decide
    have := key _ (ho.1 d hd)
    rw [Char.ofNat_toNat] at this
    exact this (hc d hd)

theorem numberLast_lowered {s : Str} (ho : ∀ c ∈ s, c.toNat < 128) (h : NumberLast (lowered s)) : NumberLast s := by
  obtain ⟨pre, l, dot, e, hp, hd, hl⟩ := h
  rw [lowered_eq] at e
  obtain ⟨y, dot', hs, hy, rfl⟩ := List.map_eq_append_iff.1 e
  obtain ⟨pre', l', rfl, rfl, rfl⟩ := List.map_eq_append_iff.1 hy
  have dotOf : ∀ {c : Char}, asciiLower c = '.' → c = '.' := fun h => ((UrlParser.asciiLower_eq (d := '.') (by decide)).1 h).1
  have zeroOf : ∀ {c : Char}, asciiLower c = '0' → c = '0' := fun h => ((UrlParser.asciiLower_eq (d := '0') (by decide)).1 h).1
  have back : ∀ c ∈ l', ∀ d, DigitIs (asciiLower c) d → DigitIs c d := fun c hc d h => by
    rw [digitIs_iff, lower_digit (ho c (by rw [hs]; simp [hc]))] at h
    exact digitIs_iff.2 h
  refine ⟨pre', l', dot', hs, ?_, ?_, ?_⟩
  · rcases hp with hp | ⟨p, hp⟩
    · left; simpa using hp
    · right
      obtain ⟨p', d, rfl, _, hd⟩ := List.map_eq_append_iff.1 hp
      obtain ⟨d', rfl, hd'⟩ := List.map_eq_singleton_iff.1 hd
      exact ⟨p', by rw [dotOf hd']⟩
  · rcases hd with hd | hd
    · left; simpa using hd
    · right
      obtain ⟨d', rfl, hd'⟩ := List.map_eq_singleton_iff.1 hd
      rw [dotOf hd']
  · rcases hl with ⟨h1, h2⟩ | ⟨x, t, h1, h2, h3⟩
    · refine .inl ⟨by simpa using h1, fun c hc => ?_⟩
      obtain ⟨d, hd, hlt⟩ := h2 _ (List.mem_map_of_mem hc)
      exact ⟨d, back c hc d hd, hlt⟩
    · right
      match l', h1 with
      | [], h1 => cases h1
      | [a], h1 => simp at h1
      | a :: b :: t', h1 =>
        simp only [List.map_cons, List.cons.injEq] at h1
        obtain ⟨ha, hb, rfl⟩ := h1
        refine ⟨b, t', by rw [zeroOf ha], ?_, fun c hc => ?_⟩
        · have key : ∀ n < 128, asciiLower (Char.ofNat n) ∈ ['x', 'X'] → Char.ofNat n ∈ ['x', 'X'] := by decide
          have := key b.toNat (ho b (by rw [hs]; simp))
          rw [Char.ofNat_toNat, hb] at this
          exact this h2
        · obtain ⟨d, hd⟩ := h3 _ (List.mem_map_of_mem hc)
          exact ⟨d, back c (by simp [hc]) d hd⟩

/-! ### Percent-encoding -/

theorem no_pct {s : Str} (h : '%' ∉ s) : 37 ∉ utf8 s := by
  intro hm
  unfold utf8 at hm
  have : ∃ c ∈ s, (37 : UInt8) ∈ String.utf8EncodeChar c := by simpa using hm
  obtain ⟨c, hc, hb⟩ := this
  have := utf8EncodeChar_small hb (by decide)
  have : c = '%' := Char.toNat_inj.1 this.symm
  exact h (this ▸ hc)

theorem percentDecode_append {a : Bytes} (h : 37 ∉ a) (b : Bytes) : percentDecode (a ++ b) = a ++ percentDecode b := by
  induction a with
  | nil => rfl
  | cons x a ih =>
    simp only [List.mem_cons, not_or] at h
    rw [List.cons_append, percentDecode_literal fun e => h.1 e.symm, ih h.2, List.cons_append]

theorem digitIs_hex {c : Char} {d : Nat} (h : DigitIs c d) : ∃ b, String.utf8EncodeChar c = [b] ∧ HexDigit b d := by
  have key : (∀ i < 10, String.utf8EncodeChar (Char.ofNat (48 + i)) = [UInt8.ofNat (48 + i)]) ∧
      (∀ i < 6, String.utf8EncodeChar (Char.ofNat (65 + i)) = [UInt8.ofNat (65 + i)]) ∧
      ∀ i < 6, String.utf8EncodeChar (Char.ofNat (97 + i)) = [UInt8.ofNat (97 + i)] := by decide
  cases h with
  | digit i hi => exact ⟨_, key.1 _ hi, .digit _ hi⟩
  | upper i hi => exact ⟨_, key.2.1 _ hi, .upper _ hi⟩
  | lower i hi => exact ⟨_, key.2.2 _ hi, .lower _ hi⟩

theorem percentDecode_triplets {e : Str} {b : Bytes} (h : Triplets e b) (c : Bytes) : percentDecode (utf8 e ++ c) = b ++ percentDecode c := by
  induction h with
  | nil => rfl
  | cons hh hl _ ih =>
    obtain ⟨x, ex, hx⟩ := digitIs_hex hh
    obtain ⟨y, ey, hy⟩ := digitIs_hex hl
    rw [UrlParser.utf8_cons, UrlParser.utf8_cons, UrlParser.utf8_cons, ex, ey, show String.utf8EncodeChar '%' = [37] by decide]
    simp only [List.cons_append, List.nil_append]
    rw [percentDecode_hex (hexDigit_iff.1 hx) (hexDigit_iff.1 hy), ih, Nat.mul_comm]

theorem pctText_triplets {a x e b t : Str} (ha : '%' ∉ a ++ x) (he : Triplets e (utf8 x)) : PctText (a ++ x ++ b) t ↔ PctText (a ++ e ++ b) t := by
  rw [List.mem_append, not_or] at ha
  rw [pctText_iff, pctText_iff, utf8_append, utf8_append, utf8_append, utf8_append, List.append_assoc, List.append_assoc,
    percentDecode_append (no_pct ha.1), percentDecode_append (no_pct ha.1), percentDecode_append (no_pct ha.2), percentDecode_triplets he]

end UrlHost
end Httpsig
