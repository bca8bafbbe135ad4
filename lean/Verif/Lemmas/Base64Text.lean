import Verif.Spec.Grammar
import Verif.Props.Algo
/- The lenient base 64 decoder of structured fields accepts exactly the texts of `Grammar.Base64Text`. -/
namespace Httpsig.Grammar
open Base64

theorem val_alphabet {c : Char} {n : Nat} (h : val c = some n) :
    c ∈ base64Alphabet ∧ base64Alphabet.idxOf c = n ∧ n < 64 := by
  obtain ⟨rfl, hn⟩ := sym_val h
  exact ⟨(sym_spec hn).1, (sym_spec hn).2, hn⟩

theorem val_of_alphabet {c : Char} (h : c ∈ base64Alphabet) : ∃ n, val c = some n := by
  have : ∀ c ∈ base64Alphabet, (val c).isSome = true := by decide
  exact Option.isSome_iff_exists.1 (this c h)

theorem alphabet_ne_pad {c : Char} (h : c ∈ base64Alphabet) : c ≠ '=' := by
  rintro rfl; revert h; decide

theorem bits_length (w n : Nat) : (bits w n).length = w := by
  induction w with
  | zero => rfl
  | succ w ih => simp [bits, ih]

theorem bits_two {x y : Nat} (_hx : x < 64) (_hy : y < 64) :
    bits 6 x ++ bits 6 y = bits 8 (x * 4 + y / 16) ++ bits 4 (y % 16) := by
  simp only [bits, List.cons_append, List.nil_append, List.cons.injEq, and_true]
  refine ⟨?_, ?_, ?_, ?_, ?_, ?_, ?_, ?_, ?_, ?_, ?_, ?_⟩ <;> omega

theorem bits_three' {x y z : Nat} (_hx : x < 64) (_hy : y < 64) (_hz : z < 64) :
    bits 6 x ++ (bits 6 y ++ bits 6 z) = bits 8 (x * 4 + y / 16) ++ (bits 8 (y % 16 * 16 + z / 4) ++ bits 2 (z % 4)) := by
  simp only [bits, List.cons_append, List.nil_append, List.cons.injEq, and_true]
  refine ⟨?_, ?_, ?_, ?_, ?_, ?_, ?_, ?_, ?_, ?_, ?_, ?_, ?_, ?_, ?_, ?_, ?_, ?_⟩ <;> omega

theorem bits_four {x y z w : Nat} (_hx : x < 64) (_hy : y < 64) (_hz : z < 64) (_hw : w < 64) :
    bits 6 x ++ (bits 6 y ++ (bits 6 z ++ bits 6 w)) =
      bits 8 (x * 4 + y / 16) ++ (bits 8 (y % 16 * 16 + z / 4) ++ bits 8 (z % 4 * 64 + w)) := by
  simp only [bits, List.cons_append, List.nil_append, List.cons.injEq, and_true]
  refine ⟨?_, ?_, ?_, ?_, ?_, ?_, ?_, ?_, ?_, ?_, ?_, ?_, ?_, ?_, ?_, ?_, ?_, ?_, ?_, ?_, ?_, ?_, ?_, ?_⟩ <;> omega

theorem toNat_ofNat' {n : Nat} (h : n < 256) : (UInt8.ofNat n).toNat = n := by
  simp only [UInt8.toNat_ofNat', Nat.reducePow]; omega

/-- Two symbols with any admissible padding. -/
theorem base64Text_two {a b : Char} {x y : Nat} (ha : val a = some x) (hb : val b = some y) {pad : Nat} (hp : pad ≤ 2) :
    Base64Text (a :: b :: List.replicate pad '=') [UInt8.ofNat (x * 4 + y / 16)] := by
  obtain ⟨a1, a2, a3⟩ := val_alphabet ha
  obtain ⟨b1, b2, b3⟩ := val_alphabet hb
  refine ⟨[a, b], pad, bits 4 (y % 16), rfl, by simpa using hp, by simp [a1, b1], ?_, by rw [bits_length]; omega⟩
  simp only [List.flatMap_cons, List.flatMap_nil, List.append_nil, a2, b2, toNat_ofNat' (show x * 4 + y / 16 < 256 by omega)]
  exact bits_two a3 b3

/-- Three symbols with any admissible padding. -/
theorem base64Text_three {a b c : Char} {x y z : Nat} (ha : val a = some x) (hb : val b = some y) (hc : val c = some z)
    {pad : Nat} (hp : pad ≤ 1) :
    Base64Text (a :: b :: c :: List.replicate pad '=')
      [UInt8.ofNat (x * 4 + y / 16), UInt8.ofNat (y % 16 * 16 + z / 4)] := by
  obtain ⟨a1, a2, a3⟩ := val_alphabet ha
  obtain ⟨b1, b2, b3⟩ := val_alphabet hb
  obtain ⟨c1, c2, c3⟩ := val_alphabet hc
  refine ⟨[a, b, c], pad, bits 2 (z % 4), rfl, by simpa using hp, by simp [a1, b1, c1], ?_, by rw [bits_length]; omega⟩
  simp only [List.flatMap_cons, List.flatMap_nil, List.append_nil, a2, b2, c2,
    toNat_ofNat' (show x * 4 + y / 16 < 256 by omega), toNat_ofNat' (show y % 16 * 16 + z / 4 < 256 by omega), List.append_assoc]
  exact bits_three' a3 b3 c3

/-- Four symbols in front. -/
theorem base64Text_four {a b c d : Char} {x y z w : Nat} (ha : val a = some x) (hb : val b = some y) (hc : val c = some z)
    (hd : val d = some w) {t : Str} {bs : Bytes} (ht : Base64Text t bs) :
    Base64Text (a :: b :: c :: d :: t)
      (UInt8.ofNat (x * 4 + y / 16) :: UInt8.ofNat (y % 16 * 16 + z / 4) :: UInt8.ofNat (z % 4 * 64 + w) :: bs) := by
  obtain ⟨a1, a2, a3⟩ := val_alphabet ha
  obtain ⟨b1, b2, b3⟩ := val_alphabet hb
  obtain ⟨c1, c2, c3⟩ := val_alphabet hc
  obtain ⟨d1, d2, d3⟩ := val_alphabet hd
  obtain ⟨syms, pad, extra, rfl, h2, h3, h4, h5⟩ := ht
  refine ⟨a :: b :: c :: d :: syms, pad, extra, rfl, ?_, ?_, ?_, h5⟩
  · simp only [List.length_cons]; omega
  · intro e he
    simp only [List.mem_cons] at he
    rcases he with rfl | rfl | rfl | rfl | he
    · exact a1
    · exact b1
    · exact c1
    · exact d1
    · exact h3 e he
  · simp only [List.flatMap_cons, a2, b2, c2, d2, toNat_ofNat' (show x * 4 + y / 16 < 256 by omega),
      toNat_ofNat' (show y % 16 * 16 + z / 4 < 256 by omega), toNat_ofNat' (show z % 4 * 64 + w < 256 by omega)]
    rw [h4]
    have := congrArg (· ++ (bs.flatMap (fun x => bits 8 x.toNat) ++ extra)) (bits_four a3 b3 c3 d3)
    simpa only [List.append_assoc] using this

theorem base64Text_of_decode : ∀ (t : Str) (bs : Bytes), decode false t = some bs → Base64Text t bs
  | [], bs, h => by cases h; exact ⟨[], 0, [], rfl, by simp, by simp, rfl, by simp⟩
  | [_], bs, h => by cases h
  | [a, b], bs, h => by
    simp only [decode, Bool.false_eq_true, if_false, Option.bind_eq_bind, Option.bind_eq_some_iff] at h
    obtain ⟨x, ha, y, hb, h⟩ := h
    cases h
    exact base64Text_two ha hb (pad := 0) (by omega)
  | [a, b, c], bs, h => by
    simp only [decode, Bool.false_eq_true, if_false] at h
    split at h
    · rename_i hc
      simp only [Option.bind_eq_bind, Option.bind_eq_some_iff] at h
      obtain ⟨x, ha, y, hb, h⟩ := h
      cases h; subst hc
      exact base64Text_two ha hb (pad := 1) (by omega)
    · simp only [Option.bind_eq_bind, Option.bind_eq_some_iff] at h
      obtain ⟨x, ha, y, hb, z, hc, h⟩ := h
      cases h
      exact base64Text_three ha hb hc (pad := 0) (by omega)
  | a :: b :: c :: d :: rest, bs, h => by
    rw [decode] at h
    split at h
    · rename_i hrest
      obtain ⟨rfl, rfl⟩ := hrest
      split at h
      · rename_i hc
        simp only [Option.bind_eq_bind, Option.bind_eq_some_iff, Bool.false_and, Bool.false_eq_true, if_false] at h
        obtain ⟨x, ha, y, hb, h⟩ := h
        cases h; subst hc
        exact base64Text_two ha hb (pad := 2) (by omega)
      · simp only [Option.bind_eq_bind, Option.bind_eq_some_iff, Bool.false_and, Bool.false_eq_true, if_false] at h
        obtain ⟨x, ha, y, hb, z, hc, h⟩ := h
        cases h
        exact base64Text_three ha hb hc (pad := 1) (by omega)
    · simp only [Option.bind_eq_bind, Option.bind_eq_some_iff] at h
      obtain ⟨x, ha, y, hb, z, hc, w, hd, tl, ht, h⟩ := h
      cases h
      exact base64Text_four ha hb hc hd (base64Text_of_decode rest tl ht)

theorem decode_of_syms : ∀ (syms : Str) (pad : Nat), (∀ c ∈ syms, c ∈ base64Alphabet) → syms.length % 4 ≠ 1 →
    pad ≤ (4 - syms.length % 4) % 4 → ∃ b, decode false (syms ++ List.replicate pad '=') = some b
  | [], pad, _, _, hp => by
    obtain rfl : pad = 0 := by simpa using hp
    exact ⟨[], rfl⟩
  | [_], pad, _, h1, _ => by simp at h1
  | [a, b], pad, hs, _, hp => by
    obtain ⟨x, ha⟩ := val_of_alphabet (hs a (by simp))
    obtain ⟨y, hb⟩ := val_of_alphabet (hs b (by simp))
    have : pad = 0 ∨ pad = 1 ∨ pad = 2 := by simp at hp; omega
    rcases this with rfl | rfl | rfl <;> simp [decode, ha, hb, List.replicate]
  | [a, b, c], pad, hs, _, hp => by
    obtain ⟨x, ha⟩ := val_of_alphabet (hs a (by simp))
    obtain ⟨y, hb⟩ := val_of_alphabet (hs b (by simp))
    obtain ⟨z, hc⟩ := val_of_alphabet (hs c (by simp))
    have hne := alphabet_ne_pad (hs c (by simp))
    have : pad = 0 ∨ pad = 1 := by simp at hp; omega
    rcases this with rfl | rfl <;> simp [decode, ha, hb, hc, hne, List.replicate]
  | a :: b :: c :: d :: rest, pad, hs, h1, hp => by
    obtain ⟨x, ha⟩ := val_of_alphabet (hs a (by simp))
    obtain ⟨y, hb⟩ := val_of_alphabet (hs b (by simp))
    obtain ⟨z, hc⟩ := val_of_alphabet (hs c (by simp))
    obtain ⟨w, hd⟩ := val_of_alphabet (hs d (by simp))
    have hne := alphabet_ne_pad (hs d (by simp))
    simp only [List.length_cons] at h1 hp
    obtain ⟨tl, ht⟩ := decode_of_syms rest pad (fun e he => hs e (by simp [he])) (by omega) (by omega)
    rw [List.cons_append, List.cons_append, List.cons_append, List.cons_append, decode, if_neg (fun h => hne h.2),
      ha, hb, hc, hd, ht]
    exact ⟨_, rfl⟩

theorem flatMap_bits_length {α : Type} (w : Nat) (f : α → Nat) (l : List α) :
    (l.flatMap fun x => bits w (f x)).length = w * l.length := by
  induction l with
  | nil => simp
  | cons a l ih => simp only [List.flatMap_cons, List.length_append, bits_length, ih, List.length_cons, Nat.mul_add]; omega

theorem bits_inj {w a b : Nat} (ha : a < 2 ^ w) (hb : b < 2 ^ w) (h : bits w a = bits w b) : a = b := by
  have key : ∀ w a b, bits w a = bits w b → a % 2 ^ w = b % 2 ^ w := by
    intro w
    induction w with
    | zero => intro a b _; simp [Nat.mod_one]
    | succ w ih =>
      intro a b h
      simp only [bits, List.cons.injEq] at h
      have := ih a b h.2
      rw [Nat.pow_succ, Nat.mod_mul, Nat.mod_mul, this, h.1]
  have := key w a b h
  rwa [Nat.mod_eq_of_lt ha, Nat.mod_eq_of_lt hb] at this

theorem flatMap_bits_inj : ∀ {a b : Bytes}, a.length = b.length →
    (a.flatMap fun x => bits 8 x.toNat) = (b.flatMap fun x => bits 8 x.toNat) → a = b
  | [], [], _, _ => rfl
  | [], _ :: _, h, _ => by simp at h
  | _ :: _, [], h, _ => by simp at h
  | x :: a, y :: b, hl, h => by
    simp only [List.flatMap_cons] at h
    obtain ⟨h1, h2⟩ := List.append_inj h (by rw [bits_length, bits_length])
    have := UInt8.toNat_inj.1 (bits_inj x.toNat_lt y.toNat_lt h1)
    rw [this, flatMap_bits_inj (by simpa using hl) h2]

theorem syms_of_text {syms : Str} {pad : Nat} (h : ∀ c ∈ syms, c ∈ base64Alphabet) :
    (syms ++ List.replicate pad '=').takeWhile (· != '=') = syms := by
  apply takeWhile_append_stop
  · rw [List.all_eq_true]
    intro c hc
    simpa using alphabet_ne_pad (h c hc)
  · intro c hc
    cases pad with
    | zero => cases hc
    | succ n => simp [List.replicate] at hc; subst hc; rfl

/-- A text has at most one meaning. -/
theorem Base64Text.unique {t : Str} {a b : Bytes} (ha : Base64Text t a) (hb : Base64Text t b) : a = b := by
  obtain ⟨s1, p1, e1, rfl, _, h3, h4, h5⟩ := ha
  obtain ⟨s2, p2, e2, k1, _, k3, k4, k5⟩ := hb
  have hs : s1 = s2 := by
    have := congrArg (List.takeWhile (· != '=')) k1
    rwa [syms_of_text h3, syms_of_text k3] at this
  subst hs
  rw [h4] at k4
  have hl := congrArg List.length k4
  simp only [List.length_append, flatMap_bits_length] at hl
  have hlen : a.length = b.length := by omega
  obtain ⟨h6, _⟩ := List.append_inj k4 (by rw [flatMap_bits_length, flatMap_bits_length, hlen])
  exact flatMap_bits_inj hlen h6

theorem lenientDecode_iff (t : Str) (b : Bytes) : lenientDecode t = some b ↔ Base64Text t b := by
  constructor
  · exact base64Text_of_decode t b
  · intro h
    obtain ⟨syms, pad, extra, rfl, h2, h3, h4, h5⟩ := id h
    have hl := congrArg List.length h4
    simp only [List.length_append, flatMap_bits_length] at hl
    obtain ⟨b', hb'⟩ := decode_of_syms syms pad h3 (by omega) h2
    rw [lenientDecode, hb', Base64Text.unique h (base64Text_of_decode _ _ hb')]

end Httpsig.Grammar
