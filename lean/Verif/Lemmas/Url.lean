import Verif.Spec.Url
import Verif.Lemmas.Strings
import Verif.Lemmas.SfvBare
/-
`readUrl` inverts the printing of URLs.
-/
namespace Httpsig
open Sfv

theorem cut_some {c : Char} {a b : Str} (h : c ∉ a) : cut c (a ++ c :: b) = (a, some b) := by
  unfold cut
  rw [splitOnce_eq_some.2 ⟨rfl, h⟩]

theorem cut_none {c : Char} {a : Str} (h : c ∉ a) : cut c a = (a, none) := by
  unfold cut
  rw [splitOnce_eq_none.2 h]

theorem cut_option {c : Char} {a : Str} {o : Option Str} (h : c ∉ a) :
    cut c (a ++ markedText c o) = (a, o) := by
  cases o with
  | none => simpa [markedText] using cut_none h
  | some q => exact cut_some h

theorem all_not {p : Char → Bool} {s : Str} {c : Char} (h : s.all p = true) (hc : p c = false) : c ∉ s := fun hm => by
  rw [List.all_eq_true] at h
  rw [h c hm] at hc
  cases hc

namespace UrlParts

theorem graphic_of {c : Char} (h1 : 33 ≤ c.toNat) (h2 : c.toNat ≤ 126) : graphic c = true := by
  unfold graphic
  rw [Bool.and_eq_true]
  exact ⟨decide_eq_true h1, decide_eq_true h2⟩

/-- What `hostOk` allows. -/
theorem hostOk_cases {h : Str} (hh : hostOk h = true) :
    ((∀ c ∈ h, authorityChar c = true ∧ c ≠ ':' ∧ c ≠ '[' ∧ c ≠ ']')) ∨
    ∃ m, h = '[' :: m ++ [']'] ∧ ∀ c ∈ m, graphic c = true ∧ c ≠ '/' ∧ c ≠ '?' ∧ c ≠ '#' ∧ c ≠ '@' ∧ c ≠ '[' ∧ c ≠ ']' ∧ c ≠ '\\' := by
  unfold hostOk at hh
  rw [Bool.or_eq_true] at hh
  rcases hh with hh | hh
  · left
    intro c hc
    have := List.all_eq_true.1 hh c hc
    simp only [Bool.and_eq_true, bne_iff_ne, ne_eq] at this
    exact ⟨this.1.1.1, this.1.1.2, this.1.2, this.2⟩
  · right
    split at hh
    · rename_i r
      simp only [Bool.and_eq_true, beq_iff_eq] at hh
      obtain ⟨hl, ha⟩ := hh
      have hne : r ≠ [] := by rintro rfl; simp at hl
      refine ⟨r.dropLast, ?_, ?_⟩
      · rw [List.cons_append]
        congr 1
        have h1 := List.dropLast_concat_getLast hne
        have h2 : r.getLast hne = ']' := by
          rw [List.getLast?_eq_some_getLast hne] at hl
          exact Option.some.inj hl
        rw [h2] at h1
        exact h1.symm
      · intro c hc
        have := List.all_eq_true.1 ha c hc
        simp only [Bool.or_eq_true, Bool.and_eq_true, beq_iff_eq, decide_eq_true_eq] at this
        have hg : c.toNat = c.val.toNat := rfl
        rcases this with ((hd | ⟨hd, _⟩) | rfl) | rfl
        · simp only [Char.isDigit, Bool.and_eq_true, decide_eq_true_eq, UInt32.le_iff_toNat_le] at hd
          have e1 : '0'.val.toNat = 48 := rfl
          have e2 : '9'.val.toNat = 57 := rfl
          refine ⟨graphic_of (by omega) (by omega), ?_, ?_, ?_, ?_, ?_, ?_, ?_⟩ <;> (rintro rfl; revert hd; decide)
        · simp only [Char.isLower, Bool.and_eq_true, decide_eq_true_eq, UInt32.le_iff_toNat_le, ge_iff_le] at hd
          have e1 : 'a'.val.toNat = 97 := rfl
          have e2 : 'z'.val.toNat = 122 := rfl
          refine ⟨graphic_of (by omega) (by omega), ?_, ?_, ?_, ?_, ?_, ?_, ?_⟩ <;> (rintro rfl; revert hd; decide)
        · decide
        · decide
    · cases hh

theorem digit_ne {c d : Char} (h : c.isDigit = true) (hd : d.isDigit = false) : c ≠ d := by
  rintro rfl
  rw [h] at hd
  cases hd

theorem port_chars {p : Option Nat} {c : Char} (h : c ∈ portText p) :
    c = ':' ∨ c.isDigit = true := by
  cases p with
  | none => simp [portText] at h
  | some n =>
    rcases List.mem_cons.1 h with rfl | h
    · exact .inl rfl
    · exact .inr (natStr_all n c h)

theorem host_chars {h : Str} (hh : hostOk h = true) {c : Char} (hc : c ∈ h) : authorityChar c = true := by
  rcases hostOk_cases hh with h1 | ⟨m, rfl, hm⟩
  · exact (h1 c hc).1
  · simp only [List.cons_append, List.mem_cons, List.mem_append, List.not_mem_nil, or_false] at hc
    rcases hc with rfl | hc | rfl
    · decide
    · obtain ⟨a, b, d, e, f, _, _, g⟩ := hm c hc
      simp [authorityChar, a, b, d, e, f, g]
    · decide

/-- The validity of an authority. -/
def AuthOk (a : Authority) : Prop :=
  (∀ u, a.userinfo = some u → u.all authorityChar = true) ∧ hostOk a.host = true

theorem authText_chars {a : Authority} (ha : AuthOk a) {c : Char} (hc : c ∈ a.text) :
    authorityChar c = true ∨ c = '@' := by
  unfold Authority.text at hc
  simp only [List.mem_append] at hc
  rcases hc with (hc | hc) | hc
  · cases hu : a.userinfo with
    | none => rw [hu] at hc; simp [userinfoText] at hc
    | some u =>
      rw [hu] at hc
      simp only [userinfoText, List.mem_append, List.mem_cons, List.not_mem_nil, or_false] at hc
      rcases hc with hc | rfl
      · exact .inl (List.all_eq_true.1 (ha.1 u hu) c hc)
      · exact .inr rfl
  · exact .inl (host_chars ha.2 hc)
  · left
    rcases port_chars hc with rfl | hd
    · decide
    · simp only [Char.isDigit, Bool.and_eq_true, decide_eq_true_eq, UInt32.le_iff_toNat_le, ge_iff_le] at hd
      have e1 : '0'.val.toNat = 48 := rfl
      have e2 : '9'.val.toNat = 57 := rfl
      have hg : c.toNat = c.val.toNat := rfl
      have hgr : graphic c = true := graphic_of (by omega) (by omega)
      have hn : ∀ d : Char, d.isDigit = false → c ≠ d := fun d hd' => digit_ne (by
        simp only [Char.isDigit, Bool.and_eq_true, decide_eq_true_eq, UInt32.le_iff_toNat_le, ge_iff_le]; exact hd) hd'
      simp [authorityChar, hgr, hn '/' (by decide), hn '?' (by decide), hn '#' (by decide), hn '@' (by decide), hn '\\' (by decide)]

theorem cutPort_text {h : Str} (hh : hostOk h = true) (port : Option Nat) :
    cutPort (h ++ portText port) = (h, port.map natStr) := by
  unfold cutPort
  rcases hostOk_cases hh with h1 | ⟨m, rfl, hc⟩
  · have hcolon : ':' ∉ h := fun hm => (h1 _ hm).2.1 rfl
    have hbr : '[' ∉ h := fun hm => (h1 _ hm).2.2.1 rfl
    have e : (str% "[").isPrefixOf (h ++ portText port) = false := by
      cases h with
      | nil => cases port <;> rfl
      | cons x xs =>
        simp only [List.mem_cons, not_or] at hbr
        simp [List.isPrefixOf, hbr.1]
    rw [e, if_neg (by decide)]
    cases port with
    | none => simpa [portText] using cut_none hcolon
    | some n => exact cut_some hcolon
  · rw [if_pos (by rfl)]
    have hm : ∀ c ∈ '[' :: m, (c != ']') = true := by
      intro c hc'
      rcases List.mem_cons.1 hc' with rfl | hc'
      · rfl
      · simpa using (hc c hc').2.2.2.2.2.2.1
    have e : '[' :: m ++ [']'] ++ portText port = ('[' :: m) ++ (']' :: portText port) := by simp
    rw [e, List.takeWhile_append_of_pos hm, List.dropWhile_append_of_pos hm]
    simp
    cases port <;> rfl

theorem readAuthority_text {a : Authority} (ha : AuthOk a) : readAuthority a.text = a := by
  have hr : '@' ∉ a.host ++ portText a.port := by
    simp only [List.mem_append, not_or]
    constructor
    · intro h
      have := host_chars ha.2 h
      revert this
      decide
    · intro h
      rcases port_chars h with h | h <;> revert h <;> decide
  have key : cutUserinfo a.text = (a.userinfo, a.host ++ portText a.port) := by
    unfold cutUserinfo Authority.text
    cases hu : a.userinfo with
    | none =>
      simp only [userinfoText, List.nil_append]
      rw [splitOnce_eq_none.2 hr]
    | some u =>
      have hu' : '@' ∉ u := all_not (ha.1 u hu) (by decide)
      rw [splitOnce_eq_some.2 (show userinfoText (some u) ++ a.host ++ portText a.port = u ++ '@' :: (a.host ++ portText a.port) ∧ _
        from ⟨by simp [userinfoText], hu'⟩)]
  unfold readAuthority
  rw [key, cutPort_text ha.2]
  obtain ⟨u, h, p⟩ := a
  cases p <;> simp [digitsVal_natStr]

theorem readHier_some {a : Authority} {path : Str} (ha : AuthOk a) (hp : path = [] ∨ (str% "/").isPrefixOf path = true) :
    readHier (str% "//" ++ a.text ++ path) = (some a, path) := by
  have hm : ∀ c ∈ a.text, (c != '/') = true := by
    intro c hc
    rcases authText_chars ha hc with h | rfl
    · simp only [authorityChar, Bool.and_eq_true] at h
      exact h.1.1.1.1.2
    · rfl
  have h0 : path.takeWhile (· != '/') = [] ∧ path.dropWhile (· != '/') = path := by
    rcases hp with rfl | hp
    · exact ⟨rfl, rfl⟩
    · cases path with
      | nil => exact ⟨rfl, rfl⟩
      | cons x xs =>
        have : x = '/' := by
          simp [List.isPrefixOf] at hp
          exact hp.symm
        subst this
        exact ⟨rfl, rfl⟩
  unfold readHier
  rw [if_pos (by simp [List.isPrefixOf])]
  have e : (str% "//" ++ a.text ++ path).drop 2 = a.text ++ path := by simp
  rw [e, List.takeWhile_append_of_pos hm, List.dropWhile_append_of_pos hm, h0.1, h0.2, List.append_nil, readAuthority_text ha]

theorem isPrefixOf_split {p s : Str} (h : p.isPrefixOf s = true) : ∃ t, s = p ++ t := by
  rw [List.isPrefixOf_iff_prefix] at h
  obtain ⟨t, rfl⟩ := h
  exact ⟨t, rfl⟩

theorem readHier_none {path : Str} (hp : (str% "/.//").isPrefixOf path = false) :
    readHier ((if (str% "//").isPrefixOf path then str% "/." else []) ++ path) = (none, path) := by
  unfold readHier
  by_cases h : (str% "//").isPrefixOf path = true
  · obtain ⟨t, rfl⟩ := isPrefixOf_split h
    rw [if_pos h, if_neg (by simp [List.isPrefixOf]), if_pos (by simp [List.isPrefixOf])]
    rfl
  · rw [if_neg h, List.nil_append, if_neg h, if_neg (by rw [hp]; decide)]

theorem valid_scheme {p : UrlParts} (h : p.valid = true) : p.scheme ≠ [] ∧ p.scheme.all schemeChar = true := by
  unfold valid at h
  simp only [Bool.and_eq_true] at h
  exact ⟨by simpa using h.1.1.1.1.1, h.1.1.1.1.2⟩

theorem valid_path {p : UrlParts} (h : p.valid = true) : p.path.all pathChar = true := by
  unfold valid at h
  simp only [Bool.and_eq_true] at h
  exact h.1.1.2

theorem valid_query {p : UrlParts} {q : Str} (h : p.valid = true) (hq : p.query = some q) : q.all queryChar = true := by
  unfold valid at h
  rw [hq] at h
  simp only [Bool.and_eq_true] at h
  exact h.1.2

theorem valid_fragment {p : UrlParts} {f : Str} (h : p.valid = true) (hf : p.fragment = some f) : f.all printable = true := by
  unfold valid at h
  rw [hf] at h
  simp only [Bool.and_eq_true] at h
  exact h.2

theorem valid_some {p : UrlParts} {a : Authority} (h : p.valid = true) (ha : p.authority = some a) :
    AuthOk a ∧ (p.path = [] ∨ (str% "/").isPrefixOf p.path = true) ∧ ∀ n, a.port = some n → n < 65536 := by
  unfold valid at h
  rw [ha] at h
  simp only [Bool.and_eq_true, Bool.or_eq_true, List.isEmpty_iff] at h
  obtain ⟨⟨⟨⟨_, ⟨⟨⟨h1, h2⟩, h3⟩, h4⟩⟩, _⟩, _⟩, _⟩ := h
  refine ⟨⟨?_, h2⟩, h4, ?_⟩
  · intro u hu
    rw [hu] at h1
    exact h1
  · intro n hn
    rw [hn] at h3
    simpa using h3

theorem valid_none {p : UrlParts} (h : p.valid = true) (ha : p.authority = none) : (str% "/.//").isPrefixOf p.path = false := by
  unfold valid at h
  rw [ha] at h
  simp only [Bool.and_eq_true] at h
  simpa using h.1.1.1.2

theorem authorityText_chars {p : UrlParts} (h : p.valid = true) {c : Char} (hc : c ∈ p.authorityText) :
    authorityChar c = true ∨ c = '@' ∨ c = '/' := by
  unfold authorityText at hc
  cases ha : p.authority with
  | some a =>
    rw [ha] at hc
    simp only [List.mem_append, List.mem_cons, List.not_mem_nil, or_false] at hc
    rcases hc with (rfl | rfl) | hc
    · exact .inr (.inr rfl)
    · exact .inr (.inr rfl)
    · rcases authText_chars (valid_some h ha).1 hc with h | h
      · exact .inl h
      · exact .inr (.inl h)
  | none =>
    rw [ha] at hc
    simp only at hc
    split at hc
    · simp only [List.mem_cons, List.not_mem_nil, or_false] at hc
      rcases hc with rfl | rfl
      · exact .inr (.inr rfl)
      · exact .inl (by decide)
    · simp at hc

theorem readHier_text {p : UrlParts} (h : p.valid = true) : readHier (p.authorityText ++ p.path) = (p.authority, p.path) := by
  unfold authorityText
  cases ha : p.authority with
  | some a => exact readHier_some (valid_some h ha).1 (valid_some h ha).2.1
  | none => exact readHier_none (valid_none h ha)

/-- A printed URL is read back. -/
theorem readUrl_text {p : UrlParts} (h : p.valid = true) : readUrl p.text = p := by
  have h1 : ':' ∉ p.scheme := all_not (valid_scheme h).2 (by decide)
  have h2 : ∀ c, c = '?' ∨ c = '#' → c ∉ p.authorityText ++ p.path := by
    intro c hc hm
    rcases List.mem_append.1 hm with hm | hm
    · rcases authorityText_chars h hm with h | rfl | rfl
      · rcases hc with rfl | rfl <;> revert h <;> decide
      · revert hc; decide
      · revert hc; decide
    · refine all_not (valid_path h) ?_ hm
      rcases hc with rfl | rfl <;> decide
  have h3 : '#' ∉ p.authorityText ++ p.path ++ markedText '?' p.query := by
    rw [List.mem_append, not_or]
    refine ⟨h2 _ (.inr rfl), ?_⟩
    cases hq : p.query with
    | none => simp [markedText]
    | some q =>
      simp only [markedText, List.mem_cons, not_or]
      exact ⟨by decide, all_not (valid_query h hq) (by decide)⟩
  unfold readUrl text
  rw [cut_some h1]
  simp only [Option.getD_some]
  rw [cut_option h3]
  simp only
  rw [cut_option (h2 _ (.inl rfl))]
  simp only
  rw [readHier_text h]

end UrlParts

theorem Url.no_newline (u : Url) :
    '\n' ∉ u.asStr ∧ '\n' ∉ u.scheme ∧ (∀ h, u.host = some h → '\n' ∉ h) ∧ '\n' ∉ u.path ∧ (∀ q, u.query = some q → '\n' ∉ q) := by
  have hs : '\n' ∉ u.scheme := all_not (UrlParts.valid_scheme u.ok).2 (by decide)
  have hp : '\n' ∉ u.path := all_not (UrlParts.valid_path u.ok) (by decide)
  have hq : ∀ q, u.query = some q → '\n' ∉ q := fun q h => all_not (UrlParts.valid_query u.ok h) (by decide)
  refine ⟨?_, hs, ?_, hp, hq⟩
  · have ha : '\n' ∉ u.authorityText := by
      intro h
      rcases UrlParts.authorityText_chars u.ok h with h | h | h <;> revert h <;> decide
    have hqt : '\n' ∉ markedText '?' u.query := by
      cases h : u.query with
      | none => simp [markedText]
      | some q => simp [markedText, hq q h]
    have hft : '\n' ∉ markedText '#' u.fragment := by
      cases h : u.fragment with
      | none => simp [markedText]
      | some f => simp [markedText, all_not (UrlParts.valid_fragment u.ok h) (show UrlParts.printable '\n' = false by decide)]
    simp [Url.asStr, UrlParts.text, hs, ha, hp, hqt, hft]
  · intro h hh hm
    unfold Url.host at hh
    cases ha : u.authority with
    | none => rw [ha] at hh; cases hh
    | some a =>
      rw [ha] at hh
      simp only at hh
      split at hh
      · cases hh
      · cases hh
        have := UrlParts.host_chars (UrlParts.valid_some u.ok ha).1.2 hm
        revert this
        decide

theorem plainParseUrl_text (u : Url) : plainParseUrl u.asStr = .ok u := by
  have e : u.asStr = u.toUrlParts.text := rfl
  have h := UrlParts.readUrl_text u.ok
  unfold plainParseUrl
  rw [if_neg]
  · rw [e]
    simp only [h]
    rw [dif_pos u.ok]
    simp
  · intro hp
    obtain ⟨h1, h2⟩ := UrlParts.valid_scheme u.ok
    obtain ⟨t, ht⟩ := UrlParts.isPrefixOf_split hp
    rw [e] at ht
    unfold UrlParts.text at ht
    cases hs : u.scheme with
    | nil => exact h1 hs
    | cons x xs =>
      rw [hs] at ht h2
      simp only [List.cons_append, List.nil_append, List.cons.injEq] at ht
      obtain ⟨rfl, _⟩ := ht
      revert h2
      simp [UrlParts.schemeChar]

/-- Two URLs that print alike are the same. -/
theorem Url.asStr_inj {u v : Url} (h : u.asStr = v.asStr) : u = v := by
  have h1 := plainParseUrl_text u
  rw [h, plainParseUrl_text v] at h1
  cases h1
  rfl

end Httpsig
