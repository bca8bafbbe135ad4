import Verif.Lemmas.UrlHost3
import Verif.Lemmas.UrlAlias
import Verif.Lemmas.Lossy
/-
Hosts of URLs as a whole.
-/
namespace Httpsig
namespace UrlHost
open Shown Sfv

/-! ### Domains -/

theorem pctBytes_iff {b c : Bytes} : PctBytes b c ↔ c = percentDecode b := by
  constructor
  · intro h
    induction h with
    | nil => rw [percentDecode.eq_def]
    | pct hh hl _ ih => rw [percentDecode_hex (hexDigit_iff.1 hh) (hexDigit_iff.1 hl), ih, Nat.mul_comm]
    | bare hb _ ih => rw [percentDecode_bare hb, ih]
    | literal ha _ ih => rw [percentDecode_literal ha, ih]
  · rintro rfl
    have key : ∀ (n : Nat) (b : Bytes), b.length ≤ n → PctBytes b (percentDecode b) := by
      intro n
      induction n with
      | zero =>
        intro b hb
        have : b = [] := List.length_eq_zero_iff.1 (by omega)
        subst this
        rw [percentDecode.eq_def]
        exact .nil
      | succ n ih =>
        intro b hb
        cases b with
        | nil => rw [percentDecode.eq_def]; exact .nil
        | cons a b =>
          simp only [List.length_cons] at hb
          by_cases ha : a = 37
          · subst ha
            by_cases hs : StartsHex b
            · obtain ⟨h, l, rest, x, y, rfl, hh, hl⟩ := hs
              rw [percentDecode_hex (hexDigit_iff.1 hh) (hexDigit_iff.1 hl), Nat.mul_comm]
              simp only [List.length_cons] at hb
              exact .pct hh hl (ih _ (by omega))
            · rw [percentDecode_bare hs]
              exact .bare hs (ih _ (by omega))
          · rw [percentDecode_literal ha]
            exact .literal ha (ih _ (by omega))
    exact key _ b (Nat.le_refl _)

theorem pctText_iff {s t : Str} : PctText s t ↔ t = utf8Lossy (percentDecode (utf8 s)) := by
  unfold PctText
  constructor
  · rintro ⟨b, h1, h2⟩
    rw [lossyText_iff.1 h2, pctBytes_iff.1 h1]
  · rintro rfl
    exact ⟨_, pctBytes_iff.2 rfl, lossyText_iff.2 rfl⟩

theorem mem_splitOn {c : Char} {s l : Str} (h : l ∈ splitOn c s) : ∃ pre t, s = pre ++ l ++ t ∧ (pre = [] ∨ ∃ p, pre = p ++ [c]) := by
  have key : ∀ (ps : List Str), l ∈ ps → ∃ pre t, joinWith [c] ps = pre ++ l ++ t ∧ (pre = [] ∨ ∃ p, pre = p ++ [c]) := by
    intro ps
    induction ps with
    | nil => intro h; cases h
    | cons p ps ih =>
      intro h
      cases ps with
      | nil =>
        simp only [List.mem_singleton] at h
        subst h
        exact ⟨[], [], by simp [joinWith], .inl rfl⟩
      | cons q qs =>
        have e : joinWith [c] (p :: q :: qs) = p ++ c :: joinWith [c] (q :: qs) := by simp [joinWith]
        rcases List.mem_cons.1 h with rfl | h
        · exact ⟨[], c :: joinWith [c] (q :: qs), by rw [e]; simp, .inl rfl⟩
        · obtain ⟨pre, t, e', hp⟩ := ih h
          refine ⟨p ++ c :: pre, t, by rw [e, e']; simp, .inr ?_⟩
          rcases hp with rfl | ⟨p', rfl⟩
          · exact ⟨p, rfl⟩
          · exact ⟨p ++ c :: p', by simp⟩
  have := key _ h
  rwa [joinWith_splitOn] at this

theorem splitOn_concat' (c : Char) (a b : Str) : splitOn c (a ++ c :: b) = splitOn c a ++ splitOn c b := by
  induction a with
  | nil => simp [splitOn]
  | cons x a ih =>
    rw [List.cons_append]
    by_cases hc : x = c
    · simp [splitOn, hc, ih]
    · simp only [splitOn, if_neg hc, ih]
      cases h : splitOn c a with
      | nil => exact absurd h (splitOn_ne_nil _ _)
      | cons p ps => rfl

theorem splitOn_prefix {c : Char} {x : Str} (hx : c ∉ x) (t : Str) : ∃ l ls, splitOn c (x ++ t) = (x ++ l) :: ls := by
  induction x with
  | nil =>
    cases h : splitOn c t with
    | nil => exact absurd h (splitOn_ne_nil _ _)
    | cons l ls => exact ⟨l, ls, by simpa using h⟩
  | cons a x ih =>
    simp only [List.mem_cons, not_or] at hx
    obtain ⟨l, ls, e⟩ := ih hx.2
    exact ⟨l, ls, by rw [List.cons_append, splitOn, if_neg fun e => hx.1 e.symm, e]; rfl⟩

theorem isXn_iff {l : Str} : isXn l = true ↔ ∃ x t, l = x ++ t ∧ lowered x = str% "xn--" := by
  unfold isXn
  rw [List.isPrefixOf_iff_prefix]
  constructor
  · rintro ⟨t, h⟩
    refine ⟨l.take 4, l.drop 4, (List.take_append_drop 4 l).symm, ?_⟩
    rw [lowered_eq, List.map_take, ← h]
    rfl
  · rintro ⟨x, t, rfl, h⟩
    rw [lowered_eq] at h
    exact ⟨t.map asciiLower, by rw [List.map_append, h]⟩

theorem ownAscii_iff {s : Str} : OwnAscii s ↔ isOwnAscii s = true := by
  unfold OwnAscii isOwnAscii
  rw [Bool.and_eq_true, List.all_eq_true, List.all_eq_true]
  simp only [decide_eq_true_eq, Bool.not_eq_true', ← Bool.not_eq_true]
  refine and_congr_right fun _ => ⟨fun h l hl hx => ?_, fun h pre x t e hp hx => ?_⟩
  · obtain ⟨x, t, rfl, hx'⟩ := isXn_iff.1 hx
    obtain ⟨pre, u, e, hp⟩ := mem_splitOn hl
    exact h pre x (t ++ u) (by rw [e]; simp) hp hx'
  · have hd : '.' ∉ x := fun hm => by
      rw [lowered_eq] at hx
      have : asciiLower '.' ∈ x.map asciiLower := List.mem_map_of_mem hm
      rw [hx] at this
      exact absurd this (by decide)
    obtain ⟨l, ls, hs⟩ := splitOn_prefix hd t
    refine h (x ++ l) ?_ (isXn_iff.2 ⟨x, l, rfl, hx⟩)
    rcases hp with rfl | ⟨p, rfl⟩
    · rw [e, List.nil_append, hs]; simp
    · rw [e, show p ++ str% "." ++ x ++ t = p ++ '.' :: (x ++ t) by simp, splitOn_concat', hs]; simp

theorem asciiIs_iff {idna : Str → Option { t : Str // ∀ c ∈ t, c.toNat < 128 }} {s t : Str} : AsciiIs idna s t ↔ domainToAscii idna s = some t := by
  unfold AsciiIs domainToAscii
  rw [ownAscii_iff, lowered_eq]
  split
  · rename_i h
    simp [h, eq_comm]
  · rename_i h
    simp [h]

theorem invalidChar_iff {c : Char} : invalidChar c = false ↔ 32 < c.toNat ∧ c.toNat ≠ 127 ∧ c ∉ forbiddenChars := by
  unfold invalidChar forbiddenChars
  simp only [Bool.or_eq_false_iff, decide_eq_false_iff_not, beq_eq_false_iff_ne, ne_eq, List.mem_cons, List.not_mem_nil, or_false, not_or]
  constructor
  · rintro h
    have h32 : c ≠ ' ' := fun e => by subst e; exact absurd (show ' '.toNat ≤ 32 by decide) (by simp_all)
    simp_all
  · rintro ⟨h1, h2, h3⟩
    simp_all

theorem domainIs_iff {idna : Str → Option { t : Str // ∀ c ∈ t, c.toNat < 128 }} {s d : Str} : DomainIs idna s d ↔
    s.head? ≠ some '[' ∧ domainToAscii idna (utf8Lossy (percentDecode (utf8 s))) = some d ∧ d ≠ [] ∧ d.any invalidChar = false := by
  unfold DomainIs
  rw [List.any_eq_false]
  refine and_congr_right fun _ => and_congr ?_ (and_congr_right fun _ => ?_)
  · constructor
    · rintro ⟨t, h1, h2⟩
      rw [← pctText_iff.1 h1]; exact asciiIs_iff.1 h2
    · intro h
      exact ⟨_, pctText_iff.2 rfl, asciiIs_iff.2 h⟩
  · refine forall_congr' fun c => imp_congr_right fun _ => ?_
    rw [Bool.not_eq_true]; exact invalidChar_iff.symm

/-! ### Hosts -/

theorem bracketed {s : Str} : (s.head? = some '[' ∧ (s.drop 1).getLast? = some ']') ↔ ∃ m, s = '[' :: m ++ str% "]" := by
  constructor
  · rintro ⟨h1, h2⟩
    cases s with
    | nil => cases h1
    | cons c s =>
      cases h1
      rw [List.drop_succ_cons, List.drop_zero] at h2
      rcases nil_or_snoc s with rfl | ⟨m, c, rfl⟩
      · cases h2
      · rw [List.getLast?_concat] at h2
        obtain rfl := Option.some.inj h2
        exact ⟨m, rfl⟩
  · rintro ⟨m, rfl⟩
    exact ⟨rfl, by simp⟩

theorem hostIs_iff {idna : Str → Option { t : Str // ∀ c ∈ t, c.toNat < 128 }} {s h : Str} :
    HostIs idna s h ↔ (parse idna s).map Host.text = some h := by
  constructor
  · intro hh
    cases hh with
    | domain hd hn =>
      obtain ⟨h1, h2, h3, h4⟩ := domainIs_iff.1 hd
      rw [← endsInNumber_iff] at hn
      unfold parse
      rw [if_neg h1, h2]
      simp [h3, h4, hn, Host.text]
    | ipv4 hd hn hi hw =>
      obtain ⟨h1, h2, h3, h4⟩ := domainIs_iff.1 hd
      rw [← endsInNumber_iff] at hn
      unfold parse
      rw [if_neg h1, h2]
      simp [h3, h4, hn, ipv4Addr_iff.2 hi, Host.text, (ipv4Written_iff hi.lt).1 hw]
    | ipv6 hi hw =>
      unfold parse
      rw [if_pos (by rfl), if_pos (by simp)]
      simp [ipv6Addr_iff.2 hi, Host.text, (ipv6Written_iff hi.pieces.2).1 hw]
  · intro h
    unfold parse at h
    split at h
    · rename_i h1
      split at h
      · rename_i h2
        obtain ⟨m, rfl⟩ := bracketed.1 ⟨h1, h2⟩
        cases hi : ipv6Addr ((('[' :: m ++ str% "]").drop 1).dropLast) with
        | none => rw [hi] at h; cases h
        | some l =>
          rw [hi] at h
          have e : (('[' :: m ++ str% "]").drop 1).dropLast = m := by simp
          rw [e] at hi
          have hi := ipv6Addr_iff.1 hi
          obtain rfl := Option.some.inj h
          exact .ipv6 hi ((ipv6Written_iff hi.pieces.2).2 rfl)
      · cases h
    · rename_i h1
      cases hd : domainToAscii idna (utf8Lossy (percentDecode (utf8 s))) with
      | none => rw [hd] at h; cases h
      | some d =>
        rw [hd] at h
        simp only at h
        split at h
        · cases h
        rename_i h3
        split at h
        · cases h
        rename_i h4
        have hdom := domainIs_iff.2 ⟨h1, hd, h3, by simpa using h4⟩
        split at h
        · rename_i h5
          cases hi : ipv4Addr d with
          | none => rw [hi] at h; cases h
          | some n =>
            rw [hi] at h
            obtain rfl := Option.some.inj h
            have hi := ipv4Addr_iff.1 hi
            exact .ipv4 hdom (endsInNumber_iff.1 h5) hi ((ipv4Written_iff hi.lt).2 rfl)
        · rename_i h5
          obtain rfl := Option.some.inj h
          exact .domain hdom fun hn => h5 (endsInNumber_iff.2 hn)

theorem HostIs.unique {idna : Str → Option { t : Str // ∀ c ∈ t, c.toNat < 128 }} {s h h' : Str} (h1 : HostIs idna s h) (h2 : HostIs idna s h') :
    h = h' := Option.some.inj ((hostIs_iff.1 h1).symm.trans (hostIs_iff.1 h2))

theorem lower_ascii : ∀ n < 128, (asciiLower (Char.ofNat n)).toNat < 128 ∧ asciiLower (asciiLower (Char.ofNat n)) = asciiLower (Char.ofNat n) := by
  decide

theorem lower_ascii' {c : Char} (h : c.toNat < 128) : (asciiLower c).toNat < 128 ∧ asciiLower (asciiLower c) = asciiLower c := by
  have := lower_ascii _ h
  rwa [Char.ofNat_toNat] at this

theorem AsciiIs.ascii {idna : Str → Option { t : Str // ∀ c ∈ t, c.toNat < 128 }} {s t : Str} (h : AsciiIs idna s t) : ∀ c ∈ t, c.toNat < 128 := by
  rcases h with ⟨h, rfl⟩ | ⟨_, h⟩
  · intro c hc
    rw [lowered_eq] at hc
    obtain ⟨d, hd, rfl⟩ := List.mem_map.1 hc
    exact (lower_ascii' (h.1 d hd)).1
  · cases he : idna s with
    | none => rw [he] at h; cases h
    | some t' => rw [he] at h; obtain rfl := Option.some.inj h; exact t'.2

theorem DomainIs.chars {idna : Str → Option { t : Str // ∀ c ∈ t, c.toNat < 128 }} {s d : Str} (h : DomainIs idna s d) :
    ∀ c ∈ d, 32 < c.toNat ∧ c.toNat < 127 ∧ c ∉ forbiddenChars := by
  obtain ⟨_, ⟨t, _, ha⟩, _, hc⟩ := h
  intro c hm
  have := ha.ascii c hm
  have := hc c hm
  exact ⟨this.1, by omega, this.2.2⟩

theorem hostOk_plain {h : Str} (hc : ∀ c ∈ h, 32 < c.toNat ∧ c.toNat < 127 ∧ c ∉ forbiddenChars) : UrlParts.hostOk h = true := by
  unfold UrlParts.hostOk
  rw [Bool.or_eq_true]
  left
  rw [List.all_eq_true]
  intro c hm
  obtain ⟨h1, h2, h3⟩ := hc c hm
  unfold forbiddenChars at h3
  simp only [List.mem_cons, List.not_mem_nil, or_false, not_or] at h3
  unfold UrlParts.authorityChar
  rw [UrlParts.graphic_of (by omega) (by omega)]
  simp [h3]

theorem digit_char {c : Char} (h : c.isDigit = true ∨ c = '.') : c.toNat < 128 ∧ asciiLower c = c ∧ 32 < c.toNat ∧ c.toNat < 127 ∧
    c ∉ forbiddenChars ∧ c ≠ 'x' ∧ c ≠ 'X' := by
  have key : ∀ n < 128, (Char.ofNat n).isDigit = true ∨ Char.ofNat n = '.' → asciiLower (Char.ofNat n) = Char.ofNat n ∧ 32 < (Char.ofNat n).toNat ∧
      (Char.ofNat n).toNat < 127 ∧ Char.ofNat n ∉ forbiddenChars ∧ Char.ofNat n ≠ 'x' ∧ Char.ofNat n ≠ 'X' := by decide
  have hlt : c.toNat < 128 := by
    rcases h with h | rfl
    · simp only [Char.isDigit, Bool.and_eq_true, decide_eq_true_eq, UInt32.le_iff_toNat_le] at h
      have e2 : '9'.val.toNat = 57 := rfl
      have hg : c.toNat = c.val.toNat := rfl
      have := h.2
      omega
    · decide
  have := key _ hlt
  rw [Char.ofNat_toNat] at this
  exact ⟨hlt, this h⟩

theorem hex_char {c : Char} (h : isDigit 16 c = true ∧ c.isUpper = false) : (c.isDigit || (c.isLower && c ≤ 'f')) = true := by
  obtain ⟨d, hd, hlt⟩ := isDigit_iff.1 h.1
  rw [hexChar_eq hd h.2]
  revert d
  have : ∀ d < 16, ((hexChar d).isDigit || ((hexChar d).isLower && hexChar d ≤ 'f')) = true := by decide
  exact fun d _ hlt => this d hlt

theorem HostIs.ok {idna : Str → Option { t : Str // ∀ c ∈ t, c.toNat < 128 }} {s h : Str} (hh : HostIs idna s h) : UrlParts.hostOk h = true ∧ h ≠ [] := by
  cases hh with
  | domain hd hn => exact ⟨hostOk_plain hd.chars, hd.2.2.1⟩
  | ipv4 hd hn hi hw =>
    refine ⟨hostOk_plain fun c hc => ?_, ?_⟩
    · obtain ⟨_, _, h1, h2, h3, _⟩ := digit_char (hw.chars c hc)
      exact ⟨h1, h2, h3⟩
    · rintro rfl
      obtain ⟨a, b, c, d, ta, tb, tc, td, _, _, _, _, _, e⟩ := hw
      simp at e
  | ipv6 hi hw =>
    refine ⟨?_, by simp⟩
    unfold UrlParts.hostOk
    rw [Bool.or_eq_true]
    right
    simp only [List.cons_append, Bool.and_eq_true, List.all_eq_true]
    refine ⟨by simp, fun c hc => ?_⟩
    rw [List.dropLast_concat] at hc
    rcases hw.chars c hc with h | rfl
    · rw [hex_char h]; rfl
    · rfl

/-- The test of `hosts` always succeeds. -/
theorem hosts_text (idna : Str → Option { t : Str // ∀ c ∈ t, c.toNat < 128 }) (s : Str) :
    (hosts idna s).map Subtype.val = (parse idna s).map Host.text := by
  unfold hosts
  cases hp : parse idna s with
  | none => rfl
  | some h =>
    have : HostIs idna s h.text := hostIs_iff.2 (by rw [hp]; rfl)
    simp only [dif_pos this.ok.1, Option.map_some]

theorem hosts_iff {idna : Str → Option { t : Str // ∀ c ∈ t, c.toNat < 128 }} {s h : Str} :
    (hosts idna s).map Subtype.val = some h ↔ HostIs idna s h := by
  rw [hosts_text, hostIs_iff]

/-! ### Reading again -/

theorem percentDecode_plain {b : Bytes} (h : 37 ∉ b) : percentDecode b = b := by
  induction b with
  | nil => rw [percentDecode.eq_def]
  | cons a b ih =>
    simp only [List.mem_cons, not_or] at h
    rw [percentDecode_literal fun e => h.1 e.symm, ih h.2]

theorem pctText_plain {s : Str} (h : '%' ∉ s) : PctText s s := by
  rw [pctText_iff, percentDecode_plain, utf8Lossy_utf8]
  intro hm
  unfold utf8 at hm
  have : ∃ c ∈ s, (37 : UInt8) ∈ String.utf8EncodeChar c := by simpa using hm
  obtain ⟨c, hc, hb⟩ := this
  have := utf8EncodeChar_small hb (by decide)
  have : c = '%' := Char.toNat_inj.1 this.symm
  exact h (this ▸ hc)

theorem OwnAscii.lowered {s : Str} (h : OwnAscii s) : OwnAscii (lowered s) ∧ lowered (lowered s) = lowered s := by
  have e : Httpsig.lowered (Httpsig.lowered s) = Httpsig.lowered s := by
    rw [lowered_eq, lowered_eq, List.map_map]
    exact List.map_congr_left fun c hc => (lower_ascii' (h.1 c hc)).2
  refine ⟨⟨fun c hc => ?_, fun pre x t e hp hx => ?_⟩, e⟩
  · rw [lowered_eq] at hc
    obtain ⟨d, hd, rfl⟩ := List.mem_map.1 hc
    exact (lower_ascii' (h.1 d hd)).1
  · rw [lowered_eq] at e
    obtain ⟨y, t', hs, hy, rfl⟩ := List.map_eq_append_iff.1 e
    obtain ⟨pre', x', rfl, rfl, rfl⟩ := List.map_eq_append_iff.1 hy
    have hx' : Httpsig.lowered (Httpsig.lowered x') = Httpsig.lowered x' := by
      rw [lowered_eq, lowered_eq, List.map_map]
      exact List.map_congr_left fun c hc => (lower_ascii' (h.1 c (by rw [hs]; simp [hc]))).2
    refine h.2 pre' x' t' hs ?_ (by rw [← hx', lowered_eq x']; exact hx)
    rcases hp with hp | ⟨p, hp⟩
    · left; simpa using hp
    · right
      obtain ⟨p', d, rfl, _, hd⟩ := List.map_eq_append_iff.1 hp
      obtain ⟨d', rfl, hd'⟩ := List.map_eq_singleton_iff.1 hd
      exact ⟨p', by rw [((UrlParser.asciiLower_eq (d := '.') (by decide)).1 hd').1]⟩

theorem ownAscii_numeric {s : Str} (h : ∀ c ∈ s, c.isDigit = true ∨ c = '.') : OwnAscii s ∧ lowered s = s := by
  refine ⟨⟨fun c hc => (digit_char (h c hc)).1, fun pre x t e _ hx => ?_⟩, ?_⟩
  · cases x with
    | nil => exact absurd hx (by decide)
    | cons c x =>
      obtain ⟨_, h1, _, _, _, h2, _⟩ := digit_char (h c (by rw [e]; simp))
      rw [lowered_eq, List.map_cons, h1] at hx
      exact h2 (List.cons.inj hx).1
  · rw [lowered_eq]
    exact (List.map_congr_left fun c hc => (digit_char (h c hc)).2.1).trans (List.map_id _)

theorem domain_again {idna : Str → Option { t : Str // ∀ c ∈ t, c.toNat < 128 }} {d : Str} (hd : d ≠ [])
    (hc : ∀ c ∈ d, 32 < c.toNat ∧ c.toNat < 127 ∧ c ∉ forbiddenChars) (ha : AsciiIs idna d d) : DomainIs idna d d := by
  refine ⟨fun h => ?_, ⟨d, pctText_plain fun hm => (hc _ hm).2.2 (by decide), ha⟩, hd, fun c hm => ?_⟩
  · cases d with
    | nil => cases h
    | cons c d => obtain rfl := Option.some.inj h; exact (hc '[' (by simp)).2.2 (by decide)
  · obtain ⟨h1, h2, h3⟩ := hc c hm
    exact ⟨h1, by omega, h3⟩

theorem HostIs.again {idna : Str → Option { t : Str // ∀ c ∈ t, c.toNat < 128 }}
    (hidna : ∀ s t, idna s = some t → AsciiIs idna t.1 t.1) {s h : Str} (hh : HostIs idna s h) : HostIs idna h h := by
  cases hh with
  | domain hd hn =>
    refine .domain (domain_again hd.2.2.1 hd.chars ?_) hn
    obtain ⟨_, ⟨t, _, ⟨ho, rfl⟩ | ⟨_, hi⟩⟩, _, _⟩ := hd
    · exact .inl ⟨ho.lowered.1, ho.lowered.2.symm⟩
    · cases he : idna t with
      | none => rw [he] at hi; cases hi
      | some t' => rw [he] at hi; obtain rfl := Option.some.inj hi; exact hidna _ _ he
  | ipv4 hd hn hi hw =>
    have hne : h ≠ [] := (HostIs.ipv4 hd hn hi hw).ok.2
    have hn := ownAscii_numeric hw.chars
    exact .ipv4 (domain_again hne (fun c hc => by obtain ⟨_, _, h1, h2, h3, _⟩ := digit_char (hw.chars c hc); exact ⟨h1, h2, h3⟩)
      (.inl ⟨hn.1, hn.2.symm⟩)) hw.numberLast hw.is hw
  | ipv6 hi hw => exact .ipv6 (hw.is hi.pieces.2 hi.pieces.1) hw

end UrlHost
end Httpsig
