import Verif.Spec.KeyFiles
import Verif.Model.KeyFiles
import Verif.Lemmas.Base64
import Verif.Lemmas.Reader
import Verif.Lemmas.Strings
namespace Httpsig

namespace Pem

theorem scan_found {marker : Bytes} : ∀ {found : Nat} {rest : Bytes}, found < marker.length →
    scan marker found (marker.drop found ++ rest) = some (marker.length - found) := by
  intro found rest h
  induction hk : marker.length - found generalizing found with
  | zero => omega
  | succ k ih =>
    rw [List.drop_eq_getElem_cons h, List.cons_append, scan]
    simp only [List.getElem?_eq_getElem h, if_true]
    by_cases he : found + 1 = marker.length
    · rw [if_pos he]; congr 1; omega
    · rw [if_neg he, ih (by omega) (by omega)]; rfl

theorem scan_skip {m : UInt8} {ms : Bytes} {pre rest : Bytes} (h : m ∉ pre) :
    scan (m :: ms) 0 (pre ++ (m :: ms) ++ rest) = some (pre.length + (ms.length + 1)) := by
  induction pre with
  | nil =>
    have := scan_found (marker := m :: ms) (found := 0) (rest := rest) (by simp)
    simpa using this
  | cons b bs ih =>
    simp only [List.mem_cons, not_or] at h
    rw [List.cons_append, List.cons_append, scan]
    have hb : ¬ (some m = some b) := fun e => h.1 (Option.some.inj e)
    simp only [List.getElem?_cons_zero, hb, if_false, List.length_cons]
    rw [if_neg (by omega), ih h.2, Option.map_some]
    congr 1
    omega

theorem readUntil_skip {m : UInt8} {ms pre rest : Bytes} (h : m ∉ pre) :
    readUntil (m :: ms) (pre ++ (m :: ms) ++ rest) = some (pre, rest) := by
  unfold readUntil
  rw [scan_skip h, Option.map_some]
  congr 1
  refine Prod.ext ?_ ?_
  · simp
  · show List.drop (pre.length + (ms.length + 1)) (pre ++ (m :: ms) ++ rest) = rest
    rw [List.drop_left' (by simp)]

theorem scan_sound {marker : Bytes} : ∀ {found : Nat} {b : Bytes} {n : Nat}, found < marker.length → scan marker found b = some n →
    n ≤ b.length ∧ ∃ pre, marker.take found ++ b.take n = pre ++ marker := by
  intro found b
  induction b generalizing found with
  | nil => intro n _ h; simp [scan] at h
  | cons x xs ih =>
    intro n hf h
    rw [scan] at h
    by_cases hm : marker[found]? = some x
    · rw [if_pos hm] at h
      have hx : marker.take (found + 1) = marker.take found ++ [x] := by
        rw [List.take_add_one, hm]; rfl
      by_cases he : found + 1 = marker.length
      · rw [if_pos he] at h
        cases h
        refine ⟨by simp, [], ?_⟩
        rw [List.take_succ_cons, List.take_zero, ← hx, he, List.take_length, List.nil_append]
      · rw [if_neg he] at h
        obtain ⟨k, hk, rfl⟩ := Option.map_eq_some_iff.1 h
        obtain ⟨hl, pre, hp⟩ := ih (by omega) hk
        refine ⟨by simp; omega, pre, ?_⟩
        rw [List.take_succ_cons, ← hp, hx, List.append_assoc]; rfl
    · rw [if_neg hm] at h
      rw [if_neg (by omega)] at h
      obtain ⟨k, hk, rfl⟩ := Option.map_eq_some_iff.1 h
      obtain ⟨hl, pre, hp⟩ := ih (by omega) hk
      refine ⟨by simp; omega, marker.take found ++ x :: pre, ?_⟩
      rw [List.take_zero, List.nil_append] at hp
      rw [List.take_succ_cons, hp]
      simp

theorem readUntil_sound {marker input a b : Bytes} (hm : marker ≠ []) (h : readUntil marker input = some (a, b)) :
    input = a ++ marker ++ b := by
  unfold readUntil at h
  obtain ⟨n, hn, he⟩ := Option.map_eq_some_iff.1 h
  obtain ⟨hl, pre, hp⟩ := scan_sound (List.length_pos_iff.2 hm) hn
  rw [List.take_zero, List.nil_append] at hp
  have hlen := congrArg List.length hp
  rw [List.length_take, List.length_append, Nat.min_eq_left hl] at hlen
  cases he
  have : input.take (n - marker.length) = pre := by
    have h1 : input.take (n - marker.length) = (input.take n).take (n - marker.length) := by
      rw [List.take_take, Nat.min_eq_left (by omega)]
    rw [h1, hp, List.take_left' (by omega)]
  rw [this, ← hp, List.take_append_drop]

theorem dash_not_mem_utf8 {s : Str} (h : '-' ∉ s) : (45 : UInt8) ∉ utf8 s := by
  intro hm
  simp only [utf8, List.mem_flatMap] at hm
  obtain ⟨c, hc, hb⟩ := hm
  have h1 := utf8EncodeChar_small hb (by decide)
  have : c = '-' := by rw [← char_ofNat_toNat c, ← h1]; rfl
  exact h (this ▸ hc)

theorem alphabet_facts {c : Char} (h : Base64.isAlphabet c = true) : isRustWhitespace c = false ∧ c ≠ '\n' ∧ c ≠ '-' ∧ c.toNat < 128 := by
  have hlt : c.toNat < 128 := by
    simp only [Base64.isAlphabet, Base64.val, Bool.or_eq_true, beq_iff_eq, Option.isSome_iff_exists] at h
    rcases h with ⟨x, hx⟩ | rfl
    · split at hx
      · omega
      split at hx
      · omega
      split at hx
      · omega
      split at hx
      · omega
      split at hx
      · omega
      · cases hx
    · decide
  have key : ∀ n : Nat, n < 128 → Base64.isAlphabet (Char.ofNat n) = true →
      isRustWhitespace (Char.ofNat n) = false ∧ Char.ofNat n ≠ '\n' ∧ Char.ofNat n ≠ '-' := by decide
  have := key c.toNat hlt (by rw [char_ofNat_toNat]; exact h)
  rw [char_ofNat_toNat] at this
  exact ⟨this.1, this.2.1, this.2.2, hlt⟩

theorem trimEnd_plain {s t : Str} (hs : ∀ c ∈ s, isRustWhitespace c = false) (ht : ∀ c ∈ t, isRustWhitespace c = true) :
    trimEnd (s ++ t) = s := by
  unfold trimEnd
  rw [List.reverse_append, List.dropWhile_append_of_pos (fun c hc => ht c (List.mem_reverse.1 hc))]
  cases hr : s.reverse with
  | nil => rw [List.reverse_eq_nil_iff.1 hr]; rfl
  | cons x xs =>
    have hx : x ∈ s := List.mem_reverse.1 (hr ▸ List.mem_cons_self)
    rw [List.dropWhile_cons_of_neg (by rw [hs x hx]; decide), ← hr, List.reverse_reverse]

theorem lines_text {eol : Str} (he : eol = ['\n'] ∨ eol = ['\r', '\n']) : ∀ {lines : List Str},
    (∀ l ∈ lines, ∀ c ∈ l, Base64.isAlphabet c = true) → (splitOn '\n' (lines.flatMap (· ++ eol))).flatMap trimEnd = lines.flatten
  | [], _ => rfl
  | l :: ls, h => by
    have hl := h l List.mem_cons_self
    have ih := lines_text he (lines := ls) fun x hx => h x (List.mem_cons_of_mem _ hx)
    have hn : ∀ c ∈ l, isRustWhitespace c = false := fun c hc => (alphabet_facts (hl c hc)).1
    have hnl : '\n' ∉ l := fun hm => (alphabet_facts (hl _ hm)).2.1 rfl
    rcases he with rfl | rfl
    · rw [List.flatMap_cons, List.append_assoc, List.singleton_append, splitOn_append hnl, List.flatMap_cons, ih, List.flatten_cons]
      have := trimEnd_plain (t := []) hn (by simp)
      rw [List.append_nil] at this
      rw [this]
    · rw [List.flatMap_cons, show l ++ ['\r', '\n'] ++ List.flatMap (fun x => x ++ ['\r', '\n']) ls =
        (l ++ ['\r']) ++ '\n' :: List.flatMap (fun x => x ++ ['\r', '\n']) ls by simp,
        splitOn_append (by simp [hnl]), List.flatMap_cons, ih, List.flatten_cons, trimEnd_plain hn (by decide)]

theorem decode64_encode (b : Bytes) : decode64 (Base64.encode b) = some b := by
  have hlen : (Base64.encode b).length % 4 = 0 := by
    induction b using Base64.encode.induct with
    | case1 => rfl
    | case2 => simp [Base64.encode]
    | case3 => simp [Base64.encode]
    | case4 a b c rest ih => simp only [Base64.encode, List.length_cons]; omega
  unfold decode64
  rw [hlen]
  simp [Base64.strictDecode_encode]

/-- White space that `skipWs` skips, as characters. -/
def isWs (c : Char) : Bool := c == ' ' || c == '\t' || c == '\n' || c == '\r'

/-- `skipWs` up to a dash. -/
theorem skipWs_dash {s : Str} (h : ∀ c ∈ s, c.toNat < 128) (rest : Bytes) :
    skipWs (utf8 s ++ 45 :: rest) = utf8 (s.dropWhile isWs) ++ 45 :: rest := by
  induction s with
  | nil => rfl
  | cons c cs ih =>
    have hc := h c List.mem_cons_self
    have e : utf8 (c :: cs) = UInt8.ofNat c.toNat :: utf8 cs := by
      rw [show c :: cs = [c] ++ cs from rfl, utf8_append]
      have : utf8 [c] = [UInt8.ofNat c.toNat] := by
        have key : ∀ n : Nat, n < 128 → utf8 [Char.ofNat n] = [UInt8.ofNat n] := by decide
        rw [← key c.toNat hc, char_ofNat_toNat]
      rw [this]; rfl
    have key : ∀ n : Nat, n < 128 → (UInt8.ofNat n == 32 || UInt8.ofNat n == 9 || UInt8.ofNat n == 10 || UInt8.ofNat n == 13) =
      isWs (Char.ofNat n) := by decide
    have hk := key c.toNat hc
    rw [char_ofNat_toNat] at hk
    unfold skipWs at ih ⊢
    by_cases hw : isWs c = true
    · rw [e, List.cons_append, List.dropWhile_cons_of_pos (by rw [hk]; exact hw), List.dropWhile_cons_of_pos hw,
        ih fun x hx => h x (List.mem_cons_of_mem _ hx)]
    · rw [List.dropWhile_cons_of_neg hw, e, List.cons_append, List.dropWhile_cons_of_neg (by rw [hk]; exact hw)]

theorem dropWhile_lines {eol : Str} (he : eol = ['\n'] ∨ eol = ['\r', '\n']) : ∀ {lines : List Str},
    (∀ l ∈ lines, ∀ c ∈ l, Base64.isAlphabet c = true) → ∃ lines' : List Str, (lines.flatMap (· ++ eol)).dropWhile isWs = lines'.flatMap (· ++ eol) ∧
      lines'.flatten = lines.flatten ∧ ∀ l ∈ lines', l ∈ lines
  | [], _ => ⟨[], rfl, rfl, fun _ h => h⟩
  | [] :: ls, h => by
    obtain ⟨l', h1, h2, h3⟩ := dropWhile_lines he (lines := ls) fun x hx => h x (List.mem_cons_of_mem _ hx)
    refine ⟨l', ?_, h2, fun l hl => List.mem_cons_of_mem _ (h3 l hl)⟩
    rw [← h1]
    rcases he with rfl | rfl <;> rfl
  | (c :: cs) :: ls, h => by
    have hc := h _ List.mem_cons_self c List.mem_cons_self
    refine ⟨(c :: cs) :: ls, ?_, rfl, fun _ h => h⟩
    rw [List.flatMap_cons, List.cons_append, List.cons_append, List.dropWhile_cons_of_neg]
    have := (alphabet_facts hc).1
    intro hw
    simp only [isWs, Bool.or_eq_true, beq_iff_eq] at hw
    rcases hw with ((rfl | rfl) | rfl) | rfl <;> revert this <;> decide

theorem parse_pemFile {label : Str} {contents file : Bytes} (h : PemFile label contents file) : parse file = some contents := by
  obtain ⟨pre, post, eol, lines, hpre, he, hne, hdash, hlines, rfl⟩ := h
  have halpha : ∀ l ∈ lines, ∀ c ∈ l, Base64.isAlphabet c = true := by
    intro l hl c hc
    have : c ∈ Base64.encode contents := hlines ▸ List.mem_flatten.2 ⟨l, hl, hc⟩
    exact List.all_eq_true.1 (Base64.encode_all contents) c this
  obtain ⟨lines', h1, h2, h3⟩ := dropWhile_lines he halpha
  have hdl : (45 : UInt8) ∉ utf8 label := dash_not_mem_utf8 hdash
  have hws : ∀ c ∈ eol, isWs c = true ∧ c.toNat < 128 := by rcases he with rfl | rfl <;> decide
  have hascii : ∀ c ∈ eol ++ lines.flatMap (· ++ eol), c.toNat < 128 := by
    intro c hc
    simp only [List.mem_append, List.mem_flatMap] at hc
    rcases hc with hc | ⟨l, hl, hc | hc⟩
    · exact (hws c hc).2
    · exact (alphabet_facts (halpha l hl c hc)).2.2.2
    · exact (hws c hc).2
  have hskip : (eol ++ lines.flatMap (· ++ eol)).dropWhile isWs = lines'.flatMap (· ++ eol) := by
    rw [List.dropWhile_append_of_pos fun c hc => (hws c hc).1, h1]
  have hdata : (45 : UInt8) ∉ utf8 (lines'.flatMap (· ++ eol)) := by
    refine dash_not_mem_utf8 fun hm => ?_
    simp only [List.mem_flatMap, List.mem_append] at hm
    obtain ⟨l, hl, hc | hc⟩ := hm
    · exact (alphabet_facts (halpha l (h3 l hl) _ hc)).2.2.1 rfl
    · exact absurd (hws _ hc).1 (by decide)
  have e : pre ++ utf8 (str% "-----BEGIN " ++ label ++ str% "-----" ++ eol ++ lines.flatMap (· ++ eol) ++ str% "-----END " ++
      label ++ str% "-----") ++ post =
      pre ++ beginMark ++ (utf8 label ++ dashes ++ (utf8 (eol ++ lines.flatMap (· ++ eol)) ++ (endMark ++ (utf8 label ++ dashes ++ post)))) := by
    simp only [utf8_append, beginMark, dashes, endMark, List.append_assoc]
  have r1 : readUntil beginMark (pre ++ beginMark ++ (utf8 label ++ dashes ++ (utf8 (eol ++ lines.flatMap (· ++ eol)) ++
      (endMark ++ (utf8 label ++ dashes ++ post))))) = some (pre, _) := readUntil_skip hpre
  have r2 : ∀ r, readUntil dashes (utf8 label ++ dashes ++ r) = some (utf8 label, r) := fun r => readUntil_skip hdl
  have r3 : skipWs (utf8 (eol ++ lines.flatMap (· ++ eol)) ++ (endMark ++ (utf8 label ++ dashes ++ post))) =
      utf8 (lines'.flatMap (· ++ eol)) ++ endMark ++ (utf8 label ++ dashes ++ post) := by
    have := skipWs_dash hascii (utf8 (str% "----END ") ++ (utf8 label ++ dashes ++ post))
    rw [hskip] at this
    rw [show endMark = 45 :: utf8 (str% "----END ") from rfl]
    simpa only [List.append_assoc, List.cons_append] using this
  have r4 : ∀ r, readUntil endMark (utf8 (lines'.flatMap (· ++ eol)) ++ endMark ++ r) = some (utf8 (lines'.flatMap (· ++ eol)), r) :=
    fun r => readUntil_skip hdata
  unfold parse
  rw [e]
  simp only [Option.bind_eq_bind, r1, Option.bind_some, r2, r3, r4, utf8Decode_utf8]
  rw [if_neg (by simp [hne]), lines_text he fun l hl => halpha l (h3 l hl), h2, hlines, decode64_encode]

/-- What is accepted has the framing of a PEM file with equal labels. -/
theorem splitOn_lines (c : Char) (s : Str) : (splitOn c s).flatMap (· ++ [c]) = s ++ [c] := by
  induction s with
  | nil => rfl
  | cons x xs ih =>
    unfold splitOn
    split
    · rename_i h; subst h; simp [ih]
    · cases hs : splitOn c xs with
      | nil => exact absurd hs (splitOn_ne_nil c xs)
      | cons p ps => rw [hs] at ih; simp only [List.flatMap_cons, List.cons_append] at ih ⊢; rw [ih]

theorem trimEnd_rest (s : Str) : ∃ t, s = trimEnd s ++ t ∧ ∀ c ∈ t, whiteSpace c = true := by
  refine ⟨(s.reverse.takeWhile isRustWhitespace).reverse, ?_, fun c hc => ?_⟩
  · unfold trimEnd
    rw [← List.reverse_append, List.takeWhile_append_dropWhile, List.reverse_reverse]
  · rw [← isRustWhitespace_eq]
    exact List.all_eq_true.1 List.all_takeWhile c (List.mem_reverse.1 hc)

theorem trimmed_lines (ls : List Str) : ∃ lines : List (Str × Str), ls = lines.map (fun l => l.1 ++ l.2) ∧
    lines.map Prod.fst = ls.map trimEnd ∧ ∀ l ∈ lines, ∀ c ∈ l.2, whiteSpace c = true := by
  induction ls with
  | nil => exact ⟨[], rfl, rfl, by simp⟩
  | cons x xs ih =>
    obtain ⟨lines, h1, h2, h3⟩ := ih
    obtain ⟨t, ht, hw⟩ := trimEnd_rest x
    refine ⟨(trimEnd x, t) :: lines, ?_, ?_, ?_⟩
    · rw [List.map_cons, ← h1, ← ht]
    · rw [List.map_cons, List.map_cons, h2]
    · intro l hl
      rcases List.mem_cons.1 hl with rfl | hl
      · exact hw
      · exact h3 l hl

theorem parse_document {file contents : Bytes} (h : parse file = some contents) : PemDocument contents file := by
  unfold parse at h
  simp only [Option.bind_eq_bind, Option.bind_eq_some_iff] at h
  obtain ⟨⟨pre, r1⟩, h1, ⟨b, r2⟩, h2, ⟨d, r3⟩, h3, ⟨e, post⟩, h4, tag, ht, tag', ht', text, htext, hrest⟩ := h
  split at hrest
  · cases hrest
  rename_i hc
  simp only [not_or, Decidable.not_not] at hc
  obtain ⟨hc1, hc2, rfl⟩ := hc
  have dec : ∀ {x : Bytes} {s : Str}, utf8Decode x = some s → utf8 s = x := by
    intro x s hx
    unfold utf8Decode at hx
    split at hx
    · cases hx; assumption
    · cases hx
  have e1 := readUntil_sound (by decide) h1
  have e2 := readUntil_sound (by decide) h2
  have e3 := readUntil_sound (by decide) h3
  have e4 := readUntil_sound (by decide) h4
  have e5 : ∃ w, r2 = w ++ skipWs r2 ∧ ∀ x ∈ w, x ∈ ([32, 9, 10, 13] : Bytes) := by
    refine ⟨r2.takeWhile (fun c => c == 32 || c == 9 || c == 10 || c == 13), (List.takeWhile_append_dropWhile).symm, fun x hx => ?_⟩
    have := List.all_eq_true.1 List.all_takeWhile x hx
    simpa [or_assoc] using this
  obtain ⟨w, hw, hws⟩ := e5
  obtain ⟨lines, l1, l2, l3⟩ := trimmed_lines (splitOn '\n' text)
  refine ⟨pre, w ++ d, post, tag, hc1, ⟨w, text, lines, (4 - ((splitOn '\n' text).flatMap trimEnd).length % 4) % 4, ?_, hws, ?_, l3, ?_⟩, ?_⟩
  · rw [dec htext]
  · rw [← splitOn_lines, l1, List.flatMap_map]
  · rw [l2, ← List.flatMap_def]
    exact (Base64.encode_of_strictDecode _ _ hrest).symm
  · simp only at e1 e2 e3 e4 ht ht'
    rw [e1, e2, hw, e3, e4, ← dec ht, ← dec ht']
    simp only [utf8_append, beginMark, dashes, endMark, List.append_assoc]

end Pem

namespace Der

theorem ofBytes_foldl (b : Bytes) (n : Nat) : b.foldl (fun n x => n * 256 + x.toNat) n = n * 256 ^ b.length + bigEndian b := by
  induction b generalizing n with
  | nil => simp [bigEndian]
  | cons x xs ih =>
    rw [List.foldl_cons, ih, bigEndian, List.length_cons, Nat.pow_succ, Nat.add_mul, Nat.mul_assoc, Nat.mul_comm 256, Nat.add_assoc]

theorem ofBytes_eq (b : Bytes) : ofBytes b = bigEndian b := by
  unfold ofBytes; rw [ofBytes_foldl]; simp

theorem bigEndian_lt (b : Bytes) : bigEndian b < 256 ^ b.length := by
  induction b with
  | nil => simp [bigEndian]
  | cons x xs ih =>
    rw [bigEndian, List.length_cons, Nat.pow_succ]
    have := x.toNat_lt
    have h : x.toNat * 256 ^ xs.length ≤ 255 * 256 ^ xs.length := Nat.mul_le_mul_right _ (by omega)
    omega

theorem length_iff {b rest : Bytes} {n : Nat} : length b = some (n, rest) ↔ ∃ l, DerLength n l ∧ b = l ++ rest := by
  cases b with
  | nil =>
    constructor
    · intro h; cases h
    · rintro ⟨l, h | ⟨_, _, d, ds, _, _, _, rfl⟩, he⟩
      · rw [h.2] at he; cases he
      · cases he
  | cons x xs =>
    rw [length]
    constructor
    · intro h
      split at h
      · rename_i hx
        cases h
        exact ⟨_, .inl ⟨hx, rfl⟩, by simp⟩
      · rename_i hx
        simp only at h
        split at h
        · rename_i hc
          obtain ⟨h1, h2, h3, h4, h5, h6⟩ := hc
          simp only [Option.some.injEq, Prod.mk.injEq] at h
          obtain ⟨hv, hr⟩ := h
          rw [ofBytes_eq] at h4 h5 h6 hv
          cases ht : xs.take (x.toNat - 128) with
          | nil =>
            have := congrArg List.length ht
            rw [List.length_take, Nat.min_eq_left h3, List.length_nil] at this
            omega
          | cons d ds =>
            have hlen := congrArg List.length ht
            rw [List.length_take, Nat.min_eq_left h3, List.length_cons] at hlen
            rw [ht] at h4 h5 h6 hv
            refine ⟨x :: d :: ds, .inr ⟨by omega, by omega, d, ds, ?_, by omega, hv, ?_⟩, ?_⟩
            · rintro rfl
              rw [bigEndian, show (0 : UInt8).toNat = 0 from rfl, Nat.zero_mul, Nat.zero_add] at h5
              have := bigEndian_lt ds
              rw [hlen, Nat.add_sub_cancel] at h5
              omega
            · rw [show 129 + ds.length = x.toNat by omega, UInt8.ofNat_toNat]
            · rw [← hr, ← ht, List.cons_append, List.take_append_drop]
        · cases h
    · rintro ⟨l, ⟨hn, rfl⟩ | ⟨h1, h2, d, ds, hd, hlen, hv, rfl⟩, he⟩
      · simp only [List.singleton_append, List.cons.injEq] at he
        obtain ⟨rfl, rfl⟩ := he
        have : (UInt8.ofNat n).toNat = n := by simp; omega
        rw [this, if_pos hn]
      · simp only [List.cons_append, List.cons.injEq] at he
        obtain ⟨rfl, rfl⟩ := he
        have hx : (UInt8.ofNat (129 + ds.length)).toNat = 129 + ds.length := by simp; omega
        rw [hx, if_neg (by omega)]
        have e : 129 + ds.length - 128 = ds.length + 1 := by omega
        simp only [e]
        have ht : List.take (ds.length + 1) (d :: (ds ++ rest)) = d :: ds := by simp
        have hdr : List.drop (ds.length + 1) (d :: (ds ++ rest)) = rest := by simp
        rw [ht, hdr, ofBytes_eq, hv, if_pos]
        refine ⟨by omega, by omega, by simp, h1, ?_, by omega⟩
        rw [Nat.add_sub_cancel, ← hv, bigEndian]
        have : 1 ≤ d.toNat := by
          rcases Nat.eq_zero_or_pos d.toNat with h | h
          · exact absurd (UInt8.toNat_inj.1 h) hd
          · exact h
        calc 256 ^ ds.length = 1 * 256 ^ ds.length := (Nat.one_mul _).symm
          _ ≤ d.toNat * 256 ^ ds.length := Nat.mul_le_mul_right _ this
          _ ≤ _ := Nat.le_add_right _ _

theorem value_iff {tag : UInt8} {b c rest : Bytes} : value tag b = some (c, rest) ↔ ∃ v, DerValue tag c v ∧ b = v ++ rest := by
  cases b with
  | nil =>
    constructor
    · intro h; cases h
    · rintro ⟨v, ⟨l, _, rfl⟩, he⟩; cases he
  | cons t r =>
    rw [value]
    constructor
    · intro h
      split at h
      · rename_i ht
        split at h
        · rename_i n r' hl
          split at h
          · rename_i hn
            cases h
            obtain ⟨l, hd, rfl⟩ := length_iff.1 hl
            refine ⟨tag :: (l ++ r'.take n), ⟨l, ?_, rfl⟩, ?_⟩
            · rw [List.length_take, Nat.min_eq_left hn]; exact hd
            · rw [ht, List.cons_append, List.append_assoc, List.take_append_drop]
          · cases h
        · cases h
      · cases h
    · rintro ⟨v, ⟨l, hl, rfl⟩, he⟩
      simp only [List.cons_append, List.cons.injEq, List.append_assoc] at he
      obtain ⟨rfl, rfl⟩ := he
      rw [if_pos rfl, length_iff.2 ⟨l, hl, rfl⟩]
      simp

end Der

section
variable [Deps]

theorem spkiKey_iff {der key : Bytes} : spkiKey der = some key ↔
    ∃ oid params unused, Spki oid params unused key der ∧ Deps.oidOk oid = true ∧ (params = [] ∨ Deps.anyOk params = true) ∧
      unused.toNat ≤ 7 ∧ (unused = 0 ∨ key ≠ []) := by
  unfold spkiKey
  constructor
  · intro h
    split at h
    · rename_i body hb
      split at h
      · rename_i alg r ha
        split at h
        · rename_i oid params u k ho hbits
          split at h
          · rename_i hc
            cases h
            obtain ⟨v, hv, rfl⟩ := Der.value_iff.1 hb
            obtain ⟨a, hva, rfl⟩ := Der.value_iff.1 ha
            obtain ⟨o, hvo, rfl⟩ := Der.value_iff.1 ho
            obtain ⟨b, hvb, rfl⟩ := Der.value_iff.1 hbits
            rw [List.append_nil] at hv ⊢
            exact ⟨oid, params, u, ⟨o, _, a, b, hvo, rfl, hva, hvb, hv⟩, hc⟩
          · cases h
        · cases h
      · cases h
    · cases h
  · rintro ⟨oid, params, u, ⟨o, alg, a, bits, ho, rfl, ha, hb, hv⟩, hc⟩
    have e1 : Der.value 0x30 der = some (a ++ bits, []) := Der.value_iff.2 ⟨der, hv, (List.append_nil _).symm⟩
    have e2 : Der.value 0x30 (a ++ bits) = some (o ++ params, bits) := Der.value_iff.2 ⟨a, ha, rfl⟩
    have e3 : Der.value 0x06 (o ++ params) = some (oid, params) := Der.value_iff.2 ⟨o, ho, rfl⟩
    have e4 : Der.value 0x03 bits = some (u :: key, []) := Der.value_iff.2 ⟨bits, hb, (List.append_nil _).symm⟩
    simp only [e1, e2, e3, e4]
    rw [if_pos hc]

end
end Httpsig
