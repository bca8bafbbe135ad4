import Verif.Model.Mock
import Verif.Lemmas.Utf8
import Verif.Lemmas.Strings
import Verif.Lemmas.Sign2
import Verif.Lemmas.HeaderText
/- Reading what the validator writes. -/
set_option linter.unusedSectionVars false
namespace Httpsig

theorem newline_mem_utf8 {s : Str} (h : (10 : UInt8) ∈ utf8 s) : '\n' ∈ s := by
  simp only [utf8, List.mem_flatMap] at h
  obtain ⟨c, hc, hb⟩ := h
  have := utf8EncodeChar_small hb (by decide)
  have : c = '\n' := by
    rw [← Char.ofNat_toNat c, ← this]
    rfl
  rw [← this]
  exact hc

theorem readLine_line {a b : Bytes} (h : 10 ∉ a) : readLine (a ++ 10 :: b) = (a ++ [10], b) := by
  induction a with
  | nil => rfl
  | cons x a ih =>
    simp only [List.mem_cons, not_or] at h
    rw [List.cons_append, readLine, if_neg (Ne.symm h.1), ih h.2]
    rfl

theorem readLine_text {s : Str} {b : Bytes} (h : '\n' ∉ s) : readLine (utf8 (s ++ ['\n']) ++ b) = (utf8 (s ++ ['\n']), b) := by
  rw [utf8_append, show utf8 ['\n'] = [10] from rfl, List.append_assoc]
  exact readLine_line fun hm => h (newline_mem_utf8 hm)

theorem utf8Decode_utf8 (s : Str) : utf8Decode (utf8 s) = some s := by
  unfold utf8Decode
  rw [utf8Lossy_utf8, if_pos rfl]

theorem go_word {w : Str} (h : ∀ c ∈ w, isAsciiWs c = false) (cur rest : Str) :
    splitAsciiWs.go cur (w ++ rest) = splitAsciiWs.go (cur ++ w) rest := by
  induction w generalizing cur with
  | nil => simp
  | cons c w ih =>
    rw [List.cons_append, splitAsciiWs.go, h c (by simp)]
    simp only [Bool.false_eq_true, if_false]
    rw [ih fun d hd => h d (by simp [hd])]
    simp

theorem go_sep {cur : Str} {c : Char} (hc : isAsciiWs c = true) (hne : cur ≠ []) (rest : Str) :
    splitAsciiWs.go cur (c :: rest) = cur :: splitAsciiWs.go [] rest := by
  rw [splitAsciiWs.go, hc]
  simp [hne]

theorem splitAsciiWs_requestLine {m p : Str} (hm : m ≠ []) (hp : p ≠ []) (hm' : ∀ c ∈ m, isAsciiWs c = false)
    (hp' : ∀ c ∈ p, isAsciiWs c = false) :
    splitAsciiWs (m ++ str% " " ++ p ++ str% " HTTP/1.1\n") = [m, p, str% "HTTP/1.1"] := by
  have e : m ++ str% " " ++ p ++ str% " HTTP/1.1\n" = m ++ ' ' :: (p ++ ' ' :: (str% "HTTP/1.1" ++ ['\n'])) := by simp
  rw [e, splitAsciiWs, go_word hm', List.nil_append, go_sep rfl hm, go_word hp', List.nil_append, go_sep rfl hp,
    go_word (by decide), List.nil_append, go_sep rfl (by simp)]
  rfl

/-- The words of a text: non-empty and without whitespace. -/
theorem go_words : ∀ {s cur : Str}, (∀ c ∈ cur, isAsciiWs c = false) → ∀ w ∈ splitAsciiWs.go cur s,
    w ≠ [] ∧ ∀ c ∈ w, isAsciiWs c = false
  | [], cur, h => by
    intro w hw
    rw [splitAsciiWs.go] at hw
    split at hw
    · cases hw
    · rename_i hne
      simp only [List.mem_singleton] at hw
      subst hw
      exact ⟨by simpa using hne, h⟩
  | c :: s, cur, h => by
    intro w hw
    rw [splitAsciiWs.go] at hw
    split at hw
    · split at hw
      · exact go_words (by simp) w hw
      · rename_i hne
        rcases List.mem_cons.1 hw with rfl | hw
        · exact ⟨by simpa using hne, h⟩
        · exact go_words (by simp) w hw
    · rename_i hc
      refine go_words ?_ w hw
      intro d hd
      rcases List.mem_append.1 hd with hd | hd
      · exact h d hd
      · simp only [List.mem_singleton] at hd
        subst hd
        simpa using hc

theorem splitAsciiWs_words {s w : Str} (h : w ∈ splitAsciiWs s) : w ≠ [] ∧ ∀ c ∈ w, isAsciiWs c = false :=
  go_words (by simp) w h

variable [Deps]

theorem tchar_plain {c : Char} (h : Sfv.isTchar c = true) :
    isRustWhitespace c = false ∧ isAsciiWs c = false ∧ c ≠ ':' ∧ c ≠ '\n' := by
  simp only [Sfv.isTchar, isRustWhitespace, isAsciiWs, Char.isAlphanum, Char.isAlpha, Bool.or_eq_true, Bool.and_eq_true,
    beq_iff_eq, decide_eq_true_eq, Sfv.isLower_iff, Sfv.isUpper_iff, Sfv.isDigit_iff, Sfv.char_eq_iff, ne_eq,
    Char.reduceToNat, Bool.eq_false_iff] at h ⊢
  omega

theorem headerNameChar_plain {c : Char} (h : isHeaderNameChar c = true) :
    isRustWhitespace c = false ∧ c ≠ ':' ∧ c ≠ '\n' := by
  unfold isHeaderNameChar at h
  simp only [Bool.or_eq_true, Bool.and_eq_true, beq_iff_eq] at h
  rcases h with h | h
  · have := tchar_plain h.1
    exact ⟨this.1, this.2.2⟩
  · rw [h.1]; decide

theorem HeaderName.char_ok (n : HeaderName) : ∀ c ∈ n.str, isHeaderNameChar c = true := by
  have := n.ok
  unfold validHeaderName at this
  simp only [Bool.and_eq_true, List.all_eq_true] at this
  exact this.2

theorem HeaderName.str_ne_nil (n : HeaderName) : n.str ≠ [] := by
  have := n.ok
  unfold validHeaderName at this
  simp only [Bool.and_eq_true, Bool.not_eq_true', List.isEmpty_eq_false_iff] at this
  exact this.1.1

theorem HeaderName.fromStr_str' (n : HeaderName) : HeaderName.fromStr n.str = some n := by
  have e : n.str.map asciiLower = n.str := by
    conv => rhs; rw [← List.map_id n.str]
    apply List.map_congr_left
    intro c hc
    have := n.char_ok c hc
    unfold isHeaderNameChar at this
    simp only [Bool.or_eq_true, Bool.and_eq_true, beq_iff_eq, Bool.not_eq_true'] at this
    unfold asciiLower
    rw [if_neg, id]
    rcases this with h | h
    · simp [h.2]
    · rw [h.1]; decide
  unfold HeaderName.fromStr
  simp only [e, n.ok, dite_true]

theorem char_ofNat_small : ∀ {n : Nat}, n < 128 → (Char.ofNat n).toNat = n := by
  have : ∀ n : Nat, n < 128 → (Char.ofNat n).toNat = n := by decide
  exact fun {n} h => this n h

theorem toStr_facts {v : HeaderValue} {s : Str} (h : v.toStr = some s) :
    HeaderValue.fromStr s = some v ∧ ∀ c ∈ s, isVisibleChar c = true := by
  unfold HeaderValue.toStr at h
  split at h
  · rename_i hv
    cases h
    have hb : ∀ b ∈ v.bytes, b.toNat < 128 ∧ isVisibleChar (Char.ofNat b.toNat) = true := by
      intro b hb
      have := List.all_eq_true.1 hv b hb
      have hlt : b.toNat < 128 := by
        simp only [isVisibleByte, Bool.or_eq_true, Bool.and_eq_true, decide_eq_true_eq, beq_iff_eq] at this
        omega
      refine ⟨hlt, ?_⟩
      unfold isVisibleChar
      rw [char_ofNat_small hlt]
      exact this
    have hm : ∀ c ∈ v.bytes.map fun b => Char.ofNat b.toNat, isVisibleChar c = true := by
      intro c hc
      obtain ⟨b, hb', rfl⟩ := List.mem_map.1 hc
      exact (hb b hb').2
    refine ⟨?_, hm⟩
    have hu := utf8_ascii (s := v.bytes.map fun b => Char.ofNat b.toNat) (by
      intro c hc
      have := hm c hc
      simp only [isVisibleChar, Bool.or_eq_true, Bool.and_eq_true, decide_eq_true_eq, beq_iff_eq] at this
      omega)
    have e : utf8 (v.bytes.map fun b => Char.ofNat b.toNat) = v.bytes := by
      rw [hu, List.map_map]
      conv => rhs; rw [← List.map_id v.bytes]
      apply List.map_congr_left
      intro b hb'
      simp only [Function.comp, id]
      rw [char_ofNat_small (hb b hb').1]
      simp
    unfold HeaderValue.fromStr HeaderValue.fromBytes
    simp only [e, v.ok, dite_true]
  · cases h

theorem newline_not_visible {s : Str} (h : ∀ c ∈ s, isVisibleChar c = true) : '\n' ∉ s := fun hm => by
  have := h _ hm
  exact absurd this (by decide)

/-- Inserting a new name appends. -/
theorem HeaderMap.insert_new : ∀ {m : HeaderMap} {n : HeaderName} {v : HeaderValue}, n ∉ m.map Prod.fst →
    m.insert n v = m ++ [(n, v)]
  | [], _, _, _ => rfl
  | e :: m, n, v, h => by
    simp only [List.map_cons, List.mem_cons, not_or] at h
    unfold HeaderMap.insert
    rw [if_neg (fun e => h.1 e.symm), insert_new h.2]
    rfl

theorem HeaderMap.insert_nodup : ∀ {m : HeaderMap}, (m.map Prod.fst).Nodup → ∀ (n : HeaderName) (v : HeaderValue),
    ((m.insert n v).map Prod.fst).Nodup
  | [], _, n, v => by simp [HeaderMap.insert]
  | e :: m, h, n, v => by
    rw [List.map_cons, List.nodup_cons] at h
    unfold HeaderMap.insert
    split
    · rw [List.map_cons, List.nodup_cons]
      refine ⟨?_, (List.Sublist.map _ List.filter_sublist).nodup h.2⟩
      intro hm
      obtain ⟨f, hf, h1⟩ := List.mem_map.1 hm
      simpa [h1] using (List.mem_filter.1 hf).2
    · rename_i hne
      rw [List.map_cons, List.nodup_cons]
      refine ⟨?_, insert_nodup h.2 n v⟩
      intro hm
      obtain ⟨f, hf, h1⟩ := List.mem_map.1 hm
      rcases HeaderMap.mem_insert hf with hf | rfl
      · exact h.1 (h1 ▸ List.mem_map_of_mem hf)
      · exact hne h1.symm

/-- One header line is read back. -/
theorem readHeaders_line {acc : HeaderMap} {n : HeaderName} {v : HeaderValue} {s : Str} {rest : Bytes}
    (hv : v.toStr = some s) (hs : Trimmed isRustWhitespace s s) :
    MockRequest.readHeaders acc (utf8 (n.str ++ str% ": " ++ s ++ str% "\n") ++ rest) =
      MockRequest.readHeaders (acc.insert n v) rest := by
  obtain ⟨hfs, hvis⟩ := toStr_facts hv
  have hline : readLine (utf8 (n.str ++ str% ": " ++ s ++ str% "\n") ++ rest) =
      (utf8 (n.str ++ str% ": " ++ s ++ str% "\n"), rest) := by
    apply readLine_text
    simp only [List.mem_append, not_or]
    exact ⟨⟨fun hm => (headerNameChar_plain (n.char_ok _ hm)).2.2 rfl, by decide⟩, newline_not_visible hvis⟩
  have hne : utf8 (n.str ++ str% ": " ++ s ++ str% "\n") ++ rest ≠ [] := by
    rw [utf8_append]
    simp [show utf8 (str% "\n") = [10] from rfl]
  obtain ⟨a, b, e, ha, hb, hh, hl⟩ := hs
  have htrimv : trim (str% " " ++ s ++ str% "\n") = s :=
    trimmed_iff.1 ⟨_, _, rfl, by decide, by decide, hh, hl⟩
  have htrimn : trim n.str = n.str := by
    have := trimMatches_wrap (p := isRustWhitespace) (a := []) (t := n.str) (b := []) (by simp) (by simp)
      fun c hc => (headerNameChar_plain (n.char_ok c hc)).1
    rw [List.nil_append, List.append_nil] at this
    exact this
  have hsplit : splitOnce ':' (n.str ++ str% ": " ++ s ++ str% "\n") = some (n.str, str% " " ++ s ++ str% "\n") :=
    splitOnce_eq_some.2 ⟨by simp, fun hm => (headerNameChar_plain (n.char_ok _ hm)).2.1 rfl⟩
  have hnonempty : (trim (n.str ++ str% ": " ++ s ++ str% "\n")).isEmpty = false := by
    rw [List.isEmpty_eq_false_iff]
    intro e
    obtain ⟨a, b, e2, ha, hb, -⟩ := trimmed_iff.2 e
    obtain ⟨c, hc⟩ := List.exists_mem_of_ne_nil _ n.str_ne_nil
    have hm : c ∈ n.str ++ str% ": " ++ s ++ str% "\n" := by simp [hc]
    have hw : isRustWhitespace c = true := by
      rw [e2] at hm
      simp only [List.append_nil, List.mem_append] at hm
      exact hm.elim (ha c) (hb c)
    rw [(headerNameChar_plain (n.char_ok c hc)).1] at hw
    cases hw
  rw [MockRequest.readHeaders.eq_def, dif_neg hne, hline]
  simp only [utf8Decode_utf8, hnonempty, Bool.false_eq_true, if_false, hsplit, htrimn, htrimv, n.fromStr_str', hfs]

theorem readHeaders_lines {hs : HeaderMap} : ∀ {acc : HeaderMap} {text : Str} {rest : Bytes},
    MockRequest.writeHeaders hs = some text → ((acc ++ hs).map Prod.fst).Nodup →
    (∀ e ∈ hs, ∀ s, e.2.toStr = some s → Trimmed isRustWhitespace s s) →
    MockRequest.readHeaders acc (utf8 text ++ rest) = MockRequest.readHeaders (acc ++ hs) rest := by
  induction hs with
  | nil =>
    intro acc text rest hw _ _
    cases hw
    simp [utf8]
  | cons e hs ih =>
    obtain ⟨n, v⟩ := e
    intro acc text rest hw hnd ht
    rw [MockRequest.writeHeaders] at hw
    cases hv : v.toStr with
    | none => rw [hv] at hw; cases hw
    | some s =>
      cases hr : MockRequest.writeHeaders hs with
      | none => rw [hv, hr] at hw; cases hw
      | some text' =>
        rw [hv, hr] at hw
        cases hw
        have hnew : n ∉ acc.map Prod.fst := by
          rw [List.map_append, List.nodup_append] at hnd
          intro hm
          exact hnd.2.2 n hm n (by simp) rfl
        rw [utf8_append, List.append_assoc, readHeaders_line hv (ht (n, v) (by simp) s hv), HeaderMap.insert_new hnew,
          ih hr (by simpa using hnd) fun e he => ht e (by simp [he])]
        simp

theorem readHeaders_end (acc : HeaderMap) : MockRequest.readHeaders acc [] = some (acc, false, []) := by
  rw [MockRequest.readHeaders.eq_def, dif_pos rfl]

theorem readHeaders_blank (acc : HeaderMap) (b : Bytes) :
    MockRequest.readHeaders acc (10 :: b) = some (acc, true, b) := by
  rw [MockRequest.readHeaders.eq_def, dif_neg (by simp)]
  have e : readLine (10 :: b) = ([10], b) := rfl
  have e2 : utf8Decode [10] = some ['\n'] := utf8Decode_utf8 ['\n']
  rw [e]
  simp only [e2]
  rfl

/-- What reading produces: names occur once, and values carry no surrounding whitespace. -/
theorem readHeaders_inv : ∀ {input : Bytes} {acc hs : HeaderMap} {b : Bool} {rest : Bytes},
    MockRequest.readHeaders acc input = some (hs, b, rest) → (acc.map Prod.fst).Nodup →
    (∀ e ∈ acc, ∀ s, e.2.toStr = some s → Trimmed isRustWhitespace s s) →
    (hs.map Prod.fst).Nodup ∧ ∀ e ∈ hs, ∀ s, e.2.toStr = some s → Trimmed isRustWhitespace s s := by
  intro input
  induction hn : input.length using Nat.strongRecOn generalizing input with
  | ind k ih =>
    intro acc hs b rest h hnd ht
    subst hn
    rw [MockRequest.readHeaders.eq_def] at h
    split at h
    · cases h; exact ⟨hnd, ht⟩
    · rename_i hin
      split at h
      · cases h
      · split at h
        · cases h; exact ⟨hnd, ht⟩
        · split at h
          · cases h
          · split at h
            · rename_i h1 h2
              refine ih _ ?_ rfl h (HeaderMap.insert_nodup hnd _ _) ?_
              · have h := congrArg List.length (readLine_append input)
                have h2 := List.length_pos_iff.mpr (readLine_fst_ne_nil hin)
                simp at h
                omega
              · intro e he s hs
                rcases HeaderMap.mem_insert he with he | rfl
                · exact ht e he s hs
                · cases toStr_fromStr h2 hs
                  obtain ⟨a, b, e, -, -, h3, h4⟩ := trimmed_iff.2 (Eq.refl (trimMatches isRustWhitespace _))
                  exact ⟨[], [], by simp, by simp, by simp, h3, h4⟩
            · cases h

end Httpsig
