import Verif.Spec.Cli
import Verif.Lemmas.Reader
import Verif.Lemmas.Sign
/- The validator's files and options. -/
set_option linter.unusedSectionVars false
namespace Httpsig

theorem blank_iff {c : Char} : isAsciiWs c = true ↔ Blank c := by
  simp [isAsciiWs, Blank, or_assoc]

theorem not_blank_iff {c : Char} : isAsciiWs c = false ↔ ¬ Blank c := by
  rw [← blank_iff]; simp

theorem go_blanks {a : Str} (h : ∀ c ∈ a, Blank c) (s : Str) : splitAsciiWs.go [] (a ++ s) = splitAsciiWs.go [] s := by
  induction a with
  | nil => rfl
  | cons c a ih =>
    rw [List.cons_append, splitAsciiWs.go, if_pos (blank_iff.2 (h c (by simp)))]
    simp only [List.isEmpty_nil, if_true]
    exact ih fun d hd => h d (by simp [hd])

theorem words_split {s : Str} {ws : List Str} (h : Words s ws) : splitAsciiWs s = ws := by
  unfold splitAsciiWs
  induction h with
  | nil h =>
    rename_i s
    have := go_blanks h []
    rw [List.append_nil] at this
    rw [this]
    rfl
  | cons ha hw hw' hr hrest ih =>
    rename_i a w rest ws
    rw [List.append_assoc, go_blanks ha, go_word fun c hc => not_blank_iff.2 (hw' c hc), List.nil_append]
    cases rest with
    | nil =>
      rw [← ih]
      simp [splitAsciiWs.go, hw]
    | cons c rest =>
      have hc := blank_iff.2 (hr c (by simp))
      rw [go_sep hc hw]
      rw [splitAsciiWs.go, if_pos hc] at ih
      simp only [List.isEmpty_nil, if_true] at ih
      rw [ih]

theorem words_exist : ∀ (s : Str), ∃ ws, Words s ws := by
  intro s
  induction hn : s.length using Nat.strongRecOn generalizing s with
  | ind n ih =>
    subst hn
    by_cases hall : ∀ c ∈ s, Blank c
    · exact ⟨[], .nil hall⟩
    have hs : s = s.takeWhile isAsciiWs ++ s.dropWhile isAsciiWs := (List.takeWhile_append_dropWhile (p := isAsciiWs)).symm
    have ha : ∀ c ∈ s.takeWhile isAsciiWs, Blank c := fun c hc => blank_iff.1 (takeWhile_all c hc)
    have hb := head_dropWhile (p := isAsciiWs) (s := s)
    generalize s.takeWhile isAsciiWs = a at hs ha
    generalize s.dropWhile isAsciiWs = t at hs hb
    have ht : t = t.takeWhile (fun c => !isAsciiWs c) ++ t.dropWhile (fun c => !isAsciiWs c) :=
      (List.takeWhile_append_dropWhile (p := fun c => !isAsciiWs c)).symm
    have hw : ∀ c ∈ t.takeWhile (fun c => !isAsciiWs c), ¬ Blank c := fun c hc =>
      not_blank_iff.1 (by simpa using takeWhile_all c hc)
    have hne : t.takeWhile (fun c => !isAsciiWs c) ≠ [] := by
      cases t with
      | nil =>
        rw [List.append_nil] at hs
        exact absurd (hs ▸ ha) hall
      | cons c t =>
        have := hb c (by simp)
        simp [this]
    have hd := head_dropWhile (p := fun c => !isAsciiWs c) (s := t)
    generalize t.takeWhile (fun c => !isAsciiWs c) = w at ht hw hne
    generalize t.dropWhile (fun c => !isAsciiWs c) = rest at ht hd
    obtain ⟨ws, hws⟩ := ih rest.length (by
      rw [hs, ht]
      simp only [List.length_append]
      have := List.length_pos_iff.2 hne
      omega) rest rfl
    refine ⟨w :: ws, ?_⟩
    rw [hs, ht, ← List.append_assoc]
    exact .cons ha hne hw (fun c hc => blank_iff.1 (by simpa using hd c hc)) hws

theorem words_iff {s : Str} {ws : List Str} : Words s ws ↔ splitAsciiWs s = ws := by
  refine ⟨words_split, fun h => ?_⟩
  obtain ⟨ws', h'⟩ := words_exist s
  rw [words_split h'] at h
  exact h ▸ h'

variable [Deps]

theorem urlOf_iff {path : Str} {headers : HeaderMap} {url : Url} :
    UrlOf path headers url ↔ MockRequest.deriveUrl path headers = .ok (some url) := by
  unfold UrlOf MockRequest.deriveUrl
  rw [HeaderMap.get_eq_head_getAll]
  constructor
  · rintro (h | ⟨h, v, t, h1, h2, h3⟩)
    · rw [h]
    · rw [h]
      simp only [h1, h2, h3]
  · intro h
    split at h
    · rename_i u hu
      cases h
      exact .inl hu
    · cases h
    · rename_i hrel
      right
      refine ⟨hrel, ?_⟩
      split at h
      · cases h
      · rename_i v hv
        split at h
        · cases h
        · rename_i t ht
          split at h
          · rename_i u hu
            cases h
            exact ⟨v, t, hv, ht, hu⟩
          · cases h

theorem utf8Decode_none {b : Bytes} : utf8Decode b = none ↔ ∀ s, utf8 s ≠ b := by
  constructor
  · rintro h s rfl
    rw [utf8Decode_utf8] at h
    cases h
  · intro h
    unfold utf8Decode
    rw [if_neg (h _)]

theorem Method.ofStr_str (m : Method) : Method.ofStr m.str = some m := by
  unfold Method.ofStr
  rw [dif_pos m.ok]

theorem Method.chars (m : Method) : m.str ≠ [] ∧ ∀ c ∈ m.str, Sfv.isTchar c = true := by
  have := m.ok
  simp only [Bool.and_eq_true, Bool.not_eq_true', List.isEmpty_eq_false_iff, List.all_eq_true] at this
  exact this

/-- The request line is read back. -/
theorem readRequestLine {m : Method} {p : Str} (hp : p ≠ []) (hp' : ∀ c ∈ p, ¬ Blank c) (rest : Bytes) :
    readLine (utf8 (m.str ++ str% " " ++ p ++ str% " HTTP/1.1\n") ++ rest) =
      (utf8 (m.str ++ str% " " ++ p ++ str% " HTTP/1.1\n"), rest) ∧
    splitAsciiWs (m.str ++ str% " " ++ p ++ str% " HTTP/1.1\n") = [m.str, p, str% "HTTP/1.1"] := by
  constructor
  · have e : m.str ++ str% " " ++ p ++ str% " HTTP/1.1\n" = (m.str ++ str% " " ++ p ++ str% " HTTP/1.1") ++ ['\n'] := by simp
    rw [e]
    apply readLine_text
    simp only [List.mem_append, not_or]
    exact ⟨⟨⟨fun h => (tchar_plain (m.chars.2 _ h)).2.2.2 rfl, by decide⟩, fun h => hp' _ h (by simp [Blank])⟩, by decide⟩
  · exact splitAsciiWs_requestLine m.chars.1 hp (fun c hc => (tchar_plain (m.chars.2 c hc)).2.1)
      fun c hc => not_blank_iff.2 (hp' c hc)

end Httpsig
