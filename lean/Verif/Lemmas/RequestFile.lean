import Verif.Spec.RequestFile
import Verif.Lemmas.Cli
/-
The reader of request files against the grammar.
-/
set_option linter.unusedSectionVars false
namespace Httpsig
variable [Deps]

theorem readLine_no_newline : ∀ {a : Bytes}, 10 ∉ a → readLine a = (a, [])
  | [], _ => rfl
  | x :: a, h => by
    simp only [List.mem_cons, not_or] at h
    unfold readLine
    rw [if_neg (fun e => h.1 e.symm), readLine_no_newline h.2]

theorem readLine_cases : ∀ (input : Bytes), (∃ a b, 10 ∉ a ∧ input = a ++ 10 :: b) ∨ 10 ∉ input
  | [] => .inr (by simp)
  | x :: a => by
    by_cases hx : x = 10
    · exact .inl ⟨[], a, by simp, by rw [hx]; rfl⟩
    · rcases readLine_cases a with ⟨c, b, hc, rfl⟩ | h
      · exact .inl ⟨x :: c, b, by simp [hc, Ne.symm hx], rfl⟩
      · exact .inr (by simp [h, Ne.symm hx])

theorem newline_not_mem_utf8 {s : Str} (h : '\n' ∉ s) : (10 : UInt8) ∉ utf8 s := fun hm => h (newline_mem_utf8 hm)

theorem utf8_newline (l t : Str) : utf8 (l ++ '\n' :: t) = utf8 l ++ 10 :: utf8 t := by
  rw [utf8_append]; rfl

theorem utf8_eq_nil {s : Str} (h : utf8 s = []) : s = [] := utf8_injective (h.trans rfl)

theorem append_sep_inj {a a' b b' : Bytes} (ha : 10 ∉ a) (ha' : 10 ∉ a') (h : a ++ 10 :: b = a' ++ 10 :: b') : a = a' ∧ b = b' := by
  have h1 := readLine_line (b := b) ha
  rw [h, readLine_line ha'] at h1
  simp only [Prod.mk.injEq, List.append_cancel_right_eq] at h1
  exact ⟨h1.1.symm, h1.2.symm⟩

/-- What `read_line` gives, in terms of the grammar: the line with its line feed, or the last line without. -/
theorem readLine_textLine {input : Bytes} {line : Str} (h : utf8Decode (readLine input).1 = some line) :
    ∃ l, TextLine input l (readLine input).2 ∧ (line = l ++ ['\n'] ∨ line = l) := by
  have hline : utf8 line = (readLine input).1 := by
    unfold utf8Decode at h
    split at h
    · rename_i h2; cases h; exact h2
    · cases h
  rcases readLine_cases input with ⟨a, b, ha, rfl⟩ | hn
  · rw [readLine_line ha] at hline ⊢
    simp only at hline ⊢
    have hm : '\n' ∈ line := newline_mem_utf8 (by rw [hline]; simp)
    cases hs : splitOnce '\n' line with
    | none => exact absurd hm (splitOnce_eq_none.1 hs)
    | some p =>
      obtain ⟨l, t⟩ := p
      obtain ⟨rfl, hl⟩ := splitOnce_eq_some.1 hs
      rw [utf8_newline] at hline
      obtain ⟨e1, e2⟩ := append_sep_inj (newline_not_mem_utf8 hl) ha hline
      subst e1
      rw [utf8_eq_nil e2]
      exact ⟨l, .full hl, .inl rfl⟩
  · rw [readLine_no_newline hn] at hline ⊢
    simp only at hline ⊢
    subst hline
    refine ⟨line, .last ?_, .inr rfl⟩
    intro hm
    obtain ⟨l, t, rfl⟩ := List.append_of_mem hm
    rw [utf8_newline] at hn
    simp at hn

theorem textLine_readLine {input rest : Bytes} {l : Str} (h : TextLine input l rest) :
    (readLine input).2 = rest ∧ ∃ line, utf8Decode (readLine input).1 = some line ∧ (line = l ++ ['\n'] ∨ line = l) := by
  cases h with
  | full h =>
    rw [readLine_line (newline_not_mem_utf8 h)]
    refine ⟨rfl, l ++ ['\n'], ?_, .inl rfl⟩
    have : utf8 l ++ [10] = utf8 (l ++ ['\n']) := (utf8_newline l []).symm
    rw [this, utf8Decode_utf8]
  | last h =>
    rw [readLine_no_newline (newline_not_mem_utf8 h)]
    exact ⟨rfl, l, utf8Decode_utf8 l, .inr rfl⟩

/-! ### A line feed at the end makes no difference -/

theorem words_newline {s : Str} {ws : List Str} (h : Words s ws) : Words (s ++ ['\n']) ws := by
  induction h with
  | nil h =>
    refine .nil fun c hc => ?_
    rcases List.mem_append.1 hc with hc | hc
    · exact h c hc
    · rw [List.mem_singleton.1 hc]; unfold Blank; decide
  | @cons a w rest ws h1 h2 h3 h4 _ ih =>
    rw [List.append_assoc]
    refine .cons h1 h2 h3 ?_ ih
    cases rest with
    | nil => intro c hc; simp at hc; subst hc; unfold Blank; decide
    | cons x r => exact h4

theorem words_line {l line : Str} (h : line = l ++ ['\n'] ∨ line = l) (ws : List Str) : Words line ws ↔ Words l ws := by
  rcases h with rfl | rfl
  · rw [words_iff]
    obtain ⟨ws', h'⟩ := words_exist l
    have h2 := words_split (words_newline h')
    rw [words_iff, h2, words_split h']
  · rfl

theorem trimmed_newline {v t : Str} (h : Trimmed isRustWhitespace v t) : Trimmed isRustWhitespace (v ++ ['\n']) t := by
  obtain ⟨a, b, rfl, h1, h2, h3, h4⟩ := h
  refine ⟨a, b ++ ['\n'], by simp, h1, ?_, h3, h4⟩
  intro c hc
  rcases List.mem_append.1 hc with hc | hc
  · exact h2 c hc
  · rw [List.mem_singleton.1 hc]; decide

theorem trim_newline (v : Str) : trim (v ++ ['\n']) = trim v :=
  trimmed_iff.1 (trimmed_newline (trimmed_iff.2 rfl))

theorem trim_isEmpty {l : Str} : (trim l).isEmpty = true ↔ ∀ c ∈ l, isRustWhitespace c = true := by
  constructor
  · intro h
    obtain ⟨a, b, e, h1, h2, _, _⟩ := trimmed_iff.2 (Eq.refl (trimMatches isRustWhitespace l))
    have : trimMatches isRustWhitespace l = [] := List.isEmpty_iff.1 h
    rw [this, List.append_nil] at e
    rw [e]
    intro c hc
    rcases List.mem_append.1 hc with hc | hc
    · exact h1 c hc
    · exact h2 c hc
  · intro h
    have : Trimmed isRustWhitespace l [] := ⟨l, [], by simp, h, by simp, by simp, by simp⟩
    exact List.isEmpty_iff.2 (trimmed_iff.1 this)

theorem trim_line {l line : Str} (h : line = l ++ ['\n'] ∨ line = l) : trim line = trim l := by
  rcases h with rfl | rfl
  · exact trim_newline l
  · rfl

theorem header_name_iff {s : Str} {n : HeaderName} : HeaderName.fromStr s = some n ↔ n.str = s.map asciiLower := by
  unfold HeaderName.fromStr
  constructor
  · intro h
    split at h
    · cases h; rfl
    · cases h
  · intro h
    have hok := n.ok
    rw [h] at hok
    rw [dif_pos hok]
    congr 1
    cases n
    simp only at h
    subst h
    rfl

theorem header_value_iff {s : Str} {v : HeaderValue} : HeaderValue.fromStr s = some v ↔ v.bytes = utf8 s := by
  unfold HeaderValue.fromStr HeaderValue.fromBytes
  constructor
  · intro h
    split at h
    · cases h; rfl
    · cases h
  · intro h
    have hok := v.ok
    rw [h] at hok
    rw [dif_pos hok]
    congr 1
    cases v
    simp only at h
    subst h
    rfl

/-- One step of the header loop. -/
theorem readHeaders_step {input : Bytes} (hin : input ≠ []) (acc : HeaderMap) {hs : HeaderMap} {b : Bool} {rest : Bytes} :
    MockRequest.readHeaders acc input = some (hs, b, rest) ↔
      ∃ l, TextLine input l (readLine input).2 ∧
        (((∀ c ∈ l, isRustWhitespace c = true) ∧ hs = acc ∧ b = true ∧ rest = (readLine input).2) ∨
        ∃ n v n' v' name value, l = n ++ ':' :: v ∧ ':' ∉ n ∧ Trimmed isRustWhitespace n n' ∧ Trimmed isRustWhitespace v v' ∧
          name.str = n'.map asciiLower ∧ value.bytes = utf8 v' ∧
          MockRequest.readHeaders (acc.insert name value) (readLine input).2 = some (hs, b, rest)) := by
  rw [MockRequest.readHeaders.eq_def, dif_neg hin]
  constructor
  · intro h
    split at h
    · cases h
    · rename_i line hd
      obtain ⟨l, hl, hor⟩ := readLine_textLine hd
      refine ⟨l, hl, ?_⟩
      rw [trim_line hor] at h
      split at h
      · rename_i he
        cases h
        exact .inl ⟨trim_isEmpty.1 he, rfl, rfl, rfl⟩
      · split at h
        · cases h
        · rename_i n v hsp
          obtain ⟨hline, hn⟩ := splitOnce_eq_some.1 hsp
          split at h
          · rename_i name value h1 h2
            rcases hor with rfl | rfl
            · -- the line feed belongs to the value
              have hv : ∃ v0, v = v0 ++ ['\n'] ∧ l = n ++ ':' :: v0 := by
                rcases List.eq_nil_or_concat v with rfl | ⟨v0, c, rfl⟩
                · rw [List.append_eq_append_iff] at hline
                  rcases hline with ⟨t, ht1, ht2⟩ | ⟨t, ht1, ht2⟩
                  · cases t with
                    | nil => simp at ht2
                    | cons x t => simp at ht2
                  · cases t with
                    | nil => simp at ht2
                    | cons x t => simp at ht2
                · have e : n ++ ':' :: (v0 ++ [c]) = (n ++ ':' :: v0) ++ [c] := by simp
                  rw [List.concat_eq_append, e] at hline
                  have := List.append_inj' hline rfl
                  refine ⟨v0, ?_, this.1⟩
                  rw [List.concat_eq_append, ← this.2]
              obtain ⟨v0, rfl, rfl⟩ := hv
              rw [trim_newline] at h2
              exact .inr ⟨n, v0, _, _, name, value, rfl, hn, trimmed_iff.2 rfl, trimmed_iff.2 rfl, header_name_iff.1 h1,
                header_value_iff.1 h2, h⟩
            · subst hline
              exact .inr ⟨n, v, _, _, name, value, rfl, hn, trimmed_iff.2 rfl, trimmed_iff.2 rfl, header_name_iff.1 h1,
                header_value_iff.1 h2, h⟩
          · cases h
  · rintro ⟨l, hl, hcase⟩
    obtain ⟨_, line, hd, hor⟩ := textLine_readLine hl
    rw [hd]
    simp only [trim_line hor]
    rcases hcase with ⟨hb, rfl, rfl, rfl⟩ | ⟨n, v, n', v', name, value, rfl, hn, h1, h2, h3, h4, h5⟩
    · rw [if_pos (trim_isEmpty.2 hb)]
    · have hnb : ¬ (trim (n ++ ':' :: v)).isEmpty = true := by
        rw [trim_isEmpty]
        intro hall
        exact absurd (hall ':' (by simp)) (by decide)
      rw [if_neg hnb]
      have e1 : trim n = n' := trimmed_iff.1 h1
      have e2 : trim v = v' := trimmed_iff.1 h2
      rcases hor with rfl | rfl
      · have hsp : splitOnce ':' (n ++ ':' :: v ++ ['\n']) = some (n, v ++ ['\n']) :=
          splitOnce_eq_some.2 ⟨by simp, hn⟩
        rw [hsp]
        simp only [trim_newline, e1, e2, header_name_iff.2 h3, header_value_iff.2 h4]
        exact h5
      · rw [splitOnce_eq_some.2 ⟨rfl, hn⟩]
        simp only [e1, e2, header_name_iff.2 h3, header_value_iff.2 h4]
        exact h5

/-- All header lines, in order. -/
theorem readHeaders_block : ∀ {input : Bytes} {acc hs : HeaderMap} {b : Bool} {rest : Bytes},
    MockRequest.readHeaders acc input = some (hs, b, rest) ↔
      ∃ lines, HeaderBlock input lines (if b then some rest else none) ∧ (b = false → rest = []) ∧
        hs = lines.foldl (fun (m : HeaderMap) e => m.insert e.1 e.2) acc := by
  intro input
  induction hn : input.length using Nat.strongRecOn generalizing input with
  | ind k ih =>
    intro acc hs b rest
    subst hn
    by_cases hin : input = []
    · subst hin
      rw [readHeaders_end]
      constructor
      · intro h; cases h; exact ⟨[], .endOfFile, fun _ => rfl, rfl⟩
      · rintro ⟨lines, hb, hr, rfl⟩
        cases b with
        | true =>
          exfalso
          simp only [if_true] at hb
          cases hb with
          | blank h _ _ => exact h rfl
          | header hl =>
            have := (textLine_readLine hl).2
            simp only [readLine] at this
            obtain ⟨line, h1, h2⟩ := this
            rw [show utf8Decode [] = some [] from utf8Decode_utf8 []] at h1
            cases h1
            rcases h2 with h2 | h2 <;> simp at h2
        | false =>
          simp only [Bool.false_eq_true, if_false] at hb
          cases hr rfl
          cases hb with
          | endOfFile => rfl
          | header hl =>
            exfalso
            obtain ⟨line, h1, h2⟩ := (textLine_readLine hl).2
            simp only [readLine] at h1
            rw [show utf8Decode [] = some [] from utf8Decode_utf8 []] at h1
            cases h1
            rcases h2 with h2 | h2 <;> simp at h2
    · have hlt : (readLine input).2.length < input.length := by
        have h := congrArg List.length (readLine_append input)
        have h2 := List.length_pos_iff.mpr (readLine_fst_ne_nil hin)
        simp at h
        omega
      rw [readHeaders_step hin]
      constructor
      · rintro ⟨l, hl, ⟨hb, rfl, rfl, rfl⟩ | ⟨n, v, n', v', name, value, rfl, hn, h1, h2, h3, h4, h5⟩⟩
        · exact ⟨[], by simpa using HeaderBlock.blank hin hl (isRustWhitespace_eq ▸ hb), by simp, rfl⟩
        · obtain ⟨lines, hb, hr, he⟩ := (ih _ hlt rfl).1 h5
          exact ⟨(name, value) :: lines, .header hl hn (isRustWhitespace_eq ▸ h1) (isRustWhitespace_eq ▸ h2) (lowered_eq _ ▸ h3) h4 hb, hr, he⟩
      · rintro ⟨lines, hb, hr, he⟩
        generalize hbody : (if b then some rest else none) = body at hb
        cases hb with
        | endOfFile => exact absurd rfl hin
        | @blank _ rest' l _ hl hws =>
          cases b with
          | false => cases hbody
          | true =>
            simp only [if_true, Option.some.injEq] at hbody
            have := (textLine_readLine hl).1
            subst hbody
            exact ⟨l, this ▸ hl, .inl ⟨isRustWhitespace_eq ▸ hws, he, rfl, this.symm⟩⟩
        | @header _ rest' n v n' v' name value lines body hl hn h1 h2 h3 h4 hblock =>
          have := (textLine_readLine hl).1
          refine ⟨_, this ▸ hl, .inr ⟨n, v, n', v', name, value, rfl, hn, isRustWhitespace_eq ▸ h1, isRustWhitespace_eq ▸ h2, lowered_eq _ ▸ h3, h4, ?_⟩⟩
          rw [ih _ hlt rfl, this]
          exact ⟨lines, by rw [hbody]; exact hblock, hr, he⟩

/-! ### Last values -/

theorem map_fst_insert : ∀ (m : HeaderMap) (n : HeaderName) (v : HeaderValue), (m.map Prod.fst).Nodup →
    (m.insert n v).map Prod.fst = if n ∈ m.map Prod.fst then m.map Prod.fst else m.map Prod.fst ++ [n]
  | [], n, v, _ => rfl
  | e :: m, n, v, hnd => by
    rw [List.map_cons, List.nodup_cons] at hnd
    unfold HeaderMap.insert
    by_cases he : e.1 = n
    · rw [if_pos he, if_pos (by simp [he]), List.map_cons, List.map_cons, he, List.filter_eq_self.2]
      intro f hf
      simp only [ne_eq, decide_not, Bool.not_eq_true', decide_eq_false_iff_not]
      rintro rfl
      exact hnd.1 (he ▸ List.mem_map_of_mem hf)
    · rw [if_neg he, List.map_cons, map_fst_insert m n v hnd.2]
      by_cases hm : n ∈ m.map Prod.fst
      · rw [if_pos hm, List.map_cons, if_pos (List.mem_cons_of_mem _ hm)]
      · rw [if_neg hm, if_neg]
        · rfl
        · simp only [List.map_cons, List.mem_cons, not_or]
          exact ⟨fun h => he h.symm, hm⟩

theorem lastValues_insert {lines m : HeaderMap} (h : LastValues lines m) (hnd : (m.map Prod.fst).Nodup) (n : HeaderName)
    (v : HeaderValue) : LastValues (lines ++ [(n, v)]) (m.insert n v) := by
  obtain ⟨h1, h2⟩ := h
  constructor
  · rw [map_fst_insert m n v hnd, List.map_append, List.eraseDups_append, ← h1]
    have hm : n ∈ m.map Prod.fst ↔ n ∈ lines.map Prod.fst := by rw [h1, List.mem_eraseDups]
    by_cases hn : n ∈ lines.map Prod.fst
    · rw [if_pos (hm.2 hn)]
      have : ([(n, v)].map Prod.fst).removeAll (lines.map Prod.fst) = [] := by
        simp only [List.map_cons, List.map_nil, List.removeAll]
        rw [List.filter_cons_of_neg]
        · rfl
        · simpa using List.mem_map.1 hn
      rw [this]; simp
    · rw [if_neg (fun h => hn (hm.1 h))]
      have : ([(n, v)].map Prod.fst).removeAll (lines.map Prod.fst) = [n] := by
        simp only [List.map_cons, List.map_nil, List.removeAll]
        rw [List.filter_cons_of_pos]
        · rfl
        · simp only [Bool.not_eq_true', List.elem_eq_contains, List.contains_eq_mem, decide_eq_false_iff_not]
          exact hn
      rw [this]
      rfl
  · intro k
    by_cases hk : k = n
    · subst hk
      have := HeaderMap.getAll_insert_self m k v
      unfold HeaderMap.getAll at this
      rw [this, List.filter_append, List.map_append]
      simp
    · have := HeaderMap.getAll_insert_ne m v hk
      unfold HeaderMap.getAll at this
      rw [this, h2 k, List.filter_append, List.map_append]
      simp [Ne.symm hk]

theorem lastValues_fold : ∀ (lines : List (HeaderName × HeaderValue)) {pre m : HeaderMap}, LastValues pre m → (m.map Prod.fst).Nodup →
    LastValues (pre ++ lines) (lines.foldl (fun (m : HeaderMap) e => m.insert e.1 e.2) m) ∧
      ((lines.foldl (fun (m : HeaderMap) e => m.insert e.1 e.2) m).map Prod.fst).Nodup
  | [], pre, m, h, hnd => by simpa using ⟨h, hnd⟩
  | e :: lines, pre, m, h, hnd => by
    have := lastValues_fold lines (lastValues_insert h hnd e.1 e.2) (HeaderMap.insert_nodup hnd e.1 e.2)
    rw [List.append_assoc] at this
    exact this

/-- The headers are determined by their names, in order, and the values under each name. -/
theorem headers_ext : ∀ {a b : HeaderMap}, (a.map Prod.fst).Nodup → a.map Prod.fst = b.map Prod.fst →
    (∀ n : HeaderName, (a.filter fun e => e.1 = n).map Prod.snd = (b.filter fun e => e.1 = n).map Prod.snd) → a = b
  | [], b, _, h, _ => by
    cases b with
    | nil => rfl
    | cons => simp at h
  | e :: a, b, hnd, h, hv => by
    cases b with
    | nil => simp at h
    | cons f b =>
      simp only [List.map_cons, List.cons.injEq] at h
      obtain ⟨h1, h2⟩ := h
      rw [List.map_cons, List.nodup_cons] at hnd
      have hno : ∀ {l : HeaderMap}, e.1 ∉ l.map Prod.fst → (l.filter fun x => x.1 = e.1) = [] := by
        intro l hl
        rw [List.filter_eq_nil_iff]
        intro x hx hxe
        exact hl (by simpa using ⟨x.2, by rw [← of_decide_eq_true hxe]; exact hx⟩)
      have hef : e = f := by
        have := hv e.1
        rw [List.filter_cons_of_pos (by simp), List.filter_cons_of_pos (by simp [h1]), hno hnd.1, hno (by rw [← h2]; exact hnd.1)] at this
        simp only [List.map_cons, List.map_nil, List.cons.injEq, and_true] at this
        exact Prod.ext h1 this
      subst hef
      congr 1
      refine headers_ext hnd.2 h2 fun n => ?_
      have := hv n
      by_cases hn : e.1 = n
      · rw [List.filter_cons_of_pos (by simpa using hn), List.filter_cons_of_pos (by simpa using hn)] at this
        simpa using this
      · rw [List.filter_cons_of_neg (by simpa using hn), List.filter_cons_of_neg (by simpa using hn)] at this
        exact this

theorem lastValues_iff {lines hs : HeaderMap} : LastValues lines hs ↔ hs = lines.foldl (fun (m : HeaderMap) e => m.insert e.1 e.2) [] := by
  have hbase : LastValues [] [] := ⟨rfl, fun _ => rfl⟩
  have := lastValues_fold lines hbase (by simp)
  rw [List.nil_append] at this
  constructor
  · intro h
    refine (headers_ext this.2 (this.1.1.trans h.1.symm) fun n => ?_).symm
    rw [this.1.2 n, h.2 n]
  · rintro rfl
    exact this.1

theorem version_iff {s : Str} {v : Version} : Version.ofStr s = some v ↔ s = versionText v := by
  constructor
  · intro h
    unfold Version.ofStr at h
    repeat' split at h
    all_goals first | (cases h; assumption) | cases h
  · rintro rfl
    cases v <;> rfl

theorem method_iff {s : Str} {m : Method} : Method.ofStr s = some m ↔ s = m.str := by
  constructor
  · intro h
    unfold Method.ofStr at h
    split at h
    · cases h; rfl
    · cases h
  · rintro rfl
    exact m.ofStr_str

end Httpsig
