import Verif.Lemmas.SfvRound
/-
Every parser output is a well-formed value (`*Ok`), the remaining input is a suffix of the input and is
strictly shorter whenever something was consumed; hence the fuel of the parser loops never runs out.
-/
namespace Httpsig.Sfv

theorem dropWhile_suffix' {p : Char → Bool} (cs : Str) : cs.dropWhile p <:+ cs := List.dropWhile_suffix p

theorem ascii_of_suffix {r cs : Str} (h : r <:+ cs) (ha : isAscii cs = true) : isAscii r = true := by
  unfold isAscii at *
  rw [List.all_eq_true] at *
  intro c hc
  exact ha c (h.subset hc)

theorem parseKey_spec {cs k r : Str} (h : parseKey cs = some (k, r)) :
    KeyOk k ∧ r <:+ cs ∧ r.length < cs.length := by
  cases cs with
  | nil => simp [parseKey] at h
  | cons c cs =>
    simp only [parseKey] at h
    split at h
    · rename_i h1
      have hc : isKeyChar c = true := by clear h; charcls; omega
      rw [List.takeWhile_cons_of_pos hc, List.dropWhile_cons_of_pos hc] at h
      simp only [Option.some.injEq, Prod.mk.injEq] at h
      obtain ⟨rfl, rfl⟩ := h
      refine ⟨⟨c, _, rfl, h1, List.all_takeWhile⟩, ?_, ?_⟩
      · exact (List.dropWhile_suffix _).trans (List.suffix_cons _ _)
      · have := (List.dropWhile_suffix isKeyChar (l := cs)).length_le
        simp; omega
    · cases h

theorem parseStringBody_spec : ∀ (cs s r : Str), isAscii cs = true → parseStringBody cs = some (s, r) →
    s.all isStringChar = true ∧ r <:+ cs ∧ r.length < cs.length
  | [], s, r, _, h => by rw [parseStringBody.eq_def] at h; cases h
  | c :: cs, s, r, ha, h => by
    have ha' := ascii_of_suffix (List.suffix_cons c cs) ha
    have hc128 : c.toNat < 128 := by
      simp only [isAscii, List.all_cons, Bool.and_eq_true, decide_eq_true_eq] at ha; exact ha.1
    rw [parseStringBody.eq_def] at h
    simp only at h
    split at h
    · cases h; exact ⟨rfl, List.suffix_cons _ _, by simp⟩
    split at h
    · cases h
    rename_i hq hctl
    split at h
    · cases cs with
      | nil => cases h
      | cons d ds =>
        simp only at h
        split at h
        · rename_i hd
          rw [Option.map_eq_some_iff] at h
          obtain ⟨⟨s', r'⟩, h1, h2⟩ := h
          cases h2
          have ih := parseStringBody_spec ds s' _ (ascii_of_suffix (List.suffix_cons d ds) ha') h1
          refine ⟨?_, ih.2.1.trans ((List.suffix_cons _ _).trans (List.suffix_cons _ _)), ?_⟩
          · simp only [List.all_cons, ih.1, Bool.and_true]
            rcases hd with rfl | rfl <;> rfl
          · have := ih.2.2; simp; omega
        · cases h
    · rw [Option.map_eq_some_iff] at h
      obtain ⟨⟨s', r'⟩, h1, h2⟩ := h
      cases h2
      have ih := parseStringBody_spec cs s' _ ha' h1
      refine ⟨?_, ih.2.1.trans (List.suffix_cons _ _), ?_⟩
      · simp only [List.all_cons, ih.1, Bool.and_true]
        unfold isStringChar
        simp only [Bool.and_eq_true, decide_eq_true_eq]; omega
      · have := ih.2.2; simp; omega

theorem extractDigits_suffix {isInt : Bool} : ∀ {cs acc : Str} {b : Bool} {num r : Str},
    extractDigits isInt acc cs = some (b, num, r) → r <:+ cs ∧ num.length + r.length = acc.length + cs.length := by
  intro cs
  induction cs generalizing isInt with
  | nil => intro acc b num r h; simp [extractDigits] at h; obtain ⟨-, rfl, rfl⟩ := h; simp
  | cons c cs ih =>
    intro acc b num r h
    rw [extractDigits] at h
    split at h
    · split at h
      · cases h
      split at h
      · cases h
      have := ih h
      refine ⟨this.1.trans (List.suffix_cons _ _), ?_⟩
      simp at this ⊢; omega
    · split at h
      · split at h
        · cases h
        have := ih h
        refine ⟨this.1.trans (List.suffix_cons _ _), ?_⟩
        simp at this ⊢; omega
      · cases h; simp

theorem extractDigits_false_spec : ∀ {cs acc : Str} {b : Bool} {num r : Str},
    extractDigits false acc cs = some (b, num, r) →
    b = false ∧ ∃ fs, num = acc ++ fs ∧ ∀ c ∈ fs, c.isDigit = true := by
  intro cs
  induction cs with
  | nil => intro acc b num r h; simp [extractDigits] at h; obtain ⟨rfl, rfl, rfl⟩ := h; exact ⟨rfl, [], by simp⟩
  | cons c cs ih =>
    intro acc b num r h
    rw [extractDigits] at h
    split at h
    · rename_i hc
      split at h
      · cases h
      split at h
      · cases h
      obtain ⟨h1, fs, h2, h3⟩ := ih h
      refine ⟨h1, c :: fs, by simp [h2], ?_⟩
      intro x hx
      rcases List.mem_cons.1 hx with rfl | hx
      · exact hc
      · exact h3 x hx
    · split at h
      · rename_i h1; simp at h1
      · cases h; exact ⟨rfl, [], by simp⟩

theorem extractDigits_true_spec : ∀ {cs acc : Str} {b : Bool} {num r : Str},
    (∀ c ∈ acc, c.isDigit = true) →
    extractDigits true acc cs = some (b, num, r) →
    (b = true ∧ (∀ c ∈ num, c.isDigit = true)) ∨
    (b = false ∧ ∃ ip fs, num = ip ++ '.' :: fs ∧ ip.length ≤ 12 ∧ (∀ c ∈ ip, c.isDigit = true) ∧
      ∀ c ∈ fs, c.isDigit = true) := by
  intro cs
  induction cs with
  | nil => intro acc b num r ha h; simp [extractDigits] at h; obtain ⟨rfl, rfl, rfl⟩ := h; exact Or.inl ⟨rfl, ha⟩
  | cons c cs ih =>
    intro acc b num r ha h
    rw [extractDigits] at h
    split at h
    · rename_i hc
      split at h
      · cases h
      split at h
      · cases h
      exact ih (by intro x hx; rcases List.mem_append.1 hx with hx | hx
                   · exact ha x hx
                   · simp at hx; rw [hx]; exact hc) h
    · split at h
      · rename_i h1
        split at h
        · cases h
        rename_i hl
        obtain ⟨h2, fs, h3, h4⟩ := extractDigits_false_spec h
        refine Or.inr ⟨h2, acc, fs, ?_, by omega, ha, h4⟩
        rw [h3, h1.1]; simp
      · cases h; exact Or.inl ⟨rfl, ha⟩

theorem digitsVal_lt {s : Str} (h : ∀ c ∈ s, c.isDigit = true) : digitsVal s < 10 ^ s.length := by
  induction s with
  | nil => simp [digitsVal]
  | cons c s ih =>
    have hc : c.isDigit = true := h c (by simp)
    have := ih (fun x hx => h x (by simp [hx]))
    have hd : digitsVal [c] ≤ 9 := by
      simp only [digitsVal, List.foldl]
      rw [isDigit_iff] at hc; omega
    have he : digitsVal (c :: s) = _ := digitsVal_append [c] s
    rw [he]
    simp only [List.length_cons, Nat.pow_succ]
    have := Nat.mul_le_mul_right (10 ^ s.length) hd
    omega

theorem parseNumber_spec {cs r : Str} {b : BareItem} (h : parseNumber cs = some (b, r)) :
    BareOk b ∧ r <:+ cs ∧ r.length < cs.length := by
  have hs : (splitSign cs).2 <:+ cs := by
    unfold splitSign
    split
    · exact List.suffix_refl _
    · split
      · exact List.suffix_cons _ _
      · exact List.suffix_refl _
  unfold parseNumber at h
  simp only at h
  split at h
  · cases h
  rename_i c ds hcs
  split at h
  · cases h
  rename_i hc
  rw [hcs] at h hs
  simp only [Bool.not_eq_true', Bool.not_eq_false] at hc
  simp only [Option.bind_eq_bind, Option.bind_eq_some_iff] at h
  obtain ⟨⟨isInt, num, rest⟩, he, h⟩ := h
  have hsuf := extractDigits_suffix he
  have hnum : 0 < num.length := by
    rw [extractDigits, if_pos hc, if_neg (by simp), if_neg (by simp)] at he
    have h2 := extractDigits_suffix he
    have h3 := h2.1.length_le
    simp at h2; omega
  have hlen : rest.length < cs.length := by
    have := hs.length_le
    simp at hsuf this; omega
  have hsuf' := hsuf.1.trans hs
  simp only at h
  split at h
  · generalize (if (splitSign cs).fst = true then -(digitsVal num : Int) else (digitsVal num : Int)) = i at h
    split at h
    · rename_i hb
      cases h
      exact ⟨hb, hsuf', hlen⟩
    · cases h
  · rename_i hb
    rcases extractDigits_true_spec (by simp) he with ⟨h1, _⟩ | ⟨h1, ip, fs, rfl, h2, h3, h4⟩
    · exact absurd h1 hb
    have hnodot : ip.all (fun c => c != '.') = true := by
      rw [List.all_eq_true]
      intro c hc
      have := h3 c hc
      have : c ≠ '.' := by rintro rfl; revert this; decide
      simpa using this
    rw [takeWhile_append_stop hnodot (by simp), dropWhile_append_stop hnodot (by simp)] at h
    simp only [List.drop_one, List.tail_cons] at h
    split at h
    · cases h
    split at h
    · rename_i hf0 hf3
      cases h
      refine ⟨?_, hsuf', hlen⟩
      refine ⟨hf3, ?_⟩
      simp only
      rw [digitsVal_append]
      have h5 := digitsVal_lt h4
      have h6 := digitsVal_lt h3
      have h7 : 10 ^ ip.length ≤ 10 ^ 12 := Nat.pow_le_pow_right (by omega) h2
      have h8 : 0 < 10 ^ fs.length := Nat.pow_pos (by omega)
      rw [Nat.mul_comm, Nat.mul_add_div h8, Nat.div_eq_of_lt h5]
      omega
    · cases h

theorem parseByteSeqBody_spec {cs r : Str} {b : BareItem} (h : parseByteSeqBody cs = some (b, r)) :
    BareOk b ∧ r <:+ cs := by
  unfold parseByteSeqBody at h
  split at h
  · simp only at h
    split at h
    · rw [Option.map_eq_some_iff] at h
      obtain ⟨x, _, h⟩ := h
      cases h
      exact ⟨trivial, (List.drop_suffix 1 _).trans (List.dropWhile_suffix _)⟩
    · cases h
  · cases h

theorem parseBare_spec {cs r : Str} {b : BareItem} (ha : isAscii cs = true) (h : parseBare cs = some (b, r)) :
    BareOk b ∧ r <:+ cs ∧ r.length < cs.length := by
  cases cs with
  | nil => simp [parseBare] at h
  | cons c cs =>
    simp only [parseBare] at h
    split at h
    · split at h
      · cases h
        exact ⟨trivial, (List.suffix_cons _ _).trans (List.suffix_cons _ _), by simp; omega⟩
      · cases h
        exact ⟨trivial, (List.suffix_cons _ _).trans (List.suffix_cons _ _), by simp; omega⟩
      · cases h
    split at h
    · rw [Option.map_eq_some_iff] at h
      obtain ⟨⟨s', r'⟩, h1, h2⟩ := h
      cases h2
      have := parseStringBody_spec cs s' _ (ascii_of_suffix (List.suffix_cons c cs) ha) h1
      exact ⟨this.1, this.2.1.trans (List.suffix_cons _ _), by have := this.2.2; simp; omega⟩
    split at h
    · have := parseByteSeqBody_spec h
      refine ⟨this.1, this.2.trans (List.suffix_cons _ _), ?_⟩
      have := this.2.length_le
      simp; omega
    split at h
    · rename_i h1
      have hc : isTokenChar c = true := by clear h; charcls; omega
      rw [List.takeWhile_cons_of_pos hc, List.dropWhile_cons_of_pos hc] at h
      cases h
      refine ⟨⟨c, _, rfl, h1, List.all_takeWhile⟩, (List.dropWhile_suffix _).trans (List.suffix_cons _ _), ?_⟩
      have := (List.dropWhile_suffix isTokenChar (l := cs)).length_le
      simp; omega
    split at h
    · exact parseNumber_spec h
    · cases h

theorem parseParamValue_spec {cs r : Str} {b : BareItem} (ha : isAscii cs = true)
    (h : parseParamValue cs = some (b, r)) : BareOk b ∧ r <:+ cs := by
  unfold parseParamValue at h
  split at h
  · have := parseBare_spec (ascii_of_suffix (List.suffix_cons _ _) ha) h
    exact ⟨this.1, this.2.1.trans (List.suffix_cons _ _)⟩
  · cases h; exact ⟨trivial, List.suffix_refl _⟩

theorem skipSp_suffix (cs : Str) : skipSp cs <:+ cs := List.dropWhile_suffix _
theorem skipOws_suffix (cs : Str) : skipOws cs <:+ cs := List.dropWhile_suffix _

theorem ParamsOk.insert {ps : Params} (h : ParamsOk ps) {k : Str} {v : BareItem} (hk : KeyOk k) (hv : BareOk v) :
    ParamsOk (IMap.insert ps k v) := by
  refine ⟨h.1.insert k v, ?_⟩
  intro e he
  rcases IMap.mem_insert he with rfl | he
  · exact ⟨hk, hv⟩
  · exact h.2 e he

theorem parseParamsAux_spec {fuel : Nat} : ∀ {acc ps : Params} {cs r : Str}, isAscii cs = true → ParamsOk acc →
    parseParamsAux fuel acc cs = some (ps, r) → ParamsOk ps ∧ r <:+ cs := by
  induction fuel with
  | zero => intro acc ps cs r _ _ h; simp [parseParamsAux] at h
  | succ fuel ih =>
    intro acc ps cs r ha hacc h
    rw [parseParamsAux.eq_def] at h
    simp only at h
    split at h
    · rename_i r0
      simp only [Option.bind_eq_bind, Option.bind_eq_some_iff] at h
      obtain ⟨⟨k, r1⟩, hk, ⟨v, r2⟩, hv, h⟩ := h
      have h1 := parseKey_spec hk
      have s1 : r1 <:+ ';' :: r0 := h1.2.1.trans ((skipSp_suffix _).trans (List.suffix_cons _ _))
      have h2 := parseParamValue_spec (ascii_of_suffix s1 ha) hv
      have s2 := h2.2.trans s1
      have h3 := ih (ascii_of_suffix s2 ha) (hacc.insert h1.1 h2.1) h
      exact ⟨h3.1, h3.2.trans s2⟩
    · cases h; exact ⟨hacc, List.suffix_refl _⟩

theorem paramsOk_nil : ParamsOk [] := ⟨IMap.nodupKeys_nil, by simp⟩

theorem parseParams_spec {ps : Params} {cs r : Str} (ha : isAscii cs = true) (h : parseParams cs = some (ps, r)) :
    ParamsOk ps ∧ r <:+ cs := parseParamsAux_spec ha paramsOk_nil h

theorem parseItemBody_spec {i : Item} {cs r : Str} (ha : isAscii cs = true) (h : parseItemBody cs = some (i, r)) :
    ItemOk i ∧ r <:+ cs ∧ r.length < cs.length := by
  simp only [parseItemBody, Option.bind_eq_bind, Option.bind_eq_some_iff] at h
  obtain ⟨⟨b, r1⟩, hb, ⟨ps, r2⟩, hp, h⟩ := h
  cases h
  have h1 := parseBare_spec ha hb
  have h2 := parseParams_spec (ascii_of_suffix h1.2.1 ha) hp
  exact ⟨⟨h1.1, h2.1⟩, h2.2.trans h1.2.1, Nat.lt_of_le_of_lt h2.2.length_le h1.2.2⟩

theorem parseInnerAux_spec {fuel : Nat} : ∀ {acc : List Item} {l : InnerList} {cs r : Str}, isAscii cs = true →
    (∀ i ∈ acc, ItemOk i) → parseInnerAux fuel acc cs = some (l, r) → InnerOk l ∧ r <:+ cs := by
  induction fuel with
  | zero => intro acc l cs r _ _ h; simp [parseInnerAux] at h
  | succ fuel ih =>
    intro acc l cs r ha hacc h
    rw [parseInnerAux.eq_def] at h
    simp only at h
    split at h
    · cases h
    rename_i c cs'
    split at h
    · rename_i r0 hr0
      have s0 : r0 <:+ c :: cs' := (List.suffix_cons _ _).trans (hr0 ▸ skipSp_suffix _)
      simp only [Option.bind_eq_bind, Option.bind_eq_some_iff] at h
      obtain ⟨⟨ps, r1⟩, hp, h⟩ := h
      cases h
      have h2 := parseParams_spec (ascii_of_suffix s0 ha) hp
      exact ⟨⟨hacc, h2.1⟩, h2.2.trans s0⟩
    · simp only [Option.bind_eq_bind, Option.bind_eq_some_iff] at h
      obtain ⟨⟨i, r1⟩, hi, h⟩ := h
      have h1 := parseItemBody_spec (ascii_of_suffix (skipSp_suffix _) ha) hi
      have s1 := h1.2.1.trans (skipSp_suffix _)
      simp only at h
      split at h
      · cases h
      split at h
      · have h2 := ih (ascii_of_suffix s1 ha) (by
          intro j hj
          rcases List.mem_append.1 hj with hj | hj
          · exact hacc j hj
          · simp at hj; rw [hj]; exact h1.1) h
        exact ⟨h2.1, h2.2.trans s1⟩
      · cases h

theorem parseListEntry_spec {e : ListEntry} {cs r : Str} (ha : isAscii cs = true)
    (h : parseListEntry cs = some (e, r)) : EntryOk e ∧ r <:+ cs := by
  unfold parseListEntry at h
  split at h
  · rw [Option.map_eq_some_iff] at h
    obtain ⟨⟨l, r'⟩, h1, h2⟩ := h
    cases h2
    simp only [parseInnerList] at h1
    have := parseInnerAux_spec (ascii_of_suffix (List.suffix_cons _ _) ha) (by simp) h1
    exact ⟨this.1, this.2.trans (List.suffix_cons _ _)⟩
  · rw [Option.map_eq_some_iff] at h
    obtain ⟨⟨l, r'⟩, h1, h2⟩ := h
    cases h2
    have := parseItemBody_spec ha h1
    exact ⟨this.1, this.2.1⟩

theorem parseMember_spec {e : ListEntry} {cs r : Str} (ha : isAscii cs = true)
    (h : parseMember cs = some (e, r)) : EntryOk e ∧ r <:+ cs := by
  unfold parseMember at h
  split at h
  · have := parseListEntry_spec (ascii_of_suffix (List.suffix_cons _ _) ha) h
    exact ⟨this.1, this.2.trans (List.suffix_cons _ _)⟩
  · rw [Option.map_eq_some_iff] at h
    obtain ⟨⟨l, r'⟩, h1, h2⟩ := h
    cases h2
    have := parseParams_spec ha h1
    exact ⟨⟨trivial, this.1⟩, this.2⟩

/-- The entries of a dictionary being read. -/
def DictOk' (d : Dictionary) : Prop := IMap.NodupKeys d ∧ ∀ e ∈ d, KeyOk e.1 ∧ EntryOk e.2

theorem DictOk'.insert {d : Dictionary} (h : DictOk' d) {k : Str} {v : ListEntry} (hk : KeyOk k) (hv : EntryOk v) :
    DictOk' (IMap.insert d k v) := by
  refine ⟨h.1.insert k v, ?_⟩
  intro e he
  rcases IMap.mem_insert he with rfl | he
  · exact ⟨hk, hv⟩
  · exact h.2 e he

theorem parseDictAux_spec {fuel : Nat} : ∀ {acc d : Dictionary} {cs r : Str}, isAscii cs = true → DictOk' acc →
    parseDictAux fuel acc cs = some (d, r) → DictOk' d := by
  induction fuel with
  | zero => intro acc l cs r _ _ h; simp [parseDictAux] at h
  | succ fuel ih =>
    intro acc d cs r ha hacc h
    rw [parseDictAux.eq_def] at h
    simp only at h
    split at h
    · cases h; exact hacc
    simp only [Option.bind_eq_bind, Option.bind_eq_some_iff] at h
    obtain ⟨⟨k, r1⟩, hk, ⟨e, r2⟩, he, h⟩ := h
    have h1 := parseKey_spec hk
    have h2 := parseMember_spec (ascii_of_suffix h1.2.1 ha) he
    have s2 := h2.2.trans h1.2.1
    have hins := hacc.insert h1.1 h2.1
    simp only at h
    split at h
    · cases h; exact hins
    rename_i c r3 hr3
    have s3 : r3 <:+ _ := ((List.suffix_cons _ _).trans (hr3 ▸ skipOws_suffix r2)).trans s2
    split at h
    · split at h
      · cases h
      · exact ih (ascii_of_suffix ((skipOws_suffix _).trans s3) ha) hins h
    · cases h

/-- Everything the dictionary parser accepts is well formed. -/
theorem parseDictionary_spec {s : Str} {d : Dictionary} (h : parseDictionary s = some d) : DictOk' d := by
  unfold parseDictionary at h
  split at h
  · rename_i ha
    simp only at h
    split at h
    · rename_i d' r hd
      split at h
      · cases h
        exact parseDictAux_spec (ascii_of_suffix (skipSp_suffix s) ha) ⟨IMap.nodupKeys_nil, by simp⟩ hd
      · cases h
    · cases h
  · cases h

/-- Everything the item parser accepts is well formed. -/
theorem parseItem_spec {s : Str} {i : Item} (h : parseItem s = some i) : ItemOk i := by
  unfold parseItem at h
  split at h
  · rename_i ha
    split at h
    · rename_i d' r hd
      split at h
      · cases h
        exact (parseItemBody_spec (ascii_of_suffix (skipSp_suffix s) ha) hd).1
      · cases h
    · cases h
  · cases h

/-! ### The fuel never runs out -/

theorem parseParamsAux_fuel {f g : Nat} : ∀ {acc : Params} {cs : Str}, isAscii cs = true → cs.length < f → cs.length < g →
    parseParamsAux f acc cs = parseParamsAux g acc cs := by
  induction f generalizing g with
  | zero => intro acc cs _ h; omega
  | succ f ih =>
    intro acc cs ha hf hg
    obtain ⟨g, rfl⟩ : ∃ g', g = g' + 1 := ⟨g - 1, by omega⟩
    rw [parseParamsAux.eq_def, parseParamsAux.eq_def]
    simp only
    split
    · rename_i r
      cases hk : parseKey (skipSp r) with
      | none => rfl
      | some p =>
        obtain ⟨k, r1⟩ := p
        have h1 := parseKey_spec hk
        have s1 : r1 <:+ ';' :: r := h1.2.1.trans ((skipSp_suffix _).trans (List.suffix_cons _ _))
        simp only [Option.bind_eq_bind, Option.bind_some]
        cases hv : parseParamValue r1 with
        | none => rfl
        | some p =>
          obtain ⟨v, r2⟩ := p
          have h2 := parseParamValue_spec (ascii_of_suffix s1 ha) hv
          have := h2.2.length_le
          have := h1.2.2
          have := (skipSp_suffix r).length_le
          simp only [Option.bind_some]
          simp at hf hg
          exact ih (ascii_of_suffix (h2.2.trans s1) ha) (by omega) (by omega)
    · rfl

theorem parseInnerAux_fuel {f g : Nat} : ∀ {acc : List Item} {cs : Str}, isAscii cs = true → cs.length < f → cs.length < g →
    parseInnerAux f acc cs = parseInnerAux g acc cs := by
  induction f generalizing g with
  | zero => intro acc cs _ h; omega
  | succ f ih =>
    intro acc cs ha hf hg
    obtain ⟨g, rfl⟩ : ∃ g', g = g' + 1 := ⟨g - 1, by omega⟩
    rw [parseInnerAux.eq_def, parseInnerAux.eq_def]
    simp only
    split
    · rfl
    rename_i c cs'
    split
    · rfl
    · cases hi : parseItemBody (skipSp (c :: cs')) with
      | none => rfl
      | some p =>
        obtain ⟨i, r⟩ := p
        have h1 := parseItemBody_spec (ascii_of_suffix (skipSp_suffix _) ha) hi
        have := h1.2.2
        have := (skipSp_suffix (c :: cs')).length_le
        simp only [Option.bind_eq_bind, Option.bind_some]
        split
        · rfl
        split
        · exact ih (ascii_of_suffix (h1.2.1.trans (skipSp_suffix _)) ha) (by omega) (by omega)
        · rfl

theorem parseDictAux_fuel {f g : Nat} : ∀ {acc : Dictionary} {cs : Str}, isAscii cs = true → cs.length < f → cs.length < g →
    parseDictAux f acc cs = parseDictAux g acc cs := by
  induction f generalizing g with
  | zero => intro acc cs _ h; omega
  | succ f ih =>
    intro acc cs ha hf hg
    obtain ⟨g, rfl⟩ : ∃ g', g = g' + 1 := ⟨g - 1, by omega⟩
    rw [parseDictAux.eq_def, parseDictAux.eq_def]
    simp only
    split
    · rfl
    rename_i c cs'
    cases hk : parseKey (c :: cs') with
    | none => rfl
    | some p =>
      obtain ⟨k, r1⟩ := p
      have h1 := parseKey_spec hk
      simp only [Option.bind_eq_bind, Option.bind_some]
      cases he : parseMember r1 with
      | none => rfl
      | some p =>
        obtain ⟨e, r2⟩ := p
        have h2 := parseMember_spec (ascii_of_suffix h1.2.1 ha) he
        simp only [Option.bind_some]
        split
        · rfl
        rename_i c3 r3 hr3
        have s3 : r3 <:+ r2 := (List.suffix_cons _ _).trans (hr3 ▸ skipOws_suffix r2)
        split
        · split
          · rfl
          · have := (skipOws_suffix r3).length_le
            have := s3.length_le
            have := h2.2.length_le
            have := h1.2.2
            exact ih (ascii_of_suffix ((skipOws_suffix _).trans (s3.trans (h2.2.trans h1.2.1))) ha) (by omega) (by omega)
        · rfl

end Httpsig.Sfv
