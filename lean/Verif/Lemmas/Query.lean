import Verif.Spec.Query
import Verif.Spec.Url
import Verif.Lemmas.Utf8
import Verif.Lemmas.Lossy
import Verif.Lemmas.Strings
/- The model's query decoder meets the specification. -/
namespace Httpsig

theorem asStr_iff {b : BareItem} {n : Str} : b.asStr = some n ↔ b = .string n := by
  cases b <;> simp [BareItem.asStr]

theorem called_iff {d : DerivedComponent} {n : Str} : d.Called n ↔ d.name = .ok n := by
  unfold DerivedComponent.Called DerivedComponent.name
  cases d.item.bare <;> simp [BareItem.asStr]

theorem imap_get_iff {V : Type} {m : IMap V} {key : Str} {v : V} :
    IMap.get m key = some v ↔ ∃ pre post, m = pre ++ (key, v) :: post ∧ ∀ e ∈ pre, e.1 ≠ key := by
  induction m with
  | nil => simp [IMap.get]
  | cons e rest ih =>
    obtain ⟨k, w⟩ := e
    unfold IMap.get
    by_cases hk : k = key
    · subst hk
      rw [if_pos rfl]
      constructor
      · intro h
        cases h
        exact ⟨[], rest, rfl, by simp⟩
      · rintro ⟨pre, post, h, hp⟩
        cases pre with
        | nil => cases h; rfl
        | cons x xs => cases h; exact absurd rfl (hp _ (.head _))
    · rw [if_neg hk, ih]
      constructor
      · rintro ⟨pre, post, rfl, hp⟩
        refine ⟨(k, w) :: pre, post, rfl, fun e he => ?_⟩
        cases he with
        | head => exact hk
        | tail _ he => exact hp e he
      · rintro ⟨pre, post, h, hp⟩
        cases pre with
        | nil => cases h; exact absurd rfl hk
        | cons x xs => cases h; exact ⟨xs, post, rfl, fun e he => hp e (.tail _ he)⟩

theorem hasParam_iff {d : DerivedComponent} {key value : Str} : d.HasParam key value ↔ d.param key = some value := by
  unfold DerivedComponent.HasParam DerivedComponent.param
  rw [← imap_get_iff]
  cases IMap.get d.item.params key with
  | none => simp
  | some x => simp [asStr_iff]

theorem noParam_iff {d : DerivedComponent} {key : Str} : (∀ value, ¬ d.HasParam key value) ↔ d.param key = none := by
  simp only [hasParam_iff]
  cases d.param key <;> simp

theorem hexDigit_iff {b : UInt8} {x : Nat} : HexDigit b x ↔ hexVal b = some x := by
  constructor
  · intro h
    cases h with
    | digit i hi =>
      have : (UInt8.ofNat (48 + x)).toNat = 48 + x := by simp; omega
      simp only [hexVal, this]
      rw [if_pos (by omega)]; congr 1; omega
    | upper i hi =>
      have : (UInt8.ofNat (65 + i)).toNat = 65 + i := by simp; omega
      simp only [hexVal, this]
      rw [if_neg (by omega), if_pos (by omega)]; congr 1; omega
    | lower i hi =>
      have : (UInt8.ofNat (97 + i)).toNat = 97 + i := by simp; omega
      simp only [hexVal, this]
      rw [if_neg (by omega), if_neg (by omega), if_pos (by omega)]; congr 1; omega
  · intro h
    have key : ∀ n, b.toNat = n → b = UInt8.ofNat n := by
      intro n hn; rw [← hn]; simp
    simp only [hexVal] at h
    split at h
    · cases h
      have := HexDigit.digit (b.toNat - 48) (by omega)
      rwa [← key (48 + (b.toNat - 48)) (by omega)] at this
    split at h
    · cases h
      have := HexDigit.upper (b.toNat - 65) (by omega)
      rw [← key (65 + (b.toNat - 65)) (by omega)] at this
      rwa [show b.toNat - 55 = 10 + (b.toNat - 65) by omega]
    split at h
    · cases h
      have := HexDigit.lower (b.toNat - 97) (by omega)
      rw [← key (97 + (b.toNat - 97)) (by omega)] at this
      rwa [show b.toNat - 87 = 10 + (b.toNat - 97) by omega]
    · cases h

/-- `+` to space. -/
def plusToSpace (c : UInt8) : UInt8 := if c = 43 then 32 else c

theorem hexVal_plus (b : UInt8) : hexVal (plusToSpace b) = hexVal b := by
  unfold plusToSpace
  split
  · rename_i h; subst h; rfl
  · rfl

theorem percentDecode_hex {h l : UInt8} {x y : Nat} {b : Bytes} (hh : hexVal h = some x) (hl : hexVal l = some y) :
    percentDecode (37 :: h :: l :: b) = UInt8.ofNat (x * 16 + y) :: percentDecode b := by
  rw [percentDecode.eq_def]
  simp only [if_true, hh, hl]

theorem percentDecode_bare {b : Bytes} (hb : ¬ StartsHex b) : percentDecode (37 :: b) = 37 :: percentDecode b := by
  rw [percentDecode.eq_def]
  simp only [if_true]
  split
  · split
    · rename_i h l rest _ _ x y hx hy
      exact absurd ⟨h, l, rest, x, y, rfl, hexDigit_iff.2 hx, hexDigit_iff.2 hy⟩ hb
    · rfl
  · rfl

theorem percentDecode_literal {a : UInt8} {b : Bytes} (ha : a ≠ 37) : percentDecode (a :: b) = a :: percentDecode b := by
  rw [percentDecode.eq_def]
  simp only [if_neg ha]

theorem startsHex_plus {b : Bytes} : StartsHex (b.map plusToSpace) ↔ StartsHex b := by
  constructor
  · rintro ⟨h, l, rest, x, y, e, h1, h2⟩
    cases b with
    | nil => cases e
    | cons b1 b =>
      cases b with
      | nil => cases e
      | cons b2 b =>
        simp only [List.map_cons, List.cons.injEq] at e
        obtain ⟨rfl, rfl, -⟩ := e
        refine ⟨b1, b2, b, x, y, rfl, ?_, ?_⟩
        · rw [hexDigit_iff, ← hexVal_plus]; exact hexDigit_iff.1 h1
        · rw [hexDigit_iff, ← hexVal_plus]; exact hexDigit_iff.1 h2
  · rintro ⟨h, l, rest, x, y, rfl, h1, h2⟩
    refine ⟨plusToSpace h, plusToSpace l, rest.map plusToSpace, x, y, rfl, ?_, ?_⟩
    · rw [hexDigit_iff, hexVal_plus]; exact hexDigit_iff.1 h1
    · rw [hexDigit_iff, hexVal_plus]; exact hexDigit_iff.1 h2

theorem FormBytes.decode {b c : Bytes} (h : FormBytes b c) : percentDecode (b.map plusToSpace) = c := by
  induction h with
  | nil => rw [List.map_nil, percentDecode.eq_def]
  | plus _ ih =>
    rw [List.map_cons, show plusToSpace 43 = 32 from rfl, percentDecode_literal (by decide), ih]
  | pct h1 h2 _ ih =>
    rw [List.map_cons, List.map_cons, List.map_cons, show plusToSpace 37 = 37 from rfl,
      percentDecode_hex ((hexVal_plus _).trans (hexDigit_iff.1 h1)) ((hexVal_plus _).trans (hexDigit_iff.1 h2)), ih, Nat.mul_comm]
  | bare hb _ ih =>
    rw [List.map_cons, show plusToSpace 37 = 37 from rfl, percentDecode_bare (fun h => hb (startsHex_plus.1 h)), ih]
  | literal h1 h2 _ ih =>
    rw [List.map_cons, show plusToSpace _ = _ from if_neg h1, percentDecode_literal h2, ih]

theorem FormBytes.total : ∀ (n : Nat) (b : Bytes), b.length ≤ n → ∃ c, FormBytes b c
  | _, [], _ => ⟨[], .nil⟩
  | n + 1, a :: b, hn => by
    simp only [List.length_cons, Nat.add_le_add_iff_right] at hn
    by_cases h1 : a = 43
    · subst h1
      obtain ⟨c, hc⟩ := FormBytes.total n b hn
      exact ⟨_, .plus hc⟩
    by_cases h2 : a = 37
    · subst h2
      by_cases h3 : StartsHex b
      · obtain ⟨h, l, rest, x, y, rfl, hx, hy⟩ := h3
        simp only [List.length_cons] at hn
        obtain ⟨c, hc⟩ := FormBytes.total n rest (by omega)
        exact ⟨_, .pct hx hy hc⟩
      · obtain ⟨c, hc⟩ := FormBytes.total n b hn
        exact ⟨_, .bare h3 hc⟩
    · obtain ⟨c, hc⟩ := FormBytes.total n b hn
      exact ⟨_, .literal h1 h2 hc⟩

theorem formText_iff {b : Bytes} {s : Str} : FormText b s ↔ formDecode b = s := by
  have key : ∀ c, FormBytes b c → formDecode b = utf8Lossy c := by
    intro c hc
    have := hc.decode
    unfold formDecode
    rw [← this]
    rfl
  constructor
  · rintro ⟨c, hc, h⟩
    rw [lossyText_iff.1 h]
    exact key c hc
  · rintro rfl
    obtain ⟨c, hc⟩ := FormBytes.total _ b (Nat.le_refl _)
    exact ⟨c, hc, lossyText_iff.2 (key c hc)⟩

theorem takeWhile_ne {n v : Bytes} (h : 61 ∉ n) :
    (n ++ 61 :: v).takeWhile (· != 61) = n ∧ (n ++ 61 :: v).dropWhile (· != 61) = 61 :: v := by
  induction n with
  | nil => simp
  | cons a n ih =>
    simp only [List.mem_cons, not_or] at h
    have := ih h.2
    have ha : (a != 61) = true := by simp [Ne.symm h.1]
    simp [ha, this]

theorem takeWhile_all_ne {n : Bytes} (h : 61 ∉ n) : n.takeWhile (· != 61) = n ∧ n.dropWhile (· != 61) = [] := by
  induction n with
  | nil => simp
  | cons a n ih =>
    simp only [List.mem_cons, not_or] at h
    have := ih h.2
    have ha : (a != 61) = true := by simp [Ne.symm h.1]
    simp [ha, this]

theorem formDecode_nil : formDecode [] = [] := by
  unfold formDecode
  rw [List.map_nil, percentDecode.eq_def]
  simp only
  rw [utf8Lossy.eq_def]

theorem formPair_iff {seg : Bytes} {p : Str × Str} : FormPair seg p ↔ formPair seg = p := by
  have key1 : ∀ n v, 61 ∉ n → formPair (n ++ 61 :: v) = (formDecode n, formDecode v) := by
    intro n v hn
    simp only [formPair, takeWhile_ne hn, List.drop_succ_cons, List.drop_zero]
  have key2 : ∀ n, 61 ∉ n → formPair n = (formDecode n, []) := by
    intro n hn
    simp only [formPair, takeWhile_all_ne hn, List.drop_nil, formDecode_nil]
  constructor
  · rintro (⟨n, v, rfl, hn, h1, h2⟩ | ⟨hn, h1, h2⟩)
    · rw [key1 n v hn, formText_iff.1 h1, formText_iff.1 h2]
    · rw [key2 seg hn, formText_iff.1 h1, ← h2]
  · rintro rfl
    by_cases h : 61 ∈ seg
    · obtain ⟨n, v, hn, rfl⟩ : ∃ n v, 61 ∉ n ∧ seg = n ++ 61 :: v := by
        clear key1 key2
        induction seg with
        | nil => cases h
        | cons a s ih =>
          by_cases ha : a = 61
          · subst ha; exact ⟨[], s, by simp, rfl⟩
          · obtain ⟨n, v, hn, rfl⟩ := ih (by simpa [Ne.symm ha] using h)
            exact ⟨a :: n, v, by simp [Ne.symm ha, hn], rfl⟩
      refine .inl ⟨n, v, rfl, hn, ?_, ?_⟩ <;> rw [key1 n v hn, formText_iff]
    · refine .inr ⟨h, ?_, ?_⟩ <;> rw [key2 seg h]
      rw [formText_iff]

theorem splitBytes_ne_nil (sep : UInt8) (s : Bytes) : splitBytes sep s ≠ [] := by
  cases s with
  | nil => simp [splitBytes]
  | cons a s =>
    unfold splitBytes
    split
    · simp
    · split <;> simp

theorem splitBytes_of_no_sep {sep : UInt8} {p : Bytes} (h : sep ∉ p) : splitBytes sep p = [p] := by
  induction p with
  | nil => rfl
  | cons a p ih =>
    simp only [List.mem_cons, not_or] at h
    rw [splitBytes, if_neg (Ne.symm h.1), ih h.2]

theorem splitBytes_append {sep : UInt8} {p rest : Bytes} (h : sep ∉ p) :
    splitBytes sep (p ++ sep :: rest) = p :: splitBytes sep rest := by
  induction p with
  | nil => simp [splitBytes]
  | cons a p ih =>
    simp only [List.mem_cons, not_or] at h
    rw [List.cons_append, splitBytes, if_neg (Ne.symm h.1), ih h.2]

theorem splitBytes_joinAmp : ∀ {segs : List Bytes}, segs ≠ [] → (∀ s ∈ segs, 38 ∉ s) → splitBytes 38 (joinAmp segs) = segs
  | [], h, _ => absurd rfl h
  | [s], _, h => splitBytes_of_no_sep (h s (by simp))
  | s :: t :: rest, _, h => by
    rw [joinAmp, splitBytes_append (h s (by simp)), splitBytes_joinAmp (by simp) fun x hx => h x (by simp [hx])]

theorem joinAmp_splitBytes (s : Bytes) : joinAmp (splitBytes 38 s) = s ∧ ∀ p ∈ splitBytes 38 s, 38 ∉ p := by
  induction s with
  | nil => simp [splitBytes, joinAmp]
  | cons a s ih =>
    unfold splitBytes
    have hne := splitBytes_ne_nil 38 s
    split
    · rename_i h
      subst h
      refine ⟨?_, by simpa using ih.2⟩
      cases hs : splitBytes 38 s with
      | nil => exact absurd hs hne
      | cons p ps => rw [hs] at ih; simp [joinAmp, ih.1]
    · rename_i h
      split
      · rename_i hs; exact absurd hs hne
      · rename_i p ps hs
        rw [hs] at ih
        constructor
        · rw [← ih.1]
          cases ps <;> simp [joinAmp]
        · intro q hq
          rcases List.mem_cons.1 hq with rfl | hq
          · simp only [List.mem_cons, not_or]
            exact ⟨Ne.symm h, ih.2 p (by simp)⟩
          · exact ih.2 q (by simp [hq])

theorem forall2_map_iff {α β : Type} {r : α → β → Prop} {f : α → β} (hr : ∀ a b, r a b ↔ f a = b) :
    ∀ {l : List α} {m : List β}, Forall2 r l m ↔ l.map f = m
  | [], m => by
    constructor
    · intro h; cases h; rfl
    · intro h; subst h; exact .nil
  | a :: l, m => by
    constructor
    · intro h
      cases h with
      | cons h1 h2 => rw [List.map_cons, (hr _ _).1 h1, (forall2_map_iff hr).1 h2]
    · intro h
      subst h
      exact .cons ((hr _ _).2 rfl) ((forall2_map_iff hr).2 rfl)

/-- The decoder computes the specified pairs. -/
theorem queryIs_iff {q : Bytes} {ps : List (Str × Str)} : QueryIs q ps ↔ formParse q = ps := by
  unfold formParse
  constructor
  · rintro ⟨segs, hne, rfl, hs, h⟩
    rw [splitBytes_joinAmp hne hs]
    exact (forall2_map_iff (f := formPair) fun a b => formPair_iff (seg := a) (p := b)).1 h
  · intro h
    refine ⟨splitBytes 38 q, splitBytes_ne_nil _ _, (joinAmp_splitBytes q).1.symm, (joinAmp_splitBytes q).2, ?_⟩
    exact (forall2_map_iff (f := formPair) fun a b => formPair_iff (seg := a) (p := b)).2 h

theorem selected_iff {name : Str} : ∀ {ps : List (Str × Str)} {vs : List Str}, Selected name ps vs ↔
    (ps.filter fun p => name = p.1).map Prod.snd = vs
  | [], vs => by
    constructor
    · intro h; cases h; rfl
    · intro h; subst h; exact .nil
  | p :: ps, vs => by
    by_cases hp : p.1 = name
    · rw [List.filter_cons_of_pos (by simp [hp]), List.map_cons]
      constructor
      · intro h
        cases h with
        | take h => rw [selected_iff.1 h]
        | skip hn _ => exact absurd hp hn
      · intro h
        subst h
        obtain ⟨n, v⟩ := p
        subst hp
        exact .take (selected_iff.2 rfl)
    · rw [List.filter_cons_of_neg (by simp [Ne.symm hp])]
      constructor
      · intro h
        cases h with
        | take h => exact absurd rfl hp
        | skip _ h => exact selected_iff.1 h
      · intro h
        exact .skip hp (selected_iff.2 h)

theorem joinLines_eq : ∀ l : List Str, joinWith (str% "\n") l = joinLines l
  | [] => rfl
  | [_] => rfl
  | s :: t :: rest => by
    rw [joinWith, joinLines, joinLines_eq (t :: rest)]
    simp

theorem joinLines_inj {a b : List Str} (ha : a ≠ []) (hb : b ≠ []) (ha' : ∀ s ∈ a, '\n' ∉ s) (hb' : ∀ s ∈ b, '\n' ∉ s)
    (h : joinLines a = joinLines b) : a = b := by
  rw [← joinLines_eq, ← joinLines_eq] at h
  rw [← splitOn_joinWith (c := '\n') ha ha', ← splitOn_joinWith (c := '\n') hb hb']
  exact congrArg (splitOn '\n') h

/-! ### Encoding and decoding -/

theorem hexVal_hexUpper {n : Nat} (h : n < 16) : hexVal (UInt8.ofNat (hexUpper n).toNat) = some n := by
  unfold hexUpper
  split
  · rw [charToNat_ofNat (isValidChar_of_lt (by omega))]
    exact hexDigit_iff.1 (.digit n (by omega))
  · rw [charToNat_ofNat (isValidChar_of_lt (by omega)), show 55 + n = 65 + (n - 10) by omega]
    have := hexDigit_iff.1 (.upper (n - 10) (by omega))
    rw [this]; congr 1; omega

theorem hexUpper_lt {n : Nat} (h : n < 16) : (hexUpper n).toNat < 128 ∧ 48 ≤ (hexUpper n).toNat ∧ (hexUpper n).toNat ≠ 61 := by
  unfold hexUpper
  split <;> rw [charToNat_ofNat (isValidChar_of_lt (by omega))] <;> omega

theorem utf8_ascii_map {s : Str} (h : ∀ c ∈ s, c.toNat < 128) : utf8 s = s.map fun c => UInt8.ofNat c.toNat := by
  induction s with
  | nil => rfl
  | cons c s ih =>
    have : utf8 (c :: s) = String.utf8EncodeChar c ++ utf8 s := by simp [utf8]
    rw [this, utf8EncodeChar_ascii (h c (by simp)), ih fun d hd => h d (by simp [hd])]
    rfl

/-- Form encoding of one byte, as bytes. -/
def encByte (b : UInt8) : Bytes :=
  if formKeeps b then [b]
  else if b = 32 then [43]
  else [37, UInt8.ofNat (hexUpper (b.toNat / 16)).toNat, UInt8.ofNat (hexUpper (b.toNat % 16)).toNat]

theorem formKeeps_bounds {b : UInt8} (h : formKeeps b = true) :
    b.toNat < 128 ∧ b.toNat ≠ 61 ∧ b.toNat ≠ 38 ∧ b.toNat ≠ 43 ∧ b.toNat ≠ 37 ∧ b.toNat ≠ 10 := by
  simp only [formKeeps, Bool.or_eq_true, Bool.and_eq_true, decide_eq_true_eq, beq_iff_eq] at h
  omega

theorem formEncode_ascii (s : Str) : ∀ c ∈ formEncode s, c.toNat < 128 ∧ c ≠ '=' ∧ c ≠ '&' := by
  intro c hc
  simp only [formEncode, List.mem_flatMap] at hc
  obtain ⟨b, -, hb⟩ := hc
  split at hb
  · rename_i hk
    have := formKeeps_bounds hk
    simp only [List.mem_singleton] at hb
    subst hb
    have e : (Char.ofNat b.toNat).toNat = b.toNat := charToNat_ofNat (isValidChar_of_lt (by omega))
    refine ⟨by omega, ?_, ?_⟩
    · intro he; rw [he] at e; exact this.2.1 e.symm
    · intro he; rw [he] at e; exact this.2.2.1 e.symm
  split at hb
  · simp only [List.mem_singleton] at hb
    subst hb
    decide
  · simp only [List.mem_cons, List.not_mem_nil, or_false] at hb
    have hlt : b.toNat < 256 := b.toNat_lt
    have h1 := hexUpper_lt (n := b.toNat / 16) (by omega)
    have h2 := hexUpper_lt (n := b.toNat % 16) (by omega)
    rcases hb with rfl | rfl | rfl
    · decide
    · refine ⟨h1.1, ?_, ?_⟩
      · intro he; rw [he] at h1; exact h1.2.2 rfl
      · intro he; rw [he] at h1; exact absurd h1.2.1 (by decide)
    · refine ⟨h2.1, ?_, ?_⟩
      · intro he; rw [he] at h2; exact h2.2.2 rfl
      · intro he; rw [he] at h2; exact absurd h2.2.1 (by decide)

theorem utf8_formEncode (s : Str) : utf8 (formEncode s) = (utf8 s).flatMap encByte := by
  rw [utf8_ascii_map fun c hc => (formEncode_ascii s c hc).1]
  unfold formEncode
  rw [List.map_flatMap]
  congr 1
  funext b
  unfold encByte
  split
  · rename_i hk
    have := formKeeps_bounds hk
    have e : (Char.ofNat b.toNat).toNat = b.toNat := charToNat_ofNat (isValidChar_of_lt (by omega))
    simp [e]
  split
  · rfl
  · rfl

theorem formBytes_encode (bs : Bytes) : FormBytes (bs.flatMap encByte) bs := by
  induction bs with
  | nil => exact .nil
  | cons b bs ih =>
    rw [List.flatMap_cons]
    generalize bs.flatMap encByte = ebs at ih ⊢
    unfold encByte
    split
    · rename_i hk
      have := formKeeps_bounds hk
      refine .literal ?_ ?_ ih
      · rintro rfl; exact this.2.2.2.1 rfl
      · rintro rfl; exact this.2.2.2.2.1 rfl
    split
    · rename_i h; subst h; exact .plus ih
    · have hlt : b.toNat < 256 := b.toNat_lt
      have := FormBytes.pct (hexDigit_iff.2 (hexVal_hexUpper (n := b.toNat / 16) (by omega)))
        (hexDigit_iff.2 (hexVal_hexUpper (n := b.toNat % 16) (by omega))) ih
      rw [show 16 * (b.toNat / 16) + b.toNat % 16 = b.toNat by omega] at this
      simpa using this

theorem formText_encode (s : Str) : FormText (utf8 (formEncode s)) s :=
  ⟨utf8 s, by rw [utf8_formEncode]; exact formBytes_encode _, lossyText_iff.2 (utf8Lossy_utf8 s).symm⟩

theorem utf8_encode_no (s : Str) : 61 ∉ utf8 (formEncode s) ∧ 38 ∉ utf8 (formEncode s) := by
  rw [utf8_ascii_map fun c hc => (formEncode_ascii s c hc).1]
  have key : ∀ (c d : Char), c.toNat < 128 → d.toNat < 128 → UInt8.ofNat c.toNat = UInt8.ofNat d.toNat → c = d := by
    intro c d hc hd h
    have := congrArg UInt8.toNat h
    simp only [UInt8.toNat_ofNat'] at this
    rw [← Char.ofNat_toNat c, ← Char.ofNat_toNat d]
    congr 1
    omega
  constructor <;> intro h <;> obtain ⟨c, hc, he⟩ := List.mem_map.1 h <;> have hb := formEncode_ascii s c hc
  · exact hb.2.1 (key c '=' hb.1 (by decide) he)
  · exact hb.2.2 (key c '&' hb.1 (by decide) he)

/-- Encoded pairs decode to themselves. -/
theorem queryIs_encode (ps : List (Str × Str)) : QueryIs (utf8 (formEncodePairs ps)) ps := by
  cases hps : ps with
  | nil => exact ⟨[[]], by simp, rfl, by simp, .nil⟩
  | cons p0 ps0 =>
  rw [← hps]
  refine ⟨ps.map fun p => utf8 (formEncode p.1) ++ 61 :: utf8 (formEncode p.2), by simp [hps], ?_, ?_, ?_⟩
  · clear hps
    induction ps with
    | nil => rfl
    | cons p ps ih =>
      cases ps with
      | nil =>
        simp only [formEncodePairs, List.map_cons, List.map_nil, joinAmp, utf8_append]
        rfl
      | cons q qs =>
        simp only [formEncodePairs, List.map_cons, joinAmp, utf8_append] at ih ⊢
        rw [show utf8 ('&' :: formEncodePairs (q :: qs)) = 38 :: utf8 (formEncodePairs (q :: qs)) from rfl, ih]
        rfl
  · intro s hs
    obtain ⟨p, -, rfl⟩ := List.mem_map.1 hs
    simp [(utf8_encode_no p.1).2, (utf8_encode_no p.2).2]
  · rw [List.filter_eq_self.2 (by
      intro s hs
      obtain ⟨p, -, rfl⟩ := List.mem_map.1 hs
      simp)]
    clear hps
    induction ps with
    | nil => exact .nil
    | cons p ps ih =>
      exact .cons (.inl ⟨_, _, rfl, (utf8_encode_no p.1).1, formText_encode p.1, formText_encode p.2⟩) ih

/-- Form-encoded pairs are a query. -/
theorem formEncode_ok (s : Str) : (formEncode s).all UrlParts.queryChar = true := by
  unfold formEncode
  rw [List.all_eq_true]
  intro c hc
  obtain ⟨b, _, hb⟩ := List.mem_flatMap.1 hc
  have key : ∀ b : UInt8, ∀ c ∈ (if formKeeps b then [Char.ofNat b.toNat] else if b = 32 then ['+']
      else ['%', hexUpper (b.toNat / 16), hexUpper (b.toNat % 16)] : Str), UrlParts.queryChar c = true := by
    have h : ∀ n < 256, ∀ c ∈ (if formKeeps (UInt8.ofNat n) then [Char.ofNat (UInt8.ofNat n).toNat] else if UInt8.ofNat n = 32 then ['+']
      else ['%', hexUpper ((UInt8.ofNat n).toNat / 16), hexUpper ((UInt8.ofNat n).toNat % 16)] : Str), UrlParts.queryChar c = true := by
      decide +kernel
    intro b
    have := h b.toNat b.toNat_lt
    simpa using this
  exact key b c hb

theorem formEncodePairs_ok : ∀ ps : List (Str × Str), (formEncodePairs ps).all UrlParts.queryChar = true
  | [] => rfl
  | [p] => by
    have h : UrlParts.queryChar '=' = true := by decide
    simp [formEncodePairs, formEncode_ok, h]
  | p :: q :: rest => by
    have h : UrlParts.queryChar '=' = true ∧ UrlParts.queryChar '&' = true := by decide
    simp [formEncodePairs, formEncode_ok, h, formEncodePairs_ok (q :: rest)]

/-- Form-encoded pairs as a query. -/
def formQuery (ps : List (Str × Str)) : QueryText := ⟨formEncodePairs ps, formEncodePairs_ok ps⟩

end Httpsig
