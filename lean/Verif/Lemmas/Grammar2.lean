import Verif.Lemmas.Grammar
/- Parameters, items, inner lists and dictionaries: parser and grammar agree. -/
namespace Httpsig.Grammar
open Sfv Base64

/-! ### Collecting named values -/

theorem lastValue_snoc {V : Type} (l : List (Str × V)) (k : Str) (v : V) (a : Str) :
    lastValue (l ++ [(k, v)]) a = if k = a then some v else lastValue l a := by
  unfold lastValue
  rw [List.reverse_append, List.reverse_cons, List.reverse_nil, List.nil_append, List.cons_append, List.nil_append,
    List.find?_cons]
  by_cases h : k = a
  · simp [h]
  · simp [h]

theorem foldl_insert {V : Type} (l : List (Str × V)) :
    (l.foldl (fun (m : IMap V) e => IMap.insert m e.1 e.2) []).map Prod.fst = (l.map Prod.fst).eraseDups ∧
    IMap.NodupKeys (l.foldl (fun (m : IMap V) e => IMap.insert m e.1 e.2) []) ∧
    ∀ k, IMap.get (l.foldl (fun (m : IMap V) e => IMap.insert m e.1 e.2) []) k = lastValue l k := by
  induction l using history_induction with
  | nil => exact ⟨rfl, IMap.nodupKeys_nil, fun _ => rfl⟩
  | snoc l a ih =>
    obtain ⟨h1, h2, h3⟩ := ih
    obtain ⟨k, v⟩ := a
    rw [List.foldl_append]
    simp only [List.foldl_cons, List.foldl_nil]
    refine ⟨?_, h2.insert _ _, fun a => ?_⟩
    · rw [IMap.keys_insert, h1, List.map_append, List.eraseDups_append]
      simp only [List.map_cons, List.map_nil]
      by_cases hk : k ∈ l.map Prod.fst
      · rw [if_pos (List.mem_eraseDups.2 hk)]
        have : [k].removeAll (l.map Prod.fst) = [] := by
          simp only [List.removeAll, List.filter_cons, List.filter_nil]
          rw [if_neg (by simp only [List.elem_eq_mem, hk]; simp)]
        rw [this]; simp
      · rw [if_neg (fun h => hk (List.mem_eraseDups.1 h))]
        have : [k].removeAll (l.map Prod.fst) = [k] := by
          simp only [List.removeAll, List.filter_cons, List.filter_nil]
          rw [if_pos (by simp only [List.elem_eq_mem, hk]; simp)]
        rw [this]; rfl
    · rw [lastValue_snoc]
      by_cases h : k = a
      · subst h; rw [if_pos rfl, IMap.get_insert_self]
      · rw [if_neg h, IMap.get_insert_ne (Ne.symm h), h3]

theorem foldl_collect {V : Type} (l : List (Str × V)) :
    l.foldl (fun (m : IMap V) e => IMap.insert m e.1 e.2) [] = collect l := by
  obtain ⟨h1, h2, h3⟩ := foldl_insert l
  rw [IMap.eq_of_keys h2, h1]
  unfold collect
  exact filterMap_congr' fun k _ => by rw [h3]

/-! ### Spaces -/

theorem skipSp_append {w s : Str} (hw : Sp w) (hs : ∀ c ∈ s.head?, c ≠ ' ') : skipSp (w ++ s) = s := by
  unfold skipSp
  exact dropWhile_append_stop (by rw [List.all_eq_true]; exact fun c hc => by simpa using hw c hc)
    (fun c hc => by simpa using hs c hc)

theorem skipSp_split (cs : Str) : ∃ w, Sp w ∧ cs = w ++ skipSp cs := by
  refine ⟨cs.takeWhile (· == ' '), ?_, List.takeWhile_append_dropWhile.symm⟩
  intro c hc
  have := List.all_takeWhile (p := (· == ' ')) (l := cs)
  rw [List.all_eq_true] at this
  simpa using this c hc

theorem skipOws_append {w s : Str} (hw : Ows w) (hs : ∀ c ∈ s.head?, c ≠ ' ' ∧ c ≠ '\t') : skipOws (w ++ s) = s := by
  unfold skipOws
  exact dropWhile_append_stop (by rw [List.all_eq_true]; exact fun c hc => by simpa using hw c hc)
    (fun c hc => by simpa using hs c hc)

theorem skipOws_split (cs : Str) : ∃ w, Ows w ∧ cs = w ++ skipOws cs := by
  refine ⟨cs.takeWhile (fun c => c == ' ' || c == '\t'), ?_, List.takeWhile_append_dropWhile.symm⟩
  intro c hc
  have := List.all_takeWhile (p := (fun c => c == ' ' || c == '\t')) (l := cs)
  rw [List.all_eq_true] at this
  simpa using this c hc

/-! ### Parameters -/

theorem Key.head {k : Str} (h : Key k) : ∃ c cs, k = c :: cs ∧ c ≠ ' ' ∧ c ≠ '\t' := by
  obtain ⟨h1, _⟩ := h
  refine ⟨_, _, rfl, ?_⟩
  rcases h1 with h | rfl
  · unfold Lcalpha at h
    exact ⟨by rintro rfl; revert h; decide, by rintro rfl; revert h; decide⟩
  · decide

theorem parameters_end {p : Str} {ps : List (Str × BareItem)} (h : Parameters p ps) {rest : Str} (hr : End rest) :
    End' (p ++ rest) := by
  cases h with
  | nil => exact hr.end'
  | flag => intro c hc; simp at hc; exact .inl hc.symm
  | value => intro c hc; simp at hc; exact .inl hc.symm

theorem parameters_sound {fuel : Nat} : ∀ {acc m : Params} {cs r : Str}, isAscii cs = true →
    parseParamsAux fuel acc cs = some (m, r) →
    ∃ s ps, cs = s ++ r ∧ Parameters s ps ∧ m = ps.foldl (fun (m : Params) e => IMap.insert m e.1 e.2) acc := by
  induction fuel with
  | zero => intro acc m cs r _ h; simp [parseParamsAux] at h
  | succ fuel ih =>
    intro acc m cs r ha h
    rw [parseParamsAux.eq_def] at h
    simp only at h
    split at h
    · rename_i r0
      simp only [Option.bind_eq_bind, Option.bind_eq_some_iff] at h
      obtain ⟨⟨k, r1⟩, hk, ⟨v, r2⟩, hv, h⟩ := h
      obtain ⟨hkey, hk2⟩ := parseKey_sound hk
      obtain ⟨w, hw, hw2⟩ := skipSp_split r0
      rw [hk2] at hw2
      have s1 : r1 <:+ ';' :: r0 := ⟨';' :: w ++ k, by rw [hw2]; simp⟩
      unfold parseParamValue at hv
      split at hv
      · rename_i r3 hr3
        simp only at hr3
        rw [hr3] at s1 hw2
        obtain ⟨s, hs, hbare⟩ := bare_sound (ascii_of_suffix ((List.suffix_cons _ _).trans s1) ha) hv
        have s2 : r2 <:+ ';' :: r0 := ⟨';' :: w ++ k ++ '=' :: s, by rw [hw2, hs]; simp⟩
        obtain ⟨t, ps, ht, hp, hm⟩ := ih (ascii_of_suffix s2 ha) h
        exact ⟨';' :: w ++ k ++ '=' :: s ++ t, (k, v) :: ps, by rw [hw2, hs, ht]; simp, .value hw hkey hbare hp, hm⟩
      · cases hv
        obtain ⟨t, ps, ht, hp, hm⟩ := ih (ascii_of_suffix s1 ha) h
        exact ⟨';' :: w ++ k ++ t, (k, .boolean true) :: ps, by rw [hw2, ht]; simp, .flag hw hkey hp, hm⟩
    · cases h; exact ⟨[], [], rfl, .nil, rfl⟩

theorem parseKey_complete {k rest : Str} (h : Key k) (hr : ∀ c ∈ rest.head?, isKeyChar c = false) :
    parseKey (k ++ rest) = some (k, rest) := parseKey_ser ((key_iff k).2 h) hr

theorem parameters_complete {s : Str} {ps : List (Str × BareItem)} (h : Parameters s ps) {rest : Str} (hr : End rest) :
    ∀ {fuel : Nat} {acc : Params}, (s ++ rest).length < fuel →
    parseParamsAux fuel acc (s ++ rest) = some (ps.foldl (fun (m : Params) e => IMap.insert m e.1 e.2) acc, rest) := by
  induction h with
  | nil =>
    intro fuel acc hf
    obtain ⟨fuel, rfl⟩ : ∃ f, fuel = f + 1 := ⟨fuel - 1, by omega⟩
    rw [List.nil_append, parseParamsAux.eq_def]
    simp only
    split
    · rename_i r
      exact absurd (hr ';' (by simp)) (by decide)
    · rfl
  | @flag w k s ps hw hk hp ih =>
    intro fuel acc hf
    obtain ⟨fuel, rfl⟩ : ∃ f, fuel = f + 1 := ⟨fuel - 1, by omega⟩
    have he := parameters_end hp hr
    have hkc : ∀ c ∈ (s ++ rest).head?, isKeyChar c = false := he.not (by decide)
    obtain ⟨c, cs, hc, hc2, _⟩ := hk.head
    rw [show ';' :: w ++ k ++ s ++ rest = ';' :: (w ++ (k ++ (s ++ rest))) by simp, parseParamsAux]
    rw [skipSp_append hw (by rw [hc]; simpa using hc2), parseKey_complete hk hkc]
    simp only [Option.bind_eq_bind, Option.bind_some]
    have : parseParamValue (s ++ rest) = some (.boolean true, s ++ rest) := by
      unfold parseParamValue
      split
      · rename_i r hsr
        rw [hsr] at he
        exact absurd (he '=' (by simp)) (by decide)
      · rfl
    rw [this]
    simp only [Option.bind_some, List.foldl_cons]
    exact ih (by simp at hf ⊢; omega)
  | @value w k v s b ps hw hk hv hp ih =>
    intro fuel acc hf
    obtain ⟨fuel, rfl⟩ : ∃ f, fuel = f + 1 := ⟨fuel - 1, by omega⟩
    have he := parameters_end hp hr
    obtain ⟨c, cs, hc, hc2, _⟩ := hk.head
    rw [show ';' :: w ++ k ++ '=' :: v ++ s ++ rest = ';' :: (w ++ (k ++ ('=' :: (v ++ (s ++ rest))))) by simp,
      parseParamsAux]
    rw [skipSp_append hw (by rw [hc]; simpa using hc2), parseKey_complete hk (by simp; decide)]
    simp only [Option.bind_eq_bind, Option.bind_some, parseParamValue]
    rw [bare_complete hv he]
    simp only [Option.bind_some, List.foldl_cons]
    exact ih (by simp at hf ⊢; omega)

theorem params_sound {m : Params} {cs r : Str} (ha : isAscii cs = true) (h : parseParams cs = some (m, r)) :
    ∃ s ps, cs = s ++ r ∧ Parameters s ps ∧ m = collect ps := by
  obtain ⟨s, ps, h1, h2, h3⟩ := parameters_sound ha h
  exact ⟨s, ps, h1, h2, h3.trans (foldl_collect ps)⟩

theorem params_complete {s : Str} {ps : List (Str × BareItem)} (h : Parameters s ps) {rest : Str} (hr : End rest) :
    parseParams (s ++ rest) = some (collect ps, rest) := by
  rw [← foldl_collect]
  exact parameters_complete h hr (by omega)

/-! ### Items -/

theorem item_sound {i : Item} {cs r : Str} (ha : isAscii cs = true) (h : parseItemBody cs = some (i, r)) :
    ∃ s, cs = s ++ r ∧ ItemText s i := by
  simp only [parseItemBody, Option.bind_eq_bind, Option.bind_eq_some_iff] at h
  obtain ⟨⟨b, r1⟩, hb, ⟨ps, r2⟩, hp, h⟩ := h
  cases h
  obtain ⟨s, rfl, hs⟩ := bare_sound ha hb
  obtain ⟨p, ps', rfl, hp', rfl⟩ := params_sound (ascii_of_suffix ⟨s, rfl⟩ ha) hp
  exact ⟨s ++ p, by simp, .mk hs hp'⟩

theorem item_complete {i : Item} {s : Str} (h : ItemText s i) {rest : Str} (hr : End rest) :
    parseItemBody (s ++ rest) = some (i, rest) := by
  obtain ⟨hb, hp⟩ := h
  simp only [parseItemBody, Option.bind_eq_bind, List.append_assoc]
  rw [bare_complete hb (parameters_end hp hr)]
  simp only [Option.bind_some]
  rw [params_complete hp hr]
  rfl

theorem bare_head {s : Str} {b : BareItem} (h : Bare s b) : ∃ c cs, s = c :: cs ∧ c ≠ ' ' ∧ c ≠ ')' ∧ c ≠ '(' := by
  have num : ∀ {c : Char}, (c = '-' ∨ c.isDigit = true) → c ≠ ' ' ∧ c ≠ ')' ∧ c ≠ '(' := by
    rintro c (rfl | h)
    · decide
    · refine ⟨?_, ?_, ?_⟩ <;> (rintro rfl; revert h; decide)
  cases h with
  | integer neg hd h1 h15 =>
    obtain ⟨c, cs, hcs, hc⟩ := number_head (neg := neg) hd h1 []
    exact ⟨c, cs, by simpa using hcs, num hc⟩
  | decimal neg hd h1 h12 hf1 hf3 =>
    rename_i ip fp n
    have hdi : Digits ip (digitsVal ip) := (digits_iff _ _).2 ⟨fun c hc => ((digits_iff _ _).1 hd).1 c (by simp [hc]), rfl⟩
    obtain ⟨c, cs, hcs, hc⟩ := number_head (neg := neg) hdi h1 ('.' :: fp)
    exact ⟨c, cs, hcs, num hc⟩
  | string hs => exact ⟨'"', _, rfl, by decide⟩
  | token ht =>
    obtain ⟨h1, _⟩ := ht
    have h1' := (tokenStart_iff _).2 h1
    refine ⟨_, _, rfl, ?_, ?_, ?_⟩ <;> (rintro rfl; revert h1'; decide)
  | binary hb => exact ⟨':', _, rfl, by decide⟩
  | true => exact ⟨'?', _, rfl, by decide⟩
  | false => exact ⟨'?', _, rfl, by decide⟩

theorem item_head {s : Str} {i : Item} (h : ItemText s i) : ∃ c cs, s = c :: cs ∧ c ≠ ' ' ∧ c ≠ ')' ∧ c ≠ '(' := by
  obtain ⟨hb, _⟩ := h
  obtain ⟨c, cs, rfl, h⟩ := bare_head hb
  exact ⟨c, _, rfl, h⟩

/-! ### Inner lists -/

theorem inner_sound {fuel : Nat} : ∀ {acc : List Item} {l : InnerList} {cs r : Str}, isAscii cs = true →
    parseInnerAux fuel acc cs = some (l, r) →
    (∃ w p ps, Sp w ∧ Parameters p ps ∧ cs = w ++ ')' :: p ++ r ∧ l = ⟨acc, collect ps⟩) ∨
    (∃ w s t p i is ps, Sp w ∧ ItemText s i ∧ ItemsTail t is ∧ Parameters p ps ∧ cs = w ++ s ++ t ++ ')' :: p ++ r ∧
      l = ⟨acc ++ i :: is, collect ps⟩) := by
  induction fuel with
  | zero => intro acc l cs r _ h; simp [parseInnerAux] at h
  | succ fuel ih =>
    intro acc l cs r ha h
    rw [parseInnerAux.eq_def] at h
    simp only at h
    split at h
    · cases h
    rename_i c0 cs0
    generalize c0 :: cs0 = cs at *
    obtain ⟨w, hw, hcs⟩ := skipSp_split cs
    split at h
    · rename_i r0 hr0
      rw [hr0] at hcs
      simp only [Option.bind_eq_bind, Option.bind_eq_some_iff] at h
      obtain ⟨⟨ps, r1⟩, hp, h⟩ := h
      cases h
      obtain ⟨p, ps', rfl, hp', rfl⟩ := params_sound (ascii_of_suffix ⟨w ++ [')'], by rw [hcs]; simp⟩ ha) hp
      exact .inl ⟨w, p, ps', hw, hp', by rw [hcs]; simp, rfl⟩
    · simp only [Option.bind_eq_bind, Option.bind_eq_some_iff] at h
      obtain ⟨⟨i, r1⟩, hi, h⟩ := h
      obtain ⟨s, hs, hit⟩ := item_sound (ascii_of_suffix (skipSp_suffix _) ha) hi
      rw [hs] at hcs
      simp only at h
      split at h
      · cases h
      rename_i c1 r1'
      split at h
      · rename_i hc1
        rcases ih (ascii_of_suffix ⟨w ++ s, by rw [hcs]; simp⟩ ha) h with
          ⟨w', p, ps, hw', hp, hr, hl⟩ | ⟨w', s', t', p, i', is, ps, hw', hi', ht', hp, hr, hl⟩
        · exact .inr ⟨w, s, w', p, i, [], ps, hw, hit, .nil hw', hp, by rw [hcs, hr]; simp, by rw [hl]⟩
        · refine .inr ⟨w, s, w' ++ s' ++ t', p, i, i' :: is, ps, hw, hit, .cons hw' ?_ hi' ht', hp, by rw [hcs, hr]; simp,
            by rw [hl]; simp⟩
          rintro rfl
          obtain ⟨c, cs, rfl, h1, h2, _⟩ := item_head hi'
          simp only [List.nil_append, List.cons_append, List.cons.injEq] at hr
          rw [← hr.1] at h1 h2
          rcases hc1 with h | h
          · exact h1 h
          · exact h2 h
      · cases h

theorem inner_close {fuel : Nat} {acc : List Item} {w p rest : Str} {ps : List (Str × BareItem)} (hw : Sp w)
    (hp : Parameters p ps) (hr : End rest) :
    parseInnerAux (fuel + 1) acc (w ++ ')' :: (p ++ rest)) = some (⟨acc, collect ps⟩, rest) := by
  rw [parseInnerAux.eq_def]
  simp only
  split
  · rename_i h; cases w <;> cases h
  · rename_i c cs h
    rw [skipSp_append hw (by simp)]
    simp only [Option.bind_eq_bind]
    rw [params_complete hp hr]
    rfl

theorem inner_item {fuel : Nat} {acc : List Item} {w s u : Str} {i : Item} (hw : Sp w) (hi : ItemText s i)
    (hu : ∃ c cs, u = c :: cs ∧ (c = ' ' ∨ c = ')')) :
    parseInnerAux (fuel + 1) acc (w ++ (s ++ u)) = parseInnerAux fuel (acc ++ [i]) u := by
  obtain ⟨c1, cs1, hs, h1, h2, _⟩ := item_head hi
  have hend : End u := by
    obtain ⟨c, cs, rfl, h⟩ := hu
    intro d hd
    simp at hd; subst hd
    rcases h with h | h
    · exact .inl h
    · exact .inr (.inl h)
  have hsk : skipSp (w ++ (s ++ u)) = s ++ u := skipSp_append hw (by rw [hs]; simpa using h1)
  have hit := item_complete hi hend
  rw [parseInnerAux.eq_def]
  simp only
  split
  · rename_i h; rw [hs] at h; cases w <;> cases h
  · rename_i c cs h
    rw [hsk]
    split
    · rename_i r hr
      rw [hs] at hr
      simp only [List.cons_append, List.cons.injEq] at hr
      exact absurd hr.1 h2
    · rw [hit]
      simp only [Option.bind_eq_bind, Option.bind_some]
      obtain ⟨c, cs, rfl, hc⟩ := hu
      simp only
      rw [if_pos hc]

theorem tail_head {t : Str} {is : List Item} (h : ItemsTail t is) (u : Str) :
    ∃ c cs, t ++ ')' :: u = c :: cs ∧ (c = ' ' ∨ c = ')') := by
  cases h with
  | nil hw =>
    cases t with
    | nil => exact ⟨_, _, rfl, .inr rfl⟩
    | cons c cs => exact ⟨c, _, rfl, .inl (hw c (by simp))⟩
  | @cons w s t i is hw hne _ _ =>
    cases w with
    | nil => exact absurd rfl hne
    | cons c cs => exact ⟨c, _, rfl, .inl (hw c (by simp))⟩

theorem tail_complete {t : Str} {is : List Item} (h : ItemsTail t is) {p rest : Str} {ps : List (Str × BareItem)}
    (hp : Parameters p ps) (hr : End rest) : ∀ {fuel : Nat} {acc : List Item}, (t ++ ')' :: (p ++ rest)).length < fuel →
    parseInnerAux fuel acc (t ++ ')' :: (p ++ rest)) = some (⟨acc ++ is, collect ps⟩, rest) := by
  induction h with
  | nil hw =>
    intro fuel acc hf
    obtain ⟨fuel, rfl⟩ : ∃ f, fuel = f + 1 := ⟨fuel - 1, by omega⟩
    rw [inner_close hw hp hr, List.append_nil]
  | @cons w s t i is hw hne hi ht ih =>
    intro fuel acc hf
    obtain ⟨fuel, rfl⟩ : ∃ f, fuel = f + 1 := ⟨fuel - 1, by omega⟩
    obtain ⟨c, cs, hs, _⟩ := item_head hi
    rw [show w ++ s ++ t ++ ')' :: (p ++ rest) = w ++ (s ++ (t ++ ')' :: (p ++ rest))) by simp, inner_item hw hi (tail_head ht _),
      ih (by rw [hs] at hf; simp at hf ⊢; omega)]
    simp

theorem innerText_complete {s : Str} {l : InnerList} (h : InnerText s l) {rest : Str} (hr : End rest) :
    parseInnerList (s ++ rest) = some (l, rest) := by
  cases h with
  | @nil w p ps hw hp =>
    rw [show '(' :: w ++ ')' :: p ++ rest = '(' :: (w ++ ')' :: (p ++ rest)) by simp, parseInnerList]
    exact inner_close hw hp hr
  | @cons w s t p i is ps hw hi ht hp =>
    rw [show '(' :: w ++ s ++ t ++ ')' :: p ++ rest = '(' :: (w ++ (s ++ (t ++ ')' :: (p ++ rest)))) by simp, parseInnerList]
    obtain ⟨c, cs, hs, _⟩ := item_head hi
    rw [inner_item hw hi (tail_head ht _), tail_complete ht hp hr (by rw [hs]; simp; omega)]
    rfl

theorem innerText_sound {cs r : Str} {l : InnerList} (ha : isAscii cs = true) (h : parseInnerList cs = some (l, r)) :
    ∃ s, cs = s ++ r ∧ InnerText s l := by
  unfold parseInnerList at h
  split at h
  · rename_i r0
    rcases inner_sound (ascii_of_suffix (List.suffix_cons _ _) ha) h with
      ⟨w, p, ps, hw, hp, hr, rfl⟩ | ⟨w, s, t, p, i, is, ps, hw, hi, ht, hp, hr, rfl⟩
    · exact ⟨_, by rw [hr]; simp, .nil hw hp⟩
    · exact ⟨_, by rw [hr]; simp, .cons hw hi ht hp⟩
  · cases h

/-! ### Dictionaries -/

theorem member_sound {cs k r r' : Str} {e : ListEntry} (ha : isAscii cs = true) (hk : parseKey cs = some (k, r))
    (he : parseMember r = some (e, r')) : ∃ s, cs = s ++ r' ∧ Member s k e := by
  obtain ⟨hkey, rfl⟩ := parseKey_sound hk
  have ha' := ascii_of_suffix ⟨k, rfl⟩ ha
  unfold parseMember at he
  split at he
  · rename_i r0
    have ha0 := ascii_of_suffix (List.suffix_cons _ _) ha'
    unfold parseListEntry at he
    split at he
    · rw [Option.map_eq_some_iff] at he
      obtain ⟨⟨l, r1⟩, h1, h2⟩ := he
      cases h2
      obtain ⟨s, hs, hl⟩ := innerText_sound ha0 h1
      exact ⟨k ++ '=' :: s, by rw [hs]; simp, .inner hkey hl⟩
    · rw [Option.map_eq_some_iff] at he
      obtain ⟨⟨l, r1⟩, h1, h2⟩ := he
      cases h2
      obtain ⟨s, hs, hl⟩ := item_sound ha0 h1
      exact ⟨k ++ '=' :: s, by rw [hs]; simp, .item hkey hl⟩
  · rw [Option.map_eq_some_iff] at he
    obtain ⟨⟨l, r1⟩, h1, h2⟩ := he
    cases h2
    obtain ⟨p, ps, hs, hp, rfl⟩ := params_sound ha' h1
    exact ⟨k ++ p, by rw [hs]; simp, .flag hkey hp⟩

theorem member_complete {s k : Str} {e : ListEntry} (h : Member s k e) {rest : Str} (hr : End rest) :
    ∃ r, parseKey (s ++ rest) = some (k, r) ∧ parseMember r = some (e, rest) := by
  cases h with
  | @flag _ p ps hk hp =>
    have he := parameters_end hp hr
    refine ⟨p ++ rest, ?_, ?_⟩
    · rw [List.append_assoc]
      exact parseKey_complete hk (he.not (by decide))
    · unfold parseMember
      split
      · rename_i r hsr
        rw [hsr] at he
        exact absurd (he '=' (by simp)) (by decide)
      · rw [params_complete hp hr]; rfl
  | @item _ s i hk hi =>
    refine ⟨'=' :: (s ++ rest), ?_, ?_⟩
    · rw [List.append_assoc, List.cons_append]
      exact parseKey_complete hk (by simp; decide)
    · obtain ⟨c, cs, hs, _, _, h3⟩ := item_head hi
      simp only [parseMember, parseListEntry]
      split
      · rename_i r hsr
        rw [hs] at hsr
        simp only [List.cons_append, List.cons.injEq] at hsr
        exact absurd hsr.1 h3
      · rw [item_complete hi hr]; rfl
  | @inner _ s l hk hl =>
    refine ⟨'=' :: (s ++ rest), ?_, ?_⟩
    · rw [List.append_assoc, List.cons_append]
      exact parseKey_complete hk (by simp; decide)
    · have : ∃ u, s ++ rest = '(' :: u := by
        cases hl with
        | nil => exact ⟨_, rfl⟩
        | cons => exact ⟨_, rfl⟩
      obtain ⟨u, hu⟩ := this
      have hc := innerText_complete hl hr
      simp only [parseMember, parseListEntry]
      rw [hu] at hc ⊢
      simp only
      rw [hc]; rfl

theorem members_sound {fuel : Nat} : ∀ {acc d : Dictionary} {cs r : Str}, isAscii cs = true → cs ≠ [] →
    parseDictAux fuel acc cs = some (d, r) →
    r = [] ∧ ∃ ms, Members cs ms ∧ d = ms.foldl (fun (m : Dictionary) e => IMap.insert m e.1 e.2) acc := by
  induction fuel with
  | zero => intro acc d cs r _ _ h; simp [parseDictAux] at h
  | succ fuel ih =>
    intro acc d cs r ha hne h
    rw [parseDictAux.eq_def] at h
    simp only at h
    split at h
    · exact absurd rfl hne
    rename_i c0 cs0
    generalize c0 :: cs0 = cs at *
    simp only [Option.bind_eq_bind, Option.bind_eq_some_iff] at h
    obtain ⟨⟨k, r1⟩, hk, ⟨e, r2⟩, he, h⟩ := h
    obtain ⟨s, hs, hm⟩ := member_sound ha hk he
    simp only at h
    obtain ⟨w, hw, hr2⟩ := skipOws_split r2
    split at h
    · rename_i h0
      cases h
      rw [h0, List.append_nil] at hr2
      exact ⟨rfl, [(k, e)], by rw [hs, hr2]; exact .last hm hw, rfl⟩
    rename_i c r3 hr3
    split at h
    · rename_i hc
      split at h
      · cases h
      · rename_i hne3
        obtain ⟨w', hw', hr3'⟩ := skipOws_split r3
        have hcs : cs = s ++ w ++ ',' :: w' ++ skipOws r3 := by
          rw [hs, hr2, hr3, hc]
          conv => lhs; rw [hr3']
          simp
        obtain ⟨h1, ms, h2, h3⟩ := ih (ascii_of_suffix ⟨s ++ w ++ ',' :: w', hcs.symm⟩ ha) hne3 h
        exact ⟨h1, (k, e) :: ms, by rw [hcs]; exact .more hm hw hw' h2, h3⟩
    · cases h

theorem member_head {s k : Str} {e : ListEntry} (h : Member s k e) : ∃ c cs, s = c :: cs ∧ c ≠ ' ' ∧ c ≠ '\t' := by
  have key : Key k → ∀ t, ∃ c cs, k ++ t = c :: cs ∧ c ≠ ' ' ∧ c ≠ '\t' := by
    intro hk t
    obtain ⟨c, cs, hc, h⟩ := hk.head
    exact ⟨c, cs ++ t, by rw [hc]; rfl, h⟩
  cases h with
  | flag hk _ => exact key hk _
  | item hk _ => exact key hk _
  | inner hk _ => exact key hk _

theorem members_head {s : Str} {ms : List (Str × ListEntry)} (h : Members s ms) :
    ∃ c cs, s = c :: cs ∧ c ≠ ' ' ∧ c ≠ '\t' := by
  cases h with
  | last hm _ => obtain ⟨c, cs, rfl, h⟩ := member_head hm; exact ⟨c, _, rfl, h⟩
  | more hm _ _ _ => obtain ⟨c, cs, rfl, h⟩ := member_head hm; exact ⟨c, _, rfl, h⟩

theorem members_complete {s : Str} {ms : List (Str × ListEntry)} (h : Members s ms) :
    ∀ {fuel : Nat} {acc : Dictionary}, s.length < fuel →
    parseDictAux fuel acc s = some (ms.foldl (fun (m : Dictionary) e => IMap.insert m e.1 e.2) acc, []) := by
  have ows_end : ∀ {w u : Str}, Ows w → (∀ c ∈ u.head?, c = ',') → End (w ++ u) := by
    intro w u hw hu c hc
    cases w with
    | nil => exact .inr (.inr (.inl (hu c hc)))
    | cons d w =>
      simp at hc; subst hc
      rcases hw d (by simp) with h | h
      · exact .inl h
      · exact .inr (.inr (.inr h))
  induction h with
  | @last s k w e hm hw =>
    intro fuel acc hf
    obtain ⟨fuel, rfl⟩ : ∃ f, fuel = f + 1 := ⟨fuel - 1, by omega⟩
    obtain ⟨c, cs, hs, _⟩ := member_head hm
    obtain ⟨r, h1, h2⟩ := member_complete hm (rest := w) (by simpa using ows_end (u := []) hw (by simp))
    rw [parseDictAux.eq_def]
    simp only
    split
    · rename_i h; rw [hs] at h; cases h
    · rename_i h
      rw [h1]
      simp only [Option.bind_eq_bind, Option.bind_some]
      rw [h2]
      simp only [Option.bind_some]
      have : skipOws w = [] := by simpa using skipOws_append (s := []) hw (by simp)
      rw [this]
      rfl
  | @more s k w w' t e ms hm hw hw' ht ih =>
    intro fuel acc hf
    obtain ⟨fuel, rfl⟩ : ∃ f, fuel = f + 1 := ⟨fuel - 1, by omega⟩
    obtain ⟨c, cs, hs, _⟩ := member_head hm
    obtain ⟨ct, cst, hts, hct⟩ := members_head ht
    obtain ⟨r, h1, h2⟩ := member_complete hm (rest := w ++ ',' :: (w' ++ t)) (ows_end hw (by simp))
    rw [show s ++ w ++ ',' :: w' ++ t = s ++ (w ++ ',' :: (w' ++ t)) by simp] at hf ⊢
    rw [parseDictAux.eq_def]
    simp only
    split
    · rename_i h; rw [hs] at h; cases h
    · rename_i h
      rw [h1]
      simp only [Option.bind_eq_bind, Option.bind_some]
      rw [h2]
      simp only [Option.bind_some]
      rw [skipOws_append hw (by simp)]
      simp only [if_true]
      have : skipOws (w' ++ t) = t := skipOws_append hw' (by rw [hts]; simpa using hct)
      rw [this]
      split
      · cases hts
      · rw [ih (by simp at hf; omega)]
        rfl

/-! ### ASCII -/

theorem ascii_append {a b : Str} : isAscii (a ++ b) = true ↔ isAscii a = true ∧ isAscii b = true := by
  simp [isAscii, List.all_append]

theorem ascii_cons {c : Char} {b : Str} : isAscii (c :: b) = true ↔ c.toNat < 128 ∧ isAscii b = true := by
  simp [isAscii]

theorem ascii_of_all {s : Str} (h : ∀ c ∈ s, c.toNat < 128) : isAscii s = true := by
  unfold isAscii
  rw [List.all_eq_true]
  exact fun c hc => by simpa using h c hc

theorem Sp.ascii {w : Str} (h : Sp w) : isAscii w = true := ascii_of_all fun c hc => by rw [h c hc]; decide
theorem Ows.ascii {w : Str} (h : Ows w) : isAscii w = true := ascii_of_all fun c hc => by
  rcases h c hc with h | h <;> (rw [h]; decide)

theorem Key.ascii {k : Str} (h : Key k) : isAscii k = true := by
  refine ascii_of_all fun c hc => ?_
  have : isKeyChar c = true := by
    have := ((key_iff k).2 h).all
    rw [List.all_eq_true] at this
    exact this c hc
  charcls; omega

theorem Digits.ascii {s : Str} {n : Nat} (h : Digits s n) : isAscii s = true := by
  refine ascii_of_all fun c hc => ?_
  have := ((digits_iff s n).1 h).1 c hc
  rw [isDigit_iff] at this; omega

theorem sign_ascii (neg : Bool) : isAscii (sign neg) = true := by cases neg <;> rfl

theorem Bare.ascii {s : Str} {b : BareItem} (h : Bare s b) : isAscii s = Bool.true := by
  cases h with
  | integer neg hd => exact ascii_append.2 ⟨sign_ascii neg, hd.ascii⟩
  | decimal neg hd =>
    have := ascii_append.1 hd.ascii
    exact ascii_append.2 ⟨ascii_append.2 ⟨sign_ascii neg, this.1⟩, ascii_cons.2 ⟨by decide, this.2⟩⟩
  | string hs =>
    refine ascii_append.2 ⟨ascii_cons.2 ⟨by decide, ?_⟩, rfl⟩
    induction hs with
    | nil => rfl
    | unescaped h1 h2 _ _ _ ih => exact ascii_cons.2 ⟨by omega, ih⟩
    | escaped hc _ ih => exact ascii_cons.2 ⟨by decide, ascii_cons.2 ⟨by rcases hc with rfl | rfl <;> decide, ih⟩⟩
  | token ht =>
    obtain ⟨h1, h2⟩ := ht
    refine ascii_cons.2 ⟨?_, ascii_of_all fun c hc => ?_⟩
    · have := (tokenStart_iff _).2 h1
      charcls; omega
    · have := (tokenChar_iff _).2 (h2 c hc)
      charcls; omega
  | binary hb =>
    refine ascii_append.2 ⟨ascii_cons.2 ⟨by decide, ascii_of_all fun c hc => ?_⟩, rfl⟩
    have := (b64Char_of (base64Text_chars hb c hc)).1
    charcls; omega
  | true => rfl
  | false => rfl

theorem Parameters.ascii {s : Str} {ps : List (Str × BareItem)} (h : Parameters s ps) : isAscii s = true := by
  induction h with
  | nil => rfl
  | flag hw hk _ ih => exact ascii_append.2 ⟨ascii_append.2 ⟨ascii_cons.2 ⟨by decide, hw.ascii⟩, hk.ascii⟩, ih⟩
  | value hw hk hv _ ih =>
    exact ascii_append.2 ⟨ascii_append.2 ⟨ascii_append.2 ⟨ascii_cons.2 ⟨by decide, hw.ascii⟩, hk.ascii⟩,
      ascii_cons.2 ⟨by decide, hv.ascii⟩⟩, ih⟩

theorem ItemText.ascii {s : Str} {i : Item} (h : ItemText s i) : isAscii s = true := by
  obtain ⟨hb, hp⟩ := h
  exact ascii_append.2 ⟨hb.ascii, hp.ascii⟩

theorem ItemsTail.ascii {s : Str} {is : List Item} (h : ItemsTail s is) : isAscii s = true := by
  induction h with
  | nil hw => exact hw.ascii
  | cons hw _ hi _ ih => exact ascii_append.2 ⟨ascii_append.2 ⟨hw.ascii, hi.ascii⟩, ih⟩

theorem InnerText.ascii {s : Str} {l : InnerList} (h : InnerText s l) : isAscii s = true := by
  cases h with
  | nil hw hp => exact ascii_append.2 ⟨ascii_cons.2 ⟨by decide, hw.ascii⟩, ascii_cons.2 ⟨by decide, hp.ascii⟩⟩
  | cons hw hi ht hp =>
    exact ascii_append.2 ⟨ascii_append.2 ⟨ascii_append.2 ⟨ascii_cons.2 ⟨by decide, hw.ascii⟩, hi.ascii⟩, ht.ascii⟩,
      ascii_cons.2 ⟨by decide, hp.ascii⟩⟩

theorem Member.ascii {s k : Str} {e : ListEntry} (h : Member s k e) : isAscii s = true := by
  cases h with
  | flag hk hp => exact ascii_append.2 ⟨hk.ascii, hp.ascii⟩
  | item hk hi => exact ascii_append.2 ⟨hk.ascii, ascii_cons.2 ⟨by decide, hi.ascii⟩⟩
  | inner hk hl => exact ascii_append.2 ⟨hk.ascii, ascii_cons.2 ⟨by decide, hl.ascii⟩⟩

theorem Members.ascii {s : Str} {ms : List (Str × ListEntry)} (h : Members s ms) : isAscii s = true := by
  induction h with
  | last hm hw => exact ascii_append.2 ⟨hm.ascii, hw.ascii⟩
  | more hm hw hw' _ ih =>
    exact ascii_append.2 ⟨ascii_append.2 ⟨ascii_append.2 ⟨hm.ascii, hw.ascii⟩, ascii_cons.2 ⟨by decide, hw'.ascii⟩⟩, ih⟩

/-! ### Whole texts -/

theorem parseDictionary_iff (s : Str) (d : Dictionary) : parseDictionary s = some d ↔ Dict s d := by
  constructor
  · intro h
    unfold parseDictionary at h
    split at h
    · rename_i ha
      simp only at h
      obtain ⟨w, hw, hs⟩ := skipSp_split s
      split at h
      · rename_i d' r hd
        split at h
        · cases h
          by_cases hne : skipSp s = []
          · rw [hne] at hd hs
            rw [List.append_nil] at hs
            cases hd
            rw [hs]
            exact .empty hw
          · obtain ⟨_, ms, hms, rfl⟩ := members_sound (ascii_of_suffix (skipSp_suffix s) ha) hne hd
            rw [foldl_collect]
            rw [hs]
            exact .mk hw hms
        · cases h
      · cases h
    · cases h
  · intro h
    unfold parseDictionary
    cases h with
    | empty hw =>
      rw [if_pos hw.ascii]
      have : skipSp s = [] := by simpa using skipSp_append (s := []) hw (by simp)
      simp only [this]
      rfl
    | @mk w s ms hw hm =>
      rw [if_pos (ascii_append.2 ⟨hw.ascii, hm.ascii⟩)]
      obtain ⟨c, cs, hs, hc, _⟩ := members_head hm
      have : skipSp (w ++ s) = s := skipSp_append hw (by rw [hs]; simpa using hc)
      simp only [this]
      rw [members_complete hm (by omega)]
      simp only
      rw [if_pos (show skipSp [] = [] from rfl), foldl_collect]

theorem parseItem_iff (s : Str) (i : Item) : parseItem s = some i ↔
    ∃ w t w', Sp w ∧ ItemText t i ∧ Sp w' ∧ s = w ++ t ++ w' := by
  constructor
  · intro h
    unfold parseItem at h
    split at h
    · rename_i ha
      obtain ⟨w, hw, hs⟩ := skipSp_split s
      split at h
      · rename_i d' r hd
        split at h
        · rename_i hr
          cases h
          obtain ⟨t, ht, hi⟩ := item_sound (ascii_of_suffix (skipSp_suffix s) ha) hd
          obtain ⟨w', hw', hr'⟩ := skipSp_split r
          rw [hr, List.append_nil] at hr'
          exact ⟨w, t, w', hw, hi, hw', by rw [hs, ht, hr', List.append_assoc]⟩
        · cases h
      · cases h
    · cases h
  · rintro ⟨w, t, w', hw, hi, hw', rfl⟩
    obtain ⟨c, cs, ht, hc, _⟩ := item_head hi
    have h1 : skipSp (w ++ (t ++ w')) = t ++ w' := skipSp_append hw (by rw [ht]; simpa using hc)
    have h2 : skipSp w' = [] := by simpa using skipSp_append (s := []) hw' (by simp)
    have hend : End w' := fun c hc => .inl (hw' c (List.mem_of_mem_head? hc))
    unfold parseItem
    rw [if_pos (ascii_append.2 ⟨ascii_append.2 ⟨hw.ascii, hi.ascii⟩, hw'.ascii⟩), List.append_assoc, h1,
      item_complete hi hend]
    simp only
    rw [if_pos h2]

end Httpsig.Grammar
