import Verif.Lemmas.SfvBare
import Verif.Lemmas.IndexMap
/- Parameters, items, inner lists and dictionaries: parsing inverts serialisation. -/
namespace Httpsig.Sfv

/-! ### Keys -/

theorem KeyOk.all {k : Str} (h : KeyOk k) : k.all isKeyChar = true := by
  obtain ⟨c, cs, rfl, h1, h2⟩ := h
  have : isKeyChar c = true := by clear h2; charcls; omega
  simp only [List.all_cons, this, h2, Bool.and_self]

theorem KeyOk.ser {k : Str} (h : KeyOk k) : serKey k = some k := by
  have hall := h.all
  obtain ⟨c, cs, rfl, h1, h2⟩ := h
  unfold serKey
  rw [if_pos hall]
  simp only [if_pos h1]

theorem keyOk_of_ser {k s : Str} (h : serKey k = some s) (hne : k ≠ []) : KeyOk k := by
  unfold serKey at h
  split at h
  · rename_i hall
    cases k with
    | nil => exact absurd rfl hne
    | cons c cs =>
      simp only at h
      split at h
      · rename_i h1
        simp only [List.all_cons, Bool.and_eq_true] at hall
        exact ⟨c, cs, rfl, h1, hall.2⟩
      · cases h
  · cases h

theorem serKey_eq {k s : Str} (h : serKey k = some s) : s = k := by
  unfold serKey at h
  split at h
  · cases k with
    | nil => cases h; rfl
    | cons c cs =>
      simp only at h
      split at h <;> cases h
      rfl
  · cases h

theorem KeyOk.head {k : Str} (h : KeyOk k) : ∃ c cs, k = c :: cs ∧ c ≠ ' ' ∧ c ≠ '(' := by
  obtain ⟨c, cs, rfl, h1, h2⟩ := h
  exact ⟨c, cs, rfl, by clear h2; charcls; omega⟩

theorem KeyOk.printable {k : Str} (h : KeyOk k) : k.all isStringChar = true := by
  rw [List.all_eq_true]
  intro c hc
  have := List.all_eq_true.1 h.all c hc
  clear hc h
  charcls; omega

theorem parseKey_ser {k rest : Str} (h : KeyOk k) (hr : ∀ c ∈ rest.head?, isKeyChar c = false) :
    parseKey (k ++ rest) = some (k, rest) := by
  have hall := h.all
  obtain ⟨c, cs, rfl, h1, h2⟩ := h
  rw [List.cons_append, parseKey.eq_def]
  simp only
  rw [if_pos h1, ← List.cons_append, takeWhile_append_stop hall hr, dropWhile_append_stop hall hr]

theorem skipSp_of_head {s : Str} (h : ∀ c ∈ s.head?, c ≠ ' ') : skipSp s = s := by
  unfold skipSp
  exact dropWhile_eq_self (fun c hc => by simpa using h c hc)

theorem skipSp_space (s : Str) : skipSp (' ' :: s) = skipSp s := by simp [skipSp]

theorem Stop.key {rest : Str} (h : Stop rest) : ∀ c ∈ rest.head?, isKeyChar c = false := h.not (by decide)

/-! ### Parameters -/

/-- What may follow a list of parameters. -/
def StopP (rest : Str) : Prop := ∀ c ∈ rest.head?, c = ' ' ∨ c = ')' ∨ c = ','

theorem StopP.stop {rest : Str} (h : StopP rest) : Stop rest := fun c hc => Or.inr (h c hc)

theorem stopP_nil : StopP [] := by simp [StopP]

theorem serParam_spec {k : Str} {v : BareItem} (hk : KeyOk k) (hv : BareOk v) :
    ∃ vs, serParam k v = some (';' :: k ++ vs) ∧ vs.all isStringChar = true ∧
      (∀ c ∈ vs.head?, isKeyChar c = false) ∧
      ∀ rest, Stop rest → parseParamValue (vs ++ rest) = some (v.norm, rest) := by
  unfold serParam
  simp only [hk.ser, Option.bind_eq_bind, Option.bind_some]
  split
  · rename_i hb
    subst hb
    refine ⟨[], by simp, by simp, by simp, ?_⟩
    intro rest hr
    simp only [List.nil_append, parseParamValue, BareItem.norm]
    split
    · rename_i r; rcases hr '=' (by simp) with h | h | h | h <;> exact absurd h (by decide)
    · rfl
  · obtain ⟨s, hs⟩ := hv.ser
    refine ⟨'=' :: s, by simp [hs], ?_, by simp; decide, ?_⟩
    · have := serBare_printable hs
      simp only [List.all_cons, this, Bool.and_true]; decide
    · intro rest hr
      simp only [List.cons_append, parseParamValue]
      exact parseBare_ser hv hs hr

theorem serParams_append_head {ps : Params} {s rest : Str} (h : serParams ps = some s) (hr : StopP rest) :
    Stop (s ++ rest) := by
  cases ps with
  | nil => cases h; simpa using hr.stop
  | cons e ps =>
    obtain ⟨k, v⟩ := e
    simp only [serParams, Option.bind_eq_bind, Option.bind_eq_some_iff] at h
    obtain ⟨a, ha, b, hb, h⟩ := h
    cases h
    simp only [serParam, Option.bind_eq_bind, Option.bind_eq_some_iff] at ha
    obtain ⟨ks, hks, ha⟩ := ha
    have : ∃ t, a = ';' :: t := by
      split at ha
      · cases ha; exact ⟨_, rfl⟩
      · simp only [Option.bind_eq_some_iff] at ha
        obtain ⟨vs, _, ha⟩ := ha
        cases ha; exact ⟨_, rfl⟩
    obtain ⟨t, rfl⟩ := this
    intro c hc
    simp at hc
    exact Or.inl hc.symm

theorem ParamsOk.ser {ps : Params} (h : ∀ e ∈ ps, KeyOk e.1 ∧ BareOk e.2) :
    ∃ s, serParams ps = some s ∧ s.all isStringChar = true := by
  induction ps with
  | nil => exact ⟨[], rfl, rfl⟩
  | cons e ps ih =>
    obtain ⟨k, v⟩ := e
    obtain ⟨s, hs, hp⟩ := ih (fun e he => h e (by simp [he]))
    have hkv := h (k, v) (by simp)
    obtain ⟨vs, h1, h2, _⟩ := serParam_spec hkv.1 hkv.2
    refine ⟨';' :: k ++ vs ++ s, by simp [serParams, h1, hs], ?_⟩
    simp only [List.all_append, List.all_cons, hkv.1.printable, h2, hp, Bool.and_true]
    decide

theorem parseParamsAux_ser {fuel : Nat} {ps acc : Params} {s rest : Str}
    (hok : ∀ e ∈ ps, KeyOk e.1 ∧ BareOk e.2)
    (hnd : ((acc ++ ps).map Prod.fst).Nodup)
    (h : serParams ps = some s) (hf : s.length < fuel) (hr : StopP rest) :
    parseParamsAux fuel acc (s ++ rest) = some (acc ++ normParams ps, rest) := by
  induction ps generalizing fuel acc s with
  | nil =>
    cases h
    obtain ⟨f, rfl⟩ : ∃ f, fuel = f + 1 := ⟨fuel - 1, by omega⟩
    simp only [List.nil_append, parseParamsAux, normParams, List.map_nil, List.append_nil]
    split
    · rcases hr ';' (by simp) with h | h | h <;> exact absurd h (by decide)
    · rfl
  | cons e ps ih =>
    obtain ⟨k, v⟩ := e
    obtain ⟨f, rfl⟩ : ∃ f, fuel = f + 1 := ⟨fuel - 1, by omega⟩
    have hkv : KeyOk k ∧ _ := hok (k, v) (by simp)
    obtain ⟨vs, h1, h2, h3, h4⟩ := serParam_spec hkv.1 hkv.2
    simp only [serParams, h1, Option.bind_eq_bind, Option.bind_some, Option.bind_eq_some_iff] at h
    obtain ⟨b, hb, h⟩ := h
    cases h
    have hst := serParams_append_head hb hr
    have hkey : ∀ c ∈ (vs ++ (b ++ rest)).head?, isKeyChar c = false := by
      cases vs with
      | nil => exact hst.key
      | cons x xs => simpa using h3
    obtain ⟨c0, cs0, hk0, hk1, _⟩ := hkv.1.head
    have hsp : skipSp (k ++ (vs ++ (b ++ rest))) = k ++ (vs ++ (b ++ rest)) := by
      apply skipSp_of_head
      rw [hk0]; simpa using hk1
    have hkn : k ∉ acc.map Prod.fst := by
      simp only [List.map_append, List.map_cons, List.nodup_append] at hnd
      intro hm
      exact hnd.2.2 k hm k (by simp) rfl
    rw [show (';' :: k ++ vs ++ b ++ rest) = ';' :: (k ++ (vs ++ (b ++ rest))) by simp]
    simp only [parseParamsAux, hsp, parseKey_ser hkv.1 hkey, h4 _ hst, Option.bind_eq_bind, Option.bind_some]
    rw [IMap.insert_of_not_mem hkn, ih (fun e he => hok e (by simp [he])) ?_ hb ?_]
    · simp [normParams]
    · simpa using hnd
    · simp at hf; omega

theorem parseParams_ser {ps : Params} {s rest : Str} (hok : ParamsOk ps) (h : serParams ps = some s) (hr : StopP rest) :
    parseParams (s ++ rest) = some (normParams ps, rest) := by
  unfold parseParams
  have := parseParamsAux_ser (fuel := (s ++ rest).length + 1) (acc := []) hok.2 (by simpa [IMap.NodupKeys] using hok.1) h (by simp; omega) hr
  simpa using this

theorem paramsOk_of_ser {ps : Params} {s : Str} (h : serParams ps = some s) (hnd : IMap.NodupKeys ps)
    (hne : ∀ e ∈ ps, e.1 ≠ [] ∧ BareTidy e.2) : ParamsOk ps := by
  refine ⟨hnd, ?_⟩
  clear hnd
  induction ps generalizing s with
  | nil => simp
  | cons e ps ih =>
    obtain ⟨k, v⟩ := e
    simp only [serParams, Option.bind_eq_bind, Option.bind_eq_some_iff] at h
    obtain ⟨a, ha, b, hb, h⟩ := h
    intro e he
    rcases List.mem_cons.1 he with rfl | he
    · have hn := hne (k, v) (by simp)
      simp only [serParam, Option.bind_eq_bind, Option.bind_eq_some_iff] at ha
      obtain ⟨ks, hks, ha⟩ := ha
      refine ⟨keyOk_of_ser hks hn.1, ?_⟩
      split at ha
      · rename_i hv; simp only; rw [hv]; trivial
      · simp only [Option.bind_eq_some_iff] at ha
        obtain ⟨vs, hvs, ha⟩ := ha
        exact bareOk_of_ser hvs hn.2
    · exact ih hb (fun e he => hne e (by simp [he])) e he

/-! ### Items -/

theorem ItemOk.ser {i : Item} (h : ItemOk i) : ∃ s, serItem i = some s ∧ s.all isStringChar = true ∧
    (∃ c cs, s = c :: cs ∧ isBareHead c = true) ∧
    ∀ rest, StopP rest → parseItemBody (s ++ rest) = some (normItem i, rest) := by
  obtain ⟨a, ha⟩ := h.1.ser
  obtain ⟨b, hb, hbp⟩ := ParamsOk.ser h.2.2
  obtain ⟨c, cs, hs, hc⟩ := serBare_head h.1 ha
  refine ⟨a ++ b, by simp [serItem, ha, hb], by simp only [List.all_append, serBare_printable ha, hbp, Bool.and_self],
    ⟨c, cs ++ b, by simp [hs], hc⟩, ?_⟩
  intro rest hr
  unfold parseItemBody
  rw [List.append_assoc, parseBare_ser h.1 ha (serParams_append_head hb hr)]
  simp only [Option.bind_eq_bind, Option.bind_some, parseParams_ser h.2 hb hr]
  rfl

theorem itemOk_of_ser {i : Item} {s : Str} (h : serItem i = some s) (hnd : IMap.NodupKeys i.params)
    (hb : BareTidy i.bare) (hne : ∀ e ∈ i.params, e.1 ≠ [] ∧ BareTidy e.2) : ItemOk i := by
  simp only [serItem, Option.bind_eq_bind, Option.bind_eq_some_iff] at h
  obtain ⟨a, ha, b, hb', h⟩ := h
  exact ⟨bareOk_of_ser ha hb, paramsOk_of_ser hb' hnd hne⟩

/-! ### Inner lists -/

theorem isBareHead_ne {c : Char} (h : isBareHead c = true) : c ≠ ' ' ∧ c ≠ ')' ∧ c ≠ '(' := by
  simp only [isBareHead] at h
  charcls; omega

theorem serItems_spec {items : List Item} (h : ∀ i ∈ items, ItemOk i) :
    ∃ s, serItems items = some s ∧ s.all isStringChar = true ∧ items.length ≤ s.length ∧
      (items ≠ [] → ∃ c cs, s = c :: cs ∧ isBareHead c = true) := by
  induction items with
  | nil => exact ⟨[], rfl, rfl, by simp, by simp⟩
  | cons i items ih =>
    obtain ⟨a, ha, hap, ⟨c, cs, hc1, hc2⟩, _⟩ := (h i (by simp)).ser
    obtain ⟨b, hb, hbp, hbl, hbh⟩ := ih (fun j hj => h j (by simp [hj]))
    cases items with
    | nil => exact ⟨a, by simp [serItems, ha], hap, by simp [hc1], fun _ => ⟨c, cs, hc1, hc2⟩⟩
    | cons j items =>
      refine ⟨a ++ ' ' :: b, by simp [serItems, ha, hb], ?_, ?_, fun _ => ⟨c, cs ++ ' ' :: b, by simp [hc1], hc2⟩⟩
      · simp only [List.all_append, List.all_cons, hap, hbp, Bool.and_true]; decide
      · simp [hc1] at hbl ⊢; omega

theorem parseInnerAux_space {fuel : Nat} {acc : List Item} {s : Str} (h : s ≠ []) :
    parseInnerAux fuel acc (' ' :: s) = parseInnerAux fuel acc s := by
  obtain ⟨c, cs, rfl⟩ := List.exists_cons_of_ne_nil h
  cases fuel with
  | zero => rfl
  | succ f => simp only [parseInnerAux, skipSp_space]

theorem parseInnerAux_close {fuel : Nat} {acc : List Item} {ps : Params} {s rest : Str}
    (hok : ParamsOk ps) (h : serParams ps = some s) (hr : StopP rest) :
    parseInnerAux (fuel + 1) acc (')' :: (s ++ rest)) = some ({ items := acc, params := normParams ps }, rest) := by
  have : skipSp (')' :: (s ++ rest)) = ')' :: (s ++ rest) := skipSp_of_head (by simp)
  simp only [parseInnerAux, this, parseParams_ser hok h hr, Option.bind_eq_bind, Option.bind_some]

theorem parseInnerAux_item {fuel : Nat} {acc : List Item} {s : Str} {i : Item} {c : Char} {cs r : Str}
    (hs : s = c :: cs) (hc : isBareHead c = true) (d : Char) (hd : d = ' ' ∨ d = ')')
    (hp : parseItemBody (s ++ d :: r) = some (i, d :: r)) :
    parseInnerAux (fuel + 1) acc (s ++ d :: r) = parseInnerAux fuel (acc ++ [i]) (d :: r) := by
  have hc' := isBareHead_ne hc
  subst hs
  have : skipSp (c :: cs ++ d :: r) = c :: cs ++ d :: r := skipSp_of_head (by simp [hc'.1])
  rw [parseInnerAux.eq_def]
  simp only [List.cons_append] at this hp ⊢
  rw [this]
  split
  · rename_i h; simp at h; exact absurd h.1 hc'.2.1
  · simp only [hp, Option.bind_eq_bind, Option.bind_some, if_pos hd]

theorem parseInnerAux_ser {fuel : Nat} {items acc : List Item} {ps : Params} {s t rest : Str}
    (hok : ∀ i ∈ items, ItemOk i) (hps : ParamsOk ps)
    (h : serItems items = some s) (ht : serParams ps = some t) (hf : items.length < fuel) (hr : StopP rest) :
    parseInnerAux fuel acc (s ++ ')' :: (t ++ rest)) =
      some ({ items := acc ++ items.map normItem, params := normParams ps }, rest) := by
  induction items generalizing fuel acc s with
  | nil =>
    cases h
    obtain ⟨f, rfl⟩ : ∃ f, fuel = f + 1 := ⟨fuel - 1, by omega⟩
    simpa using parseInnerAux_close hps ht hr
  | cons i items ih =>
    obtain ⟨f, rfl⟩ : ∃ f, fuel = f + 1 := ⟨fuel - 1, by omega⟩
    obtain ⟨a, ha, _, ⟨c, cs, hc1, hc2⟩, hp⟩ := (hok i (by simp)).ser
    have hrec := fun b hb => ih (fuel := f) (acc := acc ++ [normItem i]) (s := b)
      (fun j hj => hok j (by simp [hj])) hb (by simp at hf; omega)
    cases items with
    | nil =>
      simp only [serItems, ha] at h
      cases h
      rw [parseInnerAux_item hc1 hc2 ')' (Or.inr rfl) (hp _ (by simp [StopP]))]
      have := hrec [] rfl
      simpa using this
    | cons j items =>
      simp only [serItems, ha, Option.bind_eq_bind, Option.bind_some, Option.bind_eq_some_iff] at h
      obtain ⟨b, hb, h⟩ := h
      cases h
      simp only [List.append_assoc, List.cons_append]
      rw [parseInnerAux_item hc1 hc2 ' ' (Or.inl rfl) (hp _ (by simp [StopP])),
        parseInnerAux_space (by simp), hrec b hb]
      simp

theorem InnerOk.ser {l : InnerList} (h : InnerOk l) : ∃ s, serInnerList l = some ('(' :: s) ∧
    s.all isStringChar = true ∧
    ∀ rest, StopP rest → parseInnerList ('(' :: s ++ rest) = some (normInner l, rest) := by
  obtain ⟨a, ha, hap, hal, _⟩ := serItems_spec h.1
  obtain ⟨b, hb, hbp⟩ := ParamsOk.ser h.2.2
  refine ⟨a ++ ')' :: b, by simp [serInnerList, ha, hb], ?_, ?_⟩
  · simp only [List.all_append, List.all_cons, hap, hbp, Bool.and_true]; decide
  · intro rest hr
    simp only [List.cons_append, parseInnerList, List.append_assoc]
    rw [parseInnerAux_ser h.1 h.2 ha hb (by simp; omega) hr]
    rfl

theorem innerOk_of_ser {l : InnerList} {s : Str} (h : serInnerList l = some s)
    (hnd : IMap.NodupKeys l.params) (hne : ∀ e ∈ l.params, e.1 ≠ [] ∧ BareTidy e.2)
    (hi : ∀ i ∈ l.items, IMap.NodupKeys i.params ∧ BareTidy i.bare ∧ ∀ e ∈ i.params, e.1 ≠ [] ∧ BareTidy e.2) :
    InnerOk l := by
  simp only [serInnerList, Option.bind_eq_bind, Option.bind_eq_some_iff] at h
  obtain ⟨a, ha, b, hb, h⟩ := h
  refine ⟨?_, paramsOk_of_ser hb hnd hne⟩
  clear h hb hnd hne
  generalize l.items = items at *
  induction items generalizing a with
  | nil => simp
  | cons i items ih =>
    intro j hj
    have key : ∃ x, serItem i = some x := by
      cases items with
      | nil => exact ⟨a, by simpa [serItems] using ha⟩
      | cons i' items =>
        simp only [serItems, Option.bind_eq_bind, Option.bind_eq_some_iff] at ha
        obtain ⟨x, hx, _⟩ := ha
        exact ⟨x, hx⟩
    rcases List.mem_cons.1 hj with rfl | hj
    · obtain ⟨x, hx⟩ := key
      have := hi j (by simp)
      exact itemOk_of_ser hx this.1 this.2.1 this.2.2
    · cases items with
      | nil => simp at hj
      | cons i' items =>
        simp only [serItems, Option.bind_eq_bind, Option.bind_eq_some_iff] at ha
        obtain ⟨x, hx, y, hy, _⟩ := ha
        exact ih y (fun j hj => hi j (List.mem_cons_of_mem _ hj)) hy j hj

/-! ### Dictionaries -/

theorem serMember_spec {k : Str} {e : ListEntry} (hk : KeyOk k) (he : EntryOk e) :
    ∃ vs, serMember k e = some (k ++ vs) ∧ vs.all isStringChar = true ∧
      ∀ rest, StopP rest → parseMember (vs ++ rest) = some (normEntry e, rest) ∧
        ∀ c ∈ (vs ++ rest).head?, isKeyChar c = false := by
  unfold serMember
  simp only [hk.ser, Option.bind_eq_bind, Option.bind_some]
  cases e with
  | item i =>
    simp only
    split
    · rename_i hb
      obtain ⟨s, hs, hsp⟩ := ParamsOk.ser he.2.2
      refine ⟨s, by simp [hs], hsp, ?_⟩
      intro rest hr
      have hst := serParams_append_head hs hr
      refine ⟨?_, hst.key⟩
      unfold parseMember
      split
      · rename_i r hr'
        rcases hst '=' (by simp [hr']) with h | h | h | h <;> exact absurd h (by decide)
      · rw [parseParams_ser he.2 hs hr]
        simp [normEntry, normItem, hb, BareItem.norm]
    · obtain ⟨s, hs, hsp, ⟨c, cs, hc1, hc2⟩, hp⟩ := ItemOk.ser he
      refine ⟨'=' :: s, by simp [hs], ?_, ?_⟩
      · simp only [List.all_cons, hsp, Bool.and_true]; decide
      · intro rest hr
        refine ⟨?_, by simp; decide⟩
        simp only [List.cons_append, parseMember, parseListEntry]
        split
        · rename_i h; rw [hc1] at h; simp at h; exact absurd h.1 (isBareHead_ne hc2).2.2
        · rw [hp rest hr]; rfl
  | innerList l =>
    obtain ⟨s, hs, hsp, hp⟩ := InnerOk.ser he
    refine ⟨'=' :: '(' :: s, by simp [hs], ?_, ?_⟩
    · simp only [List.all_cons, hsp, Bool.and_true]; decide
    · intro rest hr
      refine ⟨?_, by simp; decide⟩
      have := hp rest hr
      simp only [List.cons_append] at this
      simp only [List.cons_append, parseMember, parseListEntry, this]; rfl

theorem skipOws_of_head {s : Str} (h : ∀ c ∈ s.head?, c ≠ ' ' ∧ c ≠ '\t') : skipOws s = s := by
  unfold skipOws
  exact dropWhile_eq_self (fun c hc => by simpa using h c hc)

theorem serDict_spec {d : Dictionary} (hok : ∀ e ∈ d, KeyOk e.1 ∧ EntryOk e.2) (hne : d ≠ []) :
    ∃ s, serDict d = some s ∧ s.all isStringChar = true ∧ d.length ≤ s.length ∧
      ∃ c cs, s = c :: cs ∧ c ≠ ' ' ∧ c ≠ '\t' := by
  induction d with
  | nil => exact absurd rfl hne
  | cons e d ih =>
    obtain ⟨k, v⟩ := e
    have hkv : KeyOk k ∧ _ := hok (k, v) (by simp)
    obtain ⟨vs, h1, h2, _⟩ := serMember_spec hkv.1 hkv.2
    obtain ⟨c, cs, hk, hc⟩ : ∃ c cs, k = c :: cs ∧ c ≠ ' ' ∧ c ≠ '\t' := by
      obtain ⟨c, cs, hk, h1, h2⟩ := hkv.1
      exact ⟨c, cs, hk, by clear h2; charcls; omega⟩
    cases d with
    | nil =>
      refine ⟨k ++ vs, by simp [serDict, h1], ?_, ?_, c, cs ++ vs, by simp [hk], hc⟩
      · simp only [List.all_append, hkv.1.printable, h2, Bool.and_self]
      · simp [hk]
    | cons m d =>
      obtain ⟨b, hb, hbp, hbl, _⟩ := ih (fun e he => hok e (by simp [he])) (by simp)
      refine ⟨k ++ vs ++ ',' :: ' ' :: b, by simp [serDict, h1, hb], ?_, ?_, c, cs ++ (vs ++ ',' :: ' ' :: b), by simp [hk], hc⟩
      · simp only [List.all_append, List.all_cons, hkv.1.printable, h2, hbp, Bool.and_true]; decide
      · simp [hk] at hbl ⊢; omega

theorem parseDictAux_ser {fuel : Nat} {d acc : Dictionary} {s : Str}
    (hok : ∀ e ∈ d, KeyOk e.1 ∧ EntryOk e.2) (hne : d ≠ [])
    (hnd : ((acc ++ d).map Prod.fst).Nodup)
    (h : serDict d = some s) (hf : d.length < fuel) :
    parseDictAux fuel acc s = some (acc ++ normDict d, []) := by
  induction d generalizing fuel acc s with
  | nil => exact absurd rfl hne
  | cons e d ih =>
    obtain ⟨k, v⟩ := e
    obtain ⟨f, rfl⟩ : ∃ f, fuel = f + 1 := ⟨fuel - 1, by omega⟩
    have hkv : KeyOk k ∧ _ := hok (k, v) (by simp)
    obtain ⟨vs, h1, h2, h3⟩ := serMember_spec hkv.1 hkv.2
    obtain ⟨c0, cs0, hk0, hk1, _⟩ := hkv.1.head
    have hkn : k ∉ acc.map Prod.fst := by
      simp only [List.map_append, List.map_cons, List.nodup_append] at hnd
      intro hm
      exact hnd.2.2 k hm k (by simp) rfl
    cases d with
    | nil =>
      simp only [serDict, h1] at h
      cases h
      have h3' := h3 [] stopP_nil
      simp only [List.append_nil] at h3'
      rw [parseDictAux.eq_def]
      simp only
      rw [show k ++ vs = c0 :: (cs0 ++ vs) by simp [hk0]]
      simp only
      rw [show c0 :: (cs0 ++ vs) = k ++ vs by simp [hk0], parseKey_ser hkv.1 h3'.2]
      simp only [Option.bind_eq_bind, Option.bind_some, h3'.1, IMap.insert_of_not_mem hkn]
      simp [skipOws, normDict]
    | cons m d =>
      simp only [serDict, h1, Option.bind_eq_bind, Option.bind_some, Option.bind_eq_some_iff] at h
      obtain ⟨b, hb, h⟩ := h
      cases h
      obtain ⟨b', hb', _, _, c1, cs1, hb1, hb2⟩ := serDict_spec (d := m :: d) (fun e he => hok e (by simp [he])) (by simp)
      rw [hb] at hb'
      obtain rfl := Option.some.inj hb'
      have hrest : StopP (',' :: ' ' :: b) := by simp [StopP]
      have h3' := h3 _ hrest
      have e1 : skipOws (',' :: ' ' :: b) = ',' :: ' ' :: b := skipOws_of_head (by simp)
      have e2 : skipOws (' ' :: b) = b := by
        have : skipOws b = b := skipOws_of_head (by rw [hb1]; simpa using hb2)
        simpa [skipOws] using this
      rw [parseDictAux.eq_def]
      simp only [List.append_assoc]
      rw [show k ++ (vs ++ ',' :: ' ' :: b) = c0 :: (cs0 ++ (vs ++ ',' :: ' ' :: b)) by simp [hk0]]
      simp only
      rw [show c0 :: (cs0 ++ (vs ++ ',' :: ' ' :: b)) = k ++ (vs ++ ',' :: ' ' :: b) by simp [hk0], parseKey_ser hkv.1 h3'.2]
      simp only [Option.bind_eq_bind, Option.bind_some, h3'.1, IMap.insert_of_not_mem hkn, e1, e2, if_true]
      have hrec := ih (fuel := f) (acc := acc ++ [(k, normEntry v)]) (fun e he => hok e (by simp [he])) (by simp)
        (by simpa using hnd) hb (by simp at hf ⊢; omega)
      split
      · cases hb1
      · rw [hrec]; simp [normDict]

theorem isAscii_of_printable {s : Str} (h : s.all isStringChar = true) : isAscii s = true := by
  unfold isAscii
  rw [List.all_eq_true] at *
  intro c hc
  have := h c hc
  clear h hc
  charcls; omega

/-- Parsing inverts serialisation of a dictionary. -/
theorem parseDictionary_ser {d : Dictionary} (hok : DictOk d) :
    ∃ s, serDict d = some s ∧ s.all isStringChar = true ∧ parseDictionary s = some (normDict d) := by
  obtain ⟨s, hs, hsp, hl, c, cs, hc1, hc2⟩ := serDict_spec hok.2.2 hok.1
  refine ⟨s, hs, hsp, ?_⟩
  unfold parseDictionary
  have hsk : skipSp s = s := skipSp_of_head (by rw [hc1]; simpa using hc2.1)
  rw [if_pos (isAscii_of_printable hsp)]
  simp only [hsk]
  rw [parseDictAux_ser (acc := []) hok.2.2 hok.1 (by simpa [IMap.NodupKeys] using hok.2.1) hs (by omega)]
  simp [skipSp]

/-- Parsing inverts serialisation of an item. -/
theorem parseItem_ser {i : Item} (hok : ItemOk i) :
    ∃ s, serItem i = some s ∧ s.all isStringChar = true ∧ parseItem s = some (normItem i) := by
  obtain ⟨s, hs, hsp, ⟨c, cs, hc1, hc2⟩, hp⟩ := hok.ser
  refine ⟨s, hs, hsp, ?_⟩
  unfold parseItem
  have hsk : skipSp s = s := skipSp_of_head (by rw [hc1]; simpa using (isBareHead_ne hc2).1)
  have := hp [] stopP_nil
  rw [List.append_nil] at this
  rw [if_pos (isAscii_of_printable hsp)]
  simp only [hsk, this]
  simp [skipSp]

end Httpsig.Sfv
