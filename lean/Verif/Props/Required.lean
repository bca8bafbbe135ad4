import Verif.Props.Order
import Verif.Props.Config
import Verif.Props.Verify
/-
The set of required components built by the verifier's setter (C40), and what it enforces (C11).
-/
set_option linter.unusedSectionVars false
namespace Httpsig
open Sfv
variable [Deps]

/-- Equal by a chain of the code's equality tests. -/
inductive EqChain : SignatureComponent → SignatureComponent → Prop
  | refl (a : SignatureComponent) : EqChain a a
  | step {a b c : SignatureComponent} : a.rustEq b = true → EqChain b c → EqChain a c

theorem EqChain.header {n : HeaderName} {k : SignatureComponent} (h : EqChain (.header n) k) : k = .header n := by
  generalize ha : SignatureComponent.header n = a at h
  induction h with
  | refl a => rfl
  | @step a b c h1 _ ih =>
    subst ha
    cases b with
    | header m =>
      simp only [SignatureComponent.rustEq, beq_iff_eq] at h1
      subst h1
      exact ih rfl
    | derived d => simp [SignatureComponent.rustEq] at h1

theorem mem_insertByKey {e x : Str × SignatureComponent} : ∀ {l}, x ∈ insertByKey e l ↔ x = e ∨ x ∈ l
  | [] => by simp [insertByKey]
  | y :: ys => by
    unfold insertByKey
    split
    · simp
    · simp only [List.mem_cons, mem_insertByKey (l := ys)]
      constructor
      · rintro (h | h | h) <;> simp [h]
      · rintro (h | h | h) <;> simp [h]

theorem mem_foldl_insert {x : Str × SignatureComponent} : ∀ {l acc : List (Str × SignatureComponent)}, x ∈ l.foldl (fun acc e => insertByKey e acc) acc ↔ x ∈ l ∨ x ∈ acc
  | [], acc => by simp
  | y :: ys, acc => by
    rw [List.foldl_cons, mem_foldl_insert, mem_insertByKey]
    simp only [List.mem_cons]
    constructor
    · rintro (h | h | h) <;> simp [h]
    · rintro ((h | h) | h) <;> simp [h]

theorem mem_of_dedup {x : Str × SignatureComponent} : ∀ {l}, x ∈ dedupAdjacent l → x ∈ l
  | [], h => by simp [dedupAdjacent] at h
  | [y], h => h
  | y :: z :: zs, h => by
    unfold dedupAdjacent at h
    split at h
    · exact List.mem_cons_of_mem _ (mem_of_dedup h)
    · rcases List.mem_cons.1 h with rfl | h
      · exact .head _
      · exact List.mem_cons_of_mem _ (mem_of_dedup h)

theorem dedup_represents : ∀ {l : List (Str × SignatureComponent)} {x}, x ∈ l → ∃ y ∈ dedupAdjacent l, EqChain x.2 y.2
  | [], _, h => by cases h
  | [y], x, h => by
    simp only [List.mem_singleton] at h
    subst h
    exact ⟨x, by simp [dedupAdjacent], .refl _⟩
  | y :: z :: zs, x, h => by
    unfold dedupAdjacent
    split
    · rename_i hyz
      rcases List.mem_cons.1 h with rfl | h
      · obtain ⟨w, hw, hc⟩ := dedup_represents (l := z :: zs) (x := z) (.head _)
        exact ⟨w, hw, .step hyz hc⟩
      · exact dedup_represents h
    · rcases List.mem_cons.1 h with rfl | h
      · exact ⟨x, .head _, .refl _⟩
      · obtain ⟨w, hw, hc⟩ := dedup_represents h
        exact ⟨w, .tail _ hw, hc⟩

theorem dedup_sublist : ∀ l : List (Str × SignatureComponent), (dedupAdjacent l).Sublist l
  | [] => by simp [dedupAdjacent]
  | [y] => by simp [dedupAdjacent]
  | y :: z :: zs => by
    unfold dedupAdjacent
    split
    · exact .cons _ (dedup_sublist (z :: zs))
    · exact .cons_cons _ (dedup_sublist (z :: zs))

/-- Not greater, by display string. -/
def KeyLe (a b : Str × SignatureComponent) : Prop := strCmp b.1 a.1 ≠ .lt

theorem keyLe_trans {a b c : Str × SignatureComponent} (h1 : KeyLe a b) (h2 : KeyLe b c) : KeyLe a c := by
  intro h
  unfold KeyLe strCmp at *
  cases hba : bytesCmp (utf8 b.1) (utf8 a.1) with
  | lt => exact h1 hba
  | eq => rw [bytesCmp_eq_iff.1 hba] at h2; exact h2 h
  | gt =>
    have : bytesCmp (utf8 a.1) (utf8 b.1) = .lt := by rw [bytesCmp_swap, hba]; rfl
    exact h2 (bytesCmp_trans h this)

theorem keyLe_of_lt {a b : Str × SignatureComponent} (h : strCmp a.1 b.1 = .lt) : KeyLe a b := by
  unfold KeyLe strCmp at *
  rw [bytesCmp_swap, h]
  decide

theorem insert_sorted {e : Str × SignatureComponent} : ∀ {l}, l.Pairwise KeyLe → (insertByKey e l).Pairwise KeyLe
  | [], _ => by simp [insertByKey]
  | y :: ys, h => by
    unfold insertByKey
    rw [List.pairwise_cons] at h
    split
    · rename_i hlt
      rw [List.pairwise_cons, List.pairwise_cons]
      refine ⟨?_, h⟩
      intro z hz
      rcases List.mem_cons.1 hz with rfl | hz
      · exact keyLe_of_lt hlt
      · exact keyLe_trans (keyLe_of_lt hlt) (h.1 z hz)
    · rename_i hlt
      rw [List.pairwise_cons]
      refine ⟨?_, insert_sorted h.2⟩
      intro z hz
      rcases mem_insertByKey.1 hz with rfl | hz
      · exact hlt
      · exact h.1 z hz

theorem foldl_sorted : ∀ {l acc : List (Str × SignatureComponent)}, acc.Pairwise KeyLe →
    (l.foldl (fun acc e => insertByKey e acc) acc).Pairwise KeyLe
  | [], _, h => h
  | e :: l, acc, h => foldl_sorted (l := l) (acc := insertByKey e acc) (insert_sorted h)

theorem displayAll_ok : ∀ {l : List SignatureComponent} {ks}, displayAll l = .ok ks →
    ks.map Prod.snd = l ∧ ∀ e ∈ ks, e.2.display = .ok e.1
  | [], ks, h => by cases h; simp
  | c :: cs, ks, h => by
    unfold displayAll at h
    cases hc : c.display with
    | error e => rw [hc] at h; cases h
    | ok s =>
      cases hcs : displayAll cs with
      | error e => rw [hc, hcs] at h; cases h
      | ok rest =>
        rw [hc, hcs] at h
        cases h
        have := displayAll_ok hcs
        refine ⟨by simp [this.1], ?_⟩
        intro e he
        rcases List.mem_cons.1 he with rfl | he
        · exact hc
        · exact this.2 e he

/-- C40: what the required-components setter stores, for every list it does not panic on. Nothing is invented; every
given component is represented by an equal one, and a header by itself; the stored components are in increasing
order. -/
theorem C40_required_components_set (l s : List SignatureComponent) (h : collectBTreeSet l = .ok s) :
    (∀ k ∈ s, k ∈ l) ∧ (∀ k ∈ l, ∃ k' ∈ s, EqChain k k') ∧ (∀ n, .header n ∈ s ↔ .header n ∈ l) ∧
    s.Pairwise (fun a b => ∀ o, a.cmp b = .ok o → o ≠ .gt) := by
  suffices hmain : (∀ k ∈ s, k ∈ l) ∧ (∀ k ∈ l, ∃ k' ∈ s, EqChain k k') ∧
      s.Pairwise (fun a b => ∀ o, a.cmp b = .ok o → o ≠ .gt) by
    refine ⟨hmain.1, hmain.2.1, fun n => ⟨hmain.1 _, fun hn => ?_⟩, hmain.2.2⟩
    obtain ⟨k, hk, hc⟩ := hmain.2.1 _ hn
    rw [hc.header] at hk
    exact hk
  match l, h with
  | [], h => cases h; simp
  | [c], h =>
    cases h
    refine ⟨by simp, ?_, by simp⟩
    intro k hk
    simp only [List.mem_singleton] at hk
    subst hk
    exact ⟨k, by simp, .refl _⟩
  | a :: b :: rest, h =>
    generalize hl : a :: b :: rest = l at h
    have h' : (do let keyed ← displayAll l; return (dedupAdjacent (keyed.foldl (fun acc e => insertByKey e acc) [])).map Prod.snd) = Except.ok s := by
      subst hl; exact h
    clear h
    cases hd : displayAll l with
    | error e => rw [hd] at h'; cases h'
    | ok ks =>
      rw [hd] at h'
      cases h'
      obtain ⟨h1, h2⟩ := displayAll_ok hd
      refine ⟨?_, ?_, ?_⟩
      · intro k hk
        obtain ⟨e, he, rfl⟩ := List.mem_map.1 hk
        have := mem_of_dedup he
        rw [mem_foldl_insert] at this
        rw [← h1]
        exact List.mem_map.2 ⟨e, by simpa using this, rfl⟩
      · intro k hk
        rw [← h1] at hk
        obtain ⟨e, he, rfl⟩ := List.mem_map.1 hk
        obtain ⟨y, hy, hc⟩ := dedup_represents (mem_foldl_insert.2 (.inl he) : e ∈ ks.foldl (fun acc e => insertByKey e acc) [])
        exact ⟨y.2, List.mem_map.2 ⟨y, hy, rfl⟩, hc⟩
      · rw [List.pairwise_map]
        have hs := (foldl_sorted (l := ks) (acc := []) .nil).sublist (dedup_sublist _)
        refine hs.imp_of_mem ?_
        intro x y hx hy hle o ho hgt
        subst hgt
        have hx' : x ∈ ks := by simpa using mem_foldl_insert.1 (mem_of_dedup hx)
        have hy' : y ∈ ks := by simpa using mem_foldl_insert.1 (mem_of_dedup hy)
        rw [cmp_of_display (h2 x hx') (h2 y hy')] at ho
        apply hle
        unfold strCmp
        rw [bytesCmp_swap, Except.ok.inj ho]
        rfl

example : collectBTreeSet [.header hHost, .header hDate, .derived (.new atPath), .header hHost] =
    .ok [.derived (.new atPath), .header hDate, .header hHost] := rfl

/-- C11 from the outside: build a verifier by any history of setter calls whose last component call names the header
`n`; whatever request it accepts has a value under `n`, and that value is on its own line of the bytes the signature
was checked against. -/
theorem C11_setter {R Rem : Type} [ServerRequestLike R Rem] (req : R) (kp : Str → List HttpSignatureVerify)
    (calls : List VerifyingCall) (config : VerifyingConfig)
    (hconf : verifyingAfter kp calls = .ok config) (l : List SignatureComponent)
    (hl : lastCall (fun | .requiredComponents l => some l | _ => none) calls = some l) (n : HeaderName) (hn : .header n ∈ l)
    (env : VerifyEnv) (rem : Rem) (keyId : Str) (h : verify req config env = .ok (.ok (rem, keyId))) :
    ∃ c sig text v pre post, SignatureOk req config env c sig keyId (utf8 text) ∧ .header n ∈ c.components ∧
      RequestLike.derive req (.header n) = .ok (some v) ∧
      text = pre ++ str% "\"" ++ n.str ++ str% "\": " ++ v ++ '\n' :: post ∧ (pre = [] ∨ pre.getLast? = some '\n') := by
  obtain ⟨_, _, _, _, _, _, h7⟩ := C40_verifying_histories kp calls config hconf
  have h7 : collectBTreeSet l = .ok config.requiredComponents := by
    split at h7
    · rename_i heq
      have := hl.symm.trans heq
      cases this
    · rename_i l' heq
      cases hl.symm.trans heq
      exact h7
  exact C11_required_headers_covered req config env rem keyId h n (((C40_required_components_set l _ h7).2.2.1 n).2 hn)

/-- Non-vacuity: such a verifier accepts `exSigned`. -/
example : ∃ config, verifyingAfter (fun id => if id = str% "k1" then [exKey] else [])
      [.validateDate false, .requiredComponents [.header hHost, .header hDigest],
       .digestProvider fun n => if n = str% "TOY" then some exDigest else none] = .ok config ∧
    verify exSigned config exEnv = .ok (.ok ((), str% "k1")) := ⟨_, rfl, rfl⟩

end Httpsig
