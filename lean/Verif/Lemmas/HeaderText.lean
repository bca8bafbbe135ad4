import Verif.Spec.Sign
import Verif.Lemmas.Lists
/- Which texts are header values. -/
set_option linter.unusedSectionVars false
namespace Httpsig

theorem utf8EncodeChar_small {c : Char} {b : UInt8} (h : b ∈ String.utf8EncodeChar c) (hb : b.toNat < 128) :
    b.toNat = c.toNat := by
  have hv : c.val.toNat < 0xd800 ∨ (0xdfff < c.val.toNat ∧ c.val.toNat < 0x110000) := c.valid
  change b.toNat = c.val.toNat
  generalize hn : c.val.toNat = v at hv
  unfold String.utf8EncodeChar at h
  rw [hn] at h
  simp only at h
  split at h
  · simp only [List.mem_singleton] at h
    subst h
    simp; omega
  split at h
  · simp only [List.mem_cons, List.not_mem_nil, or_false] at h
    rcases h with rfl | rfl <;> simp at hb <;> omega
  split at h
  · simp only [List.mem_cons, List.not_mem_nil, or_false] at h
    rcases h with rfl | rfl | rfl <;> simp at hb <;> omega
  · simp only [List.mem_cons, List.not_mem_nil, or_false] at h
    rcases h with rfl | rfl | rfl | rfl <;> simp at hb <;> omega

/-- A text is a header value unless it contains a control character. -/
theorem fromStr_ok_iff {s : Str} : (∃ v, HeaderValue.fromStr s = some v) ↔ ∀ c ∈ s, ¬ Control c := by
  have tab : ∀ c : Char, c = '\t' ↔ c.toNat = 9 := fun c =>
    ⟨fun h => by rw [h]; rfl, fun h => by rw [← Char.ofNat_toNat c, h]⟩
  have key : (∃ v, HeaderValue.fromStr s = some v) ↔ (utf8 s).all isHeaderValueByte = true := by
    unfold HeaderValue.fromStr HeaderValue.fromBytes
    split
    · rename_i h
      exact ⟨fun _ => h, fun _ => ⟨_, rfl⟩⟩
    · rename_i h
      exact ⟨(fun ⟨v, e⟩ => by cases e), fun e => absurd e h⟩
  rw [key, List.all_eq_true]
  constructor
  · intro h c hc hctl
    have hlt : c.toNat < 128 := by rcases hctl with ⟨h, _⟩ | h <;> omega
    have := h (UInt8.ofNat c.toNat) (List.mem_flatMap.2 ⟨c, hc, by rw [utf8EncodeChar_ascii hlt]; exact List.mem_singleton.2 rfl⟩)
    simp only [isHeaderValueByte, UInt8.toNat_ofNat', Bool.or_eq_true, Bool.and_eq_true, decide_eq_true_eq, bne_iff_ne, beq_iff_eq] at this
    rw [Nat.mod_eq_of_lt (by omega)] at this
    unfold Control at hctl
    rw [Ne, tab] at hctl
    omega
  · intro h b hb
    obtain ⟨c, hc, hb⟩ := List.mem_flatMap.1 hb
    have hn := h c hc
    unfold Control at hn
    rw [Ne, tab] at hn
    simp only [isHeaderValueByte, Bool.or_eq_true, Bool.and_eq_true, decide_eq_true_eq, bne_iff_ne, beq_iff_eq]
    by_cases hlt : b.toNat < 128
    · have := utf8EncodeChar_small hb hlt
      omega
    · omega

theorem fromStr_none_iff {s : Str} : HeaderValue.fromStr s = none ↔ ∃ c ∈ s, Control c := by
  rw [← Classical.not_not (a := ∃ c ∈ s, Control c)]
  have : (¬ ∃ c ∈ s, Control c) ↔ ∀ c ∈ s, ¬ Control c := by simp
  rw [this, ← fromStr_ok_iff]
  cases HeaderValue.fromStr s <;> simp

end Httpsig
