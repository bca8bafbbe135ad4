import Verif.Lemmas.Debug2
import Verif.Props.Logging
/-
C124: the texts of values and errors.
-/
set_option linter.unusedSectionVars false
namespace Httpsig
open Sfv Shown

/-- C124. The text of bytes: decimal numbers, in brackets. -/
theorem C124_bytes (b : Bytes) (t : Str) :
    debugBytes b = t ↔ Listed (fun x t => t = (toString x.toNat).toList) (str% "[") (str% "]") b t := debugBytes_iff.symm

/-- C124. The text of a `Signature-Input` value. -/
theorem C124_input (f : Fmt) (s : SignatureInput) (t : Str) : f.debugInput s = t ↔ InputText f s t := inputText_iff.symm

section
variable [Deps]

/-- C124. The text of a component. -/
theorem C124_component (f : Fmt) (k : SignatureComponent) (t : Str) : f.debugComponent k = t ↔ ComponentText f k t :=
  componentText_iff.symm

/-- C124. The message of an error. -/
theorem C124_display (f : Fmt) (e : Error) (t : Str) : f.displayError e = t ↔ ErrorText f e t := errorText_iff.symm

/-- C124. The debug text of an error. -/
theorem C124_debug (f : Fmt) (e : Error) (t : Str) : f.debugError e = t ↔ ErrorDebug f e t := errorDebug_iff.symm

/-- C124. Texts are unambiguous, also when other text follows: a text belongs to one value only. -/
theorem C124_values (f : Fmt) (x y : Str) :
    (∀ a b, debugBytes a ++ x = debugBytes b ++ y → a = b ∧ x = y) ∧
    (∀ a b, f.debugInput a ++ x = f.debugInput b ++ y → a = b ∧ x = y) ∧
    ∀ a b, f.debugComponent a ++ x = f.debugComponent b ++ y → a = b ∧ x = y :=
  ⟨fun a b h => bytes_delim a b x y trivial trivial h, fun a b h => input_delim f a b x y trivial trivial h,
    fun a b h => component_delim f a b x y trivial trivial h⟩

/-- C124. Either text of an error tells the error. -/
theorem C124_errors (f : Fmt) (e e' : Error) :
    (f.displayError e = f.displayError e' ↔ told f e = told f e') ∧ (f.debugError e = f.debugError e' ↔ told f e = told f e') := by
  have h : ∀ e, f.displayError (told f e) = f.displayError e ∧ f.debugError (told f e) = f.debugError e := by
    intro e
    unfold told
    split <;> exact ⟨rfl, rfl⟩
  refine ⟨⟨display_inj, fun g => ?_⟩, ⟨debug_inj, fun g => ?_⟩⟩
  · rw [← (h e).1, g, (h e').1]
  · rw [← (h e).2, g, (h e').2]

/-- C124. In particular the message about missing components tells which, and in which order. -/
theorem C124_missing (f : Fmt) (l l' : List SignatureComponent)
    (h : f.displayError (.missingComponents l) = f.displayError (.missingComponents l')) : l = l' := by
  have := ((C124_errors f _ _).1).1 h
  cases this
  rfl

/-- C124. No text contains a control character of ASCII, whatever the values contain. -/
theorem C124_one_line (f : Fmt) (c : Char) :
    (∀ k, c ∈ f.debugComponent k → 32 ≤ c.toNat ∧ c.toNat ≠ 127) ∧ (∀ s, c ∈ f.debugInput s → 32 ≤ c.toNat ∧ c.toNat ≠ 127) ∧
    (∀ e, c ∈ f.displayError e → 32 ≤ c.toNat ∧ c.toNat ≠ 127) ∧ ∀ e, c ∈ f.debugError e → 32 ≤ c.toNat ∧ c.toNat ≠ 127 :=
  ⟨fun k => component_clean f k c, fun s => input_clean f s c, fun e => display_clean f e c, fun e => debug_clean f e c⟩

end

/-! ### Examples -/
section
attribute [local instance] toyDeps

/-- Escapes: a line end, a quote, a character outside ASCII that is printed, a control character outside ASCII. -/
example : exFmt.displayError (.headerNameParse (str% "a\nb\"é" ++ [Char.ofNat 0x85])) =
    str% "Failed to parse HeaderName: \"a\\nb\\\"é\\u{85}\"" := by decide +kernel

/-- A component with parameters of every kind. -/
example : exFmt.debugComponent (.derived ⟨⟨.string (str% "@query"), [(str% "a", .decimal ⟨true, 1205, 3⟩), (str% "b", .integer (-7)),
      (str% "c", .byteSeq [0, 255]), (str% "d", .boolean true), (str% "e", .token (str% "x/y"))]⟩⟩) =
    str% "Derived(DerivedComponent { item: Item { bare_item: String(\"@query\"), params: {\"a\": Decimal(-1.205), \"b\": Integer(-7), \"c\": ByteSeq([0, 255]), \"d\": Boolean(true), \"e\": Token(\"x/y\")} } })" := by
  decide +kernel

example : exFmt.debugError (.missingComponents [.header hDate, .header hDigest]) =
    str% "MissingComponents([Header(\"date\"), Header(\"digest\")])" := by decide +kernel

/-- Texts that would be the same without quotes are different. -/
example : exFmt.debugParams [(str% "a", .string (str% "x\"), \"b\": String(\"y"))] ≠
    exFmt.debugParams [(str% "a", .string (str% "x")), (str% "b", .string (str% "y"))] := by decide +kernel

end
end Httpsig
