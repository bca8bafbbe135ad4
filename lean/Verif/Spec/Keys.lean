import Verif.Model.Verifying
/-
Histories of key-store operations.
-/
namespace Httpsig

/-- One operation on a `SimpleKeyProvider` (src/verifying.rs:83-95). -/
inductive KeyOp where
  | add (id : Str) (k : HttpSignatureVerify)
  | removeAll (id : Str)
  | clear

/-- Its effect. -/
def KeyOp.apply (p : SimpleKeyProvider) : KeyOp → SimpleKeyProvider
  | .add id k => p.add id k
  | .removeAll id => p.removeAll id
  | .clear => p.clear

/-- The store created from `init`, after a history of operations (oldest first). -/
def SimpleKeyProvider.after (init : List (Str × HttpSignatureVerify)) (ops : List KeyOp) : SimpleKeyProvider :=
  ops.foldl KeyOp.apply (SimpleKeyProvider.new init)

/-- The operation forgets the keys of `id`. -/
def KeyOp.Forgets (id : Str) : KeyOp → Prop
  | .add _ _ => False
  | .removeAll i => i = id
  | .clear => True

/-- The keys a list of operations adds under `id`, in order. -/
def addedUnder (id : Str) (ops : List KeyOp) : List HttpSignatureVerify :=
  ops.filterMap fun
    | .add i k => if i = id then some k else none
    | _ => none

end Httpsig
