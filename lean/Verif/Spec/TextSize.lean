import Verif.Spec.Listing
/-! The size of a text. -/

namespace Magma.Spec

/-- The number of bytes of a text in UTF-8 -/
def textSize (t : Text) : Nat := (String.ofList t).utf8ByteSize

/-- The instructions of the extended sets are printed in at most 31 bytes for each operand, and 93 more. -/
def ShortText (ext : ExtText) : Prop :=
  ∀ name number args, textSize (ext name number args) ≤ 31 * (args.length + 3)

end Magma.Spec
