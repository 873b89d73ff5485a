import Verif.Spec.Expressible
import Verif.Spec.Flow
/-! How the blocks of a structured program have to end. -/

namespace Magma.Spec.Program

/-- The number of a block, if there is one -/
def target (k : Option BlockId) : UInt32 := (k.getD ⟨0⟩).val

/-- Every occurrence of a block in the program, with the way it has to end there. Control goes to `k` after the
program, `lp` are the header and the merge block of the loop around it. -/
def ends (lp : Option (BlockId × BlockId)) (k : Option BlockId) : Program → List (BlockId × BlockEnd)
  | done => []
  | ret id => [(id, .returns)]
  | atom id rest => (id, .goto (target (rest.entry k))) :: rest.ends lp k
  | sel id left right hint weights rest =>
    (id, .chooseSelection (target (left.entry (rest.entry k))) (target (right.entry (rest.entry k))) weights
      (target (rest.entry k)) hint) ::
      (left.ends lp (rest.entry k) ++ right.ends lp (rest.entry k) ++ rest.ends lp k)
  | loop id body hint rest =>
    (id, .gotoLoop (target (body.entry (some id))) (target (rest.entry k)) hint) ::
      (body.ends (some (id, ⟨target (rest.entry k)⟩)) (some id) ++ rest.ends lp k)
  | exit id brk weights rest =>
    (id, .choose (target (rest.entry k)) (target (lp.map (fun p => if brk then p.2 else p.1))) weights) ::
      rest.ends lp k

/-- Blocks that occur more than once end in the same way everywhere. -/
def Consistent (s : Program) : Prop :=
  ∀ p ∈ s.ends none none, ∀ q ∈ s.ends none none, p.1 = q.1 → p.2 = q.2

end Magma.Spec.Program
