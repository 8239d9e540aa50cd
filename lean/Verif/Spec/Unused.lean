import Verif.Model.Bitwise
import Verif.Spec.Feedback
import Verif.Spec.Bits
/-
Specification vocabulary for the rows of one clause of a bitwise machine.
-/
namespace Tsetlini.Spec

/-- The rows of one clause over `n` features: counters in `[-N, N-1]`, and `blocks` blocks of polarity that say which of them are
not negative. -/
structure ClauseOk (N : Int) (n blocks : Nat) (c : ClauseRows) : Prop where
  wf : Clause.WF N n ⟨c.pos, c.neg⟩
  room : n ≤ 64 * blocks
  posBlocks : c.ppos.length = blocks
  negBlocks : c.pneg.length = blocks
  posMirror : Mirrors c.pos c.ppos
  negMirror : Mirrors c.neg c.pneg

/-- The first `n` bits of a sequence of blocks. -/
def firstBits (v : List (BitVec 64)) (n : Nat) : List Bool := (List.range n).map (bitAt v)

end Tsetlini.Spec
