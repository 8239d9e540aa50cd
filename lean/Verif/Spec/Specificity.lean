import Verif.Spec.Clause
/-
Specification vocabulary for C83: how the counters of some clauses compare to what they were.
-/
namespace Tsetlini.Spec

/-- There are as many clauses and counters in `cs'` as in `cs`, and every counter is related by `R` to what it was. -/
def Counters (R : Int → Int → Prop) (cs cs' : List Clause) : Prop :=
  cs'.length = cs.length ∧ ∀ (i : Nat) (c c' : Clause), cs[i]? = some c → cs'[i]? = some c' →
    c'.pos.length = c.pos.length ∧ c'.neg.length = c.neg.length ∧
    (∀ (f : Nat) (v v' : Int), c.pos[f]? = some v → c'.pos[f]? = some v' → R v v') ∧
    (∀ (f : Nat) (v v' : Int), c.neg[f]? = some v → c'.neg[f]? = some v' → R v v')

end Tsetlini.Spec
