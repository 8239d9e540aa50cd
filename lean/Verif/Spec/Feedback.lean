import Verif.Spec.Clause
/-
Specification vocabulary for feedback: what Type I and Type II feedback do to a clause.
`N` is number_of_states; `tp`, `tn` are the random choices ("tosses") for the positive and
the negated literals.
-/
namespace Tsetlini.Spec

/-- One step towards exclusion, not below `-N`. -/
def dec (N c : Int) : Int := if -N < c then c - 1 else c

/-- One step towards inclusion, not above `N-1`. -/
def inc (N c : Int) : Int := if c < N - 1 then c + 1 else c

/-- Type I feedback to a clause that is false: every chosen literal is weakened. -/
def Clause.weaken (N : Int) (tp tn : List Bool) (c : Clause) : Clause where
  pos := c.pos.mapIdx fun f p => if tp.getD f false then dec N p else p
  neg := c.neg.mapIdx fun f n => if tn.getD f false then dec N n else n

/-- Type I feedback to a clause that is true: literals true in the sample are strengthened
(all of them with `boost`, otherwise those not chosen), chosen false ones are weakened. -/
def Clause.strengthen (N : Int) (boost : Bool) (x tp tn : List Bool) (c : Clause) : Clause where
  pos := c.pos.mapIdx fun f p =>
    if val x f then (if boost || !(tp.getD f false) then inc N p else p)
    else (if tp.getD f false then dec N p else p)
  neg := c.neg.mapIdx fun f n =>
    if val x f then (if tn.getD f false then dec N n else n)
    else (if boost || !(tn.getD f false) then inc N n else n)

/-- Type II feedback to a clause that is true: excluded literals false in the sample move one
step towards inclusion. -/
def Clause.contradict (x : List Bool) (c : Clause) : Clause where
  pos := c.pos.mapIdx fun f p => if !(val x f) && decide (p < 0) then p + 1 else p
  neg := c.neg.mapIdx fun f n => if val x f && decide (n < 0) then n + 1 else n

/-- Weaken one positive and one negated literal (bitwise Type I feedback to a false clause). -/
def Clause.weakenAt (N : Int) (fp fn : Nat) (c : Clause) : Clause where
  pos := c.pos.modify fp (dec N)
  neg := c.neg.modify fn (dec N)

end Tsetlini.Spec
