import Verif.Model.Shared
import Verif.Spec.Twin
/-
Specification vocabulary for read-only calls in flight at the same time.
-/
namespace Tsetlini.Spec

/-- `n` actions of the calls in flight, interleaved in any way. -/
inductive Interleaving : Nat → Program → Program → Prop
  | refl (W) : Interleaving 0 W W
  | step {n W W' W''} : Interleaving n W W' → Program.Step W' W'' → Interleaving (n + 1) W W''

/-- Call number `j` has returned `o`. -/
def Returns (W : Program) (j : Nat) (o : Out) : Prop := ∃ c, W.calls[j]? = some c ∧ c.code = .ret o

/-- All calls have returned. -/
def AllReturned (W : Program) : Prop := ∀ c ∈ W.calls, ∃ o, c.code = .ret o

/-- The next action of some call is undefined behaviour or an exception. -/
def Misbehaves (W : Program) : Prop :=
  ∃ c ∈ W.calls, (∃ m, W.mems[c.target]? = some m ∧ ∃ r, c.code.act m = some r ∧ ∀ p, r ≠ .ok p) ∨ W.mems[c.target]? = none

/-- Locations in the scratch memory of an estimator. -/
inductive ScratchLoc where
  | out (o : Nat)
  | sum (l : Nat)
deriving DecidableEq

/-- The location a call accesses next, and whether it writes there. -/
def nextAccess {α : Type} : CallCode α → Option (ScratchLoc × Bool)
  | .loadOut o _ => some (.out o, false)
  | .storeOut o _ _ => some (.out o, true)
  | .loadSum l _ => some (.sum l, false)
  | .storeSum l _ _ => some (.sum l, true)
  | _ => none

/-- Two calls on the same estimator are about to access the same location, one of them to write: a data race, which
for C++ is undefined behaviour. -/
def ScratchRace (W : Program) : Prop :=
  ∃ (i j : Nat) (c d : InFlight) (l : ScratchLoc) (u v : Bool), i ≠ j ∧ W.calls[i]? = some c ∧ W.calls[j]? = some d ∧
    c.target = d.target ∧ nextAccess c.code = some (l, u) ∧ nextAccess d.code = some (l, v) ∧ (u = true ∨ v = true)

/-- Iterations of every loop in increasing order. -/
def inOrder : Sched := ⟨fun _ a b => range a b, fun _ _ _ => List.Perm.refl _⟩

/-- Whatever the interleaving: nothing undefined happens, the calls never block each other, and all have returned after
a number of actions that does not depend on the interleaving. -/
def AlwaysReturn (W₀ : Program) : Prop :=
  ∃ total, (∃ W, Interleaving total W₀ W) ∧ ∀ n W, Interleaving n W₀ W →
    ¬ Misbehaves W ∧ n ≤ total ∧ (AllReturned W ↔ n = total) ∧ (¬ AllReturned W → ∃ W', W.Step W')

/-- The samples a read-only call gets. -/
def _root_.Tsetlini.Call.samples {S : Type} {k : Kind} : Call S k → List S
  | .predict1 x | .decision1 x | .predictR1 x => [x]
  | .predict X | .decision X | .predictR X | .evaluate X _ => X
  | _ => []

/-- All samples a read-only call gets are `x`. -/
def OnlySample {S : Type} {k : Kind} (x : S) (c : Call S k) : Prop := ∀ x' ∈ c.samples, x' = x

/-- The call was not rejected. -/
def Accepted : Out → Prop
  | .status s => s.code = .ok
  | .label (.ok _) | .labels (.ok _) | .scores (.ok _) | .scoreRows (.ok _) | .accuracy (.ok _) => True
  | _ => False

/-- A result of the right form: labels are below `labels`, responses in `0..T`, and scores are `labels` numbers in
`-T..T`. -/
def Plausible (labels T : Int) : Kind → Out → Prop
  | .classifier, .label (.ok v) => 0 ≤ v ∧ v < labels
  | .classifier, .labels (.ok vs) => ∀ v ∈ vs, 0 ≤ v ∧ v < labels
  | .regressor, .label (.ok v) => 0 ≤ v ∧ v ≤ T
  | .regressor, .labels (.ok vs) => ∀ v ∈ vs, 0 ≤ v ∧ v ≤ T
  | _, .scores (.ok l) => (l.length : Int) = labels ∧ ∀ s ∈ l, -T ≤ s ∧ s ≤ T
  | _, .scoreRows (.ok ls) => ∀ l ∈ ls, (l.length : Int) = labels ∧ ∀ s ∈ l, -T ≤ s ∧ s ≤ T
  | _, _ => True

/-- The call, made on the estimator while no other is in flight, returns `o`. -/
def Alone (a : Algo) {k : Kind} {env : Env} (st : EstState a.backend env) (c : Call a.Sample k) (o : Out) : Prop :=
  ∃ sc st', step a.backend env sc c st = .ok (st', o)

/-- Calls that read, on estimators a program can have, each of which would return if it were made alone. -/
def ReadOnlyProgram (a : Algo) (k : Kind) {env : Env} (ests : List (EstState a.backend env)) (calls : List (Nat × Call a.Sample k)) :
    Prop :=
  (∀ st ∈ ests, Reached a k st ∧ StatesOk a st.params) ∧
  ∀ t c, (t, c) ∈ calls → c.Reads ∧ WellTyped a c ∧ ∃ st, ests[t]? = some st ∧ ∃ o, Alone a st c o

/-! ### Clones -/

/-- `n` actions of calls and clones, interleaved in any way. -/
inductive CloneInterleaving : Nat → Cloning → Cloning → Prop
  | refl (W) : CloneInterleaving 0 W W
  | step {n W W' W''} : CloneInterleaving n W W' → Cloning.Step W' W'' → CloneInterleaving (n + 1) W W''

/-- Clone number `j`, of estimator `t`, is made; `m` is its scratch memory. -/
def Cloned (W : Cloning) (j t : Nat) (m : Scratch) : Prop := W.clones[j]? = some (t, .ret m)

/-- All calls have returned and all clones are made. -/
def AllCloned (W : Cloning) : Prop := AllReturned W.prog ∧ ∀ t code, (t, code) ∈ W.clones → ∃ m, code = .ret m

/-- The next action of some call or clone is undefined behaviour or an exception. -/
def CloneMisbehaves (W : Cloning) : Prop :=
  Misbehaves W.prog ∨ ∃ t code, (t, code) ∈ W.clones ∧
    ((∃ m, W.prog.mems[t]? = some m ∧ ∃ r, code.act m = some r ∧ ∀ p, r ≠ .ok p) ∨ W.prog.mems[t]? = none)

/-- As `AlwaysReturn`: nothing undefined happens, nothing blocks, and all is done after a number of actions that does not depend on the
interleaving. -/
def AlwaysCloned (W₀ : Cloning) : Prop :=
  ∃ total, (∃ W, CloneInterleaving total W₀ W) ∧ ∀ n W, CloneInterleaving n W₀ W →
    ¬ CloneMisbehaves W ∧ n ≤ total ∧ (AllCloned W ↔ n = total) ∧ (¬ AllCloned W → ∃ W', W.Step W')

/-- Clone number `j` is about to read what a call on the same estimator is about to write: a data race. -/
def CloneRace (W : Cloning) (j : Nat) : Prop :=
  ∃ (i t : Nat) (c : InFlight) (code : CallCode Scratch) (l : ScratchLoc), W.prog.calls[i]? = some c ∧ W.clones[j]? = some (t, code) ∧
    c.target = t ∧ nextAccess c.code = some (l, true) ∧ nextAccess code = some (l, false)

end Tsetlini.Spec
