import Verif.Model.Threads
/-
The overloads of the bitwise clause output routines that store the outputs in a bit vector
(lib/src/tsetlini_algo_bitwise.hpp:121-206,310-400).  No caller in the library uses them.

The iterations compute what those of the other overloads do (`bitCode`, `bitCodePruned`); storing the result with
`clause_output.assign(oidx, ...)` reads the block that holds bit `oidx`, changes the bit and writes the
block back.
-/
namespace Tsetlini

/-- The block `assign(pos, val)` writes back when it has read `b`, lib/include/basic_bit_vector.hpp:94-104,112-123. -/
def assignBlock (b : Block) (pos : Nat) (val : Bool) : Block :=
  if val then b ||| setMask pos else b &&& clearMask pos

/-- What an iteration is doing: computing, or about to write back a block. lib/src/tsetlini_algo_bitwise.hpp:137-206 -/
inductive BitPhase (C S : Type) where
  | run (k : ThreadCode C S Bool)
  | store (b : Block)

/-- A thread of the team: the iterations it has yet to do, in this order, and the one it is in. lib/src/tsetlini_algo_bitwise.hpp:137-206 -/
structure BitThread (C S : Type) where
  todo : List Nat
  cur : Option (Nat × BitPhase C S)

/-- A parallel region in execution; `out` are the blocks of `clause_output`. lib/src/tsetlini_algo_bitwise.hpp:137-206 -/
structure BitRegion (C S : Type) where
  threads : List (BitThread C S)
  out : List Block

variable {C S : Type}

/-- The next action of a thread: begin an iteration, perform one read, read the block of `clause_output` that holds the bit of
the iteration, or write it back.  `none`: it waits at the barrier at the end of the loop.
lib/src/tsetlini_algo_bitwise.hpp:140-158,165-203. -/
def BitThread.step (rows : List (List C)) (x : List S) (body : Nat → ThreadCode C S Bool) (t : BitThread C S) (out : List Block) :
    Option (Res (BitThread C S × List Block)) :=
  match t.cur with
  | none =>
    match t.todo with
    | [] => none
    | o :: os => some (.ok (⟨os, some (o, .run (body o))⟩, out))
  | some (o, .run (.ret v)) => some ((rd out (o / 64)).bind fun b => .ok (⟨t.todo, some (o, .store (assignBlock b o v))⟩, out))
  | some (o, .run (.row r k)) => some ((rd rows r).bind fun _ => .ok (⟨t.todo, some (o, .run k)⟩, out))
  | some (o, .run (.cell r c k)) =>
    some ((rd rows r).bind fun l => (rd l c).bind fun v => .ok (⟨t.todo, some (o, .run (k v))⟩, out))
  | some (o, .run (.sample f k)) => some ((rd x f).bind fun v => .ok (⟨t.todo, some (o, .run (k v))⟩, out))
  | some (o, .store b) => some ((wr out (o / 64) b).bind fun out => .ok (⟨t.todo, none⟩, out))

/-- One thread takes one action, any thread that can. lib/src/tsetlini_algo_bitwise.hpp:137-206 (`#pragma omp parallel for`). -/
def BitRegion.Step (rows : List (List C)) (x : List S) (body : Nat → ThreadCode C S Bool) (R R' : BitRegion C S) : Prop :=
  ∃ i t t' out', R.threads[i]? = some t ∧ t.step rows x body R.out = some (.ok (t', out')) ∧
    R' = ⟨R.threads.set i t', out'⟩

/-- `calculate_clause_output_T` into a bit vector by a single thread (`n_jobs` = 1),
lib/src/tsetlini_algo_bitwise.hpp:121-206. -/
def bitOutputs (t : Tile) (M : PMatrix) (X : BitVector) (a b : Nat) (out : List Block) : Res (List Block) :=
  iter (range a b) (fun o out => (bitwise.clauseOut t M o X).bind fun v => bitAssign out o v) out

/-- The loop of `calculate_clause_output_with_pruning_T` into a bit vector by a single thread,
lib/src/tsetlini_algo_bitwise.hpp:323-399. -/
def bitOutputsPrunedLoop (t : Tile) (M : PMatrix) (X : BitVector) (n : Nat) (out : List Block) : Res (List Block) :=
  iter (range 0 n) (fun o out => (bitwise.clauseOutPruned t M o X).bind fun v => bitAssign out o v) out

/-- `calculate_clause_output_with_pruning_T` into a bit vector, as its caller sees it: `clause_output` is passed by value
(lib/src/tsetlini_algo_bitwise.hpp:314), so the loop fills a copy that is then dropped.
The result is the caller's bit vector afterwards. -/
def bitOutputsPruned (t : Tile) (M : PMatrix) (X : BitVector) (n : Nat) (out : List Block) : Res (List Block) :=
  let copy := out
  (bitOutputsPrunedLoop t M X n copy).bind fun _ => .ok out

end Tsetlini
