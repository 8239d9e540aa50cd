import Verif.Model.Bitwise
/-
The OpenMP loops of the clause outputs, at the granularity of single memory accesses:
lib/src/tsetlini_algo_classic.hpp:154-160,185-188,274-277,297-300 and
lib/src/tsetlini_algo_bitwise.hpp:51-54,76-79,227-233,260-263
(`#pragma omp parallel for if (n_jobs > 1) num_threads(n_jobs)`).

Threads share the automata (rows of counters, or of polarity blocks), the sample and
`clause_output`; `output`, `all_exclude`, `toggle_output`, `neg_all_exclude`, `any_inclusions`, `kk` and the
loop counters are declared in the loop body and are private to an iteration.
-/
namespace Tsetlini

/-- The code of one loop iteration: private computation between reads of shared memory, and the value
it finally stores in `clause_output`.  `C` is the type of the items of a row, `S` of the items of the
sample. Bodies of the loops lib/src/tsetlini_algo_classic.hpp:154-181 and lib/src/tsetlini_algo_bitwise.hpp:137-206. -/
inductive ThreadCode (C S α : Type) where
  | ret (a : α)
  /-- the pointer `row_data(r)` is formed -/
  | row (r : Nat) (k : ThreadCode C S α)
  /-- `row_data(r)[c]` is read -/
  | cell (r c : Nat) (k : C → ThreadCode C S α)
  /-- `X_p[f]` is read -/
  | sample (f : Nat) (k : S → ThreadCode C S α)

namespace ThreadCode

variable {C S α β σ : Type}

/-- No counterpart in the code: the C++ statement sequence. -/
def bind : ThreadCode C S α → (α → ThreadCode C S β) → ThreadCode C S β
  | ret a, f => f a
  | row r k, f => row r (k.bind f)
  | cell r c k, f => cell r c fun v => (k v).bind f
  | sample i k, f => sample i fun v => (k v).bind f

/-- The loop over the features of one tile, lib/src/tsetlini_algo_classic.hpp:199-209,310-317 -/
def iter : List Nat → (Nat → σ → ThreadCode C S σ) → σ → ThreadCode C S σ
  | [], _, s => ret s
  | i :: is, f, s => (f i s).bind (iter is f)

/-- The loop over whole tiles with its `break`, as `tileBatch`. lib/src/tsetlini_algo_classic.hpp:196-225 -/
def tileBatch (step : Nat → σ → ThreadCode C S σ) (stop : σ → Bool) (B : Nat) (hB : 0 < B) (n : Nat)
    (kk : Nat) (st : σ) : ThreadCode C S (Nat × σ) :=
  if kk < n - (B - 1) then
    (iter (range kk (B + kk)) step st).bind fun st =>
    if stop st then ret (kk, st)
    else tileBatch step stop B hB n (kk + B) st
  else ret (kk, st)
termination_by n - kk

/-- The loop over the rest, as `tileTail`. lib/src/tsetlini_algo_classic.hpp:196-225 -/
def tileTail (step : Nat → σ → ThreadCode C S σ) (stop : σ → Bool) : List Nat → σ → ThreadCode C S σ
  | [], st => ret st
  | f :: fs, st =>
    if stop st then ret st else (step f st).bind (tileTail step stop fs)

/-- Batched path over `n` items, as `tileLoops`. lib/src/tsetlini_algo_classic.hpp:196-225 -/
def tileLoops (step : Nat → σ → ThreadCode C S σ) (stop : σ → Bool) (t : Tile) (n : Nat) (st : σ) : ThreadCode C S σ :=
  (tileBatch step stop t.size t.size_pos n 0 st).bind fun p =>
  tileTail step stop (range p.1 n) p.2

end ThreadCode

/-- lib/src/tsetlini_algo_classic.hpp:168-176,284-290, as `simpleLoop`; `p` and `q` are the row
numbers of the positive and negated literals. -/
def simpleCode (p q : Nat) : List Nat → (output allExclude : Bool) → ThreadCode Int Byte (Bool × Bool)
  | [], o, e => .ret (o, e)
  | f :: fs, o, e =>
    if o then
      .cell p f fun a => .cell q f fun b => .sample f fun x =>
        simpleCode p q fs (if (action a && x == 0#8) || (action b && x != 0#8) then false else o)
          (if action a || action b then false else e)
    else .ret (o, e)

/-- lib/src/tsetlini_algo_classic.hpp:201-208,217-224,312-316,325-329, as `flagStep` -/
def flagCode (p q f : Nat) (st : Byte × Byte) : ThreadCode Int Byte (Byte × Byte) :=
  .cell p f fun a => .cell q f fun b => .sample f fun x =>
    .ret (maxChar (clauseFlag x (action a) (action b)) st.1, maxChar (b2c (action a) + b2c (action b)) st.2)

/-- Iteration `o` of `calculate_clause_output_T`, lib/src/tsetlini_algo_classic.hpp:278-293,301-333, for
a sample of `n` features. -/
def classicCode (t : Tile) (n o : Nat) : ThreadCode Int Byte Bool :=
  .row (2 * o + 0) <| .row (2 * o + 1) <|
  if n < t.size then
    (simpleCode (2 * o + 0) (2 * o + 1) (range 0 n) true true).bind fun r => .ret r.1
  else
    (ThreadCode.tileLoops (flagCode (2 * o + 0) (2 * o + 1)) (fun st => st.1 != 0#8) t n (0#8, 0#8)).bind fun r =>
    .ret (r.1 == 0#8)

/-- Iteration `o` of `calculate_clause_output_with_pruning_T`,
lib/src/tsetlini_algo_classic.hpp:161-181,189-228. -/
def classicCodePruned (t : Tile) (n o : Nat) : ThreadCode Int Byte Bool :=
  .row (2 * o + 0) <| .row (2 * o + 1) <|
  if n < t.size then
    (simpleCode (2 * o + 0) (2 * o + 1) (range 0 n) true true).bind fun r => .ret (if r.2 then false else r.1)
  else
    (ThreadCode.tileLoops (flagCode (2 * o + 0) (2 * o + 1)) (fun st => st.1 != 0#8) t n (0#8, 0#8)).bind fun r =>
    .ret (if r.2 = 0#8 then false else r.1 == 0#8)

/-- lib/src/tsetlini_algo_bitwise.hpp:61-69,242-251, as `bitSimpleLoop` -/
def bitSimpleCode (p q : Nat) : List Nat → Bool → Block → ThreadCode Block Block (Bool × Block)
  | [], o, a => .ret (o, a)
  | f :: fs, o, a =>
    if o then
      .cell p f fun u => .cell q f fun v => .sample f fun x =>
        bitSimpleCode p q fs (evalBlock u v x == 0#64) (maxBlock (u ||| v) a)
    else .ret (o, a)

/-- lib/src/tsetlini_algo_bitwise.hpp:91-97,106-112,276-283,292-299, as `bitStep` -/
def bitStepCode (p q f : Nat) (st : BlkSt) : ThreadCode Block Block BlkSt :=
  .cell p f fun u => .cell q f fun v => .sample f fun x =>
    .ret (maxBlock (evalBlock u v x) st.1, maxBlock (u ||| v) st.2)

/-- Iteration `o` of `calculate_clause_output_T`, lib/src/tsetlini_algo_bitwise.hpp:55-72,80-116, for a
sample of `n` blocks. -/
def bitCode (t : Tile) (n o : Nat) : ThreadCode Block Block Bool :=
  .row (2 * o + 0) <| .row (2 * o + 1) <|
  if n < t.size then
    (bitSimpleCode (2 * o + 0) (2 * o + 1) (range 0 n) true 0#64).bind fun r => .ret r.1
  else
    (ThreadCode.tileLoops (bitStepCode (2 * o + 0) (2 * o + 1)) (fun st => st.1 != 0#64) t n (0#64, 0#64)).bind fun r =>
    .ret (r.1 == 0#64)

/-- Iteration `o` of `calculate_clause_output_with_pruning_T`,
lib/src/tsetlini_algo_bitwise.hpp:234-256,264-305. -/
def bitCodePruned (t : Tile) (n o : Nat) : ThreadCode Block Block Bool :=
  .row (2 * o + 0) <| .row (2 * o + 1) <|
  if n < t.size then
    (bitSimpleCode (2 * o + 0) (2 * o + 1) (range 0 n) true 0#64).bind fun r =>
    .ret (if 0#64 < r.2 then r.1 else false)
  else
    (ThreadCode.tileLoops (bitStepCode (2 * o + 0) (2 * o + 1)) (fun st => st.1 != 0#64) t n (0#64, 0#64)).bind fun r =>
    .ret ((if 0#64 < r.2 then r.1 else 1#64) == 0#64)

/-- A thread of the team: the iterations it has yet to do, in this order, and the one it is in.
Which thread gets which iterations is up to OpenMP. `#pragma omp parallel for`, lib/src/tsetlini_algo_classic.hpp:154-181. -/
structure Thread (C S : Type) where
  todo : List Nat
  cur : Option (Nat × ThreadCode C S Bool)

/-- A parallel region in execution. `#pragma omp parallel for`, lib/src/tsetlini_algo_classic.hpp:154-181. -/
structure Region (C S : Type) where
  threads : List (Thread C S)
  out : List Bool

variable {C S : Type}

/-- The next action of a thread, on the rows, the sample, and the contents of `clause_output`: begin an
iteration, perform one read, or store the result with `clause_output[oidx] = ...`.  `none`: it
waits at the barrier at the end of the loop. lib/src/tsetlini_algo_classic.hpp:154-181 -/
def Thread.step (rows : List (List C)) (x : List S) (body : Nat → ThreadCode C S Bool) (t : Thread C S) (out : List Bool) :
    Option (Res (Thread C S × List Bool)) :=
  match t.cur with
  | none =>
    match t.todo with
    | [] => none
    | o :: os => some (.ok (⟨os, some (o, body o)⟩, out))
  | some (o, .ret v) => some ((wr out o v).bind fun out => .ok (⟨t.todo, none⟩, out))
  | some (o, .row r k) => some ((rd rows r).bind fun _ => .ok (⟨t.todo, some (o, k)⟩, out))
  | some (o, .cell r c k) => some ((rd rows r).bind fun l => (rd l c).bind fun v => .ok (⟨t.todo, some (o, k v)⟩, out))
  | some (o, .sample f k) => some ((rd x f).bind fun v => .ok (⟨t.todo, some (o, k v)⟩, out))

/-- One thread takes one action, any thread that can. lib/src/tsetlini_algo_classic.hpp:154-181 -/
def Region.Step (rows : List (List C)) (x : List S) (body : Nat → ThreadCode C S Bool) (R R' : Region C S) : Prop :=
  ∃ i t t' out', R.threads[i]? = some t ∧ t.step rows x body R.out = some (.ok (t', out')) ∧
    R' = ⟨R.threads.set i t', out'⟩

end Tsetlini
