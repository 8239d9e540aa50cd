import Verif.Spec.Feedback
import Verif.Spec.Votes
import Verif.Spec.Api
/-
Specification vocabulary for training: what one training step may do to the clauses and weights.
-/
namespace Tsetlini.Spec

/-- What an estimator has learned: its clauses and, if it is weighted, one weight for each. -/
structure Learned where
  clauses : List Clause
  weights : List Nat

/-- What the saved state of an estimator shows. -/
def Algo.learned (a : Algo) {env : Env} (st : EstState a.backend env) : Learned :=
  ⟨a.clauses st, st.ta.weights⟩

/-- Clause `i` and its weight. -/
def Learned.at (m : Learned) (i : Nat) : Option Clause × Option Nat := (m.clauses[i]?, m.weights[i]?)

/-- The parameters that govern training, as `read_params()` shows them. `k` is the number of
clauses that vote on a label (on the response, for a regressor). -/
structure Settings where
  states : Int
  maxWeight : Int
  threshold : Int
  boost : Bool
  s : Rat
  k : Nat

/-- The parameter map holds these settings. -/
structure HasSettings (kind : Kind) (p : Params) (H : Settings) : Prop where
  states : IntParam p "number_of_states" H.states
  maxWeight : IntParam p "max_weight" H.maxWeight
  threshold : IntParam p "threshold" H.threshold
  boost : ∃ b, IntParam p "boost_true_positive_feedback" b ∧ H.boost = (b != 0)
  s : p.get? "s" = some (.real (.fin H.s))
  k : ∃ c, IntParam p (clauseParam kind) c ∧ H.k = (c / 2).toNat

/-- `h` is `n/s` as computed in `float`, rounded down or up. -/
def Near (env : Env) (s : Rat) (n h : Nat) : Prop :=
  let q := env.rnd (env.rnd (1 / s) * env.rnd n)
  (h : Int) = q.floor ∨ ((h : Int) = q.floor + 1 ∧ q ≠ q.floor)

/-- A choice of about `n/s` out of `n` features. -/
structure Choice (env : Env) (s : Rat) (n : Nat) (l : List Bool) : Prop where
  length : l.length = n
  count : Near env s n (l.count true)

/-- Type I feedback to a clause that is false for the sample. The classic algorithm weakens
about `n/s` distinct positive and as many distinct negated literals; the bitwise one picks about `n/s` times a
positive and a negated literal, possibly the same one again. -/
def Weakened (a : Algo) (env : Env) (H : Settings) (n : Nat) (c c' : Clause) : Prop :=
  match a with
  | .classic => ∃ tp tn, Choice env H.s n tp ∧ Choice env H.s n tn ∧ c' = c.weaken H.states tp tn
  | .bitwise => ∃ picks : List (Nat × Nat), Near env H.s n picks.length ∧ (∀ p ∈ picks, p.1 < n ∧ p.2 < n) ∧
      c' = picks.foldl (fun c p => c.weakenAt H.states p.1 p.2) c

/-- Type I feedback to a clause that is true for the sample `x`. -/
def Strengthened (env : Env) (H : Settings) (n : Nat) (x : List Bool) (c c' : Clause) : Prop :=
  ∃ tp tn, Choice env H.s n tp ∧ Choice env H.s n tn ∧ c' = c.strengthen H.states H.boost x tp tn

/-- A weight after its clause was right: one more, as long as the effective weight stays
within the maximum. -/
def raise (maxWeight : Int) (w : Nat) : Nat := if (w : Int) + 1 < maxWeight then w + 1 else w

/-- A clause and its weight before (`u`) and after (`u'`) Type I feedback; `out` is the clause output. -/
def TypeI (a : Algo) (env : Env) (H : Settings) (n : Nat) (x : List Bool) (out : Bool)
    (u u' : Option Clause × Option Nat) : Prop :=
  ∃ c c', u.1 = some c ∧ u'.1 = some c' ∧
    if out then Strengthened env H n x c c' ∧ u'.2 = u.2.map (raise H.maxWeight)
    else Weakened a env H n c c' ∧ u'.2 = u.2

/-- A clause and its weight before and after Type II feedback. -/
def TypeII (x : List Bool) (out : Bool) (u u' : Option Clause × Option Nat) : Prop :=
  ∃ c, u.1 = some c ∧
    if out then u'.1 = some (c.contradict x) ∧ u'.2 = u.2.map (· - 1) else u' = u

/-- Clause `i` is one of the `k` clauses of label `l`. -/
def Owns (k l i : Nat) : Prop := l * k ≤ i ∧ i < l * k + k

/-- Training a classifier with the sample `x` of label `t`, with `o` as the opposite label. -/
structure Step (a : Algo) (env : Env) (H : Settings) (n : Nat) (x : List Bool) (t o : Nat) (m m' : Learned) : Prop where
  sizes : m'.clauses.length = m.clauses.length ∧ m'.weights.length = m.weights.length
  /-- clauses of other labels stay as they are -/
  others : ∀ i, ¬ Owns H.k t i → ¬ Owns H.k o i → m'.at i = m.at i
  /-- clauses of the target may get Type I if they vote for it, Type II otherwise -/
  target : ∀ i, Owns H.k t i → m'.at i = m.at i ∨
    if i % 2 = 0 then TypeI a env H n x (outAt m.clauses x i) (m.at i) (m'.at i)
    else TypeII x (outAt m.clauses x i) (m.at i) (m'.at i)
  /-- for clauses of the opposite label it is the other way round -/
  opposite : ∀ i, Owns H.k o i → m'.at i = m.at i ∨
    if i % 2 = 0 then TypeII x (outAt m.clauses x i) (m.at i) (m'.at i)
    else TypeI a env H n x (outAt m.clauses x i) (m.at i) (m'.at i)
  /-- a target that cannot score higher gets no feedback -/
  targetFull : score (outAt m.clauses x) m.weights H.k H.threshold t = H.threshold → ∀ i, Owns H.k t i → m'.at i = m.at i
  /-- an opposite label that cannot score lower gets no feedback -/
  oppositeFull : score (outAt m.clauses x) m.weights H.k H.threshold o = -H.threshold → ∀ i, Owns H.k o i → m'.at i = m.at i

/-- One step after the other, one for each element of the list. -/
inductive Chain {ι σ : Type} (R : ι → σ → σ → Prop) : List ι → σ → σ → Prop
  | nil {s} : Chain R [] s s
  | cons {i l s s₁ s₂} : R i s s₁ → Chain R l s₁ s₂ → Chain R (i :: l) s s₂

/-- Training a regressor with the sample `x` whose response should be `y`: up to `k` times some clause is
picked, which gets Type I feedback if the response was too low and Type II if it was too high. Clause outputs are
those before the step. -/
def StepR (a : Algo) (env : Env) (H : Settings) (n : Nat) (x : List Bool) (y : Int) (m m' : Learned) : Prop :=
  let out := outAt m.clauses x
  let r := response out m.weights H.k H.threshold
  (r = y → m' = m) ∧
  ∃ picks : List Nat, picks.length ≤ H.k ∧ (∀ i ∈ picks, i < H.k) ∧
    Chain (fun i m m' => (∀ j, j ≠ i → m'.at j = m.at j) ∧
      (m'.clauses.length = m.clauses.length ∧ m'.weights.length = m.weights.length) ∧
      (r < y → TypeI a env H n x (out i) (m.at i) (m'.at i)) ∧
      (y < r → TypeII x (out i) (m.at i) (m'.at i)) ∧ (r = y → m' = m)) picks m m'

/-- One epoch over the samples `X` with labels `y`: one step for each sample with its label, in some order. -/
def Epoch (a : Algo) (env : Env) (H : Settings) (n labels : Nat) (X : List a.Sample) (y : List Int) (m m' : Learned) : Prop :=
  ∃ ps, ps.Perm (X.zip y) ∧
    Chain (fun p m m' => ∃ t o : Nat, p.2 = (t : Int) ∧ t < labels ∧ o < labels ∧ o ≠ t ∧ Step a env H n (a.bits p.1) t o m m') ps m m'

/-- One epoch of a regressor. -/
def EpochR (a : Algo) (env : Env) (H : Settings) (n : Nat) (X : List a.Sample) (y : List Int) (m m' : Learned) : Prop :=
  ∃ ps, ps.Perm (X.zip y) ∧ Chain (fun p m m' => StepR a env H n (a.bits p.1) p.2 m m') ps m m'

/-- Clauses before any training: every counter is -1 or 0. -/
structure Untrained (count n : Nat) (m : Learned) : Prop where
  count : m.clauses.length = count
  counters : ∀ c ∈ m.clauses, c.pos.length = n ∧ c.neg.length = n ∧ ∀ v, v ∈ c.pos ∨ v ∈ c.neg → v = -1 ∨ v = 0

end Tsetlini.Spec
