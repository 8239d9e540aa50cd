import Verif.Spec.Hits
/-
Specification vocabulary for C52: training as an algorithm that is driven by two streams of random numbers. Nothing is left open
here but what C++ or the standard library leave open: rounding, `std::shuffle`, and which of two arguments is evaluated first.
-/
namespace Tsetlini.Spec

/-- Number `j` (from 0) of the numbers the generator yields. -/
def draw (env : Env) (g : env.G) : Nat → BitVec 32
  | 0 => (env.next g).1
  | j + 1 => draw env (env.next g).2 j

/-- The generator after `j` numbers were taken. -/
def skip (env : Env) (g : env.G) : Nat → env.G
  | 0 => g
  | j + 1 => skip env (env.next g).2 j

/-- Number `j` of the numbers in (0, 1] the float generator yields. -/
def fdraw (env : Env) (g : env.F) : Nat → Rat
  | 0 => (env.fnext g).1
  | j + 1 => fdraw env (env.fnext g).2 j

/-- The float generator after `j` numbers were taken. -/
def fskip (env : Env) (g : env.F) : Nat → env.F
  | 0 => g
  | j + 1 => fskip env (env.fnext g).2 j

/-- What training works on. -/
structure Trainee (env : Env) where
  learned : Learned
  g : env.G
  f : env.F

/-- What the saved state of an estimator shows of this. -/
def Algo.trainee (a : Algo) {env : Env} (st : EstState a.backend env) : Trainee env := ⟨a.learned st, st.igen, st.fgen⟩

/-- How many of `n` features to choose when the number `r` was drawn: `n/s` rounded down, or up with a probability that makes the
mean `n/s`. All operations are `float`, but for one that is `double`. -/
def chosen (env : Env) (s : Rat) (n : Nat) (r : BitVec 32) : Nat :=
  let q := env.rnd (env.rnd (1 / s) * env.rnd n)
  let up := roundHalfAway (env.rnd64 (env.rnd (q - q.floor) * 4294967295))
  q.floor.toNat + if (r.toNat : Int) < up then 1 else 0

/-- The features that occur among the next `j` numbers, taken modulo `n`. -/
def marked (env : Env) (n : Nat) (g : env.G) (j : Nat) : List Bool :=
  (List.range n).map fun f => (List.range j).any fun i => (draw env g i).toNat % n == f

/-- A choice of features: one number is drawn to know how many, then numbers are drawn until so many different features occurred. -/
def Tossed (env : Env) (s : Rat) (n : Nat) (g : env.G) (l : List Bool) (g' : env.G) : Prop :=
  let g₁ := skip env g 1
  let h := chosen env s n (draw env g 0)
  ∃ j, l = marked env n g₁ j ∧ l.count true = h ∧ (∀ i < j, (marked env n g₁ i).count true < h) ∧ g' = skip env g₁ j

/-- One choice for the positive literals and one for the negated ones; which of them is first is up to the compiler. -/
def TossedBoth (env : Env) (s : Rat) (n : Nat) (g : env.G) (tp tn : List Bool) (g' : env.G) : Prop :=
  ∃ g₁, if env.tossSwap then Tossed env s n g tn g₁ ∧ Tossed env s n g₁ tp g' else Tossed env s n g tp g₁ ∧ Tossed env s n g₁ tn g'

/-- Type I feedback to a clause that is false: the classic algorithm weakens chosen literals; the bitwise one draws as many times as
literals would be chosen the index of a positive and that of a negated literal and weakens the two. -/
def Faded (a : Algo) (env : Env) (H : Settings) (n : Nat) (c : Clause) (g : env.G) (c' : Clause) (g' : env.G) : Prop :=
  match a with
  | .classic => ∃ tp tn, TossedBoth env H.s n g tp tn g' ∧ c' = c.weaken H.states tp tn
  | .bitwise =>
    let h := chosen env H.s n (draw env g 0)
    c' = (List.range h).foldl (fun c i =>
      c.weakenAt H.states ((draw env g (2 * i + 1)).toNat % n) ((draw env g (2 * i + 2)).toNat % n)) c ∧
    g' = skip env g (2 * h + 1)

/-- Type I feedback to clause `i` whose output is `out`. -/
def GiveI (a : Algo) (env : Env) (H : Settings) (n : Nat) (x : List Bool) (i : Nat) (out : Bool) (u u' : Trainee env) : Prop :=
  ∃ c c' g', u.learned.clauses[i]? = some c ∧
    if out then
      (∃ tp tn, TossedBoth env H.s n u.g tp tn g' ∧ c' = c.strengthen H.states H.boost x tp tn) ∧
      u' = ⟨⟨u.learned.clauses.set i c', u.learned.weights.modify i (raise H.maxWeight)⟩, g', u.f⟩
    else
      Faded a env H n c u.g c' g' ∧ u' = ⟨⟨u.learned.clauses.set i c', u.learned.weights⟩, g', u.f⟩

/-- Type II feedback to clause `i` whose output is `out`. -/
def GiveII {env : Env} (x : List Bool) (i : Nat) (out : Bool) (u u' : Trainee env) : Prop :=
  ∃ c, u.learned.clauses[i]? = some c ∧
    u' = if out then { u with learned := ⟨u.learned.clauses.set i (c.contradict x), u.learned.weights.modify i (· - 1)⟩ } else u

/-- The probability of feedback when a score is `d` short of where it should be: `d / 2T` in `float`. -/
def chance (env : Env) (T d : Int) : Rat := env.rnd (env.rnd (1 / env.rnd ((2 * T : Int) : Rat)) * env.rnd (d : Rat))

/-- Training a classifier with the sample `x` of label `t`, with `o` as the opposite label. Scores and clause outputs are those before
the step. One float number is drawn for each clause of the target and then one for each clause of the opposite label; it decides
whether the clause gets feedback. -/
def RefStep (a : Algo) (env : Env) (H : Settings) (n : Nat) (x : List Bool) (t o : Nat) (u u' : Trainee env) : Prop :=
  let out := outAt u.learned.clauses x
  let sc := score out u.learned.weights H.k H.threshold
  let target (j : Nat) (v v' : Trainee env) : Prop :=
    let i := t * H.k + j
    if fdraw env u.f j ≤ chance env H.threshold (H.threshold - sc t) then
      if i % 2 = 0 then GiveI a env H n x i (out i) v v' else GiveII x i (out i) v v'
    else v' = v
  let opposite (j : Nat) (v v' : Trainee env) : Prop :=
    let i := o * H.k + j
    if fdraw env u.f (H.k + j) ≤ chance env H.threshold (H.threshold + sc o) then
      if i % 2 = 0 then GiveII x i (out i) v v' else GiveI a env H n x i (out i) v v'
    else v' = v
  ∃ v, Chain target (List.range H.k) { u with f := fskip env u.f (2 * H.k) } v ∧ Chain opposite (List.range H.k) v u'

/-- One epoch of a classifier: a number is drawn for the opposite label of each sample; then the samples are presented in the order
of a shuffle. -/
def RefEpoch (a : Algo) (env : Env) (H : Settings) (n labels : Nat) (X : List a.Sample) (y : List Int) (u u' : Trainee env) : Prop :=
  let sh := env.shuffle (skip env u.g X.length) X.length
  Chain (fun i v v' => ∃ x t, X[i]? = some x ∧ y[i]? = some ((t : Nat) : Int) ∧
      RefStep a env H n (a.bits x) t ((t + 1 + (draw env u.g i).toNat % (labels - 1)) % labels) v v')
    sh.1 { u with g := sh.2 } u'

/-- The loss functions, in `float`. -/
def lossRef (env : Env) (name : String) (C1 : Fl) (x : Rat) : Fl :=
  let a := if 0 ≤ x then x else -x
  let sq := env.rnd (x * x)
  if name = "MAE" ∨ name = "L1" then .fin a
  else if name = "MSE" ∨ name = "L2" then .fin sq
  else if name = "berHu" then
    match C1 with
    | .fin c => .fin (if a ≤ c then a else env.rnd (sq - env.rnd (env.rnd (c * c) + c)))
    | .inf false => .fin a
    | _ => .nan
  else
    match C1 with
    | .fin c => .fin (env.rnd (env.rnd (c * a) + env.rnd (env.rnd (env.rnd (1 - c) * x) * x)))
    | _ => .nan

/-- The number of clauses a regressor with `n` clauses trains when the loss is `p`, and the generator after that number was found. -/
def RefHits (env : Env) (boxMuller : Bool) (n : Nat) (p : Fl) (g : env.G) (h : Nat) (g' : env.G) : Prop :=
  if boxMuller then
    ∃ v z, p = .fin v ∧
      env.normal (env.rnd (env.rnd n * v)) (env.rnd (env.rnd (env.rnd n * v) * env.rnd (1 - v))) (draw env g 0) = some z ∧
      (h : Int) = min (roundHalfAway z) n ∧ g' = skip env g 1
  else
    match p with
    | .fin v =>
      let np := env.rnd (env.rnd n * v)
      if 1/2 ≤ np then (h : Int) = min (roundHalfAway np) n ∧ g' = g
      else h = min (if ((draw env g 0).toNat : Rat) < env.rnd64 (np * 4294967295) then 1 else 0) n ∧ g' = skip env g 1
    | _ => h = 0 ∧ g' = skip env g 1

/-- The parameters that govern the training of a regressor only. -/
structure RegSettings where
  boxMuller : Bool
  loss : String
  C1 : Fl

structure HasRegSettings (p : Params) (R : RegSettings) : Prop where
  boxMuller : p.get? "box_muller" = some (.bool R.boxMuller)
  loss : p.get? "loss_fn" = some (.str R.loss)
  C1 : p.get? "loss_fn_C1" = some (.real R.C1)

/-- Training a regressor with the sample `x` whose response should be `y`. -/
def RefStepR (a : Algo) (env : Env) (H : Settings) (R : RegSettings) (n : Nat) (x : List Bool) (y : Int) (u u' : Trainee env) : Prop :=
  let out := outAt u.learned.clauses x
  let r := response out u.learned.weights H.k H.threshold
  ∃ h g, RefHits env R.boxMuller H.k (lossRef env R.loss R.C1 (env.rnd (env.rnd (r - y : Int) / env.rnd H.threshold))) u.g h g ∧
    Chain (fun (_ : Nat) v v' =>
      let i := (draw env v.g 0).toNat % H.k
      let v₁ : Trainee env := { v with g := skip env v.g 1 }
      if r < y then GiveI a env H n x i (out i) v₁ v' else if y < r then GiveII x i (out i) v₁ v' else v' = v₁)
      (List.range h) { u with g := g } u'

/-- One epoch of a regressor. -/
def RefEpochR (a : Algo) (env : Env) (H : Settings) (R : RegSettings) (n : Nat) (X : List a.Sample) (y : List Int) (u u' : Trainee env) : Prop :=
  let sh := env.shuffle u.g X.length
  Chain (fun i v v' => ∃ x t, X[i]? = some x ∧ y[i]? = some t ∧ RefStepR a env H R n (a.bits x) t v v') sh.1 { u with g := sh.2 } u'

/-- New clauses: clause `i` takes `2n` numbers, first for its positive and then for its negated literals; an even number is a counter -1,
an odd one 0. -/
def newClauses (env : Env) (count n : Nat) (g : env.G) : List Clause :=
  let v (j : Nat) : Int := if (draw env g j).toNat % 2 = 0 then -1 else 0
  (List.range count).map fun i =>
    ⟨(List.range n).map fun f => v (i * (2 * n) + f), (List.range n).map fun f => v (i * (2 * n) + n + f)⟩

/-- A new estimator with `count` clauses over `n` features; `old` are the weights left from earlier training. -/
def Started (env : Env) (seed : BitVec 32) (weighted : Bool) (count n : Nat) (old : List Nat) (u : Trainee env) : Prop :=
  let g := env.seedG seed
  u.learned.clauses = newClauses env count n g ∧
  (if weighted then u.learned.weights = (List.range count).map fun i => old.getD i 0 else u.learned.weights = old) ∧
  u.g = skip env g (count * (2 * n)) ∧ u.f = env.seedF seed

end Tsetlini.Spec
