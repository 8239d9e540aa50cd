import Verif.Lemmas.Defined
import Verif.Model.BoxMuller
import Verif.Props.Toy
/-
C44: calls that are free of undefined behaviour, and what the conditions are for.
-/
namespace Tsetlini
open Res Spec

variable {a : Algo} {k : Kind} {env : Env}

/-! ### C44 -/

/-- **C44**: a safe call on any estimator a program can get hold of returns (unless a rejection loop of the
coin tosser never ends); there is no access out of bounds, no division by zero, no signed overflow, no undefined
conversion or shift and no exception. -/
theorem C44_call_defined {st : EstState a.backend env} (h : Reached a k st) (hN : StatesOk a st.params) (sc : Sched)
    (c : Call a.Sample k) (ht : WellTyped a c) (hs : SafeCall a st c) : Defined (step a.backend env sc c st) := by
  obtain ⟨cfg, ss, hk, hv, hN', hS⟩ := Reached.sim h hN
  subst hk
  exact step_defined sc hv hN' hS c (WellTyped.typed ht) hs

/-- **C44**: so does every history of safe calls. -/
theorem C44_history_defined {st : EstState a.backend env} (h : Reached a k st) (hN : StatesOk a st.params) (sc : Sched) (cs : List (Call a.Sample k))
    (ht : ∀ c ∈ cs, WellTyped a c) (hs : SafeCalls a sc cs st) : Defined (run a.backend env sc cs st) := by
  obtain ⟨cfg, ss, hk, hv, hN', hS⟩ := Reached.sim h hN
  subst hk
  exact run_defined sc hv hN' cs (fun c hc => WellTyped.typed (ht c hc)) hS hs

/-- **C44**: in particular on a new estimator. -/
theorem C44_new_defined {p : Params} (hm : Made k p) (hN : StatesOk a p) (sc : Sched) (cs : List (Call a.Sample k))
    (ht : ∀ c ∈ cs, WellTyped a c) (hs : SafeCalls a sc cs (EstState.fresh a.backend env p)) :
    Defined (run a.backend env sc cs (EstState.fresh a.backend env p)) :=
  C44_history_defined (.of_run p sc [] [] hm (by simp) rfl) hN sc cs ht hs

/-! The hypotheses are met. -/

theorem Toy.int_of {p : Params} {key : String} {v w : Int} (h : p.get? key = some (.int v)) (h' : IntParam p key w) : w = v := by
  unfold IntParam at h'; rw [h] at h'; simpa using h'.symm

theorem Toy.safeCalls_of {sc : Sched} : ∀ {cs : List (Call a.Sample k)} {st : EstState a.backend env},
    (∀ i c, cs[i]? = some c → ∀ st' outs, run a.backend env sc (cs.take i) st = .ok (st', outs) → SafeCall a st' c) →
    SafeCalls a sc cs st
  | [], _, _ => trivial
  | c :: cs, st, h => by
    refine ⟨h 0 c rfl st [] rfl, fun st' o hs => Toy.safeCalls_of fun i c' hi st'' outs hr => ?_⟩
    refine h (i + 1) c' hi st'' (o :: outs) ?_
    rw [List.take_succ_cons]
    unfold run
    rw [hs, ok_bind, hr, ok_bind]

/-- Something true of the state a toy history ends in. -/
theorem Toy.after_sat {cs : List (Call a.Sample k)} {p : Params} {st : EstState a.backend Toy.env} {outs : List Out}
    (h : run a.backend Toy.env Toy.seq cs (EstState.fresh a.backend Toy.env p) = .ok (st, outs)) : st = Toy.after a p cs := by
  unfold Toy.after; rw [h]

/-- A history that trains a classifier, evaluates it on new samples, trains it further and predicts. -/
def Toy.safeHistory : List (Call Algo.classic.Sample .classifier) :=
  [.fit Toy.X [0, 1, 2, 1] 0 2, .evaluate Toy.X [1, 1, 1, 1], .partialFit Toy.X [1, 1, 0, 2] 0 1, .predict Toy.X]

theorem Toy.safeHistory_safe : Made .classifier Toy.cParams ∧ StatesOk Algo.classic Toy.cParams ∧ (∀ c ∈ Toy.safeHistory, WellTyped Algo.classic c) ∧
    SafeCalls Algo.classic Toy.seq Toy.safeHistory (EstState.fresh classic Toy.env Toy.cParams) := by
  refine ⟨Toy.cMade, Toy.statesOk_of (N := 3) (by decide +kernel) (by decide), by decide +kernel, Toy.safeCalls_of ?_⟩
  intro i c hi st outs hr
  have hs := Toy.after_sat (a := .classic) hr
  rcases i with _ | _ | _ | _ | i
  · cases hi
    refine ⟨by decide, fun c T hc hT => ?_⟩
    subst hs
    have hc := Toy.int_of (v := 4) (by decide +kernel) hc
    have hT := Toy.int_of (v := 2) (by decide +kernel) hT
    subst hc hT
    refine ⟨fun x hx => ?_, .inr ⟨by decide, by decide⟩⟩
    have : ∀ x ∈ Toy.X, x.length = 3 := by decide
    have : Algo.classic.backend.size x = 3 := this x hx
    rw [this]
    unfold Roomy; decide
  · cases hi
    subst hs
    refine ⟨?_, by decide, fun x hx => ?_⟩
    · show Algo.classic.counters (Toy.after .classic Toy.cParams (Toy.safeHistory.take 1)) ≠ []
      decide +kernel
    · have h1 : ∀ x ∈ Toy.X, (∀ v ∈ x, v = 0#8 ∨ v = 1#8) ∧ x.length = 3 := by decide
      have h2 : (Toy.after .classic Toy.cParams (Toy.safeHistory.take 1)).params.get? "number_of_features" = some (.int 3) := by
        decide +kernel
      obtain ⟨h3, h4⟩ := h1 x hx
      refine ⟨⟨h3, trivial⟩, ?_⟩
      show Params.get? _ _ = some (.int ((List.length x : Nat) : Int))
      rw [h4]; exact h2
  · cases hi
    subst hs
    refine ⟨fun _ => .inr fun labels T hl hT => ?_, fun h => absurd ?_ h⟩
    · have hl := Toy.int_of (v := 3) (by decide +kernel) hl
      have hT := Toy.int_of (v := 2) (by decide +kernel) hT
      subst hl hT
      decide
    · show Algo.classic.counters (Toy.after .classic Toy.cParams (Toy.safeHistory.take 2)) ≠ []
      decide +kernel
  · cases hi; trivial
  · cases hi

/-- Safe training of a bitwise regressor. -/
theorem Toy.br_safe : SafeCall (a := .bitwise) Toy.br (.fitR Toy.XB [0, 1, 2, 1] 2) ∧ SafeCall (a := .bitwise) Toy.br (.partialFitR Toy.XB [0, 1, 2, 1] 2) := by
  have hl : SafeLoss Toy.env Toy.br.params := by
    refine ⟨by decide +kernel, fun T _ => .inr fun x => rfl, fun name c h1 _ => ?_⟩
    have : Toy.br.params.get? "loss_fn" = some (.str "MSE") := by decide +kernel
    rw [this] at h1
    cases h1
    exact ⟨fun h => absurd h (by decide), fun h => absurd h (by decide)⟩
  refine ⟨⟨fun c hc x hx => ?_, .inr hl⟩, .inl Toy.br_fitted, .inr hl⟩
  have hc := Toy.int_of (v := 4) (by decide +kernel) hc
  subst hc
  have : ∀ x ∈ Toy.XB, x.len = 3 := by decide
  have : Algo.bitwise.backend.size x = 3 := this x hx
  rw [this]
  unfold Roomy; decide

/-! Without the conditions there is undefined behaviour. -/

/-- How a run ended. -/
def Toy.ending {α : Type} : Res α → Option UB
  | .ub u => some u
  | _ => none

theorem Toy.ub_of {α : Type} {r : Res α} {u : UB} (h : Toy.ending r = some u) : r = .ub u := by
  cases r <;> simp [Toy.ending] at h
  rw [h]

/-- A classifier with the given threshold. -/
def Toy.thrReq (T : Int) : Request .classifier :=
  .classifierArgs [.threshold T, .clausesPerLabel 4, .states 3, .specificity (.fin 2), .seed 5#32]

/-- **C44**, threshold: with threshold = 2^30 the first training step of a classifier overflows (threshold * 2). -/
theorem C44_threshold_overflows : ∃ p, Made .classifier p ∧ IntParam p "threshold" (2^30) ∧
    fitClassifier classic Toy.env Toy.seq (EstState.fresh classic Toy.env p) Toy.X [0, 1, 1, 0] 0 1 = .ub .overflow :=
  ⟨_, Toy.made_of (Toy.thrReq (2^30)) (by constructor <;> decide +kernel) (by decide +kernel),
    by show Params.get? _ _ = _; decide +kernel, Toy.ub_of (by decide +kernel)⟩

/-- **C44**, sizes: 2^30 labels of 4 clauses are more than an int can count. -/
theorem C44_size_overflows :
    fitClassifier classic Toy.env Toy.seq (EstState.fresh classic Toy.env Toy.cParams) Toy.X [0, 1, 1, 0] (2^30) 0 = .ub .overflow :=
  Toy.ub_of (by decide +kernel)

/-- **C44**, sizes: the matrix for 2^24 labels of 4 clauses and three features has 2^32 items, which as 32-bit unsigned is none,
and the initialisation writes behind it. -/
theorem C44_allocation_wraps :
    fitClassifier classic Toy.env Toy.seq (EstState.fresh classic Toy.env Toy.cParams) Toy.X [0, 1, 1, 0] (2^24) 0 = .ub .oob :=
  Toy.ub_of (by decide +kernel)

/-- **C44**, evaluate: with fewer labels than samples it reads out of bounds (on an estimator that was never fitted it throws,
see C36). -/
theorem C44_evaluate_out_of_bounds : evaluate classic Toy.env Toy.seq Toy.cc Toy.X [0] = .ub .oob :=
  Toy.ub_of (by decide +kernel)

/-- A regressor with the given loss. -/
def Toy.lossReq (name : String) (C1 : Rat) (bm : Bool) : Request .regressor :=
  .regressorArgs [.threshold 2, .regressorClauses 8, .states 3, .specificity (.fin 2), .seed 5#32, .lossFn name, .lossC1 (.fin C1), .boxMuller bm]

/-- **C44**, losses: with the constant 2^40 the loss L1+2 is too large for the number of feedback hits. -/
theorem C44_loss_too_large : ∃ p, Made .regressor p ∧ p.get? "loss_fn" = some (.str "L1+2") ∧ 
    p.get? "loss_fn_C1" = some (.real (.fin (2^40))) ∧
    fitRegressor classic Toy.env Toy.seq (EstState.fresh classic Toy.env p) Toy.X [1, 1, 1, 1] 1 = .ub .floatConv :=
  ⟨_, Toy.made_of (Toy.lossReq "L1+2" (2^40) false) (by constructor <;> decide +kernel) (by decide +kernel),
    by decide +kernel, by decide +kernel, Toy.ub_of (by decide +kernel)⟩

/-- An environment whose every draw is 0x7F00: entry 0 of the radius table, entry 127 of the angle table. -/
def Toy.bmEnv (t : BmTables) : Env := { Toy.env with next := fun g => (0x7F00#32, g), normal := bmNormal id t }

/-- Tables with the values given in the comments of lib/src/box_muller_approx.cpp at the entries the draw selects. -/
def Toy.bmTables : BmTables where
  radius := fun i => if i = 0 then 3331389 / 1000000 else 1
  angle := fun i => if i = 127 then -999925 / 1000000 else 1
  sqrt := id

/-- **C44**, Box-Muller: four clauses, loss 1/2, and a normal deviate of -3.33 give a negative number of feedback hits, whose conversion to
unsigned is undefined. -/
theorem C44_box_muller_undefined : ∃ p, Made .regressor p ∧ p.get? "box_muller" = some (.bool true) ∧
    fitRegressor classic (Toy.bmEnv Toy.bmTables) Toy.seq (EstState.fresh classic (Toy.bmEnv Toy.bmTables) p) Toy.X [1, 1, 1, 1] 1 =
      .ub .floatConv :=
  ⟨_, Toy.made_of (Toy.lossReq "MAE" 0 true) (by constructor <;> decide +kernel) (by decide +kernel),
    by decide +kernel, Toy.ub_of (by decide +kernel)⟩

/-- Tables with nothing in them. -/
def Toy.flatTables : BmTables := ⟨fun _ => 0, fun _ => 0, fun _ => 0⟩

/-- **C44**, Box-Muller: with the loss L1+2 and the constant 4 an error of half the threshold has the loss 5/4, the variance is negative, its
square root not a number, and the conversion of that to unsigned undefined. -/
theorem C44_box_muller_nan : ∃ p, Made .regressor p ∧ p.get? "loss_fn" = some (.str "L1+2") ∧
    p.get? "loss_fn_C1" = some (.real (.fin 4)) ∧ p.get? "box_muller" = some (.bool true) ∧
    fitRegressor classic (Toy.bmEnv Toy.flatTables) Toy.seq (EstState.fresh classic (Toy.bmEnv Toy.flatTables) p) Toy.X [1, 1, 1, 1] 1 =
      .ub .floatConv :=
  ⟨_, Toy.made_of (Toy.lossReq "L1+2" 4 true) (by constructor <;> decide +kernel) (by decide +kernel),
    by decide +kernel, by decide +kernel, by decide +kernel, Toy.ub_of (by decide +kernel)⟩

end Tsetlini
