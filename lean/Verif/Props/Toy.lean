import Verif.Lemmas.Make
/-
A small concrete environment and concrete estimators, used next to the property theorems to
show that their hypotheses are met by non-trivial cases.  Nothing here is modelled code.
-/
namespace Tsetlini.Toy
open Spec

/-- A 32-bit linear congruential generator, exact arithmetic, identity shuffle. -/
def env : Env where
  G := Nat
  seedG := fun s => s.toNat
  next := fun g => (BitVec.ofNat 32 ((g * 1664525 + 1013904223) / 65536), (g * 1664525 + 1013904223) % 4294967296)
  F := Nat
  seedF := fun s => s.toNat
  fnext := fun g => (frngPost id (BitVec.ofNat 32 ((g * 1664525 + 1013904223) / 65536)), (g * 1664525 + 1013904223) % 4294967296)
  fnext_law := fun _ => ⟨_, rfl⟩
  shuffle := fun g n => (List.range n, g)
  shuffle_law := fun _ _ => List.Perm.refl _
  fuel := 200
  tossSwap := false
  rnd := id
  rnd_mono_law := fun _ _ h => h
  rnd_exact_law := fun _ _ _ _ => rfl
  rnd_exact_up_law := fun _ _ _ _ => rfl
  rnd64 := id
  rnd64_mono_law := fun _ _ h => h
  rnd64_exact_law := fun _ _ _ _ => rfl
  rnd64_exact_up_law := fun _ _ _ _ => rfl
  normal := fun m _ _ => some m

/-- Iterations in increasing order. -/
def seq : Sched := ⟨fun _ a b => range a b, fun _ _ _ => List.Perm.refl _⟩

/-- Iterations in decreasing order. -/
def rev : Sched := ⟨fun _ a b => (range a b).reverse, fun _ _ _ => List.reverse_perm _⟩

def machine : Machine := ⟨8, by decide, 77#32⟩

def io : RealIO := ⟨fun q => .fin q, fun _ => "?"⟩

/-- Arguments of the toy classifiers. -/
def cArgs (weighted : Bool) (N : Int) : List Arg :=
  [.threshold 2, .clausesPerLabel 4, .states N, .specificity (.fin 2), .weighted weighted, .maxWeight 3,
   .seed (5#32)]

def rArgs (weighted : Bool) (N : Int) : List Arg :=
  [.threshold 3, .regressorClauses 4, .states N, .specificity (.fin 2), .weighted weighted, .maxWeight 3,
   .seed (5#32)]

/-- The parameters a factory made. -/
def made {k : Kind} (req : Request k) : Params :=
  match make machine io req with
  | .ok (.ok p) => p
  | _ => []

def cParams : Params := made (.classifierArgs (cArgs true 3))
def rParams : Params := made (.regressorArgs (rArgs true 3))

def X : List ClassicSample := [[1, 0, 1], [0, 1, 1], [1, 1, 0], [0, 0, 0]]
def XB : List BitVector := [⟨3, [5]⟩, ⟨3, [6]⟩, ⟨3, [3]⟩, ⟨3, [0]⟩]

def cCalls : List (Call Algo.classic.Sample .classifier) :=
  [.predict1 ([1, 1, 1] : ClassicSample), .fit X [0, 1, 2, 1] 0 2, .predict X, .partialFit X [1, 1, 0, 2] 0 1]

def bCalls : List (Call Algo.bitwise.Sample .classifier) :=
  [.predict1 (⟨3, [7]⟩ : BitVector), .fit XB [0, 1, 2, 1] 0 2, .predict XB, .partialFit XB [1, 1, 0, 2] 0 1]

def crCalls : List (Call Algo.classic.Sample .regressor) :=
  [.predictR1 ([1, 1, 1] : ClassicSample), .fitR X [0, 1, 2, 1] 2, .predictR X, .partialFitR X [1, 1, 0, 2] 1]

def brCalls : List (Call Algo.bitwise.Sample .regressor) :=
  [.predictR1 (⟨3, [7]⟩ : BitVector), .fitR XB [0, 1, 2, 1] 2, .predictR XB, .partialFitR XB [1, 1, 0, 2] 1]

def _root_.Tsetlini.Res.isOk {α : Type} : Res α → Bool
  | .ok _ => true
  | _ => false

/-- The state a history ends in. -/
def after (a : Algo) {k : Kind} (p : Params) (cs : List (Call a.Sample k)) : EstState a.backend env :=
  match run a.backend env seq cs (EstState.fresh a.backend env p) with
  | .ok r => r.1
  | _ => EstState.fresh a.backend env p

theorem made_of {k : Kind} (req : Request k) (ht : ReqTyped req)
    (h : (match make machine io req with | .ok (.ok _) => true | _ => false) = true) : Made k (made req) := by
  refine ⟨machine, io, req, ht, ?_⟩
  unfold made
  cases hm : make machine io req with
  | ok r => cases r with
    | ok p => rfl
    | error e => rw [hm] at h; cases h
  | ub _ => rw [hm] at h; cases h
  | exn _ => rw [hm] at h; cases h
  | timeout => rw [hm] at h; cases h

theorem make_of {k : Kind} {req : Request k}
    (h : (match make machine io req with | .ok (.ok _) => true | _ => false) = true) :
    ∃ p, make machine io req = .ok (.ok p) := by
  cases hm : make machine io req with
  | ok r => cases r with
    | ok p => exact ⟨p, rfl⟩
    | error e => rw [hm] at h; cases h
  | ub _ => rw [hm] at h; cases h
  | exn _ => rw [hm] at h; cases h
  | timeout => rw [hm] at h; cases h

theorem reached_of {a : Algo} {k : Kind} {p : Params} {cs : List (Call a.Sample k)} (hp : Made k p)
    (ht : ∀ c ∈ cs, WellTyped a c)
    (h : (run a.backend env seq cs (EstState.fresh a.backend env p)).isOk = true) : Reached a k (after a p cs) := by
  unfold after
  cases hr : run a.backend env seq cs (EstState.fresh a.backend env p) with
  | ok r => exact .of_run p seq cs r.2 hp ht hr
  | ub _ => rw [hr] at h; cases h
  | exn _ => rw [hr] at h; cases h
  | timeout => rw [hr] at h; cases h

instance (v : Int) : Decidable (IsInt v) := inferInstanceAs (Decidable (_ ∧ _))
instance (tys : List ArgTy) (args : List Arg) : Decidable (Compiles tys args) := by unfold Compiles; infer_instance
instance : DecidablePred ArgTyped := fun x => by unfold ArgTyped; split <;> infer_instance
instance (x : BitVector) : Decidable (Algo.bitwise.Built x) :=
  inferInstanceAs (Decidable (x.len ≤ x.blocks.length * 64 ∧ x.blocks.length * 64 ≤ x.len + 64))
instance (x : ClassicSample) : Decidable (Algo.classic.Built x) := inferInstanceAs (Decidable True)
instance {k : Kind} : DecidablePred (WellTyped Algo.classic (k := k)) := fun c => by
  have : ∀ x : Algo.classic.Sample, Decidable (Algo.classic.Built x) := fun _ => inferInstanceAs (Decidable True)
  unfold WellTyped; cases c <;> (dsimp only; infer_instance)
instance {k : Kind} : DecidablePred (WellTyped Algo.bitwise (k := k)) := fun c => by
  have : ∀ x : Algo.bitwise.Sample, Decidable (Algo.bitwise.Built x) := fun (x : BitVector) =>
    inferInstanceAs (Decidable (x.len ≤ x.blocks.length * 64 ∧ x.blocks.length * 64 ≤ x.len + 64))
  unfold WellTyped; cases c <;> (dsimp only; infer_instance)

theorem cMade : Made .classifier cParams :=
  made_of (.classifierArgs (cArgs true 3)) (by constructor <;> decide +kernel) (by decide +kernel)
theorem rMade : Made .regressor rParams :=
  made_of (.regressorArgs (rArgs true 3)) (by constructor <;> decide +kernel) (by decide +kernel)

/-- A trained classic classifier (3 labels, 3 features, weighted). -/
def cc := after .classic cParams cCalls
/-- A trained bitwise classifier. -/
def bc := after .bitwise cParams bCalls
/-- A trained classic regressor. -/
def cr := after .classic rParams crCalls
/-- A trained bitwise regressor. -/
def br := after .bitwise rParams brCalls

theorem cc_reached : Reached .classic .classifier cc := reached_of cMade (by decide +kernel) (by decide +kernel)
theorem bc_reached : Reached .bitwise .classifier bc := reached_of cMade (by decide +kernel) (by decide +kernel)
theorem cr_reached : Reached .classic .regressor cr := reached_of rMade (by decide +kernel) (by decide +kernel)
theorem br_reached : Reached .bitwise .regressor br := reached_of rMade (by decide +kernel) (by decide +kernel)

theorem statesOk_of {a : Algo} {p : Params} {N : Int} (h : p.get? "number_of_states" = some (.int N))
    (hN : a.minStates ≤ N) : StatesOk a p := by
  intro M hM
  unfold IntParam at hM
  rw [h] at hM
  cases hM; exact hN

theorem cc_states : StatesOk .classic cc.params := statesOk_of (N := 3) (by decide +kernel) (by decide)
theorem bc_states : StatesOk .bitwise bc.params := statesOk_of (N := 3) (by decide +kernel) (by decide)
theorem cr_states : StatesOk .classic cr.params := statesOk_of (N := 3) (by decide +kernel) (by decide)
theorem br_states : StatesOk .bitwise br.params := statesOk_of (N := 3) (by decide +kernel) (by decide)

theorem cc_fitted : Fitted .classic cc := by
  show Algo.classic.counters cc ≠ []; decide +kernel
theorem bc_fitted : Fitted .bitwise bc := by
  show Algo.bitwise.counters bc ≠ []; decide +kernel
theorem cr_fitted : Fitted .classic cr := by
  show Algo.classic.counters cr ≠ []; decide +kernel
theorem br_fitted : Fitted .bitwise br := by
  show Algo.bitwise.counters br ≠ []; decide +kernel

/-! ### Second estimators to compare with -/

theorem agreeBut_of {K : List String} {p p' : Params}
    (h : ∀ key ∈ p.map Prod.fst ++ p'.map Prod.fst, key ∉ K → p'.get? key = p.get? key) : AgreeBut K p p' := by
  intro key hk
  by_cases hm : key ∈ p.map Prod.fst ++ p'.map Prod.fst
  · exact h key hm hk
  · have none_of : ∀ q : Params, key ∉ q.map Prod.fst → q.get? key = none := by
      intro q hq
      unfold Params.get?
      rw [List.lookup_eq_none_iff]
      intro e he
      have : key ≠ e.1 := fun h => hq (h ▸ List.mem_map_of_mem he)
      simpa using this
    rw [List.mem_append, not_or] at hm
    rw [none_of _ hm.1, none_of _ hm.2]

theorem mem_of_lookup {p : Params} {key : String} {v : PVal} (h : p.get? key = some v) : (key, v) ∈ p := by
  induction p with
  | nil => cases h
  | cons e p ih =>
    unfold Params.get? at h ih
    obtain ⟨k, w⟩ := e
    rw [List.lookup_cons] at h
    by_cases hk : (key == k) = true
    · rw [hk] at h; cases h
      rw [eq_of_beq hk]; exact List.mem_cons_self ..
    · rw [Bool.not_eq_true] at hk; rw [hk] at h
      exact List.mem_cons_of_mem _ (ih h)

/-- The toy classifier with one more argument. -/
def cMore (x : Arg) : Request .classifier := .classifierArgs (x :: cArgs true 3)

theorem cJobs_made : Made .classifier (made (cMore (.nJobs 3))) :=
  made_of _ (by constructor <;> decide +kernel) (by decide +kernel)
theorem cTile_made : Made .classifier (made (cMore (.tileSize 64))) :=
  made_of _ (by constructor <;> decide +kernel) (by decide +kernel)
theorem cType_made : Made .classifier (made (cMore (.countingType "int32"))) :=
  made_of _ (by constructor <;> decide +kernel) (by decide +kernel)

theorem run_of {a : Algo} {k : Kind} {sc : Sched} {p : Params} {cs : List (Call a.Sample k)}
    (h : (run a.backend env sc cs (EstState.fresh a.backend env p)).isOk = true) :
    ∃ st outs, run a.backend env sc cs (EstState.fresh a.backend env p) = .ok (st, outs) := by
  cases hr : run a.backend env sc cs (EstState.fresh a.backend env p) with
  | ok r => exact ⟨_, _, rfl⟩
  | ub _ => rw [hr] at h; cases h
  | exn _ => rw [hr] at h; cases h
  | timeout => rw [hr] at h; cases h

theorem run_sat {a : Algo} {k : Kind} {sc : Sched} {p : Params} {cs : List (Call a.Sample k)}
    (P : EstState a.backend env → Prop) [DecidablePred P]
    (h : (match run a.backend env sc cs (EstState.fresh a.backend env p) with
      | .ok r => decide (P r.1)
      | _ => false) = true) :
    ∃ st outs, run a.backend env sc cs (EstState.fresh a.backend env p) = .ok (st, outs) ∧ P st := by
  cases hr : run a.backend env sc cs (EstState.fresh a.backend env p) with
  | ok r => rw [hr] at h; exact ⟨r.1, r.2, rfl, of_decide_eq_true h⟩
  | ub _ => rw [hr] at h; cases h
  | exn _ => rw [hr] at h; cases h
  | timeout => rw [hr] at h; cases h

/-- To check `ProperEvals` it is enough to look at the calls of `evaluate`; here only the last one is. -/
theorem proper_last {a : Algo} {k : Kind} {sc : Sched} {c : Call a.Sample k} :
    ∀ {pre : List (Call a.Sample k)} {st0 : EstState a.backend env},
    (∀ c ∈ pre, ∀ st : EstState a.backend env, ProperEval a st c) →
    (∀ st outs, run a.backend env sc pre st0 = .ok (st, outs) → ProperEval a st c) →
    ProperEvals a sc (pre ++ [c]) st0
  | [], st0, _, h => ⟨h st0 [] rfl, fun _ _ _ => trivial⟩
  | d :: pre, st0, hp, h => by
    refine ⟨hp d (List.mem_cons_self ..) _, fun st' o hs => ?_⟩
    refine proper_last (fun c hc => hp c (List.mem_cons_of_mem _ hc)) fun st outs hr => ?_
    refine h st (o :: outs) ?_
    unfold run
    rw [hs, Res.ok_bind, hr, Res.ok_bind]

/-- 16 features, so that tile 16 takes the batched path and tile 32 the simple one. -/
def X16 : List ClassicSample := [List.replicate 16 0, List.replicate 16 1]
def tileReq (t : Int) : Request .classifier :=
  .classifierArgs [.threshold 2, .clausesPerLabel 4, .states 3, .specificity (.fin 2), .seed 0#32, .tileSize t]
def badEval : List (Call Algo.classic.Sample .classifier) :=
  [.fit X16 [0, 1] 0 8, .evaluate ([List.replicate 16 255#8] : List ClassicSample) [1]]
theorem tile16_made : Made .classifier (made (tileReq 16)) :=
  made_of _ (by constructor <;> decide +kernel) (by decide +kernel)
theorem tile32_made : Made .classifier (made (tileReq 32)) :=
  made_of _ (by constructor <;> decide +kernel) (by decide +kernel)

/-- What the last call returned, if it was evaluate. -/
def lastAccuracy : List Out → Option Fl
  | [] => none
  | [.accuracy (.ok v)] => some v
  | _ :: os => lastAccuracy os

theorem run_acc {a : Algo} {k : Kind} {sc : Sched} {p : Params} {cs : List (Call a.Sample k)} {v : Fl}
    (h : (match run a.backend env sc cs (EstState.fresh a.backend env p) with
      | .ok r => lastAccuracy r.2
      | _ => none) = some v) :
    ∃ st outs, run a.backend env sc cs (EstState.fresh a.backend env p) = .ok (st, outs) ∧ lastAccuracy outs = some v := by
  cases hr : run a.backend env sc cs (EstState.fresh a.backend env p) with
  | ok r => rw [hr] at h; exact ⟨r.1, r.2, rfl, h⟩
  | ub _ => rw [hr] at h; cases h
  | exn _ => rw [hr] at h; cases h
  | timeout => rw [hr] at h; cases h

def nanReq : Request .regressor := .regressorArgs [.threshold 2, .regressorClauses 4, .lossC1 .nan, .seed 0#32]
theorem nan_made : Made .regressor (made nanReq) := made_of _ (by constructor <;> decide +kernel) (by decide +kernel)

/-- Parameters of a bitwise classifier with number_of_states = 1, which the factory accepts. -/
def oneReq (seed : BitVec 32) : Request .classifier :=
  .classifierArgs [.threshold 2, .clausesPerLabel 4, .states 1, .specificity (.fin 2), .seed seed]
def oneState (seed : BitVec 32) (ep : Nat) : EstState Algo.bitwise.backend env :=
  after .bitwise (made (oneReq seed)) [.fit XB [0, 1, 0, 1] 0 ep]

theorem oneState_reached0 : Reached .bitwise .classifier (oneState 0#32 8) :=
  reached_of (made_of (oneReq 0#32) (by constructor <;> decide +kernel) (by decide +kernel))
    (cs := (([.fit XB [0, 1, 0, 1] 0 8] : List (Call Algo.bitwise.Sample .classifier)))) (by decide +kernel) (by decide +kernel)
theorem oneState_reached6 : Reached .bitwise .classifier (oneState 6#32 1) :=
  reached_of (made_of (oneReq 6#32) (by constructor <;> decide +kernel) (by decide +kernel))
    (cs := (([.fit XB [0, 1, 0, 1] 0 1] : List (Call Algo.bitwise.Sample .classifier)))) (by decide +kernel) (by decide +kernel)

/-- Counters and weights after a training call that reported OK. -/
def outcome {B : Backend} (r : Res (EstState B env × Status)) : Option (List (List Int) × List Nat) :=
  match r with
  | .ok (st, s) => if s.code = .ok then some (B.counters st.ta.mat, st.ta.weights) else none
  | _ => none

theorem outcome_ok {B : Backend} {r : Res (EstState B env × Status)} (h : (outcome r).isSome = true) :
    ∃ st s, r = .ok (st, s) ∧ s.code = .ok ∧ outcome r = some (B.counters st.ta.mat, st.ta.weights) := by
  unfold outcome at h ⊢
  cases r with
  | ok q =>
    obtain ⟨st, s⟩ := q
    dsimp only at h ⊢
    by_cases hc : s.code = .ok
    · exact ⟨st, s, rfl, hc, by rw [if_pos hc]⟩
    · rw [if_neg hc] at h; cases h
  | ub _ => cases h
  | exn _ => cases h
  | timeout => cases h

end Tsetlini.Toy
