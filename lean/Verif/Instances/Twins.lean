import Verif.Instances.Base
import Verif.Props.Twins
import Verif.Props.Evaluate
import Verif.Props.Stuck
namespace Tsetlini
open Spec

/-- A history with all methods; its only `evaluate` is the last call. -/
private def calls : List (Call Algo.classic.Sample .classifier) :=
  [.predict1 ([1, 1, 1] : ClassicSample), .fit Toy.X [0, 1, 2, 1] 0 2, .predict Toy.X, .partialFit Toy.X [1, 1, 0, 2] 0 1, .decision Toy.X]
private theorem calls_typed : ∀ c ∈ calls, WellTyped .classic c := by decide +kernel
private theorem calls_ran : (run Algo.classic.backend Toy.env Toy.seq calls (EstState.fresh Algo.classic.backend Toy.env Toy.cParams)).isOk = true := by decide +kernel
private theorem cParams_states : StatesOk .classic Toy.cParams := Toy.statesOk_of (N := 3) (by decide +kernel) (by decide)

example := C06_jobs_and_schedules Toy.cMade Toy.cJobs_made (Toy.agreeBut_of (by decide +kernel)) cParams_states Toy.seq Toy.rev calls calls_typed
  (Toy.ran calls_ran)

private theorem calls_proper : ProperEvals .classic Toy.seq (calls ++ [.evaluate Toy.X [0, 1, 2, 1]]) (EstState.fresh Algo.classic.backend Toy.env Toy.cParams) := by
  refine Toy.proper_last ?_ ?_
  · intro c hc
    simp only [calls, List.mem_cons, List.not_mem_nil, or_false] at hc
    rcases hc with h | h | h | h | h <;> rw [h] <;> exact fun _ => trivial
  · intro st outs h
    rw [Toy.ran calls_ran] at h
    have e : (Toy.val _ calls_ran).1 = st := congrArg Prod.fst (Res.ok.inj h)
    rw [← e]
    intro x hx
    exact ⟨Toy.X_good x hx, by
      have h3 : ∀ x ∈ Toy.X, x.length = 3 := by decide
      show Params.get? _ _ = some (.int ((List.length x : Nat) : Int))
      rw [h3 x hx]
      decide +kernel⟩

private theorem both_ran (p : Params) (h : p = Toy.cParams ∨ p = Toy.made (Toy.cMore (.countingType "int32"))) :
    (run Algo.classic.backend Toy.env Toy.seq (calls ++ [.evaluate Toy.X [0, 1, 2, 1]]) (EstState.fresh Algo.classic.backend Toy.env p)).isOk = true := by
  rcases h with h | h <;> rw [h] <;> decide +kernel

private theorem all_typed : ∀ c ∈ calls ++ [.evaluate Toy.X [0, 1, 2, 1]], WellTyped .classic c := by decide +kernel

example := C05_tile_size Toy.cMade Toy.cTile_made (Toy.agreeBut_of (by decide +kernel)) cParams_states Toy.seq Toy.rev _ all_typed calls_proper
  (Toy.ran (both_ran _ (.inl rfl)))
example := C02_never_wraps Toy.bc_reached Toy.bc_states
example := C02_never_wraps Toy.cr_reached Toy.cr_states
example := C02_counting_type Toy.cMade Toy.cType_made (Toy.agreeBut_of (by decide +kernel)) cParams_states Toy.seq Toy.seq _ all_typed calls_proper
  (Toy.ran (both_ran _ (.inl rfl))) (Toy.ran (both_ran _ (.inr rfl)))
/-- C17 on machines with 8 and with 2 threads. -/
example := C17_reproducible (a := .classic) (env := Toy.env) (m := ⟨8, by decide, 77#32⟩) (m' := ⟨2, by decide, 99#32⟩) (io := Toy.io)
  (req := .classifierArgs (Toy.cArgs true 3)) (by constructor <;> decide +kernel) (p := Toy.cParams)
  (p' := Toy.cParams.map fun e => if e.1 = "n_jobs" then (e.1, .int 2) else e)
  (by
    have h : (match make ⟨8, by decide, 77#32⟩ Toy.io (.classifierArgs (Toy.cArgs true 3)) with
      | .ok (.ok p) => decide (p = Toy.cParams) | _ => false) = true := by decide +kernel
    split at h
    · rename_i e; rw [e, of_decide_eq_true h]
    · cases h)
  (by
    have h : (match make ⟨2, by decide, 99#32⟩ Toy.io (.classifierArgs (Toy.cArgs true 3)) with
      | .ok (.ok p) => decide (p = Toy.cParams.map fun e => if e.1 = "n_jobs" then (e.1, .int 2) else e) | _ => false) = true := by decide +kernel
    split at h
    · rename_i e; rw [e, of_decide_eq_true h]
    · cases h)
  (by decide +kernel) cParams_states Toy.seq Toy.rev calls calls_typed (Toy.ran calls_ran)
example := C17_same_parameters (a := .classic) (env := Toy.env) Toy.cMade cParams_states

private abbrev reads : Res (EstState classic Toy.env × Out) := step classic Toy.env Toy.seq (k := .classifier) (.predict1 [1, 1, 1]) Toy.cc
private theorem reads_ok : reads.isOk = true := by decide +kernel
example := C11_readers_change_nothing (a := .classic) (k := .classifier) Toy.cc Toy.seq (.predict1 ([1, 1, 1] : ClassicSample)) trivial (Toy.ran reads_ok)
example := C11_readers_unobservable (a := .classic) (k := .classifier) Toy.cc_reached Toy.cc_states Toy.seq (.predict1 ([1, 1, 1] : ClassicSample)) trivial trivial
  (Toy.ran reads_ok)
/-- Two estimators that differ in the caches, as only one of them has predicted. -/
example := C11_cache_unobservable (a := .classic) (k := .classifier) Toy.cc_reached
  (Toy.reached_snoc Toy.cMade (cs := Toy.cCalls) (by decide +kernel) (c := .predict1 ([1, 1, 1] : ClassicSample)) trivial (by decide +kernel) (Toy.ran reads_ok)) Toy.cc_states
  (by
    have h := (C11_readers_change_nothing (a := .classic) (k := .classifier) Toy.cc Toy.seq (.predict1 ([1, 1, 1] : ClassicSample)) trivial (Toy.ran reads_ok)).1
    rw [h]; exact fun _ _ => rfl)
  (C11_readers_change_nothing (a := .classic) (k := .classifier) Toy.cc Toy.seq (.predict1 ([1, 1, 1] : ClassicSample)) trivial (Toy.ran reads_ok)).2

private theorem cc_noNaN : NoNaN Toy.cc.params := by
  have h : ∀ e ∈ Toy.cc.params, e.2 ≠ .real .nan := by decide +kernel
  exact fun key hk => h _ (Toy.mem_of_lookup hk) rfl
example := C40_clone_equal (a := .classic) (k := .classifier) Toy.cc cc_noNaN

example := C40_equal_states_agree (a := .classic) (k := .classifier) (st := Toy.cc.clone) (st' := Toy.cc) Toy.cc_reached Toy.cc_reached Toy.cc_states
  (C40_clone_equal (a := .classic) (k := .classifier) Toy.cc cc_noNaN)

private def both : List (Bool × Call Algo.classic.Sample .classifier) :=
  [(true, .partialFit Toy.X [0, 1, 2, 1] 0 1), (false, .predict Toy.X), (true, .decision Toy.X), (false, .partialFit Toy.X [1, 1, 0, 2] 0 1), (false, .decision Toy.X)]
private abbrev bothRan := runTwo Algo.classic.backend Toy.env Toy.seq both Toy.cc Toy.cc.clone
private theorem both_ok : bothRan.isOk = true := by decide +kernel
example := C40_independent (a := .classic) Toy.seq both Toy.cc rfl
  (show bothRan = .ok ((Toy.val _ both_ok).1, (Toy.val _ both_ok).2.1, (Toy.val _ both_ok).2.2) from Toy.val_eq both_ok)

end Tsetlini
