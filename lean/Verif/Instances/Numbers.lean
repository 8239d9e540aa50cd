import Verif.Instances.Runs
import Verif.Props.Hits
import Verif.Props.Loss
import Verif.Props.Generator
import Verif.Props.Frand
import Verif.Props.Safety
namespace Tsetlini
open Spec

/-! ### C48 -/

example : Nearest (-5/2) (-3) := (C48_rounding _ _).1 (by decide +kernel)
example := C48_hits Toy.env false 2 (.fin (4/9)) (5 : Nat)
private theorem one_hit : Hits Toy.env false 2 (.fin (4/9)) 1 := by
  show (_ ∧ _ ∧ _)
  refine ⟨fun _ => by decide +kernel, fun h => absurd h (by decide +kernel), fun h => absurd h (by decide +kernel)⟩
example := C48_hits_bounded one_hit
example := C48_step Toy.br_reached Toy.br_states Toy.br_fitted Toy.xb_built (y := 3) (by decide) Toy.br_settings (bm := false) (name := "MSE")
  (C1 := .fin 0) (by decide +kernel) (by decide +kernel) (by decide +kernel) (Toy.ran Toy.stepBR_ok) (by decide +kernel)

/-! ### C45 -/

private theorem quarter : UnitC1 "L1+2" (.fin (1/4)) := fun _ => ⟨_, rfl, by decide +kernel, by decide +kernel⟩
private theorem real_symmetric (u : Unspecified) : Symmetric (realEnv u) := fun x => rne_neg x
example (u : Unspecified) := C45_attainable_errors (env := realEnv u) (T := 15) (r := 3) (y := 9) (by decide) (.inl (by decide)) (by decide) (by decide)
example (u : Unspecified) := C45_range (env := realEnv u) rfl (name := "L1+2") (by decide) quarter (fun c hc => by cases hc; decide +kernel)
  (x := -3/4) (by decide +kernel) (by decide +kernel)
example := C45_range_any_rounding (env := Toy.env) (name := "L1+2") (by decide) quarter (x := -3/4) (by decide +kernel) (by decide +kernel)
example := C45_zero (env := Toy.env) (name := "L1+2") (.inl (by decide)) quarter (fun h => absurd h (by decide))
example := C45_zero (env := Toy.env) (name := "berHu") (.inr rfl) (C1 := .fin (1/2)) (fun h => absurd h (by decide)) (fun _ => ⟨_, rfl, by decide +kernel⟩)
example (u : Unspecified) := C45_even (real_symmetric u) (C45_berHu_negative u).2.1
example (u : Unspecified) := C45_monotone (real_symmetric u) (name := "L1+2") (by decide) quarter (x := -1/3) (y := 3/4) (by decide +kernel)

/-! ### C41 -/

private def buf {V : Type} (zero : V) : Mt V := ⟨17, List.replicate 4992 zero, List.replicate 4992 0#32⟩
example := C41_draws irngPost 0#32 (buf 0#32) List.length_replicate List.length_replicate 5489#32 100000
example := C41_frng rne32 (buf 0#32) (buf 0) List.length_replicate List.length_replicate List.length_replicate List.length_replicate 5489#32 100000
example := C41_frng_range 0xFFFFFFFF#32
example (u : Unspecified) := C41_env u 5489#32 100000

/-! ### C55 -/

private abbrev count (n : Nat) : Nat × Nat := (n, n + 1)
example := C55_fresh count 10 0 3 [.refill, .next, .next, .refill, .next, .next, .next] (by simp [Enough])
example := C55_exhausted count 10 0 3 [.refill, .next, .next, .next, .next] (by simp [Enough])

/-! ### C44 -/

private theorem c_states : StatesOk Algo.classic Toy.cParams := Toy.safeHistory_safe.2.1
example := C44_new_defined (env := Toy.env) Toy.cMade c_states Toy.seq Toy.safeHistory Toy.safeHistory_safe.2.2.1 Toy.safeHistory_safe.2.2.2
example := C44_history_defined (Reached.of_run _ Toy.seq [] [] Toy.cMade (fun _ h => nomatch h) rfl) c_states Toy.seq Toy.safeHistory
  Toy.safeHistory_safe.2.2.1 Toy.safeHistory_safe.2.2.2
example := C44_call_defined Toy.br_reached Toy.br_states Toy.rev (.fitR Toy.XB [0, 1, 2, 1] 2) ⟨Toy.XB_built, by decide⟩ Toy.br_safe.1
example := C44_call_defined Toy.br_reached Toy.br_states Toy.rev (.partialFitR Toy.XB [0, 1, 2, 1] 2) ⟨Toy.XB_built, by decide⟩ Toy.br_safe.2

end Tsetlini
