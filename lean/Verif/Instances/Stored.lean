import Verif.Instances.Runs
import Verif.Props.Saved
import Verif.Props.Loaded
import Verif.Props.Settings
import Verif.Props.Canonical
namespace Tsetlini
open Spec

private theorem cc_floats : FloatsOk Toy.env.rnd Toy.cc.params := Toy.floats_of (by decide +kernel)
private theorem br_floats : FloatsOk Toy.env.rnd Toy.br.params := Toy.floats_of (by decide +kernel)

/-! ### C30, C31, C51 -/

example := C30_round_trip Toy.gio_faithful Toy.cc_reached Toy.cc_states Toy.cc_fitted cc_floats Toy.cc
example := C30_round_trip Toy.gio_faithful Toy.br_reached Toy.br_states Toy.br_fitted br_floats (EstState.fresh _ _ Toy.rParams)
example := C31_unfitted (a := .classic) Toy.gio_faithful (Reached.of_run _ Toy.seq [] [] Toy.cMade (fun _ h => nomatch h) rfl)
  (Toy.statesOk_of (N := 3) (by decide +kernel) (by decide)) (fun h => h rfl) Toy.cc
example := C51_bitwise_as_classic Toy.gio_faithful Toy.br_reached Toy.br_states Toy.br_fitted br_floats Toy.cr
example := C51_classic_as_bitwise Toy.gio_faithful Toy.cc_reached Toy.cc_states Toy.cc_fitted Toy.bc
example := C51_regressor_as_classifier Toy.gio_faithful Toy.br_reached Toy.br_states Toy.br_fitted Toy.bc
example := C51_classifier_as_regressor Toy.gio_faithful Toy.cc_reached Toy.cc_states Toy.cc_fitted (by decide +kernel) Toy.cr

/-! ### C80 -/

example := C80_fit_together Toy.cc_reached Toy.cc_states Toy.cc_fitted
example := C80_saved Toy.gio_faithful Toy.cc_reached Toy.cc_states Toy.cc_fitted cc_floats Toy.cc
example := C80_bitwise_as_classic Toy.gio_faithful Toy.br_reached Toy.br_states Toy.br_fitted br_floats Toy.cr

/-! ### C81 -/

private theorem tile64 : Setting .classic .classifier Toy.cc "clause_output_tile_size" (.unsigned 64) (.int 64) := .tileSize (by decide)
private theorem weight50 : Setting .classic .classifier Toy.cc "max_weight" (.unsigned 50) (.int 50) := .maxWeight (by decide) (by decide) (by decide +kernel)
private abbrev ask : List (Call Algo.classic.Sample .classifier) := [.predict Toy.X, .decision Toy.X]
private abbrev learn : List (Call Algo.classic.Sample .classifier) := [.partialFit Toy.X Toy.y 0 2, .decision Toy.X]
private theorem ask_proper : ProperEvals .classic Toy.seq ask Toy.cc := ⟨trivial, fun _ _ _ => ⟨trivial, fun _ _ _ => trivial⟩⟩
private theorem learn_proper : ProperEvals .classic Toy.seq learn Toy.cc := ⟨trivial, fun _ _ _ => ⟨trivial, fun _ _ _ => trivial⟩⟩
private def tiled := C81_changed Toy.gio_faithful Toy.cc_reached Toy.cc_states Toy.cc_fitted cc_floats tile64 Toy.cc
private def weighed := C81_changed Toy.gio_faithful Toy.cc_reached Toy.cc_states Toy.cc_fitted cc_floats weight50 Toy.cc
private theorem states_of {p p' : Params} (h : AgreeBut ["max_weight"] p p') (hs : StatesOk .classic p) : StatesOk .classic p' := by
  have e2 := h "number_of_states" (by decide)
  unfold StatesOk IntParam at hs ⊢
  rw [e2]
  exact hs
private abbrev asked := run Algo.classic.backend Toy.env Toy.seq ask Toy.cc
private abbrev learned := run Algo.classic.backend Toy.env Toy.seq learn Toy.cc
private theorem asked_ok : asked.isOk = true := by decide +kernel
private theorem learned_ok : learned.isOk = true := by decide +kernel
example := tiled.imp fun _ h => C81_quiet Toy.cc_reached h.2.1 Toy.cc_states (K := ["clause_output_tile_size"]) (by decide) h.2.2.2.2.2 h.2.2.2.1
  Toy.seq Toy.rev learn (by decide +kernel) (.inr learn_proper) (Toy.ran learned_ok)
example := tiled.imp fun _ h => C81_changed_quietly Toy.gio_faithful Toy.cc_reached Toy.cc_states Toy.cc_fitted cc_floats tile64 (by decide) h.1
  Toy.seq Toy.rev learn (by decide +kernel) (.inr learn_proper) (Toy.ran learned_ok)
example := weighed.imp fun _ h => C81_changed_predicts Toy.gio_faithful Toy.cc_reached Toy.cc_states Toy.cc_fitted cc_floats weight50 (by decide) h.1
  (states_of h.2.2.2.2.2 Toy.cc_states) Toy.seq Toy.rev ask (by decide +kernel) (by
    intro c hc
    simp only [ask, List.mem_cons, List.not_mem_nil, or_false] at hc
    rcases hc with rfl | rfl <;> trivial) ask_proper (Toy.ran asked_ok)

/-! ### C79 -/

private theorem cc_floats32 : ∀ key v, Toy.cc.params.get? key = some (.real v) → IsFloat v := Toy.floats32_of (by decide +kernel)
example := C79_again Toy.gdoc_faithful Toy.cc_reached Toy.cc_states Toy.cc_fitted cc_floats cc_floats32 Toy.cc
example := C79_identifies Toy.gdoc_faithful Toy.cc_reached Toy.cc_reached Toy.cc_states Toy.cc_states Toy.cc_fitted Toy.cc_fitted cc_floats cc_floats cc_floats32 cc_floats32
example := C79_readers (a := .classic) (k := .classifier) Toy.gdoc (c := .predict Toy.X) trivial (ran! (step Algo.classic.backend Toy.env Toy.seq (.predict Toy.X : Call Algo.classic.Sample .classifier) Toy.cc))

end Tsetlini
