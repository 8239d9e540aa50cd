import Verif.Instances.Runs
import Verif.Props.Progress
import Verif.Props.Evaluate
namespace Tsetlini
open Spec

/-! ### C64 -/

private abbrev two : List Algo.classic.Sample := ([[1, 0, 1], [0, 1, 0]] : List ClassicSample)
private abbrev moreC := partialFitClassifier Algo.classic.backend Toy.env Toy.seq Toy.perfect two [0, 1] 0 5
private theorem moreC_ok : moreC.isOk = true := by decide +kernel
private theorem perfect_reached : Reached .classic .classifier Toy.perfect :=
  Toy.reached_of (Toy.made_of (.classifierArgs Toy.perfectArgs) (by constructor <;> decide +kernel) (by decide +kernel)) (by decide +kernel) (by decide +kernel)
example := C64_classifier perfect_reached (Toy.statesOk_of (N := 3) (by decide +kernel) (by decide))
  (by show Algo.classic.counters Toy.perfect ≠ []; decide +kernel) ⟨fun _ _ => trivial, by decide⟩ (Toy.ran moreC_ok) (by decide +kernel)
  (T := 1) (n := 3) (Toy.int (by decide +kernel)) (Toy.int (by decide +kernel)) (by decide +kernel) (sc₀ := Toy.seq)
  (by
    intro x t h
    rcases List.mem_cons.1 h with h | h
    · have e1 : x = ([1, 0, 1] : ClassicSample) := congrArg Prod.fst h
      have e2 : t = 0 := by have := congrArg Prod.snd h; exact Int.ofNat.inj this
      subst e1 e2
      refine ⟨[1, -1], Toy.gives_of (by decide +kernel), fun l v hl => ?_⟩
      match l with
      | 0 | 1 => exact (Option.some.inj hl).symm
      | l + 2 => cases hl
    · have h := List.mem_singleton.1 h
      have e1 : x = ([0, 1, 0] : ClassicSample) := congrArg Prod.fst h
      have e2 : t = 1 := by have := congrArg Prod.snd h; exact Int.ofNat.inj this
      subst e1 e2
      refine ⟨[-1, 1], Toy.gives_of (by decide +kernel), fun l v hl => ?_⟩
      match l with
      | 0 | 1 => exact (Option.some.inj hl).symm
      | l + 2 => cases hl)

private abbrev twoB : List Algo.bitwise.Sample := ([⟨3, [3]⟩, ⟨3, [6]⟩] : List BitVector)
private abbrev moreR := partialFitRegressor Algo.bitwise.backend Toy.env Toy.seq Toy.br twoB [1, 0] 4
private theorem moreR_ok : moreR.isOk = true := by decide +kernel
example := C64_regressor Toy.br_reached Toy.br_states Toy.br_fitted
  ⟨by show ∀ x ∈ ([⟨3, [3]⟩, ⟨3, [6]⟩] : List BitVector), x.len ≤ x.blocks.length * 64 ∧ x.blocks.length * 64 ≤ x.len + 64; decide, by decide⟩
  (Toy.ran moreR_ok) (by decide +kernel) (n := 3) (Toy.int (by decide +kernel)) (by decide +kernel) (sc₀ := Toy.seq)
  (by
    intro x v h
    rcases List.mem_cons.1 h with h | h
    · have e1 : x = (⟨3, [3]⟩ : BitVector) := congrArg Prod.fst h
      have e2 : v = 1 := congrArg Prod.snd h
      subst e1 e2
      exact Toy.gives_of (by decide +kernel)
    · have h := List.mem_singleton.1 h
      have e1 : x = (⟨3, [6]⟩ : BitVector) := congrArg Prod.fst h
      have e2 : v = 0 := congrArg Prod.snd h
      subst e1 e2
      exact Toy.gives_of (by decide +kernel))

/-! ### C36 -/

private abbrev labelsCC := (Toy.says (predictClassifier Algo.classic.backend Toy.env Toy.seq Toy.cc Toy.X)).getD []
private theorem cc_labels : Gives (predictClassifier Algo.classic.backend Toy.env Toy.seq Toy.cc Toy.X) labelsCC := Toy.gives_of (by decide +kernel)
example := C36_accuracy Toy.cc_reached Toy.cc_states (X := Toy.X) (fun _ _ => trivial) (y := Toy.y) (by decide) Toy.seq Toy.rev cc_labels
example := C36_range Toy.cc_reached Toy.cc_states (X := Toy.X) (fun _ _ => trivial) (y := Toy.y) (by decide) Toy.seq Toy.rev cc_labels
example := C36_unfitted (a := .classic) (Toy.reached_of (cs := []) Toy.cMade (by decide) (by decide +kernel)) (Toy.statesOk_of (N := 3) (by decide +kernel) (by decide))
  (fun h => h (by decide +kernel)) Toy.X Toy.y Toy.seq
example := C36_empty Toy.bc_reached Toy.bc_states Toy.bc_fitted Toy.y Toy.seq
example := C36_short_labels Toy.cc_reached Toy.cc_states (X := Toy.X) (fun _ _ => trivial) (y := [0, 1]) (by decide) Toy.seq Toy.rev cc_labels

/-! ### C24: new models of the two families with the same seed -/

private abbrev newC := Toy.after .classic Toy.cParams ([.fit Toy.X [0, 1, 2, 1] 0 0] : List (Call Algo.classic.Sample .classifier))
private abbrev newB := Toy.after .bitwise Toy.cParams ([.fit Toy.XB [0, 1, 2, 1] 0 0] : List (Call Algo.bitwise.Sample .classifier))
private theorem newC_reached : Reached .classic .classifier newC := Toy.reached_of Toy.cMade (by decide +kernel) (by decide +kernel)
private theorem newB_reached : Reached .bitwise .classifier newB := Toy.reached_of Toy.cMade (by decide +kernel) (by decide +kernel)
private theorem newC_states : StatesOk .classic newC.params := Toy.statesOk_of (N := 3) (by decide +kernel) (by decide)
private theorem newB_states : StatesOk .bitwise newB.params := Toy.statesOk_of (N := 3) (by decide +kernel) (by decide)
private theorem newC_fitted : Fitted .classic newC := by show Algo.classic.counters newC ≠ []; decide +kernel
private theorem new_same : SameModel newC newB := by
  refine ⟨by decide +kernel, by decide +kernel, ?_⟩
  intro key hk
  simp only [List.mem_cons, List.not_mem_nil, or_false] at hk
  rcases hk with rfl | rfl | rfl | rfl | rfl <;> decide +kernel
private theorem xc_good : Algo.classic.Good Toy.xc := Toy.bytes_good (by decide)
private theorem xb_good : Algo.bitwise.Good Toy.xb := Toy.XB_good _ (List.mem_cons_self ..)
private theorem same_bits : Algo.classic.bits Toy.xc = Algo.bitwise.bits Toy.xb := by decide +kernel
example := C24_outputs newC_reached newB_reached newC_states newB_states new_same (n := 3) (Toy.int (by decide +kernel)) Toy.xb_built xc_good xb_good rfl same_bits (o := 5)
  (by decide +kernel)
example := C24_decision newC_reached newB_reached newC_states newB_states new_same newC_fitted (n := 3) (Toy.int (by decide +kernel)) Toy.xb_built xc_good xb_good rfl same_bits
  Toy.seq Toy.rev
example := C24_predict newC_reached newB_reached newC_states newB_states new_same newC_fitted (n := 3) (Toy.int (by decide +kernel)) Toy.xb_built xc_good xb_good rfl same_bits
  Toy.seq Toy.rev
private abbrev newCR := Toy.after .classic Toy.rParams ([.fitR Toy.X [0, 1, 2, 1] 0] : List (Call Algo.classic.Sample .regressor))
private abbrev newBR := Toy.after .bitwise Toy.rParams ([.fitR Toy.XB [0, 1, 2, 1] 0] : List (Call Algo.bitwise.Sample .regressor))
example := C24_predict_regressor (stc := newCR) (stb := newBR) (Toy.reached_of Toy.rMade (by decide +kernel) (by decide +kernel)) (Toy.reached_of Toy.rMade (by decide +kernel) (by decide +kernel))
  (Toy.statesOk_of (N := 3) (by decide +kernel) (by decide)) (Toy.statesOk_of (N := 3) (by decide +kernel) (by decide))
  (by
    refine ⟨by decide +kernel, by decide +kernel, ?_⟩
    intro key hk
    simp only [List.mem_cons, List.not_mem_nil, or_false] at hk
    rcases hk with rfl | rfl | rfl | rfl | rfl <;> decide +kernel)
  (by show Algo.classic.counters newCR ≠ []; decide +kernel) (n := 3) (Toy.int (by decide +kernel)) Toy.xb_built xc_good xb_good rfl same_bits Toy.seq Toy.rev

end Tsetlini
