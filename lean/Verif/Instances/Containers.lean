import Verif.Instances.Runs
import Verif.Props.Alloc
import Verif.Props.Bits
import Verif.Props.Aligned
import Verif.Props.BitOutputs
import Verif.Props.Unused
import Verif.Props.Light
import Verif.Props.Left
namespace Tsetlini
open Spec

/-! ### C37, C39 -/

example := C39_numeric_exact (item := 4) (rows := 6) (cols := 49) (by decide) (by decide) (by decide) (by decide) (by decide)
example := C39_bits_exact (rows := 6) (cols := 600) (by decide) (by decide) (by decide) (by decide)
example := C39_initialize_classic (env := Toy.env) .int16 (rows := 6) (cols := 70) (5 : Nat) (by decide) (by decide) (by decide) (by decide)
example := C39_initialize_bitwise (env := Toy.env) .int16 (rows := 6) (cols := 70) (5 : Nat) (by decide) (by decide) (by decide) (by decide)
example := C37_new 70 [5]
example := C37_content (.ofLen 70)
example := C37_vector [5, 7] 69 true (by decide)
example := C37_matrix (rows := 3) (cols := 600) (by decide) (by decide) (by decide)
example := (C37_matrix (rows := 3) (cols := 600) (by decide) (by decide) (by decide)).2 _ .new 1 599 (by decide) (by decide)
example := C39_numeric (item := 2) (rows := 8) (cols := 130) (by decide) (by decide) (by decide) (by decide)
example := C39_bits (rows := 3) (cols := 600) (by decide) (by decide) (by decide) .new

/-! ### C25, C38, C49 -/

example := C49_is_power_of_two 64
example := C25_classifier Toy.bc_reached Toy.bc_states Toy.bc_fitted (nf := 3) (Toy.int (by decide +kernel)) Toy.rev
example := C25_regressor Toy.br_reached Toy.br_states Toy.br_fitted (nf := 3) (Toy.int (by decide +kernel)) Toy.rev
example := C38_from_range ((List.range 70).map fun i => i % 3 == 0)
example := C38_accepted Toy.bc_reached Toy.bc_states Toy.bc_fitted [true, false, true] (Toy.int (by decide +kernel)) Toy.rev
example := C38_accepted_regressor Toy.br_reached Toy.br_states Toy.br_fitted [true, false, true] (Toy.int (by decide +kernel)) Toy.rev

/-! ### C58 -/

private abbrev arr (addr : BitVec 64) (b : Byte) := AlignedArray.new 16#64 addr (List.replicate 27 b)
private theorem placed : (arr 1001#64 7#8).Placed 4 3 4 := ⟨by decide, rfl, by decide, by decide⟩
private theorem placed' : (arr 2050#64 9#8).Placed 4 3 4 := ⟨by decide, rfl, by decide, by decide⟩
example := C58_allocate 8#64 (BitVec.ofNat 64 (2 ^ 61)) (by decide)
example := C58_data placed
example := C58_elements placed (pos := 2) (by decide)
example := C58_assign placed placed'
example := C58_copy placed (addr := 3000#64) (mem := List.replicate 27 1#8) (by decide) (by decide)
example := C58_eq placed placed'

/-! ### C57 -/

private theorem outs6 : ∀ o, 0 ≤ o → o < 6 → bitwise.clauseOut .t16 Toy.bc.ta.mat o ⟨3, [5#64]⟩ = .ok (decide (2 ≤ o)) := by
  have : ∀ o, o < 6 → bitwise.clauseOut .t16 Toy.bc.ta.mat o ⟨3, [5#64]⟩ = .ok (decide (2 ≤ o)) := by decide +kernel
  exact fun o _ h => this o h
private abbrev team : BitRegion Block Block := ⟨[⟨[0, 2, 5], none⟩, ⟨[3, 1, 4], none⟩], [0#64]⟩
private abbrev solo : BitRegion Block Block := ⟨[⟨[0, 2, 5, 3, 1, 4], none⟩, ⟨[], none⟩], [0#64]⟩
private theorem team_of : BitTeamOf 0 6 [0#64] team := ⟨rfl, by simp, by decide⟩
private theorem solo_of : BitTeamOf 0 6 [0#64] solo := ⟨rfl, by simp, by decide⟩
private theorem solo_apart : Apart solo := by
  intro i j ti tj hij hi hj o ho p hp
  match i, j with
  | 0, 0 => exact absurd rfl hij
  | 0, 1 => simp at hj; subst hj; simp at hp
  | 1, _ => simp at hi; subst hi; simp at ho
  | (k + 2), _ => simp at hi
  | 0, (k + 2) => simp at hj
example := C57_sequential outs6 (out := [0#64]) (by decide)
example := C57_by_value (t := .t16) (M := Toy.bc.ta.mat) (X := ⟨3, [5#64]⟩) (n := 6) (out := [0#64]) (w := fun o => (((bitwise.clauseOutPruned .t16 Toy.bc.ta.mat o ⟨3, [5#64]⟩ : Res Bool)) matches .ok true))
  (by decide +kernel) (by decide)
example := C57_apart outs6 (by decide) solo_of solo_apart
example := C57_race outs6 (by decide) team_of
example := C57_lost outs6 (by decide) team_of (i := 0) (j := 1) (o := 5) (p := 4) (by decide) rfl rfl (by simp) (by simp) (by decide) (by decide)

/-! ### C69 -/

example := C69_weights_of_one (a := .classic) (env := Toy.env) Toy.cOne_made Toy.cOff_made (Toy.agreeBut_of (by decide +kernel)) (.inr (by show Params.get? _ _ = _; decide +kernel)) (.inl (by decide +kernel))
  (Toy.statesOk_of (N := 3) (by decide +kernel) (by decide)) Toy.seq Toy.rev Toy.cCalls (by decide +kernel) (ran! (run Algo.classic.backend Toy.env Toy.seq Toy.cCalls (EstState.fresh Algo.classic.backend Toy.env Toy.cOne)))

/-! ### C61 -/

example := C61_returns (k := .classifier) Toy.gio Toy.bc (save .classic .classifier Toy.gio Toy.cc)
example := C61_left (k := .classifier) Toy.gio Toy.bc (save .classic .classifier Toy.gio Toy.cc) .jsonError
example := C61_automata_unreadable (k := .classifier) Toy.gio Toy.bc (save .classic .classifier Toy.gio Toy.cc) (by
  intro ta h
  have : (((save .classic .classifier Toy.gio Toy.cc).at' "ta_state").bind (Algo.io .bitwise).ofJ).isOk = false := by decide +kernel
  rw [h] at this
  cases this)
example := C61_classic_as_bitwise Toy.gio_faithful Toy.cc_reached Toy.cc_states Toy.cc_fitted Toy.bc
example := C61_regressor_as_classifier Toy.gio_faithful Toy.br_reached Toy.br_states Toy.br_fitted (by decide +kernel) Toy.bc _ rfl
example := C61_classifier_as_regressor Toy.gio_faithful Toy.cc_reached Toy.cc_states Toy.cc_fitted (by decide +kernel) Toy.cr _ rfl
example := C61_recovers Toy.gio_faithful Toy.cc_reached Toy.cc_states Toy.cc_fitted (Toy.floats_of (by decide +kernel)) Toy.plain Toy.noParams

/-! ### C56 -/

private abbrev rows : ClauseRows :=
  ⟨List.replicate 64 (-1) ++ [0, 1], List.replicate 66 (-3), [0#64, 3#64, 0#64, 0#64, 0#64, 0#64, 0#64, 0#64], List.replicate 8 0#64⟩
private theorem mirror {row : List Int} {p : List (BitVec 64)} (hl : row.length ≤ 64 * p.length)
    (h : ∀ f < 64 * p.length, bitAt p f = true ↔ ∃ c ∈ row[f]?, 0 ≤ c) : Mirrors row p := by
  intro f
  by_cases hf : f < 64 * p.length
  · simpa using h f hf
  · have h1 : bitAt p f = false := by
      unfold bitAt
      rw [List.getD_eq_getElem?_getD, List.getElem?_eq_none (by omega)]
      exact BitVec.getLsbD_zero
    have h2 : row[f]? = none := List.getElem?_eq_none (by omega)
    rw [h1, h2]
    simp
private theorem rows_ok : ClauseOk 3 66 8 rows where
  wf := ⟨by decide, by decide, by unfold InRange; decide, by unfold InRange; decide⟩
  room := by decide
  posBlocks := rfl
  negBlocks := rfl
  posMirror := mirror (by decide) (by decide +kernel)
  negMirror := mirror (by decide) (by decide +kernel)
private abbrev x66 : BitVector := ⟨66, [0xF0F0#64, 2#64]⟩
example := C56_weaken (ct := .int8) (by decide) (by decide) rows_ok (tp := List.replicate 66 true) (tn := List.replicate 66 false) (by decide) (by decide)
example := C56_weaken_bits (ct := .int8) (by decide) (by decide) rows_ok (tp := [1#64, 3#64]) (tn := [0#64, 2#64]) (by decide) (by decide)
example := C56_strengthen_bits (ct := .int8) (by decide) (by decide) (X := x66) (by decide) rows_ok true (tp := [1#64, 3#64]) (tn := [0#64, 2#64]) (by decide) (by decide)
example := C56_strengthen_same (ct := .int8) (by decide) (by decide) (X := x66) (by decide) rows_ok false (tp := [1#64, 3#64]) (tn := [0#64, 2#64]) (by decide) (by decide)
example := C56_contradict_same (ct := .int8) (by decide) (by decide) (X := x66) (by decide) rows_ok

end Tsetlini
