import Verif.Instances.Base
import Verif.Props.State
namespace Tsetlini
open Spec

example := C01_counters_in_range Toy.cc_reached Toy.cc_states (N := 3) (Toy.int (by decide +kernel))
example := C01_counters_in_range Toy.br_reached Toy.br_states (N := 3) (Toy.int (by decide +kernel))
example := C03_weights Toy.cc_reached Toy.cc_states (M := 3) (w := true) (Toy.int (by decide +kernel)) (by decide +kernel)
example := C03_weights Toy.br_reached Toy.br_states (M := 3) (w := true) (Toy.int (by decide +kernel)) (by decide +kernel)
example := C23_polarity Toy.bc_reached Toy.bc_states
example := C23_polarity Toy.br_reached Toy.br_states
example := C42_clause_ranges Toy.cc_reached Toy.cc_states Toy.cc_fitted (labels := 3) (clauses := 4) (Toy.int (by decide +kernel))
  (Toy.int (by decide +kernel)) (k := 2) rfl
example := C43_votes_fit Toy.cc_reached Toy.cc_states (fun _ => true) 0 6 (by decide +kernel)
example := C50_cache_alphabets Toy.cc_reached Toy.cc_states (T := 2) (Toy.int (by decide +kernel))
example := C50_cache_alphabets Toy.br_reached Toy.br_states (T := 3) (Toy.int (by decide +kernel))

end Tsetlini
