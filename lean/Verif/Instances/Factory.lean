import Verif.Instances.Runs
import Verif.Props.Factory
import Verif.Props.Tosses
namespace Tsetlini
open Spec

private abbrev givenArgs : List Arg := [.seed 7#32, .clausesPerLabel 8, .specificity (.fin (5/2))]
private abbrev givenArgs' : List Arg := [.clausesPerLabel 8, .specificity (.fin (5/2)), .seed 7#32]
private abbrev badArgs : List Arg := [.clausesPerLabel 7]
private abbrev given : List (String × JVal) := [("loss_fn", .str "berHu"), ("threshold", .unsigned 20)]

private theorem given_ok : ∀ e ∈ given, MemberOk e.1 e.2 := by
  intro e he
  simp only [List.mem_cons, List.not_mem_nil, or_false] at he
  rcases he with rfl | rfl
  · exact memberOk_str (by decide) trivial
  · exact memberOk_int (by decide) trivial trivial

private theorem args_typed : ReqTyped (Request.classifierArgs givenArgs) := by constructor <;> decide +kernel
private theorem bad_typed : ReqTyped (Request.classifierArgs badArgs) := by constructor <;> decide +kernel
private theorem given_typed : ReqTyped (Request.regressorJson (.ok (.obj given))) := by
  intro l hl
  cases hl
  decide

private theorem argsReq : ∃ r, Requests Toy.io (Request.classifierArgs givenArgs) r := ⟨_, .classifierArgs (requestedC _)⟩
private theorem badReq : ∃ r, Requests Toy.io (Request.classifierArgs badArgs) r := ⟨_, .classifierArgs (requestedC _)⟩
private theorem givenReq : ∃ r, Requests Toy.io (Request.regressorJson (.ok (.obj given))) r := ⟨_, .regressorJson given_ok⟩

private theorem made {k : Kind} {req : Request k} (h : (match make Toy.machine Toy.io req with | .ok (.ok _) => true | _ => false) = true) :
    ∃ p, make Toy.machine Toy.io req = .ok (.ok p) := Toy.make_of h

example := argsReq.imp fun _ h => C47_first_failure h args_typed Toy.machine
example := badReq.imp fun _ h => C47_first_failure h bad_typed Toy.machine
example := givenReq.imp fun _ h => C47_first_failure h given_typed Toy.machine
example := argsReq.imp fun _ h => C26_accepts_exactly h args_typed Toy.machine
example := givenReq.imp fun _ h => C26_accepts_exactly h given_typed Toy.machine
private theorem bad_not {r : ParamSet} (h : Requests Toy.io (Request.classifierArgs badArgs) r) : ¬ Acceptable .classifier r := by
  intro ha
  obtain ⟨p, hp⟩ := (C26_accepts_exactly h bad_typed Toy.machine).2 ha
  have : (match make Toy.machine Toy.io (Request.classifierArgs badArgs) with | .ok (.ok _) => true | _ => false) = false := by decide +kernel
  rw [hp] at this
  cases this
example := badReq.imp fun _ h => C26_rejects h bad_typed Toy.machine (bad_not h)
example := C26_args_always_request (io := Toy.io) .classifier givenArgs

example := argsReq.imp fun _ h => (made (req := Request.classifierArgs givenArgs) (by decide +kernel)).imp fun _ hp => C28_values h args_typed hp
example := argsReq.imp fun _ h => (made (req := Request.classifierArgs givenArgs) (by decide +kernel)).imp fun _ hp => C29_concrete h args_typed hp
example : ∃ p : Params, p.get? "box_muller" = none :=
  (made (req := Request.args .classifier givenArgs) (by decide +kernel)).imp fun _ hp => C28_args_nothing_else hp (key := "box_muller") (by decide +kernel)
example :=
  (made (req := Request.json .regressor (.ok (.obj given))) (by decide +kernel)).imp fun _ hp =>
    C28_json_nothing_else (by decide) hp (key := "number_of_features") (by decide +kernel) (by decide)

example := C27_not_an_object .classifier Toy.machine Toy.io (doc := .ok (.unsigned 3)) (by intro l h; cases h)
example := C27_not_an_object .classifier Toy.machine Toy.io (doc := .error "syntax error") (by intro l h; cases h)
example := C27_first_fault .regressor Toy.machine Toy.io (post := [("weighted", .null)]) given_ok Toy.faults.1
example := C27_first_fault .regressor Toy.machine Toy.io (post := []) given_ok Toy.faults.2.1
example := C27_first_fault .classifier Toy.machine Toy.io (post := []) given_ok Toy.faults.2.2
example := C27_never_an_estimator .regressor Toy.machine Toy.io (l := given ++ [("threshold", .str "15")]) (by simp) Toy.faults.2.1
example := C27_faultless_requests .regressor Toy.io given_ok
example := C46_factory_order .classifier Toy.machine Toy.io (args := givenArgs) (args' := givenArgs') (by decide +kernel) args_typed
example := C46_fit_order (args := [.maxLabels 3, .epochs 5]) (args' := [.epochs 5, .maxLabels 3]) (by decide) (by constructor <;> decide)
example := C46_fit_values (args := [.maxLabels 3, .epochs 5]) (by constructor <;> decide) 3 5

/-! ### C32 -/

private abbrev ct7 : CoinTosser := ⟨3, 2147483648, List.replicate 7 false, List.replicate 7 false⟩
private theorem ct7_made : CoinTosser.make Toy.env (.fin 2) 7 = .ok ct7 := by decide +kernel
private abbrev toss := tosses Toy.env ct7 (List.replicate 7 true) (5 : Nat)
example := C32_choice (env := Toy.env) (s := 2) (by decide +kernel) (by decide) ct7_made (old := List.replicate 7 true) (by decide) (ran! toss)
example := C32_history (env := Toy.env) ct7 (old := List.replicate 7 true) (old' := List.replicate 7 false) (by decide) (5 : Nat)
example := C32_finishes (env := Toy.env) (s := 2) (by decide +kernel) (by decide) ct7_made (old := List.replicate 7 true) (by decide) (5 : Nat) (by decide +kernel)
example := C32_at_most (env := Toy.env) (s := 2) (by decide +kernel) (n := 7) (h := 3) (by decide) (by unfold Near; decide +kernel)
example := C32_floor (env := Toy.env) (s := 2) (n := 7) (h := 4) (by decide +kernel) (by decide +kernel) (by decide +kernel) (by unfold Near; decide +kernel)
example := C32_never_ends (env := Toy.env) (ct := ⟨9, 2147483648, List.replicate 7 false, List.replicate 7 false⟩) (old := List.replicate 7 true) (by decide) (5 : Nat) (by decide +kernel)
example := C32_estimator Toy.cc_reached Toy.cc_states Toy.cc_fitted (n := 3) (Toy.int (by decide +kernel)) (s := 2) (by decide +kernel)
example := C32_estimator Toy.br_reached Toy.br_states Toy.br_fitted (n := 3) (Toy.int (by decide +kernel)) (s := 2) (by decide +kernel)

end Tsetlini
