import Verif.Props.Toy
import Verif.Spec.Saved
/-
The files of this directory apply the property theorems to concrete, non-trivial cases: every hypothesis is discharged, so each `example` shows that
the hypotheses of a theorem hold together.  What is left is the claim for that case.  Nothing here is modelled code.
-/
namespace Tsetlini.Toy
open Spec

/-- The value of a computation that returned. -/
def val {α : Type} : (r : Res α) → r.isOk = true → α
  | .ok v, _ => v

theorem val_eq {α : Type} : ∀ {r : Res α} (h : r.isOk = true), r = .ok (val r h)
  | .ok _, _ => rfl

theorem ran {α β : Type} {r : Res (α × β)} (h : r.isOk = true) : r = .ok ((val r h).1, (val r h).2) := val_eq h

theorem run_snoc {B : Backend} {e : Env} {sc : Sched} {k : Kind} {c : Call B.Sample k} {o : Out} {st'' : EstState B e} :
    ∀ {cs : List (Call B.Sample k)} {st st' : EstState B e} {outs : List Out}, run B e sc cs st = .ok (st', outs) →
      step B e sc c st' = .ok (st'', o) → run B e sc (cs ++ [c]) st = .ok (st'', outs ++ [o])
  | [], st, st', outs, h, hs => by
    have h := Res.ok.inj h
    have e1 : st = st' := congrArg Prod.fst h
    have e2 : [] = outs := congrArg Prod.snd h
    rw [← e1] at hs
    rw [← e2]
    unfold run
    dsimp only [List.append_eq, List.nil_append]
    rw [hs, Res.ok_bind]
    rfl
  | d :: cs, st, st', outs, h, hs => by
    unfold run at h
    obtain ⟨r, h1, h⟩ := Res.bind_eq_ok.1 h
    obtain ⟨r', h2, h⟩ := Res.bind_eq_ok.1 h
    have h := Res.ok.inj h
    have e1 : r'.1 = st' := congrArg Prod.fst h
    have e2 : r.2 :: r'.2 = outs := congrArg Prod.snd h
    rw [List.cons_append]
    unfold run
    rw [h1, Res.ok_bind, run_snoc (outs := r'.2) (st' := st') (e1 ▸ h2) hs, Res.ok_bind, ← e2]
    rfl

/-- One more call on an estimator of the toy data. -/
theorem reached_snoc {a : Algo} {k : Kind} {p : Params} {cs : List (Call a.Sample k)} {c : Call a.Sample k} (hp : Made k p)
    (ht : ∀ c ∈ cs, WellTyped a c) (hc : WellTyped a c) (h : (run a.backend env seq cs (EstState.fresh a.backend env p)).isOk = true)
    {st' : EstState a.backend env} {o : Out} (hs : step a.backend env seq c (after a p cs) = .ok (st', o)) : Reached a k st' := by
  refine .of_run p seq (cs ++ [c]) ((val _ h).2 ++ [o]) hp ?_ (run_snoc (ran h) ?_)
  · intro d hd
    rcases List.mem_append.1 hd with hd | hd
    · exact ht d hd
    · rw [List.mem_singleton.1 hd]; exact hc
  · unfold after at hs
    rw [val_eq h] at hs
    exact hs

theorem int {p : Params} {key : String} {v : Int} (h : p.get? key = some (.int v)) : IntParam p key v := h

/-- The samples of the toy data: bytes 0 or 1; bit vectors with clear padding. -/
theorem bytes_good {x : ClassicSample} (h : (x.all fun b => b == 0 || b == 1) = true) : Algo.classic.Good x := by
  refine ⟨fun b hb => ?_, trivial⟩
  have := List.all_eq_true.1 h b hb
  simpa using this

theorem X_good : ∀ x ∈ (X : List Algo.classic.Sample), Algo.classic.Good x := by
  have h : (X.all fun x => x.all fun b => b == 0 || b == 1) = true := by decide
  exact fun x hx => bytes_good (List.all_eq_true.1 h x hx)

theorem clear_of {n : Nat} {b : BitVec 64} (h : ∀ f < 64, n ≤ f → b.getLsbD f = false) : Algo.bitwise.Good (⟨n, [b]⟩ : BitVector) := by
  refine ⟨trivial, fun f hf => ?_⟩
  show ([b].getD (f / 64) 0#64).getLsbD (f % 64) = false
  by_cases h0 : f < 64
  · rw [Nat.div_eq_of_lt h0, Nat.mod_eq_of_lt h0]
    exact h f h0 hf
  · obtain ⟨q, hq⟩ : ∃ q, f / 64 = q + 1 := ⟨f / 64 - 1, by omega⟩
    rw [hq]
    exact BitVec.getLsbD_zero

theorem XB_good : ∀ x ∈ (XB : List Algo.bitwise.Sample), Algo.bitwise.Good x := by
  intro x hx
  have h : x = (⟨3, [5]⟩ : BitVector) ∨ x = (⟨3, [6]⟩ : BitVector) ∨ x = (⟨3, [3]⟩ : BitVector) ∨ x = (⟨3, [0]⟩ : BitVector) := by
    simpa [XB] using hx
  rcases h with h | h | h | h <;> rw [h] <;> exact clear_of (by decide)

theorem XB_built : ∀ x ∈ (XB : List Algo.bitwise.Sample), Algo.bitwise.Built x := by
  show ∀ x ∈ XB, x.len ≤ x.blocks.length * 64 ∧ x.blocks.length * 64 ≤ x.len + 64
  decide

end Tsetlini.Toy

/-- `ran! (call)`: the call returned, by evaluation. -/
macro "ran! " t:term:max : term => `(Tsetlini.Toy.ran (r := $t) (by decide +kernel))
