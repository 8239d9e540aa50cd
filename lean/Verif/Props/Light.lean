import Verif.Lemmas.LightRun
import Verif.Props.Toy
/-
C69: weights that cannot grow are no weights.
-/
namespace Tsetlini
open Res Spec

/-- The parameters leave no room for weights above 1: weights are switched off, or limited to 1. -/
def Spec.Unweighted (p : Params) : Prop := p.get? "weighted" = some (.bool false) ∨ IntParam p "max_weight" 1

theorem Reads.light {p : Params} {cfg : Cfg} (h : Reads p cfg) (hp : Unweighted p) : cfg.Light := by
  rcases hp with hp | hp
  · rw [h.weighted] at hp
    exact .inl (by simpa using hp)
  · have hp : p.get? "max_weight" = some (.int 1) := hp
    rw [h.maxWeight] at hp
    exact .inr (by simpa using hp)

theorem Sim.ones {B : Backend} {L : Lawful B} {env : Env} {cfg : Cfg} {st : EstState B env} {s : SState env} (h : Sim L cfg st s)
    (hl : ∀ w ∈ s.weights, w = 0) (o : Nat) : weight st.ta.weights o = 1 := by
  rcases h with h | ⟨l, n, h⟩
  · rw [h.w]; exact light_weight (by simp) o
  · rw [h.w]; exact light_weight hl o

section
variable {a : Algo} {k : Kind} {env : Env}

/-- **C69**: switching weights off, or keeping them on with max_weight 1, or changing max_weight of an
unweighted estimator: estimators made with such parameters and otherwise the same ones return the same for
every history of calls, classic or bitwise, classifiers and regressors, whatever the schedules; they end
with the same automata and the same generators, and every clause still has one vote. -/
theorem C69_weights_of_one {p p' : Params} (hm : Made k p) (hm' : Made k p') (hp : AgreeBut ["weighted", "max_weight"] p p')
    (hw : Unweighted p) (hw' : Unweighted p') (hN : StatesOk a p) (sc sc' : Sched) (cs : List (Call a.Sample k))
    (ht : ∀ c ∈ cs, WellTyped a c) {st : EstState a.backend env} {outs : List Out}
    (hr : run a.backend env sc cs (EstState.fresh a.backend env p) = .ok (st, outs)) :
    ∃ st', run a.backend env sc' cs (EstState.fresh a.backend env p') = .ok (st', outs) ∧
      AgreeBut ["weighted", "max_weight"] st.params st'.params ∧
      st'.ta.mat = st.ta.mat ∧ st'.igen = st.igen ∧ st'.fgen = st.fgen ∧
      ∀ o, weight st.ta.weights o = 1 ∧ weight st'.ta.weights o = 1 := by
  obtain ⟨cfg, hk, h1, hv, l1⟩ := Made.cfg hm
  obtain ⟨cfg', hk', h2, hv', l2⟩ := Made.cfg hm'
  have h2' := h1.mixW h2 hp
  have hb : cfg.bare = Cfg.bare { cfg with weighted := cfg'.weighted, maxWeight := cfg'.maxWeight } := rfl
  have hst : a.lawful.minStates ≤ cfg.states := by rw [lawful_minStates]; exact hN _ h1.states
  obtain ⟨r', h3, h4, h5, s', t', h6, h7, h8⟩ := run_light (sc' := sc') hv (hv.of_bare hb ⟨hv'.8, hv'.9⟩) hst hb (h1.light hw)
    (h2'.light hw') hk (R := AgreeBut ["weighted", "max_weight"]) (fun c f o p p' h => Call.record_agree h f c o) cs ht
    (s := SState.fresh env) (t := SState.fresh env) ⟨rfl, rfl, rfl, rfl, ⟨by simp [SState.fresh], .inr rfl⟩, ⟨by simp [SState.fresh], .inr rfl⟩⟩
    (Sim.fresh (L := a.lawful) h1 l1) (Sim.fresh h2' l2) hp hr
  refine ⟨r'.1, ?_, h5, h7.mat_eq hb h6 h8, (h7.gens h6 h8).1, (h7.gens h6 h8).2, fun o => ⟨h7.ones h6.left.1 o, h8.ones h6.right.1 o⟩⟩
  rw [h3]; dsimp only at h4; rw [← h4]

/-- The toy classifier with weights up to 1, and without weights. -/
def Toy.cOne : Params := made (.classifierArgs [.threshold 2, .clausesPerLabel 4, .states 3, .specificity (.fin 2), .weighted true,
  .maxWeight 1, .seed (5#32)])
def Toy.cOff : Params := made (.classifierArgs (cArgs false 3))

theorem Toy.cOne_made : Made .classifier cOne :=
  made_of _ (by constructor <;> decide +kernel) (by decide +kernel)

theorem Toy.cOff_made : Made .classifier cOff :=
  made_of _ (by constructor <;> decide +kernel) (by decide +kernel)

/-- Weights up to 1 against no weights: a history with training that returns, in which a third estimator,
with weights up to 3, does change weights. -/
example : Unweighted Toy.cOne ∧ Unweighted Toy.cOff ∧
    Params.get? Toy.cOne "weighted" = some (.bool true) ∧
    AgreeBut ["weighted", "max_weight"] Toy.cOne Toy.cOff ∧
    StatesOk .classic Toy.cOne ∧ (∀ c ∈ Toy.cCalls, WellTyped .classic c) ∧
    (∃ st outs, run classic Toy.env Toy.seq Toy.cCalls
      (EstState.fresh classic Toy.env Toy.cOne) = .ok (st, outs) ∧ st.ta.weights.length = 6) ∧
    ∃ st outs, run classic Toy.env Toy.seq Toy.cCalls (EstState.fresh classic Toy.env Toy.cParams) = .ok (st, outs) ∧
      ∃ w ∈ st.ta.weights, w ≠ 0 := by
  refine ⟨.inr (by show Params.get? _ _ = _; decide +kernel), .inl (by decide +kernel), by decide +kernel, Toy.agreeBut_of (by decide +kernel),
    Toy.statesOk_of (N := 3) (by decide +kernel) (by decide), by decide +kernel, ?_, ?_⟩
  · exact Toy.run_sat (a := .classic) (fun st => st.ta.weights.length = 6) (by decide +kernel)
  · exact Toy.run_sat (a := .classic) (fun st => ∃ w ∈ st.ta.weights, w ≠ 0) (by decide +kernel)

end
end Tsetlini
