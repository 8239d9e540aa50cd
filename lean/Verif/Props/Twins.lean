import Verif.Lemmas.Same
import Verif.Lemmas.Observe
import Verif.Props.Toy
/-
Properties that compare two estimators: C02, C05, C06, C11, C17, C40.
-/
namespace Tsetlini
open Res Spec

variable {a : Algo} {k : Kind} {env : Env}

/-! ### C06 -/

/-- **C06**: estimators made with parameters that differ at most in n_jobs, whose parallel loops run in
whatever orders, return the same for every history of calls and learn the same. -/
theorem C06_jobs_and_schedules {p p' : Params} (hm : Made k p) (hm' : Made k p') (hp : AgreeBut ["n_jobs"] p p')
    (hN : StatesOk a p) (sc sc' : Sched) (cs : List (Call a.Sample k)) (ht : ∀ c ∈ cs, WellTyped a c)
    {st : EstState a.backend env} {outs : List Out}
    (hr : run a.backend env sc cs (EstState.fresh a.backend env p) = .ok (st, outs)) :
    ∃ st', run a.backend env sc' cs (EstState.fresh a.backend env p') = .ok (st', outs) ∧
      AgreeBut ["n_jobs"] st.params st'.params ∧ SameLearned st st' := by
  obtain ⟨cfg, cfg', hk, hv, hst, hc, h1, h2, l1, l2⟩ := made_twins (a := a) hm hm' (by decide) hp hN
  have e := Cfg.eq_of_core hc
  have ect : cfg'.ctype = cfg.ctype := by
    have h := h2.ctype
    rw [hp _ (by decide), h1.ctype] at h
    simpa using h.symm
  have eti : cfg'.tile = cfg.tile := by
    have h := h2.tile
    rw [hp _ (by decide), h1.tile] at h
    simpa using h.symm
  have hct : cfg'.ct = cfg.ct := by
    unfold Cfg.ct
    rw [ect, e]
  obtain ⟨r', h3, h4, h5, ss', h6, h7⟩ := run_twin (sc' := sc') hv hst hc hct hk (R := AgreeBut ["n_jobs"])
    (fun c f o p p' h => Call.record_agree h f c o) cs ht (Sim.fresh (L := a.lawful) h1 l1) (Sim.fresh h2 l2) hp (.inl eti) hr
  refine ⟨r'.1, ?_, h5, ⟨h6.ta_eq hc hct h7, (h6.igen_eq h7).1, (h6.igen_eq h7).2⟩⟩
  rw [h3]; dsimp only at h4; rw [← h4]

/-- Eight jobs against three, increasing against decreasing iteration order: a history with training
that returns. -/
example : Made .classifier Toy.cParams ∧ Made .classifier (Toy.made (Toy.cMore (.nJobs 3))) ∧
    AgreeBut ["n_jobs"] Toy.cParams (Toy.made (Toy.cMore (.nJobs 3))) ∧
    Params.get? Toy.cParams "n_jobs" = some (.int 8) ∧
    Params.get? (Toy.made (Toy.cMore (.nJobs 3))) "n_jobs" = some (.int 3) ∧
    StatesOk .bitwise Toy.cParams ∧ (∀ c ∈ Toy.bCalls, WellTyped .bitwise c) ∧
    Toy.seq.order 0 0 3 ≠ Toy.rev.order 0 0 3 ∧
    ∃ st outs, run bitwise Toy.env Toy.seq Toy.bCalls (EstState.fresh bitwise Toy.env Toy.cParams) = .ok (st, outs) :=
  ⟨Toy.cMade, Toy.cJobs_made, Toy.agreeBut_of (by decide +kernel), by decide +kernel, by decide +kernel,
    Toy.statesOk_of (N := 3) (by decide +kernel) (by decide), by decide +kernel, by decide +kernel,
    Toy.run_of (a := .bitwise) (by decide +kernel)⟩

/-! ### C05 -/

/-- **C05**: estimators made with parameters that differ at most in clause_output_tile_size return the
same for every history of calls and learn the same.  The history may contain any arguments for the
calls that validate them; `evaluate`, which does not, must get samples `predict` would accept. -/
theorem C05_tile_size {p p' : Params} (hm : Made k p) (hm' : Made k p')
    (hp : AgreeBut ["clause_output_tile_size"] p p')
    (hN : StatesOk a p) (sc sc' : Sched) (cs : List (Call a.Sample k)) (ht : ∀ c ∈ cs, WellTyped a c)
    (he : ProperEvals a sc cs (EstState.fresh a.backend env p))
    {st : EstState a.backend env} {outs : List Out}
    (hr : run a.backend env sc cs (EstState.fresh a.backend env p) = .ok (st, outs)) :
    ∃ st', run a.backend env sc' cs (EstState.fresh a.backend env p') = .ok (st', outs) ∧
      AgreeBut ["clause_output_tile_size"] st.params st'.params ∧ SameLearned st st' := by
  obtain ⟨cfg, cfg', hk, hv, hst, hc, h1, h2, l1, l2⟩ := made_twins (a := a) hm hm' (by decide) hp hN
  have e := Cfg.eq_of_core hc
  have ect : cfg'.ctype = cfg.ctype := by
    have h := h2.ctype
    rw [hp _ (by decide), h1.ctype] at h
    simpa using h.symm
  have hct : cfg'.ct = cfg.ct := by
    unfold Cfg.ct
    rw [ect, e]
  obtain ⟨r', h3, h4, h5, ss', h6, h7⟩ := run_twin (sc' := sc') hv hst hc hct hk (R := AgreeBut ["clause_output_tile_size"])
    (fun c f o p p' h => Call.record_agree h f c o) cs ht (Sim.fresh (L := a.lawful) h1 l1) (Sim.fresh h2 l2) hp (.inr he) hr
  refine ⟨r'.1, ?_, h5, ⟨h6.ta_eq hc hct h7, (h6.igen_eq h7).1, (h6.igen_eq h7).2⟩⟩
  rw [h3]; dsimp only at h4; rw [← h4]

/-- Tile 16 against tile 64, in a history with training and a call of evaluate. -/
example : AgreeBut ["clause_output_tile_size"] Toy.cParams (Toy.made (Toy.cMore (.tileSize 64))) ∧
    Params.get? Toy.cParams "clause_output_tile_size" = some (.int 16) ∧
    Params.get? (Toy.made (Toy.cMore (.tileSize 64))) "clause_output_tile_size" = some (.int 64) ∧
    Made .classifier (Toy.made (Toy.cMore (.tileSize 64))) ∧ StatesOk .classic Toy.cParams ∧
    (∀ c ∈ Toy.cCalls ++ [.evaluate Toy.X [0, 1, 2, 1]], WellTyped .classic c) ∧
    ProperEvals .classic Toy.seq (Toy.cCalls ++ [.evaluate Toy.X [0, 1, 2, 1]])
      (EstState.fresh classic Toy.env Toy.cParams) ∧
    ∃ st outs, run classic Toy.env Toy.seq (Toy.cCalls ++ [.evaluate Toy.X [0, 1, 2, 1]])
      (EstState.fresh classic Toy.env Toy.cParams) = .ok (st, outs) := by
  refine ⟨Toy.agreeBut_of (by decide +kernel), by decide +kernel, by decide +kernel, Toy.cTile_made,
    Toy.statesOk_of (N := 3) (by decide +kernel) (by decide), by decide +kernel, ?_,
    Toy.run_of (a := .classic) (by decide +kernel)⟩
  refine Toy.proper_last (a := .classic) ?_ ?_
  · intro c hc st
    simp only [Toy.cCalls, List.mem_cons, List.not_mem_nil, or_false] at hc
    rcases hc with rfl | rfl | rfl | rfl <;> trivial
  · intro st outs hr
    have e : st = Toy.cc := by
      show st = Toy.after .classic Toy.cParams Toy.cCalls
      unfold Toy.after
      rw [show run Algo.classic.backend Toy.env Toy.seq Toy.cCalls
        (EstState.fresh Algo.classic.backend Toy.env Toy.cParams) = .ok (st, outs) from hr]
    subst e
    intro x hx
    have hb : ∀ x ∈ Toy.X, (∀ v ∈ x, v = 0#8 ∨ v = 1#8) ∧
        Params.get? Toy.cc.params "number_of_features" = some (.int x.length) := by decide +kernel
    exact ⟨⟨(hb x hx).1, trivial⟩, (hb x hx).2⟩

/-- **C05**, the excluded case: `evaluate` checks nothing, and for samples with values other than 0 and 1
its result does depend on clause_output_tile_size. -/
theorem C05_evaluate_unchecked : ∃ (env : Env) (sc : Sched) (p p' : Params)
    (cs : List (Call Algo.classic.Sample .classifier)) (st st' : EstState classic env) (outs outs' : List Out),
    Made .classifier p ∧ Made .classifier p' ∧ AgreeBut ["clause_output_tile_size"] p p' ∧
    (∀ c ∈ cs, WellTyped .classic c) ∧
    run classic env sc cs (EstState.fresh classic env p) = .ok (st, outs) ∧
    run classic env sc cs (EstState.fresh classic env p') = .ok (st', outs') ∧ outs ≠ outs' := by
  obtain ⟨st, outs, h1, h2⟩ := Toy.run_acc (a := .classic) (p := Toy.made (Toy.tileReq 16)) (cs := Toy.badEval)
    (sc := Toy.seq) (v := .fin 0) (by decide +kernel)
  obtain ⟨st', outs', h3, h4⟩ := Toy.run_acc (a := .classic) (p := Toy.made (Toy.tileReq 32)) (cs := Toy.badEval)
    (sc := Toy.seq) (v := .fin 1) (by decide +kernel)
  refine ⟨Toy.env, Toy.seq, _, _, Toy.badEval, st, st', outs, outs', Toy.tile16_made, Toy.tile32_made,
    Toy.agreeBut_of (by decide +kernel), by decide +kernel, h1, h3, ?_⟩
  rintro rfl
  rw [h2] at h4
  revert h4; decide +kernel

/-! ### C02 -/

theorem Fit.bytes {cfg : Cfg} {labels nf : Nat} {st : EstState a.backend env} {ss : SState env}
    (h : Fit a.lawful cfg labels nf st ss) : a.counterBytes st = cfg.ct.bytes := by
  cases a with
  | classic => exact congrArg CType.bytes (ClassicAbs.ctype (show ClassicAbs _ _ _ _ _ from h.abs))
  | bitwise => exact congrArg CType.bytes (BitAbs.base (show BitAbs _ _ _ _ _ from h.abs)).ctype

/-- **C02** (first half): after any history every stored counter is so far inside the range of its type
that one more step of training, up or down, would be representable too: nothing ever wraps. -/
theorem C02_never_wraps {st : EstState a.backend env} (h : Reached a k st) (hN : StatesOk a st.params) :
    ∀ row ∈ a.counters st, ∀ c ∈ row,
      -2 ^ (8 * a.counterBytes st - 1) ≤ c - 1 ∧ c + 1 < (2 : Int) ^ (8 * a.counterBytes st - 1) := by
  intro row hrow c hc
  obtain ⟨cfg, labels, nf, ss, -, hv, -, hF⟩ := reached_fit h hN (List.ne_nil_of_mem hrow)
  rw [hF.bytes]
  rw [hF.countersEq, ← hF.clausesEq] at hrow
  obtain ⟨cl, hcl, hr⟩ := mem_toRows hrow
  have hw := a.lawful.abs_wf hF.abs cl hcl
  have hc' : -cfg.states ≤ c ∧ c ≤ cfg.states - 1 := by
    rcases hr with rfl | rfl
    · exact hw.posRange _ hc
    · exact hw.negRange _ hc
  have hm := hv.statesMax
  unfold Cfg.ct normalizeCountingType
  split
  · simp [ctypeOfName, CType.bytes]; omega
  · split
    · simp [ctypeOfName, CType.bytes]; omega
    · simp [ctypeOfName, CType.bytes]; omega

/-- One-byte counters. -/
example : Algo.bitwise.counterBytes Toy.bc = 1 ∧ Algo.classic.counterBytes Toy.cc = 1 := by decide +kernel

/-- **C02** (second half): estimators made with parameters that differ at most in counting_type return
the same for every history of calls that both survive, and end with the same counters, weights and
generators.  (Both must survive because the matrices of the two have different sizes in memory, and
an allocation beyond 2^32 items fails for one and not for the other; `evaluate` as in C05.) -/
theorem C02_counting_type {p p' : Params} (hm : Made k p) (hm' : Made k p')
    (hp : AgreeBut ["counting_type"] p p')
    (hN : StatesOk a p) (sc sc' : Sched) (cs : List (Call a.Sample k)) (ht : ∀ c ∈ cs, WellTyped a c)
    (he : ProperEvals a sc cs (EstState.fresh a.backend env p))
    {st st' : EstState a.backend env} {outs outs' : List Out}
    (hr : run a.backend env sc cs (EstState.fresh a.backend env p) = .ok (st, outs))
    (hr' : run a.backend env sc' cs (EstState.fresh a.backend env p') = .ok (st', outs')) :
    outs' = outs ∧ AgreeBut ["counting_type"] st.params st'.params ∧
      a.counters st' = a.counters st ∧ st'.ta.weights = st.ta.weights ∧
      st'.igen = st.igen ∧ st'.fgen = st.fgen := by
  obtain ⟨cfg, cfg', hk, hv, hst, hc, h1, h2, l1, l2⟩ := made_twins (a := a) hm hm' (by decide) hp hN
  obtain ⟨h4, h5, ss', h6, h7⟩ := run_twin_both (sc' := sc') hv hst hc hk (R := AgreeBut ["counting_type"])
    (fun c f o p p' h => Call.record_agree h f c o) cs ht (Sim.fresh (L := a.lawful) h1 l1) (Sim.fresh h2 l2) hp he hr hr'
  refine ⟨h4, h5, ?_, ?_, (h6.igen_eq h7).1, (h6.igen_eq h7).2⟩
  · rcases h6 with h6 | ⟨l, n, h6⟩ <;> rcases h7 with h7 | ⟨l', n', h7⟩
    · exact h7.cnt.trans h6.cnt.symm
    · have := h6.shape.symm.trans h7.shape; cases this
    · have := h6.shape.symm.trans h7.shape; cases this
    · rw [h6.countersEq, h7.countersEq, ← h6.clausesEq, ← h7.clausesEq]
  · rcases h6 with h6 | ⟨l, n, h6⟩ <;> rcases h7 with h7 | ⟨l', n', h7⟩
    · exact h7.w.trans h6.w.symm
    · have := h6.shape.symm.trans h7.shape; cases this
    · have := h6.shape.symm.trans h7.shape; cases this
    · exact h7.w.trans h6.w.symm

/-- Eight-bit counters against 32-bit ones; both histories return. -/
example : AgreeBut ["counting_type"] Toy.cParams (Toy.made (Toy.cMore (.countingType "int32"))) ∧
    Made .classifier (Toy.made (Toy.cMore (.countingType "int32"))) ∧
    Params.get? Toy.cParams "counting_type" = some (.str "auto") ∧
    Params.get? (Toy.made (Toy.cMore (.countingType "int32"))) "counting_type" = some (.str "int32") ∧
    (∃ st outs, run classic Toy.env Toy.seq Toy.cCalls (EstState.fresh classic Toy.env Toy.cParams) = .ok (st, outs) ∧
      (show Matrix from st.ta.mat).ctype = .int8) ∧
    ∃ st outs, run classic Toy.env Toy.seq Toy.cCalls
      (EstState.fresh classic Toy.env (Toy.made (Toy.cMore (.countingType "int32")))) = .ok (st, outs) ∧
      (show Matrix from st.ta.mat).ctype = .int32 :=
  ⟨Toy.agreeBut_of (by decide +kernel), Toy.cType_made, by decide +kernel, by decide +kernel,
    Toy.run_sat (a := .classic) (fun st => (show Matrix from st.ta.mat).ctype = .int8) (by decide +kernel),
    Toy.run_sat (a := .classic) (fun st => (show Matrix from st.ta.mat).ctype = .int32) (by decide +kernel)⟩

/-! Toy history for the excluded case of C02. -/
namespace Toy
def wrapReq (ct : String) : Request .classifier :=
  .classifierArgs [.threshold 1, .clausesPerLabel 4, .states 1, .specificity (.fin 1000000), .seed 9#32, .countingType ct]
def wrapCalls : List (Call Algo.bitwise.Sample .classifier) :=
  let X : List BitVector := [⟨1, [0#64]⟩, ⟨1, [1#64]⟩, ⟨1, [0#64]⟩, ⟨1, [1#64]⟩]
  let z : BitVector := ⟨1, [0#64]⟩
  [.fit X [0, 1, 1, 0] 0 3, .partialFit (show List BitVector from [z]) [0] 0 256, .predict1 z]
/-- What the last call returned, if it was predict for one sample. -/
def lastLabel : List Out → Option Int
  | [] => none
  | [.label (.ok v)] => some v
  | _ :: os => lastLabel os
theorem run_label {a : Algo} {k : Kind} {sc : Sched} {p : Params} {cs : List (Call a.Sample k)} {v : Int}
    (h : (match run a.backend env sc cs (EstState.fresh a.backend env p) with
      | .ok r => lastLabel r.2
      | _ => none) = some v) :
    ∃ st outs, run a.backend env sc cs (EstState.fresh a.backend env p) = .ok (st, outs) ∧ lastLabel outs = some v := by
  cases hr : run a.backend env sc cs (EstState.fresh a.backend env p) with
  | ok r => rw [hr] at h; exact ⟨r.1, r.2, rfl, h⟩
  | ub _ => rw [hr] at h; cases h
  | exn _ => rw [hr] at h; cases h
  | timeout => rw [hr] at h; cases h
end Toy

/-- **C02**, the excluded case: for a bitwise classifier with number_of_states = 1 a counter escapes from
[-1, 0] (C01), grows without bound and wraps; two such classifiers that differ only in counting_type can
predict different labels after the same history. -/
theorem C02_bitwise_one_state_differs : ∃ (env : Env) (sc : Sched) (p p' : Params)
    (cs : List (Call Algo.bitwise.Sample .classifier)) (st st' : EstState bitwise env) (outs outs' : List Out),
    Made .classifier p ∧ Made .classifier p' ∧ AgreeBut ["counting_type"] p p' ∧
    IntParam p "number_of_states" 1 ∧ (∀ c ∈ cs, WellTyped .bitwise c) ∧ (∀ X y, Call.evaluate X y ∉ cs) ∧
    run bitwise env sc cs (EstState.fresh bitwise env p) = .ok (st, outs) ∧
    run bitwise env sc cs (EstState.fresh bitwise env p') = .ok (st', outs') ∧ outs ≠ outs' := by
  obtain ⟨st, outs, h, h1⟩ := Toy.run_label (env := Toy.env) (a := .bitwise) (sc := Toy.seq) (p := Toy.made (Toy.wrapReq "int8"))
    (cs := Toy.wrapCalls) (v := 0) (by decide +kernel)
  obtain ⟨st', outs', h', h1'⟩ := Toy.run_label (env := Toy.env) (a := .bitwise) (sc := Toy.seq) (p := Toy.made (Toy.wrapReq "int16"))
    (cs := Toy.wrapCalls) (v := 1) (by decide +kernel)
  refine ⟨Toy.env, Toy.seq, _, _, Toy.wrapCalls, st, st', outs, outs',
    Toy.made_of (Toy.wrapReq "int8") (by constructor <;> decide +kernel) (by decide +kernel),
    Toy.made_of (Toy.wrapReq "int16") (by constructor <;> decide +kernel) (by decide +kernel),
    Toy.agreeBut_of (by decide +kernel), by show Params.get? _ _ = _; decide +kernel, by decide +kernel,
    by intro X y hm; simp [Toy.wrapCalls] at hm, h, h', ?_⟩
  rintro rfl
  rw [h1] at h1'; cases h1'

/-! ### C17 -/

/-- **C17**: the same factory call on two machines (whatever their thread counts and random devices), if
it settles on the same random_state, gives estimators that return the same for every history of calls,
under whatever schedules, and learn the same. -/
theorem C17_reproducible {m m' : Machine} {io : RealIO} {req : Request k} (hq : ReqTyped req) {p p' : Params}
    (hp : make m io req = .ok (.ok p)) (hp' : make m' io req = .ok (.ok p'))
    (hs : p'.get? "random_state" = p.get? "random_state")
    (hN : StatesOk a p) (sc sc' : Sched) (cs : List (Call a.Sample k)) (ht : ∀ c ∈ cs, WellTyped a c)
    {st : EstState a.backend env} {outs : List Out}
    (hr : run a.backend env sc cs (EstState.fresh a.backend env p) = .ok (st, outs)) :
    ∃ st', run a.backend env sc' cs (EstState.fresh a.backend env p') = .ok (st', outs) ∧
      AgreeBut ["n_jobs"] st.params st'.params ∧ SameLearned st st' := by
  refine C06_jobs_and_schedules ⟨m, io, req, hq, hp⟩ ⟨m', io, req, hq, hp'⟩ ?_ hN sc sc' cs ht hr
  intro key hk
  by_cases e : key = "random_state"
  · subst e; exact hs
  · exact make_two hq hp hp' key (by simp only [List.mem_cons, List.not_mem_nil, or_false, not_or] at hk ⊢; exact ⟨hk, e⟩)

/-- One request on two machines: different n_jobs, same seed. -/
example : ∃ p p', make ⟨8, by decide, 77#32⟩ Toy.io (.classifierArgs (Toy.cArgs true 3)) = .ok (.ok p) ∧
    make ⟨2, by decide, 99#32⟩ Toy.io (.classifierArgs (Toy.cArgs true 3)) = .ok (.ok p') ∧
    p'.get? "random_state" = p.get? "random_state" ∧ p'.get? "n_jobs" ≠ p.get? "n_jobs" ∧
    ReqTyped (.classifierArgs (Toy.cArgs true 3)) := by
  refine ⟨_, _, rfl, rfl, ?_, ?_, ?_⟩
  · decide +kernel
  · decide +kernel
  · constructor <;> decide +kernel

/-- Even with the same n_jobs: equal parameters give literally equal learned states and parameters. -/
theorem C17_same_parameters {p : Params} (hm : Made k p) (hN : StatesOk a p) :
    Indistinguishable a k (EstState.fresh a.backend env p) (EstState.fresh a.backend env p) := by
  obtain ⟨cfg, rfl, hr, hv, hl⟩ := Made.cfg hm
  refine sims_indist hv ?_ rfl (Sim.fresh hr hl) (Sim.fresh hr hl) fun _ _ => rfl
  rw [lawful_minStates]; exact hN _ hr.states

/-! ### C11 -/

/-- **C11**: predict, decision_function and evaluate, with whatever arguments, change no parameter, no
automaton, no weight and no generator. -/
theorem C11_readers_change_nothing (st : EstState a.backend env) (sc : Sched) (c : Call a.Sample k) (hc : c.Reads)
    {st' : EstState a.backend env} {o : Out} (h : step a.backend env sc c st = .ok (st', o)) :
    st'.params = st.params ∧ SameLearned st st' := by
  have fr : ∀ {α : Type} {f : α → Out} {q : Res (EstState a.backend env × α)}, q.IfOk (fun p => Frozen st p.1) →
      tagged f q = .ok (st', o) → st'.params = st.params ∧ SameLearned st st' := by
    intro α f q hq e
    unfold tagged at e
    rw [bind_eq_ok] at e
    obtain ⟨p, hp, e⟩ := e
    cases e
    have := ifOk_iff.1 hq p hp
    exact ⟨this.params, this.ta, this.igen, this.fgen⟩
  cases c with
  | predict1 x => exact fr (predictClassifier1_frozen _ _) h
  | predict X => exact fr (predictClassifier_frozen _ _) h
  | decision1 x => exact fr (decision1_frozen _ _) h
  | decision X => exact fr (decision_frozen _ _) h
  | evaluate X y => exact fr (evaluate_frozen _ _ _) h
  | predictR1 x => exact fr (predictRegressor1_frozen _ _) h
  | predictR X => exact fr (predictRegressor_frozen _ _) h
  | fit _ _ _ _ => exact hc.elim
  | partialFit _ _ _ _ => exact hc.elim
  | fitR _ _ _ => exact hc.elim
  | partialFitR _ _ _ => exact hc.elim

/-- **C11**: what earlier calls left in the mutable cache has no influence on any later result: two
estimators with equal parameters, automata, weights and generators are indistinguishable. -/
theorem C11_cache_unobservable {st st' : EstState a.backend env} (h : Reached a k st) (h' : Reached a k st')
    (hN : StatesOk a st.params) (hp : AgreeBut [] st.params st'.params) (hl : SameLearned st st') :
    Indistinguishable a k st st' := same_indist h h' hN hp hl

/-- **C11**: in particular a read-only call leaves an estimator indistinguishable from what it was. -/
theorem C11_readers_unobservable {st st' : EstState a.backend env} (h : Reached a k st) (hN : StatesOk a st.params)
    (sc : Sched) (c : Call a.Sample k) (hc : c.Reads) (ht : WellTyped a c) {o : Out}
    (hs : step a.backend env sc c st = .ok (st', o)) : Indistinguishable a k st st' := by
  obtain ⟨h1, h2⟩ := C11_readers_change_nothing st sc c hc hs
  obtain ⟨cfg, ss, rfl, hv, hst, h3⟩ := Reached.sim h hN
  obtain ⟨ss', h4⟩ := step_inv hv hst h3 c (WellTyped.typed ht) hs
  have hp : AgreeBut [] st.params st'.params := fun key _ => by rw [h1]
  exact sims_indist hv hst rfl h3 (h3.swap hv hv rfl h4 hp h2) hp

/-- A trained estimator and what it is after a further predict, with a different cache. -/
example : Reached .classic .classifier Toy.cc ∧ StatesOk .classic Toy.cc.params ∧
    (∃ st o, step classic Toy.env Toy.seq (.predict1 ([1, 1, 1] : ClassicSample) : Call _ .classifier) Toy.cc = .ok (st, o)
      ∧ st.cache ≠ Toy.cc.cache) := by
  refine ⟨Toy.cc_reached, Toy.cc_states, ?_⟩
  have h : (match step classic Toy.env Toy.seq (.predict1 ([1, 1, 1] : ClassicSample) : Call _ .classifier) Toy.cc with
    | .ok r => decide (r.1.cache ≠ Toy.cc.cache)
    | _ => false) = true := by decide +kernel
  cases hs : step classic Toy.env Toy.seq (.predict1 ([1, 1, 1] : ClassicSample) : Call _ .classifier) Toy.cc with
  | ok r => rw [hs] at h; exact ⟨r.1, r.2, rfl, of_decide_eq_true h⟩
  | ub _ => rw [hs] at h; cases h
  | exn _ => rw [hs] at h; cases h
  | timeout => rw [hs] at h; cases h

/-! ### C40 -/

/-- No parameter is a NaN (only loss_fn_C1, which is not validated, can be one). -/
def NoNaN (p : Params) : Prop := ∀ key, p.get? key ≠ some (.real .nan)

/-- **C40**: a cloned state compares equal (`==`) to the original, provided no parameter is NaN. -/
theorem C40_clone_equal (st : EstState a.backend env) (hn : NoNaN st.params) : EstState.CppEq k st.clone st := by
  refine ⟨rfl, rfl, rfl, rfl, fun key => ?_, ?_⟩
  · show (match st.params.get? key, st.params.get? key with
      | some v, some w => v.cppEq w = true | none, none => True | _, _ => False)
    have := hn key
    cases hg : st.params.get? key with
    | none => trivial
    | some v =>
      rw [hg] at this
      cases v with
      | real f =>
        cases f with
        | nan => exact absurd rfl this
        | fin q => show (Fl.fin q == Fl.fin q) = true; simp
        | inf b => show (Fl.inf b == Fl.inf b) = true; simp
      | int _ => show (PVal.int _ == PVal.int _) = true; simp
      | seed _ => show (PVal.seed _ == PVal.seed _) = true; simp
      | bool _ => show (PVal.bool _ == PVal.bool _) = true; simp
      | str _ => show (PVal.str _ == PVal.str _) = true; simp
      | none => rfl
  · cases k <;> simp [Cache.cppEq, EstState.clone]

example : NoNaN Toy.cc.params := by
  have h : ∀ e ∈ Toy.cc.params, e.2 ≠ .real .nan := by decide +kernel
  intro key hk
  exact h _ (Toy.mem_of_lookup hk) rfl

/-- **C40**, the excluded case: loss_fn_C1 may be NaN, and then a clone does not compare equal. -/
theorem C40_nan_clone_differs : ∃ (env : Env) (st : EstState classic env),
    Reached .classic .regressor st ∧ ¬ EstState.CppEq .regressor st.clone st := by
  refine ⟨Toy.env, EstState.fresh classic Toy.env (Toy.made Toy.nanReq),
    .of_run (Toy.made Toy.nanReq) Toy.seq [] [] Toy.nan_made (by simp) rfl, ?_⟩
  rintro ⟨-, -, -, -, h, -⟩
  have := h "loss_fn_C1"
  have e : Params.get? (EstState.fresh classic Toy.env (Toy.made Toy.nanReq)).params "loss_fn_C1" = some (.real .nan) := by
    decide +kernel
  have e' : Params.get? (EstState.fresh classic Toy.env (Toy.made Toy.nanReq)).clone.params "loss_fn_C1" = some (.real .nan) := e
  rw [e, e'] at this
  revert this; decide

theorem PVal.eq_of_cppEq {v w : PVal} (h : v.cppEq w = true) : w = v := by
  unfold PVal.cppEq at h
  split at h
  · next x y =>
    unfold Fl.cppEq at h
    split at h
    · cases h
    · cases h
    · rw [eq_of_beq h]
  · exact (eq_of_beq h).symm

/-- **C40**: states that compare equal answer every later history identically. -/
theorem C40_equal_states_agree {st st' : EstState a.backend env} (h : Reached a k st) (h' : Reached a k st')
    (hN : StatesOk a st.params) (he : EstState.CppEq k st st') : Indistinguishable a k st st' := by
  obtain ⟨e1, e2, e3, e4, e5, -⟩ := he
  refine same_indist h h' hN (fun key _ => ?_) ⟨?_, e3.symm, e4.symm⟩
  · have := e5 key
    cases h1 : st.params.get? key <;> cases h2 : st'.params.get? key <;> rw [h1, h2] at this
    · exact this.elim
    · exact this.elim
    · rw [PVal.eq_of_cppEq this]
  · cases h3 : st.ta; cases h4 : st'.ta
    simp_all

/-- **C40**: the estimator and its clone do not influence each other: a program that calls both in any
interleaving gets from each exactly what it would get from it alone. -/
theorem C40_independent (sc : Sched) (cs : List (Bool × Call a.Sample k)) (st : EstState a.backend env)
    {t : EstState a.backend env} (ht : t = st.clone)
    {s' t' : EstState a.backend env} {outs : List (Bool × Out)}
    (h : runTwo a.backend env sc cs st t = .ok (s', t', outs)) :
    run a.backend env sc ((cs.filter (·.1)).map (·.2)) st = .ok (s', (outs.filter (·.1)).map (·.2)) ∧
    run a.backend env sc ((cs.filter (!·.1)).map (·.2)) st.clone = .ok (t', (outs.filter (!·.1)).map (·.2)) := by
  rw [← ht]
  clear ht
  induction cs generalizing st t outs with
  | nil => cases h; exact ⟨rfl, rfl⟩
  | cons c cs ih =>
    obtain ⟨b, c⟩ := c
    cases b
    · unfold runTwo at h
      simp only [bind_eq_ok] at h
      obtain ⟨r, h1, q, h2, h3⟩ := h
      cases h3
      obtain ⟨i1, i2⟩ := ih _ h2
      refine ⟨by simpa using i1, ?_⟩
      simp only [List.filter_cons, Bool.not_false, if_true, List.map_cons]
      unfold run
      rw [h1, ok_bind, i2, ok_bind]
    · unfold runTwo at h
      simp only [bind_eq_ok] at h
      obtain ⟨r, h1, q, h2, h3⟩ := h
      cases h3
      obtain ⟨i1, i2⟩ := ih _ h2
      refine ⟨?_, by simpa using i2⟩
      simp only [List.filter_cons, if_true, List.map_cons]
      unfold run
      rw [h1, ok_bind, i1, ok_bind]

end Tsetlini
