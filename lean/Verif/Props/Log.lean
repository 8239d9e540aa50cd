import Verif.Spec.Log
import Verif.Props.Twins
import Verif.Props.Validation
/-
C59: verbose and the log.
-/
namespace Tsetlini
open Res Spec

variable {a : Algo} {k : Kind} {env : Env}

/-! ### What the log statements do to a call -/

theorem initializeState_log {B : Backend} {kind : Kind} {st r : EstState B env}
    (h : initializeState B env kind st = .ok r) : ∃ l, initLog kind r.params = .ok l := by
  have e := ifOk_iff.1 (initializeState_params st) _ h
  rw [e]
  unfold initializeState at h
  simp only [bind_eq_ok] at h
  obtain ⟨v, hv, s, -, l, hl, n, hn, _, -, _, -, _, -, ct, hct, -⟩ := h
  unfold initLog
  rw [hv, ok_bind, hl, ok_bind, hn, ok_bind, hct, ok_bind]
  exact ⟨_, rfl⟩

theorem fitClassifierOnline_log {B : Backend} {sc : Sched} {st : EstState B env} {X : List B.Sample} {y : List Int}
    {ep : Nat} {r : EstState B env × Status} (h : fitClassifierOnline B env sc st X y ep = .ok r) :
    r.1.params = st.params ∧ ∃ v, r.1.params.verbose = .ok v := by
  have e := (ifOk_iff.1 (fitClassifierOnline_params st X y ep) _ h).1
  rw [e]
  unfold fitClassifierOnline at h
  simp only [bind_eq_ok] at h
  obtain ⟨_, -, _, -, _, -, _, -, _, -, _, -, _, -, _, -, _, -, v, hv, -⟩ := h
  exact ⟨rfl, v, hv⟩

theorem fitRegressorOnline_log {B : Backend} {sc : Sched} {st : EstState B env} {X : List B.Sample} {y : List Int}
    {ep : Nat} {r : EstState B env × Status} (h : fitRegressorOnline B env sc st X y ep = .ok r) :
    r.1.params = st.params ∧ ∃ v, r.1.params.verbose = .ok v := by
  have e := (ifOk_iff.1 (fitRegressorOnline_params st X y ep) _ h).1
  rw [e]
  unfold fitRegressorOnline at h
  simp only [bind_eq_ok] at h
  obtain ⟨_, -, _, -, _, -, _, -, _, -, _, -, _, -, _, -, v, hv, -⟩ := h
  exact ⟨rfl, v, hv⟩

/-- A training call that succeeded has evaluated every operand of its log statements. -/
theorem fitClassifier_log {B : Backend} {sc : Sched} {st : EstState B env} {X : List B.Sample} {y : List Int}
    {ml : Int} {ep : Nat} {r : EstState B env × Status} (h : fitClassifier B env sc st X y ml ep = .ok r)
    (hs : r.2.code = .ok) : (∃ l, initLog .classifier r.1.params = .ok l) ∧ ∃ v, r.1.params.verbose = .ok v := by
  unfold fitClassifier at h
  rw [bind_eq_ok] at h
  obtain ⟨s1, -, h⟩ := h
  split at h
  · cases h; contradiction
  simp only [bind_eq_ok] at h
  obtain ⟨_, -, _, -, s2, -, h⟩ := h
  split at h
  · cases h; contradiction
  split at h
  · cases h
  · simp only [bind_eq_ok] at h
    obtain ⟨st1, h1, h2⟩ := h
    obtain ⟨e, hv⟩ := fitClassifierOnline_log h2
    exact ⟨by rw [e]; exact initializeState_log h1, hv⟩

theorem partialFitClassifier_log {B : Backend} {sc : Sched} {st : EstState B env} {X : List B.Sample} {y : List Int}
    {ml : Int} {ep : Nat} {r : EstState B env × Status} (h : partialFitClassifier B env sc st X y ml ep = .ok r)
    (hs : r.2.code = .ok) : (isFitted B st.ta = false → ∃ l, initLog .classifier r.1.params = .ok l) ∧
      ∃ v, r.1.params.verbose = .ok v := by
  unfold partialFitClassifier at h
  split at h
  · rename_i hf
    refine ⟨fun h0 => absurd (hf.symm.trans h0) (by decide), ?_⟩
    unfold fitClassifierOnlineChecked at h
    rw [bind_eq_ok] at h
    obtain ⟨s1, -, h⟩ := h
    split at h
    · cases h; contradiction
    simp only [bind_eq_ok] at h
    obtain ⟨_, -, s2, -, h⟩ := h
    split at h
    · cases h; contradiction
    simp only [bind_eq_ok] at h
    obtain ⟨_, -, _, -, s3, -, h⟩ := h
    split at h
    · cases h; contradiction
    exact (fitClassifierOnline_log h).2
  · have := fitClassifier_log h hs
    exact ⟨fun _ => this.1, this.2⟩

theorem fitRegressor_log {B : Backend} {sc : Sched} {st : EstState B env} {X : List B.Sample} {y : List Int}
    {ep : Nat} {r : EstState B env × Status} (h : fitRegressor B env sc st X y ep = .ok r)
    (hs : r.2.code = .ok) : (∃ l, initLog .regressor r.1.params = .ok l) ∧ ∃ v, r.1.params.verbose = .ok v := by
  unfold fitRegressor at h
  rw [bind_eq_ok] at h
  obtain ⟨s1, -, h⟩ := h
  split at h
  · cases h; contradiction
  rw [bind_eq_ok] at h
  obtain ⟨T, -, h⟩ := h
  dsimp only at h
  split at h
  · cases h; contradiction
  split at h
  · cases h
  · simp only [bind_eq_ok] at h
    obtain ⟨st1, h1, h2⟩ := h
    obtain ⟨e, hv⟩ := fitRegressorOnline_log h2
    exact ⟨by rw [e]; exact initializeState_log h1, hv⟩

theorem partialFitRegressor_log {B : Backend} {sc : Sched} {st : EstState B env} {X : List B.Sample} {y : List Int}
    {ep : Nat} {r : EstState B env × Status} (h : partialFitRegressor B env sc st X y ep = .ok r)
    (hs : r.2.code = .ok) : (isFitted B st.ta = false → ∃ l, initLog .regressor r.1.params = .ok l) ∧
      ∃ v, r.1.params.verbose = .ok v := by
  unfold partialFitRegressor at h
  split at h
  · rename_i hf
    refine ⟨fun h0 => absurd (hf.symm.trans h0) (by decide), ?_⟩
    unfold fitRegressorOnlineChecked at h
    rw [bind_eq_ok] at h
    obtain ⟨s1, -, h⟩ := h
    split at h
    · cases h; contradiction
    simp only [bind_eq_ok] at h
    obtain ⟨_, -, s2, -, h⟩ := h
    split at h
    · cases h; contradiction
    rw [bind_eq_ok] at h
    obtain ⟨T, -, h⟩ := h
    split at h
    · cases h; contradiction
    exact (fitRegressorOnline_log h).2
  · have := fitRegressor_log h hs
    exact ⟨fun _ => this.1, this.2⟩

theorem trainLog_ok {B : Backend} {kind : Kind} {fresh : Bool} {ep : Nat} {st : EstState B env} {s : Status}
    (h : s.code = .ok → (fresh = true → ∃ l, initLog kind st.params = .ok l) ∧ ∃ v, st.params.verbose = .ok v) :
    ∃ l, trainLog kind fresh ep st (.status s) = .ok l := by
  unfold trainLog
  dsimp only
  split
  · exact ⟨_, rfl⟩
  rename_i hs
  obtain ⟨h1, v, hv⟩ := h (by simpa using hs)
  unfold epochsLog
  rw [hv, ok_bind]
  cases fresh with
  | true => obtain ⟨l, hl⟩ := h1 rfl; simp only [if_true]; rw [hl, ok_bind]; exact ⟨_, rfl⟩
  | false => exact ⟨_, rfl⟩

theorem trainLog_quiet {B : Backend} {kind : Kind} {fresh : Bool} {ep : Nat} {st : EstState B env} {s : Status}
    (hv : st.params.get? "verbose" = some (.bool false)) {l : List LogLine}
    (h : trainLog kind fresh ep st (.status s) = .ok l) : l = [] := by
  have hv : st.params.verbose = .ok false := Params.getBool_eq hv
  unfold trainLog at h
  dsimp only at h
  split at h
  · cases h; rfl
  simp only [bind_eq_ok] at h
  obtain ⟨l1, h1, l2, h2, h3⟩ := h
  unfold epochsLog at h2
  rw [hv, ok_bind] at h2
  have e1 : l1 = [] := by
    cases fresh with
    | false => cases h1; rfl
    | true =>
      simp only [if_true] at h1
      unfold initLog at h1
      rw [hv, ok_bind] at h1
      simp only [bind_eq_ok] at h1
      obtain ⟨_, -, _, -, _, -, h1⟩ := h1
      cases h1; rfl
  cases h2; cases h3
  rw [e1]; rfl

theorem tagged_status {B : Backend} {r : Res (EstState B env × Status)} {q : EstState B env × Out}
    (h : tagged .status r = .ok q) : ∃ p, r = .ok p ∧ q = (p.1, .status p.2) := by
  unfold tagged at h
  rw [bind_eq_ok] at h
  obtain ⟨p, hp, h⟩ := h
  cases h
  exact ⟨p, hp, rfl⟩

theorem callLog_ok {B : Backend} {sc : Sched} {c : Call B.Sample k} {st : EstState B env} {r : EstState B env × Out}
    (h : step B env sc c st = .ok r) : ∃ l, callLog c st r.1 r.2 = .ok l ∧
      (r.1.params.get? "verbose" = some (.bool false) → l = []) := by
  cases c with
  | fit X y ml ep =>
    obtain ⟨p, hp, rfl⟩ := tagged_status h
    obtain ⟨l, hl⟩ := trainLog_ok (kind := .classifier) (fresh := true) (ep := ep) (st := p.1) (s := p.2)
      fun hs => ⟨fun _ => (fitClassifier_log hp hs).1, (fitClassifier_log hp hs).2⟩
    exact ⟨l, hl, fun hv => trainLog_quiet hv hl⟩
  | partialFit X y ml ep =>
    obtain ⟨p, hp, rfl⟩ := tagged_status h
    obtain ⟨l, hl⟩ := trainLog_ok (kind := .classifier) (fresh := !isFitted B st.ta) (ep := ep) (st := p.1) (s := p.2)
      fun hs => ⟨fun hf => (partialFitClassifier_log hp hs).1 (by simpa using hf), (partialFitClassifier_log hp hs).2⟩
    exact ⟨l, hl, fun hv => trainLog_quiet hv hl⟩
  | fitR X y ep =>
    obtain ⟨p, hp, rfl⟩ := tagged_status h
    obtain ⟨l, hl⟩ := trainLog_ok (kind := .regressor) (fresh := true) (ep := ep) (st := p.1) (s := p.2)
      fun hs => ⟨fun _ => (fitRegressor_log hp hs).1, (fitRegressor_log hp hs).2⟩
    exact ⟨l, hl, fun hv => trainLog_quiet hv hl⟩
  | partialFitR X y ep =>
    obtain ⟨p, hp, rfl⟩ := tagged_status h
    obtain ⟨l, hl⟩ := trainLog_ok (kind := .regressor) (fresh := !isFitted B st.ta) (ep := ep) (st := p.1) (s := p.2)
      fun hs => ⟨fun hf => (partialFitRegressor_log hp hs).1 (by simpa using hf), (partialFitRegressor_log hp hs).2⟩
    exact ⟨l, hl, fun hv => trainLog_quiet hv hl⟩
  | predict1 x => exact ⟨_, rfl, fun _ => rfl⟩
  | predict X => exact ⟨_, rfl, fun _ => rfl⟩
  | decision1 x => exact ⟨_, rfl, fun _ => rfl⟩
  | decision X => exact ⟨_, rfl, fun _ => rfl⟩
  | evaluate X y => exact ⟨_, rfl, fun _ => rfl⟩
  | predictR1 x => exact ⟨_, rfl, fun _ => rfl⟩
  | predictR X => exact ⟨_, rfl, fun _ => rfl⟩

/-! ### C59 -/

/-- **C59**: estimators made with parameters that differ at most in verbose return the same for every
history of calls and learn the same. -/
theorem C59_verbose {p p' : Params} (hm : Made k p) (hm' : Made k p') (hp : AgreeBut ["verbose"] p p')
    (hN : StatesOk a p) (sc sc' : Sched) (cs : List (Call a.Sample k)) (ht : ∀ c ∈ cs, WellTyped a c)
    {st : EstState a.backend env} {outs : List Out}
    (hr : run a.backend env sc cs (EstState.fresh a.backend env p) = .ok (st, outs)) :
    ∃ st', run a.backend env sc' cs (EstState.fresh a.backend env p') = .ok (st', outs) ∧
      AgreeBut ["verbose"] st.params st'.params ∧ SameLearned st st' := by
  obtain ⟨cfg, cfg', hk, hv, hst, hc, h1, h2, l1, l2⟩ := made_twins (a := a) hm hm' (by decide) hp hN
  have e := Cfg.eq_of_core hc
  have ect : cfg'.ctype = cfg.ctype := by
    have h := h2.ctype
    rw [hp _ (by decide), h1.ctype] at h
    simpa using h.symm
  have eti : cfg'.tile = cfg.tile := by
    have h := h2.tile
    rw [hp _ (by decide), h1.tile] at h
    simpa using h.symm
  have hct : cfg'.ct = cfg.ct := by
    unfold Cfg.ct
    rw [ect, e]
  obtain ⟨r', h3, h4, h5, ss', h6, h7⟩ := run_twin (sc' := sc') hv hst hc hct hk (R := AgreeBut ["verbose"])
    (fun c f o p p' h => Call.record_agree h f c o) cs ht (Sim.fresh (L := a.lawful) h1 l1) (Sim.fresh h2 l2) hp (.inl eti) hr
  refine ⟨r'.1, ?_, h5, ⟨h6.ta_eq hc hct h7, (h6.igen_eq h7).1, (h6.igen_eq h7).2⟩⟩
  rw [h3]; dsimp only at h4; rw [← h4]

theorem Toy.cVerbose_made : Made .classifier (made (cMore (.verbose true))) :=
  made_of _ (by constructor <;> decide +kernel) (by decide +kernel)

/-- A quiet and a verbose classifier, and a history with training that returns. -/
example : Made .classifier Toy.cParams ∧ Made .classifier (Toy.made (Toy.cMore (.verbose true))) ∧
    AgreeBut ["verbose"] Toy.cParams (Toy.made (Toy.cMore (.verbose true))) ∧
    Params.get? Toy.cParams "verbose" = some (.bool false) ∧
    Params.get? (Toy.made (Toy.cMore (.verbose true))) "verbose" = some (.bool true) ∧
    StatesOk .bitwise Toy.cParams ∧ (∀ c ∈ Toy.bCalls, WellTyped .bitwise c) ∧
    ∃ st outs, run bitwise Toy.env Toy.seq Toy.bCalls (EstState.fresh bitwise Toy.env Toy.cParams) = .ok (st, outs) :=
  ⟨Toy.cMade, Toy.cVerbose_made, Toy.agreeBut_of (by decide +kernel), by decide +kernel, by decide +kernel,
    Toy.statesOk_of (N := 3) (by decide +kernel) (by decide), by decide +kernel,
    Toy.run_of (a := .bitwise) (by decide +kernel)⟩

/-- **C59**: with verbose off, no history of calls of any estimator writes anything to the log. -/
theorem C59_silent (sc : Sched) (cs : List (Call a.Sample k)) {st st' : EstState a.backend env} {outs : List Out}
    (hv : st.params.get? "verbose" = some (.bool false)) (hr : run a.backend env sc cs st = .ok (st', outs)) :
    runLog a.backend env sc cs st = .ok (st', []) := by
  induction cs generalizing st outs with
  | nil => cases hr; rfl
  | cons c cs ih =>
    unfold run at hr
    simp only [bind_eq_ok] at hr
    obtain ⟨r, h1, r', h2, h3⟩ := hr
    cases h3
    have e := ifOk_iff.1 (step_other c st) _ h1 "verbose" (by decide) (by decide)
    obtain ⟨l, hl, hq⟩ := callLog_ok h1
    unfold runLog
    rw [h1, ok_bind, hl, ok_bind, ih (outs := r'.2) (by rw [e]; exact hv) (by rw [h2]), ok_bind, hq (by rw [e]; exact hv)]
    rfl

/-- **C59**: logging never gets in the way: whenever a history of calls returns, so do all its log
statements, and the history ends in the same state. -/
theorem C59_total (sc : Sched) (cs : List (Call a.Sample k)) {st st' : EstState a.backend env} {outs : List Out}
    (hr : run a.backend env sc cs st = .ok (st', outs)) :
    ∃ lines, runLog a.backend env sc cs st = .ok (st', lines) := by
  induction cs generalizing st outs with
  | nil => cases hr; exact ⟨_, rfl⟩
  | cons c cs ih =>
    unfold run at hr
    simp only [bind_eq_ok] at hr
    obtain ⟨r, h1, r', h2, h3⟩ := hr
    cases h3
    obtain ⟨l, hl, -⟩ := callLog_ok h1
    obtain ⟨ls, hls⟩ := ih (outs := r'.2) (by rw [h2])
    unfold runLog
    rw [h1, ok_bind, hl, ok_bind, hls, ok_bind]
    exact ⟨_, rfl⟩

/-- **C59**: the log of a history is the logs of its calls, in the order of the calls: one more call appends its own
lines at the end, and no call leaves the log as it is. -/
theorem C59_history (sc : Sched) (cs : List (Call a.Sample k)) (c : Call a.Sample k) {st st1 st2 : EstState a.backend env}
    {lines : List LogLine} {o : Out} (h1 : runLog a.backend env sc cs st = .ok (st1, lines))
    (h2 : step a.backend env sc c st1 = .ok (st2, o)) :
    runLog a.backend env sc (k := k) [] st = .ok (st, []) ∧
    ∃ l, callLog c st1 st2 o = .ok l ∧ runLog a.backend env sc (cs ++ [c]) st = .ok (st2, lines ++ l) := by
  refine ⟨rfl, ?_⟩
  obtain ⟨l, hl, -⟩ := callLog_ok h2
  refine ⟨l, hl, ?_⟩
  induction cs generalizing st lines with
  | nil =>
    cases h1
    unfold runLog runLog
    rw [List.nil_append, List.nil_append]
    dsimp only
    rw [h2, ok_bind, hl, ok_bind, ok_bind, List.append_nil]
  | cons d cs ih =>
    unfold runLog at h1
    simp only [bind_eq_ok] at h1
    obtain ⟨r, e1, l', e2, r', e3, e4⟩ := h1
    cases e4
    rw [List.cons_append]
    unfold runLog
    rw [e1, ok_bind, e2, ok_bind, ih (lines := r'.2) (by rw [e3]), ok_bind, List.append_assoc]


theorem epochLines_eq (n : Nat) : ((List.range n).map fun e => LogLine.epoch (e + 1)) = Spec.epochLines n := by
  induction n with
  | zero => rfl
  | succ n ih => rw [List.range_succ, List.map_append, ih]; rfl

theorem trainLog_fresh {B : Backend} {kind : Kind} {ep : Nat} {st : EstState B env} {s : Status} (hs : s.code = .ok)
    (hv : st.params.get? "verbose" = some (.bool true)) {l : List LogLine} (hl : logParams kind st.params = .ok l)
    {N : Int} (hN : IntParam st.params "number_of_states" N)
    {ct : String} (hct : st.params.get? "counting_type" = some (.str ct)) :
    trainLog kind true ep st (.status s) =
      .ok (l ++ [.selected (Spec.counterWidth ct N)] ++ Spec.epochLines ep) := by
  have hv : st.params.verbose = .ok true := Params.getBool_eq hv
  have hN : st.params.numberOfStates = .ok N := Params.getInt_eq hN
  have hct : st.params.countingType = .ok ct := Params.getStr_eq hct
  unfold trainLog epochsLog initLog
  dsimp only
  rw [if_neg (by simpa using hs)]
  simp only [if_true]
  rw [hv, ok_bind, hl, ok_bind, hN, ok_bind, hct, ok_bind, ok_bind, ok_bind, ← epochLines_eq, counterWidth_eq]
  rfl

/-- **C59**: what a successful fit of a verbose classifier writes to the log: the parameters in effect
after the call, the counter width, and the epochs, in this order.  `number_of_clauses` is the number
of clauses of all labels together. -/
theorem C59_fit_classifier (sc : Sched) {st st' : EstState a.backend env} {X : List a.Sample} {y : List Int}
    {ml : Int} {ep : Nat} {s : Status} (h : step a.backend env sc (.fit X y ml ep) st = .ok (st', .status s))
    (hs : s.code = .ok) (hv : st'.params.get? "verbose" = some (.bool true))
    {labels clauses features N T mw jobs : Int} {sp : Fl} {w : Bool} {ct : String} {seed : BitVec 32}
    (h1 : IntParam st'.params "number_of_labels" labels)
    (h2 : IntParam st'.params "number_of_clauses_per_label" clauses)
    (h3 : IntParam st'.params "number_of_features" features)
    (h4 : st'.params.get? "s" = some (.real sp)) (h5 : IntParam st'.params "number_of_states" N)
    (h6 : IntParam st'.params "threshold" T) (h7 : st'.params.get? "weighted" = some (.bool w))
    (h8 : IntParam st'.params "max_weight" mw) (h9 : st'.params.get? "counting_type" = some (.str ct))
    (h10 : IntParam st'.params "n_jobs" jobs) (h11 : st'.params.get? "random_state" = some (.seed seed)) :
    callLog (.fit X y ml ep) st st' (.status s) = .ok (
      [.param "number_of_labels" (.int labels), .param "number_of_clauses" (.int (labels * clauses)),
       .param "number_of_features" (.int features), .param "s" (.real sp), .param "number_of_states" (.int N),
       .param "threshold" (.int T), .param "weighted" (.bool w)] ++
      (if w then [.param "max_weight" (.int mw)] else []) ++
      [.param "counting_type" (.str ct), .param "n_jobs" (.int jobs), .param "random_state" (.seed seed)] ++
      [.selected (Spec.counterWidth ct N)] ++ Spec.epochLines ep) := by
  obtain ⟨⟨st1, s1⟩, hp, he⟩ := tagged_status h
  cases he
  obtain ⟨⟨l, hl⟩, -⟩ := fitClassifier_log hp hs
  unfold initLog at hl
  simp only [bind_eq_ok] at hl
  obtain ⟨_, -, lp, hl, -⟩ := hl
  refine (trainLog_fresh (ep := ep) hs hv hl h5 h9).trans ?_
  unfold logParams logMaxWeight at hl
  dsimp only at hl
  have e1 : st1.params.numberOfLabels = .ok labels := Params.getInt_eq h1
  have e2 : st1.params.clausesPerLabel = .ok clauses := Params.getInt_eq h2
  have e3 : st1.params.numberOfFeatures = .ok features := Params.getInt_eq h3
  have e4 : st1.params.specificity = .ok sp := Params.getReal_eq h4
  have e5 : st1.params.numberOfStates = .ok N := Params.getInt_eq h5
  have e6 : st1.params.threshold = .ok T := Params.getInt_eq h6
  have e7 : st1.params.weighted = .ok w := Params.getBool_eq h7
  have e8 : st1.params.maxWeight = .ok mw := Params.getInt_eq h8
  have e9 : st1.params.countingType = .ok ct := Params.getStr_eq h9
  have e10 : st1.params.nJobs = .ok jobs := Params.getInt_eq h10
  have e11 : st1.params.randomState = .ok seed := Params.getSeed_eq h11
  rw [e1, ok_bind, bind_eq_ok] at hl
  obtain ⟨c, hc, hl⟩ := hl
  unfold Params.physicalClassifierClauses at hc
  rw [e1, ok_bind, e2, ok_bind, i32_eq_ok] at hc
  obtain ⟨_, rfl⟩ := hc
  rw [e3, ok_bind, e4, ok_bind, e5, ok_bind, e6, ok_bind, e7, ok_bind, ok_bind, e8, ok_bind, e9, e10, e11] at hl
  cases w <;> cases hl <;> rfl

/-- **C59**: the same for regressors. -/
theorem C59_fit_regressor (sc : Sched) {st st' : EstState a.backend env} {X : List a.Sample} {y : List Int}
    {ep : Nat} {s : Status} (h : step a.backend env sc (.fitR X y ep) st = .ok (st', .status s))
    (hs : s.code = .ok) (hv : st'.params.get? "verbose" = some (.bool true))
    {clauses features N T mw jobs : Int} {sp C1 : Fl} {w bm : Bool} {ct loss : String} {seed : BitVec 32}
    (h2 : IntParam st'.params "number_of_regressor_clauses" clauses)
    (h3 : IntParam st'.params "number_of_features" features)
    (h4 : st'.params.get? "s" = some (.real sp)) (h5 : IntParam st'.params "number_of_states" N)
    (h6 : IntParam st'.params "threshold" T) (h7 : st'.params.get? "weighted" = some (.bool w))
    (h8 : IntParam st'.params "max_weight" mw) (h9 : st'.params.get? "counting_type" = some (.str ct))
    (h10 : IntParam st'.params "n_jobs" jobs) (h11 : st'.params.get? "random_state" = some (.seed seed))
    (h12 : st'.params.get? "loss_fn" = some (.str loss)) (h13 : st'.params.get? "loss_fn_C1" = some (.real C1))
    (h14 : st'.params.get? "box_muller" = some (.bool bm)) :
    callLog (.fitR X y ep) st st' (.status s) = .ok (
      [.param "number_of_clauses" (.int clauses),
       .param "number_of_features" (.int features), .param "s" (.real sp), .param "number_of_states" (.int N),
       .param "threshold" (.int T), .param "weighted" (.bool w)] ++
      (if w then [.param "max_weight" (.int mw)] else []) ++
      [.param "loss_fn" (.str loss), .param "loss_fn(C1)" (.real C1), .param "box_muller" (.bool bm),
       .param "counting_type" (.str ct), .param "n_jobs" (.int jobs), .param "random_state" (.seed seed)] ++
      [.selected (Spec.counterWidth ct N)] ++ Spec.epochLines ep) := by
  obtain ⟨⟨st1, s1⟩, hp, he⟩ := tagged_status h
  cases he
  obtain ⟨⟨l, hl⟩, -⟩ := fitRegressor_log hp hs
  unfold initLog at hl
  simp only [bind_eq_ok] at hl
  obtain ⟨_, -, lp, hl, -⟩ := hl
  refine (trainLog_fresh (ep := ep) hs hv hl h5 h9).trans ?_
  unfold logParams logMaxWeight at hl
  dsimp only at hl
  have e2 : st1.params.physicalRegressorClauses = .ok clauses := Params.getInt_eq h2
  have e3 : st1.params.numberOfFeatures = .ok features := Params.getInt_eq h3
  have e4 : st1.params.specificity = .ok sp := Params.getReal_eq h4
  have e5 : st1.params.numberOfStates = .ok N := Params.getInt_eq h5
  have e6 : st1.params.threshold = .ok T := Params.getInt_eq h6
  have e7 : st1.params.weighted = .ok w := Params.getBool_eq h7
  have e8 : st1.params.maxWeight = .ok mw := Params.getInt_eq h8
  have e9 : st1.params.countingType = .ok ct := Params.getStr_eq h9
  have e10 : st1.params.nJobs = .ok jobs := Params.getInt_eq h10
  have e11 : st1.params.randomState = .ok seed := Params.getSeed_eq h11
  have e12 : st1.params.lossFnName = .ok loss := Params.getStr_eq h12
  have e13 : st1.params.lossFnC1 = .ok C1 := Params.getReal_eq h13
  have e14 : st1.params.boxMuller = .ok bm := Params.getBool_eq h14
  rw [e2, ok_bind, e3, ok_bind, e4, ok_bind, e5, ok_bind, e6, ok_bind, e7, ok_bind, ok_bind, e8, ok_bind, e12, e13,
    e14, e9, e10, e11] at hl
  cases w <;> cases hl <;> rfl

/-- **C59**: a successful partial_fit of a fitted, verbose estimator logs its epochs, counted from 1
again, and nothing else. -/
theorem C59_partial_fit (sc : Sched) {st st' : EstState a.backend env} (hf : Fitted a st) {s : Status}
    (hs : s.code = .ok) (hv : st'.params.get? "verbose" = some (.bool true)) (ep : Nat) :
    (∀ (X : List a.Sample) (y : List Int) (ml : Int),
      step a.backend env sc (.partialFit X y ml ep) st = .ok (st', .status s) →
      callLog (.partialFit X y ml ep) st st' (.status s) = .ok (Spec.epochLines ep)) ∧
    (∀ (X : List a.Sample) (y : List Int),
      step a.backend env sc (.partialFitR X y ep) st = .ok (st', .status s) →
      callLog (.partialFitR X y ep) st st' (.status s) = .ok (Spec.epochLines ep)) := by
  have hi : isFitted a.backend st.ta = true := fitted_iff.2 hf
  have hv : st'.params.verbose = .ok true := Params.getBool_eq hv
  constructor
  · intro X y ml _
    unfold callLog trainLog epochsLog
    dsimp only
    rw [hi, if_neg (by simpa using hs), hv, ok_bind, ← epochLines_eq]
    rfl
  · intro X y _
    unfold callLog trainLog epochsLog
    dsimp only
    rw [hi, if_neg (by simpa using hs), hv, ok_bind, ← epochLines_eq]
    rfl

/-- **C59**: every other call - and every call that reports an error - logs nothing, verbose or not. -/
theorem C59_others (sc : Sched) {st st' : EstState a.backend env} (c : Call a.Sample k) {o : Out}
    (h : step a.backend env sc c st = .ok (st', o)) (ho : ∀ s, o = .status s → s.code ≠ .ok) :
    callLog c st st' o = .ok [] := by
  have tr : ∀ {kind : Kind} {fr : Bool} {ep : Nat}, trainLog kind fr ep st' o = .ok [] := by
    intro kind fr ep
    unfold trainLog
    split
    · rename_i s; rw [if_pos (ho s rfl)]
    · rfl
  cases c with
  | fit X y ml ep => exact tr
  | partialFit X y ml ep => exact tr
  | fitR X y ep => exact tr
  | partialFitR X y ep => exact tr
  | _ => rfl

/-- The log of a history: a fit with two epochs, then a partial_fit with one, of a weighted classifier
with two clauses per label and three labels. -/
def Toy.logOf (p : Params) : Option (List LogLine) :=
  match runLog bitwise Toy.env Toy.seq Toy.bCalls (EstState.fresh bitwise Toy.env p) with
  | .ok (_, l) => some l
  | _ => none

example : Toy.logOf (Toy.made (Toy.cMore (.verbose true))) = some (
      [.param "number_of_labels" (.int 3), .param "number_of_clauses" (.int 12), .param "number_of_features" (.int 3),
       .param "s" (.real (.fin 2)), .param "number_of_states" (.int 3), .param "threshold" (.int 2),
       .param "weighted" (.bool true), .param "max_weight" (.int 3), .param "counting_type" (.str "auto"),
       .param "n_jobs" (.int 8), .param "random_state" (.seed 5#32), .selected "int8",
       .epoch 1, .epoch 2, .epoch 1]) ∧
    Toy.logOf Toy.cParams = some [] := by
  constructor <;> decide +kernel

/-- A verbose classifier whose fit succeeds, and a verbose fitted one whose partial_fit succeeds. -/
example : (match step bitwise Toy.env Toy.seq (.fit Toy.XB [0, 1, 2, 1] 0 2)
        (EstState.fresh bitwise Toy.env (Toy.made (Toy.cMore (.verbose true)))) with
      | .ok (st, .status s) => s.code == .ok && st.params.get? "verbose" == some (.bool true) &&
        (match step bitwise Toy.env Toy.seq (.partialFit Toy.XB [1, 1, 0, 2] 0 1) st with
          | .ok (_, .status s) => s.code == .ok && isFitted bitwise st.ta
          | _ => false)
      | _ => false) = true := by decide +kernel

theorem Toy.rVerbose_made : Made .regressor (made (.regressorArgs (.verbose true :: rArgs true 3))) :=
  made_of _ (by constructor <;> decide +kernel) (by decide +kernel)

/-- The log of a verbose regressor. -/
example : (match runLog classic Toy.env Toy.seq Toy.crCalls
        (EstState.fresh classic Toy.env (Toy.made (.regressorArgs (.verbose true :: Toy.rArgs true 3)))) with
      | .ok (_, l) => l.length | _ => 0) = 14 + 3 := by decide +kernel

end Tsetlini
