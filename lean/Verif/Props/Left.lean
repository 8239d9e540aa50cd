import Verif.Props.Saved
import Verif.Props.Log
import Verif.Props.Safety
/-
C61: what is left of an estimator when loading a text throws.
-/
namespace Tsetlini
open Res Spec

variable {a : Algo} {k : Kind} {env : Env}

/-! ### `resetInto` and `loadInto` are `resetCache` and `loadState` when they return -/

theorem assign_bind {σ τ α : Type} (st : σ) (r : Res α) (next : α → σ × Res Unit) (F : σ → Res τ) :
    (assign st r next).2.bind (fun _ => F (assign st r next).1) = r.bind fun v => (next v).2.bind fun _ => F (next v).1 := by
  cases r <;> rfl

theorem resetInto_eq (kind : Kind) (p : Params) (c : Cache) :
    (resetInto env kind p c).2.bind (fun _ => .ok (resetInto env kind p c).1) = resetCache env kind p c.tick := by
  cases kind with
  | classifier =>
    unfold resetInto resetCache
    simp only [assign_bind, bind_assoc, ok_bind]
    congr 1; funext n
    cases vecSize n <;> rfl
  | regressor =>
    unfold resetInto resetCache
    simp only [assign_bind, bind_assoc, ok_bind]

/-- **C61**: loading returns exactly when the four members of the document can be read and the scratch memory can be set up, and what
it then leaves is what `load` (C30, C31, C51) says. -/
theorem C61_returns (gio : GenIO env) (old : EstState a.backend env) (js : JVal) :
    load a k gio old js = (loadLeaves a k gio old js).2.bind fun _ => .ok (loadLeaves a k gio old js).1 := by
  unfold load loadState loadLeaves loadInto
  simp only [assign_bind, bind_assoc, ← resetInto_eq, ok_bind]

/-- **C61**: what a text leaves whose members can be read up to some point only.  The generators, the automata (with the weights)
and the parameters are replaced one after the other, in this order; what comes after the first
member that cannot be read stays as it was.  `e` is the exception. -/
theorem C61_left (gio : GenIO env) (old : EstState a.backend env) (js : JVal) (e : Exn) :
    ((js.at' "igen").bind gio.iOf = .exn e → loadLeaves a k gio old js = (old, .exn e)) ∧
    ∀ g, (js.at' "igen").bind gio.iOf = .ok g →
    ((js.at' "fgen").bind gio.fOf = .exn e → loadLeaves a k gio old js = ({ old with igen := g }, .exn e)) ∧
    ∀ f, (js.at' "fgen").bind gio.fOf = .ok f →
    ((js.at' "ta_state").bind a.io.ofJ = .exn e → loadLeaves a k gio old js = ({ old with igen := g, fgen := f }, .exn e)) ∧
    ∀ ta, (js.at' "ta_state").bind a.io.ofJ = .ok ta →
    ((js.at' "params").bind (Params.ofJson env.rnd) = .exn e →
      loadLeaves a k gio old js = ({ old with igen := g, fgen := f, ta := ta }, .exn e)) ∧
    ∀ p, (js.at' "params").bind (Params.ofJson env.rnd) = .ok p →
      ∃ c, (loadLeaves a k gio old js).1 = ⟨p, ta, c, g, f⟩ ∧
        ∀ c', (loadLeaves a k gio old js).2 = .ok c' → resetCache env k p old.cache.tick = .ok c := by
  unfold loadLeaves loadInto
  refine ⟨fun h => by rw [h]; rfl, fun g h => ?_⟩
  rw [h]
  refine ⟨fun h => ?_, fun f h => ?_⟩
  · simp only [assign, h]
  refine ⟨fun h' => ?_, fun ta h' => ?_⟩
  · simp only [assign, h, h']
  refine ⟨fun h'' => ?_, fun p h'' => ?_⟩
  · simp only [assign, h, h', h'']
  simp only [assign, h, h', h'']
  refine ⟨_, rfl, fun c' hc => ?_⟩
  have := resetInto_eq (env := env) k p old.cache
  rw [hc, ok_bind] at this
  exact this.symm

/-! ### Other generators -/

/-- All of an estimator but its generators. -/
def noGens {B : Backend} (st : EstState B env) : Params × TA B × Cache := (st.params, st.ta, st.cache)

theorem initializeState_gens {B : Backend} {kind : Kind} {p : Params} {ta : TA B} {c : Cache} {g g' : env.G} {f f' : env.F} :
    initializeState B env kind ⟨p, ta, c, g', f'⟩ = initializeState B env kind ⟨p, ta, c, g, f⟩ := rfl

/-- A call that is no `partial_fit` of a fitted estimator does not look at the generators. -/
theorem step_gens {B : Backend} {sc : Sched} (c : Call B.Sample k) {st st' : EstState B env}
    (hc : IsPartialFit c → isFitted B st.ta = false) (h : noGens st' = noGens st) :
    ((step B env sc c st').bind fun r => .ok (noGens r.1, r.2)) = (step B env sc c st).bind fun r => .ok (noGens r.1, r.2) := by
  obtain ⟨p, ta, ca, g, f⟩ := st
  obtain ⟨p', ta', ca', g', f'⟩ := st'
  have h1 : p' = p := congrArg Prod.fst h
  have h2 : ta' = ta := congrArg (fun x => x.2.1) h
  have h3 : ca' = ca := congrArg (fun x => x.2.2) h
  subst h1; subst h2; subst h3
  have fitC : ∀ X y ml ep, ((fitClassifier B env sc ⟨p', ta', ca', g', f'⟩ X y ml ep).bind fun r => .ok (noGens r.1, Out.status r.2)) =
      (fitClassifier B env sc ⟨p', ta', ca', g, f⟩ X y ml ep).bind fun r => .ok (noGens r.1, Out.status r.2) := by
    intro X y ml ep
    unfold fitClassifier
    simp only [bind_assoc]
    congr 1; funext sm
    split
    · rfl
    simp only [bind_assoc]
    congr 1; funext hi
    congr 1; funext hi1
    congr 1; funext sm
    split
    · rfl
    cases X with
    | nil => rfl
    | cons x0 X => rfl
  have fitR : ∀ X y ep, ((fitRegressor B env sc ⟨p', ta', ca', g', f'⟩ X y ep).bind fun r => .ok (noGens r.1, Out.status r.2)) =
      (fitRegressor B env sc ⟨p', ta', ca', g, f⟩ X y ep).bind fun r => .ok (noGens r.1, Out.status r.2) := by
    intro X y ep
    unfold fitRegressor
    simp only [bind_assoc]
    congr 1; funext sm
    split
    · rfl
    simp only [bind_assoc]
    congr 1; funext T
    split
    · rfl
    cases X with
    | nil => rfl
    | cons x0 X => rfl
  cases c with
  | fit X y ml ep =>
    simp only [step, tagged, bind_assoc, ok_bind]
    exact fitC X y ml ep
  | partialFit X y ml ep =>
    have hf : isFitted B ta' = false := hc trivial
    simp only [step, tagged, bind_assoc, ok_bind, partialFitClassifier, hf]
    exact fitC X y ml ep
  | fitR X y ep =>
    simp only [step, tagged, bind_assoc, ok_bind]
    exact fitR X y ep
  | partialFitR X y ep =>
    have hf : isFitted B ta' = false := hc trivial
    simp only [step, tagged, bind_assoc, ok_bind, partialFitRegressor, hf]
    exact fitR X y ep
  | predict1 x =>
    simp only [step, tagged, bind_assoc, ok_bind, predictClassifier1]
    congr 1; funext sm
    split
    · rfl
    · simp only [bind_assoc, ok_bind]; rfl
  | predict X =>
    simp only [step, tagged, bind_assoc, ok_bind, predictClassifier]
    congr 1; funext sm
    split
    · rfl
    · simp only [bind_assoc, ok_bind]; rfl
  | decision1 x =>
    simp only [step, tagged, bind_assoc, ok_bind, decision1]
    congr 1; funext sm
    split
    · rfl
    · simp only [bind_assoc, ok_bind]; rfl
  | decision X =>
    simp only [step, tagged, bind_assoc, ok_bind, decision]
    congr 1; funext sm
    split
    · rfl
    · simp only [bind_assoc, ok_bind]; rfl
  | evaluate X y =>
    simp only [step, tagged, bind_assoc, ok_bind, evaluate]; rfl
  | predictR1 x =>
    simp only [step, tagged, bind_assoc, ok_bind, predictRegressor1]
    congr 1; funext sm
    split
    · rfl
    · simp only [bind_assoc, ok_bind]; rfl
  | predictR X =>
    simp only [step, tagged, bind_assoc, ok_bind, predictRegressor]
    congr 1; funext sm
    split
    · rfl
    · simp only [bind_assoc, ok_bind]; rfl

theorem run_gens {B : Backend} {sc : Sched} (cs : List (Call B.Sample k)) (hc : ∀ c ∈ cs, ¬ IsPartialFit c) {st st' : EstState B env}
    (h : noGens st' = noGens st) :
    ((run B env sc cs st').bind fun r => .ok (noGens r.1, r.2)) = (run B env sc cs st).bind fun r => .ok (noGens r.1, r.2) := by
  induction cs generalizing st st' with
  | nil =>
    show Res.ok _ = Res.ok _
    rw [h]
  | cons c cs ih =>
    have h1 := step_gens (sc := sc) c (st := st) (st' := st') (fun hp => absurd hp (hc c (List.mem_cons_self ..))) h
    have ih := fun {st st'} h => ih (fun c hm => hc c (List.mem_cons_of_mem _ hm)) (st := st) (st' := st') h
    simp only [run, bind_assoc, ok_bind]
    cases e : step B env sc c st with
    | ok r =>
      cases e' : step B env sc c st' with
      | ok r' =>
        rw [e, e', ok_bind, ok_bind] at h1
        have h1 := Res.ok.inj h1
        have hn : noGens r'.1 = noGens r.1 := congrArg Prod.fst h1
        have ho : r'.2 = r.2 := congrArg (fun x => x.2) h1
        rw [ok_bind, ok_bind, ho]
        have := congrArg (fun q => Res.bind q fun z => Res.ok (z.1, r.2 :: z.2)) (ih hn)
        simp only [Res.bind_assoc, ok_bind] at this
        exact this
      | _ => rw [e, e'] at h1; cases h1
    | ub u => cases e' : step B env sc c st' <;> rw [e, e'] at h1 <;> cases h1; rfl
    | exn u => cases e' : step B env sc c st' <;> rw [e, e'] at h1 <;> cases h1; rfl
    | timeout => cases e' : step B env sc c st' <;> rw [e, e'] at h1 <;> cases h1 <;> rfl

/-- **C61**: a text whose automata cannot be read - or whose generators cannot - changes nothing but generators: parameters, automata and weights are
those of before, and so is what any sequence of calls other than `partial_fit` comes to - what it returns, throws
or leaves. -/
theorem C61_automata_unreadable (gio : GenIO env) (old : EstState a.backend env) (js : JVal)
    (h : ∀ ta, (js.at' "ta_state").bind a.io.ofJ ≠ .ok ta) :
    let left := (loadLeaves a k gio old js).1
    left.params = old.params ∧ left.ta = old.ta ∧ left.cache = old.cache ∧
    ∀ (sc : Sched) (cs : List (Call a.Sample k)), (∀ c ∈ cs, ¬ IsPartialFit c) →
      (run a.backend env sc cs left).bind (fun r => .ok ((r.1.params, r.1.ta, r.1.cache), r.2)) =
        (run a.backend env sc cs old).bind fun r => .ok ((r.1.params, r.1.ta, r.1.cache), r.2) := by
  have key : noGens (loadLeaves a k gio old js).1 = noGens old := by
    unfold loadLeaves loadInto
    cases (js.at' "igen").bind gio.iOf with
    | ok g =>
      cases e1 : (js.at' "fgen").bind gio.fOf with
      | ok f =>
        cases e2 : (js.at' "ta_state").bind a.io.ofJ with
        | ok ta => exact absurd e2 (h ta)
        | _ => rfl
      | _ => rfl
    | _ => rfl
  exact ⟨congrArg Prod.fst key, congrArg (fun x => x.2.1) key, congrArg (fun x => x.2.2) key,
    fun sc cs hc => run_gens cs hc key⟩

/-- **C61**: in particular, trying to load the text of a fitted classic estimator into a bitwise one leaves the latter
as it was, but with the generators of the former. -/
theorem C61_classic_as_bitwise {gio : GenIO env} (hg : Faithful gio) {st : EstState Algo.classic.backend env} (h : Reached .classic k st)
    (hN : StatesOk .classic st.params) (hf : Fitted .classic st) (old : EstState Algo.bitwise.backend env) :
    loadLeaves .bitwise k gio old (save .classic k gio st) = ({ old with igen := st.igen, fgen := st.fgen }, .exn .jsonError) := by
  obtain ⟨cfg, labels, nf, ss, hk, hv, hm, hF⟩ := reached_fit h hN hf
  have hr := Fit.io_round hv hF
  have e : bitwiseIO.ofJ (classicIO.toJ st.ta) = .exn .jsonError := by
    obtain ⟨m, w1, w2⟩ := classic_parts hr
    show (Matrix.ofJson (Matrix.toJson st.ta.mat)).bind (fun m => (weightsOfJson (weightsToJson st.ta.weights)).bind fun ws =>
      (JVal.at' "polarity" (.obj [("matrix", Matrix.toJson st.ta.mat), ("weights", weightsToJson st.ta.weights)])).bind fun x =>
        (polOfJson x).bind fun pol => Res.ok (⟨(⟨m, pol⟩ : PMatrix), ws⟩ : TA bitwise)) = _
    rw [w1, ok_bind, w2, ok_bind]
    rfl
  exact ((((C61_left gio old (save .classic k gio st) .jsonError).2 _ (hg.igen _)).2 _ (hg.fgen _)).1 e)

/-! ### A text for the other kind of estimator -/

theorem bool_code {s : Status} (h : ¬ s.code ≠ .ok) : s.code = .ok := Decidable.not_not.1 h

/-- A fitted classifier whose parameters lack the number of labels and the number of clauses. -/
theorem stuckC {B : Backend} {sc : Sched} {st : EstState B env} (hl : ∀ i, st.params.get? "number_of_labels" ≠ some (.int i))
    (hc : ∀ i, st.params.get? "number_of_clauses_per_label" ≠ some (.int i)) (hf : isFitted B st.ta = true)
    (c : Call B.Sample .classifier) {r : EstState B env × Out} (h : step B env sc c st = .ok r) : r.1 = st ∧ Refused r.2 := by
  obtain ⟨e1, h1⟩ := getInt_exn hl
  have hi : inferCfg st.params = .exn e1 := by
    show (Params.getInt _ _).bind _ = _
    rw [h1]; rfl
  cases c with
  | fit X y ml ep =>
    obtain ⟨q, hq, rfl⟩ := tagged_status h
    show q.1 = st ∧ q.2.code ≠ .ok
    unfold fitClassifier at hq
    rw [bind_eq_ok] at hq
    obtain ⟨sm, -, hq⟩ := hq
    split at hq
    · cases hq; exact ⟨rfl, by assumption⟩
    simp only [bind_eq_ok] at hq
    obtain ⟨_, -, _, -, sm, -, hq⟩ := hq
    split at hq
    · cases hq; exact ⟨rfl, by assumption⟩
    split at hq
    · cases hq
    · exfalso
      rename_i x0 _
      rw [bind_eq_ok] at hq
      obtain ⟨st1, hs, -⟩ := hq
      unfold initializeState at hs
      simp only [bind_eq_ok] at hs
      obtain ⟨_, -, _, -, _, hlog, -⟩ := hs
      have hc' : ∀ lab i, Params.get? ((st.params.set "number_of_labels" lab).set "number_of_features" (.int (B.size x0)))
          "number_of_clauses_per_label" ≠ some (.int i) := by
        intro lab i
        rw [Params.get?_set_ne _ (by decide), Params.get?_set_ne _ (by decide)]
        exact hc i
      unfold logParams Params.physicalClassifierClauses at hlog
      simp only [bind_eq_ok] at hlog
      obtain ⟨_, -, _, ⟨_, -, _, hcl, -⟩, -⟩ := hlog
      obtain ⟨e, he⟩ := getInt_exn (hc' _)
      rw [Params.clausesPerLabel, he] at hcl
      cases hcl
  | partialFit X y ml ep =>
    obtain ⟨q, hq, rfl⟩ := tagged_status h
    show q.1 = st ∧ q.2.code ≠ .ok
    unfold partialFitClassifier at hq
    rw [if_pos hf] at hq
    unfold fitClassifierOnlineChecked at hq
    rw [bind_eq_ok] at hq
    obtain ⟨sm, -, hq⟩ := hq
    split at hq
    · cases hq; exact ⟨rfl, by assumption⟩
    simp only [bind_eq_ok] at hq
    obtain ⟨_, -, sm, -, hq⟩ := hq
    split at hq
    · cases hq; exact ⟨rfl, by assumption⟩
    rw [Params.numberOfLabels, h1] at hq
    cases hq
  | predict1 x =>
    simp only [step, tagged, predictClassifier1, bind_eq_ok, hi] at h
    obtain ⟨q, ⟨sm, -, hq⟩, h⟩ := h
    split at hq
    · cases hq; cases h; exact ⟨rfl, _, rfl⟩
    · cases hq
  | predict X =>
    simp only [step, tagged, predictClassifier, bind_eq_ok, hi] at h
    obtain ⟨q, ⟨sm, -, hq⟩, h⟩ := h
    split at hq
    · cases hq; cases h; exact ⟨rfl, _, rfl⟩
    · cases hq
  | decision1 x =>
    simp only [step, tagged, decision1, bind_eq_ok, hi] at h
    obtain ⟨q, ⟨sm, -, hq⟩, h⟩ := h
    split at hq
    · cases hq; cases h; exact ⟨rfl, _, rfl⟩
    · cases hq
  | decision X =>
    simp only [step, tagged, decision, bind_eq_ok, hi] at h
    obtain ⟨q, ⟨sm, -, hq⟩, h⟩ := h
    split at hq
    · cases hq; cases h; exact ⟨rfl, _, rfl⟩
    · cases hq
  | evaluate X y =>
    simp only [step, tagged, evaluate, hi] at h
    cases h

/-- A fitted regressor whose parameters lack the number of clauses. -/
theorem stuckR {B : Backend} {sc : Sched} {st : EstState B env} (hc : ∀ i, st.params.get? "number_of_regressor_clauses" ≠ some (.int i))
    (hf : isFitted B st.ta = true) (c : Call B.Sample .regressor) {r : EstState B env × Out} (h : step B env sc c st = .ok r) :
    r.1 = st ∧ Refused r.2 := by
  obtain ⟨e1, h1⟩ := getInt_exn hc
  have ho : st.params.regressorOutputs = .exn e1 := by
    show (Params.getInt _ _).bind _ = _
    rw [h1]; rfl
  cases c with
  | fitR X y ep =>
    obtain ⟨q, hq, rfl⟩ := tagged_status h
    show q.1 = st ∧ q.2.code ≠ .ok
    unfold fitRegressor at hq
    rw [bind_eq_ok] at hq
    obtain ⟨sm, -, hq⟩ := hq
    split at hq
    · cases hq; exact ⟨rfl, by assumption⟩
    rw [bind_eq_ok] at hq
    obtain ⟨T, -, hq⟩ := hq
    dsimp only at hq
    split at hq
    · cases hq; exact ⟨rfl, by assumption⟩
    split at hq
    · cases hq
    · exfalso
      rename_i x0 _
      rw [bind_eq_ok] at hq
      obtain ⟨st1, hs, -⟩ := hq
      unfold initializeState at hs
      simp only [bind_eq_ok] at hs
      obtain ⟨_, -, _, -, _, hlog, -⟩ := hs
      have hc' : ∀ i, Params.get? (st.params.set "number_of_features" (.int (B.size x0)))
          "number_of_regressor_clauses" ≠ some (.int i) := by
        intro i
        rw [Params.get?_set_ne _ (by decide)]
        exact hc i
      unfold logParams Params.physicalRegressorClauses at hlog
      simp only [bind_eq_ok] at hlog
      obtain ⟨_, hcl, -⟩ := hlog
      obtain ⟨e, he⟩ := getInt_exn hc'
      rw [he] at hcl
      cases hcl
  | partialFitR X y ep =>
    obtain ⟨q, hq, rfl⟩ := tagged_status h
    show q.1 = st ∧ q.2.code ≠ .ok
    unfold partialFitRegressor at hq
    rw [if_pos hf] at hq
    unfold fitRegressorOnlineChecked at hq
    rw [bind_eq_ok] at hq
    obtain ⟨sm, -, hq⟩ := hq
    split at hq
    · cases hq; exact ⟨rfl, by assumption⟩
    simp only [bind_eq_ok] at hq
    obtain ⟨_, -, sm, -, hq⟩ := hq
    split at hq
    · cases hq; exact ⟨rfl, by assumption⟩
    rw [bind_eq_ok] at hq
    obtain ⟨T, -, hq⟩ := hq
    split at hq
    · cases hq; exact ⟨rfl, by assumption⟩
    unfold fitRegressorOnline at hq
    simp only [bind_eq_ok, ho] at hq
    exfalso
    grind
  | predictR1 x =>
    simp only [step, tagged, predictRegressor1, bind_eq_ok, ho] at h
    obtain ⟨q, ⟨sm, -, hq⟩, h⟩ := h
    split at hq
    · cases hq; cases h; exact ⟨rfl, _, rfl⟩
    · simp only [bind_eq_ok] at hq
      obtain ⟨_, -, _, -, _, hq, -⟩ := hq
      cases hq
  | predictR X =>
    simp only [step, tagged, predictRegressor, bind_eq_ok, ho] at h
    obtain ⟨q, ⟨sm, -, hq⟩, h⟩ := h
    split at hq
    · cases hq; cases h; exact ⟨rfl, _, rfl⟩
    · simp only [bind_eq_ok] at hq
      obtain ⟨_, -, _, hq, -⟩ := hq
      cases hq

/-- A parameter of a type that is no `int` after reloading either. -/
theorem reload_not_int {rnd : Rat → Rat} {p : Params} {key : String} 
    (h : ∀ i, p.get? key ≠ some (.int i)) (hs : ∀ i, p.get? key ≠ some (.seed i)) :
    ∀ i, Params.get? (p.map fun e => (e.1, reload rnd e.1 e.2)) key ≠ some (.int i) := by
  intro i hi
  rw [get?_reload] at hi
  cases hg : p.get? key with
  | none => rw [hg] at hi; cases hi
  | some v =>
    rw [hg] at hi
    have hi := Option.some.inj hi
    cases v with
    | int j => exact h j hg
    | seed j => exact hs j hg
    | real x => cases x <;> cases hi
    | bool b => cases hi
    | str b => cases hi
    | none => cases hi

/-- What is left by a text all members of which can be read, if the scratch memory cannot be set up. -/
theorem left_of_saved {gio : GenIO env} (hg : Faithful gio) {k' : Kind} {st old : EstState a.backend env}
    (hr : a.io.ofJ (a.io.toJ st.ta) = .ok st.ta) :
    ∃ c, (loadLeaves a k gio old (save a k' gio st)).1 =
      ⟨st.params.map fun e => (e.1, reload env.rnd e.1 e.2), st.ta, c, st.igen, st.fgen⟩ := by
  have hp : ((save a k' gio st).at' "params").bind (Params.ofJson env.rnd) =
      .ok (st.params.map fun e => (e.1, reload env.rnd e.1 e.2)) := params_reload env.rnd st.params
  obtain ⟨c, h, -⟩ := ((((C61_left (k := k) gio old (save a k' gio st) .jsonError).2 _ (hg.igen _)).2 _ (hg.fgen _)).2 _ hr).2 _ hp
  exact ⟨c, h⟩

/-- **C61**: a classifier into which the text of a fitted regressor was loaded (which throws, C51) is of no use: no call
gives a result any more - `fit` included - but reports an error or throws, and leaves it like that.  (Unless the
regressor's parameters happened to include the number of a classifier's clauses.) -/
theorem C61_regressor_as_classifier {gio : GenIO env} (hg : Faithful gio) {st : EstState a.backend env} (h : Reached a .regressor st)
    (hN : StatesOk a st.params) (hf : Fitted a st) (hp : st.params.get? "number_of_clauses_per_label" = none)
    (old : EstState a.backend env) (left : EstState a.backend env)
    (hleft : left = (loadLeaves a .classifier gio old (save a .regressor gio st)).1) :
    left.ta = st.ta ∧ ∀ (sc : Sched) (c : Call a.Sample .classifier) r, step a.backend env sc c left = .ok r → r.1 = left ∧ Refused r.2 := by
  obtain ⟨cfg, labels, nf, ss, hk, hv, hm, hF⟩ := reached_fit h hN hf
  obtain ⟨c, e⟩ := left_of_saved (k := .classifier) (k' := .regressor) (old := old) hg (Fit.io_round hv hF)
  have hl : ∀ i, Params.get? (st.params.map fun e => (e.1, reload env.rnd e.1 e.2)) "number_of_labels" ≠ some (.int i) := by
    refine reload_not_int (fun i hi => ?_) (fun i hi => ?_)
    · have t : TypedAt .regressor "number_of_labels" (.int i) := Reached.typedAt h hi
      cases t.2.1 rfl
    · have t : TypedAt .regressor "number_of_labels" (.seed i) := Reached.typedAt h hi
      have t : "number_of_labels" = "random_state" := t
      exact absurd t (by decide)
  have hc : ∀ i, Params.get? (st.params.map fun e => (e.1, reload env.rnd e.1 e.2)) "number_of_clauses_per_label" ≠ some (.int i) :=
    reload_not_int (fun i hi => by rw [hp] at hi; cases hi) (fun i hi => by rw [hp] at hi; cases hi)
  have hfit : isFitted a.backend st.ta = true := fitted_iff.2 hf
  rw [e] at hleft
  subst hleft
  refine ⟨rfl, fun sc d r hr => ?_⟩
  refine stuckC ?_ ?_ ?_ d hr
  · exact hl
  · exact hc
  · exact hfit

/-- **C61**: likewise a regressor into which the text of a fitted classifier was loaded. -/
theorem C61_classifier_as_regressor {gio : GenIO env} (hg : Faithful gio) {st : EstState a.backend env} (h : Reached a .classifier st)
    (hN : StatesOk a st.params) (hf : Fitted a st) (hp : st.params.get? "number_of_regressor_clauses" = none)
    (old : EstState a.backend env) (left : EstState a.backend env)
    (hleft : left = (loadLeaves a .regressor gio old (save a .classifier gio st)).1) :
    left.ta = st.ta ∧ ∀ (sc : Sched) (c : Call a.Sample .regressor) r, step a.backend env sc c left = .ok r → r.1 = left ∧ Refused r.2 := by
  obtain ⟨cfg, labels, nf, ss, hk, hv, hm, hF⟩ := reached_fit h hN hf
  obtain ⟨c, e⟩ := left_of_saved (k := .regressor) (k' := .classifier) (old := old) hg (Fit.io_round hv hF)
  have hc : ∀ i, Params.get? (st.params.map fun e => (e.1, reload env.rnd e.1 e.2)) "number_of_regressor_clauses" ≠ some (.int i) :=
    reload_not_int (fun i hi => by rw [hp] at hi; cases hi) (fun i hi => by rw [hp] at hi; cases hi)
  have hfit : isFitted a.backend st.ta = true := fitted_iff.2 hf
  rw [e] at hleft
  subst hleft
  refine ⟨rfl, fun sc d r hr => ?_⟩
  refine stuckR ?_ ?_ d hr
  · exact hc
  · exact hfit

/-- **C61**: whatever a failed load left, loading the text of a fitted estimator of the right kind makes it
that estimator. -/
theorem C61_recovers {gio : GenIO env} (hg : Faithful gio) {st : EstState a.backend env} (h : Reached a k st)
    (hN : StatesOk a st.params) (hf : Fitted a st) (hfl : FloatsOk env.rnd st.params) (old : EstState a.backend env) (js : JVal) :
    ∃ st', load a k gio (loadLeaves a k gio old js).1 (save a k gio st) = .ok st' ∧ SameLearned st st' ∧ Indistinguishable a k st st' := by
  obtain ⟨st', h1, -, -, h4, h5⟩ := C30_round_trip hg h hN hf hfl (loadLeaves a k gio old js).1
  exact ⟨st', h1, h4, h5⟩

/-! ### Concrete cases, and what must not be relied on -/

/-- A trained classic classifier with two labels and one feature. -/
def Toy.narrow : EstState classic Toy.env :=
  Toy.after .classic (k := .classifier) Toy.cParams [.fit ([[1], [0]] : List ClassicSample) [0, 1] 0 1]

theorem Toy.narrow_reached : Reached .classic .classifier Toy.narrow :=
  Toy.reached_of Toy.cMade (by decide +kernel) (by decide +kernel)

/-- Its text, but without parameters. -/
def Toy.noParams : JVal :=
  match save .classic .classifier Toy.gio Toy.narrow with
  | .obj l => .obj (l.filter fun e => e.1 ≠ "params")
  | j => j

/-- The same classifier as `Toy.cc`, but without weights. -/
def Toy.plain : EstState classic Toy.env := Toy.after .classic (Toy.made (.classifierArgs (Toy.cArgs false 3))) Toy.cCalls

theorem Toy.plain_reached : Reached .classic .classifier Toy.plain :=
  Toy.reached_of (Toy.made_of (.classifierArgs (Toy.cArgs false 3)) (by constructor <;> decide +kernel) (by decide +kernel))
    (by decide +kernel) (by decide +kernel)

/-- **C61**, what must not be relied on: a text whose parameters cannot be read leaves the automata of the one estimator with the parameters
of the other, and a prediction for a sample that passes validation reads out of bounds. -/
theorem C61_mixed : ∃ (st : EstState classic Toy.env) (js : JVal) (x : ClassicSample),
    Reached .classic .classifier st ∧ StatesOk .classic st.params ∧ Fitted .classic st ∧
    (loadLeaves .classic .classifier Toy.gio st js).2 = .exn .jsonError ∧
    (∃ r v, step classic Toy.env Toy.seq (.predict1 x) st = .ok (r, .label (.ok v))) ∧
    step classic Toy.env Toy.seq (.predict1 x) (loadLeaves .classic .classifier Toy.gio st js).1 = .ub .oob := by
  refine ⟨Toy.cc, Toy.noParams, [1, 0, 1], Toy.cc_reached, Toy.cc_states, Toy.cc_fitted, by decide +kernel, ?_, Toy.ub_of (by decide +kernel)⟩
  have h : (match step classic Toy.env Toy.seq (.predict1 ([1, 0, 1] : ClassicSample)) Toy.cc with
    | .ok (_, .label (.ok _)) => true | _ => false) = true := by decide +kernel
  split at h
  · exact ⟨_, _, by assumption⟩
  · cases h

/-- **C61**, what must not be relied on: `fit` does not repair that either.  An estimator without weights keeps those of the text, which are too few for
the labels it is then trained for. -/
theorem C61_mixed_fit : ∃ (st : EstState classic Toy.env) (js : JVal),
    Reached .classic .classifier st ∧ StatesOk .classic st.params ∧ Fitted .classic st ∧
    st.params.get? "weighted" = some (.bool false) ∧
    (loadLeaves .classic .classifier Toy.gio st js).2 = .exn .jsonError ∧
    (step classic Toy.env Toy.seq (.fit Toy.X [0, 1, 2, 1] 0 1) st).isOk = true ∧
    step classic Toy.env Toy.seq (k := .classifier) (.fit Toy.X [0, 1, 2, 1] 0 1) (loadLeaves .classic .classifier Toy.gio st js).1 = .ub .oob :=
  ⟨Toy.plain, Toy.noParams, Toy.plain_reached, Toy.statesOk_of (N := 3) (by decide +kernel) (by decide),
    by show Algo.classic.counters Toy.plain ≠ []; decide +kernel, by decide +kernel, by decide +kernel, by decide +kernel,
    Toy.ub_of (by decide +kernel)⟩

/-- The cases of the theorems: a text of a trained classic classifier for a bitwise one, of a regressor for a classifier, and the reverse. -/
example : Reached .classic .classifier Toy.cc ∧ StatesOk .classic Toy.cc.params ∧ Fitted .classic Toy.cc ∧
    (∀ ta, ((save .classic .classifier Toy.gio Toy.cc).at' "ta_state").bind (Algo.io .bitwise).ofJ ≠ .ok ta) ∧
    Reached .bitwise .regressor Toy.br ∧ StatesOk .bitwise Toy.br.params ∧ Fitted .bitwise Toy.br ∧
    Toy.br.params.get? "number_of_clauses_per_label" = none ∧
    Toy.cc.params.get? "number_of_regressor_clauses" = none ∧ FloatsOk Toy.env.rnd Toy.cc.params := by
  refine ⟨Toy.cc_reached, Toy.cc_states, Toy.cc_fitted, fun ta h => ?_, Toy.br_reached, Toy.br_states, Toy.br_fitted,
    by decide +kernel, by decide +kernel, Toy.floats_of (by decide +kernel)⟩
  have : (((save .classic .classifier Toy.gio Toy.cc).at' "ta_state").bind (Algo.io .bitwise).ofJ).isOk = false := by decide +kernel
  rw [h] at this
  cases this

end Tsetlini
