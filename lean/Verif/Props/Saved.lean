import Verif.Lemmas.StateJson
import Verif.Props.Toy
/- Saving and loading: C30, C31, C51. -/
namespace Tsetlini
open Res Spec

variable {a : Algo} {k : Kind} {env : Env}

/-- **C30**: saving a fitted estimator and loading the text, into a state with whatever contents, returns a state that compares equal to
the original (`==`), has the same value of every parameter, the same automata, weights and generators, and
answers every later history of calls identically. -/
theorem C30_round_trip {gio : GenIO env} (hg : Faithful gio) {st : EstState a.backend env} (h : Reached a k st)
    (hN : StatesOk a st.params) (hf : Fitted a st) (hfl : FloatsOk env.rnd st.params) (old : EstState a.backend env) :
    ∃ st', load a k gio old (save a k gio st) = .ok st' ∧ EstState.CppEq k st' st ∧
      AgreeBut [] st.params st'.params ∧ SameLearned st st' ∧ Indistinguishable a k st st' := by
  obtain ⟨cfg, labels, nf, ss, hk, hv, hm, hF⟩ := reached_fit h hN hf
  have hp := reload_same (rnd := env.rnd) (fun key v hv => Reached.typedAt h hv) hfl (Fit.ints hk hv h hF)
  obtain ⟨st', h1, h2, h3, h4⟩ := loaded (old := old) hg hv hk hF hp
  refine ⟨st', h1, ⟨congrArg TA.mat h3.ta, congrArg TA.weights h3.ta, h3.igen, h3.fgen, fun key => ?_, ?_⟩, h2, h3,
    sims_indist hv hm hk (.inr ⟨_, _, hF⟩) (.inr ⟨_, _, h4⟩) h2⟩
  · rw [h2 key (by simp)]
    cases hg : st.params.get? key with
    | none => trivial
    | some v =>
      dsimp only
      cases v with
      | real x =>
        obtain ⟨q, rfl, -⟩ := hfl _ _ hg
        show (Fl.fin q == Fl.fin q) = true
        simp
      | int _ => show (PVal.int _ == PVal.int _) = true; simp
      | seed _ => show (PVal.seed _ == PVal.seed _) = true; simp
      | bool _ => show (PVal.bool _ == PVal.bool _) = true; simp
      | str _ => show (PVal.str _ == PVal.str _) = true; simp
      | none => rfl
  · unfold Cache.cppEq
    subst hk
    cases hk : cfg.kind with
    | classifier => dsimp only; rw [hF.coLen, h4.coLen, hF.lsLen hk, h4.lsLen hk, hF.fbLen hk, h4.fbLen hk]; simp
    | regressor => dsimp only; rw [hF.coLen, h4.coLen]; simp

/-- **C30**: the library's own generators survive, whatever was drawn from them. -/
theorem C30_generators (u : Unspecified) : Faithful (realGenIO u) := ⟨(realGenIO_faithful u).1, (realGenIO_faithful u).2⟩

/-- A way to save the toy generators. -/
def Toy.gio : GenIO Toy.env where
  iTo := fun g : Nat => .unsigned g
  iOf := fun j => match j with | .unsigned n => .ok (show Nat from n) | _ => .exn .jsonError
  fTo := fun g : Nat => .unsigned g
  fOf := fun j => match j with | .unsigned n => .ok (show Nat from n) | _ => .exn .jsonError

theorem Toy.gio_faithful : Faithful Toy.gio := ⟨fun _ => rfl, fun _ => rfl⟩

/-- Not a NaN and not an infinity. -/
def Toy.finite : PVal → Bool
  | .real (.fin _) => true
  | .real _ => false
  | _ => true

theorem Toy.floats_of {p : Params} (h : ∀ e ∈ p, Toy.finite e.2 = true) :
    FloatsOk Toy.env.rnd p := by
  intro key v hv
  have := h _ (Toy.mem_of_lookup hv)
  cases v with
  | fin q => exact ⟨q, rfl, rfl⟩
  | nan => cases this
  | inf b => cases this

example : Faithful Toy.gio ∧ Reached .bitwise .classifier Toy.bc ∧ StatesOk .bitwise Toy.bc.params ∧ Fitted .bitwise Toy.bc ∧
    FloatsOk Toy.env.rnd Toy.bc.params :=
  ⟨Toy.gio_faithful, Toy.bc_reached, Toy.bc_states, Toy.bc_fitted, Toy.floats_of (by decide +kernel)⟩

example : FloatsOk Toy.env.rnd Toy.cr.params := Toy.floats_of (by decide +kernel)

theorem unfit_ofJ {st : EstState a.backend env} {cfg : Cfg} {ss : SState env} (hU : Unfit a.lawful cfg st ss) : a.io.ofJ (a.io.toJ st.ta) = .ub .oob := by
  have h1 := hU.mat
  cases a with
  | classic =>
    have h1 : (show Matrix from st.ta.mat) = Matrix.empty := h1
    show (Matrix.ofJson (Matrix.toJson st.ta.mat)).bind _ = _
    have e : Matrix.ofJson (Matrix.toJson (show Matrix from st.ta.mat)) = .ub .oob := by rw [h1]; rfl
    exact congrArg (fun r => Res.bind r _) e
  | bitwise =>
    have h1 : (show PMatrix from st.ta.mat).m = Matrix.empty := by rw [h1]; rfl
    show (Matrix.ofJson (Matrix.toJson (show PMatrix from st.ta.mat).m)).bind _ = _
    rw [h1]
    rfl

/-- **C31**: loading the text saved from an unfitted estimator is undefined behaviour: it refers to the first
element of an empty array. -/
theorem C31_unfitted {gio : GenIO env} (hg : Faithful gio) {st : EstState a.backend env} (h : Reached a k st)
    (hN : StatesOk a st.params) (hf : ¬ Fitted a st) (old : EstState a.backend env) :
    load a k gio old (save a k gio st) = .ub .oob := by
  obtain ⟨cfg, ss, hk, hv, hm, hU⟩ := reached_unfit h hN hf
  show (gio.iOf (gio.iTo st.igen)).bind _ = _
  rw [hg.igen, ok_bind]
  show (gio.fOf (gio.fTo st.fgen)).bind _ = _
  rw [hg.fgen, ok_bind]
  show (a.io.ofJ (a.io.toJ st.ta)).bind _ = _
  rw [unfit_ofJ hU]
  rfl

example : Reached .classic .classifier (EstState.fresh classic Toy.env Toy.cParams) ∧
    ¬ Fitted .classic (EstState.fresh classic Toy.env Toy.cParams) :=
  ⟨.of_run Toy.cParams Toy.seq [] [] Toy.cMade (by simp) rfl, fun h => h rfl⟩

/-- The state of an estimator with a NaN for loss_fn_C1 (which its loss function does not use) after some training. -/
def Toy.nanState : EstState classic Toy.env := Toy.after .classic (Toy.made Toy.nanReq) Toy.crCalls

theorem Toy.nanState_reached : Reached .classic .regressor Toy.nanState :=
  Toy.reached_of Toy.nan_made (by decide +kernel) (by decide +kernel)

/-- Loading, then another training call. -/
def Toy.reloaded : Res (EstState classic Toy.env) :=
  load .classic .regressor Toy.gio Toy.nanState (save .classic .regressor Toy.gio Toy.nanState)

/-- The parameter is lost and training throws. -/
def Toy.throws : Res (EstState classic Toy.env) → Bool
  | .ok st' => decide (st'.params.get? "loss_fn_C1" = some .none) &&
      (match step classic Toy.env Toy.seq (k := .regressor) (.partialFitR Toy.X [0, 1, 2, 1] 1) st' with
        | .exn .badVariant => true | _ => false)
  | _ => false

/-- **C30**, the excluded case: a loss_fn_C1 that is not finite (it is not validated) is saved as null.  Loading returns a state
that differs from the original, and whose training throws where the original's succeeds. -/
theorem C30_nonfinite_lost : ∃ (env : Env) (gio : GenIO env) (st st' : EstState classic env) (c : Call ClassicSample .regressor),
    Faithful gio ∧ Reached .classic .regressor st ∧ StatesOk .classic st.params ∧ Fitted .classic st ∧
    load .classic .regressor gio st (save .classic .regressor gio st) = .ok st' ∧ ¬ EstState.CppEq .regressor st' st ∧
    WellTyped .classic c ∧ (∃ r, step classic env Toy.seq c st = .ok r) ∧ step classic env Toy.seq c st' = .exn .badVariant := by
  have h1 : Toy.throws Toy.reloaded = true := by decide +kernel
  have h2 : (step classic Toy.env Toy.seq (k := .regressor) (.partialFitR Toy.X [0, 1, 2, 1] 1) Toy.nanState).isOk = true := by
    decide +kernel
  cases hl : Toy.reloaded with
  | ok st' =>
    rw [hl] at h1
    unfold Toy.throws at h1
    dsimp only at h1
    rw [Bool.and_eq_true, decide_eq_true_iff] at h1
    obtain ⟨h3, h4⟩ := h1
    refine ⟨Toy.env, Toy.gio, Toy.nanState, st', .partialFitR Toy.X [0, 1, 2, 1] 1, Toy.gio_faithful, Toy.nanState_reached,
      Toy.statesOk_of (N := 100) (by decide +kernel) (by decide), by unfold Fitted; decide +kernel, hl, ?_,
      ⟨fun _ _ => trivial, by unfold IsInt; decide⟩, ?_, ?_⟩
    · rintro ⟨-, -, -, -, h, -⟩
      have := h "loss_fn_C1"
      have e : Toy.nanState.params.get? "loss_fn_C1" = some (.real .nan) := by decide +kernel
      rw [h3, e] at this
      revert this; decide
    · cases hs : step classic Toy.env Toy.seq (k := .regressor) (.partialFitR Toy.X [0, 1, 2, 1] 1) Toy.nanState with
      | ok r => exact ⟨r, hs⟩
      | ub _ => rw [hs] at h2; cases h2
      | exn _ => rw [hs] at h2; cases h2
      | timeout => rw [hs] at h2; cases h2
    · revert h4
      split
      · next h => exact fun _ => h
      · exact fun h => by cases h
  | ub _ => rw [hl] at h1; cases h1
  | exn _ => rw [hl] at h1; cases h1
  | timeout => rw [hl] at h1; cases h1

/-! ### C51 -/

/-- What a sample of one family and one of the other have in common: both are well-formed, and describe the same features. -/
structure SameFeatures (x : Algo.classic.Sample) (xb : Algo.bitwise.Sample) : Prop where
  classic : Algo.Good .classic x
  built : Algo.Built .bitwise xb
  bitwise : Algo.Good .bitwise xb
  bits : Algo.classic.bits x = Algo.bitwise.bits xb

/-- The call returned `v`: a result or a status. -/
def Answers {σ α : Type} (r : Res (σ × Except Status α)) (v : Except Status α) : Prop := ∃ s, r = .ok (s, v)

/-- The two estimators predict (or report) the same for the same features. -/
structure SamePredictions (k : Kind) (st : EstState Algo.bitwise.backend env) (st' : EstState Algo.classic.backend env) : Prop where
  decision : k = .classifier → ∀ sc sc' x xb, SameFeatures x xb → ∀ v,
    Answers (decision1 Algo.classic.backend env sc' st' x) v ↔ Answers (decision1 Algo.bitwise.backend env sc st xb) v
  predict : k = .classifier → ∀ sc sc' x xb, SameFeatures x xb → ∀ v,
    Answers (predictClassifier1 Algo.classic.backend env sc' st' x) v ↔ Answers (predictClassifier1 Algo.bitwise.backend env sc st xb) v
  response : k = .regressor → ∀ sc sc' x xb, SameFeatures x xb → ∀ v,
    Answers (predictRegressor1 Algo.classic.backend env sc' st' x) v ↔ Answers (predictRegressor1 Algo.bitwise.backend env sc st xb) v

/-- The classic estimator with the same counters. -/
def toClassic (st : EstState Algo.bitwise.backend env) : EstState Algo.classic.backend env :=
  ⟨st.params, ⟨(show PMatrix from st.ta.mat).m, st.ta.weights⟩, st.cache, st.igen, st.fgen⟩

theorem toClassic_fit {cfg : Cfg} {labels nf : Nat} {st : EstState Algo.bitwise.backend env} {ss : SState env}
    (h : Fit Algo.bitwise.lawful cfg labels nf st ss) : Fit Algo.classic.lawful cfg labels nf (toClassic st) ss where
  reads := h.reads
  labelsP := h.labelsP
  featP := h.featP
  reg1 := h.reg1
  pos := h.pos
  abs := (show BitAbs _ _ _ _ _ from h.abs).base
  len := h.len
  w := h.w
  wlen := h.wlen
  wmax := h.wmax
  coLen := h.coLen
  lsLen := h.lsLen
  fbLen := h.fbLen
  fbRange := h.fbRange
  lsRange := h.lsRange
  ct := h.ct
  igen := h.igen
  fgen := h.fgen
  shape := h.shape
  small := h.small
  nfSmall := h.nfSmall
  alloc := h.alloc.1

theorem answers_same {σ τ α : Type} {r : Res (σ × Except Status α)} {r' : Res (τ × Except Status α)} {o o' : Res (Except Status α)}
    (ho : o' = o) (h : r.Ret fun q => o = .ok q.2) (h' : r'.Ret fun q => o' = .ok q.2) (v : Except Status α) :
    Answers r' v ↔ Answers r v := by
  subst ho
  obtain ⟨⟨s, q⟩, rfl, e⟩ := h
  obtain ⟨⟨s', q'⟩, rfl, e'⟩ := h'
  have : q = q' := Res.ok.inj (e.symm.trans e')
  subst this
  constructor
  · rintro ⟨_, h⟩
    cases h
    exact ⟨_, rfl⟩
  · rintro ⟨_, h⟩
    cases h
    exact ⟨_, rfl⟩

theorem SameFeatures.check {x : Algo.classic.Sample} {xb : Algo.bitwise.Sample} (hx : SameFeatures x xb) (sh : Option (Nat × Nat)) :
    checkS Algo.classic.backend sh x = checkS Algo.bitwise.backend sh xb := by
  have hsz : Algo.classic.backend.size x = Algo.bitwise.backend.size xb := by
    have e := congrArg List.length hx.bits
    have e1 := Algo.classic.lawful.bits_length x
    have e2 := Algo.bitwise.lawful.bits_length xb
    rw [lawful_bits] at e1 e2
    omega
  have g : ∀ (a : Algo) (z : a.Sample), a.Built z → a.Good z → checkS a.backend sh z = match sh with
      | none => .ok ⟨.notFitted, notFittedMsg⟩
      | some (_, nf) => if (a.backend.size z : Int) ≠ (nf : Int) then
        .ok ⟨.valueError, "Predict called with sample, which size " ++ toString (a.backend.size z) ++
          " does not match number of features from prior fit " ++ toString (nf : Int)⟩
        else .ok .sOk := by
    intro a z hb hg
    have hbin := (a.lawful.bin_iff z).1 ((lawful_bin a z).2 hg)
    obtain ⟨b, hb1, hb2⟩ := a.lawful.pad_ret z ((lawful_sinv a z).2 hb)
    unfold checkS
    cases sh with
    | none => rfl
    | some p =>
      obtain ⟨l, nf⟩ := p
      dsimp only
      rw [(a.lawful.all01_eq z).2 hbin.1, hb1, ok_bind, hb2.2 hbin.2]
      rfl
  rw [g .classic x trivial hx.classic, g .bitwise xb hx.built hx.bitwise, hsz]

theorem same_predictions {cfg : Cfg} {labels nf : Nat} {st : EstState Algo.bitwise.backend env} {st' : EstState Algo.classic.backend env}
    {ss : SState env} (hv : Valid cfg) (hk : cfg.kind = k) (h : Fit Algo.bitwise.lawful cfg labels nf st ss)
    (h' : Fit Algo.classic.lawful cfg labels nf st' ss) : SamePredictions k st st' := by
  have hb : ∀ {x xb}, SameFeatures x xb → Algo.classic.lawful.bits x = Algo.bitwise.lawful.bits xb := by
    intro x xb hx
    rw [lawful_bits, lawful_bits]
    exact hx.bits
  have i1 : ∀ {x xb}, SameFeatures x xb → Algo.bitwise.lawful.SInv xb := fun hx => (lawful_sinv .bitwise _).2 hx.built
  have i2 : ∀ {x xb}, SameFeatures x xb → Algo.classic.lawful.SInv x := fun _ => (lawful_sinv .classic _).2 trivial
  subst hk
  constructor
  · intro hk sc sc' x xb hx v
    refine answers_same ?_ ((decision1_ref sc hv hk (.inr ⟨_, _, h⟩) (i1 hx)).mono fun _ h => h.2.2)
      ((decision1_ref sc' hv hk (.inr ⟨_, _, h'⟩) (i2 hx)).mono fun _ h => h.2.2) v
    unfold decision1S
    rw [hx.check, hb hx]
  · intro hk sc sc' x xb hx v
    refine answers_same ?_ ((predict1_ref sc hv hk (.inr ⟨_, _, h⟩) (i1 hx)).mono fun _ h => h.2.2)
      ((predict1_ref sc' hv hk (.inr ⟨_, _, h'⟩) (i2 hx)).mono fun _ h => h.2.2) v
    unfold predict1S
    rw [hx.check, hb hx]
  · intro hk sc sc' x xb hx v
    refine answers_same ?_ ((predictR1_ref sc hv hk (.inr ⟨_, _, h⟩) (i1 hx)).mono fun _ h => h.2.2)
      ((predictR1_ref sc' hv hk (.inr ⟨_, _, h'⟩) (i2 hx)).mono fun _ h => h.2.2) v
    unfold predictR1S
    rw [hx.check, hb hx]

/-- **C51**: the text saved from a fitted bitwise estimator can be loaded as a classic one (nothing checks the member "algo"): same
parameters, counters, weights and generators, and it predicts the same for the same features. -/
theorem C51_bitwise_as_classic {gio : GenIO env} (hg : Faithful gio) {st : EstState Algo.bitwise.backend env} (h : Reached .bitwise k st)
    (hN : StatesOk .bitwise st.params) (hf : Fitted .bitwise st) (hfl : FloatsOk env.rnd st.params) (old : EstState Algo.classic.backend env) :
    ∃ st', load .classic k gio old (save .bitwise k gio st) = .ok st' ∧ AgreeBut [] st.params st'.params ∧
      Algo.classic.counters st' = Algo.bitwise.counters st ∧ st'.ta.weights = st.ta.weights ∧ st'.igen = st.igen ∧ st'.fgen = st.fgen ∧
      SamePredictions k st st' := by
  obtain ⟨cfg, labels, nf, ss, hk, hv, hm, hF⟩ := reached_fit h hN hf
  have hp := reload_same (rnd := env.rnd) (fun key v hv => Reached.typedAt h hv) hfl (Fit.ints hk hv h hF)
  obtain ⟨st', h1, h2, h3, h4⟩ := loaded (old := old) hg hv hk (toClassic_fit hF) hp
  refine ⟨st', h1, h2, ?_, congrArg TA.weights h3.ta, h3.igen, h3.fgen, same_predictions hv hk hF h4⟩
  show Algo.classic.backend.counters st'.ta.mat = _
  rw [h3.ta]
  rfl

/-- **C51**: the text saved from a fitted classic estimator cannot be loaded as a bitwise one: loading throws. -/
theorem C51_classic_as_bitwise {gio : GenIO env} (hg : Faithful gio) {st : EstState Algo.classic.backend env} (h : Reached .classic k st)
    (hN : StatesOk .classic st.params) (hf : Fitted .classic st) (old : EstState Algo.bitwise.backend env) :
    load .bitwise k gio old (save .classic k gio st) = .exn .jsonError := by
  obtain ⟨cfg, labels, nf, ss, hk, hv, hm, hF⟩ := reached_fit h hN hf
  have hr := Fit.io_round hv hF
  show (gio.iOf (gio.iTo st.igen)).bind _ = _
  rw [hg.igen, ok_bind]
  show (gio.fOf (gio.fTo st.fgen)).bind _ = _
  rw [hg.fgen, ok_bind]
  have e : bitwiseIO.ofJ (classicIO.toJ st.ta) = .exn .jsonError := by
    obtain ⟨m, w1, w2⟩ := classic_parts hr
    show (Matrix.ofJson (Matrix.toJson st.ta.mat)).bind (fun m => (weightsOfJson (weightsToJson st.ta.weights)).bind fun ws =>
      (JVal.at' "polarity" (.obj [("matrix", Matrix.toJson st.ta.mat), ("weights", weightsToJson st.ta.weights)])).bind fun x =>
        (polOfJson x).bind fun pol => Res.ok (⟨(⟨m, pol⟩ : PMatrix), ws⟩ : TA bitwise)) = _
    rw [w1, ok_bind, w2, ok_bind]
    rfl
  show (bitwiseIO.ofJ (classicIO.toJ st.ta)).bind _ = _
  rw [e]
  rfl

theorem getInt_exn {p : Params} {key : String} (h : ∀ i, p.get? key ≠ some (.int i)) : ∃ e, p.getInt key = .exn e := by
  unfold Params.getInt Params.at'
  cases hg : p.get? key with
  | none => exact ⟨_, rfl⟩
  | some v =>
    cases v with
    | int i => exact absurd hg (h i)
    | _ => exact ⟨_, rfl⟩

/-- **C51**: the text saved from a fitted regressor cannot be loaded as a classifier: loading throws. -/
theorem C51_regressor_as_classifier {gio : GenIO env} (hg : Faithful gio) {st : EstState a.backend env} (h : Reached a .regressor st)
    (hN : StatesOk a st.params) (hf : Fitted a st) (old : EstState a.backend env) :
    ∃ e, load a .classifier gio old (save a .regressor gio st) = .exn e := by
  obtain ⟨cfg, labels, nf, ss, hk, hv, hm, hF⟩ := reached_fit h hN hf
  have e : load a .classifier gio old (save a .regressor gio st) = load a .classifier gio old (save a .classifier gio st) := rfl
  rw [e, load_save hg (Fit.io_round hv hF)]
  have hl : ∀ i, Params.get? (st.params.map fun e => (e.1, reload env.rnd e.1 e.2)) "number_of_labels" ≠ some (.int i) := by
    intro i hi
    rw [get?_reload] at hi
    cases hg : st.params.get? "number_of_labels" with
    | none => rw [hg] at hi; cases hi
    | some v =>
      have t : TypedAt .regressor "number_of_labels" v := Reached.typedAt h hg
      rw [hg] at hi
      have hi := Option.some.inj hi
      cases v with
      | int j => cases t.2.1 rfl
      | seed j =>
        have t : "number_of_labels" = "random_state" := t
        exact absurd t (by decide)
      | real x => cases x <;> cases hi
      | bool b => cases hi
      | str b => cases hi
      | none => cases hi
  obtain ⟨e, he⟩ := getInt_exn hl
  refine ⟨e, ?_⟩
  show ((Params.getInt _ "number_of_labels").bind _ |>.bind _).bind _ = _
  rw [he]
  rfl

/-- **C51**: the text saved from a fitted classifier cannot be loaded as a regressor, unless its parameters happened to include the number
of regressor clauses (which the factories for classifiers accept in JSON and ignore): loading throws. -/
theorem C51_classifier_as_regressor {gio : GenIO env} (hg : Faithful gio) {st : EstState a.backend env} (h : Reached a .classifier st)
    (hN : StatesOk a st.params) (hf : Fitted a st) (hp : st.params.get? "number_of_regressor_clauses" = none) (old : EstState a.backend env) :
    load a .regressor gio old (save a .classifier gio st) = .exn .outOfRange := by
  obtain ⟨cfg, labels, nf, ss, hk, hv, hm, hF⟩ := reached_fit h hN hf
  have e : load a .regressor gio old (save a .classifier gio st) = load a .regressor gio old (save a .regressor gio st) := rfl
  rw [e, load_save hg (Fit.io_round hv hF)]
  have hl : Params.get? (st.params.map fun e => (e.1, reload env.rnd e.1 e.2)) "number_of_regressor_clauses" = none := by
    rw [get?_reload, hp]
    rfl
  have he : Params.getInt (st.params.map fun e => (e.1, reload env.rnd e.1 e.2)) "number_of_regressor_clauses" = .exn .outOfRange := by
    unfold Params.getInt Params.at'
    rw [hl]
    rfl
  show ((Params.getInt _ "number_of_regressor_clauses").bind _ |>.bind _).bind _ = _
  rw [he]
  rfl

example : Reached .classic .classifier Toy.cc ∧ StatesOk .classic Toy.cc.params ∧ Fitted .classic Toy.cc ∧
    Toy.cc.params.get? "number_of_regressor_clauses" = none ∧ Reached .bitwise .regressor Toy.br ∧ StatesOk .bitwise Toy.br.params ∧
    Fitted .bitwise Toy.br ∧ FloatsOk Toy.env.rnd Toy.br.params :=
  ⟨Toy.cc_reached, Toy.cc_states, Toy.cc_fitted, by decide +kernel, Toy.br_reached, Toy.br_states, Toy.br_fitted,
    Toy.floats_of (by decide +kernel)⟩

example : SameFeatures [1, 0, 1] ⟨3, [5]⟩ := by
  refine ⟨⟨by show ∀ v ∈ ([1, 0, 1] : List (BitVec 8)), v = 0#8 ∨ v = 1#8; decide, trivial⟩, by constructor <;> decide, ⟨trivial, ?_⟩,
    by decide⟩
  intro f hf
  have hf : 3 ≤ f := hf
  rcases Nat.lt_or_ge f 64 with h | h
  · have : ∀ f, f < 64 → 3 ≤ f → bitAt [5#64] f = false := by decide
    exact this f h hf
  · unfold bitAt
    show (([5#64] : List Block).getD (f / 64) 0#64).getLsbD (f % 64) = false
    rw [List.getD_eq_getElem?_getD, List.getElem?_eq_none (by simp; omega)]
    simp

end Tsetlini
