import Verif.Props.LoadedText
/- C51 and C80 at the level of texts: texts saved by other classes. -/
namespace Tsetlini
open Res Spec

variable {a : Algo} {k : Kind} {env : Env}

theorem text_other {a b : Algo} {k k' : Kind} {env : Env} {gdoc : GenDoc env} {gio : GenIO env} {st : EstState a.backend env} {old : EstState b.backend env} (hg : FaithfulText gdoc gio)
    (hs : Sound (stateDoc gdoc a.doc a.name k st)) :
    ∃ t, saveText a k gdoc st = .ok t ∧ loadText b k' gio old t = (b.io.ofJ (a.io.toJ st.ta)).bind fun ta =>
      (resetCache env k' ((sortParams st.params).map fun e => (e.1, reload env.rnd e.1 e.2)) old.cache.tick).bind fun c =>
        .ok ⟨(sortParams st.params).map fun e => (e.1, reload env.rnd e.1 e.2), ta, c, st.igen, st.fgen⟩ := by
  obtain ⟨t, h1, h2⟩ := parse_dump hs.wide hs.encoded
  refine ⟨t, h1, ?_⟩
  show (parse t).bind _ = _
  rw [h2, ok_bind]
  show loadState gio b.io k' old (stateDoc gdoc a.doc a.name k st).read = _
  obtain ⟨est, e⟩ := state_read gdoc a.doc a.name k st
  rw [e, params_read, algo_read]
  show (gio.iOf (gdoc.iDoc st.igen).read).bind _ = _
  rw [show gio.iOf (gdoc.iDoc st.igen).read = .ok st.igen from hg.igen _, ok_bind]
  show (gio.fOf (gdoc.fDoc st.fgen).read).bind _ = _
  rw [show gio.fOf (gdoc.fDoc st.fgen).read = .ok st.fgen from hg.fgen _, ok_bind]
  show (b.io.ofJ (a.io.toJ st.ta)).bind _ = _
  congr 1
  funext ta
  show (Params.ofJson env.rnd (sortParams st.params).toJson).bind _ = _
  rw [params_reload, ok_bind]

theorem fit_state_sound {gdoc : GenDoc env} {gio : GenIO env} (hg : FaithfulText gdoc gio) {st : EstState a.backend env} (h : Reached a k st)
    (h32 : ∀ key v, st.params.get? key = some (.real v) → IsFloat v) {cfg : Cfg} {labels nf : Nat} {ss : SState env} (hk : cfg.kind = k) (hv : Valid cfg)
    (hF : Fit a.lawful cfg labels nf st ss) : Sound (stateDoc gdoc a.doc a.name k st) :=
  state_sound hg (Fit.ta_sound hv hF) (typed_sound (fun key v hv => Reached.typedAt h hv) h32 (Fit.ints hk hv h hF))

theorem sorted_reload (env : Env) (p : Params) (key : String) :
    Params.get? ((sortParams p).map fun e => (e.1, reload env.rnd e.1 e.2)) key = Params.get? (p.map fun e => (e.1, reload env.rnd e.1 e.2)) key := by
  rw [get?_reload, sortParams_get, ← get?_reload]

/-- **C51**, of texts: the text saved from a fitted bitwise estimator can be loaded as a classic one: same parameters, counters, weights and generators, and it
predicts the same for the same features.  (**C80**) It is among the estimators that all the other properties speak of, and so is what it is trained to. -/
theorem C51_text_bitwise_as_classic {gdoc : GenDoc env} {gio : GenIO env} (hg : FaithfulText gdoc gio) {st : EstState Algo.bitwise.backend env} (h : Reached .bitwise k st)
    (hN : StatesOk .bitwise st.params) (hf : Fitted .bitwise st) (hfl : FloatsOk env.rnd st.params)
    (h32 : ∀ key v, st.params.get? key = some (.real v) → IsFloat v) (old : EstState Algo.classic.backend env) :
    ∃ t st', saveText .bitwise k gdoc st = .ok t ∧ loadText .classic k gio old t = .ok st' ∧ AgreeBut [] st.params st'.params ∧
      Algo.classic.counters st' = Algo.bitwise.counters st ∧ st'.ta.weights = st.ta.weights ∧ st'.igen = st.igen ∧ st'.fgen = st.fgen ∧
      SamePredictions k st st' ∧ Reached .classic k st' ∧ StatesOk .classic st'.params ∧ Fitted .classic st' := by
  obtain ⟨cfg, labels, nf, ss, hk, hv, hm, hF⟩ := reached_fit h hN hf
  have hp := reload_same (rnd := env.rnd) (fun key v hv => Reached.typedAt h hv) hfl (Fit.ints hk hv h hF)
  have hp' : AgreeBut [] (toClassic st).params ((sortParams st.params).map fun e => (e.1, reload env.rnd e.1 e.2)) := fun key hkey => by
    rw [sorted_reload]
    exact hp key hkey
  obtain ⟨t, h1, h2⟩ := text_other (b := .classic) (k' := k) (old := old) hg (fit_state_sound hg h h32 hk hv hF)
  have hc := toClassic_fit hF
  rw [show Algo.classic.io.ofJ (Algo.bitwise.io.toJ st.ta) = .ok (toClassic st).ta from Fit.io_round (a := .classic) hv hc, ok_bind] at h2
  obtain ⟨c, h3, h4⟩ : (resetCache env k ((sortParams st.params).map fun e => (e.1, reload env.rnd e.1 e.2)) old.cache.tick).Ret fun c =>
      Fit Algo.classic.lawful cfg labels nf ⟨_, (toClassic st).ta, c, st.igen, st.fgen⟩ ss := by
    have := resetCache_ret Algo.classic.lawful hv hc hp' old.cache.tick
    rw [hk] at this
    exact this
  rw [h3, ok_bind] at h2
  obtain ⟨v, -, hl⟩ := loadText_value h2
  have hN' : StatesOk .classic ((sortParams st.params).map fun e => (e.1, reload env.rnd e.1 e.2)) := by
    intro N hN'
    have h5 : IntParam st.params "number_of_states" N := by
      unfold IntParam at hN' ⊢
      rw [← hN']
      exact (hp' _ (by simp)).symm
    have := hN N h5
    simp only [Algo.minStates] at this ⊢
    omega
  exact ⟨t, _, h1, h2, hp', rfl, rfl, rfl, rfl, same_predictions hv hk hF h4,
    reached_of_load hl ⟨_, _, _, _, _, _, _, h4.together hk hv ((reached_params h).agree fun key hk => hp' key (by simp))⟩, hN', h4.fittedP hv⟩

/-- **C51**, of texts: the text saved from a fitted classic estimator cannot be loaded as a bitwise one: loading throws. -/
theorem C51_text_classic_as_bitwise {gdoc : GenDoc env} {gio : GenIO env} (hg : FaithfulText gdoc gio) {st : EstState Algo.classic.backend env} (h : Reached .classic k st)
    (hN : StatesOk .classic st.params) (hf : Fitted .classic st) (h32 : ∀ key v, st.params.get? key = some (.real v) → IsFloat v) (old : EstState Algo.bitwise.backend env) :
    ∃ t, saveText .classic k gdoc st = .ok t ∧ loadText .bitwise k gio old t = .exn .jsonError := by
  obtain ⟨cfg, labels, nf, ss, hk, hv, hm, hF⟩ := reached_fit h hN hf
  obtain ⟨t, h1, h2⟩ := text_other (b := .bitwise) (k' := k) (old := old) hg (fit_state_sound hg h h32 hk hv hF)
  refine ⟨t, h1, h2.trans ?_⟩
  have e : bitwiseIO.ofJ (classicIO.toJ st.ta) = .exn .jsonError := by
    obtain ⟨m, w1, w2⟩ := classic_parts (Fit.io_round hv hF)
    show (Matrix.ofJson (Matrix.toJson st.ta.mat)).bind (fun m => (weightsOfJson (weightsToJson st.ta.weights)).bind fun ws =>
      (JVal.at' "polarity" (.obj [("matrix", Matrix.toJson st.ta.mat), ("weights", weightsToJson st.ta.weights)])).bind fun x =>
        (polOfJson x).bind fun pol => Res.ok (⟨(⟨m, pol⟩ : PMatrix), ws⟩ : TA bitwise)) = _
    rw [w1, ok_bind, w2, ok_bind]
    rfl
  rw [show Algo.bitwise.io.ofJ (Algo.classic.io.toJ st.ta) = .exn .jsonError from e]
  rfl

/-- **C51**, of texts: the text saved from a fitted regressor cannot be loaded as a classifier: loading throws. -/
theorem C51_text_regressor_as_classifier {gdoc : GenDoc env} {gio : GenIO env} (hg : FaithfulText gdoc gio) {st : EstState a.backend env} (h : Reached a .regressor st)
    (hN : StatesOk a st.params) (hf : Fitted a st) (h32 : ∀ key v, st.params.get? key = some (.real v) → IsFloat v) (old : EstState a.backend env) :
    ∃ t e, saveText a .regressor gdoc st = .ok t ∧ loadText a .classifier gio old t = .exn e := by
  obtain ⟨cfg, labels, nf, ss, hk, hv, hm, hF⟩ := reached_fit h hN hf
  obtain ⟨t, h1, h2⟩ := text_other (b := a) (k' := .classifier) (old := old) hg (fit_state_sound hg h h32 hk hv hF)
  rw [Fit.io_round hv hF, ok_bind] at h2
  have hl : ∀ i, Params.get? ((sortParams st.params).map fun e => (e.1, reload env.rnd e.1 e.2)) "number_of_labels" ≠ some (.int i) := by
    intro i hi
    rw [sorted_reload, get?_reload] at hi
    cases hg : st.params.get? "number_of_labels" with
    | none => rw [hg] at hi; cases hi
    | some v =>
      have t : TypedAt .regressor "number_of_labels" v := Reached.typedAt h hg
      rw [hg] at hi
      have hi := Option.some.inj hi
      cases v with
      | int j => cases t.2.1 rfl
      | seed j =>
        have t : "number_of_labels" = "random_state" := t
        exact absurd t (by decide)
      | real x => cases x <;> cases hi
      | bool b => cases hi
      | str b => cases hi
      | none => cases hi
  obtain ⟨e, he⟩ := getInt_exn hl
  refine ⟨t, e, h1, h2.trans ?_⟩
  show ((Params.getInt _ "number_of_labels").bind _ |>.bind _).bind _ = _
  rw [he]
  rfl

/-- **C51**, of texts: the text saved from a fitted classifier cannot be loaded as a regressor, unless its parameters happened to include the number
of regressor clauses: loading throws. -/
theorem C51_text_classifier_as_regressor {gdoc : GenDoc env} {gio : GenIO env} (hg : FaithfulText gdoc gio) {st : EstState a.backend env} (h : Reached a .classifier st)
    (hN : StatesOk a st.params) (hf : Fitted a st) (hp : st.params.get? "number_of_regressor_clauses" = none)
    (h32 : ∀ key v, st.params.get? key = some (.real v) → IsFloat v) (old : EstState a.backend env) :
    ∃ t, saveText a .classifier gdoc st = .ok t ∧ loadText a .regressor gio old t = .exn .outOfRange := by
  obtain ⟨cfg, labels, nf, ss, hk, hv, hm, hF⟩ := reached_fit h hN hf
  obtain ⟨t, h1, h2⟩ := text_other (b := a) (k' := .regressor) (old := old) hg (fit_state_sound hg h h32 hk hv hF)
  rw [Fit.io_round hv hF, ok_bind] at h2
  have he : Params.getInt ((sortParams st.params).map fun e => (e.1, reload env.rnd e.1 e.2)) "number_of_regressor_clauses" = .exn .outOfRange := by
    unfold Params.getInt Params.at'
    rw [sorted_reload, get?_reload, hp]
    rfl
  refine ⟨t, h1, h2.trans ?_⟩
  show ((Params.getInt _ "number_of_regressor_clauses").bind _ |>.bind _).bind _ = _
  rw [he]
  rfl

example : FaithfulText Toy.gdoc Toy.gioNulls ∧ Reached .classic .classifier Toy.cc ∧ StatesOk .classic Toy.cc.params ∧ Fitted .classic Toy.cc ∧
    (∀ key v, Toy.cc.params.get? key = some (.real v) → IsFloat v) ∧ Toy.cc.params.get? "number_of_regressor_clauses" = none ∧
    Reached .bitwise .regressor Toy.br ∧ StatesOk .bitwise Toy.br.params ∧ Fitted .bitwise Toy.br ∧ FloatsOk Toy.env.rnd Toy.br.params ∧
    ∀ key v, Toy.br.params.get? key = some (.real v) → IsFloat v :=
  ⟨Toy.gdoc_faithful, Toy.cc_reached, Toy.cc_states, Toy.cc_fitted, Toy.floats32_of (by decide +kernel), by decide +kernel, Toy.br_reached, Toy.br_states, Toy.br_fitted,
    Toy.floats_of (by decide +kernel), Toy.floats32_of (by decide +kernel)⟩

end Tsetlini
