import Verif.Lemmas.JsonComplete
import Verif.Lemmas.StateText
import Verif.Props.Saved
/- Saving and loading at the level of texts: C73. -/
namespace Tsetlini
open Res Spec

variable {a : Algo} {k : Kind} {env : Env}

/-- **C73**: a fitted estimator is written as a text; reading the text, into a state with whatever contents, returns a state that compares equal to
the original (`==`), has the same value of every parameter, the same automata, weights and generators, and
answers every later history of calls identically. -/
theorem C73_round_trip {gdoc : GenDoc env} {gio : GenIO env} (hg : FaithfulText gdoc gio) {st : EstState a.backend env} (h : Reached a k st)
    (hN : StatesOk a st.params) (hf : Fitted a st) (hfl : FloatsOk env.rnd st.params)
    (h32 : ∀ key v, st.params.get? key = some (.real v) → IsFloat v) (old : EstState a.backend env) :
    ∃ t st', saveText a k gdoc st = .ok t ∧ loadText a k gio old t = .ok st' ∧ EstState.CppEq k st' st ∧
      AgreeBut [] st.params st'.params ∧ SameLearned st st' ∧ Indistinguishable a k st st' := by
  obtain ⟨cfg, labels, nf, ss, hk, hv, hm, hF⟩ := reached_fit h hN hf
  have hp := reload_same (rnd := env.rnd) (fun key v hv => Reached.typedAt h hv) hfl (Fit.ints hk hv h hF)
  have hs := typed_sound (fun key v hv => Reached.typedAt h hv) h32 (Fit.ints hk hv h hF)
  obtain ⟨t, st', h0, h1, h2, h3, h4⟩ := loaded_text (old := old) hg hv hk hF hs hp
  refine ⟨t, st', h0, h1, ⟨congrArg TA.mat h3.ta, congrArg TA.weights h3.ta, h3.igen, h3.fgen, fun key => ?_, ?_⟩, h2, h3,
    sims_indist hv hm hk (.inr ⟨_, _, hF⟩) (.inr ⟨_, _, h4⟩) h2⟩
  · rw [h2 key (by simp)]
    cases hg : st.params.get? key with
    | none => trivial
    | some v =>
      dsimp only
      cases v with
      | real x =>
        obtain ⟨q, rfl, -⟩ := hfl _ _ hg
        show (Fl.fin q == Fl.fin q) = true
        simp
      | int _ => show (PVal.int _ == PVal.int _) = true; simp
      | seed _ => show (PVal.seed _ == PVal.seed _) = true; simp
      | bool _ => show (PVal.bool _ == PVal.bool _) = true; simp
      | str _ => show (PVal.str _ == PVal.str _) = true; simp
      | none => rfl
  · unfold Cache.cppEq
    subst hk
    cases hk : cfg.kind with
    | classifier => dsimp only; rw [hF.coLen, h4.coLen, hF.lsLen hk, h4.lsLen hk, hF.fbLen hk, h4.fbLen hk]; simp
    | regressor => dsimp only; rw [hF.coLen, h4.coLen]; simp

/-- **C73**: the library's own generators are written such that they are read as they were, whatever was drawn from them. -/
theorem C73_generators (u : Unspecified) : FaithfulText (realGenDoc u) (realGenIO u) := realGenDoc_faithful u

theorem unfit_params {st : EstState a.backend env} (h : Reached a k st) {cfg : Cfg} {ss : SState env} (hU : Unfit a.lawful cfg st ss)
    (h32 : ∀ key v, st.params.get? key = some (.real v) → IsFloat v) : Sound st.params.doc := by
  refine typed_sound (fun key v hv => Reached.typedAt h hv) h32 ?_
  rintro key i (rfl | rfl) hi
  · exact absurd hi (hU.labelsP i)
  · exact absurd hi (hU.featP i)

/-- **C73**: saving never fails, fitted or not and even with a loss_fn_C1 that is not finite. -/
theorem C73_saves {gdoc : GenDoc env} {gio : GenIO env} (hg : FaithfulText gdoc gio) {st : EstState a.backend env} (h : Reached a k st)
    (hN : StatesOk a st.params) (h32 : ∀ key v, st.params.get? key = some (.real v) → IsFloat v) : ∃ t, saveText a k gdoc st = .ok t := by
  by_cases hf : Fitted a st
  · obtain ⟨cfg, labels, nf, ss, hk, hv, hm, hF⟩ := reached_fit h hN hf
    have hs := typed_sound (fun key v hv => Reached.typedAt h hv) h32 (Fit.ints hk hv h hF)
    obtain ⟨t, h1, -⟩ := text_round (gio := gio) (k := k) (state_sound hg (Fit.ta_sound hv hF) hs) st
    exact ⟨t, h1⟩
  · obtain ⟨cfg, ss, hk, hv, hm, hU⟩ := reached_unfit h hN hf
    obtain ⟨t, h1, -⟩ := text_round (gio := gio) (k := k) (state_sound hg (unfit_sound hU) (unfit_params h hU h32)) st
    exact ⟨t, h1⟩

/-- **C73**: reading the text of an unfitted estimator is undefined behaviour: it refers to the first element of an empty array. -/
theorem C73_unfitted {gdoc : GenDoc env} {gio : GenIO env} (hg : FaithfulText gdoc gio) {st : EstState a.backend env} (h : Reached a k st)
    (hN : StatesOk a st.params) (hf : ¬ Fitted a st) (h32 : ∀ key v, st.params.get? key = some (.real v) → IsFloat v) (old : EstState a.backend env) :
    ∃ t, saveText a k gdoc st = .ok t ∧ loadText a k gio old t = .ub .oob := by
  obtain ⟨cfg, ss, hk, hv, hm, hU⟩ := reached_unfit h hN hf
  obtain ⟨t, h1, h2⟩ := text_round (gio := gio) (k := k) (state_sound hg (unfit_sound hU) (unfit_params h hU h32)) old
  refine ⟨t, h1, h2.trans ?_⟩
  obtain ⟨est, e⟩ := state_read gdoc a.doc a.name k st
  rw [e, algo_read]
  show (gio.iOf (gdoc.iDoc st.igen).read).bind _ = _
  rw [show gio.iOf (gdoc.iDoc st.igen).read = .ok st.igen from hg.igen _, ok_bind]
  show (gio.fOf (gdoc.fDoc st.fgen).read).bind _ = _
  rw [show gio.fOf (gdoc.fDoc st.fgen).read = .ok st.fgen from hg.fgen _, ok_bind]
  show (a.io.ofJ (a.io.toJ st.ta)).bind _ = _
  rw [unfit_ofJ hU]
  rfl

/-- **C73**: a text that is not JSON is refused with an exception and changes nothing. -/
theorem C73_not_json (gio : GenIO env) (old : EstState a.backend env) {t : Bytes} (h : ∀ v, ¬ ReadText t v) :
    loadTextLeaves a k gio old t = (old, .exn .jsonError) := by
  unfold loadTextLeaves fromJsonStringInto
  rcases parse_total t with e | ⟨v, e, -⟩
  · rw [e]
  · exact absurd (parse_iff.1 e) (h v)

/-- **C73**: what a JSON text leaves is what its value leaves (C61). -/
theorem C73_leaves (gio : GenIO env) (old : EstState a.backend env) {t : Bytes} {v : TVal} (h : ReadText t v) :
    loadTextLeaves a k gio old t = loadLeaves a k gio old v.value ∧ loadText a k gio old t = load a k gio old v.value := by
  have h := parse_iff.2 h
  constructor
  · unfold loadTextLeaves fromJsonStringInto
    rw [h]
    rfl
  · show (parse t).bind _ = _
    rw [h]
    rfl

/-! ### A case -/

/-- A way to write the toy generators: as many nulls. -/
def Toy.gdoc : GenDoc Toy.env where
  iDoc := fun g : Nat => .arr (List.replicate g .null)
  fDoc := fun g : Nat => .arr (List.replicate g .null)

/-- And to read them. -/
def Toy.gioNulls : GenIO Toy.env where
  iTo := fun g : Nat => .arr (List.replicate g .null)
  iOf := fun j => match j with | .arr l => .ok (show Nat from l.length) | _ => .exn .jsonError
  fTo := fun g : Nat => .arr (List.replicate g .null)
  fOf := fun j => match j with | .arr l => .ok (show Nat from l.length) | _ => .exn .jsonError

theorem Toy.gdoc_faithful : FaithfulText Toy.gdoc Toy.gioNulls := by
  have e : ∀ g : Nat, List.replicate g TVal.null = (List.range g).map fun _ => .null := fun g => by
    refine List.ext_getElem (by simp) fun i h1 h2 => by simp
  have s : ∀ g : Nat, Sound (.arr (List.replicate g .null)) := fun g => by
    rw [e]
    exact Sound.arr fun _ _ => ⟨.null, .null⟩
  have r : ∀ g : Nat, (reread (.arr (List.replicate g .null))).value = .arr (List.replicate g .null) := fun g => by
    show TVal.read _ = _
    rw [read_arr, List.map_replicate]
    rfl
  have i : ∀ g : Nat, Toy.gioNulls.iOf (.arr (List.replicate g .null)) = .ok (show Nat from g) := fun g =>
    congrArg Res.ok List.length_replicate
  exact ⟨fun g => ⟨(s g).wide, (s g).encoded⟩, fun g => (congrArg Toy.gioNulls.iOf (r g)).trans (i g),
    fun g => ⟨(s g).wide, (s g).encoded⟩, fun g => (congrArg Toy.gioNulls.fOf (r g)).trans (i g)⟩

/-- A `float`. -/
def Toy.isFloat : PVal → Bool
  | .real (.fin c) => rne32 c == c && decide (-maxFloat ≤ c) && decide (c ≤ maxFloat)
  | _ => true

theorem Toy.floats32_of {p : Params} (h : ∀ e ∈ p, Toy.isFloat e.2 = true) : ∀ key v, p.get? key = some (.real v) → IsFloat v := by
  intro key v hv
  have := h _ (Toy.mem_of_lookup hv)
  cases v with
  | fin q =>
    unfold Toy.isFloat at this
    dsimp only at this
    rw [Bool.and_eq_true, Bool.and_eq_true] at this
    exact ⟨by simpa using this.1.1, by simpa using this.1.2, by simpa using this.2⟩
  | nan => trivial
  | inf b => trivial

example : FaithfulText Toy.gdoc Toy.gioNulls ∧ Reached .bitwise .classifier Toy.bc ∧ StatesOk .bitwise Toy.bc.params ∧ Fitted .bitwise Toy.bc ∧
    FloatsOk Toy.env.rnd Toy.bc.params ∧ ∀ key v, Toy.bc.params.get? key = some (.real v) → IsFloat v :=
  ⟨Toy.gdoc_faithful, Toy.bc_reached, Toy.bc_states, Toy.bc_fitted, Toy.floats_of (by decide +kernel), Toy.floats32_of (by decide +kernel)⟩

/-! The text of the automata of one clause of two features, and of some parameters. -/
example : dump (classicDoc ⟨(⟨.int8, 2, [[1, -2], [0, -1]]⟩ : Matrix), [3]⟩) =
    .ok (bytesOf "{\"matrix\":{\"data\":[[1,-2],[0,-1]],\"width\":1},\"weights\":[3]}") := by decide +kernel

example : dump (Params.doc [("s", .real (.fin (5/2))), ("random_state", .seed 7#32), ("weighted", .bool true), ("counting_type", .str "auto"), ("number_of_labels", .none)]) =
    .ok (bytesOf "{\"counting_type\":\"auto\",\"number_of_labels\":null,\"random_state\":7,\"s\":2.5,\"weighted\":true}") := by decide +kernel

end Tsetlini
