import Verif.Props.Loaded
import Verif.Props.SavedText
/- C80 at the level of texts. -/
namespace Tsetlini
open Res Spec

variable {a : Algo} {k : Kind} {env : Env}

/-- A text that loads is a JSON text. -/
theorem loadText_value {gio : GenIO env} {old st : EstState a.backend env} {t : Bytes} (h : loadText a k gio old t = .ok st) : ∃ v, ReadText t v ∧ load a k gio old v.value = .ok st := by
  obtain ⟨v, hp, hl⟩ := bind_eq_ok.1 (show (parse t).bind (fun v => loadState gio a.io k old v.value) = .ok st from h)
  exact ⟨v, parse_sound hp, hl⟩

/-- **C80**, of texts: an estimator loaded from the text a trained one was saved as is among the estimators that all the other properties speak of. -/
theorem C80_saved_text {gdoc : GenDoc env} {gio : GenIO env} (hg : FaithfulText gdoc gio) {st : EstState a.backend env} (h : Reached a k st)
    (hN : StatesOk a st.params) (hf : Fitted a st) (hfl : FloatsOk env.rnd st.params)
    (h32 : ∀ key v, st.params.get? key = some (.real v) → IsFloat v) :
    ∃ t, saveText a k gdoc st = .ok t ∧ ∀ old : EstState a.backend env, ∃ st', loadText a k gio old t = .ok st' ∧ Reached a k st' ∧ StatesOk a st'.params ∧ Fitted a st' ∧
      AgreeBut [] st.params st'.params ∧ SameLearned st st' := by
  obtain ⟨cfg, labels, nf, ss, hk, hv, hm, hF⟩ := reached_fit h hN hf
  have hp := reload_same (rnd := env.rnd) (fun key v hv => Reached.typedAt h hv) hfl (Fit.ints hk hv h hF)
  have hs := typed_sound (fun key v hv => Reached.typedAt h hv) h32 (Fit.ints hk hv h hF)
  obtain ⟨t, ht⟩ := C73_saves hg h hN h32
  refine ⟨t, ht, fun old => ?_⟩
  obtain ⟨t', st', h0, h1, h2, h3, h4⟩ := loaded_text (old := old) hg hv hk hF hs hp
  rw [ht] at h0
  cases h0
  obtain ⟨v, -, hl⟩ := loadText_value h1
  refine ⟨st', h1, reached_of_load hl ⟨_, _, _, _, _, _, _, h4.together hk hv ((reached_params h).agree fun key hk => h2 key (by simp))⟩, ?_, h4.fittedP hv, h2, h3⟩
  intro N hN'
  refine hN N ?_
  unfold IntParam at hN' ⊢
  rw [← h2 _ (by simp)]
  exact hN'

/-- **C80**, of texts: any model whatever can be written down: there is a text from which `from_json_string` makes, in any state, an estimator with just these clauses, weights and generators. -/
theorem C80_any_text (a : Algo) {gdoc : GenDoc env} {gio : GenIO env} (hg : FaithfulText gdoc gio) {p : Params} (hm : Made k p) (hN : StatesOk a p)
    (hfl : FloatsOk env.rnd p) (h32 : ∀ key v, p.get? key = some (.real v) → IsFloat v) {labels n : Nat} {cl : List Clause} {ws : List Nat}
    (h : ModelOf k p labels n cl ws) (g : env.G) (f : env.F) :
    ∃ t, ∀ old : EstState a.backend env, ∃ st, loadText a k gio old t = .ok st ∧ Reached a k st ∧ Fitted a st ∧ a.clauses st = cl ∧ st.ta.weights = ws ∧ st.igen = g ∧ st.fgen = f ∧
      (k = .classifier → IntParam st.params "number_of_labels" labels) ∧ IntParam st.params "number_of_features" n ∧
      AgreeBut (sizeParams k) p st.params := by
  obtain ⟨js, hjs⟩ := C80_any_model a (gio := { gio with iTo := fun g => (reread (gdoc.iDoc g)).value, fTo := fun g => (reread (gdoc.fDoc g)).value }) ⟨hg.igen, hg.fgen⟩ hm hfl h g f
  obtain ⟨st, -, h2, h3, h4, h5, h6, h7, h8, h9, h10⟩ := hjs (EstState.fresh a.backend env p)
  have sizes : ∀ key ∈ sizeParams k, ∃ i, st.params.get? key = some (.int i) := by
    intro key hkey
    cases k with
    | classifier =>
      simp only [sizeParams, List.mem_cons, List.not_mem_nil, or_false] at hkey
      rcases hkey with rfl | rfl
      · exact ⟨_, h8 rfl⟩
      · exact ⟨_, h9⟩
    | regressor =>
      simp only [sizeParams, List.mem_cons, List.not_mem_nil, or_false] at hkey
      subst hkey
      exact ⟨_, h9⟩
  have old : ∀ key v, st.params.get? key = some (.real v) → p.get? key = some (.real v) := by
    intro key v hv
    by_cases hkey : key ∈ sizeParams k
    · obtain ⟨i, hi⟩ := sizes key hkey
      rw [hi] at hv
      cases hv
    · rw [← h10 key hkey, hv]
  have hns : "number_of_states" ∉ sizeParams k := by cases k <;> decide
  have hN' : StatesOk a st.params := fun N hN' => hN N (by unfold IntParam at hN' ⊢; rw [← h10 _ hns]; exact hN')
  obtain ⟨t, -, ht⟩ := C80_saved_text hg h2 hN' h3 (fun key v hv => hfl key v (old key v hv)) (fun key v hv => h32 key v (old key v hv))
  refine ⟨t, fun o => ?_⟩
  obtain ⟨st', l1, l2, -, l4, l5, l6⟩ := ht o
  have e : ∀ key, st'.params.get? key = st.params.get? key := fun key => l5 key (by simp)
  refine ⟨st', l1, l2, l4, ?_, by rw [l6.ta]; exact h5, l6.igen.trans h6, l6.fgen.trans h7, fun hk => ?_, ?_, fun key hk => (e key).trans (h10 key hk)⟩
  · rw [← h4]
    unfold Algo.clauses Algo.counters
    rw [l6.ta]
  · unfold IntParam; rw [e]; exact h8 hk
  · unfold IntParam; rw [e]; exact h9

/-- **C80**, of texts that others wrote: whatever the text, an estimator loaded from it (with a number of states that works, and automata) is as good as one that was made and trained
if and only if its parts fit together. -/
theorem C80_foreign_text {gio : GenIO env} {old st : EstState a.backend env} {t : Bytes} (h : loadText a k gio old t = .ok st) (hN : StatesOk a st.params) (hf : Fitted a st) :
    Reached a k st ↔ Coherent a k st := by
  obtain ⟨v, -, hl⟩ := loadText_value h
  exact ⟨fun hr => C80_fit_together hr hN hf, fun hc => reached_of_load hl hc⟩

/-- There are such texts. -/
example : ∃ t st, loadText .bitwise .classifier Toy.gioNulls Toy.bc t = .ok st ∧ StatesOk .bitwise st.params ∧ Fitted .bitwise st ∧ Coherent .bitwise .classifier st := by
  obtain ⟨t, -, h⟩ := C80_saved_text Toy.gdoc_faithful Toy.bc_reached Toy.bc_states Toy.bc_fitted (Toy.floats_of (by decide +kernel)) (Toy.floats32_of (by decide +kernel))
  obtain ⟨st, h1, h2, h3, h4, -⟩ := h Toy.bc
  exact ⟨t, st, h1, h3, h4, C80_fit_together h2 h3 h4⟩

end Tsetlini
