import Verif.Props.ForeignText
import Verif.Props.Session
/- Which texts from elsewhere a program may use: C78. -/
namespace Tsetlini
open Res Spec

variable {k : Kind} {env : Env} {gdoc : GenDoc env} {gio : GenIO env}

theorem Spec.AgreeBut.floats {p q : Params} {rnd : Rat → Rat} (h : AgreeBut [] p q) (hf : FloatsOk rnd p) : FloatsOk rnd q :=
  fun key v hv => hf key v (by rw [← h key (by simp)]; exact hv)

theorem Spec.AgreeBut.floats32 {p q : Params} (h : AgreeBut [] p q) (hf : ∀ key v, p.get? key = some (.real v) → IsFloat v) :
    ∀ key v, q.get? key = some (.real v) → IsFloat v := fun key v hv => hf key v (by rw [← h key (by simp)]; exact hv)

/-- **C78**: a program may load what another program saved. -/
theorem C78_texts {a : Algo} (hg : FaithfulText gdoc gio) {st : EstState a.backend env} (h : Reached a k st)
    (hN : StatesOk a st.params) (hf : Fitted a st) (hfl : FloatsOk env.rnd st.params)
    (h32 : ∀ key v, st.params.get? key = some (.real v) → IsFloat v) :
    ∃ t, saveText a k gdoc st = .ok t ∧ Proper a k gio (.text t) := by
  obtain ⟨t, h1, h2⟩ := C80_saved_text hg h hN hf hfl h32
  obtain ⟨st', h3, h4, h5, h6, h7, -⟩ := h2 st
  exact ⟨t, h1, .inr ⟨_, _, h3, C80_fit_together h4 h5 h6, h6, h5, Spec.AgreeBut.floats h7 hfl, Spec.AgreeBut.floats32 h7 h32⟩⟩

/-- **C78**: a program with classic estimators may also load what one with bitwise estimators saved. -/
theorem C78_bitwise_texts (hg : FaithfulText gdoc gio) {st : EstState Algo.bitwise.backend env} (h : Reached .bitwise k st)
    (hN : StatesOk .bitwise st.params) (hf : Fitted .bitwise st) (hfl : FloatsOk env.rnd st.params)
    (h32 : ∀ key v, st.params.get? key = some (.real v) → IsFloat v) :
    ∃ t, saveText .bitwise k gdoc st = .ok t ∧ Proper .classic k gio (.text t) := by
  obtain ⟨t, st', h1, h2, h3, -, -, -, -, -, h4, h5, h6⟩ := C51_text_bitwise_as_classic hg h hN hf hfl h32 (EstState.fresh _ _ [])
  exact ⟨t, h1, .inr ⟨_, _, h2, C80_fit_together h4 h5 h6, h6, h5, Spec.AgreeBut.floats h3 hfl, Spec.AgreeBut.floats32 h3 h32⟩⟩

example : FaithfulText Toy.gdoc Toy.gioNulls ∧ Reached .bitwise .classifier Toy.bc ∧ StatesOk .bitwise Toy.bc.params ∧ Fitted .bitwise Toy.bc ∧ FloatsOk Toy.env.rnd Toy.bc.params ∧
    ∀ key v, Toy.bc.params.get? key = some (.real v) → IsFloat v :=
  ⟨Toy.gdoc_faithful, Toy.bc_reached, Toy.bc_states, Toy.bc_fitted, Toy.floats_of (by decide +kernel), Toy.floats32_of (by decide +kernel)⟩

/-- **C78**: a program may also load what is not JSON, and JSON texts that are refused at their first member. -/
theorem C78_refused_texts {a : Algo} {t : Bytes} (h : ∀ v, ReadText t v → ∃ e, (v.value.at' "igen").bind gio.iOf = .exn e) :
    Proper a k gio (.text t) := by
  refine .inl fun old => ?_
  by_cases hv : ∃ v, ReadText t v
  · obtain ⟨v, hv⟩ := hv
    obtain ⟨e, he⟩ := h v hv
    exact ⟨e, by rw [(C73_leaves (k := k) gio old hv).1]; exact (C61_left gio old v.value e).1 he⟩
  · exact ⟨_, C73_not_json gio old fun v h => hv ⟨v, h⟩⟩

/-- `{"fgen":[]}` has no member igen, `[]` is no object, and `{` is not JSON. -/
example (t : Bytes) (ht : t ∈ [[123, 34, 102, 103, 101, 110, 34, 58, 91, 93, 125], [91, 93], [123]]) (v : TVal) (hv : ReadText t v) :
    ∃ e, (v.value.at' "igen").bind Toy.gioNulls.iOf = .exn e := by
  have hc : ∀ t ∈ [[123, 34, 102, 103, 101, 110, 34, 58, 91, 93, 125], [91, 93], [123]],
      (match (parse t).bind fun v => (v.value.at' "igen").bind Toy.gioNulls.iOf with | .exn _ => true | _ => false) = true := by decide +kernel
  have h := hc t ht
  rw [parse_iff.2 hv] at h
  change (match (v.value.at' "igen").bind Toy.gioNulls.iOf with | .exn _ => true | _ => false) = true at h
  split at h
  · exact ⟨_, ‹_›⟩
  · cases h

end Tsetlini
