import Verif.Props.SavedText
import Verif.Props.Twins
/- One text per state: C79. -/
namespace Tsetlini
open Res Spec

variable {a : Algo} {k : Kind} {env : Env}

theorem pairwise_ext {α : Type} {R : α → α → Prop} (hi : ∀ x, ¬ R x x) (ha : ∀ x y, R x y → ¬ R y x) : ∀ {l l' : List α}, l.Pairwise R → l'.Pairwise R →
    (∀ x, x ∈ l ↔ x ∈ l') → l = l'
  | [], [], _, _, _ => rfl
  | [], b :: l', _, _, h => absurd ((h b).2 (List.mem_cons_self ..)) (by simp)
  | x :: l, [], _, _, h => absurd ((h x).1 (List.mem_cons_self ..)) (by simp)
  | x :: l, y :: l', h1, h2, h => by
    rw [List.pairwise_cons] at h1 h2
    have e : x = y := by
      rcases List.mem_cons.1 ((h x).1 (List.mem_cons_self ..)) with e | e
      · exact e
      · rcases List.mem_cons.1 ((h y).2 (List.mem_cons_self ..)) with e' | e'
        · exact e'.symm
        · exact absurd (h1.1 _ e') (ha _ _ (h2.1 _ e))
    subst e
    congr 1
    refine pairwise_ext hi ha h1.2 h2.2 fun z => ⟨fun hz => ?_, fun hz => ?_⟩
    · rcases List.mem_cons.1 ((h z).1 (List.mem_cons_of_mem _ hz)) with rfl | h'
      · exact absurd (h1.1 _ hz) (hi _)
      · exact h'
    · rcases List.mem_cons.1 ((h z).2 (List.mem_cons_of_mem _ hz)) with rfl | h'
      · exact absurd (h2.1 _ hz) (hi _)
      · exact h'

theorem sortParams_agree {p q : Params} (h : AgreeBut [] p q) : sortParams q = sortParams p := by
  have s : ∀ p : Params, (sortParams p).Pairwise fun e e' => bytesLt (bytesOf e.1) (bytesOf e'.1) = true := by
    intro p
    have := sortParams_sorted p
    unfold Sorted at this
    rw [List.map_map, List.pairwise_map] at this
    exact this
  have m : ∀ (p : Params) e, e ∈ sortParams p ↔ p.get? e.1 = some e.2 := fun p e => by
    rw [← sortParams_get]
    exact ⟨sorted_get (sortParams_sorted p) e, fun h => Toy.mem_of_lookup h⟩
  refine pairwise_ext (R := fun e e' => bytesLt (bytesOf e.1) (bytesOf e'.1) = true) (fun e h => ?_) (fun e e' h h' => ?_) (s q) (s p) fun e => ?_
  · rw [bytesLt_irrefl] at h; cases h
  · have := bytesLt_trans h h'
    rw [bytesLt_irrefl] at this; cases this
  · rw [m, m, h _ (by simp)]

theorem doc_agree {p q : Params} (h : AgreeBut [] p q) : q.doc = p.doc := by
  rw [params_doc, params_doc, sortParams_agree h]

/-- **C79**: the text depends on the values of the parameters, the automata, the weights and the generators, and on nothing else: not on scratch memory, not on the
order in which parameters were stored. -/
theorem C79_text (gdoc : GenDoc env) {st st' : EstState a.backend env} (hp : AgreeBut [] st.params st'.params) (hl : SameLearned st st') :
    saveText a k gdoc st' = saveText a k gdoc st := by
  unfold saveText toJsonString stateDoc
  rw [doc_agree hp, hl.ta, hl.igen, hl.fgen]

/-- **C79**: predict, decision_function and evaluate do not change the text. -/
theorem C79_readers (gdoc : GenDoc env) {st st' : EstState a.backend env} {sc : Sched} {c : Call a.Sample k} (hc : c.Reads) {o : Out}
    (h : step a.backend env sc c st = .ok (st', o)) : saveText a k gdoc st' = saveText a k gdoc st := by
  obtain ⟨h1, h2⟩ := C11_readers_change_nothing st sc c hc h
  exact C79_text gdoc (by rw [h1]; exact fun _ _ => rfl) h2

/-- **C79**: estimators made with the same parameters and put through the same calls are written as the same text, byte for byte, whatever the schedules of the
parallel loops were. -/
theorem C79_reproducible (gdoc : GenDoc env) {p : Params} (hm : Made k p) (hN : StatesOk a p) (sc sc' : Sched) {cs : List (Call a.Sample k)}
    (ht : ∀ c ∈ cs, WellTyped a c) {st : EstState a.backend env} {outs : List Out}
    (hr : run a.backend env sc cs (EstState.fresh a.backend env p) = .ok (st, outs)) :
    ∃ st', run a.backend env sc' cs (EstState.fresh a.backend env p) = .ok (st', outs) ∧ saveText a k gdoc st' = saveText a k gdoc st := by
  obtain ⟨st', h1, h2, h3⟩ := ((C17_same_parameters hm hN) sc sc' cs ht).1 st outs hr
  exact ⟨st', h1, C79_text gdoc h2 h3⟩

/-- **C79**: writing a state that was read from a text gives that text again, byte for byte. -/
theorem C79_again {gdoc : GenDoc env} {gio : GenIO env} (hg : FaithfulText gdoc gio) {st : EstState a.backend env} (h : Reached a k st)
    (hN : StatesOk a st.params) (hf : Fitted a st) (hfl : FloatsOk env.rnd st.params)
    (h32 : ∀ key v, st.params.get? key = some (.real v) → IsFloat v) (old : EstState a.backend env) :
    ∃ t st', saveText a k gdoc st = .ok t ∧ loadText a k gio old t = .ok st' ∧ saveText a k gdoc st' = .ok t := by
  obtain ⟨t, st', h1, h2, -, h3, h4, -⟩ := C73_round_trip hg h hN hf hfl h32 old
  exact ⟨t, st', h1, h2, (C79_text gdoc h3 h4).trans h1⟩

theorem fits_equal {cfg : Cfg} (hk : cfg.kind = k) {labels nf : Nat} {st st' : EstState a.backend env} {ss : SState env} (hfl : FloatsOk env.rnd st.params)
    (hF : Fit a.lawful cfg labels nf st ss) (hF' : Fit a.lawful cfg labels nf st' ss) (hp : AgreeBut [] st.params st'.params) (hl : SameLearned st st') :
    EstState.CppEq k st st' := by
  refine ⟨congrArg TA.mat hl.ta.symm, congrArg TA.weights hl.ta.symm, hl.igen.symm, hl.fgen.symm, fun key => ?_, ?_⟩
  · rw [hp key (by simp)]
    cases hg : st.params.get? key with
    | none => trivial
    | some v =>
      dsimp only
      cases v with
      | real x =>
        obtain ⟨q, rfl, -⟩ := hfl _ _ hg
        show (Fl.fin q == Fl.fin q) = true
        simp
      | int _ => show (PVal.int _ == PVal.int _) = true; simp
      | seed _ => show (PVal.seed _ == PVal.seed _) = true; simp
      | bool _ => show (PVal.bool _ == PVal.bool _) = true; simp
      | str _ => show (PVal.str _ == PVal.str _) = true; simp
      | none => rfl
  · unfold Cache.cppEq
    subst hk
    cases hk : cfg.kind with
    | classifier => dsimp only; rw [hF.coLen, hF'.coLen, hF.lsLen hk, hF'.lsLen hk, hF.fbLen hk, hF'.fbLen hk]; simp
    | regressor => dsimp only; rw [hF.coLen, hF'.coLen]; simp

theorem cppEq_agree {st st' : EstState a.backend env} (he : EstState.CppEq k st st') : AgreeBut [] st.params st'.params ∧ SameLearned st st' := by
  obtain ⟨e1, e2, e3, e4, e5, -⟩ := he
  refine ⟨fun key _ => ?_, ?_, e3.symm, e4.symm⟩
  · have := e5 key
    cases h1 : st.params.get? key <;> cases h2 : st'.params.get? key <;> rw [h1, h2] at this
    · exact this.elim
    · exact this.elim
    · rw [PVal.eq_of_cppEq this]
  · cases h3 : st.ta; cases h4 : st'.ta
    simp_all

/-- **C79**: fitted estimators have the same text exactly if they compare equal (`==`). -/
theorem C79_identifies {gdoc : GenDoc env} {gio : GenIO env} (hg : FaithfulText gdoc gio) {st st' : EstState a.backend env} (h : Reached a k st) (h' : Reached a k st')
    (hN : StatesOk a st.params) (hN' : StatesOk a st'.params) (hf : Fitted a st) (hf' : Fitted a st') (hfl : FloatsOk env.rnd st.params)
    (hfl' : FloatsOk env.rnd st'.params) (h32 : ∀ key v, st.params.get? key = some (.real v) → IsFloat v)
    (h32' : ∀ key v, st'.params.get? key = some (.real v) → IsFloat v) :
    saveText a k gdoc st = saveText a k gdoc st' ↔ EstState.CppEq k st st' := by
  constructor
  · intro e
    obtain ⟨t, s1, h1, h2, -, h3, h4, -⟩ := C73_round_trip hg h hN hf hfl h32 st
    obtain ⟨t', s2, h1', h2', -, h3', h4', -⟩ := C73_round_trip hg h' hN' hf' hfl' h32' st
    rw [h1, h1'] at e
    cases e
    rw [h2] at h2'
    cases h2'
    have hp : AgreeBut [] st.params st'.params := fun key hk => (h3' key hk).symm.trans (h3 key hk)
    have hl : SameLearned st st' := ⟨h4'.ta.symm.trans h4.ta, h4'.igen.symm.trans h4.igen, h4'.fgen.symm.trans h4.fgen⟩
    obtain ⟨cfg, labels, nf, ss, hk, hv, hm, hF⟩ := reached_fit h hN hf
    obtain ⟨cfg', labels', nf', ss', hk', hv', hm', hF'⟩ := reached_fit h' hN' hf'
    have := Sim.swap hv hv' (hk'.trans hk.symm) (.inr ⟨_, _, hF⟩) (.inr ⟨_, _, hF'⟩) hp hl
    rcases this with hU | ⟨l2, n2, hF2⟩
    · exact absurd (hF.shape.symm.trans hU.shape) (by simp)
    · have e := hF.shape.symm.trans hF2.shape
      simp only [Option.some.injEq, Prod.mk.injEq] at e
      obtain ⟨rfl, rfl⟩ := e
      exact fits_equal hk hfl hF hF2 hp hl
  · intro he
    obtain ⟨h1, h2⟩ := cppEq_agree he
    exact (C79_text gdoc h1 h2).symm

/-- How the class is written. -/
def kindName : Kind → String
  | .classifier => "classifier"
  | .regressor => "regressor"

theorem class_read {B : Backend} (gdoc : GenDoc env) (tdoc : TA B → TVal) (algo : String) (k : Kind) (st : EstState B env) :
    (stateDoc gdoc tdoc algo k st).read.at' "algo" = .ok (.str algo) ∧ (stateDoc gdoc tdoc algo k st).read.at' "estimator" = .ok (.str (kindName k)) := by
  have : ∀ a b c d e f : TVal, objOf [("estimator", a), ("algo", b), ("ta_state", c), ("igen", d), ("fgen", e), ("params", f)] =
      .obj [(bytesOf "algo", b), (bytesOf "estimator", a), (bytesOf "fgen", e), (bytesOf "igen", d), (bytesOf "params", f), (bytesOf "ta_state", c)] := by
    intro a b c d e f
    simp (decide := true) only [objOf, List.foldl, setMember, ↓reduceIte]
  unfold stateDoc
  rw [this, read_obj]
  simp only [List.map_cons, List.map_nil, stringOf_bytesOf, read_str]
  constructor
  · rfl
  · cases k <;> rfl

theorem reached_sound {gdoc : GenDoc env} {gio : GenIO env} (hg : FaithfulText gdoc gio) {st : EstState a.backend env} (h : Reached a k st)
    (hN : StatesOk a st.params) (h32 : ∀ key v, st.params.get? key = some (.real v) → IsFloat v) : Sound (stateDoc gdoc a.doc a.name k st) := by
  by_cases hf : Fitted a st
  · obtain ⟨cfg, labels, nf, ss, hk, hv, hm, hF⟩ := reached_fit h hN hf
    exact state_sound hg (Fit.ta_sound hv hF) (typed_sound (fun key v hv => Reached.typedAt h hv) h32 (Fit.ints hk hv h hF))
  · obtain ⟨cfg, ss, hk, hv, hm, hU⟩ := reached_unfit h hN hf
    exact state_sound hg (unfit_sound hU) (unfit_params h hU h32)

/-- **C79**: the text tells the family and the kind of the estimator: no text is that of two estimators of different classes (although loading does not look, C51). -/
theorem C79_class {gdoc : GenDoc env} {gio : GenIO env} (hg : FaithfulText gdoc gio) {a' : Algo} {k' : Kind} {st : EstState a.backend env} {st' : EstState a'.backend env}
    (h : Reached a k st) (h' : Reached a' k' st') (hN : StatesOk a st.params) (hN' : StatesOk a' st'.params)
    (h32 : ∀ key v, st.params.get? key = some (.real v) → IsFloat v) (h32' : ∀ key v, st'.params.get? key = some (.real v) → IsFloat v)
    (e : saveText a k gdoc st = saveText a' k' gdoc st') : a = a' ∧ k = k' := by
  have s := reached_sound hg h hN h32
  have s' := reached_sound hg h' hN' h32'
  obtain ⟨t, h1, h2⟩ := parse_dump s.wide s.encoded
  obtain ⟨t', h1', h2'⟩ := parse_dump s'.wide s'.encoded
  have e1 : Res.ok t = Res.ok t' := h1.symm.trans (e.trans h1')
  cases e1
  have e2 : Res.ok _ = Res.ok _ := h2.symm.trans h2'
  have e3 : (stateDoc gdoc a.doc a.name k st).read = (stateDoc gdoc a'.doc a'.name k' st').read := congrArg TVal.value (Res.ok.inj e2)
  obtain ⟨c1, c2⟩ := class_read gdoc a.doc a.name k st
  obtain ⟨c3, c4⟩ := class_read gdoc a'.doc a'.name k' st'
  rw [e3, c3] at c1
  rw [e3, c4] at c2
  have n1 := JVal.str.inj (Res.ok.inj c1)
  have n2 := JVal.str.inj (Res.ok.inj c2)
  constructor
  · cases a <;> cases a' <;> first | rfl | exact absurd n1 (by decide)
  · cases k <;> cases k' <;> first | rfl | exact absurd n2 (by decide)

/-! ### A case -/

/-- Two trained estimators that compare equal, and one that does not. -/
example : FaithfulText Toy.gdoc Toy.gioNulls ∧ Reached .classic .classifier Toy.cc ∧ StatesOk .classic Toy.cc.params ∧ Fitted .classic Toy.cc ∧
    FloatsOk Toy.env.rnd Toy.cc.params ∧ (∀ key v, Toy.cc.params.get? key = some (.real v) → IsFloat v) :=
  ⟨Toy.gdoc_faithful, Toy.cc_reached, Toy.cc_states, Toy.cc_fitted, Toy.floats_of (by decide +kernel), Toy.floats32_of (by decide +kernel)⟩

/-- Parameters stored in another order are written alike. -/
example : dump (Params.doc [("s", .real (.fin 2)), ("threshold", .int 15)]) = dump (Params.doc [("threshold", .int 15), ("s", .real (.fin 2))]) ∧
    dump (Params.doc [("s", .real (.fin 2)), ("threshold", .int 15)]) = .ok (bytesOf "{\"s\":2.0,\"threshold\":15}") := by
  constructor <;> decide +kernel

end Tsetlini
