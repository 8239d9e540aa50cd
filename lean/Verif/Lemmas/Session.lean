import Verif.Props.SavedText
import Verif.Props.Twins
import Verif.Props.Left
import Verif.Spec.Session
/- Whole programs. -/
namespace Tsetlini
open Res Spec

section
variable {B : Backend} {env : Env} {sc : Sched} {k : Kind}

theorem run_chain {cs cs' : List (Call B.Sample k)} {st s1 s2 : EstState B env} {o1 o2 : List Out}
    (h1 : run B env sc cs st = .ok (s1, o1)) (h2 : run B env sc cs' s1 = .ok (s2, o2)) :
    run B env sc (cs ++ cs') st = .ok (s2, o1 ++ o2) := by
  induction cs generalizing st o1 with
  | nil => cases h1; exact h2
  | cons c cs ih =>
    unfold run at h1
    simp only [bind_eq_ok] at h1
    obtain ⟨r, e1, q, e2, e3⟩ := h1
    cases e3
    rw [List.cons_append]
    unfold run
    rw [e1, ok_bind, ih e2]
    rfl

theorem run_split {cs cs' : List (Call B.Sample k)} {st s2 : EstState B env} {o : List Out}
    (h : run B env sc (cs ++ cs') st = .ok (s2, o)) :
    ∃ s1 o1 o2, run B env sc cs st = .ok (s1, o1) ∧ run B env sc cs' s1 = .ok (s2, o2) ∧ o = o1 ++ o2 := by
  induction cs generalizing st o with
  | nil => exact ⟨st, [], o, rfl, h, rfl⟩
  | cons c cs ih =>
    rw [List.cons_append] at h
    unfold run at h
    simp only [bind_eq_ok] at h
    obtain ⟨r, e1, q, e2, e3⟩ := h
    cases e3
    obtain ⟨s1, o1, o2, h1, h2, h3⟩ := ih e2
    refine ⟨s1, r.2 :: o1, o2, ?_, h2, by rw [List.cons_append, ← h3]⟩
    unfold run
    rw [e1, ok_bind, h1]
    rfl

theorem run_single {c : Call B.Sample k} {st st' : EstState B env} {o : Out} :
    run B env sc [c] st = .ok (st', [o]) ↔ step B env sc c st = .ok (st', o) := by
  constructor
  · intro h
    unfold run at h
    simp only [bind_eq_ok] at h
    obtain ⟨r, e1, q, e2, e3⟩ := h
    cases e2; cases e3
    exact e1
  · intro h
    unfold run
    rw [h]
    rfl

theorem record_reals (c : Call B.Sample k) (f : Bool) (o : Out) {p : Params} {key : String} {v : Fl}
    (hv : (c.record B f o p).get? key = some (.real v)) : p.get? key = some (.real v) := by
  have st : ∀ {p : Params} {key' : String} {i : Int}, (p.set key' (.int i)).get? key = some (.real v) → p.get? key = some (.real v) := by
    intro p key' i h
    by_cases e : key = key'
    · subst e
      rw [Params.get?_set_self] at h
      cases h
    · rwa [Params.get?_set_ne _ e] at h
  have rc : ∀ {p : Params} X y ml s, (recordC B X y ml s p).get? key = some (.real v) → p.get? key = some (.real v) := by
    intro p X y ml s h
    unfold recordC at h
    split at h
    · exact st (st h)
    · exact h
  have rr : ∀ {p : Params} X s, (recordR B X s p).get? key = some (.real v) → p.get? key = some (.real v) := by
    intro p X s h
    unfold recordR at h
    split at h
    · exact st h
    · exact h
  unfold Call.record at hv
  split at hv
  · exact rc _ _ _ _ hv
  · split at hv
    · exact hv
    · exact rc _ _ _ _ hv
  · exact rr _ _ hv
  · split at hv
    · exact hv
    · exact rr _ _ hv
  · exact hv

theorem run_reals (cs : List (Call B.Sample k)) {st st' : EstState B env} {outs : List Out}
    (h : run B env sc cs st = .ok (st', outs)) {key : String} {v : Fl} (hv : st'.params.get? key = some (.real v)) :
    st.params.get? key = some (.real v) := by
  induction cs generalizing st outs with
  | nil => cases h; exact hv
  | cons c cs ih =>
    unfold run at h
    simp only [bind_eq_ok] at h
    obtain ⟨r, h1, q, h2, h3⟩ := h
    cases h3
    have e := ifOk_iff.1 (step_record c st) _ h1
    have := ih h2
    rw [e] at this
    exact record_reals c _ _ this

end

variable {a : Algo} {k : Kind} {env : Env}

/-- The line starts from an estimator the program may have. -/
structure LineOk (l : Line a.Sample k) (b : EstState a.backend env) : Prop where
  start : Start a k b
  states : StatesOk a b.params
  floats : FloatsOk env.rnd b.params
  floats32 : ∀ key v, b.params.get? key = some (.real v) → IsFloat v
  typed : ∀ c ∈ l.training, WellTyped a c

/-- The state belongs to the line. -/
def Rep (gio : GenIO env) (l : Line a.Sample k) (st : EstState a.backend env) : Prop :=
  ∃ b, l.origin.start a k gio = .ok b ∧ LineOk l b ∧ ∃ cfg, cfg.kind = k ∧ Valid cfg ∧ a.lawful.minStates ≤ cfg.states ∧
    ∀ sc : Sched, ∃ st0 outs ss, run a.backend env sc l.training b = .ok (st0, outs) ∧
      Sim a.lawful cfg st0 ss ∧ Sim a.lawful cfg st ss ∧ AgreeBut [] st0.params st.params

theorem agree_refl {p : Params} : AgreeBut [] p p := fun _ _ => rfl

theorem agree_trans {p q r : Params} (h : AgreeBut [] p q) (h' : AgreeBut [] q r) : AgreeBut [] p r :=
  fun key hk => (h' key hk).trans (h key hk)

theorem Rep.start {gio : GenIO env} {o : Origin} {b : EstState a.backend env} (ho : o.start a k gio = .ok b) (h : Start a k b) (h1 : StatesOk a b.params)
    (h2 : FloatsOk env.rnd b.params) (h3 : ∀ key v, b.params.get? key = some (.real v) → IsFloat v) : Rep (a := a) (k := k) gio ⟨o, []⟩ b := by
  obtain ⟨cfg, ss, hk, hv, hm, hs⟩ := Reached.sim (st := b) ⟨b, Toy.seq, [], [], h, by simp, rfl⟩ h1
  exact ⟨b, ho, ⟨h, h1, h2, h3, by simp⟩, cfg, hk, hv, hm, fun sc => ⟨_, _, _, rfl, hs, hs, agree_refl⟩⟩

theorem Rep.fresh {gio : GenIO env} {p : Params} (h : Made k p) (h1 : StatesOk a p) (h2 : FloatsOk env.rnd p) (h3 : ∀ key v, p.get? key = some (.real v) → IsFloat v) :
    Rep (a := a) (k := k) gio ⟨.made p, []⟩ (EstState.fresh a.backend env p) := Rep.start rfl (.made p h rfl) h1 h2 h3

/-- The calls that leave a trace. -/
theorem after_cases (l : Line a.Sample k) (c : Call a.Sample k) :
    (c.Reads ∧ l.after c = l) ∨ (¬ c.Reads ∧ l.after c = ⟨l.origin, l.training ++ [c]⟩) := by
  cases c
  all_goals first | exact .inl ⟨trivial, rfl⟩ | exact .inr ⟨id, rfl⟩

theorem sims_learned {cfg : Cfg} {st st' : EstState a.backend env} {ss : SState env} (h1 : Sim a.lawful cfg st ss)
    (h2 : Sim a.lawful cfg st' ss) : SameLearned st st' :=
  ⟨h1.ta_eq rfl rfl h2, (h1.igen_eq h2).1, (h1.igen_eq h2).2⟩

theorem Rep.call {gio : GenIO env} {l : Line a.Sample k} {st st' : EstState a.backend env} (h : Rep gio l st) {c : Call a.Sample k} (hc : WellTyped a c)
    {sc : Sched} {o : Out} (hs : step a.backend env sc c st = .ok (st', o)) : Rep gio (l.after c) st' ∧ l.Answers gio c o := by
  obtain ⟨b, hb, hl, cfg, hk, hv, hN, h⟩ := h
  have key : ∀ sc' : Sched, ∃ st0 outs ss, run a.backend env sc' l.training b = .ok (st0, outs) ∧
      Sim a.lawful cfg st0 ss ∧ Sim a.lawful cfg st ss ∧ AgreeBut [] st0.params st.params ∧
      ∃ st1 ss', run a.backend env sc' [c] st0 = .ok (st1, [o]) ∧ Sim a.lawful cfg st' ss' ∧ Sim a.lawful cfg st1 ss' ∧
        AgreeBut [] st1.params st'.params := by
    intro sc'
    obtain ⟨st0, outs, ss, h0, h1, h2, h3⟩ := h sc'
    refine ⟨st0, outs, ss, h0, h1, h2, h3, ?_⟩
    obtain ⟨r', h4, h5, h6, ss', h7, h8⟩ := run_twin (sc' := sc') hv hN rfl rfl hk (R := AgreeBut [])
      (fun c f o p p' h => Call.record_agree h f c o) [c] (by simpa using hc) h2 h1 (AgreeBut.symm h3) (.inl rfl) (run_single.2 hs)
    refine ⟨r'.1, ss', ?_, h7, h8, AgreeBut.symm h6⟩
    rw [h4]
    dsimp only at h5
    rw [← h5]
  constructor
  · rcases after_cases l c with ⟨hr, e⟩ | ⟨hr, e⟩
    · rw [e]
      refine ⟨b, hb, hl, cfg, hk, hv, hN, fun sc' => ?_⟩
      obtain ⟨st0, outs, ss, h0, h1, h2, h3, st1, ss', h4, h5, h6, h7⟩ := key sc'
      obtain ⟨e1, e2⟩ := C11_readers_change_nothing st sc c hr hs
      have h3' : AgreeBut [] st0.params st'.params := by rw [e1]; exact h3
      have hl' := sims_learned h1 h2
      refine ⟨st0, outs, ss, h0, h1, h1.swap hv hv rfl h5 h3' ⟨e2.ta.trans hl'.ta, e2.igen.trans hl'.igen, e2.fgen.trans hl'.fgen⟩, h3'⟩
    · rw [e]
      refine ⟨b, hb, ⟨hl.start, hl.states, hl.floats, hl.floats32, fun c' hc' => ?_⟩, cfg, hk, hv, hN, fun sc' => ?_⟩
      · rcases List.mem_append.1 hc' with h | h
        · exact hl.typed _ h
        · rw [List.mem_singleton.1 h]; exact hc
      · obtain ⟨st0, outs, ss, h0, h1, h2, h3, st1, ss', h4, h5, h6, h7⟩ := key sc'
        exact ⟨st1, _, ss', run_chain h0 h4, h6, h5, h7⟩
  · refine ⟨b, hb, fun sc' => ?_⟩
    obtain ⟨st0, outs, ss, h0, h1, h2, h3, st1, ss', h4, -⟩ := key sc'
    exact ⟨st1, outs, run_chain h0 h4⟩

/-! ### Texts -/

section
variable {l : Line a.Sample k} {b st : EstState a.backend env} {sc : Sched} {st0 : EstState a.backend env} {outs : List Out}

theorem line_reached (hl : LineOk l b) (h0 : run a.backend env sc l.training b = .ok (st0, outs)) :
    Reached a k st0 := ⟨b, sc, _, _, hl.start, hl.typed, h0⟩

theorem line_typed (hl : LineOk l b) (h0 : run a.backend env sc l.training b = .ok (st0, outs))
    (h3 : AgreeBut [] st0.params st.params) : ∀ key v, st.params.get? key = some v → TypedAt k key v := by
  intro key v hv
  rw [h3 key (by simp)] at hv
  exact Reached.typedAt (line_reached hl h0) hv

theorem line_reals (h0 : run a.backend env sc l.training b = .ok (st0, outs))
    (h3 : AgreeBut [] st0.params st.params) {key : String} {v : Fl} (hv : st.params.get? key = some (.real v)) :
    b.params.get? key = some (.real v) := by
  rw [h3 key (by simp)] at hv
  exact run_reals _ h0 hv

theorem fit_ints {cfg : Cfg} {labels nf : Nat} {ss : SState env} (hk : cfg.kind = k) (hv : Valid cfg)
    (ht : ∀ key v, st.params.get? key = some v → TypedAt k key v) (h : Fit a.lawful cfg labels nf st ss) :
    ∀ key i, key = "number_of_labels" ∨ key = "number_of_features" → st.params.get? key = some (.int i) → IsInt i := by
  intro key i hkey hi
  rcases hkey with rfl | rfl
  · have t : TypedAt _ _ _ := ht _ _ hi
    have hc := t.2.1 rfl
    subst hk
    rw [h.labelsP hc] at hi
    have : (labels : Int) = i := by simpa using hi
    have := Fit.labels_int hv h
    unfold IsInt
    omega
  · rw [h.featP] at hi
    have : (nf : Int) = i := by simpa using hi
    have := h.nfSmall
    unfold IsInt
    omega

theorem unfit_read {gdoc : GenDoc env} {gio : GenIO env} (hg : FaithfulText gdoc gio) {cfg : Cfg} {ss : SState env} (hU : Unfit a.lawful cfg st ss)
    (hp : Sound st.params.doc) (old : EstState a.backend env) : ∃ t, saveText a k gdoc st = .ok t ∧ loadText a k gio old t = .ub .oob := by
  obtain ⟨t, h1, h2⟩ := text_round (gio := gio) (k := k) (state_sound hg (unfit_sound hU) hp) old
  refine ⟨t, h1, h2.trans ?_⟩
  obtain ⟨est, e⟩ := state_read gdoc a.doc a.name k st
  rw [e, algo_read]
  show (gio.iOf (gdoc.iDoc st.igen).read).bind _ = _
  rw [show gio.iOf (gdoc.iDoc st.igen).read = .ok st.igen from hg.igen _, ok_bind]
  show (gio.fOf (gdoc.fDoc st.fgen).read).bind _ = _
  rw [show gio.fOf (gdoc.fDoc st.fgen).read = .ok st.fgen from hg.fgen _, ok_bind]
  show (a.io.ofJ (a.io.toJ st.ta)).bind _ = _
  rw [unfit_ofJ hU]
  rfl

end

theorem text_returns (gio : GenIO env) (old : EstState a.backend env) (t : Bytes) :
    loadText a k gio old t = (loadTextLeaves a k gio old t).2.bind fun _ => .ok (loadTextLeaves a k gio old t).1 := by
  unfold loadTextLeaves fromJsonStringInto
  show (parse t).bind _ = _
  cases e : parse t with
  | ok v => exact C61_returns gio old v.value
  | ub u => rfl
  | exn e => rfl
  | timeout => rfl

section
variable {gio : GenIO env} {l : Line a.Sample k} {b st : EstState a.backend env}

theorem rep_sound (hl : LineOk l b) {cfg : Cfg} (hk : cfg.kind = k) (hv : Valid cfg) {sc : Sched} {st0 : EstState a.backend env} {outs : List Out} {ss : SState env}
    (h0 : run a.backend env sc l.training b = .ok (st0, outs)) (h2 : Sim a.lawful cfg st ss)
    (h3 : AgreeBut [] st0.params st.params) : Sound st.params.doc := by
  have ht := line_typed hl h0 h3
  have hf : ∀ key v, st.params.get? key = some (.real v) → IsFloat v := fun key v hv => hl.floats32 _ _ (line_reals h0 h3 hv)
  rcases h2 with ⟨hU⟩ | ⟨labels, nf, hF⟩
  · refine typed_sound ht hf ?_
    rintro key i (rfl | rfl) hi
    · exact absurd hi (Unfit.labelsP ‹_› i)
    · exact absurd hi (Unfit.featP ‹_› i)
  · exact typed_sound ht hf (fit_ints hk hv ht hF)

/-- A state of a line can be saved, and what is loaded from the text is of the line. -/
theorem Rep.saves {gdoc : GenDoc env} {gio : GenIO env} (hg : FaithfulText gdoc gio) (h : Rep gio l st) :
    ∃ t, saveText a k gdoc st = .ok t ∧ ∀ old : EstState a.backend env,
      (¬ Fitted a st ∧ loadText a k gio old t = .ub .oob) ∨ Fitted a st ∧ ∃ st', loadText a k gio old t = .ok st' ∧ Rep gio l st' := by
  obtain ⟨b, hb, hl, cfg, hk, hv, hN, h⟩ := h
  obtain ⟨st0, outs, ss, h0, -, h2, h3⟩ := h Toy.seq
  have hs := rep_sound hl hk hv h0 h2 h3
  rcases h2 with hU | ⟨labels, nf, hF⟩
  · obtain ⟨t, h1, -⟩ := unfit_read (k := k) hg hU hs st
    refine ⟨t, h1, fun old => ?_⟩
    obtain ⟨t', h1', h2⟩ := unfit_read (k := k) hg hU hs old
    rw [h1] at h1'
    cases h1'
    exact .inl ⟨fun hf => (by have := fitted_iff.2 hf; rw [hU.fitted] at this; cases this), h2⟩
  · have ht := line_typed hl h0 h3
    have hfl : FloatsOk env.rnd st.params := fun key v hv => hl.floats _ _ (line_reals h0 h3 hv)
    have hp := reload_same (rnd := env.rnd) ht hfl (fit_ints hk hv ht hF)
    obtain ⟨t, -, h1, -⟩ := loaded_text (old := st) hg hv hk hF hs hp
    refine ⟨t, h1, fun old => .inr ⟨fitted_iff.1 (hF.fitted hv), ?_⟩⟩
    obtain ⟨t', st', h1', h4, h5, h6, h7⟩ := loaded_text (old := old) hg hv hk hF hs hp
    rw [h1] at h1'
    cases h1'
    refine ⟨st', h4, b, hb, hl, cfg, hk, hv, hN, fun sc => ?_⟩
    obtain ⟨st0, outs, ss, g0, g1, g2, g3⟩ := h sc
    have gl := sims_learned g1 g2
    have g4 := agree_trans g3 h5
    exact ⟨st0, outs, ss, g0, g1, g1.swap hv hv rfl (.inr ⟨_, _, h7⟩) g4 ⟨h6.ta.trans gl.ta, h6.igen.trans gl.igen, h6.fgen.trans gl.fgen⟩, g4⟩

theorem Rep.trained (h : Rep gio l st) : l.Trained gio ↔ Fitted a st := by
  obtain ⟨b, hb, hl, cfg, hk, hv, hN, h⟩ := h
  constructor
  · intro ht
    obtain ⟨st0, outs, ss, h0, h1, h2, h3⟩ := h Toy.seq
    have := ht _ hb _ _ _ h0
    rw [← fitted_iff] at *
    rw [(sims_learned h1 h2).ta]
    exact this
  · intro hf b' hb' sc st' outs' hr
    rw [hb] at hb'
    cases hb'
    obtain ⟨st0, outs, ss, h0, h1, h2, h3⟩ := h sc
    rw [h0] at hr
    cases hr
    rw [← fitted_iff] at *
    rw [← (sims_learned h1 h2).ta]
    exact hf

/-- What loading the text comes to. -/
def LoadsAs (gio : GenIO env) (l : Line a.Sample k) (t : Bytes) : Prop :=
  (¬ l.Trained gio ∧ ∀ old : EstState a.backend env, loadText a k gio old t = .ub .oob) ∨
  (l.Trained gio ∧ ∀ old : EstState a.backend env, ∃ st, loadText a k gio old t = .ok st ∧ Rep gio l st)

theorem Rep.loads {gdoc : GenDoc env} (hg : FaithfulText gdoc gio) (h : Rep gio l st) {t : Bytes} (ht : saveText a k gdoc st = .ok t) : LoadsAs gio l t := by
  obtain ⟨t2, h7, h8⟩ := h.saves hg
  rw [ht] at h7
  cases h7
  by_cases hf : Fitted a st
  · exact .inr ⟨h.trained.2 hf, fun old => (h8 old).elim (fun h => absurd hf h.1) (fun h => h.2)⟩
  · exact .inl ⟨fun h' => hf (h.trained.1 h'), fun old => (h8 old).elim (fun h => h.2) (fun h => absurd h.1 hf)⟩

theorem loadText_other {old st : EstState a.backend env} {t : Bytes} (h : loadText a k gio old t = .ok st) (old' : EstState a.backend env) :
    ∃ c, loadText a k gio old' t = .ok { st with cache := c } := by
  obtain ⟨v, hp, hl⟩ := bind_eq_ok.1 (show (parse t).bind (fun v => loadState gio a.io k old v.value) = .ok st from h)
  unfold loadState at hl
  simp only [bind_eq_ok] at hl
  obtain ⟨x1, e1, x2, e2, x3, e3, x4, e4, x5, e5, x6, e6, x7, e7, x8, e8, x9, e9, e⟩ := hl
  cases e
  obtain ⟨c, hc⟩ : ∃ c, resetCache env k x8 old'.cache.tick = .ok c := by
    cases k
    · unfold resetCache at e9 ⊢
      simp only [bind_eq_ok] at e9
      obtain ⟨y1, f1, y2, f2, y3, f3, y4, f4, y5, f5, y6, f6, y7, f7, -⟩ := e9
      simp only [f1, f2, f3, f4, f5, f6, f7, ok_bind]
      exact ⟨_, rfl⟩
    · unfold resetCache at e9 ⊢
      simp only [bind_eq_ok] at e9
      obtain ⟨y1, f1, y2, f2, y5, f5, y6, f6, y7, f7, -⟩ := e9
      simp only [f1, f2, f5, f6, f7, ok_bind]
      exact ⟨_, rfl⟩
  refine ⟨c, ?_⟩
  show (parse t).bind (fun v => loadState gio a.io k old' v.value) = _
  rw [hp, ok_bind]
  unfold loadState
  simp only [e1, e2, e3, e4, e5, e6, e7, e8, hc, ok_bind]

theorem coherent_cache {st : EstState a.backend env} (h : Coherent a k st) (c : Cache) : Coherent a k { st with cache := c } := by
  obtain ⟨labels, n, clauses, N, M, w, ct, h⟩ := h
  exact ⟨labels, n, clauses, N, M, w, ct, { h with width := by cases a <;> exact h.width, mirror := by cases a <;> exact h.mirror }⟩

/-- A text from elsewhere. -/
theorem loads_foreign {old st : EstState a.backend env} {t : Bytes} (h : loadText a k gio old t = .ok st) (hc : Coherent a k st) (hf : Fitted a st)
    (h1 : StatesOk a st.params) (h2 : FloatsOk env.rnd st.params) (h3 : ∀ key v, st.params.get? key = some (.real v) → IsFloat v) :
    LoadsAs (a := a) (k := k) gio ⟨.read t, []⟩ t := by
  have st_ : ∀ {b : EstState a.backend env}, Coherent a k b → ∀ {old}, loadText a k gio old t = .ok b → Start a k b := fun hc _ h => by
    obtain ⟨v, -, hl⟩ := bind_eq_ok.1 (show (parse t).bind (fun v => loadState gio a.io k _ v.value) = .ok _ from h)
    exact .loaded gio _ _ hl hc
  obtain ⟨c, hb⟩ := loadText_other h (EstState.fresh a.backend env [])
  have hr := Rep.start (o := .read t) hb (st_ (coherent_cache hc c) hb) h1 h2 h3
  refine .inr ⟨hr.trained.2 hf, fun old' => ?_⟩
  obtain ⟨c', h'⟩ := loadText_other h old'
  refine ⟨_, h', ?_⟩
  obtain ⟨cfg, ss', hk, hv, hm, hs⟩ := Reached.sim (st := { st with cache := c' }) ⟨_, Toy.seq, [], [], st_ (coherent_cache hc c') h', by simp, rfl⟩ h1
  obtain ⟨b, e, hl, cfg', hk', hv', hN', hh⟩ := hr
  have e' : b = { st with cache := c } := by
    have := e.symm.trans hb
    cases this
    rfl
  subst e'
  refine ⟨_, e, hl, cfg', hk', hv', hN', fun sc => ?_⟩
  obtain ⟨st0, outs, ss, g0, g1, g2, g3⟩ := hh sc
  cases g0
  exact ⟨_, _, ss, rfl, g1, g1.swap hv' hv (hk.trans hk'.symm) hs agree_refl ⟨rfl, rfl, rfl⟩, agree_refl⟩

theorem Rep.leads (h : Rep gio l st) : l.Leads gio st := by
  obtain ⟨b, hb, hl, cfg, hk, hv, hN, h⟩ := h
  refine ⟨b, hb, fun sc => ?_⟩
  obtain ⟨st0, outs, ss, h0, h1, h2, h3⟩ := h sc
  exact ⟨st0, outs, h0, h3, sims_learned h1 h2, sims_indist hv hN hk h1 h2 h3⟩

/-- Trained states of a line compare equal. -/
theorem Rep.equal {st' : EstState a.backend env} (h : Rep gio l st) (h' : Rep gio l st') (hf : Fitted a st) : EstState.CppEq k st st' := by
  obtain ⟨b, hb, hl, cfg, hk, hv, hN, h⟩ := h
  obtain ⟨b', hb', -, cfg', hk', hv', hN', h'⟩ := h'
  rw [hb] at hb'
  cases hb'
  obtain ⟨st0, outs, ss, h0, h1, h2, h3⟩ := h Toy.seq
  obtain ⟨st0', outs', ss', h0', h1', h2', h3'⟩ := h' Toy.seq
  rw [h0] at h0'
  cases h0'
  have l1 := sims_learned h1 h2
  have l2 := sims_learned h1' h2'
  have hl' : SameLearned st st' := ⟨l2.ta.trans l1.ta.symm, l2.igen.trans l1.igen.symm, l2.fgen.trans l1.fgen.symm⟩
  have hp : AgreeBut [] st.params st'.params := agree_trans (AgreeBut.symm h3) h3'
  have h4 := h2.swap hv hv' (hk'.trans hk.symm) h2' hp hl'
  have hfl : FloatsOk env.rnd st.params := fun key v hv => hl.floats _ _ (line_reals h0 h3 hv)
  rcases h2 with hU | ⟨labels, nf, hF⟩
  · exact absurd (fitted_iff.2 hf) (by rw [hU.fitted]; simp)
  · rcases h4 with hU | ⟨labels', nf', hF'⟩
    · exact absurd (hF.shape.symm.trans hU.shape) (by simp)
    · have e := hF.shape.symm.trans hF'.shape
      simp only [Option.some.injEq, Prod.mk.injEq] at e
      obtain ⟨rfl, rfl⟩ := e
      refine ⟨congrArg TA.mat hl'.ta.symm, congrArg TA.weights hl'.ta.symm, hl'.igen.symm, hl'.fgen.symm, fun key => ?_, ?_⟩
      · rw [hp key (by simp)]
        cases hg : st.params.get? key with
        | none => trivial
        | some v =>
          dsimp only
          cases v with
          | real x =>
            obtain ⟨q, rfl, -⟩ := hfl _ _ hg
            show (Fl.fin q == Fl.fin q) = true
            simp
          | int _ => show (PVal.int _ == PVal.int _) = true; simp
          | seed _ => show (PVal.seed _ == PVal.seed _) = true; simp
          | bool _ => show (PVal.bool _ == PVal.bool _) = true; simp
          | str _ => show (PVal.str _ == PVal.str _) = true; simp
          | none => rfl
      · unfold Cache.cppEq
        subst hk
        cases hk : cfg.kind with
        | classifier => dsimp only; rw [hF.coLen, hF'.coLen, hF.lsLen hk, hF'.lsLen hk, hF.fbLen hk, hF'.fbLen hk]; simp
        | regressor => dsimp only; rw [hF.coLen, hF'.coLen]; simp

end

/-! ### The invariant -/

variable {gdoc : GenDoc env} {gio : GenIO env}

/-- What a variable is, and what it is about. -/
def Agrees (gio : GenIO env) (H : List (Option (EstState a.backend env))) : Obj → About a.Sample k → Prop
  | .owner b none, .owner b' none => b = b'
  | .owner b (some p), .owner b' (some l) => b = b' ∧ ∃ st, H[p]? = some (some st) ∧ Rep gio l st
  | .text t, .text (some l) => LoadsAs gio l t
  | .text t, .text none => ∀ old : EstState a.backend env, ∃ e, loadTextLeaves a k gio old t = (old, .exn e)
  | .gone, .gone => True
  | _, _ => False

structure Inv (gio : GenIO env) (S : Session a.backend env) (T : List (About a.Sample k)) : Prop where
  len : S.vars.length = T.length
  agrees : ∀ (i : Nat) o t, S.vars[i]? = some o → T[i]? = some t → Agrees gio S.heap o t
  uniq : ∀ (v w p : Nat) b b', S.vars[v]? = some (.owner b (some p)) → S.vars[w]? = some (.owner b' (some p)) → v = w
  owned : ∀ (p : Nat) st, S.heap[p]? = some (some st) → ∃ (v : Nat) (b : Bool), S.vars[v]? = some (.owner b (some p))

section
variable {S : Session a.backend env} {T : List (About a.Sample k)} {l l' : Line a.Sample k} {st : EstState a.backend env}

theorem Agrees.mono {H H' : List (Option (EstState a.backend env))} {o : Obj} {t : About a.Sample k} (h : Agrees gio H o t)
    (hH : ∀ (p : Nat) b st, o = .owner b (some p) → H[p]? = some (some st) → H'[p]? = some (some st)) : Agrees gio H' o t := by
  cases o with
  | owner b p =>
    cases p with
    | none =>
      cases t with
      | owner _ l => cases l <;> exact h
      | text _ => exact h
      | gone => exact h
    | some p =>
      cases t with
      | owner b' l =>
        cases l with
        | none => exact h.elim
        | some l =>
          obtain ⟨e, st, h1, h2⟩ := h
          exact ⟨e, st, hH _ _ _ rfl h1, h2⟩
      | text _ => exact h.elim
      | gone => exact h.elim
  | text t' =>
    cases t with
    | text l => cases l <;> exact h
    | owner _ _ => exact h.elim
    | gone => exact h
  | gone => cases t <;> exact h

theorem snoc_some {α : Type} {l : List α} {x y : α} {i : Nat} (h : (l ++ [x])[i]? = some y) : l[i]? = some y ∨ (i = l.length ∧ y = x) := by
  by_cases hi : i < l.length
  · rw [List.getElem?_append_left hi] at h
    exact .inl h
  · rw [List.getElem?_append_right (by omega)] at h
    by_cases e : i - l.length = 0
    · rw [e] at h
      exact .inr ⟨by omega, by simpa using h.symm⟩
    · obtain ⟨j, hj⟩ := Nat.exists_eq_succ_of_ne_zero e
      rw [hj] at h
      simp at h

theorem snoc_left {α : Type} {l : List α} {x y : α} {i : Nat} (h : l[i]? = some y) : (l ++ [x])[i]? = some y := by
  rw [List.getElem?_append_left (List.getElem?_eq_some_iff.1 h).1]
  exact h

theorem set_some {α : Type} {l : List α} {x y : α} {i j : Nat} (h : (l.set i x)[j]? = some y) : (j = i ∧ y = x) ∨ (j ≠ i ∧ l[j]? = some y) := by
  by_cases e : i = j
  · subst e
    rw [List.getElem?_set_self'] at h
    cases hi : l[i]? with
    | none => rw [hi] at h; cases h
    | some z => rw [hi] at h; exact .inl ⟨rfl, by simpa using h.symm⟩
  · rw [List.getElem?_set_ne e] at h
    exact .inr ⟨fun e' => e e'.symm, h⟩

theorem set_self {α : Type} {l : List α} {x z : α} {i : Nat} (h : l[i]? = some z) : (l.set i x)[i]? = some x := by
  rw [List.getElem?_set_self', h]
  rfl

theorem Inv.push (h : Inv gio S T) {o : Obj} {t : About a.Sample k} (ha : Agrees gio S.heap o t) (ho : ∀ b p, o ≠ .owner b (some p)) :
    Inv gio (S.push o) (T ++ [t]) := by
  refine ⟨?_, fun i o' t' h1 h2 => ?_, fun v w p b b' h1 h2 => ?_, fun p st hp => ?_⟩
  · show (S.vars ++ [o]).length = _
    simp [h.len]
  · rcases snoc_some h1 with h1 | ⟨rfl, rfl⟩
    · rcases snoc_some h2 with h2 | ⟨rfl, rfl⟩
      · exact h.agrees _ _ _ h1 h2
      · rw [← h.len, List.getElem?_eq_none (Nat.le_refl _)] at h1
        cases h1
    · rcases snoc_some h2 with h2 | ⟨-, rfl⟩
      · rw [h.len, List.getElem?_eq_none (Nat.le_refl _)] at h2
        cases h2
      · exact ha
  · rcases snoc_some h1 with h1 | ⟨rfl, e⟩
    · rcases snoc_some h2 with h2 | ⟨rfl, e⟩
      · exact h.uniq _ _ _ _ _ h1 h2
      · exact absurd e.symm (ho _ _)
    · exact absurd e.symm (ho _ _)
  · obtain ⟨v, b, hv⟩ := h.owned p st hp
    exact ⟨v, b, snoc_left hv⟩

/-- Owned addresses are alive. -/
theorem Inv.alive (h : Inv gio S T) {v p : Nat} {b : Bool} (hv : S.vars[v]? = some (.owner b (some p))) :
    ∃ l st, T[v]? = some (.owner b (some l)) ∧ S.heap[p]? = some (some st) ∧ Rep gio l st := by
  have hi : v < T.length := by
    rw [← h.len]
    exact (List.getElem?_eq_some_iff.1 hv).1
  have ha := h.agrees v _ _ hv (List.getElem?_eq_getElem hi)
  rw [List.getElem?_eq_getElem hi]
  revert ha
  generalize T[v] = t
  intro ha
  cases t with
  | owner b' l =>
    cases l with
    | none => exact ha.elim
    | some l =>
      obtain ⟨rfl, st, h1, h2⟩ := ha
      exact ⟨l, st, rfl, h1, h2⟩
  | text _ => exact ha.elim
  | gone => exact ha.elim

theorem Inv.small (h : Inv gio S T) {v p : Nat} {b : Bool} (hv : S.vars[v]? = some (.owner b (some p))) : p < S.heap.length := by
  obtain ⟨_, _, -, h1, -⟩ := h.alive hv
  exact (List.getElem?_eq_some_iff.1 h1).1

theorem Inv.add (h : Inv gio S T) (b : Bool) (hr : Rep gio l st) : Inv gio (S.add b st) (T ++ [.owner b (some l)]) := by
  refine ⟨?_, fun i o' t' h1 h2 => ?_, fun v w p b b' h1 h2 => ?_, fun p st' hp => ?_⟩
  · show (S.vars ++ [_]).length = _
    simp [h.len]
  · rcases snoc_some h1 with h1 | ⟨rfl, rfl⟩
    · rcases snoc_some h2 with h2 | ⟨rfl, rfl⟩
      · exact (h.agrees _ _ _ h1 h2).mono fun p b st' _ e => snoc_left e
      · rw [← h.len, List.getElem?_eq_none (Nat.le_refl _)] at h1
        cases h1
    · rcases snoc_some h2 with h2 | ⟨-, rfl⟩
      · rw [h.len, List.getElem?_eq_none (Nat.le_refl _)] at h2
        cases h2
      · refine ⟨rfl, st, ?_, hr⟩
        show (S.heap ++ [some st])[S.heap.length]? = _
        simp
  · rcases snoc_some h1 with h1 | ⟨rfl, e⟩
    · rcases snoc_some h2 with h2 | ⟨rfl, e⟩
      · exact h.uniq _ _ _ _ _ h1 h2
      · cases e
        exact absurd (h.small h1) (by omega)
    · cases e
      rcases snoc_some h2 with h2 | ⟨rfl, e⟩
      · exact absurd (h.small h2) (by omega)
      · rfl
  · rcases snoc_some hp with hp | ⟨rfl, e⟩
    · obtain ⟨v, b, hv⟩ := h.owned p st' hp
      exact ⟨v, b, snoc_left hv⟩
    · exact ⟨S.vars.length, b, by show (S.vars ++ [_])[_]? = _; simp⟩

theorem Inv.put (h : Inv gio S T) {v p : Nat} {b : Bool} (hv : S.vars[v]? = some (.owner b (some p))) (hr : Rep gio l st) :
    Inv gio (S.put p st) (T.set v (.owner b (some l))) := by
  refine ⟨?_, fun i o' t' h1 h2 => ?_, fun v w p b b' h1 h2 => ?_, fun q st' hp => ?_⟩
  · show S.vars.length = _
    simp [h.len]
  · have h1 : S.vars[i]? = some o' := h1
    rcases set_some h2 with ⟨rfl, rfl⟩ | ⟨hi, h2⟩
    · rw [hv] at h1
      cases h1
      obtain ⟨_, _, -, e, -⟩ := h.alive hv
      exact ⟨rfl, st, set_self e, hr⟩
    · refine (h.agrees _ _ _ h1 h2).mono fun q b' st' e e' => ?_
      subst e
      have : p ≠ q := fun e => hi (by subst e; exact h.uniq _ _ _ _ _ h1 hv)
      show (S.heap.set p (some st))[q]? = _
      rw [List.getElem?_set_ne this]
      exact e'
  · exact h.uniq _ _ _ _ _ h1 h2
  · rcases set_some hp with ⟨rfl, -⟩ | ⟨-, hp⟩
    · exact ⟨v, b, hv⟩
    · exact h.owned _ _ hp

/-- What is at an address was handed over: from `v` to `d`, where what `d` had is deleted. -/
theorem Inv.assign (h : Inv gio S T) {d v : Nat} {b : Bool} {p old : Option Nat} {ol : Option (Line a.Sample k)} (hv : S.vars[v]? = some (.owner b p))
    (ht : T[v]? = some (.owner b ol)) (hd : (S.vars.set v (.owner b none))[d]? = some (.owner b old)) {S' : Session a.backend env}
    (hs : Session.delete ⟨S.heap, (S.vars.set v (.owner b none)).set d (.owner b p)⟩ old = .ok S') :
    Inv gio S' ((T.set v (.owner b none)).set d (.owner b ol)) := by
  obtain ⟨hvars, hheap⟩ : S'.vars = (S.vars.set v (.owner b none)).set d (.owner b p) ∧
      ∀ (q : Nat) st, S'.heap[q]? = some (some st) ↔ S.heap[q]? = some (some st) ∧ old ≠ some q := by
    cases old with
    | none => cases hs; exact ⟨rfl, fun q st => ⟨fun h => ⟨h, by simp⟩, And.left⟩⟩
    | some q =>
      unfold Session.delete at hs
      dsimp only at hs
      split at hs
      · cases hs
        refine ⟨rfl, fun q' st => ⟨fun h => ?_, fun ⟨h, h'⟩ => ?_⟩⟩
        · rcases set_some h with ⟨-, e⟩ | ⟨e, h⟩
          · cases e
          · exact ⟨h, fun e' => e (by cases e'; rfl)⟩
        · show (S.heap.set q none)[q']? = _
          rw [List.getElem?_set_ne fun e => h' (by rw [e])]
          exact h
      · cases hs
  -- the owners
  have own : ∀ (w r : Nat) b', S'.vars[w]? = some (.owner b' (some r)) →
      (w = d ∧ p = some r ∧ b' = b) ∨ (w ≠ d ∧ w ≠ v ∧ S.vars[w]? = some (.owner b' (some r))) := by
    intro w r b' hw
    rw [hvars] at hw
    rcases set_some hw with ⟨rfl, e⟩ | ⟨hwd, hw⟩
    · cases e; exact .inl ⟨rfl, rfl, rfl⟩
    · rcases set_some hw with ⟨rfl, e⟩ | ⟨hwv, hw⟩
      · cases e
      · exact .inr ⟨hwd, hwv, hw⟩
  -- what `d` had is not what `v` had
  have diff : ∀ q : Nat, p = some q → old ≠ some q := by
    rintro q rfl rfl
    rcases set_some hd with ⟨-, e⟩ | ⟨e, hd⟩
    · cases e
    · exact e (h.uniq _ _ _ _ _ hd hv)
  refine ⟨?_, fun i o' t' h1 h2 => ?_, fun w w' r b1 b2 h1 h2 => ?_, fun q st' hp => ?_⟩
  · rw [hvars]; simp [h.len]
  · rw [hvars] at h1
    rcases set_some h1 with ⟨rfl, rfl⟩ | ⟨hid, h1⟩
    · rcases set_some h2 with ⟨-, rfl⟩ | ⟨e, -⟩
      · refine (h.agrees _ _ _ hv ht).mono fun q b' st e e' => (hheap _ _).2 ⟨e', diff q ?_⟩
        cases e
        rfl
      · exact absurd rfl e
    · rcases set_some h2 with ⟨e, -⟩ | ⟨-, h2⟩
      · exact absurd e hid
      · rcases set_some h1 with ⟨rfl, rfl⟩ | ⟨hiv, h1⟩
        · rcases set_some h2 with ⟨-, rfl⟩ | ⟨e, -⟩
          · rfl
          · exact absurd rfl e
        · rcases set_some h2 with ⟨e, -⟩ | ⟨-, h2⟩
          · exact absurd e hiv
          · refine (h.agrees _ _ _ h1 h2).mono fun q b' st e e' => (hheap _ _).2 ⟨e', ?_⟩
            rintro rfl
            subst e
            rcases set_some hd with ⟨-, e⟩ | ⟨-, hd⟩
            · cases e
            · exact hid (h.uniq _ _ _ _ _ h1 hd)
  · rcases own _ _ _ h1 with ⟨rfl, rfl, -⟩ | ⟨e1, e2, h1⟩
    · rcases own _ _ _ h2 with ⟨rfl, -⟩ | ⟨e3, e4, h2⟩
      · rfl
      · exact absurd (h.uniq _ _ _ _ _ h2 hv) e4
    · rcases own _ _ _ h2 with ⟨rfl, rfl, -⟩ | ⟨e3, e4, h2⟩
      · exact absurd (h.uniq _ _ _ _ _ h1 hv) e2
      · exact h.uniq _ _ _ _ _ h1 h2
  · obtain ⟨hp, ho⟩ := (hheap _ _).1 hp
    obtain ⟨w, b', hw⟩ := h.owned _ _ hp
    rw [hvars]
    by_cases e : w = v
    · subst e
      rw [hv] at hw
      cases hw
      exact ⟨d, b, set_self hd⟩
    · by_cases e' : w = d
      · subst e'
        rw [List.getElem?_set_ne (fun e' => e e'.symm), hw] at hd
        cases hd
        exact absurd rfl ho
      · refine ⟨w, b', ?_⟩
        rw [List.getElem?_set_ne (fun e => e' e.symm), List.getElem?_set_ne (fun e' => e e'.symm)]
        exact hw

theorem Inv.move (h : Inv gio S T) {v : Nat} {b : Bool} {p : Option Nat} {ol : Option (Line a.Sample k)} (hv : S.vars[v]? = some (.owner b p))
    (ht : T[v]? = some (.owner b ol)) : Inv gio ⟨S.heap, S.vars.set v (.owner b none) ++ [.owner b p]⟩ (T.set v (.owner b none) ++ [.owner b ol]) := by
  have hl := (List.getElem?_eq_some_iff.1 hv).1
  have hl' := (List.getElem?_eq_some_iff.1 ht).1
  have e : ∀ {α : Type} (l : List α) (x y z : α), v < l.length → ((l ++ [z]).set v x).set l.length y = l.set v x ++ [y] := by
    intro α l x y z hl
    rw [List.set_append, if_pos hl, List.set_append, if_neg (by simp)]
    simp
  have := (h.push (o := .owner b none) (t := .owner b none) rfl (by simp)).assign (d := S.vars.length) (v := v) (snoc_left hv) (snoc_left ht) (old := none)
    (by
      show ((S.vars ++ [Obj.owner b none]).set v _)[_]? = _
      rw [List.getElem?_set_ne (by omega)]
      simp) rfl
  have ev : ((S.push (Obj.owner b none)).vars.set v (Obj.owner b none)).set S.vars.length (Obj.owner b p) = S.vars.set v (.owner b none) ++ [.owner b p] :=
    e _ _ _ _ hl
  rw [ev] at this
  rw [h.len, e T _ _ _ hl'] at this
  exact this

theorem Inv.drop (h : Inv gio S T) {v : Nat} (p : Option Nat) (hv : ∀ q, (∃ b, S.vars[v]? = some (.owner b (some q))) ↔ p = some q) {S' : Session a.backend env}
    (hs : Session.delete ⟨S.heap, S.vars.set v .gone⟩ p = .ok S') : Inv gio S' (T.set v .gone) := by
  obtain ⟨hvars, hheap⟩ : S'.vars = S.vars.set v .gone ∧
      ∀ (q : Nat) st, S'.heap[q]? = some (some st) ↔ S.heap[q]? = some (some st) ∧ p ≠ some q := by
    cases p with
    | none => cases hs; exact ⟨rfl, fun q st => ⟨fun h => ⟨h, by simp⟩, And.left⟩⟩
    | some q =>
      unfold Session.delete at hs
      dsimp only at hs
      split at hs
      · cases hs
        refine ⟨rfl, fun q' st => ⟨fun h => ?_, fun ⟨h, h'⟩ => ?_⟩⟩
        · rcases set_some h with ⟨-, e⟩ | ⟨e, h⟩
          · cases e
          · exact ⟨h, fun e' => e (by cases e'; rfl)⟩
        · show (S.heap.set q none)[q']? = _
          rw [List.getElem?_set_ne fun e => h' (by rw [e])]
          exact h
      · cases hs
  have own : ∀ (w : Nat) o, S'.vars[w]? = some o → (w = v ∧ o = .gone) ∨ (w ≠ v ∧ S.vars[w]? = some o) := by
    intro w o hw
    rw [hvars] at hw
    exact set_some hw
  refine ⟨?_, fun i o' t' h1 h2 => ?_, fun w w' r b1 b2 h1 h2 => ?_, fun q st' hp => ?_⟩
  · rw [hvars]; simp [h.len]
  · rcases own _ _ h1 with ⟨rfl, rfl⟩ | ⟨hi, h1⟩
    · rcases set_some h2 with ⟨-, rfl⟩ | ⟨e, -⟩
      · trivial
      · exact absurd rfl e
    · rcases set_some h2 with ⟨e, -⟩ | ⟨-, h2⟩
      · exact absurd e hi
      · refine (h.agrees _ _ _ h1 h2).mono fun q b' st e e' => (hheap _ _).2 ⟨e', fun hp => ?_⟩
        subst e
        obtain ⟨b, hb⟩ := (hv q).2 hp
        exact hi (h.uniq _ _ _ _ _ h1 hb)
  · rcases own _ _ h1 with ⟨-, e⟩ | ⟨-, h1⟩
    · cases e
    · rcases own _ _ h2 with ⟨-, e⟩ | ⟨-, h2⟩
      · cases e
      · exact h.uniq _ _ _ _ _ h1 h2
  · obtain ⟨hp, ho⟩ := (hheap _ _).1 hp
    obtain ⟨w, b', hw⟩ := h.owned _ _ hp
    refine ⟨w, b', ?_⟩
    rw [hvars, List.getElem?_set_ne]
    · exact hw
    · rintro rfl
      exact ho ((hv q).1 ⟨_, hw⟩)

/-- The variable is what it is about. -/
theorem Inv.has (h : Inv gio S T) {v : Nat} {o : Obj} (hv : S.vars[v]? = some o) : ∃ t, T[v]? = some t ∧ Agrees gio S.heap o t := by
  have hi : v < T.length := by
    rw [← h.len]
    exact (List.getElem?_eq_some_iff.1 hv).1
  exact ⟨T[v], List.getElem?_eq_getElem hi, h.agrees v _ _ hv (List.getElem?_eq_getElem hi)⟩

theorem Inv.owner (h : Inv gio S T) {v : Nat} {b : Bool} {p : Option Nat} (hv : S.vars[v]? = some (.owner b p)) :
    ∃ ol, T[v]? = some (.owner b ol) := by
  obtain ⟨t, ht, ha⟩ := h.has hv
  cases t with
  | owner b' ol =>
    refine ⟨ol, ?_⟩
    cases p <;> cases ol <;> simp [Agrees] at ha
    · rw [ha, ht]
    · rw [ha.1, ht]
  | text _ => cases p <;> exact ha.elim
  | gone => cases p <;> exact ha.elim

theorem deref_ok {est : Bool} {v : Nat} {r : Nat × EstState a.backend env} (h : S.deref est v = .ok r) :
    S.vars[v]? = some (.owner est (some r.1)) ∧ S.heap[r.1]? = some (some r.2) := by
  unfold Session.deref at h
  split at h
  · rename_i b p e
    split at h
    · rename_i e'
      subst e'
      split at h
      · rename_i st e2
        cases h
        exact ⟨e, e2⟩
      · cases h
    · cases h
  · cases h

theorem Inv.deref (h : Inv gio S T) {est : Bool} {v : Nat} {r : Nat × EstState a.backend env} (hd : S.deref est v = .ok r) :
    ∃ l, T[v]? = some (.owner est (some l)) ∧ Rep gio l r.2 := by
  obtain ⟨h1, h2⟩ := deref_ok hd
  obtain ⟨l, st, h3, h4, h5⟩ := h.alive h1
  rw [h2] at h4
  cases h4
  exact ⟨l, h3, h5⟩

theorem clone_eq (st : EstState a.backend env) : st.clone = st := rfl

/-- A statement preserves the invariant, and a call answers as the line says. -/
theorem Inv.exec (hg : FaithfulText gdoc gio) (h : Inv gio S T) {c : Cmd a.Sample k} (hc : Proper a k gio c) {r : Session a.backend env × Told}
    (he : c.exec gdoc gio a.doc a.io a.name S = .ok r) : Inv gio r.1 (follow gio T c) ∧
      ∀ sc e d, c = .call sc e d → ∃ l o, T[e]? = some (.owner true (some l)) ∧ r.2 = .out o ∧ l.Answers gio d o := by
  cases c with
  | make m io req =>
    refine ⟨?_, fun _ _ _ e => by cases e⟩
    unfold Cmd.exec at he
    simp only [bind_eq_ok] at he
    obtain ⟨q, e1, e2⟩ := he
    unfold follow; dsimp only
    rw [e1]
    cases q with
    | ok p =>
      cases e2
      obtain ⟨h1, h2, h3⟩ := hc.2 p e1
      exact h.add true (Rep.fresh ⟨m, io, req, hc.1, e1⟩ h1 h2 h3)
    | error s =>
      cases e2
      exact h.push trivial (by simp)
  | call sc e d =>
    unfold Cmd.exec at he
    simp only [bind_eq_ok] at he
    obtain ⟨q, e1, q', e2, e3⟩ := he
    cases e3
    obtain ⟨l, h1, h2⟩ := h.deref e1
    obtain ⟨h3, h4⟩ := h2.call hc e2
    refine ⟨?_, fun _ _ _ e => by cases e; exact ⟨l, _, h1, rfl, h4⟩⟩
    unfold follow; dsimp only
    rw [h1]
    exact h.put (deref_ok e1).1 h3
  | clone e =>
    refine ⟨?_, fun _ _ _ e => by cases e⟩
    unfold Cmd.exec at he
    simp only [bind_eq_ok] at he
    obtain ⟨q, e1, e2⟩ := he
    cases e2
    obtain ⟨l, h1, h2⟩ := h.deref e1
    unfold follow; dsimp only
    rw [h1]
    exact h.add false h2
  | build e =>
    refine ⟨?_, fun _ _ _ e => by cases e⟩
    unfold Cmd.exec at he
    simp only [bind_eq_ok] at he
    obtain ⟨q, e1, e2⟩ := he
    cases e2
    obtain ⟨l, h1, h2⟩ := h.deref e1
    unfold follow; dsimp only
    rw [h1]
    exact h.add true h2
  | move v =>
    refine ⟨?_, fun _ _ _ e => by cases e⟩
    unfold Cmd.exec at he
    dsimp only at he
    split at he
    · rename_i b p e1
      cases he
      obtain ⟨ol, h1⟩ := h.owner e1
      unfold follow; dsimp only
      rw [h1]
      exact h.move e1 h1
    · cases he
  | assign d v =>
    refine ⟨?_, fun _ _ _ e => by cases e⟩
    unfold Cmd.exec at he
    dsimp only at he
    split at he
    · rename_i b p e1
      obtain ⟨ol, h1⟩ := h.owner e1
      split at he
      · rename_i b' old e2
        split at he
        · rename_i e3
          subst e3
          simp only [bind_eq_ok] at he
          obtain ⟨S', e3, e4⟩ := he
          cases e4
          unfold follow; dsimp only
          rw [h1]
          exact h.assign e1 h1 e2 e3
        · cases he
      · cases he
    · cases he
  | save s =>
    refine ⟨?_, fun _ _ _ e => by cases e⟩
    unfold Cmd.exec at he
    simp only [bind_eq_ok] at he
    obtain ⟨q, e1, t, e2, e3⟩ := he
    cases e3
    obtain ⟨l, h1, h2⟩ := h.deref e1
    unfold follow; dsimp only
    rw [h1]
    exact h.push (show Agrees gio S.heap (.text t) (.text (some l)) from h2.loads hg e2) (by simp)
  | text t =>
    refine ⟨?_, fun _ _ _ e => by cases e⟩
    cases he
    refine h.push (t := match (Origin.read t).start a k gio with
      | .ok _ => .text (some ⟨.read t, []⟩)
      | _ => .text none) ?_ (by simp)
    rcases hc with hc | ⟨old, st, h1, h2, h3, h4, h5, h6⟩
    · obtain ⟨e, he⟩ := hc (EstState.fresh a.backend env [])
      have : (Origin.read t).start a k gio = .exn e := by
        show loadText a k gio (EstState.fresh a.backend env []) t = _
        rw [text_returns, he]
        rfl
      rw [this]
      exact hc
    · obtain ⟨c, hb⟩ := loadText_other h1 (EstState.fresh a.backend env [])
      rw [show (Origin.read t).start a k gio = _ from hb]
      exact loads_foreign h1 h2 h3 h4 h5 h6
  | load s t =>
    refine ⟨?_, fun _ _ _ e => by cases e⟩
    unfold Cmd.exec at he
    simp only [bind_eq_ok] at he
    obtain ⟨q, e1, he⟩ := he
    obtain ⟨l, h1, h2⟩ := h.deref e1
    split at he
    · rename_i t' e2
      obtain ⟨ab, h3, h4⟩ := h.has e2
      unfold follow; dsimp only
      rw [h3]
      have hq : fromJsonStringInto gio a.io k q.2 t' = loadTextLeaves a k gio q.2 t' := rfl
      rw [hq] at he
      cases ab with
      | owner _ _ => exact h4.elim
      | gone => exact h4.elim
      | text ol =>
        cases ol with
        | none =>
          obtain ⟨ex, h4⟩ := h4 q.2
          rw [h4] at he
          cases he
          dsimp only
          have := h.put (deref_ok e1).1 h2
          have et : T.set s (.owner false (some l)) = T := by
            refine List.ext_getElem? fun i => ?_
            by_cases ei : s = i
            · subst ei
              rw [set_self h1, h1]
            · rw [List.getElem?_set_ne ei]
          rw [et] at this
          exact this
        | some l' =>
          have h8 : (∃ _ : True, loadText a k gio q.2 t' = .ub .oob) ∨ ∃ st', loadText a k gio q.2 t' = .ok st' ∧ Rep gio l' st' := by
            rcases h4 with ⟨-, e⟩ | ⟨-, e⟩
            · exact .inl ⟨trivial, e _⟩
            · exact .inr (e _)
          rcases h8 with ⟨-, e⟩ | ⟨st', e, h9⟩
          · rw [text_returns] at e
            cases e3 : (loadTextLeaves a k gio q.2 t').2 with
            | ok _ => rw [e3] at e; cases e
            | ub u => rw [e3] at he; cases he
            | exn u => rw [e3] at e; cases e
            | timeout => rw [e3] at e; cases e
          · rw [text_returns] at e
            cases e3 : (loadTextLeaves a k gio q.2 t').2 with
            | ok _ =>
              rw [e3] at he e
              cases he
              dsimp only
              refine h.put (deref_ok e1).1 ?_
              cases e
              exact h9
            | ub u => rw [e3] at e; cases e
            | exn u => rw [e3] at e; cases e
            | timeout => rw [e3] at e; cases e
    · cases he
  | destroy v =>
    refine ⟨?_, fun _ _ _ e => by cases e⟩
    unfold Cmd.exec at he
    dsimp only at he
    split at he
    · rename_i b p e1
      simp only [bind_eq_ok] at he
      obtain ⟨S', e3, e4⟩ := he
      cases e4
      exact h.drop p (fun q => ⟨fun ⟨b, e⟩ => by rw [e1] at e; cases e; rfl, fun e => ⟨b, by rw [e1, e]⟩⟩) e3
    · rename_i t e1
      cases he
      exact h.drop none (fun q => ⟨fun ⟨b, e⟩ => (by rw [e1] at e; cases e), fun e => (by cases e)⟩) rfl
    · cases he

end

/-! ### Programs -/

theorem cmd_chain {B : Backend} {tdoc : TA B → TVal} {tio : TaIO B} {algo : String} {gdoc : GenDoc env} {gio : GenIO env} (cs : List (Cmd B.Sample k)) (c : Cmd B.Sample k)
    (S : Session B env) : Cmd.run gdoc gio tdoc tio algo (cs ++ [c]) S =
      (Cmd.run gdoc gio tdoc tio algo cs S).bind fun r => (c.exec gdoc gio tdoc tio algo r.1).bind fun q => .ok (q.1, r.2 ++ [q.2]) := by
  induction cs generalizing S with
  | nil =>
    show (c.exec gdoc gio tdoc tio algo S).bind _ = (c.exec gdoc gio tdoc tio algo S).bind _
    congr 1
  | cons d cs ih =>
    rw [List.cons_append]
    unfold Cmd.run
    rw [Res.bind_assoc]
    congr 1
    funext r
    rw [ih, Res.bind_assoc, Res.bind_assoc]
    congr 1
    funext q
    rw [Res.bind_assoc, ok_bind]
    congr 1

theorem session_snoc (cs : List (Cmd a.Sample k)) (c : Cmd a.Sample k) :
    session a k gdoc gio (cs ++ [c]) =
      (session a k gdoc gio cs).bind fun r => (c.exec gdoc gio a.doc a.io a.name r.1).bind fun q => .ok (q.1, r.2 ++ [q.2]) :=
  cmd_chain cs c _

theorem followAll_snoc (cs : List (Cmd a.Sample k)) (c : Cmd a.Sample k) : followAll gio (cs ++ [c]) = follow gio (followAll gio cs) c := by
  unfold followAll
  rw [List.foldl_append]
  rfl

theorem snoc_induction {α : Type} {P : List α → Prop} (h0 : P []) (h1 : ∀ l x, P l → P (l ++ [x])) (l : List α) : P l := by
  rw [← List.reverse_reverse l]
  induction l.reverse with
  | nil => exact h0
  | cons x l ih => rw [List.reverse_cons]; exact h1 _ _ ih

theorem session_inv (hg : FaithfulText gdoc gio) (cs : List (Cmd a.Sample k)) (hc : ∀ c ∈ cs, Proper a k gio c) {S : Session a.backend env} {told : List Told}
    (h : session a k gdoc gio cs = .ok (S, told)) : Inv gio S (followAll gio cs) ∧ told.length = cs.length ∧
      ∀ (i : Nat) sc e c, cs[i]? = some (.call sc e c) →
        ∃ l o, (followAll gio (cs.take i))[e]? = some (.owner true (some l)) ∧ told[i]? = some (.out o) ∧ l.Answers gio c o := by
  induction cs using snoc_induction generalizing S told with
  | h0 =>
    cases h
    refine ⟨⟨rfl, ?_, ?_, ?_⟩, rfl, ?_⟩ <;> simp
  | h1 cs c ih =>
    rw [session_snoc] at h
    simp only [bind_eq_ok] at h
    obtain ⟨r, h1, q, h2, h3⟩ := h
    cases h3
    obtain ⟨i1, i2, i3⟩ := ih (fun c hc' => hc c (List.mem_append_left _ hc')) h1
    obtain ⟨j1, j2⟩ := i1.exec hg (hc c (by simp)) h2
    refine ⟨by rw [followAll_snoc]; exact j1, by simp [i2], fun i sc e d hi => ?_⟩
    rcases snoc_some hi with hi | ⟨rfl, rfl⟩
    · obtain ⟨l, o, k1, k2, k3⟩ := i3 i sc e d hi
      have := (List.getElem?_eq_some_iff.1 hi).1
      rw [List.take_append_of_le_length (by omega)]
      exact ⟨l, o, k1, snoc_left k2, k3⟩
    · obtain ⟨l, o, k1, k2, k3⟩ := j2 sc e d rfl
      refine ⟨l, o, ?_, ?_, k3⟩
      · rw [List.take_append_of_le_length (Nat.le_refl _), List.take_length]
        exact k1
      · rw [← i2, k2]
        simp

/-! ### Which statements return -/

section
variable {S : Session a.backend env} {T : List (About a.Sample k)} {l l' : Line a.Sample k} {st : EstState a.backend env}

theorem Rep.step (h : Rep gio l st) {c : Call a.Sample k} (hc : WellTyped a c) (sc : Sched) {o : Out} (ha : l.Answers gio c o) :
    ∃ st', step a.backend env sc c st = .ok (st', o) := by
  obtain ⟨b, hb, hl, cfg, hk, hv, hN, h⟩ := h
  obtain ⟨st0, outs, ss, h0, h1, h2, h3⟩ := h sc
  obtain ⟨b', hb', ha⟩ := ha
  rw [hb] at hb'
  cases hb'
  obtain ⟨st1, outs', h4⟩ := ha sc
  obtain ⟨r1, o1, o2, e1, e2, e3⟩ := run_split h4
  rw [h0] at e1
  cases e1
  obtain ⟨r', h5, h6, -⟩ := run_twin (sc' := sc) hv hN rfl rfl hk (R := AgreeBut [])
    (fun c f o p p' h => Call.record_agree h f c o) [c] (by simpa using hc) h1 h2 h3 (.inl rfl) e2
  have : o2 = [o] := by
    unfold run at e2
    simp only [bind_eq_ok] at e2
    obtain ⟨r, -, q, e4, e5⟩ := e2
    cases e4; cases e5
    have := (List.append_inj_right' e3 rfl)
    exact this.symm
  subst this
  dsimp only at h6
  exact ⟨r'.1, run_single.1 (by rw [h5, ← h6])⟩

theorem Inv.derefs (h : Inv gio S T) {est : Bool} {v : Nat} (ht : T[v]? = some (.owner est (some l))) :
    ∃ p st, S.deref est v = .ok (p, st) ∧ S.vars[v]? = some (.owner est (some p)) ∧ S.heap[p]? = some (some st) ∧ Rep gio l st := by
  have hi : v < S.vars.length := by
    rw [h.len]
    exact (List.getElem?_eq_some_iff.1 ht).1
  have ha := h.agrees v _ _ (List.getElem?_eq_getElem hi) ht
  have e : S.vars[v]? = some S.vars[v] := List.getElem?_eq_getElem hi
  revert ha e
  generalize S.vars[v] = o
  intro ha e
  cases o with
  | owner b p =>
    cases p with
    | none => exact ha.elim
    | some p =>
      obtain ⟨rfl, st, h1, h2⟩ := ha
      refine ⟨p, st, ?_, e, h1, h2⟩
      unfold Session.deref
      rw [e]
      dsimp only
      rw [if_pos rfl, h1]
  | text _ => exact ha.elim
  | gone => exact ha.elim

theorem Inv.ownerOf (h : Inv gio S T) {v : Nat} {b : Bool} {ol : Option (Line a.Sample k)} (ht : T[v]? = some (.owner b ol)) :
    ∃ p, S.vars[v]? = some (.owner b p) := by
  cases ol with
  | some l =>
    obtain ⟨p, -, -, e, -⟩ := h.derefs ht
    exact ⟨_, e⟩
  | none =>
    have hi : v < S.vars.length := by
      rw [h.len]
      exact (List.getElem?_eq_some_iff.1 ht).1
    have ha := h.agrees v _ _ (List.getElem?_eq_getElem hi) ht
    have e : S.vars[v]? = some S.vars[v] := List.getElem?_eq_getElem hi
    revert ha e
    generalize S.vars[v] = o
    intro ha e
    cases o with
    | owner b' p =>
      cases p with
      | none => cases (show b' = b from ha); exact ⟨_, e⟩
      | some p => exact ha.elim
    | text _ => exact ha.elim
    | gone => exact ha.elim

theorem Inv.textOf (h : Inv gio S T) {v : Nat} {ol : Option (Line a.Sample k)} (ht : T[v]? = some (.text ol)) :
    ∃ t, S.vars[v]? = some (.text t) ∧ Agrees gio S.heap (.text t) (.text ol) := by
  have hi : v < S.vars.length := by
    rw [h.len]
    exact (List.getElem?_eq_some_iff.1 ht).1
  have ha := h.agrees v _ _ (List.getElem?_eq_getElem hi) ht
  have e : S.vars[v]? = some S.vars[v] := List.getElem?_eq_getElem hi
  revert ha e
  generalize S.vars[v] = o
  intro ha e
  cases o with
  | owner b' p => cases p <;> cases ol <;> exact ha.elim
  | text t => exact ⟨t, e, ha⟩
  | gone => cases ol <;> exact ha.elim

theorem Inv.deletes (h : Inv gio S T) {v : Nat} {b : Bool} {p : Option Nat} (hv : S.vars[v]? = some (.owner b p)) (vars : List Obj) :
    ∃ S', Session.delete ⟨S.heap, vars⟩ p = .ok S' := by
  cases p with
  | none => exact ⟨_, rfl⟩
  | some p =>
    obtain ⟨_, st, -, e, -⟩ := h.alive hv
    unfold Session.delete
    dsimp only
    rw [e]
    exact ⟨_, rfl⟩

theorem Inv.returns (hg : FaithfulText gdoc gio) (h : Inv gio S T) {c : Cmd a.Sample k} (hc : Proper a k gio c) :
    (∃ r, c.exec gdoc gio a.doc a.io a.name S = .ok r) ↔ Usable gio T c := by
  cases c with
  | make m io req =>
    unfold Cmd.exec Usable
    dsimp only
    constructor
    · rintro ⟨r, he⟩
      simp only [bind_eq_ok] at he
      obtain ⟨q, e1, e2⟩ := he
      exact ⟨q, e1⟩
    · rintro ⟨q, e⟩
      rw [e, ok_bind]
      cases q <;> exact ⟨_, rfl⟩
  | call sc e d =>
    constructor
    · rintro ⟨r, he⟩
      obtain ⟨l, o, h1, h2, h3⟩ := (h.exec hg hc he).2 _ _ _ rfl
      exact ⟨l, o, h1, h3⟩
    · rintro ⟨l, o, h1, h2⟩
      obtain ⟨p, st, e1, -, -, h3⟩ := h.derefs h1
      obtain ⟨st', e2⟩ := h3.step hc sc h2
      unfold Cmd.exec
      dsimp only
      rw [e1, ok_bind, e2, ok_bind]
      exact ⟨_, rfl⟩
  | clone e =>
    unfold Cmd.exec Usable
    dsimp only
    constructor
    · rintro ⟨r, he⟩
      simp only [bind_eq_ok] at he
      obtain ⟨q, e1, e2⟩ := he
      obtain ⟨l, h1, -⟩ := h.deref e1
      exact ⟨l, h1⟩
    · rintro ⟨l, h1⟩
      obtain ⟨p, st, e1, -⟩ := h.derefs h1
      rw [e1]
      exact ⟨_, rfl⟩
  | build e =>
    unfold Cmd.exec Usable
    dsimp only
    constructor
    · rintro ⟨r, he⟩
      simp only [bind_eq_ok] at he
      obtain ⟨q, e1, e2⟩ := he
      obtain ⟨l, h1, -⟩ := h.deref e1
      exact ⟨l, h1⟩
    · rintro ⟨l, h1⟩
      obtain ⟨p, st, e1, -⟩ := h.derefs h1
      rw [e1]
      exact ⟨_, rfl⟩
  | move v =>
    unfold Cmd.exec Usable
    dsimp only
    constructor
    · rintro ⟨r, he⟩
      split at he
      · rename_i b p e1
        obtain ⟨ol, h1⟩ := h.owner e1
        exact ⟨_, _, h1⟩
      · cases he
    · rintro ⟨b, ol, h1⟩
      obtain ⟨p, e⟩ := h.ownerOf h1
      rw [e]
      exact ⟨_, rfl⟩
  | assign d v =>
    unfold Cmd.exec Usable
    dsimp only
    constructor
    · rintro ⟨r, he⟩
      split at he
      · rename_i b p e1
        obtain ⟨ol, h1⟩ := h.owner e1
        split at he
        · rename_i b' old e2
          split at he
          · rename_i e3
            subst e3
            rcases set_some e2 with ⟨rfl, -⟩ | ⟨-, e2⟩
            · exact ⟨_, _, _, h1, h1⟩
            · obtain ⟨ol', h2⟩ := h.owner e2
              exact ⟨_, _, _, h2, h1⟩
          · cases he
        · cases he
      · cases he
    · rintro ⟨b, ol, ol', h1, h2⟩
      obtain ⟨p, e1⟩ := h.ownerOf h2
      obtain ⟨p', e2⟩ := h.ownerOf h1
      rw [e1]
      dsimp only
      by_cases e : v = d
      · subst e
        rw [set_self e1]
        dsimp only
        rw [if_pos rfl]
        exact ⟨_, rfl⟩
      · rw [List.getElem?_set_ne e, e2]
        dsimp only
        rw [if_pos rfl]
        obtain ⟨S', e3⟩ := h.deletes e2 ((S.vars.set v (.owner b none)).set d (.owner b p))
        rw [e3]
        exact ⟨_, rfl⟩
  | save s =>
    unfold Cmd.exec Usable
    dsimp only
    constructor
    · rintro ⟨r, he⟩
      simp only [bind_eq_ok] at he
      obtain ⟨q, e1, e2⟩ := he
      obtain ⟨l, h1, -⟩ := h.deref e1
      exact ⟨l, h1⟩
    · rintro ⟨l, h1⟩
      obtain ⟨p, st, e1, -, -, h3⟩ := h.derefs h1
      obtain ⟨t, h4, -⟩ := h3.saves hg
      rw [e1, ok_bind, show toJsonString gdoc a.doc a.name k st = .ok t from h4]
      exact ⟨_, rfl⟩
  | text t => exact ⟨fun _ => trivial, fun _ => ⟨_, rfl⟩⟩
  | load s t =>
    unfold Cmd.exec Usable
    dsimp only
    have back : ∀ {p : Nat} {st : EstState a.backend env} {t' : Bytes} {ol : Option (Line a.Sample k)}, Agrees gio S.heap (.text t') (.text ol) →
        ((∃ r : Session a.backend env × Told, (match (loadTextLeaves a k gio st t').2 with
          | .ok _ => Res.ok (S.put p (loadTextLeaves a k gio st t').1, Told.nothing)
          | .exn e => .ok (S.put p (loadTextLeaves a k gio st t').1, .threw e)
          | .ub u => .ub u
          | .timeout => .timeout) = .ok r) ↔ ∀ l, ol = some l → l.Trained gio) := by
      intro p st t' ol ha
      cases ol with
      | none =>
        obtain ⟨ex, ha⟩ := ha st
        rw [ha]
        exact ⟨fun _ _ e => (by cases e), fun _ => ⟨_, rfl⟩⟩
      | some l =>
        have he : (¬ l.Trained gio ∧ loadText a k gio st t' = .ub .oob) ∨ l.Trained gio ∧ ∃ st', loadText a k gio st t' = .ok st' ∧ Rep gio l st' := by
          rcases ha with ⟨e1, e2⟩ | ⟨e1, e2⟩
          · exact .inl ⟨e1, e2 _⟩
          · exact .inr ⟨e1, e2 _⟩
        rw [text_returns] at he
        constructor
        · rintro ⟨r, hr⟩ l' e
          cases e
          rcases he with ⟨-, e⟩ | ⟨e, -⟩
          · cases e3 : (loadTextLeaves a k gio st t').2 with
            | ok _ => rw [e3] at e; cases e
            | ub u => rw [e3] at hr; cases hr
            | exn u => rw [e3] at e; cases e
            | timeout => rw [e3] at e; cases e
          · exact e
        · intro ht
          rcases he with ⟨e, -⟩ | ⟨-, st', e, -⟩
          · exact absurd (ht _ rfl) e
          · cases e3 : (loadTextLeaves a k gio st t').2 with
            | ok _ => exact ⟨_, rfl⟩
            | ub u => rw [e3] at e; cases e
            | exn u => exact ⟨_, rfl⟩
            | timeout => rw [e3] at e; cases e
    constructor
    · rintro ⟨r, he⟩
      simp only [bind_eq_ok] at he
      obtain ⟨q, e1, he⟩ := he
      obtain ⟨l, h1, h2⟩ := h.deref e1
      refine ⟨⟨l, h1⟩, ?_⟩
      split at he
      · rename_i t' e2
        obtain ⟨ab, h3, h4⟩ := h.has e2
        cases ab with
        | owner _ _ => exact h4.elim
        | gone => exact h4.elim
        | text ol => exact ⟨ol, h3, (back h4).1 ⟨r, he⟩⟩
      · cases he
    · rintro ⟨⟨l, h1⟩, ol, h2, h3⟩
      obtain ⟨p, st, e1, -⟩ := h.derefs h1
      obtain ⟨t', e2, h4⟩ := h.textOf h2
      rw [e1, ok_bind, e2]
      exact (back h4).2 h3
  | destroy v =>
    unfold Cmd.exec Usable
    dsimp only
    constructor
    · rintro ⟨r, he⟩
      split at he
      · rename_i b p e1
        obtain ⟨ol, h1⟩ := h.owner e1
        exact .inl ⟨_, _, h1⟩
      · rename_i t e1
        obtain ⟨ab, h3, h4⟩ := h.has e1
        cases ab with
        | owner _ _ => exact h4.elim
        | gone => exact h4.elim
        | text ol => exact .inr ⟨_, h3⟩
      · cases he
    · rintro (⟨b, ol, h1⟩ | ⟨ol, h1⟩)
      · obtain ⟨p, e⟩ := h.ownerOf h1
        rw [e]
        dsimp only
        obtain ⟨S', e3⟩ := h.deletes e (S.vars.set v .gone)
        rw [e3]
        exact ⟨_, rfl⟩
      · obtain ⟨t, e, -⟩ := h.textOf h1
        rw [e]
        exact ⟨_, rfl⟩

end

end Tsetlini
