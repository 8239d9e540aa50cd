import Verif.Spec.Loaded
import Verif.Props.Saved
import Verif.Props.Inference
/- Loaded estimators: C80. -/
namespace Tsetlini
open Res Spec

variable {a : Algo} {k : Kind} {env : Env}

theorem record_other {B : Backend} (c : Call B.Sample k) (f : Bool) (o : Out) (p : Params) {key : String} (hk : key ∉ sizeParams k) :
    (c.record B f o p).get? key = p.get? key := by
  have rc : ∀ X y ml s, key ∉ sizeParams .classifier → (recordC B X y ml s p).get? key = p.get? key := by
    intro X y ml s hk
    simp only [sizeParams, List.mem_cons, List.not_mem_nil, or_false, not_or] at hk
    unfold recordC
    split
    · rw [Params.get?_set_ne _ hk.2, Params.get?_set_ne _ hk.1]
    · rfl
  have rr : ∀ X s, key ∉ sizeParams .regressor → (recordR B X s p).get? key = p.get? key := by
    intro X s hk
    simp only [sizeParams, List.mem_cons, List.not_mem_nil, or_false] at hk
    unfold recordR
    split
    · rw [Params.get?_set_ne _ hk]
    · rfl
  unfold Call.record
  split
  · exact rc _ _ _ _ hk
  · split
    · rfl
    · exact rc _ _ _ _ hk
  · exact rr _ _ hk
  · split
    · rfl
    · exact rr _ _ hk
  · rfl

/-- Calls change no parameters but the sizes. -/
theorem run_sizes {B : Backend} {sc : Sched} (cs : List (Call B.Sample k)) {st st' : EstState B env} {outs : List Out}
    (h : run B env sc cs st = .ok (st', outs)) {key : String} (hk : key ∉ sizeParams k) : st'.params.get? key = st.params.get? key := by
  induction cs generalizing st outs with
  | nil => cases h; rfl
  | cons c cs ih =>
    unfold run at h
    simp only [bind_eq_ok] at h
    obtain ⟨r, h1, q, h2, h3⟩ := h
    cases h3
    rw [ih h2, ifOk_iff.1 (step_record c st) _ h1, record_other _ _ _ _ hk]

theorem entries_sizes {k : Kind} {r : ParamSet} {e : String × PVal} (he : e ∈ r.entries k) : e.1 ≠ "number_of_labels" ∧ e.1 ≠ "number_of_features" := by
  cases k with
  | classifier =>
    simp only [ParamSet.entries, List.append_nil, List.cons_append, List.nil_append, List.mem_cons, List.not_mem_nil, or_false] at he
    rcases he with rfl | rfl | rfl | rfl | rfl | rfl | rfl | rfl | rfl | rfl | rfl | rfl <;> simp [clausesKey]
  | regressor =>
    simp only [ParamSet.entries, List.append_nil, List.cons_append, List.nil_append, List.mem_cons, List.not_mem_nil, or_false] at he
    rcases he with rfl | rfl | rfl | rfl | rfl | rfl | rfl | rfl | rfl | rfl | rfl | rfl | rfl | rfl | rfl <;> simp [clausesKey]

theorem Spec.Configured.agree {k : Kind} {p q : Params} (h : Configured k p) (hp : ∀ key, key ∉ sizeParams k → q.get? key = p.get? key) : Configured k q := by
  obtain ⟨r, h1, h2, h3, h4, h5⟩ := h
  refine ⟨r, h1, h2, h3, h4, fun e he => ?_⟩
  rw [hp, h5 e he]
  have := entries_sizes he
  cases k <;> simp [sizeParams, this]

/-- What is left of the parameters of a made estimator. -/
structure Setup (k : Kind) (p : Params) : Prop where
  configured : Configured k p
  noLabels : k = .regressor → ∀ i, ¬ IntParam p "number_of_labels" i

theorem Setup.agree {p q : Params} (h : Setup k p) (hp : ∀ key, key ∉ sizeParams k → q.get? key = p.get? key) : Setup k q :=
  ⟨h.configured.agree hp, fun e i hi => h.noLabels e i (by subst e; unfold IntParam at hi ⊢; rw [← hp _ (by decide)]; exact hi)⟩

theorem Made.setup {p : Params} (h : Made k p) : Setup k p :=
  ⟨(Made.configured h).1, fun _ i hi => (Made.configured h).2 _ (.inl rfl) i hi⟩

theorem reached_params {st : EstState a.backend env} (h : Reached a k st) : Setup k st.params := by
  obtain ⟨st0, sc, cs, outs, h0, -, hr⟩ := h
  refine Setup.agree ?_ fun key hk => run_sizes cs hr hk
  cases h0 with
  | made p hm e => subst e; exact Made.setup hm
  | loaded gio old js hl hc =>
    obtain ⟨labels, n, clauses, N, M, w, ct, h⟩ := hc
    exact ⟨h.params, h.noLabels⟩

theorem Fit.together {cfg : Cfg} (hk : cfg.kind = k) (hv : Valid cfg) {labels nf : Nat} {st : EstState a.backend env} {ss : SState env}
    (h : Fit a.lawful cfg labels nf st ss) (hp : Setup k st.params) :
    FitsTogether a k st labels nf (2 * cfg.k) cfg.states cfg.maxWeight cfg.weighted cfg.ctype := by
  subst hk
  have e2 : ((2 * cfg.k : Nat) : Int) = cfg.clauses := by rw [← hv.two_k]; push_cast; rfl
  have hr := h.countersEq
  rw [← h.clausesEq] at hr
  have wf := a.lawful.abs_wf h.abs
  have hrows : ∀ row ∈ a.counters st, row.length = nf ∧ ∀ c ∈ row, -cfg.states ≤ c ∧ c ≤ cfg.states - 1 := by
    intro row hrow
    rw [hr] at hrow
    obtain ⟨c, hc, e⟩ := mem_toRows hrow
    have w := wf c hc
    rcases e with rfl | rfl
    · exact ⟨w.posLen, w.posRange⟩
    · exact ⟨w.negLen, w.negRange⟩
  exact {
    params := hp.configured
    noLabels := hp.noLabels
    labelsParam := h.labelsP
    oneLabel := h.reg1
    someLabel := h.pos
    featuresParam := h.featP
    clausesParam := by
      have e : clauseParam cfg.kind = cfg.clauseKey := by unfold clauseParam Cfg.clauseKey; rfl
      unfold IntParam
      rw [e, h.reads.clauses, e2]
    statesParam := h.reads.states
    maxWeightParam := h.reads.maxWeight
    weightedParam := h.reads.weighted
    ctypeParam := h.reads.ctype
    rows := by rw [hr, toRows_length, h.len, Nat.mul_left_comm]
    columns := fun row hrow => (hrows row hrow).1
    range := fun row hrow => (hrows row hrow).2
    width := by
      have e : a.counterBytes st = cfg.ct.bytes := by
        cases a with
        | classic => exact congrArg CType.bytes (ClassicAbs.ctype (show ClassicAbs _ _ _ _ _ from h.abs))
        | bitwise => exact congrArg CType.bytes (BitAbs.base (show BitAbs _ _ _ _ _ from h.abs)).ctype
      rw [e, ← counterWidth_eq]
      unfold Cfg.ct ctypeOfName
      split
      · rfl
      · split <;> rfl
    mirror := fun ha => by
      subst ha
      have hb : BitAbs cfg.ct cfg.states nf st.ta.mat ss.clauses := h.abs
      exact ⟨hb.polLen, hb.pol⟩
    weights := by rw [h.w, h.wlen, show 2 * cfg.k / 2 = cfg.k by omega]
    weightRange := fun w hw => h.wmax w (by rw [← h.w]; exact hw)
    small := by
      have := h.small
      rw [← e2] at this
      exact Int.ofNat_le.1 (by rw [Int.natCast_mul]; exact this) }

/-- **C80**: the parts of a trained estimator fit together, after any history: whether it was made by a factory or loaded from a document whose parts do. -/
theorem C80_fit_together {st : EstState a.backend env} (h : Reached a k st) (hN : StatesOk a st.params) (hf : Fitted a st) : Coherent a k st := by
  obtain ⟨cfg, labels, nf, ss, hk, hv, -, hF⟩ := reached_fit h hN hf
  exact ⟨_, _, _, _, _, _, _, hF.together hk hv (reached_params h)⟩

/-- Loading a document gives the state of a proper estimator if the parts of it fit together. -/
theorem reached_of_load {gio : GenIO env} {old st : EstState a.backend env} {js : JVal} (h : load a k gio old js = .ok st) (hc : Coherent a k st) : Reached a k st :=
  ⟨st, ⟨fun _ a b => range a b, fun _ _ _ => List.Perm.refl _⟩, [], [], .loaded gio old js h hc, by simp, rfl⟩

/-- **C80**: an estimator loaded from the text of a trained one is as good as one that was made and trained: it is among the estimators that all the other
properties speak of. -/
theorem C80_saved {gio : GenIO env} (hg : Faithful gio) {st : EstState a.backend env} (h : Reached a k st)
    (hN : StatesOk a st.params) (hf : Fitted a st) (hfl : FloatsOk env.rnd st.params) (old : EstState a.backend env) :
    ∃ st', load a k gio old (save a k gio st) = .ok st' ∧ Reached a k st' ∧ StatesOk a st'.params ∧ Fitted a st' := by
  obtain ⟨cfg, labels, nf, ss, hk, hv, hm, hF⟩ := reached_fit h hN hf
  have hp := reload_same (rnd := env.rnd) (fun key v hv => Reached.typedAt h hv) hfl (Fit.ints hk hv h hF)
  obtain ⟨st', h1, h2, h3, h4⟩ := loaded (old := old) hg hv hk hF hp
  refine ⟨st', h1, reached_of_load h1 ⟨_, _, _, _, _, _, _, h4.together hk hv ((reached_params h).agree fun key hk => h2 key (by simp))⟩, ?_, h4.fittedP hv⟩
  intro N hN'
  refine hN N ?_
  unfold IntParam at hN' ⊢
  rw [← h2 _ (by simp)]
  exact hN'

/-- **C80**: likewise a classic estimator loaded from the text of a trained bitwise one. -/
theorem C80_bitwise_as_classic {gio : GenIO env} (hg : Faithful gio) {st : EstState Algo.bitwise.backend env} (h : Reached .bitwise k st)
    (hN : StatesOk .bitwise st.params) (hf : Fitted .bitwise st) (hfl : FloatsOk env.rnd st.params) (old : EstState Algo.classic.backend env) :
    ∃ st', load .classic k gio old (save .bitwise k gio st) = .ok st' ∧ Reached .classic k st' ∧ StatesOk .classic st'.params ∧ Fitted .classic st' := by
  obtain ⟨cfg, labels, nf, ss, hk, hv, hm, hF⟩ := reached_fit h hN hf
  have hp := reload_same (rnd := env.rnd) (fun key v hv => Reached.typedAt h hv) hfl (Fit.ints hk hv h hF)
  obtain ⟨st', h1, h2, h3, h4⟩ := loaded (old := old) hg hv hk (toClassic_fit hF) hp
  refine ⟨st', h1, reached_of_load h1 ⟨_, _, _, _, _, _, _, h4.together hk hv ((reached_params h).agree fun key hk => h2 key (by simp))⟩, ?_, h4.fittedP hv⟩
  intro N hN'
  have h5 : IntParam st.params "number_of_states" N := by
    unfold IntParam at hN' ⊢
    rw [← hN']
    exact (h2 _ (by simp)).symm
  have := hN N h5
  simp only [Algo.minStates] at this ⊢
  omega

theorem mat_of (a : Algo) {ty : CType} {N : Int} {nf : Nat} (hfit : ty.Fits N) {cl : List Clause} (hwf : ∀ c ∈ cl, c.WF N nf) :
    ∃ m : a.backend.Mat, a.lawful.Abs ty N nf m cl := by
  have hrow : ∀ r ∈ toRows cl, r.length = nf := fun r hr => by
    obtain ⟨c, hc, e⟩ := mem_toRows hr
    rcases e with rfl | rfl
    · exact (hwf c hc).posLen
    · exact (hwf c hc).negLen
  have hb : ClassicAbs ty N nf ⟨ty, nf, toRows cl⟩ cl := ⟨rfl, rfl, rfl, hfit, hwf⟩
  cases a with
  | classic => exact ⟨_, hb⟩
  | bitwise =>
    obtain ⟨pol, -, h1, h2⟩ := initPol_ret nf (toRows cl) hrow
    exact ⟨(⟨⟨ty, nf, toRows cl⟩, pol⟩ : PMatrix), hb, h1, h2⟩

theorem alloc_of (a : Algo) {ty : CType} {m n : Nat} (h1 : n < 1073741808) (h2 : m * (n + 64) < 4294967296) (h3 : 2 ≤ m) : a.lawful.Alloc ty m n := by
  have h : allocOk ty.bytes m n = true := by
    unfold allocOk
    have hle : rowItems ty.bytes n ≤ n + 64 := by
      unfold rowItems
      cases ty <;> simp only [CType.bytes] <;> omega
    have h4 : n * ty.bytes + 63 < 4294967296 := by cases ty <;> simp only [CType.bytes] <;> omega
    have h5 := Nat.mul_le_mul_right m hle
    rw [Nat.mul_comm (n + 64)] at h5
    simp only [decide_eq_true_eq]
    exact ⟨h4, by omega⟩
  cases a with
  | classic => exact h
  | bitwise => exact ⟨h, bitAlloc_of_alloc h h3⟩

/-- **C80**: any model whatever can be written down and loaded.  Take parameters some factory gives, and clauses, weights and generators of any values in range; there is a document from which
`from_json_string` makes, in any state, an estimator with just these, on which all other properties hold. -/
theorem C80_any_model (a : Algo) {gio : GenIO env} (hg : Faithful gio) {p : Params} (hm : Made k p) (hfl : FloatsOk env.rnd p) {labels n : Nat} {cl : List Clause} {ws : List Nat}
    (h : ModelOf k p labels n cl ws) (g : env.G) (f : env.F) :
    ∃ js, ∀ old : EstState a.backend env, ∃ st, load a k gio old js = .ok st ∧ Reached a k st ∧ Fitted a st ∧ a.clauses st = cl ∧ st.ta.weights = ws ∧ st.igen = g ∧ st.fgen = f ∧
      (k = .classifier → IntParam st.params "number_of_labels" labels) ∧ IntParam st.params "number_of_features" n ∧
      AgreeBut (sizeParams k) p st.params := by
  obtain ⟨cfg, hk, hr0, hv, -⟩ := Made.cfg hm
  have h2k := hv.two_k
  have hkp := hv.k_pos
  have hcl : cl.length = labels * cfg.k := by
    have := h.clauses cfg.clauses (by subst hk; exact hr0.clauses)
    rw [← h2k, show (2 * (cfg.k : Int)) / 2 = cfg.k by omega] at this
    exact_mod_cast this
  have hpos : 1 ≤ labels * cfg.k := Nat.mul_pos h.someLabel hkp
  have hwf : ∀ c ∈ cl, c.WF cfg.states n := fun c hc =>
    ⟨(h.literals c hc).1, (h.literals c hc).2, fun v hv' => h.range _ hr0.states c hc v (.inl hv'), fun v hv' => h.range _ hr0.states c hc v (.inr hv')⟩
  obtain ⟨m, habs⟩ := mat_of a (normalize_fits hv cfg.ctype) hwf
  have halloc : a.lawful.Alloc cfg.ct (2 * (labels * cfg.k)) n := alloc_of a h.fewFeatures (by rw [← hcl]; exact h.small) (by omega)
  have hnf := a.lawful.alloc_small halloc (by omega)
  let q : Params := match k with
    | .classifier => (p.set "number_of_labels" (.int labels)).set "number_of_features" (.int n)
    | .regressor => p.set "number_of_features" (.int n)
  have hq : ∀ key, key ∉ sizeParams k → q.get? key = p.get? key := by
    intro key hkey
    cases k with
    | classifier =>
      simp only [sizeParams, List.mem_cons, List.not_mem_nil, or_false, not_or] at hkey
      show Params.get? (Params.set _ _ _) _ = _
      rw [Params.get?_set_ne _ hkey.2, Params.get?_set_ne _ hkey.1]
    | regressor =>
      simp only [sizeParams, List.mem_cons, List.not_mem_nil, or_false] at hkey
      show Params.get? (Params.set _ _ _) _ = _
      rw [Params.get?_set_ne _ hkey]
  have hqf : q.get? "number_of_features" = some (.int n) := by
    cases k with
    | classifier => exact Params.get?_set_self _ _ _
    | regressor => exact Params.get?_set_self _ _ _
  have hql : cfg.kind = .classifier → q.get? "number_of_labels" = some (.int labels) := by
    intro hc
    rw [hk] at hc
    subst hc
    show Params.get? (Params.set _ _ _) _ = _
    rw [Params.get?_set_ne _ (by decide), Params.get?_set_self]
  have hr : Reads q cfg := hr0.agreeSizeParams hq
  have hreg : cfg.kind = .regressor → labels = 1 := fun e => h.oneLabel (by rw [← hk]; exact e)
  have hfew := h.few
  have hsm : labels * cfg.k ≤ 1073741823 := by omega
  obtain ⟨c, hc, q1, q2, q3, q4, q5, q6⟩ := resetCache_fit (env := env) a.lawful hv hr hql hreg hqf hsm hnf 0
  have hT := hv.T
  have hF : Fit a.lawful cfg labels n (⟨q, ⟨m, ws⟩, c, g, f⟩ : EstState a.backend env) ⟨some (labels, n), cl, ws, g, f⟩ := {
    reads := hr, labelsP := hql, featP := hqf, reg1 := hreg, pos := h.someLabel
    abs := habs
    len := hcl
    w := rfl
    wlen := by rw [h.weights _ hr0.weighted, hcl]
    wmax := h.weightRange _ hr0.maxWeight
    coLen := q1, lsLen := q2, fbLen := q3
    fbRange := fun f hf => .inr (.inl (q4 f hf))
    lsRange := fun s hs => by rw [q5 s hs]; omega
    ct := q6
    igen := rfl, fgen := rfl, shape := rfl
    small := by
      rw [← h2k, Int.mul_left_comm]
      have : (2 * (labels * cfg.k) : Nat) ≤ 2147483647 := by omega
      exact Int.ofNat_le.2 this
    nfSmall := hnf
    alloc := halloc }
  have htyped : ∀ key v, q.get? key = some v → TypedAt k key v := by
    intro key v hv'
    have lab : ∀ i, TypedAt .classifier "number_of_labels" (.int i) := fun i => ⟨by decide, fun _ => rfl, fun h => absurd rfl h⟩
    have feat : ∀ k i, TypedAt k "number_of_features" (.int i) := fun k i => ⟨by decide, fun h => absurd h (by decide), fun _ h => absurd rfl h⟩
    cases k with
    | classifier => exact set_typed (set_typed (fun key v hv => Made.typedAt hm hv) (lab _)) (feat _ _) _ _ hv'
    | regressor => exact set_typed (fun key v hv => Made.typedAt hm hv) (feat _ _) _ _ hv'
  have hflq : FloatsOk env.rnd q := by
    intro key v hv'
    refine hfl key v ?_
    rw [← hq key ?_]
    · exact hv'
    · intro hmem
      cases k with
      | classifier =>
        simp only [sizeParams, List.mem_cons, List.not_mem_nil, or_false] at hmem
        rcases hmem with rfl | rfl
        · rw [hql hk] at hv'; cases hv'
        · rw [hqf] at hv'; cases hv'
      | regressor =>
        simp only [sizeParams, List.mem_cons, List.not_mem_nil, or_false] at hmem
        subst hmem
        rw [hqf] at hv'; cases hv'
  have hints : ∀ key i, key = "number_of_labels" ∨ key = "number_of_features" → q.get? key = some (.int i) → IsInt i := by
    intro key i hkey hi
    rcases hkey with rfl | rfl
    · have t : TypedAt _ _ _ := htyped _ _ hi
      have hcl := t.2.1 rfl
      rw [hql (hk.trans hcl)] at hi
      have : (labels : Int) = i := by simpa using hi
      have := Fit.labels_int hv hF
      unfold IsInt
      omega
    · rw [hqf] at hi
      have : (n : Int) = i := by simpa using hi
      unfold IsInt
      omega
  have hp := reload_same (rnd := env.rnd) htyped hflq hints
  refine ⟨save a k gio ⟨q, ⟨m, ws⟩, c, g, f⟩, fun old => ?_⟩
  obtain ⟨st', h1, h2, h3, h4⟩ := loaded (old := old) hg hv hk hF hp
  have hag : ∀ key, key ∉ sizeParams k → st'.params.get? key = p.get? key := fun key hk => (h2 key (by simp)).trans (hq key hk)
  refine ⟨st', h1, reached_of_load h1 ⟨_, _, _, _, _, _, _, h4.together hk hv ((Made.setup hm).agree hag)⟩, h4.fittedP hv, h4.clausesEq.symm, h4.w, h4.igen, h4.fgen,
    fun e => h4.labelsP (hk.trans e), h4.featP, hag⟩

/-- **C80**, what must not be relied on: a document whose parts do not fit together - here the number of features is one more than the matrix has columns - loads
as well, and then predicting a sample that passes validation reads out of bounds. -/
theorem C80_mismatched : ∃ (js : JVal) (x : ClassicSample) (st : EstState classic Toy.env),
    load .classic .classifier Toy.gio Toy.cc js = .ok st ∧ ¬ Coherent .classic .classifier st ∧
    step classic Toy.env Toy.seq (.predict1 x) st = .ub .oob := by
  have h : (match load .classic .classifier Toy.gio Toy.cc (save .classic .classifier Toy.gio { Toy.cc with params := Toy.cc.params.set "number_of_features" (.int 4) }) with
    | .ok st => decide (st.params.get? "number_of_features" = some (.int 4)) && decide (Algo.classic.counters st ≠ []) && ((Algo.classic.counters st).all fun r => decide (r.length = 3)) &&
        (match step classic Toy.env Toy.seq (.predict1 ([1, 0, 1, 0] : ClassicSample)) st with | .ub .oob => true | _ => false)
    | _ => false) = true := by decide +kernel
  split at h
  · rename_i st hst
    simp only [Bool.and_eq_true, decide_eq_true_eq, List.all_eq_true] at h
    obtain ⟨⟨⟨h1, h2⟩, h3⟩, h4⟩ := h
    refine ⟨_, ([1, 0, 1, 0] : ClassicSample), st, hst, ?_, ?_⟩
    · rintro ⟨labels, n, clauses, N, M, w, ct, hc⟩
      have e : n = 4 := by
        have := hc.featuresParam
        unfold IntParam at this
        rw [h1] at this
        have : (4 : Int) = n := by simpa using this
        omega
      match hcs : Algo.classic.counters st with
      | [] => exact h2 hcs
      | r :: rs =>
        have hr : r ∈ Algo.classic.counters st := by rw [hcs]; exact List.mem_cons_self ..
        have a := h3 r hr
        have b := hc.columns r hr
        omega
    · split at h4
      · assumption
      · cases h4
  · cases h

/-- A hand-written model of two labels and three features: the clauses of label 0 say "feature 0" and, with the opposite sign, "not feature 0"; those of label 1 the reverse. -/
def Toy.hand : List Clause :=
  let yes : Clause := ⟨[0, -1, -3], [-1, -2, -1]⟩
  let no : Clause := ⟨[-1, -1, -3], [2, -2, -1]⟩
  [yes, no, no, yes]

/-- The case of the theorem: that model, with weights. -/
example : Made .classifier Toy.cParams ∧ Faithful Toy.gio ∧ FloatsOk Toy.env.rnd Toy.cParams ∧ ModelOf .classifier Toy.cParams 2 3 Toy.hand [2, 0, 1, 1] := by
  refine ⟨Toy.cMade, Toy.gio_faithful, Toy.floats_of (by decide +kernel), ?_⟩
  have key : ∀ {key : String} {v w : Int}, Toy.cParams.get? key = some (.int w) → IntParam Toy.cParams key v → v = w := fun h1 h2 => by
    unfold IntParam at h2
    rw [h1] at h2
    simpa using h2.symm
  constructor
  · decide
  · intro h; cases h
  · intro C hC
    rw [key (w := 4) (by decide +kernel) hC]
    decide
  · decide
  · intro N hN
    rw [key (w := 3) (by decide +kernel) hN]
    intro c hc v hv
    have h : ∀ c ∈ Toy.hand, ∀ v ∈ c.pos ++ c.neg, -3 ≤ v ∧ v ≤ (3 : Int) - 1 := by decide
    exact h c hc v (List.mem_append.2 hv)
  · intro w hw
    rw [show Toy.cParams.get? "weighted" = some (.bool true) by decide +kernel] at hw
    cases hw
    decide
  · intro M hM
    rw [key (w := 3) (by decide +kernel) hM]
    decide
  · decide
  · decide
  · decide

end Tsetlini
