import Verif.Lemmas.Factories
/- Loaded and reachable estimators. -/
namespace Tsetlini
open Res Spec

theorem counterWidth_eq (ct : String) (N : Int) : normalizeCountingType ct N = Spec.counterWidth ct N := by
  unfold normalizeCountingType Spec.counterWidth
  by_cases h1 : ct = "auto"
  · subst h1; simp
  by_cases h2 : ct = "int8"
  · subst h2; simp
  by_cases h3 : ct = "int16"
  · subst h3; simp
  simp [h1, h2, h3]

/-! ### Documents -/

theorem foldr_read {α β : Type} {f : α → Res β} : ∀ {l : List α} {vs : List β},
    l.foldr (fun j r => (f j).bind fun v => r.bind fun vs => .ok (v :: vs)) (.ok []) = .ok vs →
    vs.length = l.length ∧ ∀ v ∈ vs, ∃ j ∈ l, f j = .ok v
  | [], vs, h => by cases h; exact ⟨rfl, by simp⟩
  | j :: l, vs, h => by
    rw [List.foldr_cons] at h
    simp only [bind_eq_ok] at h
    obtain ⟨v, h1, ws, h2, h3⟩ := h
    cases h3
    obtain ⟨i1, i2⟩ := foldr_read h2
    refine ⟨by simp [i1], fun w hw => ?_⟩
    rcases List.mem_cons.1 hw with rfl | hw
    · exact ⟨j, by simp, h1⟩
    · obtain ⟨j', h4, h5⟩ := i2 w hw
      exact ⟨j', by simp [h4], h5⟩

theorem items_length (j : JVal) : j.items.length = j.size := by cases j <;> simp [JVal.items, JVal.size]

/-- A matrix that was read is a table that could be allocated. -/
theorem matrix_loaded {j : JVal} {m : Matrix} (h : Matrix.ofJson j = .ok m) :
    allocOk m.ctype.bytes m.rows.length m.cols = true ∧ ∀ r ∈ m.rows, r.length = m.cols := by
  unfold Matrix.ofJson at h
  simp only [bind_eq_ok] at h
  obtain ⟨w, -, width, -, d, -, data, -, row0, -, h⟩ := h
  split at h
  · cases h
  · rename_i ha
    simp only [bind_eq_ok] at h
    obtain ⟨rows, h1, h2⟩ := h
    cases h2
    obtain ⟨i1, i2⟩ := foldr_read h1
    dsimp only
    refine ⟨by rw [i1]; simpa using ha, fun r hr => ?_⟩
    obtain ⟨j, -, hj⟩ := i2 r hr
    unfold rowOfJson at hj
    split at hj
    · cases hj
    · rename_i hs
      simp only [bind_eq_ok] at hj
      obtain ⟨vs, h3, h4⟩ := hj
      cases h4
      unfold JVal.getVec at h3
      rw [List.length_map, (foldr_read h3).1, items_length]
      exact Classical.not_not.1 hs

/-- The counters of a family. -/
def Spec.Algo.base : (a : Algo) → TA a.backend → Matrix
  | .classic => fun ta => ta.mat
  | .bitwise => fun ta => (show PMatrix from ta.mat).m

theorem classic_loaded {j : JVal} {ta : TA classic} (h : classicIO.ofJ j = .ok ta) : ∃ x, Matrix.ofJson x = .ok ta.mat := by
  have h : (j.at' "matrix").bind (fun x => (Matrix.ofJson x).bind fun m => (j.at' "weights").bind fun x => (weightsOfJson x).bind fun ws =>
    Res.ok (⟨m, ws⟩ : TA classic)) = .ok ta := h
  simp only [bind_eq_ok] at h
  obtain ⟨x, -, m, hm, y, -, ws, -, e⟩ := h
  cases e
  exact ⟨x, hm⟩

theorem bitwise_loaded {j : JVal} {ta : TA bitwise} (h : bitwiseIO.ofJ j = .ok ta) : ∃ x, Matrix.ofJson x = .ok (show PMatrix from ta.mat).m := by
  have h : (j.at' "matrix").bind (fun x => (Matrix.ofJson x).bind fun m => (j.at' "weights").bind fun x => (weightsOfJson x).bind fun ws =>
    (j.at' "polarity").bind fun x => (polOfJson x).bind fun pol => Res.ok (⟨(⟨m, pol⟩ : PMatrix), ws⟩ : TA bitwise)) = .ok ta := h
  simp only [bind_eq_ok] at h
  obtain ⟨x, -, m, hm, y, -, ws, -, z, -, pol, -, e⟩ := h
  cases e
  exact ⟨x, hm⟩

theorem io_read (a : Algo) {j : JVal} {ta : TA a.backend} (h : a.io.ofJ j = .ok ta) :
    allocOk (a.base ta).ctype.bytes (a.base ta).rows.length (a.base ta).cols = true ∧ ∀ r ∈ (a.base ta).rows, r.length = (a.base ta).cols := by
  cases a with
  | classic => obtain ⟨x, hx⟩ := classic_loaded h; exact matrix_loaded hx
  | bitwise => obtain ⟨x, hx⟩ := bitwise_loaded h; exact matrix_loaded hx

theorem bitAlloc_of_alloc {ct : CType} {n c : Nat} (h : allocOk ct.bytes n c = true) (hn : 2 ≤ n) : bitAllocOk n c = true := by
  unfold allocOk at h
  unfold bitAllocOk
  simp only [decide_eq_true_eq] at h ⊢
  have hle : rowBlocks c ≤ rowItems ct.bytes c ∧ c ≤ rowItems ct.bytes c := by
    unfold rowItems rowBlocks
    cases ct <;> simp only [CType.bytes] <;> omega
  have h2 : rowItems ct.bytes c * 2 ≤ rowItems ct.bytes c * n := Nat.mul_le_mul_left _ hn
  have h3 := Nat.mul_le_mul_right n hle.1
  omega

theorem toRows_pairRows : ∀ {l : List (List Int)} {n : Nat}, l.length = 2 * n → toRows (pairRows l) = l ∧ (pairRows l).length = n
  | [], n, h => by
    have : n = 0 := by simp at h; omega
    subst this; exact ⟨rfl, rfl⟩
  | [_], n, h => by simp at h; omega
  | p :: q :: rest, n, h => by
    simp at h
    obtain ⟨i1, i2⟩ := toRows_pairRows (l := rest) (n := n - 1) (by omega)
    refine ⟨?_, ?_⟩
    · rw [pairRows, toRows_cons, i1]
    · rw [pairRows, List.length_cons, i2]; omega

theorem mem_pairRows : ∀ {l : List (List Int)} {c : Clause}, c ∈ pairRows l → c.pos ∈ l ∧ c.neg ∈ l
  | [], c, h => by cases h
  | [_], c, h => by cases h
  | p :: q :: rest, c, h => by
    rw [pairRows] at h
    rcases List.mem_cons.1 h with rfl | h
    · simp
    · obtain ⟨h1, h2⟩ := mem_pairRows h
      simp [h1, h2]

theorem Reads.agreeSizeParams {k : Kind} {p q : Params} {cfg : Cfg} (h : Reads p cfg) (hp : ∀ key, key ∉ sizeParams k → q.get? key = p.get? key) : Reads q cfg := by
  have hp : ∀ key, key ∉ ["number_of_labels", "number_of_features"] → q.get? key = p.get? key := fun key hk => hp key (by
    cases k <;> simp [sizeParams] at hk ⊢
    · exact hk
    · exact hk.2)
  constructor
  · rw [hp _ (by unfold Cfg.clauseKey; split <;> simp)]; exact h.clauses
  all_goals intros; rw [hp _ (by simp)]
  · exact h.T
  · exact h.states
  · exact h.maxWeight
  · exact h.s
  · exact h.boost
  · exact h.weighted
  · exact h.seed
  · exact h.ctype
  · exact h.tile
  · exact h.nJobs
  · exact h.verbose
  · exact h.loss ‹_›
  · exact h.C1 ‹_›
  · exact h.boxMuller ‹_›

theorem base_counters (a : Algo) {env : Env} (st : EstState a.backend env) : (a.base st.ta).rows = a.counters st := by cases a <;> rfl
theorem base_bytes (a : Algo) {env : Env} (st : EstState a.backend env) : (a.base st.ta).ctype.bytes = a.counterBytes st := by cases a <;> rfl

theorem ctype_of_bytes {ct : CType} {s : String} (h : ct.bytes = if s = "int8" then 1 else if s = "int16" then 2 else 4) :
    ct = ctypeOfName s := by
  unfold ctypeOfName
  split at h
  · next e => subst e; cases ct <;> simp [CType.bytes] at h ⊢
  · split at h
    · next e => subst e; cases ct <;> simp [CType.bytes] at h ⊢
    · cases ct <;> simp_all [CType.bytes]

/-- The cache that is set up for parameters of a fitted estimator. -/
theorem resetCache_fit {B : Backend} (L : Lawful B) {env : Env} {cfg : Cfg} (hv : Valid cfg) {labels nf : Nat} {p : Params} (hr : Reads p cfg)
    (hl : cfg.kind = .classifier → p.get? "number_of_labels" = some (.int labels)) (hreg : cfg.kind = .regressor → labels = 1)
    (hf : p.get? "number_of_features" = some (.int nf)) (hsm : labels * cfg.k ≤ 1073741823) (hnf : nf ≤ 2147483647) (tick : Nat) :
    (resetCache env cfg.kind p tick).Ret fun c =>
      c.clauseOutput.length = labels * cfg.k ∧ (cfg.kind = .classifier → c.labelSum.length = labels) ∧
      (cfg.kind = .classifier → c.feedback.length = labels * cfg.k) ∧ (∀ f ∈ c.feedback, f = 0) ∧
      (∀ f ∈ c.labelSum, f = 0) ∧ CtOk nf (ctNums env cfg.s nf).1 (ctNums env cfg.s nf).2 c.ct := by
  have hlab : (labels : Int) * (cfg.k : Int) = ((labels * cfg.k : Nat) : Int) := by push_cast; rfl
  have hfeat : p.numberOfFeatures = .ok (nf : Int) := Params.getInt_eq hf
  obtain ⟨ct, hct, c1, c2, c3, c4⟩ := make_ret env hv.s (n := nf) (by omega)
  have hctn : ctNums env cfg.s nf = (ct.hitsFloor, ct.thr) := by unfold ctNums; rw [hct]
  have hctok : CtOk nf (ctNums env cfg.s nf).1 (ctNums env cfg.s nf).2 ct := by
    rw [hctn]; exact ⟨rfl, rfl, by rw [c1]; simp, by rw [c2]; simp⟩
  cases hk : cfg.kind with
  | classifier =>
    unfold resetCache
    dsimp only
    have ho : p.classifierOutputs = .ok ((labels * cfg.k : Nat) : Int) := by
      unfold Params.classifierOutputs
      have : p.numberOfLabels = .ok (labels : Int) := Params.getInt_eq (hl hk)
      rw [this, ok_bind, hr.p_k hv hk, ok_bind, hlab, i32_ok (by omega) (by omega)]
    have : p.numberOfLabels = .ok (labels : Int) := Params.getInt_eq (hl hk)
    rw [ho, ok_bind, vecSize_ok, ok_bind, this, ok_bind, vecSize_ok, ok_bind, hr.p_s, ok_bind, hfeat, ok_bind,
      natOfInt32 (by omega), hct, ok_bind, ret_ok]
    exact ⟨by simp, fun _ => by simp, fun _ => by simp, fun f hf => List.eq_of_mem_replicate hf, fun f hf => List.eq_of_mem_replicate hf, hctok⟩
  | regressor =>
    unfold resetCache
    dsimp only
    have ho : p.regressorOutputs = .ok ((labels * cfg.k : Nat) : Int) := by
      rw [hr.p_outR hv hk, hreg hk, Nat.one_mul]
    rw [ho, ok_bind, vecSize_ok, ok_bind, hr.p_s, ok_bind, hfeat, ok_bind,
      natOfInt32 (by omega), hct, ok_bind, ret_ok]
    exact ⟨by simp, (fun h => by cases h), (fun h => by cases h), (fun f hf => by cases hf), (fun f hf => by cases hf), hctok⟩

/-- A state whose parts fit together, once its matrix is a table, and its scratch memory was set up. -/
theorem Spec.FitsTogether.fit {a : Algo} {k : Kind} {env : Env} {st : EstState a.backend env} {labels n clauses : Nat} {N M : Int} {w : Bool} {ct : String}
    (h : FitsTogether a k st labels n clauses N M w ct) (hal : allocOk (a.base st.ta).ctype.bytes (a.base st.ta).rows.length (a.base st.ta).cols = true)
    (hcols : ∀ r ∈ (a.base st.ta).rows, r.length = (a.base st.ta).cols) {tick : Nat} (hc : resetCache env k st.params tick = .ok st.cache) :
    ∃ cfg, cfg.kind = k ∧ Valid cfg ∧ Reads st.params cfg ∧
      Fit a.lawful cfg labels n st ⟨some (labels, n), pairRows (a.counters st), st.ta.weights, st.igen, st.fgen⟩ := by
  obtain ⟨cfg, rfl, hr, hv⟩ := Configured.cfg h.params
  have ek : (clauses : Int) = cfg.clauses := by
    have h1 := h.clausesParam
    have e : clauseParam cfg.kind = cfg.clauseKey := by unfold clauseParam Cfg.clauseKey; rfl
    unfold IntParam at h1
    rw [e, hr.clauses] at h1
    simpa using h1.symm
  have eN : N = cfg.states := by have h1 := h.statesParam; unfold IntParam at h1; rw [hr.states] at h1; cases h1; rfl
  have eM : M = cfg.maxWeight := by have h1 := h.maxWeightParam; unfold IntParam at h1; rw [hr.maxWeight] at h1; cases h1; rfl
  have ew : w = cfg.weighted := by have h1 := h.weightedParam; rw [hr.weighted] at h1; cases h1; rfl
  have ec : ct = cfg.ctype := by have h1 := h.ctypeParam; rw [hr.ctype] at h1; cases h1; rfl
  subst eN eM ew ec
  have h2k := hv.two_k
  have ecl : clauses = 2 * cfg.k := by omega
  subst ecl
  have hkp := hv.k_pos
  have hn1 : 1 ≤ labels * cfg.k := Nat.mul_pos h.someLabel hkp
  have hsm : labels * cfg.k ≤ 1073741823 := by
    have := h.small
    rw [show labels * (2 * cfg.k) = 2 * (labels * cfg.k) by rw [Nat.mul_left_comm]] at this
    omega
  have hrows : (a.counters st).length = 2 * (labels * cfg.k) := by rw [h.rows, Nat.mul_left_comm]
  obtain ⟨t1, t2⟩ := toRows_pairRows hrows
  have ecols : (a.base st.ta).cols = n := by
    have h0 : 0 < (a.counters st).length := by omega
    have hmem : (a.counters st)[0] ∈ a.counters st := List.getElem_mem h0
    rw [← h.columns _ hmem, hcols _ (by rw [base_counters]; exact hmem)]
  have ect : (a.base st.ta).ctype = cfg.ct := by
    have := h.width
    rw [← base_bytes, ← counterWidth_eq] at this
    exact ctype_of_bytes this
  have hwf : ∀ c ∈ pairRows (a.counters st), c.WF cfg.states n := fun c hc => by
    obtain ⟨m1, m2⟩ := mem_pairRows hc
    exact ⟨h.columns _ m1, h.columns _ m2, h.range _ m1, h.range _ m2⟩
  have habs0 : ClassicAbs cfg.ct cfg.states n (a.base st.ta) (pairRows (a.counters st)) :=
    ⟨by rw [t1, base_counters], ect, ecols, by rw [ect]; exact normalize_fits hv cfg.ctype, hwf⟩
  rw [base_counters, hrows, ect, ecols] at hal
  have habs : a.lawful.Abs cfg.ct cfg.states n st.ta.mat (pairRows (a.counters st)) := by
    cases a with
    | classic => exact habs0
    | bitwise =>
      obtain ⟨m1, m2⟩ := h.mirror rfl
      exact ⟨habs0, m1, m2⟩
  have halloc : a.lawful.Alloc cfg.ct (2 * (labels * cfg.k)) n := by
    cases a with
    | classic => exact hal
    | bitwise => exact ⟨hal, bitAlloc_of_alloc hal (by omega)⟩
  have hnf := a.lawful.alloc_small halloc (by omega)
  obtain ⟨c, e, q1, q2, q3, q4, q5, q6⟩ := resetCache_fit (env := env) a.lawful hv hr h.labelsParam h.oneLabel h.featuresParam hsm hnf tick
  rw [hc] at e
  cases e
  have hT := hv.T
  refine ⟨cfg, rfl, hv, hr, ?_⟩
  exact {
    reads := hr, labelsP := h.labelsParam, featP := h.featuresParam, reg1 := h.oneLabel, pos := h.someLabel
    abs := habs
    len := t2
    w := rfl
    wlen := by
      have := h.weights
      rw [show 2 * cfg.k / 2 = cfg.k by omega] at this
      exact this
    wmax := h.weightRange
    coLen := q1, lsLen := q2, fbLen := q3
    fbRange := fun f hf => .inr (.inl (q4 f hf))
    lsRange := fun s hs => by rw [q5 s hs]; omega
    ct := q6
    igen := rfl, fgen := rfl, shape := rfl
    small := by
      rw [← h2k]
      exact Int.ofNat_le.2 h.small
    nfSmall := hnf
    alloc := halloc }

theorem load_parts {a : Algo} {k : Kind} {env : Env} {gio : GenIO env} {old st : EstState a.backend env} {js : JVal} (h : load a k gio old js = .ok st) :
    (∃ j, a.io.ofJ j = .ok st.ta) ∧ resetCache env k st.params old.cache.tick = .ok st.cache := by
  unfold load loadState at h
  obtain ⟨_, -, h⟩ := bind_eq_ok.1 h
  obtain ⟨_, -, h⟩ := bind_eq_ok.1 h
  obtain ⟨_, -, h⟩ := bind_eq_ok.1 h
  obtain ⟨_, -, h⟩ := bind_eq_ok.1 h
  obtain ⟨x, -, h⟩ := bind_eq_ok.1 h
  obtain ⟨ta, h1, h⟩ := bind_eq_ok.1 h
  obtain ⟨_, -, h⟩ := bind_eq_ok.1 h
  obtain ⟨p, -, h⟩ := bind_eq_ok.1 h
  obtain ⟨c, h2, e⟩ := bind_eq_ok.1 h
  cases e
  exact ⟨⟨x, h1⟩, h2⟩

/-- A loaded state whose parts fit together is that of a fitted estimator. -/
theorem Spec.FitsTogether.loaded {a : Algo} {k : Kind} {env : Env} {gio : GenIO env} {old st : EstState a.backend env} {js : JVal}
    (hl : load a k gio old js = .ok st) {labels n clauses : Nat} {N M : Int} {w : Bool} {ct : String} (h : FitsTogether a k st labels n clauses N M w ct) :
    ∃ cfg, cfg.kind = k ∧ Valid cfg ∧ Reads st.params cfg ∧
      Fit a.lawful cfg labels n st ⟨some (labels, n), pairRows (a.counters st), st.ta.weights, st.igen, st.fgen⟩ := by
  obtain ⟨⟨j, h1⟩, h2⟩ := load_parts hl
  obtain ⟨h3, h4⟩ := io_read a h1
  exact FitsTogether.fit h h3 h4 h2

theorem Spec.Start.sim {a : Algo} {k : Kind} {env : Env} {st : EstState a.backend env} (h : Start a k st) :
    ∃ cfg ss, cfg.kind = k ∧ Valid cfg ∧ Reads st.params cfg ∧ Sim a.lawful cfg st ss := by
  cases h with
  | made p hm e =>
    subst e
    obtain ⟨cfg, h1, h2, h3, h4⟩ := Made.cfg hm
    exact ⟨cfg, _, h1, h3, h2, Sim.fresh h2 h4⟩
  | loaded gio old js hl hc =>
    obtain ⟨labels, n, clauses, N, M, w, ct, h⟩ := hc
    obtain ⟨cfg, h1, h2, h3, h4⟩ := h.loaded hl
    exact ⟨cfg, _, h1, h2, h3, .inr ⟨_, _, h4⟩⟩

/-- What a reached estimator is. -/
theorem Reached.sim {a : Algo} {k : Kind} {env : Env} {st : EstState a.backend env} (h : Reached a k st)
    (hN : StatesOk a st.params) :
    ∃ cfg ss, cfg.kind = k ∧ Valid cfg ∧ a.lawful.minStates ≤ cfg.states ∧ Sim a.lawful cfg st ss := by
  obtain ⟨st0, sc, cs, outs, h0, ht, hr⟩ := h
  obtain ⟨cfg, ss, rfl, hv, hr1, hs⟩ := Start.sim h0
  have e := run_other cs _ hr "number_of_states" (by decide) (by decide)
  have hst : a.minStates ≤ cfg.states := hN _ (by unfold IntParam; rw [e]; exact hr1.states)
  rw [← lawful_minStates] at hst
  obtain ⟨ss', hs⟩ := run_inv hv hst cs (fun c hc => WellTyped.typed (ht c hc)) hs hr
  exact ⟨cfg, ss', rfl, hv, hst, hs⟩

/-- A history of a made estimator. -/
theorem Spec.Reached.of_run {a : Algo} {k : Kind} {env : Env} {st : EstState a.backend env} (p : Params) (sc : Sched) (cs : List (Call a.Sample k)) (outs : List Out)
    (hm : Made k p) (ht : ∀ c ∈ cs, WellTyped a c) (hr : run a.backend env sc cs (EstState.fresh a.backend env p) = .ok (st, outs)) : Reached a k st :=
  ⟨_, sc, cs, outs, .made p hm rfl, ht, hr⟩
end Tsetlini
