import Verif.Lemmas.Check
/- fit / partial_fit refine the abstract estimator. -/
namespace Tsetlini
open Res Spec

theorem vecSize_ok (n : Nat) : vecSize (n : Int) = .ok n := by
  unfold vecSize; rw [if_pos (by omega), Int.toNat_natCast]

theorem natOfInt32 {n : Nat} (h : n < 4294967296) : (BitVec.ofInt 32 (n : Int)).toNat = n := by
  rw [BitVec.toNat_ofInt]; omega

/-- The sizes a fit sets are not set. -/
def NoSizes (p : Params) : Prop := ∀ key, key = "number_of_labels" ∨ key = "number_of_features" → ∀ i, p.get? key ≠ some (.int i)

/-- A freshly made estimator (or one whose training was always rejected). -/
structure Unfit {B : Backend} (L : Lawful B) {env : Env} (cfg : Cfg) (st : EstState B env)
    (ss : SState env) : Prop where
  reads : Reads st.params cfg
  labelsP : ∀ i, st.params.get? "number_of_labels" ≠ some (.int i)
  featP : ∀ i, st.params.get? "number_of_features" ≠ some (.int i)
  mat : st.ta.mat = B.emptyMat
  rows : B.nrows st.ta.mat = 0
  cnt : B.counters st.ta.mat = []
  w : st.ta.weights = []
  sw : ss.weights = []
  cl : ss.clauses = []
  fb : st.cache.feedback = []
  ls : st.cache.labelSum = []
  igen : st.igen = ss.igen
  fgen : st.fgen = ss.fgen
  shape : ss.shape = none

/-- An estimator and its abstraction. -/
def Sim {B : Backend} (L : Lawful B) {env : Env} (cfg : Cfg) (st : EstState B env) (ss : SState env) : Prop :=
  Unfit L cfg st ss ∨ ∃ labels nf, Fit L cfg labels nf st ss

/-- The state right after initialisation. -/
def initS (env : Env) (cfg : Cfg) (labels nf : Nat) (ws : List Nat) : SState env :=
  let r := initClauses env nf (labels * cfg.k) (env.seedG cfg.seed)
  ⟨some (labels, nf), r.1, if cfg.weighted then resize ws (labels * cfg.k) else ws, r.2, env.seedF cfg.seed⟩

theorem resize_length (l : List Nat) (n : Nat) : (resize l n).length = n := by
  simp [resize]; omega

theorem mem_resize {l : List Nat} {n w : Nat} (h : w ∈ resize l n) : w ∈ l ∨ w = 0 := by
  unfold resize at h
  rcases List.mem_append.1 h with h | h
  · exact .inl (List.mem_of_mem_take h)
  · exact .inr (List.eq_of_mem_replicate h)

theorem initializeState_ref {B : Backend} (L : Lawful B) {env : Env} {cfg : Cfg} (hv : Valid cfg)
    {st : EstState B env} {labels nf : Nat} {ws : List Nat} (hr : Reads st.params cfg)
    (hl : cfg.kind = .classifier → st.params.get? "number_of_labels" = some (.int labels))
    (hf : st.params.get? "number_of_features" = some (.int nf))
    (hreg : cfg.kind = .regressor → labels = 1) (hpos : 1 ≤ labels)
    (hsm : (labels : Int) * cfg.clauses ≤ 2147483647) (hal : L.Alloc cfg.ct (2 * (labels * cfg.k)) nf)
    (hw : st.ta.weights = ws) (hwmax : ∀ w ∈ ws, (w : Int) + 1 ≤ cfg.maxWeight)
    (hunw : cfg.weighted = false → ws = []) :
    (initializeState B env cfg.kind st).Ret fun st' =>
      Fit L cfg labels nf st' (initS env cfg labels nf ws) ∧ st'.params = st.params := by
  have h2 := hv.two_k
  have hkp := hv.k_pos
  have hcl := hv.clauses
  have hlk : (labels : Int) * cfg.clauses = ((2 * (labels * cfg.k) : Nat) : Int) := by
    rw [← h2]; push_cast; rw [← Int.mul_assoc, Int.mul_comm (labels : Int) 2, Int.mul_assoc]
  have hpn : 1 ≤ labels * cfg.k := Nat.mul_pos hpos hkp
  have hnf := L.alloc_small hal (by omega)
  have hlab : (labels : Int) * (cfg.k : Int) = ((labels * cfg.k : Nat) : Int) := by push_cast; rfl
  have hphys : physicalClauses cfg.kind st.params = .ok ((2 * (labels * cfg.k) : Nat) : Int) := by
    cases hk : cfg.kind with
    | classifier =>
      show st.params.physicalClassifierClauses = _
      unfold Params.physicalClassifierClauses
      have : st.params.numberOfLabels = .ok (labels : Int) := Params.getInt_eq (hl hk)
      rw [this, ok_bind, hr.p_clausesC hk, ok_bind, hlk, i32_ok (by omega) (by omega)]
    | regressor =>
      show st.params.physicalRegressorClauses = _
      rw [hr.p_clausesR hk, ← hlk, hreg hk]; simp
  have hout : clauseOutputs cfg.kind st.params = .ok ((labels * cfg.k : Nat) : Int) := by
    cases hk : cfg.kind with
    | classifier =>
      show st.params.classifierOutputs = _
      unfold Params.classifierOutputs
      have : st.params.numberOfLabels = .ok (labels : Int) := Params.getInt_eq (hl hk)
      rw [this, ok_bind, hr.p_k hv hk, ok_bind, hlab, i32_ok (by omega) (by omega)]
    | regressor =>
      show st.params.regressorOutputs = _
      rw [hr.p_outR hv hk, hreg hk, Nat.one_mul]
  have hfeat : st.params.numberOfFeatures = .ok (nf : Int) := Params.getInt_eq hf
  obtain ⟨lines, hlog⟩ := logParams_ok hr ⟨_, hphys⟩ ⟨_, hfeat⟩ fun hk => ⟨_, Params.getInt_eq (hl hk)⟩
  unfold initializeState
  rw [hr.p_verbose, ok_bind, hr.p_seed, ok_bind, hlog, ok_bind, hr.p_states, ok_bind, hphys, ok_bind, hout, ok_bind,
    hfeat, ok_bind, hr.p_ctype, ok_bind, hr.p_weighted, ok_bind, Int.toNat_natCast, Int.toNat_natCast,
    Int.toNat_natCast]
  refine Ret.bind (L.init_eq (N := cfg.states) hv.states (normalize_fits hv cfg.ctype) hal) ?_
  rintro ⟨m, g⟩ ⟨ha, hg⟩
  dsimp only at ha hg ⊢
  obtain ⟨ct, hct, c1, c2, c3, c4⟩ := make_ret env hv.s (n := nf) (by omega)
  have hctn : ctNums env cfg.s nf = (ct.hitsFloor, ct.thr) := by unfold ctNums; rw [hct]
  have hctok : CtOk nf (ctNums env cfg.s nf).1 (ctNums env cfg.s nf).2 ct := by
    rw [hctn]; exact ⟨rfl, rfl, by rw [c1]; simp, by rw [c2]; simp⟩
  have hcache : (resetCache env cfg.kind st.params st.cache.tick).Ret fun c =>
      c.clauseOutput.length = labels * cfg.k ∧ (cfg.kind = .classifier → c.labelSum.length = labels) ∧
      (cfg.kind = .classifier → c.feedback.length = labels * cfg.k) ∧ (∀ f ∈ c.feedback, f = 0) ∧
      (∀ f ∈ c.labelSum, f = 0) ∧ c.ct = ct := by
    cases hk : cfg.kind with
    | classifier =>
      unfold resetCache
      dsimp only
      rw [hk] at hout
      have ho : st.params.classifierOutputs = .ok ((labels * cfg.k : Nat) : Int) := hout
      have : st.params.numberOfLabels = .ok (labels : Int) := Params.getInt_eq (hl hk)
      rw [ho, ok_bind, vecSize_ok, ok_bind, this, ok_bind, vecSize_ok, ok_bind, hr.p_s, ok_bind, hfeat, ok_bind,
      natOfInt32 (by omega), hct, ok_bind, ret_ok]
      simp
    | regressor =>
      unfold resetCache
      dsimp only
      rw [hk] at hout
      have ho : st.params.regressorOutputs = .ok ((labels * cfg.k : Nat) : Int) := hout
      rw [ho, ok_bind, vecSize_ok, ok_bind, hr.p_s, ok_bind, hfeat, ok_bind,
      natOfInt32 (by omega), hct, ok_bind, ret_ok]
      simp
  refine Ret.bind hcache ?_
  rintro c ⟨q1, q2, q3, q4, q5, q6⟩
  rw [ret_ok]
  refine ⟨?_, rfl⟩
  have hT := hv.T
  exact {
    reads := hr, labelsP := hl, featP := hf, reg1 := hreg, pos := hpos
    abs := ha, len := initClauses_length env nf _ _
    w := by
      show (if cfg.weighted then resize st.ta.weights (labels * cfg.k) else st.ta.weights) = _
      rw [hw]; rfl
    wlen := by
      show (if cfg.weighted then resize ws (labels * cfg.k) else ws).length = _
      cases hwt : cfg.weighted with
      | true => simp [resize_length]
      | false => simp [hunw hwt]
    wmax := by
      intro w hw
      have hm := hv.maxWeight
      simp only [initS] at hw
      split at hw
      · rcases mem_resize hw with h | rfl
        · exact hwmax w h
        · simpa using hm
      · exact hwmax w hw
    coLen := q1, lsLen := q2, fbLen := q3
    fbRange := fun f hf => .inr (.inl (q4 f hf))
    lsRange := fun s hs => by rw [q5 s hs]; omega
    ct := by show CtOk _ _ _ c.ct; rw [q6]; exact hctok
    igen := hg, fgen := rfl, shape := rfl, small := hsm, nfSmall := hnf, alloc := hal }

/-! ### Classifier -/

theorem fitClassifierOnline_ref {B : Backend} (L : Lawful B) {env : Env} (sc : Sched) {cfg : Cfg}
    (hv : Valid cfg) (hkind : cfg.kind = .classifier) (hN : L.minStates ≤ cfg.states)
    {labels nf ep : Nat} (htr : ep = 0 ∨ (2 ≤ labels ∧ cfg.T * 2 ≤ 2147483647))
    {X : List B.Sample} {y : List Int} (hd : DataOk L labels nf X y) {st : EstState B env} {ss : SState env}
    (h : Fit L cfg labels nf st ss) :
    (fitClassifierOnline B env sc st X y ep).Refines
      (fun r s => Fit L cfg labels nf r.1 s.1 ∧ r.2 = s.2 ∧ r.1.params = st.params)
      ((iter (List.range ep) (fun _ ss => epochS L env cfg labels nf X y ss) ss).bind fun ss => .ok (ss, .sOk)) := by
  have hr := h.reads
  have hlab : st.params.numberOfLabels = .ok (labels : Int) := Params.getInt_eq (h.labelsP hkind)
  unfold fitClassifierOnline
  rw [hlab, ok_bind, hr.p_k hv hkind, ok_bind, hr.p_T, ok_bind, hr.p_maxWeight, ok_bind, hr.p_states, ok_bind,
    hr.p_s, ok_bind, hr.p_boost, ok_bind, hr.p_tile, ok_bind, hr.p_nJobs, ok_bind, hr.p_verbose, ok_bind]
  refine Refines.bind (R := fun s ss => Fit L cfg labels nf s ss ∧ s.params = st.params) ?_ ?_
  · refine iter_refines _ _ _ ⟨h, rfl⟩ ?_
    intro i hi s ss hs
    have hep : 2 ≤ labels ∧ cfg.T * 2 ≤ 2147483647 := by
      rcases htr with rfl | h
      · simp at hi
      · exact h
    have := classifierEpoch_ref L sc hv hkind hN hep.2 hep.1 hd hs.1
    have hp : (classifierEpoch B env sc (cfg.trainCfg labels) X y s).IfOk fun s' => s'.params = s.params := by
      unfold classifierEpoch
      refine IfOk.bind (P := fun _ => True) (by unfold IfOk; split <;> trivial) fun r _ => ?_
      dsimp only
      refine iter_ifOk _ _ rfl fun i _ s' hs' => ?_
      rw [ifOk_iff]
      intro a ha
      simp only [bind_eq_ok] at ha
      obtain ⟨x, -, yi, -, oi, -, ha⟩ := ha
      unfold classifierUpdate at ha
      simp only [bind_eq_ok] at ha
      obtain ⟨_, -, _, -, _, -, _, -, _, -, _, -, _, -, _, -, _, -, _, -, _, -, ha⟩ := ha
      cases ha; exact hs'
    rcases this.cases with ⟨a, b, e1, e2, e3⟩ | ⟨e1, e2⟩ | ⟨e1, e2⟩
    · show (classifierEpoch B env sc (cfg.trainCfg labels) X y s).Refines _ _
      rw [e1] at hp ⊢; rw [e2]
      exact ⟨e3, hp.trans hs.2⟩
    · show (classifierEpoch B env sc (cfg.trainCfg labels) X y s).Refines _ _
      rw [e1, e2]; trivial
    · show (classifierEpoch B env sc (cfg.trainCfg labels) X y s).Refines _ _
      rw [e1, e2]; trivial
  · rintro s ss ⟨h1, h2⟩
    exact ⟨h1, rfl, h2⟩

/-- `max(labels) + 1` or `max_number_of_labels`, whichever is larger. -/
def numLabels (y : List Int) (ml : Int) : Nat := (max (y.foldl max (y.headD 0) + 1) ml).toNat

/-- Width of the first sample. -/
def width (B : Backend) (X : List B.Sample) : Nat := (X.head?.map B.size).getD 0

/-- `fit` on the abstract estimator. -/
def fitS {B : Backend} (L : Lawful B) (env : Env) (cfg : Cfg) (ss : SState env) (X : List B.Sample)
    (y : List Int) (ml : Int) (ep : Nat) : Res (SState env × Status) :=
  (checkXy B X y).bind fun sm =>
  if sm.code ≠ .ok then .ok (ss, sm) else
  (checkLabels y).bind fun sm =>
  if sm.code ≠ .ok then .ok (ss, sm) else
  let labels := numLabels y ml
  let nf := width B X
  (iter (List.range ep) (fun _ ss => epochS L env cfg labels nf X y ss)
    (initS env cfg labels nf ss.weights)).bind fun ss => .ok (ss, .sOk)

/-- Sizes `fit` can cope with: labels and sizes within `int`, allocations that do not wrap; if
there are epochs, two labels at least and a threshold below 2^30. -/
structure Sized {B : Backend} (L : Lawful B) (cfg : Cfg) (X : List B.Sample) (y : List Int) (ml : Int)
    (ep : Nat) : Prop where
  ymax : ∀ v ∈ y, v < 2147483647
  size : (numLabels y ml : Int) * cfg.clauses ≤ 2147483647
  alloc : L.Alloc cfg.ct (2 * (numLabels y ml * cfg.k)) (width B X)
  train : ep = 0 ∨ (2 ≤ numLabels y ml ∧ cfg.T * 2 ≤ 2147483647)

theorem labelChecks_codes (y : List Int) : ∀ p ∈ labelChecks y, p.2.code ≠ .ok := by
  intro p hp
  simp only [labelChecks, List.mem_cons, List.not_mem_nil, or_false] at hp
  subst hp; simp [valueError]

theorem checkLabels_ok {y : List Int} (h : y ≠ []) :
    (checkLabels y).Ret fun s => s.code = .ok ↔ ∀ v ∈ y, 0 ≤ v := by
  refine (checkLabels_ret h).mono fun s hs => ?_
  rw [reports_ok hs (labelChecks_codes _)]
  simp only [labelChecks, List.mem_cons, List.not_mem_nil, or_false, forall_eq, not_exists, not_and]
  exact ⟨fun h v hv => Int.not_lt.1 (h v hv), fun h v hv => Int.not_lt.2 (h v hv)⟩

theorem Sim.weights {B : Backend} {L : Lawful B} {env : Env} {cfg : Cfg} {st : EstState B env} {ss : SState env}
    (h : Sim L cfg st ss) : st.ta.weights = ss.weights ∧ (∀ w ∈ ss.weights, (w : Int) + 1 ≤ cfg.maxWeight) ∧
      (cfg.weighted = false → ss.weights = []) := by
  rcases h with h | ⟨labels, nf, h⟩
  · rw [h.w, h.sw]; simp
  · refine ⟨h.w, h.wmax, fun hw => ?_⟩
    have := h.wlen
    rw [hw] at this
    exact List.length_eq_zero_iff.1 (by simpa using this)

theorem Sim.reads {B : Backend} {L : Lawful B} {env : Env} {cfg : Cfg} {st : EstState B env} {ss : SState env}
    (h : Sim L cfg st ss) : Reads st.params cfg := by
  rcases h with h | ⟨labels, nf, h⟩
  · exact h.reads
  · exact h.reads

theorem numLabels_spec {y : List Int} (hy : y ≠ []) (h0 : ∀ v ∈ y, 0 ≤ v) (ml : Int) :
    ((numLabels y ml : Int) = max (y.foldl max (y.headD 0) + 1) ml) ∧ 1 ≤ numLabels y ml ∧
      ∀ v ∈ y, v < (numLabels y ml : Int) := by
  obtain ⟨m, h1, h2, h3, h4⟩ := maxElem_ret hy
  rw [← h4]
  have := h0 m h2
  unfold numLabels
  rw [← h4]
  refine ⟨by omega, by omega, fun v hv => ?_⟩
  have := h3 v hv
  omega

/-- Data of the declared C++ types: samples built by the library's types, `int` labels. -/
structure Typed {B : Backend} (L : Lawful B) (X : List B.Sample) (y : List Int) : Prop where
  xs : ∀ x ∈ X, L.SInv x
  ys : ∀ v ∈ y, -2147483648 ≤ v ∧ v ≤ 2147483647

theorem Fit.shapeEq {B : Backend} {L : Lawful B} {env : Env} {cfg : Cfg} {labels nf : Nat}
    {st : EstState B env} {ss : SState env} (h : Fit L cfg labels nf st ss) : ss.shape = some (labels, nf) := h.shape

theorem fitClassifier_ref {B : Backend} (L : Lawful B) {env : Env} (sc : Sched) {cfg : Cfg}
    (hv : Valid cfg) (hkind : cfg.kind = .classifier) (hN : L.minStates ≤ cfg.states)
    {X : List B.Sample} {y : List Int} {ml : Int} {ep : Nat} (ht : Typed L X y)
    (hymax : XyOk L X y → ∀ v ∈ y, v < 2147483647)
    (hs : XyOk L X y → (∀ v ∈ y, 0 ≤ v) → Sized L cfg X y ml ep)
    {st : EstState B env} {ss : SState env} (h : Sim L cfg st ss) :
    (fitClassifier B env sc st X y ml ep).Refines
      (fun r s => Sim L cfg r.1 s.1 ∧ r.2 = s.2) (fitS L env cfg ss X y ml ep) := by
  unfold fitClassifier fitS
  obtain ⟨s1, e1, k1⟩ := checkXy_ok L X y ht.xs
  rw [e1, ok_bind, ok_bind]
  by_cases hc : s1.code = .ok
  rotate_left
  · rw [if_pos hc, if_pos hc]; exact ⟨h, rfl⟩
  rw [if_neg (by simpa using hc), if_neg (by simpa using hc)]
  have hxy := k1.1 hc
  obtain ⟨m, em, m1, m2, m3⟩ := maxElem_ret hxy.yne
  obtain ⟨s2, e2, k2⟩ := checkLabels_ok hxy.yne
  have hm1 := ht.ys m m1
  have hm2 := hymax hxy m m1
  rw [em, ok_bind, i32_ok (by omega) (by omega), ok_bind]
  dsimp only
  rw [e2, ok_bind, ok_bind]
  by_cases hc2 : s2.code = .ok
  rotate_left
  · rw [if_pos hc2, if_pos hc2]; exact ⟨h, rfl⟩
  rw [if_neg (by simpa using hc2), if_neg (by simpa using hc2)]
  have hy0 := k2.1 hc2
  have hS := hs hxy hy0
  obtain ⟨n1, n2, n3⟩ := numLabels_spec hxy.yne hy0 ml
  have hmax : max (m + 1) ml = (numLabels y ml : Int) := by rw [n1, m3]
  rw [hmax]
  cases hXe : X with
  | nil => exact absurd hXe hxy.ne
  | cons x0 rest =>
    dsimp only
    rw [← hXe]
    have hw : width B X = B.size x0 := by rw [hXe]; rfl
    rw [← hw]
    have hsw := h.weights
    generalize hp' : (st.params.set "number_of_labels" (.int (numLabels y ml : Int))).set
        "number_of_features" (.int (width B X)) = p'
    have hr := ((h.reads.set (.int (numLabels y ml : Int)) (.inl rfl)).set (.int (width B X : Int)) (.inr rfl))
    rw [hp'] at hr
    have hinit := initializeState_ref L hv (env := env)
      (st := { st with params := p' })
      (labels := numLabels y ml) (nf := width B X) (ws := ss.weights) hr
      (fun _ => by show p'.get? _ = _; rw [← hp', Params.get?_set_ne _ (by decide), Params.get?_set_self])
      (by show p'.get? _ = _; rw [← hp']; exact Params.get?_set_self _ _ _) (fun hk => by rw [hkind] at hk; cases hk) n2 hS.size hS.alloc hsw.1 hsw.2.1 hsw.2.2
    rw [hkind] at hinit
    refine Refines.ret_bind hinit ?_
    rintro st' ⟨hf, -⟩
    refine (fitClassifierOnline_ref L sc hv hkind hN hS.train ?_ hf).mono ?_
    · refine ⟨hxy.len, fun x hx => ⟨ht.xs x hx, hxy.bin x hx, ?_⟩, fun v hv => ⟨hy0 v hv, n3 v hv⟩⟩
      rw [hw]; exact hxy.size x hx x0 (by rw [hXe]; simp)
    · rintro a b ⟨q1, q2, -⟩
      exact ⟨.inr ⟨_, _, q1⟩, q2⟩

/-- `partial_fit` on a fitted abstract estimator. -/
def refitS {B : Backend} (L : Lawful B) (env : Env) (cfg : Cfg) (ss : SState env) (labels nf : Nat)
    (X : List B.Sample) (y : List Int) (ep : Nat) : Res (SState env × Status) :=
  (checkXy B X y).bind fun sm =>
  if sm.code ≠ .ok then .ok (ss, sm) else
  (checkX B X (nf : Int)).bind fun sm =>
  if sm.code ≠ .ok then .ok (ss, sm) else
  (checkLabelsMax y ((labels : Int) - 1)).bind fun sm =>
  if sm.code ≠ .ok then .ok (ss, sm) else
  (iter (List.range ep) (fun _ ss => epochS L env cfg labels nf X y ss) ss).bind fun ss => .ok (ss, .sOk)

def partialFitS {B : Backend} (L : Lawful B) (env : Env) (cfg : Cfg) (ss : SState env) (X : List B.Sample)
    (y : List Int) (ml : Int) (ep : Nat) : Res (SState env × Status) :=
  match ss.shape with
  | some (labels, nf) => refitS L env cfg ss labels nf X y ep
  | none => fitS L env cfg ss X y ml ep

theorem labelMaxChecks_codes (y : List Int) (n : Nat) : ∀ p ∈ labelMaxChecks y n, p.2.code ≠ .ok := by
  intro p hp
  simp only [labelMaxChecks, List.mem_cons, List.not_mem_nil, or_false] at hp
  rcases hp with rfl | rfl <;> simp [valueError]

theorem widthChecks_codes {S : Type} (V : SampleView S) (X : List S) (n : Nat) :
    ∀ p ∈ widthChecks V X n, p.2.code ≠ .ok := by
  intro p hp
  simp only [widthChecks, List.mem_cons, List.not_mem_nil, or_false] at hp
  subst hp; simp [valueError]

theorem responseChecks_codes (y : List Int) (T : Int) : ∀ p ∈ responseChecks y T, p.2.code ≠ .ok := by
  intro p hp
  simp only [responseChecks, List.mem_cons, List.not_mem_nil, or_false] at hp
  subst hp; simp [valueError]

theorem checkX_ok {B : Backend} (L : Lawful B) {X : List B.Sample} {y : List Int} {nf : Nat} (h : XyOk L X y) :
    (checkX B X (nf : Int)).Ret fun s => s.code = .ok ↔ ∀ x ∈ X, B.size x = nf := by
  refine (checkX_ret L h.ne h.size).mono fun s hs => ?_
  rw [reports_ok hs (widthChecks_codes _ _ _)]
  simp only [widthChecks, List.mem_cons, List.not_mem_nil, or_false, forall_eq, not_exists, not_and,
    Classical.not_not, Lawful.view]

theorem checkLabelsMax_ok {y : List Int} (h : y ≠ []) (labels : Nat) :
    (checkLabelsMax y ((labels : Int) - 1)).Ret fun s => s.code = .ok ↔ ∀ v ∈ y, 0 ≤ v ∧ v < labels := by
  refine (checkLabelsMax_ret h labels).mono fun s hs => ?_
  rw [reports_ok hs (labelMaxChecks_codes _ _)]
  simp only [labelMaxChecks, List.mem_cons, List.not_mem_nil, or_false, forall_eq_or_imp, forall_eq,
    not_exists, not_and, Int.not_lt, Int.not_le]
  exact ⟨fun h v hv => ⟨h.1 v hv, h.2 v hv⟩, fun h => ⟨fun v hv => (h v hv).1, fun v hv => (h v hv).2⟩⟩

theorem checkResponseY_ok (y : List Int) (T : Int) :
    (checkResponseY y T).code = .ok ↔ ∀ v ∈ y, 0 ≤ v ∧ v ≤ T := by
  rw [reports_ok (checkResponseY_reports y T) (responseChecks_codes _ _)]
  simp only [responseChecks, List.mem_cons, List.not_mem_nil, or_false, forall_eq,
    not_exists, not_and, not_or, Int.not_lt]

theorem Fit.fitted {B : Backend} {L : Lawful B} {env : Env} {cfg : Cfg} {labels nf : Nat}
    {st : EstState B env} {ss : SState env} (hv : Valid cfg) (h : Fit L cfg labels nf st ss) :
    isFitted B st.ta = true := by
  have h1 := L.abs_rows h.abs
  have : 1 ≤ labels * cfg.k := Nat.mul_pos h.pos hv.k_pos
  rw [h.len] at h1
  simp only [isFitted, bne_iff_ne]
  omega

theorem Unfit.fitted {B : Backend} {L : Lawful B} {env : Env} {cfg : Cfg}
    {st : EstState B env} {ss : SState env} (h : Unfit L cfg st ss) : isFitted B st.ta = false := by
  simp [isFitted, h.rows]

theorem Fit.labels_small {B : Backend} {L : Lawful B} {env : Env} {cfg : Cfg} {labels nf : Nat}
    {st : EstState B env} {ss : SState env} (hv : Valid cfg) (h : Fit L cfg labels nf st ss) :
    labels ≤ 1073741823 := by
  have h1 := h.small' hv
  have := Nat.le_mul_of_pos_right labels hv.k_pos
  omega

theorem refitClassifier_ref {B : Backend} (L : Lawful B) {env : Env} (sc : Sched) {cfg : Cfg}
    (hv : Valid cfg) (hkind : cfg.kind = .classifier) (hN : L.minStates ≤ cfg.states)
    {X : List B.Sample} {y : List Int} {ep labels nf : Nat} (ht : Typed L X y)
    (hs : XyOk L X y → (∀ x ∈ X, B.size x = nf) → (∀ v ∈ y, 0 ≤ v ∧ v < labels) →
      ep = 0 ∨ (2 ≤ labels ∧ cfg.T * 2 ≤ 2147483647))
    {st : EstState B env} {ss : SState env} (h : Fit L cfg labels nf st ss) :
    (fitClassifierOnlineChecked B env sc st X y ep).Refines
      (fun r s => Fit L cfg labels nf r.1 s.1 ∧ r.2 = s.2 ∧ r.1.params = st.params)
      (refitS L env cfg ss labels nf X y ep) := by
  unfold fitClassifierOnlineChecked refitS
  obtain ⟨s1, e1, k1⟩ := checkXy_ok L X y ht.xs
  rw [e1, ok_bind, ok_bind]
  by_cases hc : s1.code = .ok
  rotate_left
  · rw [if_pos hc, if_pos hc]; exact ⟨h, rfl, rfl⟩
  rw [if_neg (by simpa using hc), if_neg (by simpa using hc)]
  have hxy := k1.1 hc
  have hfeat : st.params.numberOfFeatures = .ok (nf : Int) := Params.getInt_eq h.featP
  have hlab : st.params.numberOfLabels = .ok (labels : Int) := Params.getInt_eq (h.labelsP hkind)
  obtain ⟨s2, e2, k2⟩ := checkX_ok L hxy (nf := nf)
  rw [hfeat, ok_bind, e2, ok_bind, ok_bind]
  by_cases hc2 : s2.code = .ok
  rotate_left
  · rw [if_pos hc2, if_pos hc2]; exact ⟨h, rfl, rfl⟩
  rw [if_neg (by simpa using hc2), if_neg (by simpa using hc2)]
  obtain ⟨s3, e3, k3⟩ := checkLabelsMax_ok hxy.yne labels
  have hls := h.labels_small hv
  rw [hlab, ok_bind, i32_ok (by omega) (by omega), ok_bind, e3, ok_bind, ok_bind]
  by_cases hc3 : s3.code = .ok
  rotate_left
  · rw [if_pos hc3, if_pos hc3]; exact ⟨h, rfl, rfl⟩
  rw [if_neg (by simpa using hc3), if_neg (by simpa using hc3)]
  have a2 := k2.1 hc2
  have a3 := k3.1 hc3
  exact fitClassifierOnline_ref L sc hv hkind hN (hs hxy a2 a3)
    ⟨hxy.len, fun x hx => ⟨ht.xs x hx, hxy.bin x hx, a2 x hx⟩, a3⟩ h

/-- What `partial_fit` must be able to cope with, in the given abstract state. -/
def PSized {B : Backend} (L : Lawful B) (cfg : Cfg) (sh : Option (Nat × Nat)) (X : List B.Sample)
    (y : List Int) (ml : Int) (ep : Nat) : Prop :=
  match sh with
  | some (labels, nf) => XyOk L X y → (∀ x ∈ X, B.size x = nf) → (∀ v ∈ y, 0 ≤ v ∧ v < labels) →
      ep = 0 ∨ (2 ≤ labels ∧ cfg.T * 2 ≤ 2147483647)
  | none => (XyOk L X y → ∀ v ∈ y, v < 2147483647) ∧
      (XyOk L X y → (∀ v ∈ y, 0 ≤ v) → Sized L cfg X y ml ep)

theorem partialFitClassifier_ref {B : Backend} (L : Lawful B) {env : Env} (sc : Sched) {cfg : Cfg}
    (hv : Valid cfg) (hkind : cfg.kind = .classifier) (hN : L.minStates ≤ cfg.states)
    {X : List B.Sample} {y : List Int} {ml : Int} {ep : Nat} (ht : Typed L X y)
    {st : EstState B env} {ss : SState env} (hs : PSized L cfg ss.shape X y ml ep) (h : Sim L cfg st ss) :
    (partialFitClassifier B env sc st X y ml ep).Refines
      (fun r s => Sim L cfg r.1 s.1 ∧ r.2 = s.2) (partialFitS L env cfg ss X y ml ep) := by
  unfold partialFitClassifier partialFitS
  rcases h with h | ⟨labels, nf, h⟩
  · rw [h.shape] at hs ⊢
    rw [if_neg (by simp [h.fitted])]
    exact fitClassifier_ref L sc hv hkind hN ht hs.1 hs.2 (.inl h)
  · rw [h.shape] at hs ⊢
    rw [if_pos (h.fitted hv)]
    refine (refitClassifier_ref L sc hv hkind hN ht hs h).mono ?_
    rintro a b ⟨q1, q2, -⟩
    exact ⟨.inr ⟨_, _, q1⟩, q2⟩

/-! ### Regressor -/

theorem fitRegressorOnline_ref {B : Backend} (L : Lawful B) {env : Env} (sc : Sched) {cfg : Cfg}
    (hv : Valid cfg) (hkind : cfg.kind = .regressor) (hN : L.minStates ≤ cfg.states)
    {nf ep : Nat} {X : List B.Sample} {y : List Int} (hd : RegDataOk L cfg.T nf X y)
    {st : EstState B env} {ss : SState env} (h : Fit L cfg 1 nf st ss) :
    (fitRegressorOnline B env sc st X y ep).Refines
      (fun r s => Fit L cfg 1 nf r.1 s.1 ∧ r.2 = s.2 ∧ r.1.params = st.params)
      ((iter (List.range ep) (fun _ ss => regEpochS L env cfg nf X y ss) ss).bind fun ss => .ok (ss, .sOk)) := by
  have hr := h.reads
  unfold fitRegressorOnline
  rw [hr.p_outR hv hkind, ok_bind, hr.p_T, ok_bind, hr.p_maxWeight, ok_bind, hr.p_states, ok_bind,
    hr.p_s, ok_bind, hr.p_boost, ok_bind, hr.p_tile, ok_bind, hr.p_nJobs, ok_bind, hr.p_verbose, ok_bind,
    hr.p_loss hkind, ok_bind, hr.p_C1 hkind, ok_bind, hv.lossOf hkind, ok_bind, hr.p_bm hkind, ok_bind]
  refine Refines.bind (R := fun s ss => Fit L cfg 1 nf s ss ∧ s.params = st.params) ?_ ?_
  · refine iter_refines _ _ _ ⟨h, rfl⟩ ?_
    intro i hi s ss hs
    have := regressorEpoch_ref L sc hv hkind hN hd hs.1
    have hp : (regressorEpoch B env sc cfg.regCfg X y s).IfOk fun s' => s'.params = s.params := by
      unfold regressorEpoch
      dsimp only
      refine iter_ifOk _ _ rfl fun i _ s' hs' => ?_
      rw [ifOk_iff]
      intro a ha
      simp only [bind_eq_ok] at ha
      obtain ⟨x, -, yi, -, ha⟩ := ha
      unfold regressorUpdate at ha
      simp only [bind_eq_ok] at ha
      obtain ⟨_, -, _, -, _, -, _, -, ha⟩ := ha
      cases ha; exact hs'
    show (regressorEpoch B env sc cfg.regCfg X y s).Refines _ _
    rcases this.cases with ⟨a, b, e1, e2, e3⟩ | ⟨e1, e2⟩ | ⟨e1, e2⟩
    · rw [e1] at hp ⊢; rw [e2]
      exact ⟨e3, hp.trans hs.2⟩
    · rw [e1, e2]; trivial
    · rw [e1, e2]; trivial
  · rintro s ss ⟨h1, h2⟩
    exact ⟨h1, rfl, h2⟩

/-- Regressor `fit` on the abstract estimator. -/
def fitRS {B : Backend} (L : Lawful B) (env : Env) (cfg : Cfg) (ss : SState env) (X : List B.Sample)
    (y : List Int) (ep : Nat) : Res (SState env × Status) :=
  (checkXy B X y).bind fun sm =>
  if sm.code ≠ .ok then .ok (ss, sm) else
  let sm := checkResponseY y cfg.T
  if sm.code ≠ .ok then .ok (ss, sm) else
  let nf := width B X
  (iter (List.range ep) (fun _ ss => regEpochS L env cfg nf X y ss)
    (initS env cfg 1 nf ss.weights)).bind fun ss => .ok (ss, .sOk)

def refitRS {B : Backend} (L : Lawful B) (env : Env) (cfg : Cfg) (ss : SState env) (nf : Nat)
    (X : List B.Sample) (y : List Int) (ep : Nat) : Res (SState env × Status) :=
  (checkXy B X y).bind fun sm =>
  if sm.code ≠ .ok then .ok (ss, sm) else
  (checkX B X (nf : Int)).bind fun sm =>
  if sm.code ≠ .ok then .ok (ss, sm) else
  let sm := checkResponseY y cfg.T
  if sm.code ≠ .ok then .ok (ss, sm) else
  (iter (List.range ep) (fun _ ss => regEpochS L env cfg nf X y ss) ss).bind fun ss => .ok (ss, .sOk)

def partialFitRS {B : Backend} (L : Lawful B) (env : Env) (cfg : Cfg) (ss : SState env) (X : List B.Sample)
    (y : List Int) (ep : Nat) : Res (SState env × Status) :=
  match ss.shape with
  | some (_, nf) => refitRS L env cfg ss nf X y ep
  | none => fitRS L env cfg ss X y ep

theorem fitRegressor_ref {B : Backend} (L : Lawful B) {env : Env} (sc : Sched) {cfg : Cfg}
    (hv : Valid cfg) (hkind : cfg.kind = .regressor) (hN : L.minStates ≤ cfg.states)
    {X : List B.Sample} {y : List Int} {ep : Nat} (ht : Typed L X y)
    (hs : XyOk L X y → (∀ v ∈ y, 0 ≤ v ∧ v ≤ cfg.T) → L.Alloc cfg.ct (2 * cfg.k) (width B X))
    {st : EstState B env} {ss : SState env} (h : Sim L cfg st ss) :
    (fitRegressor B env sc st X y ep).Refines
      (fun r s => Sim L cfg r.1 s.1 ∧ r.2 = s.2) (fitRS L env cfg ss X y ep) := by
  unfold fitRegressor fitRS
  obtain ⟨s1, e1, k1⟩ := checkXy_ok L X y ht.xs
  rw [e1, ok_bind, ok_bind]
  by_cases hc : s1.code = .ok
  rotate_left
  · rw [if_pos hc, if_pos hc]; exact ⟨h, rfl⟩
  rw [if_neg (by simpa using hc), if_neg (by simpa using hc)]
  have hxy := k1.1 hc
  rw [h.reads.p_T, ok_bind]
  dsimp only
  by_cases hc2 : (checkResponseY y cfg.T).code = .ok
  rotate_left
  · rw [if_pos hc2, if_pos hc2]; exact ⟨h, rfl⟩
  rw [if_neg (by simpa using hc2), if_neg (by simpa using hc2)]
  have hy0 := (checkResponseY_ok _ _).1 hc2
  have hS := hs hxy hy0
  cases hXe : X with
  | nil => exact absurd hXe hxy.ne
  | cons x0 rest =>
    dsimp only
    rw [← hXe]
    have hw : width B X = B.size x0 := by rw [hXe]; rfl
    rw [← hw]
    have hsw := h.weights
    have hr := (h.reads.set (.int (width B X : Int)) (.inr rfl))
    have hcm := hv.clausesMax
    have hinit := initializeState_ref L hv (env := env)
      (st := { st with params := st.params.set "number_of_features" (.int (width B X)) })
      (labels := 1) (nf := width B X) (ws := ss.weights) hr
      (fun hk => by rw [hkind] at hk; cases hk)
      (Params.get?_set_self _ _ _) (fun _ => rfl) (Nat.le_refl 1) (by omega) (by rw [Nat.one_mul]; exact hS) hsw.1 hsw.2.1 hsw.2.2
    rw [hkind] at hinit
    refine Refines.ret_bind hinit ?_
    rintro st' ⟨hf, -⟩
    refine (fitRegressorOnline_ref L sc hv hkind hN ?_ hf).mono ?_
    · refine ⟨hxy.len, fun x hx => ⟨ht.xs x hx, hxy.bin x hx, ?_⟩, hy0⟩
      rw [hw]; exact hxy.size x hx x0 (by rw [hXe]; simp)
    · rintro a b ⟨q1, q2, -⟩
      exact ⟨.inr ⟨_, _, q1⟩, q2⟩

theorem refitRegressor_ref {B : Backend} (L : Lawful B) {env : Env} (sc : Sched) {cfg : Cfg}
    (hv : Valid cfg) (hkind : cfg.kind = .regressor) (hN : L.minStates ≤ cfg.states)
    {X : List B.Sample} {y : List Int} {ep nf : Nat} (ht : Typed L X y)
    {st : EstState B env} {ss : SState env} (h : Fit L cfg 1 nf st ss) :
    (fitRegressorOnlineChecked B env sc st X y ep).Refines
      (fun r s => Fit L cfg 1 nf r.1 s.1 ∧ r.2 = s.2 ∧ r.1.params = st.params)
      (refitRS L env cfg ss nf X y ep) := by
  unfold fitRegressorOnlineChecked refitRS
  obtain ⟨s1, e1, k1⟩ := checkXy_ok L X y ht.xs
  rw [e1, ok_bind, ok_bind]
  by_cases hc : s1.code = .ok
  rotate_left
  · rw [if_pos hc, if_pos hc]; exact ⟨h, rfl, rfl⟩
  rw [if_neg (by simpa using hc), if_neg (by simpa using hc)]
  have hxy := k1.1 hc
  have hfeat : st.params.numberOfFeatures = .ok (nf : Int) := Params.getInt_eq h.featP
  obtain ⟨s2, e2, k2⟩ := checkX_ok L hxy (nf := nf)
  rw [hfeat, ok_bind, e2, ok_bind, ok_bind]
  by_cases hc2 : s2.code = .ok
  rotate_left
  · rw [if_pos hc2, if_pos hc2]; exact ⟨h, rfl, rfl⟩
  rw [if_neg (by simpa using hc2), if_neg (by simpa using hc2)]
  rw [h.reads.p_T, ok_bind]
  dsimp only
  by_cases hc3 : (checkResponseY y cfg.T).code = .ok
  rotate_left
  · rw [if_pos hc3, if_pos hc3]; exact ⟨h, rfl, rfl⟩
  rw [if_neg (by simpa using hc3), if_neg (by simpa using hc3)]
  have a2 := k2.1 hc2
  have a3 := (checkResponseY_ok _ _).1 hc3
  exact fitRegressorOnline_ref L sc hv hkind hN
    ⟨hxy.len, fun x hx => ⟨ht.xs x hx, hxy.bin x hx, a2 x hx⟩, a3⟩ h

/-- What regressor `partial_fit` must be able to cope with. -/
def PSizedR {B : Backend} (L : Lawful B) (cfg : Cfg) (sh : Option (Nat × Nat)) (X : List B.Sample)
    (y : List Int) : Prop :=
  sh = none → XyOk L X y → (∀ v ∈ y, 0 ≤ v ∧ v ≤ cfg.T) → L.Alloc cfg.ct (2 * cfg.k) (width B X)

theorem partialFitRegressor_ref {B : Backend} (L : Lawful B) {env : Env} (sc : Sched) {cfg : Cfg}
    (hv : Valid cfg) (hkind : cfg.kind = .regressor) (hN : L.minStates ≤ cfg.states)
    {X : List B.Sample} {y : List Int} {ep : Nat} (ht : Typed L X y)
    {st : EstState B env} {ss : SState env} (hs : PSizedR L cfg ss.shape X y) (h : Sim L cfg st ss) :
    (partialFitRegressor B env sc st X y ep).Refines
      (fun r s => Sim L cfg r.1 s.1 ∧ r.2 = s.2) (partialFitRS L env cfg ss X y ep) := by
  unfold partialFitRegressor partialFitRS
  rcases h with h | ⟨labels, nf, h⟩
  · rw [if_neg (by simp [h.fitted])]
    have hs := hs h.shape
    rw [h.shape]
    exact fitRegressor_ref L sc hv hkind hN ht hs (.inl h)
  · rw [h.shape]
    rw [if_pos (h.fitted hv)]
    have := h.reg1 hkind
    subst this
    refine (refitRegressor_ref L sc hv hkind hN ht h).mono ?_
    rintro a b ⟨q1, q2, -⟩
    exact ⟨.inr ⟨_, _, q1⟩, q2⟩

end Tsetlini
