import Verif.Lemmas.Sized
import Verif.Model.History
/- predict / decision_function / evaluate. -/
namespace Tsetlini
open Res Spec

/-- What read-only calls must leave alone: everything but the mutable cache. -/
structure Frozen {B : Backend} {env : Env} (st st' : EstState B env) : Prop where
  params : st'.params = st.params
  ta : st'.ta = st.ta
  igen : st'.igen = st.igen
  fgen : st'.fgen = st.fgen

theorem Frozen.refl {B : Backend} {env : Env} (st : EstState B env) : Frozen st st := ⟨rfl, rfl, rfl, rfl⟩

/-- The validation of one sample, as a function of the shape. -/
def checkS (B : Backend) (sh : Option (Nat × Nat)) (x : B.Sample) : Res Status :=
  match sh with
  | none => .ok ⟨.notFitted, notFittedMsg⟩
  | some (_, nf) =>
    if (B.size x : Int) ≠ (nf : Int) then
      .ok ⟨.valueError, "Predict called with sample, which size " ++ toString (B.size x) ++
        " does not match number of features from prior fit " ++ toString (nf : Int)⟩
    else if B.all01 x = false then
      .ok ⟨.valueError, "Only values of 0 and 1 can be used in sample for prediction"⟩
    else (B.clearPadding x).bind fun clear =>
      if clear = false then .ok ⟨.valueError, "Some padding bits in X are not cleared to 0"⟩
      else .ok .sOk

def checkBatchS (B : Backend) (sh : Option (Nat × Nat)) (X : List B.Sample) : Res Status :=
  match sh with
  | none => .ok ⟨.notFitted, notFittedMsg⟩
  | some (_, nf) =>
    match X with
    | [] => .ok ⟨.valueError, "Cannot predict for empty X"⟩
    | x0 :: rest =>
      if rest.all (fun r => B.size r == B.size x0) = false then
        .ok ⟨.valueError, "All samples in X must have the same number of feature columns"⟩
      else
      if (B.size x0 : Int) ≠ (nf : Int) then
        .ok ⟨.valueError, "Predict called with X, which number of features " ++ toString (B.size x0) ++
          " does not match that from prior fit " ++ toString (nf : Int)⟩
      else if X.all B.all01 = false then
        .ok ⟨.valueError, "Only values of 0 and 1 can be used in X"⟩
      else (allM B.clearPadding X).bind fun clear =>
        if clear = false then .ok ⟨.valueError, "Some padding bits in X are not cleared to 0"⟩
        else .ok .sOk

section
variable {B : Backend} {L : Lawful B} {env : Env} {cfg : Cfg} {st : EstState B env} {ss : SState env}

theorem Sim.check (hv : Valid cfg) (h : Sim L cfg st ss) (x : B.Sample) :
    checkForPredict B st.ta st.params x = checkS B ss.shape x := by
  unfold checkForPredict checkS
  rcases h with h | ⟨labels, nf, h⟩
  · rw [if_pos h.fitted, h.shape]
  · have hfeat : st.params.numberOfFeatures = .ok (nf : Int) := Params.getInt_eq h.featP
    rw [if_neg (by simp [h.fitted hv]), h.shape, hfeat, ok_bind]

theorem Sim.checkBatch (hv : Valid cfg) (h : Sim L cfg st ss) (X : List B.Sample) :
    checkForPredictBatch B st.ta st.params X = checkBatchS B ss.shape X := by
  unfold checkForPredictBatch checkBatchS
  rcases h with h | ⟨labels, nf, h⟩
  · rw [if_pos h.fitted, h.shape]
  · have hfeat : st.params.numberOfFeatures = .ok (nf : Int) := Params.getInt_eq h.featP
    rw [if_neg (by simp [h.fitted hv]), h.shape]
    cases X <;> simp only [hfeat, ok_bind]

theorem sampleChecks_codes {S : Type} (V : SampleView S) (x : S) (b : Bool) (n : Nat) :
    ∀ p ∈ sampleChecks V x b n, p.2.code ≠ .ok := by
  intro p hp
  simp only [sampleChecks, List.mem_cons, List.not_mem_nil, or_false] at hp
  rcases hp with rfl | rfl | rfl | rfl <;> simp [valueError]

theorem batchChecks_codes {S : Type} (V : SampleView S) (X : List S) (b : Bool) (n : Nat) :
    ∀ p ∈ batchChecks V X b n, p.2.code ≠ .ok := by
  intro p hp
  simp only [batchChecks, List.mem_cons, List.not_mem_nil, or_false] at hp
  rcases hp with rfl | rfl | rfl | rfl | rfl | rfl <;> simp [valueError]

theorem Sim.checkS_ok (hv : Valid cfg) (h : Sim L cfg st ss) {x : B.Sample} (hx : L.SInv x) :
    (checkS B ss.shape x).Ret fun s => s.code = .ok ↔ ∃ labels nf, ss.shape = some (labels, nf) ∧ SOk L nf x := by
  rw [← h.check hv]
  rcases h with h | ⟨labels, nf, h⟩
  · refine (checkForPredict_ret L (nf := 0) hx (by simp [h.fitted])).mono fun s hs => ?_
    rw [reports_ok hs (sampleChecks_codes _ _ _ _)]
    simp [sampleChecks, h.fitted, h.shape]
  · refine (checkForPredict_ret L (nf := nf) hx (fun _ => Params.getInt_eq h.featP)).mono fun s hs => ?_
    rw [reports_ok hs (sampleChecks_codes _ _ _ _)]
    simp only [sampleChecks, List.mem_cons, List.not_mem_nil, or_false, forall_eq_or_imp, forall_eq,
      h.fitted hv, Classical.not_not, Lawful.view, h.shape]
    constructor
    · rintro ⟨-, h1, h2, h3⟩
      exact ⟨labels, nf, rfl, hx, (L.bin_iff x).2 ⟨h2, h3⟩, h1⟩
    · rintro ⟨l, n, e, h1⟩
      cases e
      exact ⟨by simp, h1.size, ((L.bin_iff x).1 h1.bin).1, ((L.bin_iff x).1 h1.bin).2⟩

theorem Sim.checkBatchS_ok (hv : Valid cfg) (h : Sim L cfg st ss) {X : List B.Sample} (hX : ∀ x ∈ X, L.SInv x) :
    (checkBatchS B ss.shape X).Ret fun s =>
      s.code = .ok ↔ X ≠ [] ∧ ∃ labels nf, ss.shape = some (labels, nf) ∧ ∀ x ∈ X, SOk L nf x := by
  rw [← h.checkBatch hv]
  rcases h with h | ⟨labels, nf, h⟩
  · refine (checkForPredictBatch_ret L (nf := 0) hX (by simp [h.fitted])).mono fun s hs => ?_
    rw [reports_ok hs (batchChecks_codes _ _ _ _)]
    simp [batchChecks, h.fitted, h.shape]
  · refine (checkForPredictBatch_ret L (nf := nf) hX (fun _ => Params.getInt_eq h.featP)).mono fun s hs => ?_
    rw [reports_ok hs (batchChecks_codes _ _ _ _)]
    simp only [batchChecks, List.mem_cons, List.not_mem_nil, or_false, forall_eq_or_imp, forall_eq,
      h.fitted hv, Classical.not_not, Lawful.view, h.shape, not_exists, not_and]
    constructor
    · rintro ⟨-, h0, -, h1, h2, h3⟩
      exact ⟨h0, labels, nf, rfl, fun x hx => ⟨hX x hx, (L.bin_iff x).2 ⟨h2 x hx, h3 x hx⟩, h1 x hx⟩⟩
    · rintro ⟨h0, l, n, e, h1⟩
      cases e
      refine ⟨by simp, h0, fun a ha b hb => ?_, fun x hx => (h1 x hx).size,
        fun x hx => ((L.bin_iff x).1 (h1 x hx).bin).1, fun x hx => ((L.bin_iff x).1 (h1 x hx).bin).2⟩
      rw [(h1 a ha).size, (h1 b hb).size]
end

/-- Scores of all labels. -/
def scoresS {env : Env} (cfg : Cfg) (labels : Nat) (ss : SState env) (x : List Bool) : List Int :=
  (List.range labels).map (score (outPrunedAt ss.clauses x) ss.weights cfg.k cfg.T)

def responseS {env : Env} (cfg : Cfg) (ss : SState env) (x : List Bool) : Int :=
  response (outPrunedAt ss.clauses x) ss.weights ss.clauses.length cfg.T

/-- The shape of a cache that inference may use. -/
structure CacheOk (cfg : Cfg) (labels : Nat) (c0 c : Cache) : Prop where
  co : c.clauseOutput.length = labels * cfg.k
  ls : cfg.kind = .classifier → c.labelSum.length = labels
  lsRange : ∀ s ∈ c.labelSum, -cfg.T ≤ s ∧ s ≤ cfg.T
  fb : c.feedback = c0.feedback
  ct : c.ct = c0.ct

section
variable {B : Backend} {L : Lawful B} {env : Env} {cfg : Cfg} {st : EstState B env} {ss : SState env}
  {labels nf : Nat}

theorem Fit.cacheOk (h : Fit L cfg labels nf st ss) : CacheOk cfg labels st.cache st.cache :=
  ⟨h.coLen, h.lsLen, h.lsRange, rfl, rfl⟩

theorem Fit.withCache (h : Fit L cfg labels nf st ss) {c : Cache} (hc : CacheOk cfg labels st.cache c) :
    Fit L cfg labels nf { st with cache := c } ss :=
  { h with coLen := hc.co, lsLen := hc.ls, lsRange := hc.lsRange
           fbLen := fun hk => by show c.feedback.length = _; rw [hc.fb]; exact h.fbLen hk
           fbRange := fun f hf => by
            have hf : f ∈ c.feedback := hf
            rw [hc.fb] at hf; exact h.fbRange f hf
           ct := by show CtOk _ _ _ c.ct; rw [hc.ct]; exact h.ct }

theorem score_range {v : Nat → Bool} {ws : List Nat} {k l : Nat} {T : Int} (hT : 1 ≤ T) :
    -T ≤ score v ws k T l ∧ score v ws k T l ≤ T := clampTo_range _ (by omega)

theorem scoresS_range (hv : Valid cfg) (x : List Bool) :
    ∀ s ∈ scoresS cfg labels ss x, -cfg.T ≤ s ∧ s ≤ cfg.T := by
  intro s hs
  obtain ⟨l, -, rfl⟩ := List.mem_map.1 hs
  exact score_range hv.T

def Cfg.infer (c : Cfg) (labels : Nat) : InferCfg :=
  ⟨labels, c.k, c.T, ((labels * c.k : Nat) : Int), tileOf c.tile⟩

theorem Fit.inferCfg (hv : Valid cfg) (hk : cfg.kind = .classifier) (h : Fit L cfg labels nf st ss) :
    inferCfg st.params = .ok (cfg.infer labels) := by
  have hr := h.reads
  have hlab : st.params.numberOfLabels = .ok (labels : Int) := Params.getInt_eq (h.labelsP hk)
  have hsm := h.small' hv
  have hlk : (labels : Int) * (cfg.k : Int) = ((labels * cfg.k : Nat) : Int) := by push_cast; rfl
  have ho : st.params.classifierOutputs = .ok ((labels * cfg.k : Nat) : Int) := by
    unfold Params.classifierOutputs
    rw [hlab, ok_bind, hr.p_k hv hk, ok_bind, hlk, i32_ok (by omega) (by omega)]
  unfold Tsetlini.inferCfg
  rw [hlab, ok_bind, hr.p_k hv hk, ok_bind, hr.p_T, ok_bind, ho, ok_bind, hr.p_nJobs, ok_bind, hr.p_tile, ok_bind]
  rfl

theorem Fit.scores (sc : Sched) (hv : Valid cfg) (hk : cfg.kind = .classifier) (h : Fit L cfg labels nf st ss)
    {x : B.Sample} (hx : SOk L nf x) {c0 c : Cache} (hc : CacheOk cfg labels c0 c) :
    (Tsetlini.scores B sc st.ta (cfg.infer labels) x c).Ret fun c' =>
      CacheOk cfg labels c0 c' ∧ c'.labelSum = scoresS cfg labels ss (L.bits x) := by
  have hsm := h.small' hv
  have hT := hv.T
  unfold Tsetlini.scores scoresInto
  simp only [Cfg.infer, Int.toNat_natCast]
  refine Ret.bind (outputsLoop_ret sc (v := outPrunedAt ss.clauses (L.bits x)) ?_ (by rw [hc.co]; omega)) ?_
  · intro o _ ho
    have ho' : o < ss.clauses.length := by rw [h.len]; exact ho
    rw [outPrunedAt_eq ho']
    exact L.outPruned_eq _ h.abs ho' hx.inv hx.bin hx.size
  · rintro c1 ⟨out, rfl, l1, e1⟩
    dsimp only
    rw [hc.co] at l1 e1
    rw [h.w, sumUpAllLabelVotes_eq (h.wok hv) (Nat.le_refl _) (by omega) (by omega)
      (v := outPrunedAt ss.clauses (L.bits x)) (fun i hi => by rw [e1 i hi, if_pos ⟨Nat.zero_le _, hi⟩])
      (hc.ls hk), ok_bind, ret_ok]
    exact ⟨⟨l1, fun _ => by simp, scoresS_range hv _, hc.fb, hc.ct⟩, rfl⟩

theorem Fit.response (sc : Sched) (hv : Valid cfg) (hk : cfg.kind = .regressor) (h : Fit L cfg labels nf st ss)
    {x : B.Sample} (hx : SOk L nf x) {c0 c : Cache} (hc : CacheOk cfg labels c0 c) :
    (responseInto B sc st.ta (tileOf cfg.tile) (cfg.k : Int) cfg.T x c).Ret fun r =>
      CacheOk cfg labels c0 r.1 ∧ r.2 = responseS cfg ss (L.bits x) := by
  have hsm := h.small' hv
  have hT := hv.T
  have h1 := h.reg1 hk
  subst h1
  have hco := hc.co
  have hlen := h.len
  rw [Nat.one_mul] at hco hlen hsm
  unfold responseInto
  rw [Int.toNat_natCast]
  refine Ret.bind (outputsLoop_ret sc (v := outPrunedAt ss.clauses (L.bits x)) ?_ (by rw [hco]; omega)) ?_
  · intro o _ ho
    have ho' : o < ss.clauses.length := by rw [hlen]; exact ho
    rw [outPrunedAt_eq ho']
    exact L.outPruned_eq _ h.abs ho' hx.inv hx.bin hx.size
  · rintro c1 ⟨out, rfl, l1, e1⟩
    dsimp only
    rw [hco] at l1 e1
    have hw := h.wok hv
    rw [Nat.one_mul] at hw
    rw [h.w, sumUpRegressorVotes_eq hw l1 (by omega) (by omega)
      (v := outPrunedAt ss.clauses (L.bits x)) (fun i hi => by rw [e1 i hi, if_pos ⟨Nat.zero_le _, hi⟩]),
      ok_bind, ret_ok]
    refine ⟨⟨by rw [Nat.one_mul]; exact l1, hc.ls, hc.lsRange, hc.fb, hc.ct⟩, ?_⟩
    unfold responseS
    rw [hlen]

theorem Fit.batchC (sc : Sched) (hv : Valid cfg) (hk : cfg.kind = .classifier) (h : Fit L cfg labels nf st ss)
    {α : Type} (f : List Int → α) (X : List B.Sample) (hX : ∀ x ∈ X, SOk L nf x) {c0 c : Cache}
    (hc : CacheOk cfg labels c0 c) :
    (batchLoopC B sc st.ta (cfg.infer labels) f X c).Ret fun r =>
      CacheOk cfg labels c0 r.1 ∧ r.2 = X.map fun x => f (scoresS cfg labels ss (L.bits x)) := by
  induction X generalizing c with
  | nil => exact ⟨_, rfl, hc, rfl⟩
  | cons x xs ih =>
    unfold batchLoopC
    refine Ret.bind (h.scores sc hv hk (hX x (by simp)) hc) ?_
    rintro c1 ⟨h1, h2⟩
    refine Ret.bind (ih (fun x hx => hX x (by simp [hx])) h1) ?_
    rintro ⟨c2, rs⟩ ⟨h3, h4⟩
    rw [ret_ok]
    dsimp only at h4
    exact ⟨h3, by rw [h2, h4]; rfl⟩

theorem Fit.batchR (sc : Sched) (hv : Valid cfg) (hk : cfg.kind = .regressor) (h : Fit L cfg labels nf st ss)
    (X : List B.Sample) (hX : ∀ x ∈ X, SOk L nf x) {c0 c : Cache} (hc : CacheOk cfg labels c0 c) :
    (batchLoopR B sc st.ta (tileOf cfg.tile) (cfg.k : Int) cfg.T X c).Ret fun r =>
      CacheOk cfg labels c0 r.1 ∧ r.2 = X.map fun x => responseS cfg ss (L.bits x) := by
  induction X generalizing c with
  | nil => exact ⟨_, rfl, hc, rfl⟩
  | cons x xs ih =>
    unfold batchLoopR
    refine Ret.bind (h.response sc hv hk (hX x (by simp)) hc) ?_
    rintro ⟨c1, v⟩ ⟨h1, h2⟩
    refine Ret.bind (ih (fun x hx => hX x (by simp [hx])) h1) ?_
    rintro ⟨c2, rs⟩ ⟨h3, h4⟩
    rw [ret_ok]
    dsimp only at h2 h4
    exact ⟨h3, by rw [h2, h4]; rfl⟩

/-- Errors among the first samples. -/
def errorsS (cfg : Cfg) (labels : Nat) (ss : SState env) (L : Lawful B) (X : List B.Sample) (y : List Int) : Nat :=
  ((X.zip y).filter fun p => decide ((argmax (scoresS cfg labels ss (L.bits p.1)) : Int) ≠ p.2)).length

theorem Fit.evalLoop (sc : Sched) (hv : Valid cfg) (hk : cfg.kind = .classifier) (h : Fit L cfg labels nf st ss)
    {X : List B.Sample} {y : List Int} (hX : ∀ x ∈ X, SOk L nf x) (hy : X.length ≤ y.length)
    (n i : Nat) (hn : i + n = X.length) {c0 c : Cache} (hc : CacheOk cfg labels c0 c) (e : Nat)
    (he : e = errorsS cfg labels ss L (X.take i) (y.take i)) :
    (Tsetlini.evalLoop B sc st.ta (cfg.infer labels) X y (List.range' i n) (c, e)).Ret fun r =>
      CacheOk cfg labels c0 r.1 ∧ r.2 = errorsS cfg labels ss L X y := by
  induction n generalizing i c e with
  | zero =>
    refine ⟨_, rfl, hc, ?_⟩
    dsimp only
    rw [he]
    unfold errorsS
    have : i = X.length := by omega
    subst this
    rw [List.take_length]
    have hz : X.zip (y.take X.length) = X.zip y := by
      have : X.zip y = (X.take X.length).zip (y.take X.length) := by
        have := List.zip_eq_zip_take_min (l₁ := X) (l₂ := y)
        rwa [Nat.min_eq_left hy] at this
      rw [this, List.take_length]
    rw [hz]
  | succ n ih =>
    have hi : i < X.length := by omega
    have hiy : i < y.length := by omega
    rw [List.range'_succ]
    unfold Tsetlini.evalLoop
    rw [rd_ok hi, ok_bind]
    refine Ret.bind (h.scores sc hv hk (hX _ (List.getElem_mem hi)) hc) ?_
    rintro c1 ⟨h1, h2⟩
    rw [rd_ok hiy, ok_bind]
    refine ih (i + 1) (by omega) h1 _ ?_
    dsimp only
    rw [h2, he]
    unfold errorsS
    rw [List.take_succ_eq_append_getElem hi, List.take_succ_eq_append_getElem hiy,
      List.zip_append (by rw [List.length_take, List.length_take]; omega), List.filter_append, List.length_append]
    congr 1
    simp only [List.zip_cons_cons, List.zip_nil_left, List.filter_cons, List.filter_nil]
    by_cases hq : (argmax (scoresS cfg labels ss (L.bits X[i])) : Int) ≠ y[i]
    · rw [if_pos hq, if_pos (by simpa using hq)]; rfl
    · rw [if_neg hq, if_neg (by simpa using hq)]; rfl
end

/-! ### The abstract calls -/

def withShape {env : Env} {α : Type} (ss : SState env) (chk : Res Status) (f : Nat → Nat → α) :
    Res (Except Status α) :=
  chk.bind fun sm =>
  if sm.code ≠ .ok then .ok (.error sm) else
  match ss.shape with
  | some (labels, nf) => .ok (.ok (f labels nf))
  | none => .ub .oob

def predict1S {B : Backend} (L : Lawful B) {env : Env} (cfg : Cfg) (ss : SState env) (x : B.Sample) :
    Res (Except Status Int) :=
  withShape ss (checkS B ss.shape x) fun labels _ => (argmax (scoresS cfg labels ss (L.bits x)) : Int)

def predictS {B : Backend} (L : Lawful B) {env : Env} (cfg : Cfg) (ss : SState env) (X : List B.Sample) :
    Res (Except Status (List Int)) :=
  withShape ss (checkBatchS B ss.shape X) fun labels _ =>
    X.map fun x => (argmax (scoresS cfg labels ss (L.bits x)) : Int)

def decision1S {B : Backend} (L : Lawful B) {env : Env} (cfg : Cfg) (ss : SState env) (x : B.Sample) :
    Res (Except Status (List Int)) :=
  withShape ss (checkS B ss.shape x) fun labels _ => scoresS cfg labels ss (L.bits x)

def decisionS {B : Backend} (L : Lawful B) {env : Env} (cfg : Cfg) (ss : SState env) (X : List B.Sample) :
    Res (Except Status (List (List Int))) :=
  withShape ss (checkBatchS B ss.shape X) fun labels _ => X.map fun x => scoresS cfg labels ss (L.bits x)

def predictR1S {B : Backend} (L : Lawful B) {env : Env} (cfg : Cfg) (ss : SState env) (x : B.Sample) :
    Res (Except Status Int) :=
  withShape ss (checkS B ss.shape x) fun _ _ => responseS cfg ss (L.bits x)

def predictRS {B : Backend} (L : Lawful B) {env : Env} (cfg : Cfg) (ss : SState env) (X : List B.Sample) :
    Res (Except Status (List Int)) :=
  withShape ss (checkBatchS B ss.shape X) fun _ _ => X.map fun x => responseS cfg ss (L.bits x)

def evaluateS {B : Backend} (L : Lawful B) {env : Env} (cfg : Cfg) (ss : SState env) (X : List B.Sample)
    (y : List Int) : Res (Except Status Fl) :=
  match ss.shape with
  | some (labels, _) =>
    .ok (.ok (if X.length = 0 then .nan
      else .fin (env.rnd (1 - env.rnd (env.rnd (errorsS cfg labels ss L X y) / env.rnd X.length)))))
  | none => .ub .oob

/-- Valid arguments for `evaluate` (which validates nothing). -/
def EvalOk {B : Backend} (L : Lawful B) (sh : Option (Nat × Nat)) (X : List B.Sample) (y : List Int) : Prop :=
  ∃ labels nf, sh = some (labels, nf) ∧ (∀ x ∈ X, SOk L nf x) ∧ X.length ≤ y.length

section
variable {B : Backend} {L : Lawful B} {env : Env} {cfg : Cfg} {st : EstState B env} {ss : SState env}

theorem withShape_ref {α : Type} (h : Sim L cfg st ss) {chk : Res Status} {f : Nat → Nat → α}
    {g : Res (EstState B env × Except Status α)}
    (hchk : chk.Ret fun s => s.code = .ok → ∃ labels nf, ss.shape = some (labels, nf) ∧
      ∀ labels nf, Fit L cfg labels nf st ss →
        g.Ret fun r => ∃ c, CacheOk cfg labels st.cache c ∧ r = ({ st with cache := c }, .ok (f labels nf))) :
    (chk.bind fun sm => if sm.code ≠ .ok then .ok (st, .error sm) else g).Ret fun r =>
      Sim L cfg r.1 ss ∧ Frozen st r.1 ∧ withShape ss chk f = .ok r.2 := by
  obtain ⟨s, rfl, hs⟩ := hchk
  unfold withShape
  rw [ok_bind, ok_bind]
  by_cases hc : s.code = .ok
  · rw [if_neg (by simpa using hc), if_neg (by simpa using hc)]
    obtain ⟨labels, nf, e, k⟩ := hs hc
    rcases h with h | ⟨labels', nf', h⟩
    · rw [h.shape] at e; cases e
    · have e' := h.shape
      rw [e] at e'
      cases e'
      refine (k labels nf h).mono ?_
      rintro r ⟨c, h1, rfl⟩
      rw [e]
      exact ⟨.inr ⟨labels, nf, h.withCache h1⟩, ⟨rfl, rfl, rfl, rfl⟩, rfl⟩
  · rw [if_pos hc, if_pos hc, ret_ok]
    exact ⟨h, .refl st, rfl⟩

theorem predict1_ref (sc : Sched) (hv : Valid cfg) (hk : cfg.kind = .classifier) (h : Sim L cfg st ss)
    {x : B.Sample} (hx : L.SInv x) :
    (predictClassifier1 B env sc st x).Ret fun r =>
      Sim L cfg r.1 ss ∧ Frozen st r.1 ∧ predict1S L cfg ss x = .ok r.2 := by
  unfold predictClassifier1 predict1S
  rw [h.check hv]
  refine withShape_ref h ((h.checkS_ok hv hx).mono fun s hs hc => ?_)
  obtain ⟨labels, nf, e, hok⟩ := hs.1 hc
  refine ⟨labels, nf, e, fun l n hf => ?_⟩
  have e' := hf.shape; rw [e] at e'; cases e'
  rw [hf.inferCfg hv hk, ok_bind]
  refine Ret.bind (hf.scores sc hv hk hok hf.cacheOk) ?_
  rintro c ⟨h1, h2⟩
  rw [ret_ok]
  exact ⟨c, h1, by rw [h2]⟩

theorem decision1_ref (sc : Sched) (hv : Valid cfg) (hk : cfg.kind = .classifier) (h : Sim L cfg st ss)
    {x : B.Sample} (hx : L.SInv x) :
    (decision1 B env sc st x).Ret fun r =>
      Sim L cfg r.1 ss ∧ Frozen st r.1 ∧ decision1S L cfg ss x = .ok r.2 := by
  unfold decision1 decision1S
  rw [h.check hv]
  refine withShape_ref h ((h.checkS_ok hv hx).mono fun s hs hc => ?_)
  obtain ⟨labels, nf, e, hok⟩ := hs.1 hc
  refine ⟨labels, nf, e, fun l n hf => ?_⟩
  have e' := hf.shape; rw [e] at e'; cases e'
  rw [hf.inferCfg hv hk, ok_bind]
  refine Ret.bind (hf.scores sc hv hk hok hf.cacheOk) ?_
  rintro c ⟨h1, h2⟩
  rw [ret_ok]
  exact ⟨c, h1, by rw [h2]⟩

theorem predict_ref (sc : Sched) (hv : Valid cfg) (hk : cfg.kind = .classifier) (h : Sim L cfg st ss)
    {X : List B.Sample} (hX : ∀ x ∈ X, L.SInv x) :
    (predictClassifier B env sc st X).Ret fun r =>
      Sim L cfg r.1 ss ∧ Frozen st r.1 ∧ predictS L cfg ss X = .ok r.2 := by
  unfold predictClassifier predictS
  rw [h.checkBatch hv]
  refine withShape_ref h ((h.checkBatchS_ok hv hX).mono fun s hs hc => ?_)
  obtain ⟨-, labels, nf, e, hok⟩ := hs.1 hc
  refine ⟨labels, nf, e, fun l n hf => ?_⟩
  have e' := hf.shape; rw [e] at e'; cases e'
  rw [hf.inferCfg hv hk, ok_bind]
  refine Ret.bind (hf.batchC sc hv hk _ X hok hf.cacheOk) ?_
  rintro ⟨c, rs⟩ ⟨h1, h2⟩
  rw [ret_ok]
  dsimp only at h2
  exact ⟨c, h1, by rw [h2]⟩

theorem decision_ref (sc : Sched) (hv : Valid cfg) (hk : cfg.kind = .classifier) (h : Sim L cfg st ss)
    {X : List B.Sample} (hX : ∀ x ∈ X, L.SInv x) :
    (decision B env sc st X).Ret fun r =>
      Sim L cfg r.1 ss ∧ Frozen st r.1 ∧ decisionS L cfg ss X = .ok r.2 := by
  unfold decision decisionS
  rw [h.checkBatch hv]
  refine withShape_ref h ((h.checkBatchS_ok hv hX).mono fun s hs hc => ?_)
  obtain ⟨-, labels, nf, e, hok⟩ := hs.1 hc
  refine ⟨labels, nf, e, fun l n hf => ?_⟩
  have e' := hf.shape; rw [e] at e'; cases e'
  rw [hf.inferCfg hv hk, ok_bind]
  refine Ret.bind (hf.batchC sc hv hk _ X hok hf.cacheOk) ?_
  rintro ⟨c, rs⟩ ⟨h1, h2⟩
  rw [ret_ok]
  dsimp only at h2
  exact ⟨c, h1, by rw [h2]; rfl⟩

theorem predictR1_ref (sc : Sched) (hv : Valid cfg) (hk : cfg.kind = .regressor) (h : Sim L cfg st ss)
    {x : B.Sample} (hx : L.SInv x) :
    (predictRegressor1 B env sc st x).Ret fun r =>
      Sim L cfg r.1 ss ∧ Frozen st r.1 ∧ predictR1S L cfg ss x = .ok r.2 := by
  unfold predictRegressor1 predictR1S
  rw [h.check hv]
  refine withShape_ref h ((h.checkS_ok hv hx).mono fun s hs hc => ?_)
  obtain ⟨labels, nf, e, hok⟩ := hs.1 hc
  refine ⟨labels, nf, e, fun l n hf => ?_⟩
  have e' := hf.shape; rw [e] at e'; cases e'
  have hr := hf.reads
  rw [hr.p_nJobs, ok_bind, hr.p_tile, ok_bind, hr.p_outR hv hk, ok_bind, hr.p_T, ok_bind]
  refine Ret.bind (hf.response sc hv hk hok hf.cacheOk) ?_
  rintro ⟨c, v⟩ ⟨h1, h2⟩
  rw [ret_ok]
  dsimp only at h2
  exact ⟨c, h1, by rw [h2]⟩

theorem predictR_ref (sc : Sched) (hv : Valid cfg) (hk : cfg.kind = .regressor) (h : Sim L cfg st ss)
    {X : List B.Sample} (hX : ∀ x ∈ X, L.SInv x) :
    (predictRegressor B env sc st X).Ret fun r =>
      Sim L cfg r.1 ss ∧ Frozen st r.1 ∧ predictRS L cfg ss X = .ok r.2 := by
  unfold predictRegressor predictRS
  rw [h.checkBatch hv]
  refine withShape_ref h ((h.checkBatchS_ok hv hX).mono fun s hs hc => ?_)
  obtain ⟨-, labels, nf, e, hok⟩ := hs.1 hc
  refine ⟨labels, nf, e, fun l n hf => ?_⟩
  have e' := hf.shape; rw [e] at e'; cases e'
  have hr := hf.reads
  rw [hr.p_T, ok_bind, hr.p_outR hv hk, ok_bind, hr.p_nJobs, ok_bind, hr.p_tile, ok_bind]
  refine Ret.bind (hf.batchR sc hv hk X hok hf.cacheOk) ?_
  rintro ⟨c, v⟩ ⟨h1, h2⟩
  rw [ret_ok]
  dsimp only at h2
  exact ⟨c, h1, by rw [h2]⟩

theorem evaluate_ref (sc : Sched) (hv : Valid cfg) (hk : cfg.kind = .classifier) (h : Sim L cfg st ss)
    {X : List B.Sample} {y : List Int} (he : EvalOk L ss.shape X y) :
    (evaluate B env sc st X y).Ret fun r =>
      Sim L cfg r.1 ss ∧ Frozen st r.1 ∧ evaluateS L cfg ss X y = .ok r.2 := by
  obtain ⟨labels, nf, e, hX, hy⟩ := he
  rcases h with h | ⟨l, n, hf⟩
  · rw [h.shape] at e; cases e
  have e' := hf.shape; rw [e] at e'; cases e'
  unfold evaluate evaluateS
  rw [hf.inferCfg hv hk, ok_bind, e, List.range_eq_range']
  refine Ret.bind (hf.evalLoop sc hv hk hX hy X.length 0 (by omega) hf.cacheOk 0 (by simp [errorsS])) ?_
  rintro ⟨c, errs⟩ ⟨h1, h2⟩
  rw [ret_ok]
  dsimp only at h2 ⊢
  exact ⟨.inr ⟨labels, nf, hf.withCache h1⟩, ⟨rfl, rfl, rfl, rfl⟩, by rw [h2]⟩

/-! `evaluate` with arbitrary arguments -/

theorem outputsLoop_ifOk (sc : Sched) (clause : Nat → Res Bool) (a b : Nat) (c : Cache) :
    (outputsLoop sc clause a b c).IfOk fun c' => ∃ out, out.length = c.clauseOutput.length ∧
      c' = { c with clauseOutput := out, tick := c.tick + 1 } := by
  unfold outputsLoop
  refine IfOk.bind (P := fun out => out.length = c.clauseOutput.length) ?_ ?_
  · refine iter_ifOk _ _ rfl fun i _ s hs => ?_
    rw [ifOk_iff]
    intro a ha
    rw [bind_eq_ok] at ha
    obtain ⟨v, -, ha⟩ := ha
    rw [wr_eq_ok] at ha
    rw [← ha.2, List.length_set]; exact hs
  · intro out hout
    exact ⟨out, hout, rfl⟩

theorem sumUpAll_ifOk {out : List Bool} {ws : List Nat} {ls : List Int} {labels k T : Int} (hT : 0 ≤ T)
    (hls : ∀ s ∈ ls, -T ≤ s ∧ s ≤ T) :
    (sumUpAllLabelVotes out ws ls labels k T).IfOk fun ls' => ls'.length = ls.length ∧ ∀ s ∈ ls', -T ≤ s ∧ s ≤ T := by
  unfold sumUpAllLabelVotes
  refine iter_ifOk _ _ ⟨rfl, hls⟩ fun i _ s hs => ?_
  rw [ifOk_iff]
  intro a ha
  unfold sumUpLabelVotes at ha
  simp only [bind_eq_ok] at ha
  obtain ⟨_, -, v, -, ha⟩ := ha
  rw [wr_eq_ok] at ha
  rw [← ha.2]
  refine ⟨by rw [List.length_set]; exact hs.1, fun w hw => ?_⟩
  rcases List.mem_or_eq_of_mem_set hw with h1 | rfl
  · exact hs.2 w h1
  · rw [clamp_eq _ _ _ (by omega)]
    exact clampTo_range _ (by omega)

theorem scores_ifOk (sc : Sched) {labels : Nat} (hv : Valid cfg) (ta : TA B) (x : B.Sample) {c0 c : Cache}
    (hc : CacheOk cfg labels c0 c) :
    (Tsetlini.scores B sc ta (cfg.infer labels) x c).IfOk fun c' => CacheOk cfg labels c0 c' := by
  have hT := hv.T
  unfold Tsetlini.scores scoresInto
  refine IfOk.bind (outputsLoop_ifOk _ _ _ _ _) ?_
  rintro c1 ⟨out, hl, rfl⟩
  refine IfOk.bind (sumUpAll_ifOk (by simp only [Cfg.infer]; omega) hc.lsRange) ?_
  rintro ls ⟨h1, h2⟩
  exact ⟨by rw [← hc.co]; exact hl, fun hk => by rw [← hc.ls hk]; exact h1, h2, hc.fb, hc.ct⟩

theorem evalLoop_ifOk (sc : Sched) {labels : Nat} (hv : Valid cfg) (ta : TA B) (X : List B.Sample) (y : List Int)
    (l : List Nat) {c0 c : Cache} (e : Nat) (hc : CacheOk cfg labels c0 c) :
    (Tsetlini.evalLoop B sc ta (cfg.infer labels) X y l (c, e)).IfOk fun r => CacheOk cfg labels c0 r.1 := by
  induction l generalizing c e with
  | nil => exact hc
  | cons i l ih =>
    unfold Tsetlini.evalLoop
    refine IfOk.bind (P := fun _ => True) (by unfold IfOk; split <;> trivial) fun x _ => ?_
    refine IfOk.bind (scores_ifOk sc hv ta x hc) fun c1 h1 => ?_
    refine IfOk.bind (P := fun _ => True) (by unfold IfOk; split <;> trivial) fun yi _ => ?_
    exact ih _ h1

theorem evaluate_ifOk (sc : Sched) (hv : Valid cfg) (hk : cfg.kind = .classifier) (h : Sim L cfg st ss)
    (X : List B.Sample) (y : List Int) :
    (evaluate B env sc st X y).IfOk fun r => Sim L cfg r.1 ss ∧ Frozen st r.1 := by
  unfold evaluate
  rcases h with h | ⟨labels, nf, h⟩
  · obtain ⟨e, he⟩ : ∃ e, inferCfg st.params = .exn e := by
      unfold inferCfg Params.numberOfLabels Params.getInt Params.at'
      have hl := h.labelsP
      cases hg : st.params.get? "number_of_labels" with
      | none => exact ⟨_, rfl⟩
      | some v =>
        rw [hg] at hl
        cases v with
        | int i => exact absurd rfl (hl i)
        | _ => exact ⟨_, rfl⟩
    rw [he]; trivial
  · rw [h.inferCfg hv hk, ok_bind]
    refine IfOk.bind (evalLoop_ifOk sc hv st.ta X y _ 0 h.cacheOk) ?_
    rintro ⟨c, e⟩ hc
    exact ⟨.inr ⟨labels, nf, h.withCache hc⟩, rfl, rfl, rfl, rfl⟩

end

end Tsetlini
