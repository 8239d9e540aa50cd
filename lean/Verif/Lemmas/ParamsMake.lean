import Verif.Lemmas.History
import Verif.Spec.Params
/- The factories. -/
namespace Tsetlini
open Res Spec

/-- A map holding a requested parameter set. -/
def Holds (p : Params) (kind : Kind) (r : ParamSet) : Prop := ∀ e ∈ r.entries kind, p.get? e.1 = some e.2

/-- The two normalisation steps. -/
def normP (m : Machine) (r : ParamSet) (p : Params) : Params :=
  let p := if r.nJobs = -1 then p.set "n_jobs" (.int (max 1 m.hwThreads)) else p
  if r.seed = none then p.set "random_state" (.seed m.randomDevice) else p

theorem normP_get?_ne (m : Machine) (r : ParamSet) (p : Params) {k : String} (h1 : k ≠ "n_jobs")
    (h2 : k ≠ "random_state") : (normP m r p).get? k = p.get? k := by
  unfold normP
  dsimp only
  split
  · rw [Params.get?_set_ne _ h2]
    split
    · rw [Params.get?_set_ne _ h1]
    · rfl
  · split
    · rw [Params.get?_set_ne _ h1]
    · rfl

theorem normP_nJobs (m : Machine) (r : ParamSet) {p : Params} (h : p.get? "n_jobs" = some (.int r.nJobs)) :
    (normP m r p).get? "n_jobs" = some (.int (r.concrete m).nJobs) := by
  unfold normP ParamSet.concrete
  dsimp only
  split <;> split <;> simp [Params.get?_set_self, Params.get?_set_ne, *]

theorem normP_seed (m : Machine) (r : ParamSet) {p : Params}
    (h : p.get? "random_state" = some (seedVal r.seed)) :
    (normP m r p).get? "random_state" = some (.seed (r.seed.getD m.randomDevice)) := by
  unfold normP
  dsimp only
  split
  · rename_i hs; rw [Params.get?_set_self, hs]; rfl
  · obtain ⟨s, hs⟩ := Option.ne_none_iff_exists'.1 (by assumption)
    rw [hs] at h ⊢
    split
    · rw [Params.get?_set_ne _ (by decide), h]; rfl
    · rw [h]; rfl

theorem flatMapR_ok (p : Params) (f : Params → Res EParams) : flatMapR (.ok (.ok p)) f = f p := rfl
theorem flatMapR_err (s : Status) (f : Params → Res EParams) : flatMapR (.ok (.error s)) f = .ok (.error s) := rfl

theorem flatMapR_ite (c : Prop) [Decidable c] (e : Status) (r : Res EParams) (f : Params → Res EParams) :
    flatMapR (if c then .ok (.error e) else r) f = if c then .ok (.error e) else flatMapR r f := by
  split <;> rfl

open Classical in
/-- Run checks in order; `r` if none is violated. -/
noncomputable def firstBad : List (Prop × Status) → Res EParams → Res EParams
  | [], r => r
  | (bad, e) :: rest, r => if bad then .ok (.error e) else firstBad rest r

theorem flatMapR_firstBad (l : List (Prop × Status)) (r : Res EParams) (f : Params → Res EParams) :
    flatMapR (firstBad l r) f = firstBad l (flatMapR r f) := by
  induction l with
  | nil => rfl
  | cons e l ih =>
    obtain ⟨b, s⟩ := e
    unfold firstBad
    split
    · rfl
    · exact ih

theorem firstBad_append (a b : List (Prop × Status)) (r : Res EParams) :
    firstBad (a ++ b) r = firstBad a (firstBad b r) := by
  induction a with
  | nil => rfl
  | cons e a ih =>
    obtain ⟨c, s⟩ := e
    rw [List.cons_append]
    unfold firstBad
    rw [ih]

theorem firstBad_one {c : Prop} [Decidable c] {b : Prop} (h : c ↔ b) {e e' : Status} (he : e = e') (r : Res EParams) :
    (if c then .ok (.error e) else r) = firstBad [(b, e')] r := by
  subst he
  unfold firstBad firstBad
  by_cases hb : b
  · rw [if_pos (h.2 hb), if_pos hb]
  · rw [if_neg (fun k => hb (h.1 k)), if_neg hb]

section
variable {p : Params} {kind : Kind} {r : ParamSet}

theorem Holds.get (h : Holds p kind r) {k : String} {v : PVal} (hm : (k, v) ∈ r.entries kind) :
    p.get? k = some v := h (k, v) hm

theorem Holds.nJobs (h : Holds p kind r) : p.get? "n_jobs" = some (.int r.nJobs) :=
  h.get (by simp [ParamSet.entries])
theorem Holds.seed (h : Holds p kind r) :
    p.get? "random_state" = some (seedVal r.seed) :=
  h.get (by simp [ParamSet.entries])
theorem Holds.states (h : Holds p kind r) : p.get? "number_of_states" = some (.int r.states) :=
  h.get (by simp [ParamSet.entries])
theorem Holds.s (h : Holds p kind r) : p.get? "s" = some (.real r.s) := h.get (by simp [ParamSet.entries])
theorem Holds.T (h : Holds p kind r) : p.get? "threshold" = some (.int r.threshold) :=
  h.get (by simp [ParamSet.entries])
theorem Holds.maxWeight (h : Holds p kind r) : p.get? "max_weight" = some (.int r.maxWeight) :=
  h.get (by simp [ParamSet.entries])
theorem Holds.boost (h : Holds p kind r) : p.get? "boost_true_positive_feedback" = some (.int r.boost) :=
  h.get (by simp [ParamSet.entries])
theorem Holds.weighted (h : Holds p kind r) : p.get? "weighted" = some (.bool r.weighted) :=
  h.get (by simp [ParamSet.entries])
theorem Holds.verbose (h : Holds p kind r) : p.get? "verbose" = some (.bool r.verbose) :=
  h.get (by simp [ParamSet.entries])
theorem Holds.ctype (h : Holds p kind r) : p.get? "counting_type" = some (.str r.countingType) :=
  h.get (by simp [ParamSet.entries])
theorem Holds.tile (h : Holds p kind r) : p.get? "clause_output_tile_size" = some (.int r.tileSize) :=
  h.get (by simp [ParamSet.entries])
theorem Holds.clauses (h : Holds p kind r) : p.get? (clausesKey kind) = some (.int r.clauses) :=
  h.get (by simp [ParamSet.entries])
theorem Holds.loss (h : Holds p .regressor r) : p.get? "loss_fn" = some (.str r.lossFn) :=
  h.get (by simp [ParamSet.entries])
theorem Holds.C1 (h : Holds p .regressor r) : p.get? "loss_fn_C1" = some (.real r.lossC1) :=
  h.get (by simp [ParamSet.entries])
theorem Holds.boxMuller (h : Holds p .regressor r) : p.get? "box_muller" = some (.bool r.boxMuller) :=
  h.get (by simp [ParamSet.entries])

theorem normalize_both (m : Machine) (h : Holds p kind r) :
    flatMapR (normalizeNJobs m p) (normalizeRandomState m) = .ok (.ok (normP m r p)) := by
  unfold normalizeNJobs Params.nJobs
  rw [Params.getInt_eq h.nJobs, ok_bind]
  have key : ∀ q : Params, q.get? "random_state" = some (seedVal r.seed) →
      normalizeRandomState m q =
        .ok (.ok (if r.seed = none then q.set "random_state" (.seed m.randomDevice) else q)) := by
    intro q hq
    unfold normalizeRandomState Params.setAt Params.at'
    rw [hq]
    cases hs : r.seed with
    | none => rfl
    | some s => rfl
  unfold normP
  by_cases hn : r.nJobs = -1
  · rw [if_pos hn]
    have : p.setAt "n_jobs" (.int (max 1 m.hwThreads)) = .ok (p.set "n_jobs" (.int (max 1 m.hwThreads))) := by
      unfold Params.setAt Params.at'; rw [h.nJobs]; rfl
    rw [this, ok_bind, flatMapR_ok, key _ (by rw [Params.get?_set_ne _ (by decide), h.seed]), if_pos hn]
  · rw [if_neg hn, flatMapR_ok, key p h.seed, if_neg hn]

theorem badS_iff (v : Fl) : v.badS = true ↔ ¬ ∃ q, v = .fin q ∧ 1 ≤ q := by
  cases v with
  | fin q =>
    simp only [Fl.badS, decide_eq_true_eq, Fl.fin.injEq, exists_eq_left']
    constructor
    · intro h h'; grind
    · intro h; grind
  | inf n => simp [Fl.badS]
  | nan => simp [Fl.badS]

theorem tmod_ne_iff {v : Int} {d : Int} : (v < 1 ∨ v.tmod d ≠ 0) ↔ ¬ (0 < v ∧ d ∣ v) := by
  rw [Int.dvd_iff_tmod_eq_zero]
  constructor
  · rintro (h | h) ⟨h1, h2⟩
    · omega
    · exact h h2
  · intro h
    by_cases h1 : v < 1
    · exact .inl h1
    · exact .inr fun h2 => h ⟨by omega, h2⟩

theorem finishClassifier_eq (m : Machine) (io : RealIO) (h : Holds p .classifier r) :
    finishClassifier m io p = firstBad (paramChecks io .classifier r) (.ok (.ok (normP m r p))) := by
  have e1 : assertNJobs p = firstBad [(¬ (r.nJobs = -1 ∨ 1 ≤ r.nJobs),
        badJson ("Param 'n_jobs' got value " ++ toString r.nJobs ++ ", instead of natural integer or -1.\n"))] (.ok (.ok p)) := by
    unfold assertNJobs Params.nJobs
    rw [Params.getInt_eq h.nJobs, ok_bind]
    exact firstBad_one (by simp) rfl _
  have e2 : assertStates p = firstBad [(¬ 1 ≤ r.states,
        badJson ("Param 'number_of_states' got value " ++ toString r.states ++ ", instead of a natural integer.\n"))] (.ok (.ok p)) := by
    unfold assertStates
    rw [Params.getInt_eq h.states, ok_bind]
    exact firstBad_one (by omega) rfl _
  have e3 : assertS io p = firstBad [(¬ ∃ q, r.s = .fin q ∧ 1 ≤ q,
        badJson ("Param 's' got value " ++ io.toStr r.s ++ ", instead of a value >= 1.0 .\n"))] (.ok (.ok p)) := by
    unfold assertS
    rw [Params.getReal_eq h.s, ok_bind]
    exact firstBad_one (badS_iff _) rfl _
  have e4 : assertClassifierClauses p = firstBad [(¬ (0 < r.clauses ∧ 4 ∣ r.clauses),
        badJson ("Param 'number_of_clauses_per_label' got value " ++ toString r.clauses ++ ", instead of a natural integer divisible by 4.\n"))] (.ok (.ok p)) := by
    unfold assertClassifierClauses Params.clausesPerLabel
    rw [Params.getInt_eq (k := "number_of_clauses_per_label") h.clauses, ok_bind]
    exact firstBad_one tmod_ne_iff rfl _
  have e5 : assertBoost p = firstBad [(¬ (r.boost = 0 ∨ r.boost = 1),
        badJson ("Param 'boost_true_positive_feedback' got value " ++ toString r.boost ++ ", instead of either 0 or 1.\n"))] (.ok (.ok p)) := by
    unfold assertBoost
    rw [Params.getInt_eq h.boost, ok_bind]
    exact firstBad_one (by omega) rfl _
  have e6 : assertThreshold p = firstBad [(¬ 1 ≤ r.threshold,
        badJson ("Param 'threshold' got value " ++ toString r.threshold ++ ", instead of a natural integer.\n"))] (.ok (.ok p)) := by
    unfold assertThreshold
    rw [Params.getInt_eq h.T, ok_bind]
    exact firstBad_one (by omega) rfl _
  have e7 : assertMaxWeight p = firstBad [(¬ 1 ≤ r.maxWeight,
        badJson ("Param 'max_weight' got value " ++ toString r.maxWeight ++ ", instead of a natural integer.\n"))] (.ok (.ok p)) := by
    unfold assertMaxWeight Params.maxWeight
    rw [Params.getInt_eq h.maxWeight, ok_bind]
    exact firstBad_one (by omega) rfl _
  have e8 : assertCountingType (normP m r p) =
      firstBad [(r.countingType ∉ ["auto", "int8", "int16", "int32"],
        badJson ("Param 'counting_type' got value " ++ r.countingType ++ ", instead of allowed int8, int16, int32, or auto\n"))] (.ok (.ok (normP m r p))) := by
    unfold assertCountingType Params.countingType
    rw [Params.getStr_eq (by rw [normP_get?_ne _ _ _ (by decide) (by decide)]; exact h.ctype), ok_bind]
    exact firstBad_one (by simp) rfl _
  have e9 : assertTileSize (normP m r p) =
      firstBad [(r.tileSize ∉ [16, 32, 64, 128],
        badJson ("Param 'clause_output_tile_size' got value " ++ toString r.tileSize ++ ", instead of allowed 16, 32, 64, or 128\n"))] (.ok (.ok (normP m r p))) := by
    unfold assertTileSize Params.tileSize
    rw [Params.getInt_eq (by rw [normP_get?_ne _ _ _ (by decide) (by decide)]; exact h.tile), ok_bind]
    exact firstBad_one (by simp) rfl _
  unfold finishClassifier
  dsimp only
  rw [flatMapR_ok, e1]
  simp only [flatMapR_firstBad, flatMapR_ok, e2, e3, e4, e5, e6, e7, normalize_both m h, e8, e9,
    ← firstBad_append]
  rfl

theorem finishRegressor_eq (m : Machine) (io : RealIO) (h : Holds p .regressor r) :
    finishRegressor m io p = firstBad (paramChecks io .regressor r) (.ok (.ok (normP m r p))) := by
  have e1 : assertNJobs p = firstBad [(¬ (r.nJobs = -1 ∨ 1 ≤ r.nJobs),
        badJson ("Param 'n_jobs' got value " ++ toString r.nJobs ++ ", instead of natural integer or -1.\n"))] (.ok (.ok p)) := by
    unfold assertNJobs Params.nJobs
    rw [Params.getInt_eq h.nJobs, ok_bind]
    exact firstBad_one (by simp) rfl _
  have e2 : assertStates p = firstBad [(¬ 1 ≤ r.states,
        badJson ("Param 'number_of_states' got value " ++ toString r.states ++ ", instead of a natural integer.\n"))] (.ok (.ok p)) := by
    unfold assertStates
    rw [Params.getInt_eq h.states, ok_bind]
    exact firstBad_one (by omega) rfl _
  have e3 : assertS io p = firstBad [(¬ ∃ q, r.s = .fin q ∧ 1 ≤ q,
        badJson ("Param 's' got value " ++ io.toStr r.s ++ ", instead of a value >= 1.0 .\n"))] (.ok (.ok p)) := by
    unfold assertS
    rw [Params.getReal_eq h.s, ok_bind]
    exact firstBad_one (badS_iff _) rfl _
  have e4 : assertRegressorClauses p = firstBad [(¬ (0 < r.clauses ∧ 2 ∣ r.clauses),
        badJson ("Param 'number_of_regressor_clauses' got value " ++ toString r.clauses ++ ", instead of an even natural integer.\n"))] (.ok (.ok p)) := by
    unfold assertRegressorClauses Params.physicalRegressorClauses
    rw [Params.getInt_eq (k := "number_of_regressor_clauses") h.clauses, ok_bind]
    exact firstBad_one tmod_ne_iff rfl _
  have e5 : assertBoost p = firstBad [(¬ (r.boost = 0 ∨ r.boost = 1),
        badJson ("Param 'boost_true_positive_feedback' got value " ++ toString r.boost ++ ", instead of either 0 or 1.\n"))] (.ok (.ok p)) := by
    unfold assertBoost
    rw [Params.getInt_eq h.boost, ok_bind]
    exact firstBad_one (by omega) rfl _
  have e6 : assertThreshold p = firstBad [(¬ 1 ≤ r.threshold,
        badJson ("Param 'threshold' got value " ++ toString r.threshold ++ ", instead of a natural integer.\n"))] (.ok (.ok p)) := by
    unfold assertThreshold
    rw [Params.getInt_eq h.T, ok_bind]
    exact firstBad_one (by omega) rfl _
  have e7 : assertMaxWeight p = firstBad [(¬ 1 ≤ r.maxWeight,
        badJson ("Param 'max_weight' got value " ++ toString r.maxWeight ++ ", instead of a natural integer.\n"))] (.ok (.ok p)) := by
    unfold assertMaxWeight Params.maxWeight
    rw [Params.getInt_eq h.maxWeight, ok_bind]
    exact firstBad_one (by omega) rfl _
  have e8 : assertCountingType (normP m r p) =
      firstBad [(r.countingType ∉ ["auto", "int8", "int16", "int32"],
        badJson ("Param 'counting_type' got value " ++ r.countingType ++ ", instead of allowed int8, int16, int32, or auto\n"))] (.ok (.ok (normP m r p))) := by
    unfold assertCountingType Params.countingType
    rw [Params.getStr_eq (by rw [normP_get?_ne _ _ _ (by decide) (by decide)]; exact h.ctype), ok_bind]
    exact firstBad_one (by simp) rfl _
  have e10 : assertLoss (normP m r p) =
      firstBad [(r.lossFn ∉ ["MSE", "L2", "MAE", "L1", "berHu", "L1+2"],
        badJson ("Param 'loss_fn' got value " ++ r.lossFn ++ ", instead of allowed MSE, MAE, L2, L1, L1+2, or berHu\n"))] (.ok (.ok (normP m r p))) := by
    unfold assertLoss
    rw [Params.getStr_eq (by rw [normP_get?_ne _ _ _ (by decide) (by decide)]; exact h.loss), ok_bind]
    exact firstBad_one (by simp only [List.mem_cons, List.not_mem_nil, or_false]; grind) rfl _
  have e9 : assertTileSize (normP m r p) =
      firstBad [(r.tileSize ∉ [16, 32, 64, 128],
        badJson ("Param 'clause_output_tile_size' got value " ++ toString r.tileSize ++ ", instead of allowed 16, 32, 64, or 128\n"))] (.ok (.ok (normP m r p))) := by
    unfold assertTileSize Params.tileSize
    rw [Params.getInt_eq (by rw [normP_get?_ne _ _ _ (by decide) (by decide)]; exact h.tile), ok_bind]
    exact firstBad_one (by simp) rfl _
  unfold finishRegressor
  dsimp only
  rw [flatMapR_ok, e1]
  simp only [flatMapR_firstBad, flatMapR_ok, e2, e3, e4, e5, e6, e7, normalize_both m h, e8, e9, e10,
    ← firstBad_append]
  rfl

/-- The end of every factory. -/
def finish (m : Machine) (io : RealIO) (kind : Kind) (p : Params) : Res EParams :=
  match kind with
  | .classifier => finishClassifier m io p
  | .regressor => finishRegressor m io p

theorem finish_eq (m : Machine) (io : RealIO) (h : Holds p kind r) :
    finish m io kind p = firstBad (paramChecks io kind r) (.ok (.ok (normP m r p))) := by
  cases kind with
  | classifier => exact finishClassifier_eq m io h
  | regressor => exact finishRegressor_eq m io h

theorem firstBad_reports (l : List (Prop × Status)) (q : Params) :
    ∃ s, Reports l s ∧ ((∀ e ∈ l, ¬ e.1) → s = .sOk ∧ firstBad l (.ok (.ok q)) = .ok (.ok q)) ∧
      ((∃ e ∈ l, e.1) → (∃ e ∈ l, s = e.2) ∧ firstBad l (.ok (.ok q)) = .ok (.error s)) := by
  induction l with
  | nil => exact ⟨.sOk, rfl, fun _ => ⟨rfl, rfl⟩, by simp⟩
  | cons e l ih =>
    obtain ⟨b, t⟩ := e
    unfold firstBad
    by_cases hb : b
    · refine ⟨t, .inl ⟨hb, rfl⟩, fun h => absurd hb (h (b, t) (by simp)), fun _ => ⟨⟨_, List.mem_cons_self, rfl⟩, by rw [if_pos hb]⟩⟩
    · obtain ⟨s, h1, h2, h3⟩ := ih
      refine ⟨s, .inr ⟨hb, h1⟩, fun h => ?_, fun h => ?_⟩
      · rw [if_neg hb]; exact h2 fun e he => h e (by simp [he])
      · rw [if_neg hb]
        obtain ⟨e, he, hbad⟩ := h
        rcases List.mem_cons.1 he with rfl | he
        · exact absurd hbad hb
        · obtain ⟨⟨e', he', hs⟩, hf⟩ := h3 ⟨e, he, hbad⟩
          exact ⟨⟨e', List.mem_cons_of_mem _ he', hs⟩, hf⟩

theorem paramChecks_code (io : RealIO) : ∀ e ∈ paramChecks io kind r, e.2.code = .badJson := by
  intro e he
  cases kind <;> simp only [paramChecks, List.cons_append, List.nil_append, List.mem_cons, List.not_mem_nil, or_false] at he <;>
    rcases he with rfl | rfl | rfl | rfl | rfl | rfl | rfl | rfl | he <;> try rfl
  · subst he; rfl
  · rcases he with rfl | rfl <;> rfl

theorem acceptable_iff (io : RealIO) : Acceptable kind r ↔ ∀ e ∈ paramChecks io kind r, ¬ e.1 := by
  cases kind with
  | classifier =>
    simp only [paramChecks, List.cons_append, List.nil_append, List.forall_mem_cons, List.not_mem_nil,
      false_implies, implies_true, and_true, Decidable.not_not, Classical.not_not]
    constructor
    · rintro ⟨h1, h2, h3, h4, h5, h6, h7, h8, h9, h10, h11⟩
      exact ⟨h1, h2, h3, ⟨h4, h5⟩, h6, h7, h8, h9, h11⟩
    · rintro ⟨h1, h2, h3, ⟨h4, h5⟩, h6, h7, h8, h9, h11⟩
      exact ⟨h1, h2, h3, h4, h5, h6, h7, h8, h9, nofun, h11⟩
  | regressor =>
    simp only [paramChecks, List.cons_append, List.nil_append, List.forall_mem_cons, List.not_mem_nil,
      false_implies, implies_true, and_true, Decidable.not_not, Classical.not_not]
    constructor
    · rintro ⟨h1, h2, h3, h4, h5, h6, h7, h8, h9, h10, h11⟩
      exact ⟨h1, h2, h3, ⟨h4, h5⟩, h6, h7, h8, h9, h10 rfl, h11⟩
    · rintro ⟨h1, h2, h3, ⟨h4, h5⟩, h6, h7, h8, h9, h10, h11⟩
      exact ⟨h1, h2, h3, h4, h5, h6, h7, h8, h9, fun _ => h10, h11⟩

/-- Everything about the end of a factory. -/
theorem finish_spec (m : Machine) (io : RealIO) (h : Holds p kind r) :
    ∃ s, Reports (paramChecks io kind r) s ∧
      (Acceptable kind r → s = .sOk ∧ finish m io kind p = .ok (.ok (normP m r p))) ∧
      (¬ Acceptable kind r → s.code = .badJson ∧ finish m io kind p = .ok (.error s)) := by
  rw [finish_eq m io h, acceptable_iff io]
  obtain ⟨s, h1, h2, h3⟩ := firstBad_reports (paramChecks io kind r) (normP m r p)
  refine ⟨s, h1, h2, fun hn => ?_⟩
  have : ∃ e ∈ paramChecks io kind r, e.1 := Classical.byContradiction fun hc =>
    hn fun e he hb => hc ⟨e, he, hb⟩
  obtain ⟨⟨e, he, rfl⟩, h5⟩ := h3 this
  exact ⟨paramChecks_code io e he, h5⟩

theorem normP_holds (m : Machine) (h : Holds p kind r) : Holds (normP m r p) kind (r.concrete m) := by
  rintro ⟨k, v⟩ he
  dsimp only
  by_cases h1 : k = "n_jobs"
  · subst h1
    rw [normP_nJobs m r h.nJobs]
    cases kind <;> simp [ParamSet.entries, clausesKey, ParamSet.concrete] at he <;> simp [ParamSet.concrete, he]
  · by_cases h2 : k = "random_state"
    · subst h2
      rw [normP_seed m r h.seed]
      cases kind <;> simp [ParamSet.entries, clausesKey, ParamSet.concrete, seedVal] at he <;> simp [he]
    · rw [normP_get?_ne _ _ _ h1 h2]
      apply h.get
      cases kind <;> simp [ParamSet.entries, clausesKey, ParamSet.concrete, h1, h2] at he ⊢ <;> exact he

end
end Tsetlini
