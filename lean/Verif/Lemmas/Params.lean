import Verif.Lemmas.UpdateReg
/- Parameter map lemmas and accessors. -/
namespace Tsetlini
open Res Spec

namespace Params

theorem get?_set_self (p : Params) (k : String) (v : PVal) : (p.set k v).get? k = some v := by
  simp [Params.set, Params.get?, List.lookup]

theorem lookup_filter_ne (p : Params) {k k' : String} (h : k' ≠ k) :
    (p.filter (fun e => e.1 != k)).lookup k' = p.lookup k' := by
  induction p with
  | nil => rfl
  | cons e p ih =>
    obtain ⟨a, b⟩ := e
    rw [List.filter_cons]
    by_cases ha : a = k
    · subst ha
      have hb : (k' == a) = false := by simp [h]
      simp only [bne_self_eq_false, Bool.false_eq_true, if_false, List.lookup, hb]
      exact ih
    · have hne : (a != k) = true := by simp [ha]
      simp only [hne, if_true, List.lookup]
      cases hk : (k' == a) <;> simp [ih]

theorem get?_set_ne (p : Params) {k k' : String} (h : k' ≠ k) (v : PVal) :
    (p.set k v).get? k' = p.get? k' := by
  unfold Params.set Params.get?
  have : (k' == k) = false := by simp [h]
  simp only [List.lookup, this]
  exact lookup_filter_ne p h

theorem getInt_eq {p : Params} {k : String} {v : Int} (h : p.get? k = some (.int v)) :
    p.getInt k = .ok v := by simp [getInt, at', h]
theorem getStr_eq {p : Params} {k : String} {v : String} (h : p.get? k = some (.str v)) :
    p.getStr k = .ok v := by simp [getStr, at', h]
theorem getBool_eq {p : Params} {k : String} {v : Bool} (h : p.get? k = some (.bool v)) :
    p.getBool k = .ok v := by simp [getBool, at', h]
theorem getReal_eq {p : Params} {k : String} {v : Fl} (h : p.get? k = some (.real v)) :
    p.getReal k = .ok v := by simp [getReal, at', h]
theorem getSeed_eq {p : Params} {k : String} {v : BitVec 32} (h : p.get? k = some (.seed v)) :
    p.getSeed k = .ok v := by simp [getSeed, at', h]

end Params

theorem clauseKey_ne {c : Cfg} : c.clauseKey ≠ "number_of_labels" ∧ c.clauseKey ≠ "number_of_features" := by
  unfold Cfg.clauseKey
  cases c.kind <;> decide

theorem Reads.set {p : Params} {c : Cfg} (h : Reads p c) {k : String} (v : PVal)
    (hk : k = "number_of_labels" ∨ k = "number_of_features") : Reads (p.set k v) c := by
  have hne : ∀ k' : String, k' ≠ "number_of_labels" → k' ≠ "number_of_features" →
      (p.set k v).get? k' = p.get? k' := by
    intro k' h1 h2
    apply Params.get?_set_ne
    rcases hk with rfl | rfl
    · exact h1
    · exact h2
  constructor
  · rw [hne _ clauseKey_ne.1 clauseKey_ne.2]; exact h.clauses
  · rw [hne _ (by decide) (by decide)]; exact h.T
  · rw [hne _ (by decide) (by decide)]; exact h.states
  · rw [hne _ (by decide) (by decide)]; exact h.maxWeight
  · rw [hne _ (by decide) (by decide)]; exact h.s
  · rw [hne _ (by decide) (by decide)]; exact h.boost
  · rw [hne _ (by decide) (by decide)]; exact h.weighted
  · rw [hne _ (by decide) (by decide)]; exact h.seed
  · rw [hne _ (by decide) (by decide)]; exact h.ctype
  · rw [hne _ (by decide) (by decide)]; exact h.tile
  · rw [hne _ (by decide) (by decide)]; exact h.nJobs
  · rw [hne _ (by decide) (by decide)]; exact h.verbose
  · intro hk'; rw [hne _ (by decide) (by decide)]; exact h.loss hk'
  · intro hk'; rw [hne _ (by decide) (by decide)]; exact h.C1 hk'
  · intro hk'; rw [hne _ (by decide) (by decide)]; exact h.boxMuller hk'

section
variable {p : Params} {c : Cfg} (h : Reads p c)
include h

theorem Reads.p_T : p.threshold = .ok c.T := Params.getInt_eq h.T
theorem Reads.p_states : p.numberOfStates = .ok c.states := Params.getInt_eq h.states
theorem Reads.p_maxWeight : p.maxWeight = .ok c.maxWeight := Params.getInt_eq h.maxWeight
theorem Reads.p_s : p.specificity = .ok (.fin c.s) := Params.getReal_eq h.s
theorem Reads.p_boost : p.boost = .ok (c.boost != 0) := by
  unfold Params.boost; rw [Params.getInt_eq h.boost]; rfl
theorem Reads.p_weighted : p.weighted = .ok c.weighted := Params.getBool_eq h.weighted
theorem Reads.p_seed : p.randomState = .ok c.seed := Params.getSeed_eq h.seed
theorem Reads.p_ctype : p.countingType = .ok c.ctype := Params.getStr_eq h.ctype
theorem Reads.p_tile : p.tileSize = .ok c.tile := Params.getInt_eq h.tile
theorem Reads.p_nJobs : p.nJobs = .ok c.nJobs := Params.getInt_eq h.nJobs
theorem Reads.p_verbose : p.verbose = .ok c.verbose := Params.getBool_eq h.verbose
theorem Reads.p_loss (hk : c.kind = .regressor) : p.lossFnName = .ok c.lossName :=
  Params.getStr_eq (h.loss hk)
theorem Reads.p_C1 (hk : c.kind = .regressor) : p.lossFnC1 = .ok c.C1 := Params.getReal_eq (h.C1 hk)
theorem Reads.p_bm (hk : c.kind = .regressor) : p.boxMuller = .ok c.boxMuller :=
  Params.getBool_eq (h.boxMuller hk)
theorem Reads.p_clausesC (hk : c.kind = .classifier) : p.clausesPerLabel = .ok c.clauses :=
  Params.getInt_eq (by have := h.clauses; rwa [Cfg.clauseKey, hk] at this)
theorem Reads.p_k (hv : Valid c) (hk : c.kind = .classifier) : p.outputsPerLabel = .ok (c.k : Int) := by
  unfold Params.outputsPerLabel; rw [h.p_clausesC hk, ok_bind, hv.tdiv]
theorem Reads.p_clausesR (hk : c.kind = .regressor) : p.physicalRegressorClauses = .ok c.clauses :=
  Params.getInt_eq (by have := h.clauses; rwa [Cfg.clauseKey, hk] at this)
theorem Reads.p_outR (hv : Valid c) (hk : c.kind = .regressor) : p.regressorOutputs = .ok (c.k : Int) := by
  have : p.getInt "number_of_regressor_clauses" = .ok c.clauses := h.p_clausesR hk
  unfold Params.regressorOutputs; rw [this, ok_bind, hv.tdiv]

theorem logMaxWeight_eq : logMaxWeight p =
    .ok (if c.weighted then [.param "max_weight" (.int c.maxWeight)] else []) := by
  unfold logMaxWeight
  rw [h.p_weighted, ok_bind, h.p_maxWeight, ok_bind]
  split <;> rfl

theorem logParams_ok (hc : ∃ n, physicalClauses c.kind p = .ok n) (hf : ∃ n, p.numberOfFeatures = .ok n)
    (hl : c.kind = .classifier → ∃ n, p.numberOfLabels = .ok n) : ∃ l, logParams c.kind p = .ok l := by
  obtain ⟨n, hn⟩ := hc
  obtain ⟨f, hf⟩ := hf
  unfold logParams
  cases hk : c.kind with
  | classifier =>
    obtain ⟨l, hl⟩ := hl hk
    rw [hk] at hn
    have hn : p.physicalClassifierClauses = .ok n := hn
    dsimp only
    rw [hl, ok_bind, hn, ok_bind, hf, ok_bind, h.p_s, ok_bind, h.p_states, ok_bind, h.p_T, ok_bind, h.p_weighted,
      ok_bind, logMaxWeight_eq h, ok_bind, h.p_ctype, ok_bind, h.p_nJobs, ok_bind, h.p_seed, ok_bind]
    exact ⟨_, rfl⟩
  | regressor =>
    rw [hk] at hn
    have hn : p.physicalRegressorClauses = .ok n := hn
    dsimp only
    rw [hn, ok_bind, hf, ok_bind, h.p_s, ok_bind, h.p_states, ok_bind, h.p_T, ok_bind, h.p_weighted,
      ok_bind, logMaxWeight_eq h, ok_bind, h.p_loss hk, ok_bind, h.p_C1 hk, ok_bind, h.p_bm hk, ok_bind,
      h.p_ctype, ok_bind, h.p_nJobs, ok_bind, h.p_seed, ok_bind]
    exact ⟨_, rfl⟩
end

end Tsetlini
