import Verif.Lemmas.Make
/- From the vocabulary of the property statements to the simulation. -/
namespace Tsetlini
open Res Spec

theorem pairRows_toRows (cl : List Clause) : pairRows (toRows cl) = cl := by
  induction cl with
  | nil => rfl
  | cons c cl ih => rw [toRows_cons, pairRows, ih]

theorem mem_toRows {cl : List Clause} {row : List Int} (h : row ∈ toRows cl) : ∃ c ∈ cl, row = c.pos ∨ row = c.neg := by
  unfold toRows at h
  obtain ⟨c, hc, h⟩ := List.mem_flatMap.1 h
  exact ⟨c, hc, by simpa using h⟩

variable {a : Algo} {k : Kind} {env : Env} {st : EstState a.backend env}

theorem Fit.clausesEq {cfg : Cfg} {labels nf : Nat} {ss : SState env} (h : Fit a.lawful cfg labels nf st ss) :
    ss.clauses = a.clauses st := by
  unfold Algo.clauses Algo.counters
  rw [a.lawful.counters_eq h.abs, pairRows_toRows]

theorem Fit.countersEq {cfg : Cfg} {labels nf : Nat} {ss : SState env} (h : Fit a.lawful cfg labels nf st ss) :
    a.counters st = toRows (a.clauses st) := by
  rw [← h.clausesEq]
  exact a.lawful.counters_eq h.abs

theorem toRows_lengths {cl : List Clause} {nf : Nat} (h : ∀ c ∈ cl, c.pos.length = nf ∧ c.neg.length = nf) :
    (toRows cl).map List.length = List.replicate (2 * cl.length) nf := by
  induction cl with
  | nil => rfl
  | cons c cl ih =>
    rw [toRows_cons, List.map_cons, List.map_cons, ih fun c hc => h c (by simp [hc]), (h c (by simp)).1,
      (h c (by simp)).2, List.length_cons, Nat.mul_add]
    rfl

theorem Fit.rowLens {cfg : Cfg} {labels nf : Nat} {ss : SState env} (h : Fit a.lawful cfg labels nf st ss) :
    (a.counters st).map List.length = List.replicate (2 * (labels * cfg.k)) nf := by
  rw [h.countersEq, ← h.clausesEq, toRows_lengths (nf := nf) fun c hc => ⟨(a.lawful.abs_wf h.abs c hc).posLen, (a.lawful.abs_wf h.abs c hc).negLen⟩,
    h.len]

theorem Fit.fittedP {cfg : Cfg} {labels nf : Nat} {ss : SState env} (hv : Valid cfg)
    (h : Fit a.lawful cfg labels nf st ss) : Fitted a st := by
  unfold Fitted
  rw [h.countersEq, ← h.clausesEq]
  intro e
  have := congrArg List.length e
  rw [toRows_length, h.len] at this
  have := Nat.mul_pos h.pos hv.k_pos
  simp at *
  omega

theorem reached_fit (h : Reached a k st) (hN : StatesOk a st.params) (hf : Fitted a st) :
    ∃ cfg labels nf ss, cfg.kind = k ∧ Valid cfg ∧ a.lawful.minStates ≤ cfg.states ∧
      Fit a.lawful cfg labels nf st ss := by
  obtain ⟨cfg, ss, h1, h2, h3, h | ⟨l, n, h⟩⟩ := Reached.sim h hN
  · exact absurd h.cnt hf
  · exact ⟨cfg, l, n, ss, h1, h2, h3, h⟩

theorem reached_unfit (h : Reached a k st) (hN : StatesOk a st.params) (hf : ¬ Fitted a st) :
    ∃ cfg ss, cfg.kind = k ∧ Valid cfg ∧ a.lawful.minStates ≤ cfg.states ∧ Unfit a.lawful cfg st ss := by
  obtain ⟨cfg, ss, h1, h2, h3, h | ⟨l, n, h⟩⟩ := Reached.sim h hN
  · exact ⟨cfg, ss, h1, h2, h3, h⟩
  · exact absurd (h.fittedP h2) hf

theorem Reads.clausesC {p : Params} {cfg : Cfg} (h : Reads p cfg) {c : Int} (hc : IntParam p (clauseParam cfg.kind) c) :
    c = cfg.clauses := by
  have e : clauseParam cfg.kind = cfg.clauseKey := by unfold clauseParam Cfg.clauseKey; rfl
  unfold IntParam at hc
  rw [e, h.clauses] at hc
  cases hc; rfl

theorem Reads.TC {p : Params} {cfg : Cfg} (h : Reads p cfg) {c : Int} (hc : IntParam p "threshold" c) :
    c = cfg.T := by
  unfold IntParam at hc
  rw [h.T] at hc
  cases hc; rfl

theorem Fit.labelsC {cfg : Cfg} {labels nf : Nat} {ss : SState env} (h : Fit a.lawful cfg labels nf st ss)
    (hk : cfg.kind = .classifier) {c : Int} (hc : IntParam st.params "number_of_labels" c) : c = labels := by
  unfold IntParam at hc
  rw [h.labelsP hk] at hc
  cases hc; rfl

theorem Fit.featC {cfg : Cfg} {labels nf : Nat} {ss : SState env} (h : Fit a.lawful cfg labels nf st ss)
    {c : Int} (hc : IntParam st.params "number_of_features" c) : c = nf := by
  unfold IntParam at hc
  rw [h.featP] at hc
  cases hc; rfl

theorem sok_of {x : a.Sample} {nf : Nat} (h1 : a.Built x) (h2 : a.Good x) (h3 : a.backend.size x = nf) :
    SOk a.lawful nf x := ⟨(lawful_sinv a x).2 h1, (lawful_bin a x).2 h2, h3⟩

end Tsetlini
