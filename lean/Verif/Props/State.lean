import Verif.Lemmas.Observe
import Verif.Props.Toy
/-
C01, C03, C23, C42, C43, C50: invariants of every estimator a user program can get hold of.
-/
namespace Tsetlini
open Res Spec

variable {a : Algo} {k : Kind} {env : Env} {st : EstState a.backend env}

/-! ### C01 -/

/-- **C01**: every counter lies in [-N, N-1], after any history. -/
theorem C01_counters_in_range (h : Reached a k st) (hN : StatesOk a st.params) {N : Int}
    (hp : IntParam st.params "number_of_states" N) :
    ∀ row ∈ a.counters st, ∀ c ∈ row, -N ≤ c ∧ c ≤ N - 1 := by
  intro row hrow
  obtain ⟨cfg, labels, nf, ss, -, hv, -, hF⟩ := reached_fit h hN (List.ne_nil_of_mem hrow)
  have e := hF.reads.states_eq hp
  subst e
  rw [hF.countersEq, ← hF.clausesEq] at hrow
  obtain ⟨c, hc, hr⟩ := mem_toRows hrow
  have := a.lawful.abs_wf hF.abs c hc
  rcases hr with rfl | rfl
  · exact this.posRange
  · exact this.negRange

/-- The hypotheses hold of a trained estimator whose counters use the whole range below. -/
example : IntParam Toy.bc.params "number_of_states" 3 ∧
    Algo.bitwise.counters Toy.bc = [[0, 0, -2], [-1, 0, -1], [-1, -1, -2], [0, -2, -1], [-1, -1, -1], [-3, -3, -1],
      [0, -1, -2], [-2, -1, -2], [0, -1, 0], [-1, -1, -1], [-2, -3, 0], [-1, -1, -3]] := by
  constructor
  · show Params.get? _ _ = _; decide +kernel
  · decide +kernel


/-- **C01**, the excluded case: a bitwise classifier with number_of_states = 1 is accepted by the
factory and leaves the range [-1, 0]. -/
theorem C01_bitwise_one_state_violates : ∃ (env : Env) (st : EstState bitwise env),
    Reached .bitwise .classifier st ∧ IntParam st.params "number_of_states" 1 ∧
    ∃ row ∈ Algo.bitwise.counters st, ∃ c ∈ row, ¬ (-1 ≤ c ∧ c ≤ 0) := by
  refine ⟨Toy.env, _, Toy.oneState_reached0, ?_, ?_⟩
  · show Params.get? _ _ = _; decide +kernel
  · decide +kernel

/-! ### C03 -/

/-- **C03**: every effective weight (stored weight + 1) lies in [1, max_weight]; a weighted
estimator has one weight per clause, an unweighted one has none. -/
theorem C03_weights (h : Reached a k st) (hN : StatesOk a st.params) {M : Int} {w : Bool}
    (hM : IntParam st.params "max_weight" M) (hw : st.params.get? "weighted" = some (.bool w)) :
    (∀ v ∈ st.ta.weights, 1 ≤ (v : Int) + 1 ∧ (v : Int) + 1 ≤ M) ∧
    st.ta.weights.length = if w then (a.clauses st).length else 0 := by
  obtain ⟨cfg, ss, -, hv, -, hU | ⟨labels, nf, hF⟩⟩ := Reached.sim h hN
  · have : (a.clauses st) = [] := by
      unfold Algo.clauses Algo.counters; rw [hU.cnt]; rfl
    rw [hU.w, this]
    simp
  · have e1 : M = cfg.maxWeight := by
      unfold IntParam at hM; rw [hF.reads.maxWeight] at hM; cases hM; rfl
    have e2 : w = cfg.weighted := by rw [hF.reads.weighted] at hw; cases hw; rfl
    subst e1 e2
    rw [hF.w]
    refine ⟨fun v hv => ⟨by omega, hF.wmax v hv⟩, ?_⟩
    rw [hF.wlen, ← hF.clausesEq, hF.len]

example : IntParam Toy.cr.params "max_weight" 3 ∧ Toy.cr.params.get? "weighted" = some (.bool true) ∧
    Toy.cr.ta.weights = [0, 1] := by
  refine ⟨?_, ?_, ?_⟩
  · show Params.get? _ _ = _; decide +kernel
  · decide +kernel
  · decide +kernel

/-! ### C23 -/

/-- **C23**: the polarity bits of a bitwise estimator mirror its counters, and all other bits
of a polarity row are 0. -/
theorem C23_polarity {st : EstState bitwise env} (h : Reached .bitwise k st)
    (hN : StatesOk .bitwise st.params) :
    (st.ta.mat : PMatrix).pol.length = (Algo.bitwise.counters st).length ∧
    ∀ (i : Nat) (row : List Int), (Algo.bitwise.counters st)[i]? = some row →
      ∃ p, (st.ta.mat : PMatrix).pol[i]? = some p ∧ Mirrors row p := by
  by_cases hf : Fitted .bitwise st
  · obtain ⟨cfg, labels, nf, ss, -, hv, -, hF⟩ := reached_fit h hN hf
    have hb : BitAbs cfg.ct cfg.states nf st.ta.mat ss.clauses := hF.abs
    refine ⟨hb.polLen, fun i row hr => ?_⟩
    obtain ⟨p, h1, -, h2⟩ := hb.pol i row hr
    exact ⟨p, h1, h2⟩
  · obtain ⟨cfg, ss, -, hv, -, hU⟩ := reached_unfit h hN hf
    have hc : Algo.bitwise.counters st = [] := Classical.not_not.1 hf
    rw [hc, hU.mat]
    exact ⟨rfl, by simp⟩

/-- A polarity row of a trained estimator that mirrors a row with included and excluded literals. -/
example : (Algo.bitwise.counters Toy.bc)[8]? = some [0, -1, 0] ∧
    ((Toy.bc.ta.mat : PMatrix).pol[8]?).map (·.take 2) = some [5#64, 0#64] := by
  constructor <;> decide +kernel

/-- **C23**, the excluded case: with number_of_states = 1 a polarity bit can end up differing
from its counter. -/
theorem C23_one_state_violates : ∃ (env : Env) (st : EstState bitwise env),
    Reached .bitwise .classifier st ∧ IntParam st.params "number_of_states" 1 ∧
    ∃ (i : Nat) (row : List Int) (p : List Block), (Algo.bitwise.counters st)[i]? = some row ∧
      (st.ta.mat : PMatrix).pol[i]? = some p ∧ ¬ Mirrors row p := by
  refine ⟨Toy.env, _, Toy.oneState_reached6, ?_, ?_⟩
  · show Params.get? _ _ = _; decide +kernel
  · refine ⟨0, [0, 0, -1], 6#64 :: List.replicate 7 0#64, by decide +kernel, by decide +kernel, fun h => ?_⟩
    obtain ⟨c, h1, h2⟩ := (h 2).1 (by decide +kernel)
    cases h1
    exact absurd h2 (by decide)

/-! ### C42 -/

/-- **C42**: there are `labels * k` clauses, `k` for each label, every clause belongs to exactly
one label, and half of each label's clauses vote for it (even index), half against it. -/
theorem C42_clause_ranges (h : Reached a .classifier st) (hN : StatesOk a st.params) (hf : Fitted a st)
    {labels clauses : Int} (hl : IntParam st.params "number_of_labels" labels)
    (hc : IntParam st.params "number_of_clauses_per_label" clauses) {k : Nat} (hk : k = (clauses / 2).toNat) :
    1 ≤ labels ∧ 0 < k ∧ (a.clauses st).length = labels * k ∧
    (∀ o, o < (a.clauses st).length → ∃ l : Nat, l < labels ∧ l * k ≤ o ∧ o < l * k + k ∧
      ∀ l', l' * k ≤ o → o < l' * k + k → l' = l) ∧
    ∀ l : Nat, ((List.range' (l * k) k).filter fun o => o % 2 = 0).length =
      ((List.range' (l * k) k).filter fun o => o % 2 = 1).length := by
  obtain ⟨cfg, L, nf, ss, h1, hv, h2, hF⟩ := reached_fit h hN hf
  have e2 := hF.labelsC h1 hl
  have e4 : clauses = cfg.clauses := hF.reads.clausesC (by rw [h1]; exact hc)
  subst e2 e4
  have hkk : k = cfg.k := hk
  subst hkk
  have hkp := hv.k_pos
  have hlen := hF.len
  rw [hF.clausesEq] at hlen
  refine ⟨by have := hF.pos; omega, hkp, by rw [hlen]; push_cast; rfl, ?_, ?_⟩
  · intro o ho
    rw [hlen] at ho
    have hd := Nat.div_add_mod o cfg.k
    have hm := Nat.mod_lt o hkp
    refine ⟨o / cfg.k, ?_, ?_, ?_, ?_⟩
    · have := Nat.div_lt_of_lt_mul (Nat.mul_comm L cfg.k ▸ ho)
      omega
    · rw [Nat.mul_comm]; omega
    · rw [Nat.mul_comm]; omega
    · intro l' a1 a2
      rw [← Nat.succ_mul] at a2
      have b1 := (Nat.le_div_iff_mul_le hkp).2 a1
      have b2 := (Nat.div_lt_iff_lt_mul hkp).2 a2
      omega
  · intro l
    have hev := hv.k_even h1
    generalize l * cfg.k = s
    obtain ⟨m, hm⟩ : ∃ m, cfg.k = 2 * m := ⟨cfg.k / 2, by omega⟩
    rw [hm]
    clear hm
    induction m generalizing s with
    | zero => rfl
    | succ m ih =>
      rw [show 2 * (m + 1) = 2 * m + 1 + 1 by omega, List.range'_succ, List.range'_succ]
      have := ih (s + 1 + 1)
      rcases Nat.mod_two_eq_zero_or_one s with e | e
      · have e' : (s + 1) % 2 = 1 := by omega
        simp only [List.filter_cons, e, e']
        simpa using this
      · have e' : (s + 1) % 2 = 0 := by omega
        simp only [List.filter_cons, e, e']
        simpa using this

example : IntParam Toy.cc.params "number_of_labels" 3 ∧ (Algo.classic.clauses Toy.cc).length = 6 := by
  constructor
  · show Params.get? _ _ = _; decide +kernel
  · decide +kernel

/-! ### C43 -/

/-- **C43**: every partial sum of the votes of consecutive clauses, whatever the clause outputs, stays
far inside `int64_t`; so does every partial sum of a regressor's. -/
theorem C43_votes_fit (h : Reached a k st) (hN : StatesOk a st.params) (out : Nat → Bool) (b n : Nat)
    (hn : n ≤ (a.clauses st).length) :
    (-2^62 < ((List.range' b n).map fun o => vote st.ta.weights o (out o)).sum ∧
      ((List.range' b n).map fun o => vote st.ta.weights o (out o)).sum < 2^62) ∧
    (0 ≤ ((List.range' b n).map fun o => if out o then weight st.ta.weights o else 0).sum ∧
      ((List.range' b n).map fun o => if out o then weight st.ta.weights o else 0).sum < 2^62) := by
  have hw : WOk 0 st.ta.weights ∧ (a.clauses st).length ≤ 1073741823 := by
    obtain ⟨cfg, ss, -, hv, -, hU | ⟨labels, nf, hF⟩⟩ := Reached.sim h hN
    · have : (a.clauses st) = [] := by
        unfold Algo.clauses Algo.counters; rw [hU.cnt]; rfl
      rw [hU.w, this]
      exact ⟨⟨.inl rfl, by simp⟩, by simp⟩
    · have := hF.small' hv
      rw [← hF.clausesEq, hF.len]
      exact ⟨⟨.inr (Nat.zero_le _), by rw [hF.w]; exact (hF.wok hv).small⟩, this⟩
  obtain ⟨hw, hlen⟩ := hw
  have key : ∀ (l : List Nat), (-(2147483647 * l.length) ≤ (l.map fun o => vote st.ta.weights o (out o)).sum ∧
      (l.map fun o => vote st.ta.weights o (out o)).sum ≤ 2147483647 * l.length) ∧
      (0 ≤ (l.map fun o => if out o then weight st.ta.weights o else 0).sum ∧
      (l.map fun o => if out o then weight st.ta.weights o else 0).sum ≤ 2147483647 * l.length) := by
    intro l
    induction l with
    | nil => simp
    | cons o l ih =>
      have h1 := vote_range hw o (out o)
      have h2 := hw.weight_range o
      simp only [List.map_cons, List.sum_cons, List.length_cons]
      push_cast
      constructor
      · omega
      · split <;> omega
  have := key (List.range' b n)
  rw [List.length_range'] at this
  omega

/-! ### C50 -/

/-- **C50**: feedback entries left in the cache are -1, 0 or 1, cached scores are in [-T, T], and the
caches have the sizes the model needs. (Clause outputs are truth values by construction of the
model.) -/
theorem C50_cache_alphabets (h : Reached a k st) (hN : StatesOk a st.params) {T : Int}
    (hT : IntParam st.params "threshold" T) :
    (∀ f ∈ st.cache.feedback, f = -1 ∨ f = 0 ∨ f = 1) ∧ (∀ s ∈ st.cache.labelSum, -T ≤ s ∧ s ≤ T) ∧
    (Fitted a st → st.cache.clauseOutput.length = (a.clauses st).length) := by
  obtain ⟨cfg, ss, -, hv, -, hU | ⟨labels, nf, hF⟩⟩ := Reached.sim h hN
  · refine ⟨by rw [hU.fb]; simp, by rw [hU.ls]; simp, fun hf => absurd hU.cnt hf⟩
  · have e3 := hF.reads.TC hT
    subst e3
    exact ⟨hF.fbRange, hF.lsRange, fun _ => by rw [hF.coLen, ← hF.clausesEq, hF.len]⟩

example : Toy.cc.cache.feedback.length = 6 ∧ (∃ f ∈ Toy.cc.cache.feedback, f ≠ 0) ∧
    ∃ s ∈ Toy.cc.cache.labelSum, s ≠ 0 := by
  refine ⟨?_, ?_, ?_⟩ <;> decide +kernel

end Tsetlini
