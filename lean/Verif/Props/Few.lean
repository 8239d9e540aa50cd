import Verif.Lemmas.Few
import Verif.Props.Express
import Verif.Props.Symmetry
/- C88: what estimators with few clauses cannot express. -/
namespace Tsetlini
open Res Spec

variable {a : Algo} {env : Env} {k : Kind} {n L W : Nat}

/-- `m` is what the model `l` says. -/
def SaysCode (m : ModelCode n L W) (l : Learned) : Prop :=
  ∀ o : Fin L, ∃ c, l.clauses[o.1]? = some c ∧ c.pos.length = n ∧ c.neg.length = n ∧
    (∀ (f : Fin n) (b : Bool), (if b then ((m o).1 f).1 else ((m o).1 f).2) = true ↔ c.Has f b) ∧ weight l.weights o = 1 + ((m o).2.1 : Int)

/-- Two models that say the same. -/
theorem SaysCode.rules {m : ModelCode n L W} {l₁ l₂ : Learned} (h₁ : SaysCode m l₁) (h₂ : SaysCode m l₂) {q labels l : Nat} (hL : L = labels * q) (hl : l < labels) :
    SameRules (fun f => (f, false)) q l₁ l₂ l l id := by
  have hlt : ∀ i, Owns q l i → i < L := by
    intro i hi
    have h1 : (l + 1) * q ≤ labels * q := Nat.mul_le_mul_right q hl
    rw [Nat.succ_mul] at h1
    have := hi.2
    omega
  have hh : ∀ i, Owns q l i → ∀ c₁ c₂, l₁.clauses[i]? = some c₁ → l₂.clauses[i]? = some c₂ → ∀ f b, c₁.Has f b ↔ c₂.Has f b := by
    intro i hi c₁ c₂ e₁ e₂ f b
    obtain ⟨d₁, g₁, p₁, n₁, i₁, -⟩ := h₁ ⟨i, hlt i hi⟩
    obtain ⟨d₂, g₂, p₂, n₂, i₂, -⟩ := h₂ ⟨i, hlt i hi⟩
    rw [e₁] at g₁
    rw [e₂] at g₂
    cases g₁
    cases g₂
    constructor
    · intro h
      have hf := has_lt p₁ n₁ h
      exact (i₂ ⟨f, hf⟩ b).1 ((i₁ ⟨f, hf⟩ b).2 h)
    · intro h
      have hf := has_lt p₂ n₂ h
      exact (i₁ ⟨f, hf⟩ b).1 ((i₂ ⟨f, hf⟩ b).2 h)
  refine ⟨fun i hi => hi, fun i j _ _ e => e, fun i hi => ?_, fun i hi => ?_⟩
  · obtain ⟨d₁, g₁, p₁, n₁, i₁, w₁⟩ := h₁ ⟨i, hlt i hi⟩
    obtain ⟨d₂, g₂, p₂, n₂, i₂, w₂⟩ := h₂ ⟨i, hlt i hi⟩
    show weight l₂.weights i = weight l₁.weights i
    exact w₂.trans w₁.symm
  · obtain ⟨c₁, g₁, -⟩ := h₁ ⟨i, hlt i hi⟩
    obtain ⟨c₂, g₂, -⟩ := h₂ ⟨i, hlt i hi⟩
    refine ⟨c₁, c₂, g₁, g₂, fun f b h => ?_, fun f b h => ⟨f, b, (hh i hi c₁ c₂ g₁ g₂ f b).2 h, rfl, by simp⟩⟩
    have := (hh i hi c₁ c₂ g₁ g₂ f b).1 h
    simpa using this

/-- Every trained model says something. -/
theorem saysCode {st : EstState a.backend env} (h : Reached a k st) (hN : StatesOk a st.params) (hf : Fitted a st) {labels n C M : Nat} {b : Bool}
    (hl : (k = .classifier → IntParam st.params "number_of_labels" labels) ∧ (k = .regressor → labels = 1))
    (hn : IntParam st.params "number_of_features" n) (hC : IntParam st.params (clauseParam k) C) (hM : IntParam st.params "max_weight" M)
    (hb : st.params.get? "weighted" = some (.bool b)) :
    ∃ m : ModelCode n (labels * (C / 2)) (if b then M else 1), SaysCode m (a.learned st) := by
  obtain ⟨cfg, L, nf, ss, hk, hv, -, hF⟩ := reached_fit h hN hf
  subst hk
  have e1 : n = nf := by have := intParam_unique hn hF.featP; omega
  have e2 : labels = L := by
    cases hkind : cfg.kind with
    | classifier =>
      have := intParam_unique (hl.1 hkind) (hF.labelsP hkind)
      omega
    | regressor => rw [hl.2 hkind, hF.reg1 hkind]
  have e3 : C / 2 = cfg.k := by
    have := intParam_unique hC hF.reads.clauses
    have := hv.two_k
    omega
  have e4 : (M : Int) = cfg.maxWeight := intParam_unique hM hF.reads.maxWeight
  have e5 : b = cfg.weighted := by
    have := hF.reads.weighted
    rw [hb] at this
    simpa using this
  have hlen : (a.clauses st).length = labels * (C / 2) := by rw [← hF.clausesEq, hF.len, e2, e3]
  have wf := a.lawful.abs_wf hF.abs
  rw [hF.clausesEq] at wf
  have hW : ∀ o, st.ta.weights.getD o 0 < if b then M else 1 := by
    intro o
    rw [List.getD_eq_getElem?_getD]
    match hw : st.ta.weights[o]? with
    | none =>
      have := hv.maxWeight
      show 0 < _
      split <;> omega
    | some w =>
      have hm := List.mem_of_getElem? hw
      show w < _
      split
      · rw [hF.w] at hm
        have := hF.wmax w hm
        omega
      · rename_i hne
        have := hF.wlen
        rw [← e5, if_neg hne, ← hF.w] at this
        rw [List.eq_nil_of_length_eq_zero this] at hm
        cases hm
  classical
  refine ⟨fun o => (fun f => (decide (((a.clauses st)[o.1]'(by rw [hlen]; exact o.2)).Has f true), decide (((a.clauses st)[o.1]'(by rw [hlen]; exact o.2)).Has f false)),
    ⟨_, hW o.1⟩), fun o => ?_⟩
  have ho : o.1 < (a.clauses st).length := by rw [hlen]; exact o.2
  have w := wf _ (List.getElem_mem ho)
  refine ⟨(a.clauses st)[o.1], List.getElem?_eq_getElem ho, w.posLen.trans e1.symm, w.negLen.trans e1.symm, fun f b => ?_, rfl⟩
  cases b
  · exact decide_eq_true_iff
  · exact decide_eq_true_iff

/-- A value for which `P` holds, if there is any. -/
noncomputable def chosen {R : Nat} (hR : 0 < R) (P : Fin R → Prop) : Fin R := open Classical in if h : ∃ v, P v then h.choose else ⟨0, hR⟩

theorem chosen_eq {R : Nat} (hR : 0 < R) {P : Fin R → Prop} {v : Fin R} (hv : P v) (hu : ∀ w, P w → w = v) : chosen hR P = v := by
  unfold chosen
  have h : ∃ v, P v := ⟨v, hv⟩
  rw [dif_pos h]
  exact hu _ h.choose_spec

theorem same_sample {cl : List Clause} {x : List Bool} : SameSample (fun f => (f, false)) cl x x := by
  intro c _ f b _
  simp

/-- **C88**: with few clauses there are functions no estimator can express, whatever it has been trained with: if there are fewer models - for each clause a set of literals and a weight -
than functions from samples to labels, then there is a function such that every trained classifier with these settings, of either family, with any generators and
any history, predicts something else for some sample. -/
theorem C88_classifier {labels n T C M : Nat} {b : Bool} (hfew : (4 ^ n * if b then M else 1) ^ (labels * (C / 2)) < labels ^ (2 ^ n)) :
    ∃ f : List Bool → Nat, (∀ x, x.length = n → f x < labels) ∧
      ∀ (env : Env) (a : Algo) (st : EstState a.backend env), Reached a .classifier st → StatesOk a st.params → Fitted a st →
        IntParam st.params "threshold" T → IntParam st.params "number_of_clauses_per_label" C → IntParam st.params "max_weight" M →
        st.params.get? "weighted" = some (.bool b) → IntParam st.params "number_of_labels" labels → IntParam st.params "number_of_features" n →
        ∃ x : List Bool, x.length = n ∧ ∀ (x' : a.Sample), a.Built x' → a.Good x' → a.backend.size x' = n → a.bits x' = x →
          ∀ sc : Sched, ∃ v : Nat, Gives (predictClassifier1 a.backend env sc st x') v ∧ v ≠ f x := by
  by_cases hR : 0 < labels
  · let P (m : ModelCode n (labels * (C / 2)) (if b then M else 1)) (i : Fin (2 ^ n)) (v : Fin labels) : Prop :=
      ∃ (env : Env) (a : Algo) (st : EstState a.backend env) (x' : a.Sample) (sc : Sched), Reached a .classifier st ∧ StatesOk a st.params ∧ Fitted a st ∧
        IntParam st.params "threshold" T ∧ IntParam st.params "number_of_clauses_per_label" C ∧ IntParam st.params "number_of_labels" labels ∧
        SaysCode m (a.learned st) ∧ a.Built x' ∧ a.bits x' = sampleOf n i ∧ Gives (predictClassifier1 a.backend env sc st x') (v.1 : Int)
    obtain ⟨F, hF⟩ := few_models hfew fun m i => chosen hR (P m i)
    refine ⟨fun x => if h : x.length = n then F ⟨sampleNo x, by have := sampleNo_lt x; rw [h] at this; exact this⟩ else 0, fun x hx => ?_, ?_⟩
    · dsimp only
      rw [dif_pos hx]
      exact Fin.isLt _
    · intro env a st h hN hf hT hC hM hb hl hn
      obtain ⟨m, hm⟩ := saysCode h hN hf ⟨fun _ => hl, fun e => by cases e⟩ hn hC hM hb
      have hne : ∃ i, chosen hR (P m i) ≠ F i := Classical.byContradiction fun hc =>
        hF m (funext fun i => Classical.byContradiction fun e => hc ⟨i, e⟩)
      obtain ⟨i, hi⟩ := hne
      refine ⟨sampleOf n i, sampleOf_length n i, fun x' hx hg hs hbits sc => ?_⟩
      obtain ⟨scores, g1, g2, g3, -⟩ := C07_decision h hN hf hT hl hC hn hx hg (by rw [hs]) sc
      obtain ⟨v, v1, -, v3⟩ := C08_predict h hN hl hx sc sc g1
      have hv : v < labels := by omega
      refine ⟨v, v1, fun e => hi ?_⟩
      dsimp only at e
      rw [dif_pos (sampleOf_length n i)] at e
      have e' : v = F i := by
        rw [e]
        congr 2
        exact Fin.ext (sampleNo_sampleOf n i i.2)
      rw [chosen_eq hR (v := ⟨v, hv⟩) ⟨env, a, st, x', sc, h, hN, hf, hT, hC, hl, hm, hx, hbits, v1⟩ ?_]
      · exact Fin.ext e'
      · rintro w ⟨env', a', st', x'', sc', r1, r2, r3, r4, r5, r6, r7, r8, r9, r10⟩
        have := C85_predict (τ := fun f => (f, false)) r1 r2 r3 h hN hf r4 hT r5 hC r6 hl r8 hx (by rw [r9, hbits]; exact same_sample)
          (fun l hl => ⟨id, r7.rules hm (by rw [show ((C : Int) / 2).toNat = C / 2 by omega]) hl, fun i _ => rfl⟩) r10 v1
        exact Fin.ext (by show w.1 = v; omega)
  · refine ⟨fun _ => 0, fun x _ => ?_, ?_⟩
    · exfalso
      have : labels = 0 := by omega
      subst this
      rw [Nat.zero_pow (Nat.two_pow_pos n)] at hfew
      omega
    · intro env a st h hN hf hT hC hM hb hl hn
      exfalso
      have : labels = 0 := by omega
      subst this
      rw [Nat.zero_pow (Nat.two_pow_pos n)] at hfew
      omega

/-- **C88** for regressors, and functions from samples to responses of 0 to threshold. -/
theorem C88_regressor {n T C M : Nat} {b : Bool} (hfew : (4 ^ n * if b then M else 1) ^ (C / 2) < (T + 1) ^ (2 ^ n)) :
    ∃ f : List Bool → Nat, (∀ x, x.length = n → f x ≤ T) ∧
      ∀ (env : Env) (a : Algo) (st : EstState a.backend env), Reached a .regressor st → StatesOk a st.params → Fitted a st →
        IntParam st.params "threshold" T → IntParam st.params "number_of_regressor_clauses" C → IntParam st.params "max_weight" M →
        st.params.get? "weighted" = some (.bool b) → IntParam st.params "number_of_features" n →
        ∃ x : List Bool, x.length = n ∧ ∀ (x' : a.Sample), a.Built x' → a.Good x' → a.backend.size x' = n → a.bits x' = x →
          ∀ sc : Sched, ∃ v : Nat, Gives (predictRegressor1 a.backend env sc st x') v ∧ v ≠ f x := by
  have hR : 0 < T + 1 := Nat.succ_pos T
  have hfew : (4 ^ n * if b then M else 1) ^ (1 * (C / 2)) < (T + 1) ^ (2 ^ n) := by rw [Nat.one_mul]; exact hfew
  let P (m : ModelCode n (1 * (C / 2)) (if b then M else 1)) (i : Fin (2 ^ n)) (v : Fin (T + 1)) : Prop :=
    ∃ (env : Env) (a : Algo) (st : EstState a.backend env) (x' : a.Sample) (sc : Sched), Reached a .regressor st ∧ StatesOk a st.params ∧ Fitted a st ∧
      IntParam st.params "threshold" T ∧ IntParam st.params "number_of_regressor_clauses" C ∧
      SaysCode m (a.learned st) ∧ a.Built x' ∧ a.bits x' = sampleOf n i ∧ Gives (predictRegressor1 a.backend env sc st x') (v.1 : Int)
  obtain ⟨F, hF⟩ := few_models hfew fun m i => chosen hR (P m i)
  refine ⟨fun x => if h : x.length = n then F ⟨sampleNo x, by have := sampleNo_lt x; rw [h] at this; exact this⟩ else 0, fun x hx => ?_, ?_⟩
  · dsimp only
    rw [dif_pos hx]
    have := (F ⟨sampleNo x, by have := sampleNo_lt x; rw [hx] at this; exact this⟩).isLt
    omega
  · intro env a st h hN hf hT hC hM hb hn
    obtain ⟨m, hm⟩ := saysCode h hN hf (labels := 1) ⟨(fun e => by cases e), fun _ => rfl⟩ hn hC hM hb
    have hne : ∃ i, chosen hR (P m i) ≠ F i := Classical.byContradiction fun hc =>
      hF m (funext fun i => Classical.byContradiction fun e => hc ⟨i, e⟩)
    obtain ⟨i, hi⟩ := hne
    refine ⟨sampleOf n i, sampleOf_length n i, fun x' hx hg hs hbits sc => ?_⟩
    obtain ⟨v1, v2, v3⟩ := C09_predict h hN hf hT hC hn hx hg (by rw [hs]) sc
    obtain ⟨v, hv⟩ := Int.eq_ofNat_of_zero_le v2
    rw [hv] at v1 v3
    refine ⟨v, v1, fun e => hi ?_⟩
    dsimp only at e
    rw [dif_pos (sampleOf_length n i)] at e
    have e' : v = F i := by
      rw [e]
      congr 2
      exact Fin.ext (sampleNo_sampleOf n i i.2)
    rw [chosen_eq hR (v := ⟨v, by omega⟩) ⟨env, a, st, x', sc, h, hN, hf, hT, hC, hm, hx, hbits, v1⟩ ?_]
    · exact Fin.ext e'
    · rintro w ⟨env', a', st', x'', sc', r1, r2, r3, r4, r5, r7, r8, r9, r10⟩
      have := C85_response (τ := fun f => (f, false)) (σ := id) r1 r2 r3 h hN hf r4 hT r5 hC r8 hx (by rw [r9, hbits]; exact same_sample)
        (r7.rules hm (labels := 1) (by omega) (by omega)) r10 v1
      exact Fin.ext (by show w.1 = v; omega)

/-- The number of clauses is what the theorem is about: it says something of classifiers with the least number of clauses, without weights, for eight features and two labels. -/
example : (4 ^ 8 * if false = true then 0 else 1) ^ (2 * (4 / 2)) < 2 ^ 2 ^ 8 ∧ (4 ^ 7 * if true = true then 2 else 1) ^ (4 / 2) < (2 + 1) ^ 2 ^ 7 := by decide +kernel

/-- There are such classifiers. -/
example (f : Toy.env.F) (g : Toy.env.G) : ∃ st : EstState Algo.classic.backend Toy.env, Reached .classic .classifier st ∧ StatesOk .classic st.params ∧ Fitted .classic st ∧
    IntParam st.params "number_of_clauses_per_label" (4 : Nat) ∧ IntParam st.params "number_of_labels" (2 : Nat) ∧ IntParam st.params "number_of_features" (8 : Nat) ∧
    st.params.get? "weighted" = some (.bool false) ∧ IntParam st.params "threshold" (1 : Nat) ∧ IntParam st.params "max_weight" (2147483647 : Nat) := by
  have hm : Made .classifier (Toy.made (Toy.stuckC 14)) := Toy.made_of (Toy.stuckC 14) (by constructor <;> decide +kernel) (by decide +kernel)
  have hC : IntParam (Toy.made (Toy.stuckC 14)) (clauseParam .classifier) 4 := by show Params.get? _ _ = _; decide +kernel
  have hM := modelOf_cells hm (labels := 2) (n := 8) (cl := tableOf 8 2 2 fun _ => 0) (by decide) (fun h => by cases h) hC (by decide) (fun c hc => by
    obtain ⟨o, -, rfl⟩ := List.mem_map.1 hc
    exact cell_row (sampleOf_length 8 _) _) (by decide) (by decide)
  obtain ⟨js, h⟩ := C80_any_model .classic Toy.gio_faithful hm (Toy.floats_of (by decide +kernel)) hM g f
  obtain ⟨st, -, r1, r2, -, -, -, -, r3, r4, r5⟩ := h Toy.cc
  have get : ∀ key, key ∉ sizeParams .classifier → st.params.get? key = (Toy.made (Toy.stuckC 14)).get? key := r5
  refine ⟨st, r1, ?_, r2, ?_, r3 rfl, r4, ?_, ?_, ?_⟩
  · refine Toy.statesOk_of (N := 3) ?_ (by decide)
    rw [get _ (by decide)]; decide +kernel
  all_goals (try unfold IntParam); rw [get _ (by decide)]; decide +kernel

end Tsetlini
