import Verif.Lemmas.Reference
import Verif.Props.Training
/-
C52: training is the reference algorithm of Spec/Reference, driven by the two generators.
-/
namespace Tsetlini
open Res Spec

variable {a : Algo} {env : Env} {st st' : EstState a.backend env} {X : List a.Sample} {y : List Int} {ml : Int} {ep : Nat}
  {sc : Sched} {s : Status} {H : Settings} {R : RegSettings}

/-! ### helpers -/

theorem Fit.traineeEq {cfg : Cfg} {labels nf : Nat} {ss : SState env} (h : Fit a.lawful cfg labels nf st ss) : a.trainee st = ss.trainee := by
  unfold Algo.trainee SState.trainee
  rw [h.learnedEq, h.igen, h.fgen]

theorem Reads.regSettings {p : Params} {cfg : Cfg} (h : Reads p cfg) (hk : cfg.kind = .regressor) (hR : HasRegSettings p R) : R = cfg.regSettings := by
  have e1 := hR.boxMuller.symm.trans (h.boxMuller hk)
  have e2 := hR.loss.symm.trans (h.loss hk)
  have e3 := hR.C1.symm.trans (h.C1 hk)
  cases R
  simp at e1 e2 e3
  subst e1 e2 e3
  rfl

theorem Sim.readsOf {cfg : Cfg} {ss : SState env} (h : Sim a.lawful cfg st ss) : Reads st.params cfg := by
  rcases h with h | ⟨_, _, h⟩
  · exact h.reads
  · exact h.reads

theorem Sim.weightsOf {cfg : Cfg} {ss : SState env} (h : Sim a.lawful cfg st ss) : st.ta.weights = ss.weights := by
  rcases h with h | ⟨_, _, h⟩
  · rw [h.w, h.sw]
  · exact h.w

/-! ### C52 -/

/-- **C52** (fit): the clauses, the weights and the states of both generators after a successful fit of a classifier are
those of the reference algorithm, started from the seed. -/
theorem C52_fit (h : Reached a .classifier st) (hN : StatesOk a st.params) (ht : DataTyped a X y)
    (hH : HasSettings .classifier st.params H) {seed : BitVec 32} {weighted : Bool}
    (hs : st.params.get? "random_state" = some (.seed seed)) (hw : st.params.get? "weighted" = some (.bool weighted))
    (hr : fitClassifier a.backend env sc st X y ml ep = .ok (st', s)) (hc : s.code = .ok)
    {labels n : Nat} (hl : IntParam st'.params "number_of_labels" labels) (hn : IntParam st'.params "number_of_features" n) :
    ∃ u₀, Started env seed weighted (labels * H.k) n st.ta.weights u₀ ∧
      Chain (fun (_ : Nat) => RefEpoch a env H n labels X y) (List.range ep) u₀ (a.trainee st') := by
  obtain ⟨cfg, ss, h1, hv, h2, hS⟩ := Reached.sim h hN
  have e := hS.settingsEq h1 hH
  subst e
  obtain ⟨L, nf, ss', -, -, hF, -, hd, htr, hi⟩ := fit_call hv h1 h2 ht.typed hS hr hc
  have e1 := hF.labelsC h1 hl
  have e2 := hF.featC hn
  have e1 : labels = L := by omega
  have e2 : n = nf := by omega
  subst e1 e2
  have es : seed = cfg.seed := by have := hs.symm.trans hS.readsOf.seed; simpa using this
  have ew : weighted = cfg.weighted := by have := hw.symm.trans hS.readsOf.weighted; simpa using this
  subst es ew
  rw [hF.traineeEq, hS.weightsOf]
  exact ⟨_, initS_started cfg labels n ss.weights,
    epochs_exact hv hF.nfSmall htr (hF.small' hv) hd (initClauses_length env n (labels * cfg.k) (env.seedG cfg.seed)) hi⟩

/-- **C52** (partial_fit on a fitted classifier): the same, from where the estimator was. -/
theorem C52_partial_fit (h : Reached a .classifier st) (hN : StatesOk a st.params) (hf : Fitted a st) (ht : DataTyped a X y)
    (hH : HasSettings .classifier st.params H)
    (hr : partialFitClassifier a.backend env sc st X y ml ep = .ok (st', s)) (hc : s.code = .ok)
    {labels n : Nat} (hl : IntParam st.params "number_of_labels" labels) (hn : IntParam st.params "number_of_features" n) :
    Chain (fun (_ : Nat) => RefEpoch a env H n labels X y) (List.range ep) (a.trainee st) (a.trainee st') := by
  obtain ⟨cfg, L, nf, ss, h1, hv, h2, hF⟩ := reached_fit h hN hf
  have e := hF.settingsEq h1 hH
  have e1 := hF.labelsC h1 hl
  have e2 := hF.featC hn
  have e1 : labels = L := by omega
  have e2 : n = nf := by omega
  subst e e1 e2
  obtain ⟨ss', hF', -, hd, htr, -, hi⟩ := refit_call hv h1 h2 ht.typed hF hr hc
  rw [hF.traineeEq, hF'.traineeEq]
  exact epochs_exact hv hF.nfSmall htr (hF.small' hv) hd hF.len hi

/-- **C52** for regressors (fit). -/
theorem C52_fit_regressor (h : Reached a .regressor st) (hN : StatesOk a st.params) (ht : DataTyped a X y)
    (hH : HasSettings .regressor st.params H) (hR : HasRegSettings st.params R) {seed : BitVec 32} {weighted : Bool}
    (hs : st.params.get? "random_state" = some (.seed seed)) (hw : st.params.get? "weighted" = some (.bool weighted))
    (hr : fitRegressor a.backend env sc st X y ep = .ok (st', s)) (hc : s.code = .ok)
    {n : Nat} (hn : IntParam st'.params "number_of_features" n) :
    ∃ u₀, Started env seed weighted H.k n st.ta.weights u₀ ∧
      Chain (fun (_ : Nat) => RefEpochR a env H R n X y) (List.range ep) u₀ (a.trainee st') := by
  obtain ⟨cfg, ss, h1, hv, h2, hS⟩ := Reached.sim h hN
  have e := hS.settingsEq h1 hH
  have eR := hS.readsOf.regSettings h1 hR
  subst e eR
  obtain ⟨nf, ss', -, hF, -, hd, hi⟩ := fitR_call hv h1 h2 ht.typed hS hr hc
  have e2 := hF.featC hn
  have e2 : n = nf := by omega
  subst e2
  have es : seed = cfg.seed := by have := hs.symm.trans hS.readsOf.seed; simpa using this
  have ew : weighted = cfg.weighted := by have := hw.symm.trans hS.readsOf.weighted; simpa using this
  subst es ew
  rw [hF.traineeEq, hS.weightsOf]
  have hlen := initClauses_length env n (1 * cfg.k) (env.seedG cfg.seed)
  have st0 := initS_started (env := env) cfg 1 n ss.weights
  have e : cfg.settings.k = 1 * cfg.k := (Nat.one_mul _).symm
  rw [e]
  exact ⟨_, st0, regEpochs_exact hv h1 hF.nfSmall hd (by rw [← Nat.one_mul cfg.k]; exact hlen) hi⟩

/-- **C52** for regressors (partial_fit on a fitted estimator). -/
theorem C52_partial_fit_regressor (h : Reached a .regressor st) (hN : StatesOk a st.params) (hf : Fitted a st) (ht : DataTyped a X y)
    (hH : HasSettings .regressor st.params H) (hR : HasRegSettings st.params R)
    (hr : partialFitRegressor a.backend env sc st X y ep = .ok (st', s)) (hc : s.code = .ok)
    {n : Nat} (hn : IntParam st.params "number_of_features" n) :
    Chain (fun (_ : Nat) => RefEpochR a env H R n X y) (List.range ep) (a.trainee st) (a.trainee st') := by
  obtain ⟨cfg, L, nf, ss, h1, hv, h2, hF⟩ := reached_fit h hN hf
  have e := hF.settingsEq h1 hH
  have eR := hF.reads.regSettings h1 hR
  have e2 := hF.featC hn
  have e2 : n = nf := by omega
  have e3 := hF.reg1 h1
  subst e eR e2 e3
  obtain ⟨ss', hF', -, hd, -, hi⟩ := refitR_call hv h1 h2 ht.typed hF hr hc
  rw [hF.traineeEq, hF'.traineeEq]
  exact regEpochs_exact hv h1 hF.nfSmall hd (by rw [hF.len, Nat.one_mul]) hi

/-! ### The reference algorithm has one result -/

theorem Spec.Chain.unique {ι σ : Type} {R : ι → σ → σ → Prop} (hR : ∀ i s s₁ s₂, R i s s₁ → R i s s₂ → s₁ = s₂) {l : List ι} {s s₁ s₂ : σ}
    (h1 : Chain R l s s₁) (h2 : Chain R l s s₂) : s₁ = s₂ := by
  induction h1 with
  | nil => cases h2; rfl
  | cons hr _ ih =>
    cases h2 with
    | cons hr' h2 =>
      have := hR _ _ _ _ hr hr'
      subst this
      exact ih h2

theorem tossed_unique {q : Rat} {n : Nat} {g : env.G} {l l' : List Bool} {g₁ g₂ : env.G} (h : Tossed env q n g l g₁)
    (h' : Tossed env q n g l' g₂) : l = l' ∧ g₁ = g₂ := by
  obtain ⟨i, a1, a2, a3, a4⟩ := h
  obtain ⟨j, b1, b2, b3, b4⟩ := h'
  have e : i = j := by
    rcases Nat.lt_trichotomy i j with h | h | h
    · have := b3 i h; rw [← a1] at this; omega
    · exact h
    · have := a3 j h; rw [← b1] at this; omega
  subst e
  exact ⟨a1.trans b1.symm, a4.trans b4.symm⟩

theorem tossedBoth_unique {q : Rat} {n : Nat} {g : env.G} {p p' q' q'' : List Bool} {g₁ g₂ : env.G} (h : TossedBoth env q n g p q' g₁)
    (h' : TossedBoth env q n g p' q'' g₂) : p = p' ∧ q' = q'' ∧ g₁ = g₂ := by
  obtain ⟨u, h⟩ := h
  obtain ⟨v, h'⟩ := h'
  by_cases hs : env.tossSwap
  · rw [if_pos hs] at h h'
    obtain ⟨e1, rfl⟩ := tossed_unique h.1 h'.1
    obtain ⟨e2, e3⟩ := tossed_unique h.2 h'.2
    exact ⟨e2, e1, e3⟩
  · rw [if_neg hs] at h h'
    obtain ⟨e1, rfl⟩ := tossed_unique h.1 h'.1
    obtain ⟨e2, e3⟩ := tossed_unique h.2 h'.2
    exact ⟨e1, e2, e3⟩

theorem faded_unique {n : Nat} {c c₁ c₂ : Clause} {g g₁ g₂ : env.G} (h : Faded a env H n c g c₁ g₁) (h' : Faded a env H n c g c₂ g₂) :
    c₁ = c₂ ∧ g₁ = g₂ := by
  cases a with
  | classic =>
    obtain ⟨_, _, h1, h2⟩ := h
    obtain ⟨_, _, h1', h2'⟩ := h'
    obtain ⟨rfl, rfl, e⟩ := tossedBoth_unique h1 h1'
    exact ⟨h2.trans h2'.symm, e⟩
  | bitwise => exact ⟨h.1.trans h'.1.symm, h.2.trans h'.2.symm⟩

theorem giveI_unique {n : Nat} {x : List Bool} {i : Nat} {out : Bool} {u u₁ u₂ : Trainee env} (h : GiveI a env H n x i out u u₁)
    (h' : GiveI a env H n x i out u u₂) : u₁ = u₂ := by
  obtain ⟨c, c', g', h1, h2⟩ := h
  obtain ⟨d, d', k', h1', h2'⟩ := h'
  have e : c = d := by have := h1.symm.trans h1'; simpa using this
  subst e
  cases out with
  | true =>
    rw [if_pos rfl] at h2 h2'
    obtain ⟨⟨_, _, a1, a2⟩, a3⟩ := h2
    obtain ⟨⟨_, _, b1, b2⟩, b3⟩ := h2'
    obtain ⟨rfl, rfl, rfl⟩ := tossedBoth_unique a1 b1
    rw [a3, b3, a2, b2]
  | false =>
    rw [if_neg (by decide)] at h2 h2'
    obtain ⟨rfl, rfl⟩ := faded_unique h2.1 h2'.1
    rw [h2.2, h2'.2]

theorem giveII_unique {x : List Bool} {i : Nat} {out : Bool} {u u₁ u₂ : Trainee env} (h : GiveII x i out u u₁)
    (h' : GiveII x i out u u₂) : u₁ = u₂ := by
  obtain ⟨c, h1, h2⟩ := h
  obtain ⟨d, h1', h2'⟩ := h'
  have e : c = d := by have := h1.symm.trans h1'; simpa using this
  subst e
  rw [h2, h2']

theorem refStep_unique {n : Nat} {x : List Bool} {t o : Nat} {u u₁ u₂ : Trainee env} (h : RefStep a env H n x t o u u₁)
    (h' : RefStep a env H n x t o u u₂) : u₁ = u₂ := by
  obtain ⟨v, h1, h2⟩ := h
  obtain ⟨v', h1', h2'⟩ := h'
  have e : v = v' := by
    refine Chain.unique ?_ h1 h1'
    intro i s s₁ s₂ k1 k2
    dsimp only at k1 k2
    split at k1
    · rename_i c
      rw [if_pos c] at k2
      split at k1
      · rename_i c2
        rw [if_pos c2] at k2
        exact giveI_unique k1 k2
      · rename_i c2
        rw [if_neg c2] at k2
        exact giveII_unique k1 k2
    · rename_i c
      rw [if_neg c] at k2
      exact k1.trans k2.symm
  subst e
  refine Chain.unique ?_ h2 h2'
  intro i s s₁ s₂ k1 k2
  dsimp only at k1 k2
  split at k1
  · rename_i c
    rw [if_pos c] at k2
    split at k1
    · rename_i c2
      rw [if_pos c2] at k2
      exact giveII_unique k1 k2
    · rename_i c2
      rw [if_neg c2] at k2
      exact giveI_unique k1 k2
  · rename_i c
    rw [if_neg c] at k2
    exact k1.trans k2.symm

theorem refHits_unique {bm : Bool} {n : Nat} {p : Fl} {g : env.G} {i j : Nat} {g₁ g₂ : env.G} (h : RefHits env bm n p g i g₁)
    (h' : RefHits env bm n p g j g₂) : i = j ∧ g₁ = g₂ := by
  unfold RefHits at h h'
  cases bm with
  | true =>
    rw [if_pos rfl] at h h'
    obtain ⟨v, z, rfl, a1, a2, a3⟩ := h
    obtain ⟨v', z', e, b1, b2, b3⟩ := h'
    cases e
    rw [a1] at b1
    cases b1
    exact ⟨by omega, a3.trans b3.symm⟩
  | false =>
    rw [if_neg (by decide)] at h h'
    cases p with
    | nan => exact ⟨h.1.trans h'.1.symm, h.2.trans h'.2.symm⟩
    | inf b => exact ⟨h.1.trans h'.1.symm, h.2.trans h'.2.symm⟩
    | fin v =>
      dsimp only at h h'
      split at h
      · rename_i c
        rw [if_pos c] at h'
        exact ⟨by omega, h.2.trans h'.2.symm⟩
      · rename_i c
        rw [if_neg c] at h'
        exact ⟨h.1.trans h'.1.symm, h.2.trans h'.2.symm⟩

theorem refStepR_unique {n : Nat} {x : List Bool} {t : Int} {u u₁ u₂ : Trainee env} (h : RefStepR a env H R n x t u u₁)
    (h' : RefStepR a env H R n x t u u₂) : u₁ = u₂ := by
  obtain ⟨i, g, h1, h2⟩ := h
  obtain ⟨j, g', h1', h2'⟩ := h'
  obtain ⟨rfl, rfl⟩ := refHits_unique h1 h1'
  refine Chain.unique ?_ h2 h2'
  intro i s s₁ s₂ k1 k2
  dsimp only at k1 k2
  split at k1
  · rename_i c
    rw [if_pos c] at k2
    exact giveI_unique k1 k2
  · rename_i c
    rw [if_neg c] at k2
    split at k1
    · rename_i c2
      rw [if_pos c2] at k2
      exact giveII_unique k1 k2
    · rename_i c2
      rw [if_neg c2] at k2
      exact k1.trans k2.symm

/-- **C52**: the reference algorithm has at most one result for each start, so that the theorems above say what the result of
training is. -/
theorem C52_one_result {n labels : Nat} {u u₁ u₂ : Trainee env}
    (h₁ : Chain (fun (_ : Nat) => RefEpoch a env H n labels X y) (List.range ep) u u₁)
    (h₂ : Chain (fun (_ : Nat) => RefEpoch a env H n labels X y) (List.range ep) u u₂) : u₁ = u₂ := by
  refine Chain.unique ?_ h₁ h₂
  intro _ s s₁ s₂ k1 k2
  refine Chain.unique ?_ k1 k2
  rintro i v v₁ v₂ ⟨x, t, e1, e2, e3⟩ ⟨x', t', e1', e2', e3'⟩
  rw [e1] at e1'
  rw [e2] at e2'
  cases e1'
  have : t = t' := by have := Option.some.inj e2'; omega
  subst this
  exact refStep_unique e3 e3'

/-- **C52**: the same for regressors. -/
theorem C52_one_result_regressor {n : Nat} {u u₁ u₂ : Trainee env}
    (h₁ : Chain (fun (_ : Nat) => RefEpochR a env H R n X y) (List.range ep) u u₁)
    (h₂ : Chain (fun (_ : Nat) => RefEpochR a env H R n X y) (List.range ep) u u₂) : u₁ = u₂ := by
  refine Chain.unique ?_ h₁ h₂
  intro _ s s₁ s₂ k1 k2
  refine Chain.unique ?_ k1 k2
  rintro i v v₁ v₂ ⟨x, t, e1, e2, e3⟩ ⟨x', t', e1', e2', e3'⟩
  rw [e1] at e1'
  rw [e2] at e2'
  cases e1'
  cases e2'
  exact refStepR_unique e3 e3'

/-- **C52**: and so is where it starts. -/
theorem C52_one_start {seed : BitVec 32} {weighted : Bool} {count n : Nat} {old : List Nat} {u₁ u₂ : Trainee env}
    (h₁ : Started env seed weighted count n old u₁) (h₂ : Started env seed weighted count n old u₂) : u₁ = u₂ := by
  obtain ⟨a1, a2, a3, a4⟩ := h₁
  obtain ⟨b1, b2, b3, b4⟩ := h₂
  obtain ⟨⟨c1, w1⟩, g1, f1⟩ := u₁
  obtain ⟨⟨c2, w2⟩, g2, f2⟩ := u₂
  dsimp only at *
  subst a1 b1 a3 b3 a4 b4
  cases weighted with
  | true => rw [if_pos rfl] at a2 b2; rw [a2, b2]
  | false => rw [if_neg (by decide)] at a2 b2; rw [a2, b2]

/-- C52: hypotheses and results of a refit (three epochs over four samples) and of more training, for both kinds and families. -/
example : Toy.bc.params.get? "random_state" = some (.seed 5) ∧ Toy.bc.params.get? "weighted" = some (.bool true) ∧
    HasSettings .classifier Toy.bc.params Toy.settingsC ∧ HasSettings .regressor Toy.cr.params Toy.settingsR ∧
    HasRegSettings Toy.cr.params ⟨false, "MSE", .fin 0⟩ ∧
    (Toy.outcome (B := Algo.bitwise.backend)
      (fitClassifier Algo.bitwise.backend Toy.env Toy.seq Toy.bc Toy.XB [0, 1, 2, 1] 0 3)).isSome ∧
    (Toy.outcome (B := Algo.classic.backend)
      (partialFitRegressor Algo.classic.backend Toy.env Toy.seq Toy.cr [Toy.xc] [0] 1)).isSome := by
  refine ⟨?_, ?_, Toy.bc_settings, Toy.cr_settings, ⟨?_, ?_, ?_⟩, ?_, ?_⟩ <;> decide +kernel

/-- C52: a choice of 3 or 4 out of 7 features: four, found with the eighth number. -/
example : chosen Toy.env 2 7 (draw Toy.env (5 : Nat) 0) = 4 ∧
    (marked Toy.env 7 (skip Toy.env (5 : Nat) 1) 7).count true = 3 ∧ (marked Toy.env 7 (skip Toy.env (5 : Nat) 1) 8).count true = 4 := by
  decide +kernel

end Tsetlini
