import Verif.Lemmas.Progress
import Verif.Props.Inference
import Verif.Props.Training
/-
C63: training on a sample never hurts that sample. C64: a perfect model is left as it is.
-/
namespace Tsetlini
open Res Spec

variable {a : Algo} {env : Env} {st st' : EstState a.backend env} {X : List a.Sample} {y : List Int} {ml : Int} {ep : Nat}
  {sc : Sched} {s : Status} {H : Settings} {x : a.Sample}

/-! ### what the calls return, for a fitted estimator -/

theorem Fit.decision {cfg : Cfg} {L nf : Nat} {ss : SState env} (hv : Valid cfg) (hk : cfg.kind = .classifier)
    (hF : Fit a.lawful cfg L nf st ss) (hx : SOk a.lawful nf x) (sc : Sched) :
    Gives (decision1 a.backend env sc st x) ((List.range L).map
      (score (outPrunedAt (a.clauses st) (a.bits x)) st.ta.weights cfg.settings.k cfg.T)) := by
  obtain ⟨r, hr, -, -, hr2⟩ := decision1_ref sc hv hk (.inr ⟨_, _, hF⟩) hx.inv
  have := withShape_gives hF.shape (hF.checkS_sok hv hx) hr2
  obtain ⟨st', r⟩ := r
  dsimp only at this
  subst this
  refine ⟨st', ?_⟩
  rw [hr, scoresS_eq hF, lawful_bits]
  rfl

theorem Fit.decision_sok {cfg : Cfg} {L nf : Nat} {ss : SState env} (hv : Valid cfg) (hk : cfg.kind = .classifier)
    (hF : Fit a.lawful cfg L nf st ss) (hx : a.Built x) {sc : Sched} {d : List Int} (hd : Gives (decision1 a.backend env sc st x) d) :
    SOk a.lawful nf x := by
  have hx' := (lawful_sinv a x).2 hx
  have hS : Sim a.lawful cfg st ss := .inr ⟨_, _, hF⟩
  obtain ⟨r, hr, -, -, hr2⟩ := decision1_ref sc hv hk hS hx'
  obtain ⟨s0, hd⟩ := hd
  rw [hd] at hr
  cases hr
  obtain ⟨s, hs, hiff⟩ := hS.checkS_ok hv hx'
  by_cases hc : s.code = .ok
  · obtain ⟨L', nf', hsh, hok⟩ := hiff.1 hc
    have e' := hF.shape; rw [hsh] at e'; cases e'
    exact hok
  · have := withShape_rejects hs hc hr2
    cases this

theorem Fit.predict {cfg : Cfg} {L nf : Nat} {ss : SState env} (hv : Valid cfg) (hk : cfg.kind = .classifier)
    (hF : Fit a.lawful cfg L nf st ss) (hx : SOk a.lawful nf x) (sc : Sched) :
    ∃ i : Nat, Gives (predictClassifier1 a.backend env sc st x) (i : Int) ∧ FirstMax ((List.range L).map
      (score (outPrunedAt (a.clauses st) (a.bits x)) st.ta.weights cfg.settings.k cfg.T)) i := by
  obtain ⟨r, hr, -, -, hr2⟩ := predict1_ref sc hv hk (.inr ⟨_, _, hF⟩) hx.inv
  have := withShape_gives hF.shape (hF.checkS_sok hv hx) hr2
  obtain ⟨st', r⟩ := r
  dsimp only at this
  subst this
  have hne : scoresS cfg L ss (a.lawful.bits x) ≠ [] := by
    have := hF.pos
    intro e
    have := congrArg List.length e
    simp [scoresS] at this
    omega
  have hm := argmax_spec hne
  rw [scoresS_eq hF, lawful_bits] at hm
  refine ⟨_, ⟨st', ?_⟩, hm⟩
  rw [hr, scoresS_eq hF, lawful_bits]

theorem Fit.predictR {cfg : Cfg} {nf : Nat} {ss : SState env} (hv : Valid cfg) (hk : cfg.kind = .regressor)
    (hF : Fit a.lawful cfg 1 nf st ss) (hx : SOk a.lawful nf x) (sc : Sched) :
    Gives (predictRegressor1 a.backend env sc st x)
      (Spec.response (outPrunedAt (a.clauses st) (a.bits x)) st.ta.weights cfg.settings.k cfg.T) := by
  obtain ⟨r, hr, -, -, hr2⟩ := predictR1_ref sc hv hk (.inr ⟨_, _, hF⟩) hx.inv
  have := withShape_gives hF.shape (hF.checkS_sok hv hx) hr2
  obtain ⟨st', r⟩ := r
  dsimp only at this
  subst this
  refine ⟨st', ?_⟩
  rw [hr]
  unfold responseS
  rw [hF.len, Nat.one_mul, hF.clausesEq, hF.w, lawful_bits]
  rfl

theorem gives_unique {σ α : Type} {r : Res (σ × Except Status α)} {v w : α} (h : Gives r v) (h' : Gives r w) : v = w := by
  obtain ⟨s, h⟩ := h
  obtain ⟨s', h'⟩ := h'
  rw [h] at h'
  cases h'
  rfl

theorem Spec.Chain.invariant {ι σ : Type} {R : ι → σ → σ → Prop} {l : List ι} {s s' : σ} (h : Chain R l s s') {P : σ → σ → Prop}
    (refl : ∀ s, P s s) (trans : ∀ s₁ s₂ s₃, P s₁ s₂ → P s₂ s₃ → P s₁ s₃) (step : ∀ i ∈ l, ∀ s s', R i s s' → P s s') : P s s' := by
  induction h with
  | nil => exact refl _
  | cons h1 _ ih =>
    exact trans _ _ _ (step _ List.mem_cons_self _ _ h1) (ih fun i hi => step i (List.mem_cons_of_mem _ hi))

theorem bits_length {n : Nat} (h : SOk a.lawful n x) : (a.bits x).length = n := by
  have := h.size
  cases a with
  | classic => exact (List.length_map ..).trans this
  | bitwise => exact (List.length_map ..).trans ((List.length_range ..).trans this)

/-! ### C63 -/

/-- The scores of `t` do not go down and the others do not go up. -/
def Favours (t : Nat) (d d' : List Int) : Prop :=
  d'.length = d.length ∧ ∀ (l : Nat) (v v' : Int), d[l]? = some v → d'[l]? = some v' → if l = t then v ≤ v' else v' ≤ v

/-- Up if `up`, down otherwise. -/
def Moves (up : Prop) [Decidable up] (v w : Int) : Prop := if up then v ≤ w else w ≤ v

theorem Moves.refl (up : Prop) [Decidable up] (v : Int) : Moves up v v := by unfold Moves; split <;> omega

theorem Moves.trans {up : Prop} [Decidable up] {u v w : Int} (h : Moves up u v) (h' : Moves up v w) : Moves up u w := by
  unfold Moves at *
  split <;> rename_i hu
  · rw [if_pos hu] at h h'; omega
  · rw [if_neg hu] at h h'; omega

/-- All samples are `x` and all labels `t`: the scores move towards `t`. -/
theorem epochs_favour {n labels t k : Nat} {T : Int} (hk : H.k = k) (hT : H.threshold = T) (hX : ∀ x' ∈ X, x' = x) (hy : ∀ v ∈ y, v = (t : Int))
    {m m' : Learned} (h : Chain (fun (_ : Nat) => Epoch a env H n labels X y) (List.range ep) m m') (L : Nat) :
    Favours t ((List.range L).map (score (outPrunedAt m.clauses (a.bits x)) m.weights k T))
      ((List.range L).map (score (outPrunedAt m'.clauses (a.bits x)) m'.weights k T)) := by
  subst hk hT
  have step : ∀ (l : Nat), Moves (l = t) (score (outPrunedAt m.clauses (a.bits x)) m.weights H.k H.threshold l)
      (score (outPrunedAt m'.clauses (a.bits x)) m'.weights H.k H.threshold l) := by
    intro l
    refine h.invariant (P := fun m m' => Moves (l = t) (score (outPrunedAt m.clauses (a.bits x)) m.weights H.k H.threshold l)
      (score (outPrunedAt m'.clauses (a.bits x)) m'.weights H.k H.threshold l)) (fun _ => .refl _ _) (fun _ _ _ => .trans) ?_
    rintro - - m₁ m₂ ⟨ps, hp, hch⟩
    refine hch.invariant (P := fun m m' => Moves (l = t) (score (outPrunedAt m.clauses (a.bits x)) m.weights H.k H.threshold l)
      (score (outPrunedAt m'.clauses (a.bits x)) m'.weights H.k H.threshold l)) (fun _ => .refl _ _) (fun _ _ _ => .trans) ?_
    rintro ⟨x', v⟩ hm s s' ⟨t', o, e1, -, -, e4, e5⟩
    have hz := hp.mem_iff.1 hm
    have e2 := hX x' (List.of_mem_zip hz).1
    have e3 := hy v (List.of_mem_zip hz).2
    dsimp only at e1 e5
    have : t' = t := by omega
    subst e2 this
    exact e5.mono e4 l
  refine ⟨by simp, fun l v v' h1 h2 => ?_⟩
  have hl : l < L := by
    rcases Nat.lt_or_ge l L with h | h
    · exact h
    · rw [List.getElem?_eq_none (by simpa using h)] at h1; cases h1
  rw [List.getElem?_map, List.getElem?_range hl] at h1 h2
  cases h1
  cases h2
  exact step l

/-- **C63**: training a classifier, for any number of epochs, with any number of copies of one sample of label `t`
leaves the decision_function score of `t` for this sample as it was or raises it, and those of all other labels as they were
or lowers them. -/
theorem C63_scores {t : Nat} (h : Reached a .classifier st) (hN : StatesOk a st.params) (hf : Fitted a st)
    (hx : a.Built x) (htt : IsInt t) (hX : ∀ x' ∈ X, x' = x) (hy : ∀ v ∈ y, v = (t : Int))
    (hr : partialFitClassifier a.backend env sc st X y ml ep = .ok (st', s)) (hc : s.code = .ok)
    {d : List Int} {sc₀ : Sched} (hd : Gives (decision1 a.backend env sc₀ st x) d) :
    ∃ d', (∀ sc', Gives (decision1 a.backend env sc' st' x) d') ∧ Favours t d d' := by
  obtain ⟨cfg, L, nf, ss, h1, hv, h2, hF⟩ := reached_fit h hN hf
  have ht : DataTyped a X y := ⟨fun x' hx' => hX x' hx' ▸ hx, fun v hv => hy v hv ▸ htt⟩
  obtain ⟨ss', hF', -⟩ := refit_call hv h1 h2 ht.typed hF hr hc
  have hok := hF.decision_sok hv h1 hx hd
  have hd' := hF.decision hv h1 hok sc₀
  cases gives_unique hd hd'
  refine ⟨_, hF'.decision hv h1 hok, ?_⟩
  have hl : IntParam st.params "number_of_labels" L := hF.labelsP h1
  have hn : IntParam st.params "number_of_features" nf := hF.featP
  exact epochs_favour rfl rfl hX hy (C34_partial_fit h hN hf ht (hF.reads.settings h1) hr hc hl hn) L

theorem FirstMax.favoured {t : Nat} {d d' : List Int} (h : FirstMax d t) (hf : Favours t d d') : FirstMax d' t := by
  obtain ⟨m, h1, h2, h3⟩ := h
  obtain ⟨hlen, hf⟩ := hf
  have ht := (List.getElem?_eq_some_iff.1 h1).1
  have ht' : t < d'.length := by omega
  have e := hf t m _ h1 (List.getElem?_eq_getElem ht')
  rw [if_pos rfl] at e
  refine ⟨_, List.getElem?_eq_getElem ht', fun v hv => ?_, fun j v hj hv => ?_⟩
  · obtain ⟨j, hj⟩ := List.mem_iff_getElem?.1 hv
    by_cases hjt : j = t
    · subst hjt
      rw [List.getElem?_eq_getElem ht'] at hj
      cases hj
      omega
    · have hjl := (List.getElem?_eq_some_iff.1 hj).1
      have := hf j _ v (List.getElem?_eq_getElem (by omega)) hj
      rw [if_neg hjt] at this
      have := h2 d[j] (List.getElem_mem _)
      omega
  · have hjl := (List.getElem?_eq_some_iff.1 hv).1
    have := hf j _ v (List.getElem?_eq_getElem (by omega)) hv
    rw [if_neg (by omega)] at this
    have := h3 j _ hj (List.getElem?_eq_getElem (by omega))
    omega

/-- **C63**: a classifier that predicts the label of a sample still does after any amount of training with that sample. -/
theorem C63_stays_right {t : Nat} (h : Reached a .classifier st) (hN : StatesOk a st.params) (hf : Fitted a st)
    (hx : a.Built x) (htt : IsInt t) (hX : ∀ x' ∈ X, x' = x) (hy : ∀ v ∈ y, v = (t : Int))
    (hr : partialFitClassifier a.backend env sc st X y ml ep = .ok (st', s)) (hc : s.code = .ok)
    {sc₀ : Sched} (hp : Gives (predictClassifier1 a.backend env sc₀ st x) (t : Int)) (sc' : Sched) :
    Gives (predictClassifier1 a.backend env sc' st' x) (t : Int) := by
  obtain ⟨cfg, L, nf, ss, h1, hv, h2, hF⟩ := reached_fit h hN hf
  have ht : DataTyped a X y := ⟨fun x' hx' => hX x' hx' ▸ hx, fun v hv => hy v hv ▸ htt⟩
  obtain ⟨ss', hF', -⟩ := refit_call hv h1 h2 ht.typed hF hr hc
  have hx' := (lawful_sinv a x).2 hx
  have hok : SOk a.lawful nf x := by
    have hS : Sim a.lawful cfg st ss := .inr ⟨_, _, hF⟩
    obtain ⟨r, hr, -, -, hr2⟩ := predict1_ref sc₀ hv h1 hS hx'
    obtain ⟨s0, hp⟩ := hp
    rw [hp] at hr
    cases hr
    obtain ⟨s, hs, hiff⟩ := hS.checkS_ok hv hx'
    by_cases hc : s.code = .ok
    · obtain ⟨L', nf', hsh, hok⟩ := hiff.1 hc
      have e' := hF.shape; rw [hsh] at e'; cases e'
      exact hok
    · have := withShape_rejects hs hc hr2
      cases this
  obtain ⟨i, hi1, hi2⟩ := hF.predict hv h1 hok sc₀
  have e := gives_unique hp hi1
  have : i = t := by omega
  subst this
  obtain ⟨j, hj1, hj2⟩ := hF'.predict hv h1 hok sc'
  have hl : IntParam st.params "number_of_labels" L := hF.labelsP h1
  have hn : IntParam st.params "number_of_features" nf := hF.featP
  have hfav := epochs_favour rfl rfl hX hy (C34_partial_fit h hN hf ht (hF.reads.settings h1) hr hc hl hn) L
  rw [FirstMax.unique (FirstMax.favoured hi2 hfav) hj2]
  exact hj1

/-- **C63** for regressors: after training with one sample whose response should be `v`, for one epoch, a prediction that was
not below `v` has not gone up; and, if no clause is empty, one that was below has not gone down and one that was `v` is `v`. -/
theorem C63_response {v : Int} (h : Reached a .regressor st) (hN : StatesOk a st.params) (hf : Fitted a st)
    (hx : a.Built x) (hv' : IsInt v) {n : Nat} (hn : IntParam st.params "number_of_features" n)
    (hr : partialFitRegressor a.backend env sc st [x] [v] 1 = .ok (st', s)) (hc : s.code = .ok)
    {p : Int} {sc₀ : Sched} (hp : Gives (predictRegressor1 a.backend env sc₀ st x) p) :
    ∃ p', (∀ sc', Gives (predictRegressor1 a.backend env sc' st' x) p') ∧ (v ≤ p → p' ≤ p) ∧
      ((∀ c ∈ a.clauses st, c.NonEmpty n) → (p < v → p ≤ p') ∧ (p = v → p' = v)) := by
  obtain ⟨cfg, L, nf, ss, h1, hv, h2, hF⟩ := reached_fit h hN hf
  have ht : DataTyped a [x] [v] := ⟨by simpa using hx, by simpa using hv'⟩
  have e2 := hF.featC hn
  have e2 : n = nf := by omega
  have e3 := hF.reg1 h1
  subst e2 e3
  obtain ⟨ss', hF', -, hd, -⟩ := refitR_call hv h1 h2 ht.typed hF hr hc
  have hok : SOk a.lawful n x := hd.xs x (by simp)
  have hst := C33_regressor_step h hN hf hx hv' (hF.reads.settings h1) hr hc hn
  cases gives_unique hp (hF.predictR hv h1 hok sc₀)
  refine ⟨_, hF'.predictR hv h1 hok, fun hle => ?_, fun hne => ?_⟩
  · have hge := response_pruned_le (a.learned st).clauses (a.learned st).weights (a.bits x) cfg.settings.k cfg.T
    rcases Int.lt_or_eq_of_le (Int.le_trans hle hge) with hlt | heq
    · exact hst.mono.2 hlt
    · have := hst.1 heq.symm
      have e1 : a.clauses st' = a.clauses st := congrArg Learned.clauses this
      have e2 : st'.ta.weights = st.ta.weights := congrArg Learned.weights this
      rw [e1, e2]
      omega
  · have e := outAt_pruned (cl := (a.learned st).clauses) (x := a.bits x) (by rw [bits_length hok]; exact hne)
    refine ⟨fun hlt => hst.mono.1 (by rw [e]; exact hlt), fun heq => ?_⟩
    have := hst.1 (by rw [e]; exact heq)
    have e1 : a.clauses st' = a.clauses st := congrArg Learned.clauses this
    have e2 : st'.ta.weights = st.ta.weights := congrArg Learned.weights this
    rw [e1, e2]
    exact heq

/-! ### Concrete cases, and what must not be relied on -/

/-- What a call returned. -/
def Toy.says {σ α : Type} (r : Res (σ × Except Status α)) : Option α :=
  match r with
  | .ok (_, .ok v) => some v
  | _ => none

theorem Toy.gives_of {σ α : Type} {r : Res (σ × Except Status α)} {v : α} (h : Toy.says r = some v) : Gives r v := by
  unfold Toy.says at h
  split at h
  · cases h; exact ⟨_, rfl⟩
  · cases h

/-- The state a training call that was accepted left. -/
def Toy.trained {B : Backend} (r : Res (EstState B Toy.env × Status)) (st : EstState B Toy.env) : EstState B Toy.env :=
  match r with
  | .ok (st', s) => if s.code = .ok then st' else st
  | _ => st

theorem Toy.trained_of {B : Backend} {r : Res (EstState B Toy.env × Status)} {st : EstState B Toy.env} (h : (Toy.outcome r).isSome = true) :
    ∃ s, r = .ok (Toy.trained r st, s) ∧ s.code = .ok := by
  obtain ⟨st', s, h1, h2, -⟩ := Toy.outcome_ok h
  refine ⟨s, ?_, h2⟩
  rw [h1]
  unfold Toy.trained
  dsimp only
  rw [if_pos h2]

/-- C63: two epochs with two copies of a sample of label 1; its score goes up, that of label 2 down. -/
example : ∃ st' s, partialFitClassifier Algo.classic.backend Toy.env Toy.seq Toy.cc [Toy.xc, Toy.xc] [(1 : Nat), (1 : Nat)] 0 2 = .ok (st', s) ∧
    s.code = .ok ∧ Gives (decision1 Algo.classic.backend Toy.env Toy.seq Toy.cc Toy.xc) [0, 1, 1] ∧
    Gives (decision1 Algo.classic.backend Toy.env Toy.seq st' Toy.xc) [0, 2, 0] ∧
    Gives (predictClassifier1 Algo.classic.backend Toy.env Toy.seq Toy.cc Toy.xc) (1 : Nat) := by
  obtain ⟨s, h1, h2⟩ := Toy.trained_of (st := Toy.cc)
    (r := partialFitClassifier Algo.classic.backend Toy.env Toy.seq Toy.cc [Toy.xc, Toy.xc] [(1 : Nat), (1 : Nat)] 0 2) (by decide +kernel)
  exact ⟨_, s, h1, h2, Toy.gives_of (by decide +kernel), Toy.gives_of (by decide +kernel), Toy.gives_of (by decide +kernel)⟩

/-- C63: a regressor without empty clauses; the sample should give 3 and gave 1, and gives 2 after training. -/
example : (∀ c ∈ Algo.bitwise.clauses Toy.br, c.NonEmpty 3) ∧
    Gives (predictRegressor1 Algo.bitwise.backend Toy.env Toy.seq Toy.br (⟨3, [5]⟩ : BitVector)) 1 ∧
    ∃ st' s, partialFitRegressor Algo.bitwise.backend Toy.env Toy.seq Toy.br [(⟨3, [5]⟩ : BitVector)] [3] 1 = .ok (st', s) ∧ s.code = .ok ∧
    Gives (predictRegressor1 Algo.bitwise.backend Toy.env Toy.seq st' (⟨3, [5]⟩ : BitVector)) 2 := by
  obtain ⟨s, h1, h2⟩ := Toy.trained_of (st := Toy.br)
    (r := partialFitRegressor Algo.bitwise.backend Toy.env Toy.seq Toy.br [(⟨3, [5]⟩ : BitVector)] [3] 1) (by decide +kernel)
  exact ⟨by decide +kernel, Toy.gives_of (by decide +kernel), _, s, h1, h2, Toy.gives_of (by decide +kernel)⟩

/-- Arguments of a regressor that gets an empty clause. -/
def Toy.emptyArgs : List Arg := [.threshold 5, .regressorClauses 4, .states 3, .specificity (.fin 2), .weighted true, .maxWeight 3, .seed 26#32]

/-- A trained regressor whose first clause is empty. -/
def Toy.halfEmpty : EstState classic Toy.env :=
  Toy.after .classic (k := .regressor) (Toy.made (.regressorArgs Toy.emptyArgs)) [.fitR Toy.X [5, 4, 4, 3] 2]

/-- **C63**, what must not be relied on: an empty clause counts in training but not in prediction, so training with a sample whose
prediction is too low can make it lower still. -/
theorem C63_empty_clause : ∃ (st st' : EstState classic Toy.env) (s : Status) (x : ClassicSample) (v p p' : Int),
    Reached .classic .regressor st ∧ StatesOk .classic st.params ∧ Fitted .classic st ∧
    Gives (predictRegressor1 classic Toy.env Toy.seq st x) p ∧ p < v ∧
    partialFitRegressor classic Toy.env Toy.seq st [x] [v] 1 = .ok (st', s) ∧ s.code = .ok ∧
    Gives (predictRegressor1 classic Toy.env Toy.seq st' x) p' ∧ p' < p := by
  obtain ⟨s, h1, h2⟩ := Toy.trained_of (st := Toy.halfEmpty)
    (r := partialFitRegressor classic Toy.env Toy.seq Toy.halfEmpty [([0, 1, 1] : ClassicSample)] [2] 1) (by decide +kernel)
  refine ⟨Toy.halfEmpty, _, s, [0, 1, 1], 2, 1, 0,
    Toy.reached_of (Toy.made_of (.regressorArgs Toy.emptyArgs) (by constructor <;> decide +kernel) (by decide +kernel))
      (by decide +kernel) (by decide +kernel),
    Toy.statesOk_of (N := 3) (by decide +kernel) (by decide), ?_, Toy.gives_of (by decide +kernel), by decide, h1, h2,
    Toy.gives_of (by decide +kernel), by decide⟩
  show Algo.classic.counters Toy.halfEmpty ≠ []
  decide +kernel

/-! ### C64 -/

/-- **C64**: if no clause is empty and decision_function gives every training sample the highest possible score for its
label and the lowest possible one for all others, training changes nothing, for however many epochs. -/
theorem C64_classifier (h : Reached a .classifier st) (hN : StatesOk a st.params) (hf : Fitted a st) (ht : DataTyped a X y)
    (hr : partialFitClassifier a.backend env sc st X y ml ep = .ok (st', s)) (hc : s.code = .ok)
    {T : Int} {n : Nat} (hT : IntParam st.params "threshold" T) (hn : IntParam st.params "number_of_features" n)
    (hne : ∀ c ∈ a.clauses st, c.NonEmpty n) {sc₀ : Sched}
    (hbest : ∀ (x : a.Sample) (t : Nat), (x, (t : Int)) ∈ X.zip y →
      ∃ d, Gives (decision1 a.backend env sc₀ st x) d ∧ ∀ (l : Nat) (v : Int), d[l]? = some v → v = if l = t then T else -T) :
    a.learned st' = a.learned st := by
  obtain ⟨cfg, L, nf, ss, h1, hv, h2, hF⟩ := reached_fit h hN hf
  have e2 := hF.featC hn
  have e2 : n = nf := by omega
  have e3 := hF.reads.TC hT
  subst e2 e3
  obtain ⟨ss', hF', -, hd, -⟩ := refit_call hv h1 h2 ht.typed hF hr hc
  have hl : IntParam st.params "number_of_labels" L := hF.labelsP h1
  have hch := C34_partial_fit h hN hf ht (hF.reads.settings h1) hr hc hl hn
  refine hch.invariant (P := fun m m' => m = a.learned st → m' = a.learned st) (fun _ => id) (fun _ _ _ f g => g ∘ f) ?_ rfl
  rintro - - m₁ m₂ ⟨ps, hp, hch⟩
  refine hch.invariant (P := fun m m' => m = a.learned st → m' = a.learned st) (fun _ => id) (fun _ _ _ f g => g ∘ f) ?_
  rintro ⟨x, v⟩ hm s s' ⟨t, o, e1, hlt, hlo, e4, e5⟩ rfl
  dsimp only at e1 e5
  subst e1
  have hz := hp.mem_iff.1 hm
  have hok := hd.xs x (List.of_mem_zip hz).1
  obtain ⟨d, hd1, hd2⟩ := hbest x t hz
  cases gives_unique hd1 (hF.decision hv h1 hok sc₀)
  have e := outAt_pruned (cl := (a.learned st).clauses) (x := a.bits x) (by rw [bits_length hok]; exact hne)
  refine e5.full ?_ ?_
  · rw [e]
    have := hd2 t _ (by rw [List.getElem?_map, List.getElem?_range hlt]; rfl)
    rwa [if_pos rfl] at this
  · rw [e]
    have := hd2 o _ (by rw [List.getElem?_map, List.getElem?_range hlo]; rfl)
    rwa [if_neg e4] at this

/-- **C64** for regressors: if no clause is empty and every training sample is predicted right, training changes nothing. -/
theorem C64_regressor (h : Reached a .regressor st) (hN : StatesOk a st.params) (hf : Fitted a st) (ht : DataTyped a X y)
    (hr : partialFitRegressor a.backend env sc st X y ep = .ok (st', s)) (hc : s.code = .ok)
    {n : Nat} (hn : IntParam st.params "number_of_features" n) (hne : ∀ c ∈ a.clauses st, c.NonEmpty n) {sc₀ : Sched}
    (hbest : ∀ (x : a.Sample) (v : Int), (x, v) ∈ X.zip y → Gives (predictRegressor1 a.backend env sc₀ st x) v) :
    a.learned st' = a.learned st := by
  obtain ⟨cfg, L, nf, ss, h1, hv, h2, hF⟩ := reached_fit h hN hf
  have e2 := hF.featC hn
  have e2 : n = nf := by omega
  have e3 := hF.reg1 h1
  subst e2 e3
  obtain ⟨ss', hF', -, hd, -⟩ := refitR_call hv h1 h2 ht.typed hF hr hc
  have hch := C34_partial_fit_regressor h hN hf ht (hF.reads.settings h1) hr hc hn
  refine hch.invariant (P := fun m m' => m = a.learned st → m' = a.learned st) (fun _ => id) (fun _ _ _ f g => g ∘ f) ?_ rfl
  rintro - - m₁ m₂ ⟨ps, hp, hch⟩
  refine hch.invariant (P := fun m m' => m = a.learned st → m' = a.learned st) (fun _ => id) (fun _ _ _ f g => g ∘ f) ?_
  rintro ⟨x, v⟩ hm s s' hst rfl
  have hz := hp.mem_iff.1 hm
  have hok := hd.xs x (List.of_mem_zip hz).1
  have e := outAt_pruned (cl := (a.learned st).clauses) (x := a.bits x) (by rw [bits_length hok]; exact hne)
  refine hst.1 ?_
  dsimp only
  rw [e]
  exact (gives_unique (hbest x v hz) (hF.predictR hv h1 hok sc₀)).symm

/-- Arguments of a classifier that learns two samples perfectly. -/
def Toy.perfectArgs : List Arg := [.threshold 1, .clausesPerLabel 4, .states 3, .specificity (.fin 4), .weighted true, .maxWeight 3, .seed 7#32]

def Toy.perfect : EstState classic Toy.env :=
  Toy.after .classic (k := .classifier) (Toy.made (.classifierArgs Toy.perfectArgs)) [.fit ([[1, 0, 1], [0, 1, 0]] : List ClassicSample) [0, 1] 0 20]

/-- C64: a classifier whose scores for the two samples it was trained with cannot be better. -/
example : Reached .classic .classifier Toy.perfect ∧ StatesOk .classic Toy.perfect.params ∧ Fitted .classic Toy.perfect ∧
    IntParam Toy.perfect.params "threshold" 1 ∧ IntParam Toy.perfect.params "number_of_features" (3 : Nat) ∧
    (∀ c ∈ Algo.classic.clauses Toy.perfect, c.NonEmpty 3) ∧
    Gives (decision1 classic Toy.env Toy.seq Toy.perfect ([1, 0, 1] : ClassicSample)) [1, -1] ∧
    Gives (decision1 classic Toy.env Toy.seq Toy.perfect ([0, 1, 0] : ClassicSample)) [-1, 1] ∧
    ∃ st' s, partialFitClassifier classic Toy.env Toy.seq Toy.perfect ([[1, 0, 1], [0, 1, 0]] : List ClassicSample) [0, 1] 0 5 = .ok (st', s) ∧
      s.code = .ok := by
  obtain ⟨st', s, h1, h2, -⟩ := Toy.outcome_ok
    (r := partialFitClassifier classic Toy.env Toy.seq Toy.perfect ([[1, 0, 1], [0, 1, 0]] : List ClassicSample) [0, 1] 0 5) (by decide +kernel)
  refine ⟨Toy.reached_of (Toy.made_of (.classifierArgs Toy.perfectArgs) (by constructor <;> decide +kernel) (by decide +kernel))
      (by decide +kernel) (by decide +kernel), Toy.statesOk_of (N := 3) (by decide +kernel) (by decide), ?_, ?_, ?_, by decide +kernel,
    Toy.gives_of (by decide +kernel), Toy.gives_of (by decide +kernel), st', s, h1, h2⟩
  · show Algo.classic.counters Toy.perfect ≠ []; decide +kernel
  · show Params.get? _ _ = _; decide +kernel
  · show Params.get? _ _ = _; decide +kernel

/-- C64: a regressor without empty clauses and two samples it predicts right. -/
example : (∀ c ∈ Algo.bitwise.clauses Toy.br, c.NonEmpty 3) ∧
    Gives (predictRegressor1 Algo.bitwise.backend Toy.env Toy.seq Toy.br (⟨3, [3]⟩ : BitVector)) 1 ∧
    Gives (predictRegressor1 Algo.bitwise.backend Toy.env Toy.seq Toy.br (⟨3, [6]⟩ : BitVector)) 0 ∧
    ∃ st' s, partialFitRegressor Algo.bitwise.backend Toy.env Toy.seq Toy.br ([⟨3, [3]⟩, ⟨3, [6]⟩] : List BitVector) [1, 0] 4 = .ok (st', s) ∧
      s.code = .ok := by
  obtain ⟨st', s, h1, h2, -⟩ := Toy.outcome_ok (B := Algo.bitwise.backend)
    (r := partialFitRegressor Algo.bitwise.backend Toy.env Toy.seq Toy.br ([⟨3, [3]⟩, ⟨3, [6]⟩] : List BitVector) [1, 0] 4) (by decide +kernel)
  exact ⟨by decide +kernel, Toy.gives_of (by decide +kernel), Toy.gives_of (by decide +kernel), st', s, h1, h2⟩

end Tsetlini
