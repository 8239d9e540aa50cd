import Verif.Props.Progress
/-
C84: when training changes nothing: a generalization of C64 to models with empty clauses, which count in training but not in prediction,
and what follows from it: a sample may be predicted wrong although no amount of training with it would change anything.
-/
namespace Tsetlini
open Res Spec

variable {a : Algo} {env : Env} {st st' : EstState a.backend env} {X : List a.Sample} {y : List Int} {ml : Int} {ep : Nat}
  {sc : Sched} {s : Status} {x : a.Sample}

theorem Fit.predict_sok {cfg : Cfg} {L nf : Nat} {ss : SState env} (hv : Valid cfg) (hk : cfg.kind = .classifier)
    (hF : Fit a.lawful cfg L nf st ss) (hx : a.Built x) {v : Int} (hp : Gives (predictClassifier1 a.backend env sc st x) v) :
    SOk a.lawful nf x := by
  have hx' := (lawful_sinv a x).2 hx
  have hS : Sim a.lawful cfg st ss := .inr ⟨_, _, hF⟩
  obtain ⟨r, hr, -, -, hr2⟩ := predict1_ref sc hv hk hS hx'
  obtain ⟨s0, hp⟩ := hp
  rw [hp] at hr
  cases hr
  obtain ⟨s, hs, hiff⟩ := hS.checkS_ok hv hx'
  by_cases hc : s.code = .ok
  · obtain ⟨L', nf', hsh, hok⟩ := hiff.1 hc
    have e' := hF.shape; rw [hsh] at e'; cases e'
    exact hok
  · have := withShape_rejects hs hc hr2
    cases this

theorem Fit.predictR_sok {cfg : Cfg} {L nf : Nat} {ss : SState env} (hv : Valid cfg) (hk : cfg.kind = .regressor)
    (hF : Fit a.lawful cfg L nf st ss) (hx : a.Built x) {v : Int} (hp : Gives (predictRegressor1 a.backend env sc st x) v) :
    SOk a.lawful nf x := by
  have hx' := (lawful_sinv a x).2 hx
  have hS : Sim a.lawful cfg st ss := .inr ⟨_, _, hF⟩
  obtain ⟨r, hr, -, -, hr2⟩ := predictR1_ref sc hv hk hS hx'
  obtain ⟨s0, hp⟩ := hp
  rw [hp] at hr
  cases hr
  obtain ⟨s, hs, hiff⟩ := hS.checkS_ok hv hx'
  by_cases hc : s.code = .ok
  · obtain ⟨L', nf', hsh, hok⟩ := hiff.1 hc
    have e' := hF.shape; rw [hsh] at e'; cases e'
    exact hok
  · have := withShape_rejects hs hc hr2
    cases this

/-- **C84**: if, counting empty clauses as true, the votes give every training sample the highest possible score for its label and the
lowest possible one for all others, training changes nothing, for however many epochs; no prediction changes. -/
theorem C84_classifier (h : Reached a .classifier st) (hN : StatesOk a st.params) (hf : Fitted a st) (ht : DataTyped a X y)
    (hr : partialFitClassifier a.backend env sc st X y ml ep = .ok (st', s)) (hc : s.code = .ok)
    {T c : Int} {labels : Nat} (hT : IntParam st.params "threshold" T) (hk : IntParam st.params (clauseParam .classifier) c)
    (hl : IntParam st.params "number_of_labels" labels)
    (hfull : ∀ (x : a.Sample) (t : Nat), (x, (t : Int)) ∈ X.zip y → ∀ l < labels,
      score (outAt (a.clauses st) (a.bits x)) st.ta.weights (c / 2).toNat T l = if l = t then T else -T) :
    a.learned st' = a.learned st ∧ ∀ x, a.Built x → ∀ (sc₁ sc₂ : Sched) (v : Int),
      Gives (predictClassifier1 a.backend env sc₁ st x) v → Gives (predictClassifier1 a.backend env sc₂ st' x) v := by
  obtain ⟨cfg, L, nf, ss, h1, hv, h2, hF⟩ := reached_fit h hN hf
  have hH := hF.reads.settings h1
  have e3 := hF.reads.TC hT
  have e4 := hF.labelsC h1 hl
  have e4 : labels = L := by omega
  have e5 : cfg.settings.k = (c / 2).toNat := by
    obtain ⟨c', k1, k2⟩ := hH.k
    have := k1.symm.trans hk
    have : c' = c := by simpa using this
    rw [k2, this]
  subst e4 e3
  obtain ⟨ss', hF', -, hd, -⟩ := refit_call hv h1 h2 ht.typed hF hr hc
  have hch := C34_partial_fit h hN hf ht hH hr hc hl hF.featP
  have key : a.learned st' = a.learned st := by
    refine hch.invariant (P := fun m m' => m = a.learned st → m' = a.learned st) (fun _ => id) (fun _ _ _ f g => g ∘ f) ?_ rfl
    rintro - - m₁ m₂ ⟨ps, hp, hch⟩
    refine hch.invariant (P := fun m m' => m = a.learned st → m' = a.learned st) (fun _ => id) (fun _ _ _ f g => g ∘ f) ?_
    rintro ⟨x, v⟩ hm s s' ⟨t, o, e1, hlt, hlo, e4, e6⟩ rfl
    dsimp only at e1 e6
    subst e1
    have hz := hp.mem_iff.1 hm
    refine e6.full ?_ ?_
    · have := hfull x t hz t hlt
      rw [if_pos rfl, ← e5] at this
      exact this
    · have := hfull x t hz o hlo
      rw [if_neg e4, ← e5] at this
      exact this
  refine ⟨key, fun x hx sc₁ sc₂ v hg => ?_⟩
  have hok := hF.predict_sok hv h1 hx hg
  obtain ⟨i, hi1, hi2⟩ := hF.predict hv h1 hok sc₁
  obtain ⟨j, hj1, hj2⟩ := hF'.predict hv h1 hok sc₂
  have k1 : a.clauses st' = a.clauses st := congrArg Learned.clauses key
  have k2 : st'.ta.weights = st.ta.weights := congrArg Learned.weights key
  rw [k1, k2] at hj2
  rw [gives_unique hg hi1, FirstMax.unique hi2 hj2]
  exact hj1

/-- **C84** for regressors: training changes nothing if the responses, with empty clauses counted as true, are what they should be. -/
theorem C84_regressor (h : Reached a .regressor st) (hN : StatesOk a st.params) (hf : Fitted a st) (ht : DataTyped a X y)
    (hr : partialFitRegressor a.backend env sc st X y ep = .ok (st', s)) (hc : s.code = .ok)
    {T c : Int} (hT : IntParam st.params "threshold" T) (hk : IntParam st.params (clauseParam .regressor) c)
    (hfull : ∀ (x : a.Sample) (v : Int), (x, v) ∈ X.zip y →
      Spec.response (outAt (a.clauses st) (a.bits x)) st.ta.weights (c / 2).toNat T = v) :
    a.learned st' = a.learned st ∧ ∀ x, a.Built x → ∀ (sc₁ sc₂ : Sched) (v : Int),
      Gives (predictRegressor1 a.backend env sc₁ st x) v → Gives (predictRegressor1 a.backend env sc₂ st' x) v := by
  obtain ⟨cfg, L, nf, ss, h1, hv, h2, hF⟩ := reached_fit h hN hf
  have hH := hF.reads.settings h1
  have e3 := hF.reads.TC hT
  have e4 := hF.reg1 h1
  have e5 : cfg.settings.k = (c / 2).toNat := by
    obtain ⟨c', k1, k2⟩ := hH.k
    have := k1.symm.trans hk
    have : c' = c := by simpa using this
    rw [k2, this]
  subst e4 e3
  obtain ⟨ss', hF', -, hd, -⟩ := refitR_call hv h1 h2 ht.typed hF hr hc
  have hch := C34_partial_fit_regressor h hN hf ht hH hr hc hF.featP
  have key : a.learned st' = a.learned st := by
    refine hch.invariant (P := fun m m' => m = a.learned st → m' = a.learned st) (fun _ => id) (fun _ _ _ f g => g ∘ f) ?_ rfl
    rintro - - m₁ m₂ ⟨ps, hp, hch⟩
    refine hch.invariant (P := fun m m' => m = a.learned st → m' = a.learned st) (fun _ => id) (fun _ _ _ f g => g ∘ f) ?_
    rintro ⟨x, v⟩ hm s s' hst rfl
    refine hst.1 ?_
    have := hfull x v (hp.mem_iff.1 hm)
    rw [← e5] at this
    exact this
  refine ⟨key, fun x hx sc₁ sc₂ v hg => ?_⟩
  have hok := hF.predictR_sok hv h1 hx hg
  have g1 := hF.predictR hv h1 hok sc₁
  have g2 := hF'.predictR hv h1 hok sc₂
  have k1 : a.clauses st' = a.clauses st := congrArg Learned.clauses key
  have k2 : st'.ta.weights = st.ta.weights := congrArg Learned.weights key
  rw [k1, k2, gives_unique g1 hg] at g2
  exact g2

/-! ### Samples that cannot be learned -/

def Toy.stuckC (seed : Nat) : Request .classifier :=
  .classifierArgs [.threshold 1, .clausesPerLabel 4, .states 3, .specificity (.fin 2), .seed (BitVec.ofNat 32 seed)]
def Toy.stuckR (seed : Nat) : Request .regressor :=
  .regressorArgs [.threshold 2, .regressorClauses 4, .states 3, .specificity (.fin 2), .seed (BitVec.ofNat 32 seed)]

/-- Classifiers trained, for two epochs, to tell one bit from the other; the same for a regressor. -/
def Toy.stuckCC : EstState Algo.classic.backend Toy.env :=
  Toy.after .classic (Toy.made (Toy.stuckC 14)) [.fit ([[0], [1]] : List ClassicSample) [0, 1] 0 2]
def Toy.stuckBC : EstState Algo.bitwise.backend Toy.env :=
  Toy.after .bitwise (Toy.made (Toy.stuckC 14)) [.fit ([⟨1, [0]⟩, ⟨1, [1]⟩] : List BitVector) [0, 1] 0 2]
def Toy.stuckCR : EstState Algo.classic.backend Toy.env :=
  Toy.after .classic (Toy.made (Toy.stuckR 38)) [.fitR ([[0], [1]] : List ClassicSample) [0, 2] 2]

theorem Toy.full_of {f : Nat → Int} {t : Nat} {T : Int} {n : Nat} (h : ((List.range n).all fun l => f l == if l = t then T else -T) = true) :
    ∀ l < n, f l = if l = t then T else -T := by
  intro l hl
  have := List.all_eq_true.1 h l (List.mem_range.2 hl)
  exact eq_of_beq this

/-- **C84**, what must not be relied on: there is a trained classifier and one of the samples it was trained with, of label 1, which it takes
for label 0, and which no further training with it can teach it. -/
theorem C84_unlearnable : ∃ (st : EstState classic Toy.env) (x : ClassicSample),
    Reached .classic .classifier st ∧ Fitted .classic st ∧ Gives (predictClassifier1 classic Toy.env Toy.seq st x) 0 ∧
    (∃ st' s, partialFitClassifier classic Toy.env Toy.seq st [x] [1] 0 3 = .ok (st', s) ∧ s.code = .ok) ∧
    ∀ (sc sc' : Sched) (ml : Int) (ep : Nat) (X : List ClassicSample) (y : List Int) (st' : EstState classic Toy.env) (s : Status),
      (∀ x' ∈ X, x' = x) → (∀ v ∈ y, v = 1) →
      partialFitClassifier classic Toy.env sc st X y ml ep = .ok (st', s) → s.code = .ok →
      Gives (predictClassifier1 classic Toy.env sc' st' x) 0 := by
  have hR : Reached .classic .classifier Toy.stuckCC :=
    Toy.reached_of (Toy.made_of (Toy.stuckC 14) (by constructor <;> decide +kernel) (by decide +kernel)) (by decide +kernel) (by decide +kernel)
  have hN : StatesOk .classic Toy.stuckCC.params := Toy.statesOk_of (N := 3) (by decide +kernel) (by decide)
  have hf : Fitted .classic Toy.stuckCC := by show Algo.classic.counters Toy.stuckCC ≠ []; decide +kernel
  have hg : Gives (predictClassifier1 classic Toy.env Toy.seq Toy.stuckCC ([1] : ClassicSample)) 0 := Toy.gives_of (by decide +kernel)
  obtain ⟨st1, s1, r1, r2, -⟩ := Toy.outcome_ok
    (r := partialFitClassifier classic Toy.env Toy.seq Toy.stuckCC ([[1]] : List ClassicSample) [1] 0 3) (by decide +kernel)
  refine ⟨Toy.stuckCC, [1], hR, hf, hg, ⟨st1, s1, r1, r2⟩, fun sc sc' ml ep X y st' s hX hy hr hc => ?_⟩
  have hb : Algo.classic.Built ([1] : ClassicSample) := by decide
  have hfull := Toy.full_of (f := score (outAt (Algo.classic.clauses Toy.stuckCC) [true]) Toy.stuckCC.ta.weights 2 1) (t := 1) (T := 1) (n := 2)
    (by decide +kernel)
  refine (C84_classifier (a := .classic) (T := 1) (c := 4) (labels := 2) hR hN hf ⟨fun x hx => ?_, fun v hv => ?_⟩ hr hc ?_ ?_ ?_ ?_).2 [1] hb
    Toy.seq sc' 0 hg
  · rw [hX x hx]; exact hb
  · rw [hy v hv]; unfold IsInt; omega
  · show Params.get? _ _ = _; decide +kernel
  · show Params.get? _ _ = _; decide +kernel
  · show Params.get? _ _ = _; decide +kernel
  · intro x t hz
    have e1 := hX x (List.of_mem_zip hz).1
    have e2 := hy _ (List.of_mem_zip hz).2
    have e2 : t = 1 := by omega
    subst e1 e2
    exact hfull

/-- **C84**: the same for the bitwise family. -/
theorem C84_unlearnable_bitwise : ∃ (st : EstState bitwise Toy.env) (x : BitVector),
    Reached .bitwise .classifier st ∧ Fitted .bitwise st ∧ Gives (predictClassifier1 bitwise Toy.env Toy.seq st x) 0 ∧
    (∃ st' s, partialFitClassifier bitwise Toy.env Toy.seq st [x] [1] 0 3 = .ok (st', s) ∧ s.code = .ok) ∧
    ∀ (sc sc' : Sched) (ml : Int) (ep : Nat) (X : List BitVector) (y : List Int) (st' : EstState bitwise Toy.env) (s : Status),
      (∀ x' ∈ X, x' = x) → (∀ v ∈ y, v = 1) →
      partialFitClassifier bitwise Toy.env sc st X y ml ep = .ok (st', s) → s.code = .ok →
      Gives (predictClassifier1 bitwise Toy.env sc' st' x) 0 := by
  have hR : Reached .bitwise .classifier Toy.stuckBC :=
    Toy.reached_of (Toy.made_of (Toy.stuckC 14) (by constructor <;> decide +kernel) (by decide +kernel)) (by decide +kernel) (by decide +kernel)
  have hN : StatesOk .bitwise Toy.stuckBC.params := Toy.statesOk_of (N := 3) (by decide +kernel) (by decide)
  have hf : Fitted .bitwise Toy.stuckBC := by show Algo.bitwise.counters Toy.stuckBC ≠ []; decide +kernel
  have hg : Gives (predictClassifier1 bitwise Toy.env Toy.seq Toy.stuckBC (⟨1, [1]⟩ : BitVector)) 0 := Toy.gives_of (by decide +kernel)
  obtain ⟨st1, s1, r1, r2, -⟩ := Toy.outcome_ok
    (r := partialFitClassifier bitwise Toy.env Toy.seq Toy.stuckBC ([⟨1, [1]⟩] : List BitVector) [1] 0 3) (by decide +kernel)
  refine ⟨Toy.stuckBC, ⟨1, [1]⟩, hR, hf, hg, ⟨st1, s1, r1, r2⟩, fun sc sc' ml ep X y st' s hX hy hr hc => ?_⟩
  have hb : Algo.bitwise.Built (⟨1, [1]⟩ : BitVector) := by decide
  have hfull := Toy.full_of (f := score (outAt (Algo.bitwise.clauses Toy.stuckBC) (Algo.bitwise.bits (⟨1, [1]⟩ : BitVector))) Toy.stuckBC.ta.weights 2 1)
    (t := 1) (T := 1) (n := 2) (by decide +kernel)
  refine (C84_classifier (a := .bitwise) (T := 1) (c := 4) (labels := 2) hR hN hf ⟨fun x hx => ?_, fun v hv => ?_⟩ hr hc ?_ ?_ ?_ ?_).2 _ hb
    Toy.seq sc' 0 hg
  · rw [hX x hx]; exact hb
  · rw [hy v hv]; unfold IsInt; omega
  · show Params.get? _ _ = _; decide +kernel
  · show Params.get? _ _ = _; decide +kernel
  · show Params.get? _ _ = _; decide +kernel
  · intro x t hz
    have e1 := hX x (List.of_mem_zip hz).1
    have e2 := hy _ (List.of_mem_zip hz).2
    have e2 : t = 1 := by omega
    subst e1 e2
    exact hfull

/-- **C84**: a trained regressor that gives 0 for a sample which should give 2, and will do so after any further training with it. -/
theorem C84_unlearnable_regressor : ∃ (st : EstState classic Toy.env) (x : ClassicSample),
    Reached .classic .regressor st ∧ Fitted .classic st ∧ Gives (predictRegressor1 classic Toy.env Toy.seq st x) 0 ∧
    (∃ st' s, partialFitRegressor classic Toy.env Toy.seq st [x] [2] 3 = .ok (st', s) ∧ s.code = .ok) ∧
    ∀ (sc sc' : Sched) (ep : Nat) (X : List ClassicSample) (y : List Int) (st' : EstState classic Toy.env) (s : Status),
      (∀ x' ∈ X, x' = x) → (∀ v ∈ y, v = 2) →
      partialFitRegressor classic Toy.env sc st X y ep = .ok (st', s) → s.code = .ok →
      Gives (predictRegressor1 classic Toy.env sc' st' x) 0 := by
  have hR : Reached .classic .regressor Toy.stuckCR :=
    Toy.reached_of (Toy.made_of (Toy.stuckR 38) (by constructor <;> decide +kernel) (by decide +kernel)) (by decide +kernel) (by decide +kernel)
  have hN : StatesOk .classic Toy.stuckCR.params := Toy.statesOk_of (N := 3) (by decide +kernel) (by decide)
  have hf : Fitted .classic Toy.stuckCR := by show Algo.classic.counters Toy.stuckCR ≠ []; decide +kernel
  have hg : Gives (predictRegressor1 classic Toy.env Toy.seq Toy.stuckCR ([1] : ClassicSample)) 0 := Toy.gives_of (by decide +kernel)
  obtain ⟨st1, s1, r1, r2, -⟩ := Toy.outcome_ok
    (r := partialFitRegressor classic Toy.env Toy.seq Toy.stuckCR ([[1]] : List ClassicSample) [2] 3) (by decide +kernel)
  refine ⟨Toy.stuckCR, [1], hR, hf, hg, ⟨st1, s1, r1, r2⟩, fun sc sc' ep X y st' s hX hy hr hc => ?_⟩
  have hb : Algo.classic.Built ([1] : ClassicSample) := by decide
  have hfull : Spec.response (outAt (Algo.classic.clauses Toy.stuckCR) [true]) Toy.stuckCR.ta.weights 2 2 = 2 := by decide +kernel
  refine (C84_regressor (a := .classic) (T := 2) (c := 4) hR hN hf ⟨fun x hx => ?_, fun v hv => ?_⟩ hr hc ?_ ?_ ?_).2 [1] hb
    Toy.seq sc' 0 hg
  · rw [hX x hx]; exact hb
  · rw [hy v hv]; unfold IsInt; omega
  · show Params.get? _ _ = _; decide +kernel
  · show Params.get? _ _ = _; decide +kernel
  · intro x v hz
    have e1 := hX x (List.of_mem_zip hz).1
    have e2 := hy _ (List.of_mem_zip hz).2
    subst e1 e2
    exact hfull

end Tsetlini
