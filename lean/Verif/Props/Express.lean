import Verif.Lemmas.Express
import Verif.Props.LoadedText
import Verif.Props.Stuck
/- C87: what estimators can express. -/
namespace Tsetlini
open Res Spec

variable {a : Algo} {env : Env}

theorem bits_length' {n : Nat} {x : a.Sample} (hs : a.backend.size x = n) : (a.bits x).length = n := by
  rw [← lawful_bits, a.lawful.bits_length, hs]

theorem intParam_unique {p : Params} {key : String} {v w : Int} (h1 : IntParam p key v) (h2 : IntParam p key w) : v = w := by
  unfold IntParam at h1 h2
  rw [h1] at h2
  simpa using h2

theorem cell_row {n : Nat} {y : List Bool} (hy : y.length = n) (P : Prop) [Decidable P] :
    ((if P then exactly y else never n).pos.length = n ∧ (if P then exactly y else never n).neg.length = n) ∧
    ∀ v, v ∈ (if P then exactly y else never n).pos ∨ v ∈ (if P then exactly y else never n).neg → -1 ≤ v ∧ v ≤ 0 := by
  have hr : ∀ v, v ∈ List.replicate n (0 : Int) → -1 ≤ v ∧ v ≤ 0 := fun v hv => by rw [List.eq_of_mem_replicate hv]; omega
  split
  · refine ⟨⟨(List.length_map ..).trans hy, (List.length_map ..).trans hy⟩, fun v hv => ?_⟩
    rcases hv with hv | hv <;>
    · obtain ⟨b, -, rfl⟩ := List.mem_map.1 hv
      cases b <;> decide
  · exact ⟨⟨List.length_replicate .., List.length_replicate ..⟩, fun v hv => hv.elim (hr v) (hr v)⟩

/-- The weights of a model in which all clauses have the same say. -/
def even (p : Params) (m : Nat) : List Nat := if p.get? "weighted" = some (.bool true) then List.replicate m 0 else []

theorem even_zero {p : Params} {m : Nat} : ∀ w ∈ even p m, w = 0 := by
  intro w hw
  unfold even at hw
  split at hw
  · exact List.eq_of_mem_replicate hw
  · cases hw

theorem modelOf_cells {k : Kind} {p : Params} (hm : Made k p) {labels n : Nat} {C : Int} {cl : List Clause} (hl : 1 ≤ labels) (hk : k = .regressor → labels = 1)
    (hC : IntParam p (clauseParam k) C) (hlen : (cl.length : Int) = labels * (C / 2))
    (hcl : ∀ c ∈ cl, (c.pos.length = n ∧ c.neg.length = n) ∧ ∀ v, v ∈ c.pos ∨ v ∈ c.neg → -1 ≤ v ∧ v ≤ 0)
    (hne : 2 ≤ cl.length) (hsmall : 2 * cl.length * (n + 64) < 4294967296) : ModelOf k p labels n cl (even p cl.length) := by
  obtain ⟨cfg, hk', hr, hv, -⟩ := Made.cfg hm
  have hN := hv.states
  have hM := hv.maxWeight
  have h1 : 1 * (n + 64) ≤ 2 * cl.length * (n + 64) := Nat.mul_le_mul_right _ (by omega)
  have h2 : 2 * cl.length * 64 ≤ 2 * cl.length * (n + 64) := Nat.mul_le_mul_left _ (by omega)
  have h3 : 4 * (n + 64) ≤ 2 * cl.length * (n + 64) := Nat.mul_le_mul_right _ (by omega)
  constructor
  · exact hl
  · exact hk
  · intro C' hC'
    rw [intParam_unique hC' hC]
    exact hlen
  · exact fun c hc => (hcl c hc).1
  · intro N hN' c hc v hv'
    have := intParam_unique hN' hr.states
    have := (hcl c hc).2 v hv'
    omega
  · intro w hw
    unfold even
    cases w <;> simp [hw]
  · intro M hM' w hw
    have := intParam_unique hM' hr.maxWeight
    rw [even_zero w hw]
    omega
  · omega
  · exact hsmall
  · omega

/-- **C87**: with enough clauses an estimator can be anything.  Take parameters a factory gives, with at least 4 * threshold * 2^n clauses per label, and any function from samples of `n` features
to labels.  There is a text from which `from_json_string` makes, in any state, a trained classifier that predicts this function, for every sample and number of threads;
and training it with correctly labelled samples, for any number of epochs, changes nothing. -/
theorem C87_classifier (a : Algo) {gdoc : GenDoc env} {gio : GenIO env} (hg : FaithfulText gdoc gio) {p : Params} (hm : Made .classifier p) (hfl : FloatsOk env.rnd p)
    (h32 : ∀ key v, p.get? key = some (.real v) → IsFloat v) (hN : StatesOk a p)
    {labels n T C : Nat} (hl : 1 ≤ labels) (hn : 1 ≤ n) (hT : IntParam p "threshold" T) (hC : IntParam p "number_of_clauses_per_label" C)
    (henough : 4 * T * 2 ^ n ≤ C) (hsmall : 2 * (labels * (C / 2)) * (n + 64) < 4294967296)
    (f : List Bool → Nat) (hf : ∀ x, x.length = n → f x < labels) (g : env.G) (fg : env.F) :
    ∃ t, ∀ old : EstState a.backend env, ∃ st, loadText a .classifier gio old t = .ok st ∧ Reached a .classifier st ∧ Fitted a st ∧ AgreeBut (sizeParams .classifier) p st.params ∧
      (∀ (sc : Sched) (x : a.Sample), a.Built x → a.Good x → a.backend.size x = n → Gives (predictClassifier1 a.backend env sc st x) (f (a.bits x))) ∧
      ∀ (sc : Sched) (X : List a.Sample) (y : List Int) (ml : Int) (ep : Nat) (st' : EstState a.backend env) (s : Status), DataTyped a X y →
        (∀ (x : a.Sample) (v : Int), (x, v) ∈ X.zip y → a.backend.size x = n ∧ v = f (a.bits x)) →
        partialFitClassifier a.backend env sc st X y ml ep = .ok (st', s) → s.code = .ok → a.learned st' = a.learned st := by
  obtain ⟨cfg, hk', hr, hv, -⟩ := Made.cfg hm
  have hT1 : 1 ≤ T := by
    have := intParam_unique hT hr.T
    have := hv.T
    omega
  have hpow : 2 ^ 1 ≤ 2 ^ n := Nat.pow_le_pow_right (by omega) hn
  have hTP : 2 ≤ T * 2 ^ n := Nat.le_trans hpow (Nat.le_mul_of_pos_left _ hT1)
  have e4 : 4 * T * 2 ^ n = 4 * (T * 2 ^ n) := Nat.mul_assoc ..
  have hK : T * (2 * 2 ^ n) ≤ C / 2 := by
    rw [Nat.mul_left_comm]
    omega
  have hlK : 2 ≤ labels * (C / 2) := Nat.le_trans (by omega : 2 ≤ C / 2) (Nat.le_mul_of_pos_left _ hl)
  let cl := tableOf n (C / 2) labels f
  have hlen : cl.length = labels * (C / 2) := by
    show (List.map _ _).length = _
    rw [List.length_map, List.length_range]
  have hmod : ModelOf .classifier p labels n cl (even p cl.length) := by
    refine modelOf_cells hm hl (fun h => by cases h) (C := C) hC (by rw [hlen]; push_cast; rfl) ?_ (by omega) (by rw [hlen]; exact hsmall)
    intro c hc
    obtain ⟨o, -, rfl⟩ := List.mem_map.1 hc
    exact cell_row (sampleOf_length n _) _
  obtain ⟨t, ht⟩ := C80_any_text a hg hm hN hfl h32 hmod g fg
  refine ⟨t, fun old => ?_⟩
  obtain ⟨st, h1, h2, h3, h4, h5, -, -, h8, h9, h10⟩ := ht old
  have pk : ∀ {key : String} {v : Int}, key ∉ sizeParams .classifier → IntParam p key v → IntParam st.params key v := by
    intro key v hk hv
    unfold IntParam at hv ⊢
    rw [h10 key hk, hv]
  have pk' : ∀ {key : String} {v : Int}, key ∉ sizeParams .classifier → IntParam st.params key v → IntParam p key v := by
    intro key v hk hv
    unfold IntParam at hv ⊢
    rw [← h10 key hk, hv]
  have hN' : StatesOk a st.params := fun N hN' => hN N (pk' (by decide) hN')
  have e2 : ((C : Int) / 2).toNat = C / 2 := by omega
  have h8 := h8 rfl
  refine ⟨st, h1, h2, h3, h10, fun sc x hx hgd hs => ?_, fun sc X y ml ep st' s htd hlab hr hc => ?_⟩
  · have hb : (a.bits x).length = n := bits_length' hs
    obtain ⟨scores, g1, g2, g3, -⟩ := C07_decision h2 hN' h3 (pk (by decide) hT) h8 (pk (by decide) hC) h9 hx hgd (by rw [hs]) sc
    obtain ⟨i, i1, i2, i3⟩ := C08_predict h2 hN' h8 hx sc sc g1
    have hsc : ∀ l : Nat, l < labels → scores[l]? = some (if l = f (a.bits x) then (T : Int) else -T) := by
      intro l hl'
      rw [g3 l (by omega), h4, h5, e2, table_score hK even_zero hb hl' fun o ho => (table_outs hn hb ho).2]
    have hi : i = f (a.bits x) := by
      obtain ⟨m, m1, m2, -⟩ := i2
      have hfx := hf _ hb
      have e1 := hsc _ hfx
      rw [if_pos rfl] at e1
      have e2 := m2 _ (List.mem_of_getElem? e1)
      rw [hsc i (by omega)] at m1
      by_cases e : i = f (a.bits x)
      · exact e
      · rw [if_neg e] at m1
        cases m1
        omega
    rw [hi] at i1
    exact i1
  · refine (C84_classifier h2 hN' h3 htd hr hc (pk (by decide) hT) (pk (by decide) hC) h8 fun x t hz l hl' => ?_).1
    obtain ⟨hs, hv⟩ := hlab x t hz
    have hb : (a.bits x).length = n := bits_length' hs
    rw [h4, h5, e2, table_score hK even_zero hb hl' fun o ho => (table_outs hn hb ho).1, show f (a.bits x) = t by omega]

/-- **C87** for regressors, with at least 2 * threshold * 2^n clauses: every function from samples to responses of 0 to threshold. -/
theorem C87_regressor (a : Algo) {gdoc : GenDoc env} {gio : GenIO env} (hg : FaithfulText gdoc gio) {p : Params} (hm : Made .regressor p) (hfl : FloatsOk env.rnd p)
    (h32 : ∀ key v, p.get? key = some (.real v) → IsFloat v) (hN : StatesOk a p)
    {n T C : Nat} (hn : 1 ≤ n) (hT : IntParam p "threshold" T) (hC : IntParam p "number_of_regressor_clauses" C)
    (henough : 2 * T * 2 ^ n ≤ C) (hsmall : 2 * (C / 2) * (n + 64) < 4294967296)
    (f : List Bool → Nat) (hf : ∀ x, x.length = n → f x ≤ T) (g : env.G) (fg : env.F) :
    ∃ t, ∀ old : EstState a.backend env, ∃ st, loadText a .regressor gio old t = .ok st ∧ Reached a .regressor st ∧ Fitted a st ∧ AgreeBut (sizeParams .regressor) p st.params ∧
      (∀ (sc : Sched) (x : a.Sample), a.Built x → a.Good x → a.backend.size x = n → Gives (predictRegressor1 a.backend env sc st x) (f (a.bits x))) ∧
      ∀ (sc : Sched) (X : List a.Sample) (y : List Int) (ep : Nat) (st' : EstState a.backend env) (s : Status), DataTyped a X y →
        (∀ (x : a.Sample) (v : Int), (x, v) ∈ X.zip y → a.backend.size x = n ∧ v = f (a.bits x)) →
        partialFitRegressor a.backend env sc st X y ep = .ok (st', s) → s.code = .ok → a.learned st' = a.learned st := by
  obtain ⟨cfg, hk', hr, hv, -⟩ := Made.cfg hm
  have hT1 : 1 ≤ T := by
    have := intParam_unique hT hr.T
    have := hv.T
    omega
  have hpow : 2 ^ 1 ≤ 2 ^ n := Nat.pow_le_pow_right (by omega) hn
  have hTP : 2 ≤ T * 2 ^ n := Nat.le_trans hpow (Nat.le_mul_of_pos_left _ hT1)
  have e4 : 2 * T * 2 ^ n = 2 * (T * 2 ^ n) := Nat.mul_assoc ..
  have hK : T * 2 ^ n ≤ C / 2 := by omega
  let cl := responsesOf n (C / 2) f
  have hlen : cl.length = C / 2 := by
    show (List.map _ _).length = _
    rw [List.length_map, List.length_range]
  have hmod : ModelOf .regressor p 1 n cl (even p cl.length) := by
    refine modelOf_cells hm (Nat.le_refl _) (fun _ => rfl) (C := C) hC (by rw [hlen]; omega) ?_ (by omega) (by rw [hlen]; exact hsmall)
    intro c hc
    obtain ⟨o, -, rfl⟩ := List.mem_map.1 hc
    exact cell_row (sampleOf_length n _) _
  obtain ⟨t, ht⟩ := C80_any_text a hg hm hN hfl h32 hmod g fg
  refine ⟨t, fun old => ?_⟩
  obtain ⟨st, h1, h2, h3, h4, h5, -, -, -, h9, h10⟩ := ht old
  have pk : ∀ {key : String} {v : Int}, key ∉ sizeParams .regressor → IntParam p key v → IntParam st.params key v := by
    intro key v hk hv
    unfold IntParam at hv ⊢
    rw [h10 key hk, hv]
  have pk' : ∀ {key : String} {v : Int}, key ∉ sizeParams .regressor → IntParam st.params key v → IntParam p key v := by
    intro key v hk hv
    unfold IntParam at hv ⊢
    rw [← h10 key hk, hv]
  have hN' : StatesOk a st.params := fun N hN' => hN N (pk' (by decide) hN')
  have e2 : ((C : Int) / 2).toNat = C / 2 := by omega
  refine ⟨st, h1, h2, h3, h10, fun sc x hx hgd hs => ?_, fun sc X y ep st' s htd hlab hr hc => ?_⟩
  · have hb : (a.bits x).length = n := bits_length' hs
    have g1 := (C09_predict h2 hN' h3 (pk (by decide) hT) (pk (by decide) hC) h9 hx hgd (by rw [hs]) sc).1
    rw [h4, h5, e2, responses_response hK even_zero hb (hf _ hb) fun o ho => (responses_outs hn hb ho).2] at g1
    exact g1
  · refine (C84_regressor h2 hN' h3 htd hr hc (pk (by decide) hT) (pk (by decide) hC) fun x v hz => ?_).1
    obtain ⟨hs, hv⟩ := hlab x v hz
    have hb : (a.bits x).length = n := bits_length' hs
    rw [h4, h5, e2, responses_response hK even_zero hb (hf _ hb) fun o ho => (responses_outs hn hb ho).1, hv]

/-- Settings with which a classifier may learn "one or the other", and a regressor any function of two features up to 2. -/
def Toy.xorReq : Request .classifier :=
  .classifierArgs [.threshold 1, .clausesPerLabel 16, .states 3, .specificity (.fin 2), .seed 5#32]
def Toy.sumReq : Request .regressor :=
  .regressorArgs [.threshold 2, .regressorClauses 16, .states 3, .specificity (.fin 2), .seed 5#32]

def Toy.xorOf (x : List Bool) : Nat := (x.countP id) % 2
def Toy.sumOf (x : List Bool) : Nat := min 2 (x.countP id)

/-- The case of the theorems: "one or the other", which no single clause says, and the number of features that are true; both families. -/
theorem Toy.xor_made : Made .classifier (Toy.made Toy.xorReq) ∧ (∀ a, StatesOk a (Toy.made Toy.xorReq)) ∧ FloatsOk Toy.env.rnd (Toy.made Toy.xorReq) ∧
    IntParam (Toy.made Toy.xorReq) "threshold" (1 : Nat) ∧ IntParam (Toy.made Toy.xorReq) "number_of_clauses_per_label" (16 : Nat) :=
  ⟨Toy.made_of _ (by constructor <;> decide +kernel) (by decide +kernel), fun a => Toy.statesOk_of (N := 3) (by decide +kernel) (by cases a <;> decide),
    Toy.floats_of (by decide +kernel), by show Params.get? _ _ = _; decide +kernel, by show Params.get? _ _ = _; decide +kernel⟩

theorem Toy.sum_made : Made .regressor (Toy.made Toy.sumReq) ∧ (∀ a, StatesOk a (Toy.made Toy.sumReq)) ∧ FloatsOk Toy.env.rnd (Toy.made Toy.sumReq) ∧
    IntParam (Toy.made Toy.sumReq) "threshold" (2 : Nat) ∧ IntParam (Toy.made Toy.sumReq) "number_of_regressor_clauses" (16 : Nat) :=
  ⟨Toy.made_of _ (by constructor <;> decide +kernel) (by decide +kernel), fun a => Toy.statesOk_of (N := 3) (by decide +kernel) (by cases a <;> decide),
    Toy.floats_of (by decide +kernel), by show Params.get? _ _ = _; decide +kernel, by show Params.get? _ _ = _; decide +kernel⟩

example (a : Algo) (g : Toy.env.G) (fg : Toy.env.F) := C87_classifier (env := Toy.env) a Toy.gdoc_faithful Toy.xor_made.1 Toy.xor_made.2.2.1 (Toy.floats32_of (by decide +kernel)) (Toy.xor_made.2.1 a) (labels := 2) (n := 2)
  (by decide) (by decide) Toy.xor_made.2.2.2.1 Toy.xor_made.2.2.2.2 (by decide) (by decide) Toy.xorOf (fun _ _ => Nat.mod_lt _ (by decide)) g fg

example (a : Algo) (g : Toy.env.G) (fg : Toy.env.F) := C87_regressor (env := Toy.env) a Toy.gdoc_faithful Toy.sum_made.1 Toy.sum_made.2.2.1 (Toy.floats32_of (by decide +kernel)) (Toy.sum_made.2.1 a) (n := 2)
  (by decide) Toy.sum_made.2.2.2.1 Toy.sum_made.2.2.2.2 (by decide) (by decide) Toy.sumOf (fun _ _ => Nat.min_le_left _ _) g fg

end Tsetlini
