import Verif.Lemmas.Runs
import Verif.Lemmas.Float
import Verif.Props.Inference
import Verif.Spec.Accuracy
/-
C36 (evaluate is the accuracy of predict, and what it does with arguments predict rejects) and
C24 (a bitwise and a classic estimator with the same automata infer the same).
-/
namespace Tsetlini
open Res Spec

variable {a : Algo} {k : Kind} {env : Env} {st : EstState a.backend env}

/-! ### helpers -/

theorem mismatches_zip {ps y : List Int} (h : ps.length ≤ y.length) :
    mismatches ps y = ((ps.zip y).filter fun p => decide (p.1 ≠ p.2)).length := by
  unfold mismatches
  induction ps generalizing y with
  | nil => rfl
  | cons p ps ih =>
    cases y with
    | nil => simp at h
    | cons v y =>
      have := ih (y := y) (by simpa using h)
      rw [List.length_cons, List.range_succ_eq_map, List.zip_cons_cons, List.filter_cons, List.filter_cons,
        List.filter_map, List.getElem?_cons_zero, List.getElem?_cons_zero]
      have e : ((fun i => decide ((p :: ps)[i]? ≠ (v :: y)[i]?)) ∘ Nat.succ) = fun i => decide (ps[i]? ≠ y[i]?) := by
        funext i; simp
      rw [e]
      by_cases hpv : p = v
      · rw [if_neg (by simpa using hpv), if_neg (by simpa using hpv), List.length_map, this]
      · rw [if_pos (by simpa using hpv), if_pos (by simpa using hpv), List.length_cons, List.length_map, this,
          List.length_cons]

theorem mismatches_le (ps y : List Int) : mismatches ps y ≤ ps.length := by
  unfold mismatches
  exact Nat.le_trans (List.length_filter_le _ _) (by simp)

theorem errorsS_mismatches {cfg : Cfg} {labels : Nat} {ss : SState env} {X : List a.Sample} {y : List Int}
    (h : X.length ≤ y.length) :
    errorsS cfg labels ss a.lawful X y =
      mismatches (X.map fun x => (argmax (scoresS cfg labels ss (a.lawful.bits x)) : Int)) y := by
  rw [mismatches_zip (by simpa using h)]
  unfold errorsS
  rw [List.zip_map_left, List.filter_map, List.length_map]
  rfl

theorem evalLoop_short {B : Backend} {L : Lawful B} {cfg : Cfg} {labels nf : Nat} {st : EstState B env}
    {ss : SState env} (sc : Sched) (hv : Valid cfg) (hk : cfg.kind = .classifier) (h : Fit L cfg labels nf st ss)
    {X : List B.Sample} {y : List Int} (hX : ∀ x ∈ X, SOk L nf x) (hy : y.length < X.length)
    (n i : Nat) (hn : i + n = X.length) (hi : i ≤ y.length) {c0 c : Cache} (hc : CacheOk cfg labels c0 c) (e : Nat) :
    Tsetlini.evalLoop B sc st.ta (cfg.infer labels) X y (List.range' i n) (c, e) = .ub .oob := by
  induction n generalizing i c e with
  | zero => omega
  | succ n ih =>
    have hiX : i < X.length := by omega
    rw [List.range'_succ]
    unfold Tsetlini.evalLoop
    rw [rd_ok hiX, ok_bind]
    obtain ⟨c1, e1, h1, -⟩ := h.scores sc hv hk (hX _ (List.getElem_mem hiX)) hc
    rw [e1, ok_bind]
    rcases Nat.lt_or_ge i y.length with hlt | hge
    · rw [rd_ok hlt, ok_bind]
      exact ih (i + 1) (by omega) (by omega) h1 _
    · have : rd y i = .ub .oob := by
        unfold rd
        rw [List.getElem?_eq_none hge]
      rw [this]
      rfl

/-! ### C36 -/

/-- **C36**: where predict accepts the batch, and there are at least as many labels as samples, evaluate
returns one minus the fraction of wrong predictions, in binary32 arithmetic. -/
theorem C36_accuracy (h : Reached a .classifier st) (hN : StatesOk a st.params) {X : List a.Sample}
    (hX : ∀ x ∈ X, a.Built x) {y : List Int} (hy : X.length ≤ y.length) (sc sc' : Sched) {ps : List Int}
    (hp : Gives (predictClassifier a.backend env sc st X) ps) :
    Gives (evaluate a.backend env sc' st X y)
      (.fin (env.rnd (1 - env.rnd (env.rnd (mismatches ps y) / env.rnd X.length)))) := by
  obtain ⟨cfg, ss, h1, hv, h2, hS⟩ := Reached.sim h hN
  have hX' : ∀ x ∈ X, a.lawful.SInv x := fun x hx => (lawful_sinv a x).2 (hX x hx)
  obtain ⟨r, hr, -, -, hr2⟩ := predict_ref sc hv h1 hS hX'
  obtain ⟨s0, hp⟩ := hp
  rw [hp] at hr
  cases hr
  dsimp only at hr2
  obtain ⟨s, hs, hiff⟩ := hS.checkBatchS_ok hv hX'
  by_cases hc : s.code = .ok
  · obtain ⟨hne, L, nf, hsh, hok⟩ := hiff.1 hc
    have g1 := withShape_gives hsh ⟨s, hs, hc⟩ hr2
    cases g1
    obtain ⟨⟨st', r'⟩, hr', -, -, hev⟩ := evaluate_ref sc' hv h1 hS (X := X) (y := y) ⟨L, nf, hsh, hok, hy⟩
    refine ⟨st', ?_⟩
    rw [hr']
    unfold evaluateS at hev
    rw [hsh] at hev
    dsimp only at hev
    rw [if_neg (by simpa using hne), errorsS_mismatches hy] at hev
    cases hev
    rfl
  · have := withShape_rejects hs hc hr2
    cases this

/-- **C36**, the value: it lies in [0,1], is 1 if all predictions are right and 0 if all are wrong. -/
theorem C36_range (h : Reached a .classifier st) (hN : StatesOk a st.params) {X : List a.Sample}
    (hX : ∀ x ∈ X, a.Built x) {y : List Int} (hy : X.length ≤ y.length) (sc sc' : Sched) {ps : List Int}
    (hp : Gives (predictClassifier a.backend env sc st X) ps) :
    ∃ v, Gives (evaluate a.backend env sc' st X y) (.fin v) ∧ 0 ≤ v ∧ v ≤ 1 ∧
      (ps = y.take X.length → v = 1) ∧ ((∀ i : Nat, i < X.length → ps[i]? ≠ y[i]?) → v = 0) := by
  have hlen : ps.length = X.length ∧ X ≠ [] := by
    rcases C10_predict h hN hX sc sc with ⟨hne, -, vs, ⟨s1, e1⟩, hl, -⟩ | ⟨-, e, s1, e1⟩
    · obtain ⟨s0, hp⟩ := hp
      rw [hp] at e1; cases e1
      exact ⟨hl, hne⟩
    · obtain ⟨s0, hp⟩ := hp
      rw [hp] at e1; cases e1
  have hpos : 0 < X.length := List.length_pos_iff.2 hlen.2
  have hle := mismatches_le ps y
  rw [hlen.1] at hle
  have hn1 : (1 : Rat) ≤ env.rnd X.length := by
    have : ((1 : Int) : Rat) ≤ env.rnd X.length :=
      rnd_ge_int env (m := 1) (by decide) (by exact_mod_cast hpos)
    exact_mod_cast this
  have hn0 : env.rnd X.length ≠ 0 := fun e => by rw [e] at hn1; exact absurd hn1 (by decide)
  have hm0 : 0 ≤ env.rnd (mismatches ps y) := rnd_nonneg env (by exact_mod_cast Nat.zero_le _)
  have hmn : env.rnd (mismatches ps y) ≤ env.rnd X.length := env.rnd_mono_law _ _ (by exact_mod_cast hle)
  have hq0 : 0 ≤ env.rnd (mismatches ps y) / env.rnd X.length := by
    rw [Rat.div_def]
    exact Rat.mul_nonneg hm0 (Rat.le_of_lt (Rat.inv_pos.2 (by grind)))
  have hq1 : env.rnd (mismatches ps y) / env.rnd X.length ≤ 1 := by
    have hi : 0 < (env.rnd X.length)⁻¹ := Rat.inv_pos.2 (by grind)
    have := Rat.mul_le_mul_of_nonneg_right hmn (Rat.le_of_lt hi)
    rw [Rat.mul_inv_cancel _ hn0] at this
    rw [Rat.div_def]
    exact this
  refine ⟨_, C36_accuracy h hN hX hy sc sc' hp, ?_, ?_, ?_, ?_⟩
  · exact rnd_nonneg env (by have := rnd_le_one env hq1; grind)
  · exact rnd_le_one env (by have := rnd_nonneg env hq0; grind)
  · intro e
    have : mismatches ps y = 0 := by
      unfold mismatches
      rw [List.length_eq_zero_iff, List.filter_eq_nil_iff]
      intro i hi
      have hi : i < ps.length := List.mem_range.1 hi
      rw [e, List.getElem?_take_of_lt (by omega)]
      simp
    rw [this]
    show env.rnd (1 - env.rnd (env.rnd 0 / _)) = 1
    rw [rnd_zero, Rat.div_def, Rat.zero_mul, rnd_zero]
    show env.rnd (1 - 0) = 1
    rw [show (1 : Rat) - 0 = 1 by grind, rnd_one]
  · intro e
    have : mismatches ps y = X.length := by
      unfold mismatches
      rw [List.filter_eq_self.2 (fun i hi => decide_eq_true (e i (by rw [← hlen.1]; exact List.mem_range.1 hi))),
        List.length_range, hlen.1]
    rw [this, Rat.div_def, Rat.mul_inv_cancel _ hn0, rnd_one, Rat.sub_self, rnd_zero]

/-- One of four predictions is wrong. -/
example : Gives (predictClassifier classic Toy.env Toy.seq Toy.cc Toy.X) [1, 0, 0, 1] ∧
    mismatches [1, 0, 0, 1] [1, 0, 2, 1] = 1 ∧
    (match evaluate classic Toy.env Toy.rev Toy.cc Toy.X [1, 0, 2, 1] with
      | .ok (_, .ok v) => v
      | _ => .nan) = .fin (3 / 4) := by
  refine ⟨?_, ?_, ?_⟩
  · have : (match predictClassifier classic Toy.env Toy.seq Toy.cc Toy.X with
      | .ok (_, .ok s) => s
      | _ => []) = [1, 0, 0, 1] := by decide +kernel
    generalize predictClassifier classic Toy.env Toy.seq Toy.cc Toy.X = r at this ⊢
    match r, this with
    | .ok (s, .ok v), h => exact ⟨s, by rw [show v = _ from h]⟩
  · decide
  · decide +kernel

/-- **C36**: it validates nothing, so on an unfitted estimator it throws. -/
theorem C36_unfitted (h : Reached a .classifier st) (hN : StatesOk a st.params) (hf : ¬ Fitted a st)
    (X : List a.Sample) (y : List Int) (sc : Sched) : ∃ e, evaluate a.backend env sc st X y = .exn e := by
  obtain ⟨cfg, ss, h1, hv, h2, hU⟩ := reached_unfit h hN hf
  unfold evaluate
  obtain ⟨e, he⟩ : ∃ e, inferCfg st.params = .exn e := by
    unfold inferCfg Params.numberOfLabels Params.getInt Params.at'
    have hl := hU.labelsP
    cases hg : st.params.get? "number_of_labels" with
    | none => exact ⟨_, rfl⟩
    | some v =>
      rw [hg] at hl
      cases v with
      | int i => exact absurd rfl (hl i)
      | _ => exact ⟨_, rfl⟩
  rw [he]
  exact ⟨e, rfl⟩

example : ¬ Fitted .classic (EstState.fresh classic Toy.env Toy.cParams) := by
  show ¬ (Algo.classic.counters (EstState.fresh classic Toy.env Toy.cParams) ≠ []); decide +kernel

/-- **C36**: on a fitted estimator an empty batch, which predict rejects, has the accuracy NaN. -/
theorem C36_empty (h : Reached a .classifier st) (hN : StatesOk a st.params) (hf : Fitted a st)
    (y : List Int) (sc : Sched) : Gives (evaluate a.backend env sc st [] y) .nan := by
  obtain ⟨cfg, L, nf, ss, h1, hv, h2, hF⟩ := reached_fit h hN hf
  obtain ⟨⟨st', r'⟩, hr', -, -, hev⟩ := evaluate_ref sc hv h1 (.inr ⟨_, _, hF⟩) (X := []) (y := y)
    ⟨L, nf, hF.shape, by simp, by simp⟩
  refine ⟨st', ?_⟩
  rw [hr']
  unfold evaluateS at hev
  rw [hF.shape] at hev
  cases hev
  rfl

/-- **C36**: with fewer labels than samples it reads past the end of the labels. -/
theorem C36_short_labels (h : Reached a .classifier st) (hN : StatesOk a st.params)
    {X : List a.Sample} (hX : ∀ x ∈ X, a.Built x) {y : List Int} (hy : y.length < X.length) (sc sc' : Sched)
    {ps : List Int} (hp : Gives (predictClassifier a.backend env sc st X) ps) :
    evaluate a.backend env sc' st X y = .ub .oob := by
  obtain ⟨cfg, ss, h1, hv, h2, hS⟩ := Reached.sim h hN
  have hX' : ∀ x ∈ X, a.lawful.SInv x := fun x hx => (lawful_sinv a x).2 (hX x hx)
  obtain ⟨r, hr, -, -, hr2⟩ := predict_ref sc hv h1 hS hX'
  obtain ⟨s0, hp⟩ := hp
  rw [hp] at hr
  cases hr
  dsimp only at hr2
  obtain ⟨s, hs, hiff⟩ := hS.checkBatchS_ok hv hX'
  by_cases hc : s.code = .ok
  · obtain ⟨hne, L, nf, hsh, hok⟩ := hiff.1 hc
    rcases hS with hU | ⟨L', nf', hF⟩
    · rw [hU.shape] at hsh; cases hsh
    have e' := hF.shape; rw [hsh] at e'; cases e'
    unfold evaluate
    rw [hF.inferCfg hv h1, ok_bind, List.range_eq_range',
      evalLoop_short sc' hv h1 hF hok hy X.length 0 (by omega) (by omega) hF.cacheOk 0]
    rfl
  · have := withShape_rejects hs hc hr2
    cases this

/-- **C36**: predict rejects a sample wider than the training data; evaluate reads past the automata. -/
theorem C36_wide_row : Reached .classic .classifier Toy.cc ∧ Fitted .classic Toy.cc ∧
    IntParam Toy.cc.params "number_of_features" 3 ∧
    evaluate classic Toy.env Toy.seq Toy.cc ([[1, 0, 1, 1]] : List ClassicSample) [1] = .ub .oob := by
  refine ⟨Toy.cc_reached, Toy.cc_fitted, ?_, ?_⟩
  · show Params.get? _ _ = _; decide +kernel
  · have : (match evaluate classic Toy.env Toy.seq Toy.cc ([[1, 0, 1, 1]] : List ClassicSample) [1] with
      | .ub u => some u
      | _ => none) = some .oob := by decide +kernel
    generalize evaluate classic Toy.env Toy.seq Toy.cc ([[1, 0, 1, 1]] : List ClassicSample) [1] = r at this ⊢
    match r, this with
    | .ub u, h => rw [show u = _ from Option.some.inj h]

/-! ### C24 -/

/-- A classic and a bitwise estimator with the same automata and the parameters inference uses. -/
structure SameModel (stc : EstState Algo.classic.backend env) (stb : EstState Algo.bitwise.backend env) : Prop where
  counters : Algo.classic.counters stc = Algo.bitwise.counters stb
  weights : stc.ta.weights = stb.ta.weights
  params : ∀ key ∈ ["threshold", "number_of_labels", "number_of_features", "number_of_clauses_per_label",
    "number_of_regressor_clauses"], stc.params.get? key = stb.params.get? key

theorem SameModel.clauses {stc : EstState Algo.classic.backend env} {stb : EstState Algo.bitwise.backend env}
    (hm : SameModel stc stb) : Algo.classic.clauses stc = Algo.bitwise.clauses stb := by
  unfold Algo.clauses
  rw [hm.counters]

section
variable {stc : EstState Algo.classic.backend env} {stb : EstState Algo.bitwise.backend env}
  {xc : Algo.classic.Sample} {xb : Algo.bitwise.Sample}

theorem bits_length_classic (x : ClassicSample) : (Algo.classic.bits x).length = x.length := List.length_map _
theorem bits_length_bitwise (x : BitVector) : (Algo.bitwise.bits x).length = x.len :=
  (List.length_map _).trans List.length_range

theorem same_size (hbits : Algo.classic.bits xc = Algo.bitwise.bits xb) :
    Algo.classic.backend.size xc = Algo.bitwise.backend.size xb := by
  have := congrArg List.length hbits
  exact (bits_length_classic xc).symm.trans (this.trans (bits_length_bitwise xb))

theorem SameModel.fitted (hm : SameModel stc stb) (hf : Fitted .classic stc) : Fitted .bitwise stb := by
  unfold Fitted at hf ⊢
  rw [← hm.counters]; exact hf

theorem SameModel.int (hm : SameModel stc stb) {key : String} {v : Int} (hv : IntParam stc.params key v)
    (hk : key ∈ ["threshold", "number_of_labels", "number_of_features", "number_of_clauses_per_label",
      "number_of_regressor_clauses"]) : IntParam stb.params key v := by
  unfold IntParam at hv ⊢
  rw [← hm.params _ hk]; exact hv

/-- **C24** for clause outputs. -/
theorem C24_outputs (hc : Reached .classic k stc) (hb : Reached .bitwise k stb)
    (hNc : StatesOk .classic stc.params) (hNb : StatesOk .bitwise stb.params) (hm : SameModel stc stb)
    {n : Int} (hn : IntParam stc.params "number_of_features" n)
    (hxb : Algo.bitwise.Built xb) (hgc : Algo.classic.Good xc) (hgb : Algo.bitwise.Good xb)
    (hs : Algo.classic.backend.size xc = n) (hbits : Algo.classic.bits xc = Algo.bitwise.bits xb)
    {o : Nat} (ho : o < (Algo.classic.clauses stc).length) (t t' : Tile) :
    ∃ v v', Algo.classic.backend.clauseOut t stc.ta.mat o xc = .ok v ∧
      Algo.bitwise.backend.clauseOut t' stb.ta.mat o xb = .ok v ∧
      Algo.classic.backend.clauseOutPruned t stc.ta.mat o xc = .ok v' ∧
      Algo.bitwise.backend.clauseOutPruned t' stb.ta.mat o xb = .ok v' := by
  have hsz : Algo.bitwise.backend.size xb = n := by rw [← same_size hbits]; exact hs
  have hnb := hm.int hn (by simp)
  obtain ⟨c, hco⟩ : ∃ c, (Algo.classic.clauses stc)[o]? = some c := ⟨_, List.getElem?_eq_getElem ho⟩
  have hbo := hco
  rw [hm.clauses] at hbo
  obtain ⟨v, e1, i1⟩ := C04_training_output hc hNc hn trivial hgc hs hco t
  obtain ⟨w, e2, i2⟩ := C04_training_output hb hNb hnb hxb hgb hsz hbo t'
  obtain ⟨v', e3, i3⟩ := C04_prediction_output hc hNc hn trivial hgc hs hco t
  obtain ⟨w', e4, i4⟩ := C04_prediction_output hb hNb hnb hxb hgb hsz hbo t'
  rw [← hbits] at i2 i4
  have hvw : w = v := Bool.eq_iff_iff.2 (i2.trans i1.symm)
  have hvw' : w' = v' := Bool.eq_iff_iff.2 (i4.trans i3.symm)
  exact ⟨v, v', e1, hvw ▸ e2, e3, hvw' ▸ e4⟩

/-- **C24** for decision_function. -/
theorem C24_decision (hc : Reached .classic .classifier stc) (hb : Reached .bitwise .classifier stb)
    (hNc : StatesOk .classic stc.params) (hNb : StatesOk .bitwise stb.params) (hm : SameModel stc stb)
    (hf : Fitted .classic stc) {n : Int} (hn : IntParam stc.params "number_of_features" n)
    (hxb : Algo.bitwise.Built xb) (hgc : Algo.classic.Good xc) (hgb : Algo.bitwise.Good xb)
    (hs : Algo.classic.backend.size xc = n) (hbits : Algo.classic.bits xc = Algo.bitwise.bits xb)
    (sc sc' : Sched) :
    ∃ scores, Gives (decision1 classic env sc stc xc) scores ∧ Gives (decision1 bitwise env sc' stb xb) scores := by
  have hsz : Algo.bitwise.backend.size xb = n := by rw [← same_size hbits]; exact hs
  obtain ⟨cfg, L, nf, ss, h1, hv, h2, hF⟩ := reached_fit hc hNc hf
  have hT : IntParam stc.params "threshold" cfg.T := hF.reads.T
  have hl : IntParam stc.params "number_of_labels" L := hF.labelsP h1
  have hcl : IntParam stc.params "number_of_clauses_per_label" cfg.clauses := by
    have := hF.reads.clauses
    unfold Cfg.clauseKey at this
    rw [h1] at this
    exact this
  obtain ⟨s1, g1, l1, e1, -⟩ := C07_decision hc hNc hf hT hl hcl hn trivial hgc hs sc
  obtain ⟨s2, g2, l2, e2, -⟩ := C07_decision hb hNb (hm.fitted hf) (hm.int hT (by simp)) (hm.int hl (by simp))
    (hm.int hcl (by simp)) (hm.int hn (by simp)) hxb hgb hsz sc'
  refine ⟨s1, g1, ?_⟩
  have : s1 = s2 := by
    apply List.ext_getElem?
    intro i
    by_cases hi : (i : Int) < (L : Int)
    · rw [e1 i hi, e2 i hi, hm.clauses, hm.weights, hbits]
    · rw [List.getElem?_eq_none (by omega), List.getElem?_eq_none (by omega)]
  rw [this]; exact g2

/-- **C24** for classifier predictions. -/
theorem C24_predict (hc : Reached .classic .classifier stc) (hb : Reached .bitwise .classifier stb)
    (hNc : StatesOk .classic stc.params) (hNb : StatesOk .bitwise stb.params) (hm : SameModel stc stb)
    (hf : Fitted .classic stc) {n : Int} (hn : IntParam stc.params "number_of_features" n)
    (hxb : Algo.bitwise.Built xb) (hgc : Algo.classic.Good xc) (hgb : Algo.bitwise.Good xb)
    (hs : Algo.classic.backend.size xc = n) (hbits : Algo.classic.bits xc = Algo.bitwise.bits xb)
    (sc sc' : Sched) :
    ∃ label, Gives (predictClassifier1 classic env sc stc xc) label ∧
      Gives (predictClassifier1 bitwise env sc' stb xb) label := by
  obtain ⟨scores, g1, g2⟩ := C24_decision hc hb hNc hNb hm hf hn hxb hgc hgb hs hbits sc sc'
  obtain ⟨cfg, L, nf, ss, h1, hv, h2, hF⟩ := reached_fit hc hNc hf
  have hl : IntParam stc.params "number_of_labels" L := hF.labelsP h1
  obtain ⟨i, p1, f1, -⟩ := C08_predict hc hNc hl (x := xc) trivial sc sc g1
  obtain ⟨j, p2, f2, -⟩ := C08_predict hb hNb (hm.int hl (by simp)) hxb sc' sc' g2
  have hij : i = j := by
    obtain ⟨m, m1, m2, m3⟩ := f1
    obtain ⟨q, q1, q2, q3⟩ := f2
    rcases Nat.lt_trichotomy i j with h | h | h
    · have a1 := q3 i m h m1
      have a2 := m2 q (List.mem_of_getElem? q1)
      omega
    · exact h
    · have a1 := m3 j q h q1
      have a2 := q2 m (List.mem_of_getElem? m1)
      omega
  exact ⟨i, p1, hij ▸ p2⟩

/-- **C24** for regressor predictions. -/
theorem C24_predict_regressor (hc : Reached .classic .regressor stc) (hb : Reached .bitwise .regressor stb)
    (hNc : StatesOk .classic stc.params) (hNb : StatesOk .bitwise stb.params) (hm : SameModel stc stb)
    (hf : Fitted .classic stc) {n : Int} (hn : IntParam stc.params "number_of_features" n)
    (hxb : Algo.bitwise.Built xb) (hgc : Algo.classic.Good xc) (hgb : Algo.bitwise.Good xb)
    (hs : Algo.classic.backend.size xc = n) (hbits : Algo.classic.bits xc = Algo.bitwise.bits xb)
    (sc sc' : Sched) :
    ∃ v, Gives (predictRegressor1 classic env sc stc xc) v ∧ Gives (predictRegressor1 bitwise env sc' stb xb) v := by
  have hsz : Algo.bitwise.backend.size xb = n := by rw [← same_size hbits]; exact hs
  obtain ⟨cfg, L, nf, ss, h1, hv, h2, hF⟩ := reached_fit hc hNc hf
  have hT : IntParam stc.params "threshold" cfg.T := hF.reads.T
  have hcl : IntParam stc.params "number_of_regressor_clauses" cfg.clauses := by
    have := hF.reads.clauses
    unfold Cfg.clauseKey at this
    rw [h1] at this
    exact this
  have g1 := (C09_predict hc hNc hf hT hcl hn (x := xc) trivial hgc hs sc).1
  have g2 := (C09_predict hb hNb (hm.fitted hf) (hm.int hT (by simp)) (hm.int hcl (by simp)) (hm.int hn (by simp))
    hxb hgb hsz sc').1
  rw [← hm.clauses, ← hm.weights, ← hbits] at g2
  exact ⟨_, g1, g2⟩

end

/-- A classic and a bitwise classifier with the same automata: both after a call of fit. -/
example :
    let stc := Toy.after .classic Toy.cParams [.fit Toy.X [0, 1, 2, 1] 0 0]
    let stb := Toy.after .bitwise Toy.cParams [.fit Toy.XB [0, 1, 2, 1] 0 0]
    Reached .classic .classifier stc ∧ Reached .bitwise .classifier stb ∧ SameModel stc stb ∧ Fitted .classic stc ∧
      Algo.classic.bits ([1, 0, 1] : ClassicSample) = Algo.bitwise.bits (⟨3, [5]⟩ : BitVector) := by
  refine ⟨Toy.reached_of Toy.cMade (by decide +kernel) (by decide +kernel),
    Toy.reached_of Toy.cMade (by decide +kernel) (by decide +kernel), ⟨by decide +kernel, by decide +kernel, ?_⟩,
    ?_, by decide +kernel⟩
  · intro key hk
    simp only [List.mem_cons, List.not_mem_nil, or_false] at hk
    rcases hk with rfl | rfl | rfl | rfl | rfl <;> decide +kernel
  · show Algo.classic.counters _ ≠ []
    decide +kernel

end Tsetlini
