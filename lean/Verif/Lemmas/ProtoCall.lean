import Verif.Lemmas.Proto
import Verif.Lemmas.Runs
/- A read-only call in flight on an estimator, whatever other calls do meanwhile. -/
namespace Tsetlini
open Res Spec

variable {α β σ ι : Type}

theorem CallCode.ofRes_ok_bind {a : α} {f : α → CallCode β} : (CallCode.ofRes (.ok a)).bind f = f a := rfl

theorem iter_each_ok {f : ι → σ → Res σ} {l : List ι} {s s' : σ} (h : iter l f s = .ok s') : ∀ i ∈ l, ∃ t t', f i t = .ok t' := by
  induction l generalizing s with
  | nil => simp
  | cons j l ih =>
    rw [iter_cons, bind_eq_ok] at h
    obtain ⟨t1, h1, h2⟩ := h
    intro i hi
    rcases List.mem_cons.1 hi with rfl | hi
    · exact ⟨_, _, h1⟩
    · exact ih h2 i hi

theorem outputs_all_ok {sc : Sched} {clause : Nat → Res Bool} {n : Nat} {c c' : Cache} (h : outputsLoop sc clause 0 n c = .ok c') :
    ∀ o, o < n → ∃ v, clause o = .ok v := by
  intro o ho
  unfold outputsLoop at h
  rw [bind_eq_ok] at h
  obtain ⟨out, h1, -⟩ := h
  obtain ⟨t, t', h2⟩ := iter_each_ok h1 o (by rw [(sc.order_law _ 0 n).mem_iff, mem_range]; omega)
  rw [bind_eq_ok] at h2
  obtain ⟨v, h2, -⟩ := h2
  exact ⟨v, h2⟩

theorem batchC_all_ok {sc : Sched} {B : Backend} {ta : TA B} {i : InferCfg} {f : List Int → α} {X : List B.Sample} {c : Cache} {r : Cache × List α}
    (h : batchLoopC B sc ta i f X c = .ok r) : ∀ x ∈ X, ∃ c c', scores B sc ta i x c = .ok c' := by
  induction X generalizing c r with
  | nil => simp
  | cons y X ih =>
    unfold batchLoopC at h
    rw [bind_eq_ok] at h
    obtain ⟨c1, h1, h2⟩ := h
    rw [bind_eq_ok] at h2
    obtain ⟨_, h2, -⟩ := h2
    intro x hx
    rcases List.mem_cons.1 hx with rfl | hx
    · exact ⟨_, _, h1⟩
    · exact ih h2 x hx

theorem batchR_all_ok {sc : Sched} {B : Backend} {ta : TA B} {t : Tile} {outputs T : Int} {X : List B.Sample} {c : Cache} {r : Cache × List Int}
    (h : batchLoopR B sc ta t outputs T X c = .ok r) : ∀ x ∈ X, ∃ c c', responseInto B sc ta t outputs T x c = .ok c' := by
  induction X generalizing c r with
  | nil => simp
  | cons y X ih =>
    unfold batchLoopR at h
    rw [bind_eq_ok] at h
    obtain ⟨c1, h1, h2⟩ := h
    rw [bind_eq_ok] at h2
    obtain ⟨_, h2, -⟩ := h2
    intro x hx
    rcases List.mem_cons.1 hx with rfl | hx
    · exact ⟨_, _, h1⟩
    · exact ih h2 x hx

theorem eval_all_ok {sc : Sched} {B : Backend} {ta : TA B} {i : InferCfg} {X : List B.Sample} {y : List Int} {its : List Nat}
    {s r : Cache × Nat} (h : evalLoop B sc ta i X y its s = .ok r) :
    ∀ it ∈ its, (∃ x yi, rd X it = .ok x ∧ rd y it = .ok yi ∧ ∃ c c', scores B sc ta i x c = .ok c') := by
  induction its generalizing s with
  | nil => simp
  | cons j its ih =>
    unfold evalLoop at h
    rw [bind_eq_ok] at h
    obtain ⟨x, h0, h⟩ := h
    rw [bind_eq_ok] at h
    obtain ⟨c1, h1, h⟩ := h
    rw [bind_eq_ok] at h
    obtain ⟨yi, h2, h⟩ := h
    intro it hit
    rcases List.mem_cons.1 hit with rfl | hit
    · exact ⟨x, yi, h0, h2, _, _, h1⟩
    · exact ih h it hit

/-- The rules for an estimator with clauses of outputs `So`: label sums are sums of such outputs. -/
def rulesOf {B : Backend} {env : Env} (st : EstState B env) (cfg : Cfg) (So : Nat → Bool → Prop) : Rules where
  no := st.cache.clauseOutput.length
  ns := st.cache.labelSum.length
  So := So
  Ss := fun t s => ∃ v : Nat → Bool, (∀ o, t * cfg.k ≤ o → o < t * cfg.k + cfg.k → So o (v o)) ∧ s = score v st.ta.weights cfg.k cfg.T t

section
variable {B : Backend} {L : Lawful B} {env : Env} {cfg : Cfg} {st : EstState B env} {ss : SState env} {labels nf : Nat}
  {So : Nat → Bool → Prop} {D : Known} {sc sc' : Sched} {tick : Nat}

/-- The clauses' values for a sample may be stored. -/
def ValuesOk (st : EstState B env) (cfg : Cfg) (So : Nat → Bool → Prop) (x : B.Sample) : Prop :=
  ∀ o v, B.clauseOutPruned (tileOf cfg.tile) st.ta.mat o x = .ok v → So o v

theorem proto_scores (hv : Valid cfg) (hk : cfg.kind = .classifier) (h : Fit L cfg labels nf st ss) {x : B.Sample}
    (hx : ValuesOk st cfg So x) {c c' : Cache} (hs : scores B sc' st.ta (cfg.infer labels) x c = .ok c') :
    Proto (rulesOf st cfg So) (fun D' _ => sumsKnown st.cache.labelSum.length D') D (labels * cfg.k + labels * (cfg.k + 1))
      (scoresCode B sc tick st.ta (cfg.infer labels) x) := by
  unfold scores scoresInto at hs
  rw [bind_eq_ok] at hs
  obtain ⟨c1, h1, -⟩ := hs
  have hT := hv.T
  have hco := h.coLen
  have hls := h.lsLen hk
  have hw := h.wok hv
  rw [← h.w] at hw
  have hn : (cfg.infer labels).outputs.toNat = labels * cfg.k := Int.toNat_natCast _
  unfold scoresCode
  rw [hn] at h1 ⊢
  refine Proto.bind (proto_outputs (fun o ho => ?_) (by show _ ≤ st.cache.clauseOutput.length; omega)) ?_
  · obtain ⟨v, e⟩ := outputs_all_ok h1 o ho
    exact ⟨v, e, hx o v e⟩
  · rintro D' - ⟨hD, -⟩
    refine (proto_allVotes (R := rulesOf st cfg So) (labels := labels) (k := cfg.k) (T := cfg.T) hw (h.small' hv) (by omega) (by show _ ≤ st.cache.clauseOutput.length; omega)
      (by show _ ≤ st.cache.labelSum.length; omega) hD (fun t _ v hvv => ⟨v, hvv, rfl⟩)).mono ?_
    rintro D'' - ⟨h2, -⟩
    rw [hls]; exact h2

theorem proto_response (hv : Valid cfg) (hk : cfg.kind = .regressor) (h : Fit L cfg labels nf st ss) {x : B.Sample}
    (hx : ValuesOk st cfg So x) {c : Cache} {r : Cache × Int} (hs : responseInto B sc' st.ta (tileOf cfg.tile) (cfg.k : Int) cfg.T x c = .ok r) :
    Proto (rulesOf st cfg So) (fun _ r => 0 ≤ r ∧ r ≤ cfg.T) D (cfg.k + cfg.k)
      (responseCode B sc tick st.ta (tileOf cfg.tile) (cfg.k : Int) cfg.T st.cache.clauseOutput.length x) := by
  unfold responseInto at hs
  rw [bind_eq_ok] at hs
  obtain ⟨c1, h1, -⟩ := hs
  have hT := hv.T
  have h1' := h.reg1 hk
  subst h1'
  have hco := h.coLen
  have hw := h.wok hv
  have hsm := h.small' hv
  rw [← h.w] at hw
  rw [Nat.one_mul] at hw hco hsm
  unfold responseCode
  rw [Int.toNat_natCast] at h1 ⊢
  refine Proto.bind (proto_outputs (fun o ho => ?_) (by show _ ≤ st.cache.clauseOutput.length; omega)) ?_
  · obtain ⟨v, e⟩ := outputs_all_ok h1 o ho
    exact ⟨v, e, hx o v e⟩
  · rintro D' - ⟨hD, -⟩
    rw [hco]
    refine (proto_regressorVotes hw hsm (by omega) (by show _ ≤ st.cache.clauseOutput.length; omega) hD).mono ?_
    rintro D'' r ⟨-, v, -, rfl⟩
    exact clampTo_range _ (by omega)

theorem proto_scoresMax (hv : Valid cfg) (hk : cfg.kind = .classifier) (h : Fit L cfg labels nf st ss) {x : B.Sample}
    (hx : ValuesOk st cfg So x) {c c' : Cache} (hs : scores B sc' st.ta (cfg.infer labels) x c = .ok c')
    {f : Nat → CallCode β} {Q : β → Prop} (hf : ∀ D m, m < labels → Proto (rulesOf st cfg So) (fun _ b => Q b) D 0 (f m)) :
    Proto (rulesOf st cfg So) (fun _ b => Q b) D (labels * cfg.k + labels * (cfg.k + 1) + ((labels - 1) * 2 + 0))
      ((scoresCode B sc tick st.ta (cfg.infer labels) x).bind fun _ => (argmaxCode st.cache.labelSum.length).bind f) := by
  have hls := h.lsLen hk
  have hpos := h.pos
  refine Proto.bind (proto_scores hv hk h hx hs) fun D' _ hD => ?_
  have := proto_argmax (R := rulesOf st cfg So) (D := D') (by show 0 < st.cache.labelSum.length; omega) hD
  rw [show (rulesOf st cfg So).ns = labels from hls] at this
  rw [hls]
  exact Proto.bind this fun D'' m ⟨_, hm⟩ => hf _ m hm

theorem proto_scoresCopy (hv : Valid cfg) (hk : cfg.kind = .classifier) (h : Fit L cfg labels nf st ss) {x : B.Sample}
    (hx : ValuesOk st cfg So x) {c c' : Cache} (hs : scores B sc' st.ta (cfg.infer labels) x c = .ok c')
    {f : List Int → CallCode β} {Q : β → Prop}
    (hf : ∀ D l, l.length = labels → (∀ s ∈ l, -cfg.T ≤ s ∧ s ≤ cfg.T) → Proto (rulesOf st cfg So) (fun _ b => Q b) D 0 (f l)) :
    Proto (rulesOf st cfg So) (fun _ b => Q b) D (labels * cfg.k + labels * (cfg.k + 1) + (labels + 0))
      ((scoresCode B sc tick st.ta (cfg.infer labels) x).bind fun _ => (copyCode st.cache.labelSum.length).bind f) := by
  have hls := h.lsLen hk
  have hpos := h.pos
  refine Proto.bind (proto_scores hv hk h hx hs) fun D' _ hD => ?_
  have := proto_copy (R := rulesOf st cfg So) (D := D') (n := st.cache.labelSum.length) rfl hD
  rw [show (rulesOf st cfg So).ns = labels from hls] at this
  refine Proto.bind this fun D'' l ⟨_, hl, hm⟩ => hf _ l hl fun s hs => ?_
  obtain ⟨i, hi⟩ := List.mem_iff_getElem?.1 hs
  obtain ⟨v, -, rfl⟩ := hm i s hi
  exact score_range hv.T

/-- How a call that checks one sample begins. -/
theorem Sim.codeStart (hv : Valid cfg) (h : Sim L cfg st ss) {x : B.Sample} {sm : Status}
    (h0 : checkForPredict B st.ta st.params x = .ok sm) : sm.code ≠ .ok ∨ ∃ labels nf, Fit L cfg labels nf st ss := by
  rw [h.check hv] at h0
  rcases h with h | h
  · rw [h.shape] at h0; cases h0; exact .inl (by decide)
  · exact .inr h

theorem Sim.codeStartBatch (hv : Valid cfg) (h : Sim L cfg st ss) {X : List B.Sample} {sm : Status}
    (h0 : checkForPredictBatch B st.ta st.params X = .ok sm) : sm.code ≠ .ok ∨ ∃ labels nf, Fit L cfg labels nf st ss := by
  rw [h.checkBatch hv] at h0
  rcases h with h | h
  · rw [h.shape] at h0; cases h0; exact .inl (by decide)
  · exact .inr h

/-- Results of the right form. -/
def PlausibleFor (st : EstState B env) (cfg : Cfg) (k : Kind) (o : Out) : Prop :=
  ∀ labels : Int, (k = .classifier → st.params.get? "number_of_labels" = some (.int labels)) → Plausible labels cfg.T k o

theorem Fit.labelsIs (h : Fit L cfg labels nf st ss) (hk : cfg.kind = .classifier) {l : Int}
    (hl : st.params.get? "number_of_labels" = some (.int l)) : l = labels := by
  rw [h.labelsP hk] at hl; simpa using hl.symm

/-- A read-only call that returns when made alone also returns, with a result of the right form, when other
calls work in the same memory. -/
theorem proto_call {k : Kind} (hv : Valid cfg) (hk : cfg.kind = k) (h : Sim L cfg st ss) {c : Call B.Sample k} (hc : c.Reads)
    (hx : ∀ x ∈ c.samples, ValuesOk st cfg So x) {st' : EstState B env} {o : Out} (hs : step B env sc' c st = .ok (st', o)) :
    ∃ n, Proto (rulesOf st cfg So) (fun _ o => PlausibleFor st cfg k o) D n (callCode sc st c) := by
  cases c with
  | fit => exact hc.elim
  | partialFit => exact hc.elim
  | fitR => exact hc.elim
  | partialFitR => exact hc.elim
  | predict1 x =>
    simp only [step, tagged, predictClassifier1] at hs
    rw [bind_eq_ok] at hs
    obtain ⟨⟨s, r⟩, hs, -⟩ := hs
    rw [bind_eq_ok] at hs
    obtain ⟨sm, h0, hs⟩ := hs
    simp only [callCode, predictClassifier1Code]
    rw [h0, CallCode.ofRes_ok_bind]
    rcases h.codeStart hv h0 with h1 | ⟨labels, nf, hf⟩
    · rw [if_pos h1]; exact ⟨0, .ret fun _ _ => trivial⟩
    · by_cases h1 : sm.code ≠ .ok
      · rw [if_pos h1]; exact ⟨0, .ret fun _ _ => trivial⟩
      · rw [if_neg h1] at hs ⊢
        rw [hf.inferCfg hv hk, ok_bind] at hs
        rw [bind_eq_ok] at hs
        obtain ⟨c, h2, -⟩ := hs
        rw [hf.inferCfg hv hk]
        refine ⟨_, Proto.bind (p := 0) (Proto.after rfl (proto_scoresMax hv hk hf (hx x (List.mem_singleton.2 rfl)) h2
          (Q := fun b => ∃ v : Int, b = .ok v ∧ 0 ≤ v ∧ v < labels) fun D m hm => .ret ⟨_, rfl, by omega, by omega⟩)) ?_⟩
        rintro D' _ ⟨v, rfl, h3, h4⟩
        refine .ret fun l hl => ?_
        have := hf.labelsIs hk (hl rfl)
        subst this
        exact ⟨h3, h4⟩
  | decision1 x =>
    simp only [step, tagged, decision1] at hs
    rw [bind_eq_ok] at hs
    obtain ⟨⟨s, r⟩, hs, -⟩ := hs
    rw [bind_eq_ok] at hs
    obtain ⟨sm, h0, hs⟩ := hs
    simp only [callCode, decision1Code]
    rw [h0, CallCode.ofRes_ok_bind]
    rcases h.codeStart hv h0 with h1 | ⟨labels, nf, hf⟩
    · rw [if_pos h1]; exact ⟨0, .ret fun _ _ => trivial⟩
    · by_cases h1 : sm.code ≠ .ok
      · rw [if_pos h1]; exact ⟨0, .ret fun _ _ => trivial⟩
      · rw [if_neg h1] at hs ⊢
        rw [hf.inferCfg hv hk, ok_bind] at hs
        rw [bind_eq_ok] at hs
        obtain ⟨c, h2, -⟩ := hs
        rw [hf.inferCfg hv hk]
        refine ⟨_, Proto.bind (p := 0) (Proto.after rfl (proto_scoresCopy hv hk hf (hx x (List.mem_singleton.2 rfl)) h2
          (Q := fun b => ∃ v : List Int, b = .ok v ∧ v.length = labels ∧ ∀ s ∈ v, -cfg.T ≤ s ∧ s ≤ cfg.T)
          fun D l h3 h4 => .ret ⟨_, rfl, h3, h4⟩)) ?_⟩
        rintro D' _ ⟨v, rfl, h3, h4⟩
        refine .ret fun l hl => ?_
        have := hf.labelsIs hk (hl rfl)
        subst this
        exact ⟨by rw [h3], h4⟩
  | predict X =>
    simp only [step, tagged, predictClassifier] at hs
    rw [bind_eq_ok] at hs
    obtain ⟨⟨s, r⟩, hs, -⟩ := hs
    rw [bind_eq_ok] at hs
    obtain ⟨sm, h0, hs⟩ := hs
    simp only [callCode, predictClassifierCode]
    rw [h0, CallCode.ofRes_ok_bind]
    rcases h.codeStartBatch hv h0 with h1 | ⟨labels, nf, hf⟩
    · rw [if_pos h1]; exact ⟨0, .ret fun _ _ => trivial⟩
    · by_cases h1 : sm.code ≠ .ok
      · rw [if_pos h1]; exact ⟨0, .ret fun _ _ => trivial⟩
      · rw [if_neg h1] at hs ⊢
        rw [hf.inferCfg hv hk, ok_bind] at hs
        rw [bind_eq_ok] at hs
        obtain ⟨⟨c, rs⟩, h2, -⟩ := hs
        rw [hf.inferCfg hv hk]
        refine ⟨_, Proto.bind (p := 0) (Proto.after rfl (Proto.bind (p := 0) (proto_each (d := labels * cfg.k + labels * (cfg.k + 1) + ((((rulesOf st cfg So).ns - 1) * 2 + 0) + 0)) (J := fun _ (rs : List Int) => ∀ v ∈ rs, 0 ≤ v ∧ v < labels) X
          (fun x hxX D rs hrs => ?_) (s := []) (by simp)) (Q := fun _ b => ∃ vs : List Int, b = .ok vs ∧ ∀ v ∈ vs, 0 ≤ v ∧ v < labels)
            fun D rs hrs => .ret ⟨rs, rfl, hrs⟩)) ?_⟩
        · obtain ⟨c1, c2, h3⟩ := batchC_all_ok h2 x hxX
          refine Proto.bind (proto_scores hv hk hf (hx x hxX) h3) fun D' _ hD => ?_
          have hls := hf.lsLen hk
          have hpos := hf.pos
          have := proto_argmax (R := rulesOf st cfg So) (D := D') (by show 0 < st.cache.labelSum.length; omega) hD
          refine Proto.bind (p := 0) (Proto.bind (p := 0) (Q := fun _ (v : Int) => 0 ≤ v ∧ v < labels) this fun D'' m ⟨_, hm⟩ =>
            .ret ⟨by omega, by have : m < st.cache.labelSum.length := hm; omega⟩) fun D'' v hvv => .ret fun w hw => ?_
          rcases List.mem_append.1 hw with hw | hw
          · exact hrs w hw
          · rw [List.mem_singleton] at hw; subst hw; exact hvv
        · rintro D' _ ⟨vs, rfl, h3⟩
          refine .ret fun l hl => ?_
          have := hf.labelsIs hk (hl rfl)
          subst this
          exact h3
  | decision X =>
    simp only [step, tagged, decision] at hs
    rw [bind_eq_ok] at hs
    obtain ⟨⟨s, r⟩, hs, -⟩ := hs
    rw [bind_eq_ok] at hs
    obtain ⟨sm, h0, hs⟩ := hs
    simp only [callCode, decisionCode]
    rw [h0, CallCode.ofRes_ok_bind]
    rcases h.codeStartBatch hv h0 with h1 | ⟨labels, nf, hf⟩
    · rw [if_pos h1]; exact ⟨0, .ret fun _ _ => trivial⟩
    · by_cases h1 : sm.code ≠ .ok
      · rw [if_pos h1]; exact ⟨0, .ret fun _ _ => trivial⟩
      · rw [if_neg h1] at hs ⊢
        rw [hf.inferCfg hv hk, ok_bind] at hs
        rw [bind_eq_ok] at hs
        obtain ⟨⟨c, rs⟩, h2, -⟩ := hs
        rw [hf.inferCfg hv hk]
        refine ⟨_, Proto.bind (p := 0) (Proto.after rfl (Proto.bind (p := 0) (proto_each (d := labels * cfg.k + labels * (cfg.k + 1) + (labels + 0)) (J := fun _ (rs : List (List Int)) =>
          ∀ v ∈ rs, v.length = labels ∧ ∀ s ∈ v, -cfg.T ≤ s ∧ s ≤ cfg.T) X
          (fun x hxX D rs hrs => ?_) (s := []) (by simp)) (Q := fun _ b => ∃ vs : List (List Int), b = .ok vs ∧
            ∀ v ∈ vs, v.length = labels ∧ ∀ s ∈ v, -cfg.T ≤ s ∧ s ≤ cfg.T)
            fun D rs hrs => .ret ⟨rs, rfl, hrs⟩)) ?_⟩
        · obtain ⟨c1, c2, h3⟩ := batchC_all_ok h2 x hxX
          refine proto_scoresCopy hv hk hf (hx x hxX) h3 (Q := fun (rs : List (List Int)) =>
            ∀ v ∈ rs, v.length = labels ∧ ∀ s ∈ v, -cfg.T ≤ s ∧ s ≤ cfg.T) fun D l h4 h5 => .ret fun w hw => ?_
          rcases List.mem_append.1 hw with hw | hw
          · exact hrs w hw
          · rw [List.mem_singleton] at hw; subst hw; exact ⟨h4, h5⟩
        · rintro D' _ ⟨vs, rfl, h3⟩
          refine .ret fun l hl => ?_
          have := hf.labelsIs hk (hl rfl)
          subst this
          exact fun v hvv => ⟨by rw [(h3 v hvv).1], (h3 v hvv).2⟩
  | evaluate X y =>
    simp only [step, tagged] at hs
    rw [bind_eq_ok] at hs
    obtain ⟨⟨s, r⟩, hs, -⟩ := hs
    rcases h with h | ⟨labels, nf, hf⟩
    · exact absurd hs (evaluate_unfit h X y)
    · unfold evaluate at hs
      simp only [callCode, evaluateCode]
      rw [hf.inferCfg hv hk, ok_bind] at hs
      rw [bind_eq_ok] at hs
      obtain ⟨⟨c, rs⟩, h2, -⟩ := hs
      rw [hf.inferCfg hv hk]
      refine ⟨_, Proto.bind (p := 0) (Proto.after rfl (Proto.bind (p := 0) (proto_each (d := labels * cfg.k + labels * (cfg.k + 1) + ((labels - 1) * 2 + 0)) (J := fun _ (_ : Nat) => True) (List.range X.length)
          (fun it hit D rs _ => ?_) (s := 0) trivial) (Q := fun _ b => ∃ v, b = .ok v)
            fun D rs _ => .ret ⟨_, rfl⟩)) ?_⟩
      · obtain ⟨x, yi, h3, h4, c1, c2, h5⟩ := eval_all_ok h2 it hit
        refine Proto.after h3 (proto_scoresMax hv hk hf (hx x ?_) h5 (Q := fun _ => True) fun D m hm => Proto.after h4 (.ret trivial))
        rw [rd_eq_ok] at h3
        exact List.mem_of_getElem? h3
      · rintro D' _ ⟨vs, rfl⟩
        exact .ret fun l hl => trivial
  | predictR1 x =>
    simp only [step, tagged, predictRegressor1] at hs
    rw [bind_eq_ok] at hs
    obtain ⟨⟨s, r⟩, hs, -⟩ := hs
    rw [bind_eq_ok] at hs
    obtain ⟨sm, h0, hs⟩ := hs
    simp only [callCode, predictRegressor1Code]
    rw [h0, CallCode.ofRes_ok_bind]
    rcases h.codeStart hv h0 with h1 | ⟨labels, nf, hf⟩
    · rw [if_pos h1]; exact ⟨0, .ret fun _ _ => trivial⟩
    · by_cases h1 : sm.code ≠ .ok
      · rw [if_pos h1]; exact ⟨0, .ret fun _ _ => trivial⟩
      · rw [if_neg h1] at hs ⊢
        have hr := hf.reads
        rw [hr.p_nJobs, ok_bind, hr.p_tile, ok_bind, hr.p_outR hv hk, ok_bind, hr.p_T, ok_bind, bind_eq_ok] at hs
        obtain ⟨c, h2, -⟩ := hs
        rw [hr.p_nJobs, hr.p_tile, hr.p_outR hv hk, hr.p_T]
        simp only [CallCode.ofRes_ok_bind]
        refine ⟨_, Proto.bind (p := 0) (Proto.bind (p := 0) (Q := fun _ b => ∃ v : Int, b = .ok v ∧ 0 ≤ v ∧ v ≤ cfg.T)
          (proto_response hv hk hf (hx x (List.mem_singleton.2 rfl)) h2) fun D m hm => .ret ⟨_, rfl, hm⟩) ?_⟩
        rintro D' _ ⟨v, rfl, h3⟩
        exact .ret fun l hl => h3
  | predictR X =>
    simp only [step, tagged, predictRegressor] at hs
    rw [bind_eq_ok] at hs
    obtain ⟨⟨s, r⟩, hs, -⟩ := hs
    rw [bind_eq_ok] at hs
    obtain ⟨sm, h0, hs⟩ := hs
    simp only [callCode, predictRegressorCode]
    rw [h0, CallCode.ofRes_ok_bind]
    rcases h.codeStartBatch hv h0 with h1 | ⟨labels, nf, hf⟩
    · rw [if_pos h1]; exact ⟨0, .ret fun _ _ => trivial⟩
    · by_cases h1 : sm.code ≠ .ok
      · rw [if_pos h1]; exact ⟨0, .ret fun _ _ => trivial⟩
      · rw [if_neg h1] at hs ⊢
        have hr := hf.reads
        rw [hr.p_T, ok_bind, hr.p_outR hv hk, ok_bind, hr.p_nJobs, ok_bind, hr.p_tile, ok_bind, bind_eq_ok] at hs
        obtain ⟨c, h2, -⟩ := hs
        rw [hr.p_nJobs, hr.p_tile, hr.p_outR hv hk, hr.p_T]
        simp only [CallCode.ofRes_ok_bind]
        refine ⟨_, Proto.bind (p := 0) (Proto.bind (p := 0) (proto_each (d := cfg.k + cfg.k + 0) (J := fun _ (rs : List Int) => ∀ v ∈ rs, 0 ≤ v ∧ v ≤ cfg.T) X
          (fun x hxX D rs hrs => ?_) (s := []) (by simp)) (Q := fun _ b => ∃ vs : List Int, b = .ok vs ∧ ∀ v ∈ vs, 0 ≤ v ∧ v ≤ cfg.T)
            fun D rs hrs => .ret ⟨rs, rfl, hrs⟩) ?_⟩
        · obtain ⟨c1, c2, h3⟩ := batchR_all_ok h2 x hxX
          refine Proto.bind (p := 0) (proto_response hv hk hf (hx x hxX) h3) fun D' v hvv => .ret fun w hw => ?_
          rcases List.mem_append.1 hw with hw | hw
          · exact hrs w hw
          · rw [List.mem_singleton] at hw; subst hw; exact hvv
        · rintro D' _ ⟨vs, rfl, h3⟩
          exact .ret fun l hl => h3
end

end Tsetlini
