import Verif.Lemmas.Train
/- Training on one sample, epochs: refinement. -/
namespace Tsetlini
open Res Spec

/-- A fitted estimator `st` and its abstraction `ss`. For a regressor `labels = 1`. -/
structure Fit {B : Backend} (L : Lawful B) {env : Env} (cfg : Cfg) (labels nf : Nat)
    (st : EstState B env) (ss : SState env) : Prop where
  reads : Reads st.params cfg
  labelsP : cfg.kind = .classifier → st.params.get? "number_of_labels" = some (.int labels)
  featP : st.params.get? "number_of_features" = some (.int nf)
  reg1 : cfg.kind = .regressor → labels = 1
  pos : 1 ≤ labels
  abs : L.Abs cfg.ct cfg.states nf st.ta.mat ss.clauses
  len : ss.clauses.length = labels * cfg.k
  w : st.ta.weights = ss.weights
  wlen : ss.weights.length = if cfg.weighted then labels * cfg.k else 0
  wmax : ∀ w ∈ ss.weights, (w : Int) + 1 ≤ cfg.maxWeight
  coLen : st.cache.clauseOutput.length = labels * cfg.k
  lsLen : cfg.kind = .classifier → st.cache.labelSum.length = labels
  fbLen : cfg.kind = .classifier → st.cache.feedback.length = labels * cfg.k
  fbRange : ∀ f ∈ st.cache.feedback, f = -1 ∨ f = 0 ∨ f = 1
  lsRange : ∀ s ∈ st.cache.labelSum, -cfg.T ≤ s ∧ s ≤ cfg.T
  ct : CtOk nf (ctNums env cfg.s nf).1 (ctNums env cfg.s nf).2 st.cache.ct
  igen : st.igen = ss.igen
  fgen : st.fgen = ss.fgen
  shape : ss.shape = some (labels, nf)
  small : (labels : Int) * cfg.clauses ≤ 2147483647
  nfSmall : nf ≤ 2147483647
  alloc : L.Alloc cfg.ct (2 * (labels * cfg.k)) nf

theorem Fit.small' {B : Backend} {L : Lawful B} {env : Env} {cfg : Cfg} {labels nf : Nat}
    {st : EstState B env} {ss : SState env} (hv : Valid cfg) (h : Fit L cfg labels nf st ss) :
    labels * cfg.k ≤ 1073741823 := by
  have h1 := h.small
  rw [← hv.two_k] at h1
  have : (labels : Int) * (2 * (cfg.k : Int)) = 2 * ((labels * cfg.k : Nat) : Int) := by
    push_cast; rw [← Int.mul_assoc, Int.mul_comm (labels : Int) 2, Int.mul_assoc]
  omega

theorem wok_of {n : Nat} {b : Bool} {M : Int} {ws : List Nat}
    (h1 : ws.length = if b then n else 0) (h2 : ∀ w ∈ ws, (w : Int) + 1 ≤ M) (hM : M ≤ 2147483647) :
    WOk n ws :=
  ⟨by cases b <;> simp_all, fun w hw => by have := h2 w hw; omega⟩

theorem Fit.wok {B : Backend} {L : Lawful B} {env : Env} {cfg : Cfg} {labels nf : Nat}
    {st : EstState B env} {ss : SState env} (hv : Valid cfg) (h : Fit L cfg labels nf st ss) :
    WOk (labels * cfg.k) ss.weights := wok_of h.wlen h.wmax hv.maxWeightMax

theorem outAt_eq {cl : List Clause} {x : List Bool} {o : Nat} (h : o < cl.length) :
    outAt cl x o = cl[o].out x := by
  unfold outAt; rw [List.getElem?_eq_getElem h]

theorem outPrunedAt_eq {cl : List Clause} {x : List Bool} {o : Nat} (h : o < cl.length) :
    outPrunedAt cl x o = cl[o].outPruned x := by
  unfold outPrunedAt; rw [List.getElem?_eq_getElem h]

/-- Training on one sample. -/
def updateS {B : Backend} (L : Lawful B) (env : Env) (cfg : Cfg) (nf : Nat) (x : List Bool) (t o : Nat)
    (ss : SState env) : Res (SState env) :=
  let v := outAt ss.clauses x
  (classifierFeedback env (List.replicate ss.clauses.length 0) (t : Int) (o : Int)
    (score v ss.weights cfg.k cfg.T t) (score v ss.weights cfg.k cfg.T o) (cfg.k : Int) cfg.T ss.fgen).bind
    fun r =>
  (trainS L env cfg nf x r.1 v (t * cfg.k) (t * cfg.k + cfg.k) { ss with fgen := r.2 }).bind fun ss =>
  trainS L env cfg nf x r.1 v (o * cfg.k) (o * cfg.k + cfg.k) ss

/-- The training parameters that go with a configuration. -/
def Cfg.trainCfg (c : Cfg) (labels : Nat) : TrainCfg :=
  ⟨labels, c.k, c.T, c.hyper, tileOf c.tile⟩

theorem label_le {t labels k : Nat} (h : t < labels) : t * k + k ≤ labels * k := by
  rw [← Nat.succ_mul]; exact Nat.mul_le_mul_right k h

theorem classifierUpdate_ref {B : Backend} (L : Lawful B) {env : Env} (sc : Sched) {cfg : Cfg}
    (hv : Valid cfg) (hkind : cfg.kind = .classifier) (hN : L.minStates ≤ cfg.states)
    (hT : cfg.T * 2 ≤ 2147483647) {labels nf : Nat} {x : B.Sample} (hx : SOk L nf x) {t o : Nat}
    (ht : t < labels) (ho : o < labels) {st : EstState B env} {ss : SState env}
    (h : Fit L cfg labels nf st ss) :
    (classifierUpdate B env sc (cfg.trainCfg labels) x (t : Int) (o : Int) st).Refines
      (Fit L cfg labels nf) (updateS L env cfg nf (L.bits x) t o ss) := by
  have hsm := h.small' hv
  have htk := label_le (k := cfg.k) ht
  have hok := label_le (k := cfg.k) ho
  have hco : ∀ i, i < labels * cfg.k → B.clauseOut (tileOf cfg.tile) st.ta.mat i x =
      .ok (outAt ss.clauses (L.bits x) i) := by
    intro i hi
    have hi' : i < ss.clauses.length := by rw [h.len]; exact hi
    rw [outAt_eq hi']
    exact L.out_eq _ h.abs hi' hx.inv hx.bin hx.size
  unfold classifierUpdate
  simp only [Cfg.trainCfg]
  rw [labelRange_ok (by omega), ok_bind]
  dsimp only
  refine Refines.ret_bind (outputsLoop_ret sc (v := outAt ss.clauses (L.bits x))
    (fun i _ hi => hco i (by omega)) (by rw [h.coLen]; omega)) ?_
  rintro c1 ⟨out1, rfl, l1, e1⟩
  rw [labelRange_ok (by omega), ok_bind]
  dsimp only
  refine Refines.ret_bind (outputsLoop_ret sc (v := outAt ss.clauses (L.bits x))
    (fun i _ hi => hco i (by omega)) (by dsimp only; rw [l1, h.coLen]; omega)) ?_
  rintro c2 ⟨out2, rfl, l2, e2⟩
  dsimp only at l2 e2 ⊢
  rw [l1, h.coLen] at l2 e2
  rw [h.coLen] at l1 e1
  have f1 : ∀ i, t * cfg.k ≤ i → i < t * cfg.k + cfg.k →
      out2[i]? = some (outAt ss.clauses (L.bits x) i) := by
    intro i a b
    rw [e2 i (by omega)]
    split
    · rfl
    · rw [e1 i (by omega), if_pos ⟨a, b⟩]
  have f2 : ∀ i, o * cfg.k ≤ i → i < o * cfg.k + cfg.k →
      out2[i]? = some (outAt ss.clauses (L.bits x) i) := by
    intro i a b
    rw [e2 i (by omega), if_pos ⟨a, b⟩]
  have hw := h.wok hv
  have hT1 := hv.T
  have hls := h.lsLen hkind
  rw [h.w, sumUpLabelVotes_eq hw htk (by omega) (by omega) f1 (by rw [hls]; exact ht), ok_bind,
    sumUpLabelVotes_eq hw hok (by omega) (by omega) f2 (by rw [List.length_set, hls]; exact ho), ok_bind]
  generalize hsc : score (outAt ss.clauses (L.bits x)) ss.weights cfg.k cfg.T = S
  have hS : ∀ l, -cfg.T ≤ S l ∧ S l ≤ cfg.T := fun l => by
    rw [← hsc]; exact clampTo_range _ (by omega)
  have r1 : rd ((st.cache.labelSum.set t (S t)).set o (S o)) (t : Int).toNat = .ok (S t) := by
    apply rd_of_getElem?
    rw [Int.toNat_natCast]
    by_cases hto : t = o
    · subst hto; rw [List.getElem?_set_self (by rw [List.length_set, hls]; exact ht)]
    · rw [List.getElem?_set_ne (fun e => hto e.symm), List.getElem?_set_self (by rw [hls]; exact ht)]
  have r2 : rd ((st.cache.labelSum.set t (S t)).set o (S o)) (o : Int).toNat = .ok (S o) := by
    apply rd_of_getElem?
    rw [Int.toNat_natCast, List.getElem?_set_self (by rw [List.length_set, hls]; exact ho)]
  rw [r1, ok_bind, r2, ok_bind]
  unfold updateS
  dsimp only
  rw [hsc, h.fgen, classifierFeedback_congr env (fb := st.cache.feedback)
    (fb' := List.replicate ss.clauses.length 0) (by rw [h.fbLen hkind, List.length_replicate, h.len])]
  obtain ⟨r, q1, q2, q3⟩ := classifierFeedback_ret env (fb := List.replicate ss.clauses.length 0)
    (t := t) (o := o) (k := cfg.k) (tv := S t) (ov := S o) ss.fgen
    (by rw [List.length_replicate, h.len]; exact htk) (by rw [List.length_replicate, h.len]; exact hok)
    (by rw [List.length_replicate, h.len]; omega) hv.T hT (hS t) (hS o)
  rw [q1, ok_bind, ok_bind]
  obtain ⟨fb, fg⟩ := r
  dsimp only at q2 q3 ⊢
  rw [List.length_replicate, h.len] at q2
  have ht0 : TRel L env cfg (labels * cfg.k) nf (some (labels, nf)) fg ⟨st.ta, st.igen, st.cache.ct⟩
      { ss with fgen := fg } :=
    ⟨h.abs, h.w, h.igen, h.ct, h.len, h.wlen, h.wmax, h.shape, rfl⟩
  refine Refines.bind (trainClassifier_ref L hv hN hx (by omega) q2 f1 ht0) fun s1 ss1 hs1 => ?_
  rw [show trainS L env cfg nf (L.bits x) fb (outAt ss.clauses (L.bits x)) (o * cfg.k) (o * cfg.k + cfg.k) ss1 =
    (trainS L env cfg nf (L.bits x) fb (outAt ss.clauses (L.bits x)) (o * cfg.k) (o * cfg.k + cfg.k) ss1).bind .ok
    by cases trainS L env cfg nf (L.bits x) fb (outAt ss.clauses (L.bits x)) (o * cfg.k) (o * cfg.k + cfg.k) ss1 <;> rfl]
  refine Refines.bind (trainClassifier_ref L hv hN hx (by omega) q2 f2 hs1) fun s2 ss2 hs2 => ?_
  rw [refines_ok_ok]
  exact {
    reads := h.reads, labelsP := h.labelsP, featP := h.featP, reg1 := h.reg1, pos := h.pos
    abs := hs2.abs, len := hs2.len, w := hs2.w, wlen := hs2.wlen, wmax := hs2.wmax
    coLen := l2
    lsLen := fun _ => by simp [hls]
    fbLen := fun _ => q2
    fbRange := by
      intro f hf
      obtain ⟨i, hi⟩ := List.mem_iff_getElem?.1 hf
      rcases q3 i f hi with h | ⟨_, _, h, _⟩ | ⟨_, _, h, _⟩
      · exact .inr (.inl h)
      · split at h
        · exact .inr (.inr h)
        · exact .inl h
      · split at h
        · exact .inl h
        · exact .inr (.inr h)
    lsRange := by
      intro s hs
      rcases List.mem_or_eq_of_mem_set hs with h1 | rfl
      · rcases List.mem_or_eq_of_mem_set h1 with h2 | rfl
        · exact h.lsRange s h2
        · exact hS t
      · exact hS o
    ct := hs2.ct, igen := hs2.g, fgen := hs2.fgen.symm, shape := hs2.shape, small := h.small, nfSmall := h.nfSmall, alloc := h.alloc }

/-! ### Epochs -/

theorem oppositeLabel_ret (env : Env) {n : Nat} (hn : 2 ≤ n) (hn' : n ≤ 2147483647) {y : Nat} (hy : y < n)
    (g : env.G) :
    (oppositeLabel env (n : Int) (y : Int) g).Ret fun r =>
      ∃ o : Nat, r.1 = (o : Int) ∧ o < n ∧ o ≠ y ∧
        o = (y + 1 + (env.next g).1.toNat % (n - 1)) % n ∧ r.2 = (env.next g).2 := by
  unfold oppositeLabel
  rw [i32_ok (by omega) (by omega), ok_bind]
  dsimp only
  rw [if_neg (by omega), ret_ok]
  have e : ((n : Int) - 1).toNat = n - 1 := by omega
  rw [e]
  have hr : (env.next g).1.toNat % (n - 1) < n - 1 := Nat.mod_lt _ (by omega)
  generalize (env.next g).1.toNat % (n - 1) = r at *
  refine ⟨(y + 1 + r) % n, ?_, Nat.mod_lt _ (by omega), ?_, rfl, rfl⟩
  · have : ((y : Int) + 1 + (r : Int)) % 4294967296 = ((y + 1 + r : Nat) : Int) := by omega
    dsimp only
    rw [this]; push_cast; rfl
  · by_cases h : y + 1 + r < n
    · rw [Nat.mod_eq_of_lt h]; omega
    · rw [Nat.mod_eq_sub_mod (by omega), Nat.mod_eq_of_lt (by omega)]; omega

/-- One opposite label for each label: in range and different. -/
def Opp (n : Nat) (y o : List Int) : Prop :=
  o.length = y.length ∧ ∀ (i : Nat) (v w : Int), y[i]? = some v → o[i]? = some w →
    ∃ a b : Nat, v = (a : Int) ∧ w = (b : Int) ∧ a < n ∧ b < n ∧ b ≠ a

theorem generateOppositeY_ret (env : Env) {n : Nat} (hn : 2 ≤ n) (hn' : n ≤ 2147483647) (y : List Int)
    (hy : ∀ v ∈ y, 0 ≤ v ∧ v < n) (g : env.G) :
    (generateOppositeY env (n : Int) y g).Ret fun r => Opp n y r.1 := by
  induction y generalizing g with
  | nil => exact ⟨_, rfl, rfl, by intro i v w h; simp at h⟩
  | cons v vs ih =>
    unfold generateOppositeY
    obtain ⟨h1, h2⟩ := hy v (by simp)
    obtain ⟨a, rfl⟩ := Int.eq_ofNat_of_zero_le h1
    refine Ret.bind (oppositeLabel_ret env hn hn' (y := a) (by omega) g) ?_
    rintro ⟨o, g'⟩ ⟨b, k1, k2, k3, -, -⟩
    refine Ret.bind (ih (fun v hv => hy v (by simp [hv])) g') ?_
    rintro ⟨os, g''⟩ ⟨m1, m2⟩
    rw [ret_ok]
    refine ⟨by simpa using m1, fun i v w hv hw => ?_⟩
    cases i with
    | zero =>
      simp only [List.getElem?_cons_zero, Option.some.injEq] at hv hw
      subst hv hw
      exact ⟨a, b, rfl, k1, by omega, k2, k3⟩
    | succ i =>
      simp only [List.getElem?_cons_succ] at hv hw
      exact m2 i v w hv hw

/-- One epoch. -/
def epochS {B : Backend} (L : Lawful B) (env : Env) (cfg : Cfg) (labels nf : Nat) (X : List B.Sample)
    (y : List Int) (ss : SState env) : Res (SState env) :=
  (generateOppositeY env (labels : Int) y ss.igen).bind fun r =>
  iter (env.shuffle r.2 X.length).1 (fun i ss =>
    (rd X i).bind fun x => (rd y i).bind fun yi => (rd r.1 i).bind fun oi =>
    updateS L env cfg nf (L.bits x) yi.toNat oi.toNat ss) { ss with igen := (env.shuffle r.2 X.length).2 }

/-- Data the training loop accepts. -/
structure DataOk {B : Backend} (L : Lawful B) (labels nf : Nat) (X : List B.Sample) (y : List Int) : Prop where
  len : y.length = X.length
  xs : ∀ x ∈ X, SOk L nf x
  ys : ∀ v ∈ y, 0 ≤ v ∧ v < labels

theorem Fit.withGen {B : Backend} {L : Lawful B} {env : Env} {cfg : Cfg} {labels nf : Nat}
    {st : EstState B env} {ss : SState env} (h : Fit L cfg labels nf st ss) (g : env.G) :
    Fit L cfg labels nf { st with igen := g } { ss with igen := g } :=
  { h with igen := rfl }

theorem classifierEpoch_ref {B : Backend} (L : Lawful B) {env : Env} (sc : Sched) {cfg : Cfg}
    (hv : Valid cfg) (hkind : cfg.kind = .classifier) (hN : L.minStates ≤ cfg.states)
    (hT : cfg.T * 2 ≤ 2147483647) {labels nf : Nat} (hl : 2 ≤ labels) {X : List B.Sample} {y : List Int}
    (hd : DataOk L labels nf X y) {st : EstState B env} {ss : SState env}
    (h : Fit L cfg labels nf st ss) :
    (classifierEpoch B env sc (cfg.trainCfg labels) X y st).Refines
      (Fit L cfg labels nf) (epochS L env cfg labels nf X y ss) := by
  have hlab : labels ≤ 2147483647 := by
    have h1 := h.small' hv
    have := Nat.le_mul_of_pos_right labels hv.k_pos
    omega
  unfold classifierEpoch epochS
  show Refines _ (Res.bind (generateOppositeY env (labels : Int) y st.igen) _) _
  obtain ⟨r, e1, e2⟩ := generateOppositeY_ret env hl hlab y hd.ys st.igen
  rw [← h.igen, e1, ok_bind, ok_bind]
  dsimp only
  refine iter_refines _ _ _ (h.withGen _) ?_
  intro i hi s ss hs
  rw [(env.shuffle_law r.2 X.length).mem_iff, List.mem_range] at hi
  have hiy : i < y.length := by rw [hd.len]; exact hi
  have hio : i < r.1.length := by rw [e2.1]; exact hiy
  rw [rd_ok hi, ok_bind, rd_ok hiy, ok_bind, rd_ok hio, ok_bind, ok_bind, ok_bind, ok_bind]
  obtain ⟨a, b, ea, eb, ha, hb, -⟩ := e2.2 i _ _ (List.getElem?_eq_getElem hiy) (List.getElem?_eq_getElem hio)
  rw [ea, eb]
  exact classifierUpdate_ref L sc hv hkind hN hT (hd.xs _ (List.getElem_mem hi)) ha hb hs

end Tsetlini
