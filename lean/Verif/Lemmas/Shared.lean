import Verif.Spec.Shared
import Verif.Lemmas.Predict
/- A call in flight that no other call disturbs does what the sequential model says. -/
namespace Tsetlini
open Res Spec

variable {α β σ τ ι : Type}

/-- Code that, run without interruption from the memory `m`, returns `a` and leaves `m'` after `n` actions. -/
inductive Runs : Nat → CallCode α → Scratch → α → Scratch → Prop
  | ret {a m} : Runs 0 (.ret a) m a m
  | loadOut {n o k v m a m'} : m.out[o]? = some v → Runs n (k v) m a m' → Runs (n + 1) (.loadOut o k) m a m'
  | storeOut {n o v k m a m'} : o < m.out.length → Runs n k { m with out := m.out.set o v } a m' →
      Runs (n + 1) (.storeOut o v k) m a m'
  | loadSum {n l k v m a m'} : m.sums[l]? = some v → Runs n (k v) m a m' → Runs (n + 1) (.loadSum l k) m a m'
  | storeSum {n l v k m a m'} : l < m.sums.length → Runs n k { m with sums := m.sums.set l v } a m' →
      Runs (n + 1) (.storeSum l v k) m a m'

def Goes (code : CallCode α) (m : Scratch) (a : α) (m' : Scratch) : Prop := ∃ n, Runs n code m a m'

theorem Runs.bind {n p : Nat} {code : CallCode α} {f : α → CallCode β} {m m' m'' : Scratch} {a : α} {b : β}
    (h : Runs n code m a m') (h2 : Runs p (f a) m' b m'') : Runs (n + p) (code.bind f) m b m'' := by
  induction h with
  | ret => rw [Nat.zero_add]; exact h2
  | loadOut e _ ih => rw [Nat.add_right_comm]; exact .loadOut e (ih h2)
  | storeOut e _ ih => rw [Nat.add_right_comm]; exact .storeOut e (ih h2)
  | loadSum e _ ih => rw [Nat.add_right_comm]; exact .loadSum e (ih h2)
  | storeSum e _ ih => rw [Nat.add_right_comm]; exact .storeSum e (ih h2)

theorem Goes.bind {code : CallCode α} {f : α → CallCode β} {m m' m'' : Scratch} {a : α} {b : β}
    (h : Goes code m a m') (h2 : Goes (f a) m' b m'') : Goes (code.bind f) m b m'' :=
  let ⟨_, h⟩ := h; let ⟨_, h2⟩ := h2; ⟨_, h.bind h2⟩

theorem Goes.ret (a : α) (m : Scratch) : Goes (.ret a) m a m := ⟨0, .ret⟩

theorem Goes.ofRes {r : Res α} {a : α} (h : r = .ok a) (m : Scratch) : Goes (CallCode.ofRes r) m a m := by
  subst h; exact ⟨0, .ret⟩

/-- One action of undisturbed code. -/
theorem Runs.act {n : Nat} {code : CallCode α} {m m' : Scratch} {a : α} (h : Runs n code m a m') :
    (n = 0 ∧ code = .ret a ∧ m = m') ∨
      ∃ p code1 m1, n = p + 1 ∧ code.act m = some (.ok (code1, m1)) ∧ Runs p code1 m1 a m' := by
  cases h with
  | ret => exact .inl ⟨rfl, rfl, rfl⟩
  | loadOut e h => exact .inr ⟨_, _, _, rfl, by rw [CallCode.act, rd_of_getElem? e, ok_bind], h⟩
  | storeOut e h => exact .inr ⟨_, _, _, rfl, by rw [CallCode.act, wr_ok e, ok_bind], h⟩
  | loadSum e h => exact .inr ⟨_, _, _, rfl, by rw [CallCode.act, rd_of_getElem? e, ok_bind], h⟩
  | storeSum e h => exact .inr ⟨_, _, _, rfl, by rw [CallCode.act, wr_ok e, ok_bind], h⟩

theorem goes_iter {f : ι → σ → CallCode σ} {g : ι → τ → Res τ} {R : σ → Scratch → τ → Prop} (l : List ι)
    (h : ∀ i ∈ l, ∀ s m t t', R s m t → g i t = .ok t' → ∃ s' m', Goes (f i s) m s' m' ∧ R s' m' t')
    {s : σ} {m : Scratch} {t t' : τ} (hR : R s m t) (hg : iter l g t = .ok t') :
    ∃ s' m', Goes (CallCode.iter l f s) m s' m' ∧ R s' m' t' := by
  induction l generalizing s m t with
  | nil => cases hg; exact ⟨s, m, .ret _ _, hR⟩
  | cons i l ih =>
    rw [iter_cons, bind_eq_ok] at hg
    obtain ⟨t1, h1, h2⟩ := hg
    obtain ⟨s1, m1, h3, h4⟩ := h i (by simp) s m t t1 hR h1
    obtain ⟨s2, m2, h5, h6⟩ := ih (fun j hj => h j (by simp [hj])) h4 h2
    exact ⟨s2, m2, h3.bind h5, h6⟩

theorem goes_outputs {sc : Sched} {clause : Nat → Res Bool} {n : Nat} {c c' : Cache}
    (h : outputsLoop sc clause 0 n c = .ok c') (sums : List Int) :
    Goes (outputsCode sc c.tick clause n) ⟨c.clauseOutput, sums⟩ () ⟨c'.clauseOutput, sums⟩ ∧
      c'.labelSum = c.labelSum ∧ c'.clauseOutput.length = c.clauseOutput.length ∧ c'.tick = c.tick + 1 := by
  unfold outputsLoop at h
  rw [bind_eq_ok] at h
  obtain ⟨out, h1, h2⟩ := h
  cases h2
  obtain ⟨s', m', h3, h4, h5⟩ := goes_iter (f := fun o (_ : Unit) =>
      (CallCode.ofRes (clause o)).bind fun v => CallCode.storeOut o v (.ret ()))
    (R := fun _ m t => m = ⟨t, sums⟩ ∧ t.length = c.clauseOutput.length) (sc.order c.tick 0 n) (by
    rintro o - s m t t' ⟨rfl, hl⟩ hg
    rw [bind_eq_ok] at hg
    obtain ⟨v, h1, h2⟩ := hg
    rw [wr_eq_ok] at h2
    obtain ⟨h2, rfl⟩ := h2
    exact ⟨(), _, (Goes.ofRes h1 _).bind ⟨1, .storeOut h2 .ret⟩, rfl, by simpa using hl⟩)
    (s := ()) (m := ⟨c.clauseOutput, sums⟩) ⟨rfl, rfl⟩ h1
  subst h4
  exact ⟨h3, rfl, h5, rfl⟩

theorem goes_sumVotes {out : List Bool} {ws : List Nat} {a b : Nat} {v : Int} (h : sumVotes out ws a b = .ok v)
    (sums : List Int) : Goes (sumVotesCode ws a b) ⟨out, sums⟩ v ⟨out, sums⟩ := by
  obtain ⟨s', m', h3, rfl, rfl⟩ := goes_iter (f := fun o (acc : Int) => CallCode.loadOut o fun v =>
      CallCode.ofRes ((voteTerm ws o v).bind fun t => i64 (acc + t)))
    (R := fun s m t => s = t ∧ m = ⟨out, sums⟩) (range a b) (by
    rintro o - s m t t' ⟨rfl, rfl⟩ hg
    rw [bind_eq_ok] at hg
    obtain ⟨v, h1, h2⟩ := hg
    rw [rd_eq_ok] at h1
    obtain ⟨n, h3⟩ := Goes.ofRes h2 ⟨out, sums⟩
    exact ⟨_, _, ⟨_, .loadOut h1 h3⟩, rfl, rfl⟩) ⟨rfl, rfl⟩ h
  exact h3

theorem goes_labelVotes {out : List Bool} {ws : List Nat} {ls ls' : List Int} {label k T : Int}
    (h : sumUpLabelVotes out ws ls label k T = .ok ls') :
    Goes (labelVotesCode ws label k T) ⟨out, ls⟩ () ⟨out, ls'⟩ := by
  unfold sumUpLabelVotes at h
  rw [bind_eq_ok] at h
  obtain ⟨⟨a, b⟩, h1, h2⟩ := h
  rw [bind_eq_ok] at h2
  obtain ⟨s, h2, h3⟩ := h2
  rw [wr_eq_ok] at h3
  obtain ⟨h3, rfl⟩ := h3
  exact (Goes.ofRes h1 _).bind ((goes_sumVotes h2 ls).bind ⟨1, .storeSum h3 .ret⟩)

theorem goes_allVotes {out : List Bool} {ws : List Nat} {ls ls' : List Int} {labels k T : Int}
    (h : sumUpAllLabelVotes out ws ls labels k T = .ok ls') :
    Goes (allVotesCode ws labels k T) ⟨out, ls⟩ () ⟨out, ls'⟩ ∧ ls'.length = ls.length := by
  obtain ⟨s', m', h3, rfl, h5⟩ := goes_iter (f := fun (l : Nat) (_ : Unit) => labelVotesCode ws (l : Int) k T)
    (R := fun _ m t => m = ⟨out, t⟩ ∧ t.length = ls.length) (range 0 labels.toNat) (by
    rintro l - s m t t' ⟨rfl, hl⟩ hg
    refine ⟨_, _, goes_labelVotes hg, rfl, ?_⟩
    unfold sumUpLabelVotes at hg
    rw [bind_eq_ok] at hg
    obtain ⟨_, -, hg⟩ := hg
    rw [bind_eq_ok] at hg
    obtain ⟨_, -, hg⟩ := hg
    rw [wr_eq_ok] at hg
    rw [← hg.2, List.length_set, hl]) (s := ()) ⟨rfl, rfl⟩ h
  exact ⟨h3, h5⟩

theorem goes_scores {sc : Sched} {B : Backend} {ta : TA B} {i : InferCfg} {x : B.Sample} {c c' : Cache}
    (h : scores B sc ta i x c = .ok c') :
    Goes (scoresCode B sc c.tick ta i x) ⟨c.clauseOutput, c.labelSum⟩ () ⟨c'.clauseOutput, c'.labelSum⟩ ∧
      c'.labelSum.length = c.labelSum.length ∧ c'.clauseOutput.length = c.clauseOutput.length ∧ c'.tick = c.tick + 1 := by
  unfold scores scoresInto at h
  rw [bind_eq_ok] at h
  obtain ⟨c1, h1, h2⟩ := h
  rw [bind_eq_ok] at h2
  obtain ⟨ls, h2, h3⟩ := h2
  cases h3
  obtain ⟨g1, e1, e3, e4⟩ := goes_outputs h1 c.labelSum
  rw [e1] at h2
  obtain ⟨g2, e2⟩ := goes_allVotes h2
  exact ⟨g1.bind g2, e2, e3, e4⟩

theorem goes_argmaxLoop {out : List Bool} {sums : List Int} (vs pre : List Int) (best : Nat) (bestV : Int)
    (hs : sums = pre ++ vs) (hb : sums[best]? = some bestV) :
    Goes (CallCode.iter (range pre.length (pre.length + vs.length)) (fun i best => CallCode.loadSum best fun u =>
      CallCode.loadSum i fun v => CallCode.ret (if u < v then i else best)) best) ⟨out, sums⟩
      (argmaxLoop vs pre.length best bestV) ⟨out, sums⟩ := by
  induction vs generalizing pre best bestV with
  | nil =>
    have : range pre.length (pre.length + ([] : List Int).length) = [] := by simp [range]
    rw [this]; exact .ret _ _
  | cons v vs ih =>
    have e : range pre.length (pre.length + (v :: vs).length) = pre.length :: range (pre.length + 1) (pre.length + 1 + vs.length) := by
      rw [range_eq, range_eq, List.length_cons, List.range'_succ]
    have hv : sums[pre.length]? = some v := by rw [hs]; simp
    rw [e]
    have := ih (pre ++ [v]) (if bestV < v then pre.length else best) (if bestV < v then v else bestV) (by rw [hs]; simp)
      (by split <;> assumption)
    rw [List.length_append, List.length_singleton] at this
    refine Goes.bind ⟨2, .loadSum hb (.loadSum hv .ret)⟩ ?_
    have e2 : argmaxLoop (v :: vs) pre.length best bestV =
        argmaxLoop vs (pre.length + 1) (if bestV < v then pre.length else best) (if bestV < v then v else bestV) := by
      unfold argmaxLoop
      split
      · cases vs <;> rfl
      · cases vs <;> rfl
    rw [e2]
    exact this

theorem goes_argmax (out : List Bool) (sums : List Int) :
    Goes (argmaxCode sums.length) ⟨out, sums⟩ (argmax sums) ⟨out, sums⟩ := by
  cases sums with
  | nil => exact .ret _ _
  | cons v vs =>
    have := goes_argmaxLoop (out := out) (sums := v :: vs) vs [v] 0 v rfl rfl
    rw [List.length_singleton, Nat.add_comm 1] at this
    exact this

theorem goes_copy (out : List Bool) (sums : List Int) : Goes (copyCode sums.length) ⟨out, sums⟩ sums ⟨out, sums⟩ := by
  have key : ∀ (vs pre : List Int), sums = pre ++ vs → Goes (CallCode.iter (range pre.length (pre.length + vs.length))
      (fun i l => CallCode.loadSum i fun v => CallCode.ret (l ++ [v])) pre) ⟨out, sums⟩ sums ⟨out, sums⟩ := by
    intro vs
    induction vs with
    | nil =>
      intro pre hs
      have : range pre.length (pre.length + ([] : List Int).length) = [] := by simp [range]
      rw [this, hs, List.append_nil]; exact .ret _ _
    | cons v vs ih =>
      intro pre hs
      have e : range pre.length (pre.length + (v :: vs).length) = pre.length :: range (pre.length + 1) (pre.length + 1 + vs.length) := by
        rw [range_eq, range_eq, List.length_cons, List.range'_succ]
      have hv : sums[pre.length]? = some v := by rw [hs]; simp
      have := ih (pre ++ [v]) (by rw [hs]; simp)
      rw [List.length_append, List.length_singleton] at this
      rw [e]
      exact Goes.bind ⟨1, .loadSum hv .ret⟩ this
  have := key sums [] rfl
  rw [List.length_nil, Nat.zero_add] at this
  exact this

theorem goes_batch {sc : Sched} {tick : Nat} {B : Backend} {ta : TA B} {i : InferCfg} {f : List Int → α} {fc : CallCode α} {n : Nat}
    (hf : ∀ out sums, sums.length = n → Goes fc ⟨out, sums⟩ (f sums) ⟨out, sums⟩)
    (X : List B.Sample) {c c' : Cache} {rs : List α} (acc : List α) (hn : c.labelSum.length = n) (ht : c.tick = tick + acc.length)
    (h : batchLoopC B sc ta i f X c = .ok (c', rs)) :
    Goes (CallCode.iter X (fun x rs => (scoresCode B sc (tick + rs.length) ta i x).bind fun _ => fc.bind fun r => CallCode.ret (rs ++ [r])) acc)
      ⟨c.clauseOutput, c.labelSum⟩ (acc ++ rs) ⟨c'.clauseOutput, c'.labelSum⟩ := by
  induction X generalizing c rs acc with
  | nil => cases h; rw [List.append_nil]; exact .ret _ _
  | cons x X ih =>
    unfold batchLoopC at h
    rw [bind_eq_ok] at h
    obtain ⟨c1, h1, h2⟩ := h
    rw [bind_eq_ok] at h2
    obtain ⟨⟨c2, rs2⟩, h2, h3⟩ := h2
    cases h3
    obtain ⟨g1, e1, -, e4⟩ := goes_scores h1
    rw [ht] at g1
    refine Goes.bind (g1.bind ((hf _ _ (e1.trans hn)).bind (.ret _ _))) ?_
    have := ih (acc ++ [f c1.labelSum]) (e1.trans hn) (by rw [e4, ht, List.length_append, List.length_singleton]; omega) h2
    rw [List.append_assoc] at this
    exact this

theorem goes_eval {sc : Sched} {tick s : Nat} {B : Backend} {ta : TA B} {i : InferCfg} {X : List B.Sample} {y : List Int} {n : Nat} (m : Nat)
    {c : Cache} {e : Nat} {r : Cache × Nat} (hn : c.labelSum.length = n) (ht : c.tick = tick + s)
    (h : evalLoop B sc ta i X y (List.range' s m) (c, e) = .ok r) :
    Goes (CallCode.iter (List.range' s m) (fun it errors =>
        (CallCode.ofRes (rd X it)).bind fun x =>
        (scoresCode B sc (tick + it) ta i x).bind fun _ =>
        (argmaxCode n).bind fun m =>
        (CallCode.ofRes (rd y it)).bind fun yi =>
        CallCode.ret (errors + (if (m : Int) ≠ yi then 1 else 0))) e)
      ⟨c.clauseOutput, c.labelSum⟩ r.2 ⟨r.1.clauseOutput, r.1.labelSum⟩ := by
  induction m generalizing c e s with
  | zero => cases h; exact .ret _ _
  | succ m ih =>
    rw [List.range'_succ] at h ⊢
    unfold evalLoop at h
    rw [bind_eq_ok] at h
    obtain ⟨x, h0, h⟩ := h
    rw [bind_eq_ok] at h
    obtain ⟨c1, h1, h⟩ := h
    rw [bind_eq_ok] at h
    obtain ⟨yi, h2, h⟩ := h
    obtain ⟨g1, e1, -, e4⟩ := goes_scores h1
    rw [ht] at g1
    subst hn
    have ga := goes_argmax c1.clauseOutput c1.labelSum
    rw [e1] at ga
    exact Goes.bind ((Goes.ofRes h0 _).bind (g1.bind (ga.bind ((Goes.ofRes h2 _).bind (.ret _ _))))) (ih e1 (by rw [e4, ht]; omega) h)

theorem goes_regressorVotes {out : List Bool} {ws : List Nat} {T v : Int} (h : sumUpRegressorVotes out ws T = .ok v)
    (sums : List Int) : Goes (regressorVotesCode ws out.length T) ⟨out, sums⟩ v ⟨out, sums⟩ := by
  unfold sumUpRegressorVotes at h
  rw [bind_eq_ok] at h
  obtain ⟨s, h, h'⟩ := h
  cases h'
  obtain ⟨s', m', h3, rfl, rfl⟩ := goes_iter (f := fun o (acc : Int) => CallCode.loadOut o fun v => CallCode.ofRes (
      (if ws.length ≠ 0 then
        (rd ws o).bind fun w => .ok ((if v then 1 else 0) * (1 + (w : Int)))
       else .ok (if v then 1 else 0)).bind fun t => i64 (acc + t)))
    (R := fun s m t => s = t ∧ m = ⟨out, sums⟩) (range 0 out.length) (by
    rintro o - s m t t' ⟨rfl, rfl⟩ hg
    rw [bind_eq_ok] at hg
    obtain ⟨v, h1, h2⟩ := hg
    rw [rd_eq_ok] at h1
    obtain ⟨n, h3⟩ := Goes.ofRes h2 ⟨out, sums⟩
    exact ⟨_, _, ⟨_, .loadOut h1 h3⟩, rfl, rfl⟩) ⟨rfl, rfl⟩ h
  exact h3.bind (.ret _ _)

theorem goes_response {sc : Sched} {B : Backend} {ta : TA B} {t : Tile} {outputs T : Int} {x : B.Sample} {c : Cache} {r : Cache × Int}
    (h : responseInto B sc ta t outputs T x c = .ok r) :
    Goes (responseCode B sc c.tick ta t outputs T c.clauseOutput.length x) ⟨c.clauseOutput, c.labelSum⟩ r.2
      ⟨r.1.clauseOutput, r.1.labelSum⟩ ∧ r.1.clauseOutput.length = c.clauseOutput.length ∧ r.1.tick = c.tick + 1 := by
  unfold responseInto at h
  rw [bind_eq_ok] at h
  obtain ⟨c1, h1, h2⟩ := h
  rw [bind_eq_ok] at h2
  obtain ⟨v, h2, h3⟩ := h2
  cases h3
  obtain ⟨g1, e1, e2, e4⟩ := goes_outputs h1 c.labelSum
  have g2 := goes_regressorVotes h2 c.labelSum
  rw [e2] at g2
  rw [e1]
  exact ⟨g1.bind g2, e2, e4⟩

theorem goes_batchR {sc : Sched} {tick : Nat} {B : Backend} {ta : TA B} {t : Tile} {outputs T : Int} {n : Nat}
    (X : List B.Sample) {c c' : Cache} {rs : List Int} (acc : List Int) (hn : c.clauseOutput.length = n) (ht : c.tick = tick + acc.length)
    (h : batchLoopR B sc ta t outputs T X c = .ok (c', rs)) :
    Goes (CallCode.iter X (fun x vs => (responseCode B sc (tick + vs.length) ta t outputs T n x).bind fun v => CallCode.ret (vs ++ [v])) acc)
      ⟨c.clauseOutput, c.labelSum⟩ (acc ++ rs) ⟨c'.clauseOutput, c'.labelSum⟩ := by
  induction X generalizing c rs acc with
  | nil => cases h; rw [List.append_nil]; exact .ret _ _
  | cons x X ih =>
    unfold batchLoopR at h
    rw [bind_eq_ok] at h
    obtain ⟨⟨c1, v⟩, h1, h2⟩ := h
    rw [bind_eq_ok] at h2
    obtain ⟨⟨c2, rs2⟩, h2, h3⟩ := h2
    cases h3
    obtain ⟨g1, e1, e4⟩ := goes_response h1
    dsimp only at e4
    rw [hn, ht] at g1
    refine Goes.bind (g1.bind (.ret _ _)) ?_
    have := ih (acc ++ [v]) (e1.trans hn) (by rw [e4, ht, List.length_append, List.length_singleton]; omega) h2
    rw [List.append_assoc] at this
    exact this

/-- A read-only call, undisturbed, does what the sequential model says. -/
theorem goes_call {sc : Sched} {B : Backend} {env : Env} {k : Kind} {st st' : EstState B env} {c : Call B.Sample k} {o : Out} (hc : c.Reads)
    (h : step B env sc c st = .ok (st', o)) : Goes (callCode sc st c) st.scratch o st'.scratch := by
  cases c with
  | fit => exact hc.elim
  | partialFit => exact hc.elim
  | fitR => exact hc.elim
  | partialFitR => exact hc.elim
  | predict1 x =>
    simp only [step, tagged, predictClassifier1] at h
    rw [bind_eq_ok] at h
    obtain ⟨⟨s, r⟩, h, h'⟩ := h
    cases h'
    refine Goes.bind ?_ (.ret _ _)
    rw [bind_eq_ok] at h
    obtain ⟨sm, h0, h⟩ := h
    refine Goes.bind (Goes.ofRes h0 _) ?_
    split at h
    · rw [if_pos (by assumption)]; cases h; exact .ret _ _
    · rw [if_neg (by assumption)]
      rw [bind_eq_ok] at h
      obtain ⟨i, h1, h⟩ := h
      rw [bind_eq_ok] at h
      obtain ⟨c, h2, h⟩ := h
      cases h
      obtain ⟨g1, e1, -⟩ := goes_scores h2
      have ga := goes_argmax c.clauseOutput c.labelSum
      rw [e1] at ga
      exact (Goes.ofRes h1 _).bind (g1.bind (ga.bind (.ret _ _)))
  | decision1 x =>
    simp only [step, tagged, decision1] at h
    rw [bind_eq_ok] at h
    obtain ⟨⟨s, r⟩, h, h'⟩ := h
    cases h'
    refine Goes.bind ?_ (.ret _ _)
    rw [bind_eq_ok] at h
    obtain ⟨sm, h0, h⟩ := h
    refine Goes.bind (Goes.ofRes h0 _) ?_
    split at h
    · rw [if_pos (by assumption)]; cases h; exact .ret _ _
    · rw [if_neg (by assumption)]
      rw [bind_eq_ok] at h
      obtain ⟨i, h1, h⟩ := h
      rw [bind_eq_ok] at h
      obtain ⟨c, h2, h⟩ := h
      cases h
      obtain ⟨g1, e1, -⟩ := goes_scores h2
      have ga := goes_copy c.clauseOutput c.labelSum
      rw [e1] at ga
      exact (Goes.ofRes h1 _).bind (g1.bind (ga.bind (.ret _ _)))
  | predict X =>
    simp only [step, tagged, predictClassifier] at h
    rw [bind_eq_ok] at h
    obtain ⟨⟨s, r⟩, h, h'⟩ := h
    cases h'
    refine Goes.bind ?_ (.ret _ _)
    rw [bind_eq_ok] at h
    obtain ⟨sm, h0, h⟩ := h
    refine Goes.bind (Goes.ofRes h0 _) ?_
    split at h
    · rw [if_pos (by assumption)]; cases h; exact .ret _ _
    · rw [if_neg (by assumption)]
      rw [bind_eq_ok] at h
      obtain ⟨i, h1, h⟩ := h
      rw [bind_eq_ok] at h
      obtain ⟨⟨c, rs⟩, h2, h⟩ := h
      cases h
      have g := goes_batch (n := st.cache.labelSum.length)
        (fc := (argmaxCode st.cache.labelSum.length).bind fun m => .ret (m : Int)) (fun out sums e => by
          have := goes_argmax out sums
          rw [e] at this
          exact this.bind (.ret _ _)) X [] rfl rfl h2
      exact (Goes.ofRes h1 _).bind (g.bind (.ret _ _))
  | decision X =>
    simp only [step, tagged, decision] at h
    rw [bind_eq_ok] at h
    obtain ⟨⟨s, r⟩, h, h'⟩ := h
    cases h'
    refine Goes.bind ?_ (.ret _ _)
    rw [bind_eq_ok] at h
    obtain ⟨sm, h0, h⟩ := h
    refine Goes.bind (Goes.ofRes h0 _) ?_
    split at h
    · rw [if_pos (by assumption)]; cases h; exact .ret _ _
    · rw [if_neg (by assumption)]
      rw [bind_eq_ok] at h
      obtain ⟨i, h1, h⟩ := h
      rw [bind_eq_ok] at h
      obtain ⟨⟨c, rs⟩, h2, h⟩ := h
      cases h
      have g := goes_batch (n := st.cache.labelSum.length)
        (fc := copyCode st.cache.labelSum.length) (fun out sums e => by
          have := goes_copy out sums
          rw [e] at this
          exact this) X [] rfl rfl h2
      exact (Goes.ofRes h1 _).bind (g.bind (.ret _ _))
  | evaluate X y =>
    simp only [step, tagged, evaluate] at h
    rw [bind_eq_ok] at h
    obtain ⟨⟨s, r⟩, h, h'⟩ := h
    cases h'
    refine Goes.bind ?_ (.ret _ _)
    rw [bind_eq_ok] at h
    obtain ⟨i, h1, h⟩ := h
    rw [bind_eq_ok] at h
    obtain ⟨⟨c, e⟩, h2, h⟩ := h
    cases h
    rw [List.range_eq_range'] at h2
    have g := goes_eval (s := 0) (tick := st.cache.tick) X.length rfl rfl h2
    rw [← List.range_eq_range'] at g
    exact (Goes.ofRes h1 _).bind (g.bind (.ret _ _))
  | predictR1 x =>
    simp only [step, tagged, predictRegressor1] at h
    rw [bind_eq_ok] at h
    obtain ⟨⟨s, r⟩, h, h'⟩ := h
    cases h'
    refine Goes.bind ?_ (.ret _ _)
    rw [bind_eq_ok] at h
    obtain ⟨sm, h0, h⟩ := h
    refine Goes.bind (Goes.ofRes h0 _) ?_
    split at h
    · rw [if_pos (by assumption)]; cases h; exact .ret _ _
    · rw [if_neg (by assumption)]
      rw [bind_eq_ok] at h
      obtain ⟨_, h1, h⟩ := h
      rw [bind_eq_ok] at h
      obtain ⟨_, h2, h⟩ := h
      rw [bind_eq_ok] at h
      obtain ⟨_, h3, h⟩ := h
      rw [bind_eq_ok] at h
      obtain ⟨_, h4, h⟩ := h
      rw [bind_eq_ok] at h
      obtain ⟨⟨c, v⟩, h5, h⟩ := h
      cases h
      exact (Goes.ofRes h1 _).bind ((Goes.ofRes h2 _).bind ((Goes.ofRes h3 _).bind ((Goes.ofRes h4 _).bind
        ((goes_response h5).1.bind (.ret _ _)))))
  | predictR X =>
    simp only [step, tagged, predictRegressor] at h
    rw [bind_eq_ok] at h
    obtain ⟨⟨s, r⟩, h, h'⟩ := h
    cases h'
    refine Goes.bind ?_ (.ret _ _)
    rw [bind_eq_ok] at h
    obtain ⟨sm, h0, h⟩ := h
    refine Goes.bind (Goes.ofRes h0 _) ?_
    split at h
    · rw [if_pos (by assumption)]; cases h; exact .ret _ _
    · rw [if_neg (by assumption)]
      rw [bind_eq_ok] at h
      obtain ⟨_, h1, h⟩ := h
      rw [bind_eq_ok] at h
      obtain ⟨_, h2, h⟩ := h
      rw [bind_eq_ok] at h
      obtain ⟨_, h3, h⟩ := h
      rw [bind_eq_ok] at h
      obtain ⟨_, h4, h⟩ := h
      rw [bind_eq_ok] at h
      obtain ⟨⟨c, v⟩, h5, h⟩ := h
      cases h
      exact (Goes.ofRes h1 _).bind ((Goes.ofRes h2 _).bind ((Goes.ofRes h3 _).bind ((Goes.ofRes h4 _).bind
        ((goes_batchR X [] rfl rfl h5).bind (.ret _ _)))))

end Tsetlini
