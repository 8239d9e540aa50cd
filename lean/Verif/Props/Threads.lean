import Verif.Lemmas.Threads
import Verif.Lemmas.Twin
import Verif.Props.Inference
/-
C53: the parallel loops of the clause outputs, at the granularity of single memory accesses.
-/
namespace Tsetlini
open Res Spec

private theorem iter_bounds {clause : Nat → Res Bool} {l : List Nat} {out out' : List Bool}
    (h : iter l (fun o out => (clause o).bind fun v => wr out o v) out = .ok out') : ∀ o ∈ l, o < out.length := by
  induction l generalizing out with
  | nil => simp
  | cons o l ih =>
    rw [iter_cons, bind_eq_ok] at h
    obtain ⟨out1, h1, h2⟩ := h
    rw [bind_eq_ok] at h1
    obtain ⟨v, -, h1⟩ := h1
    unfold wr at h1
    split at h1
    · next hlt =>
      injection h1 with h1
      subst h1
      intro p hp
      rcases List.mem_cons.1 hp with rfl | hp
      · exact hlt
      · simpa using ih h2 p hp
    · cases h1

private theorem work_zero {C S : Type} {rows : List (List C)} {x : List S} {body : Nat → ThreadCode C S Bool} {R : Region C S} :
    Joined R ↔ R.work rows x body = 0 := by
  unfold Region.work Joined
  rw [List.sum_eq_zero_iff_forall_eq_nat]
  simp only [List.mem_map, forall_exists_index, and_imp, forall_apply_eq_imp_iff₂]
  refine forall_congr' fun t => imp_congr_right fun _ => ?_
  obtain ⟨todo, cur⟩ := t
  cases cur with
  | some p => simp [Thread.work]
  | none => cases todo with
    | nil => simp [Thread.work]
    | cons o os => simp [Thread.work]

private theorem parallel {C S : Type} {rows : List (List C)} {x : List S} {body : Nat → ThreadCode C S Bool} {clause : Nat → Res Bool}
    (hb : ∀ o, (body o).eval rows x = clause o) {sc : Sched} {a b : Nat} {c c' : Cache}
    (h : outputsLoop sc clause a b c = .ok c') : ParallelOk rows x body a b c.clauseOutput c'.clauseOutput := by
  have hv := outputsLoop_vals h
  have hlen : ∀ o ∈ range a b, o < c.clauseOutput.length := by
    unfold outputsLoop at h
    rw [bind_eq_ok] at h
    obtain ⟨out, h1, -⟩ := h
    intro o ho
    exact iter_bounds h1 o ((sc.order_law c.tick a b).mem_iff.2 ho)
  have H : ∀ o ∈ range a b, (body o).eval rows x = .ok (boolOf (clause o)) := by
    intro o ho
    rw [hb]
    rw [mem_range] at ho
    exact hv o ho.1 ho.2
  intro R₀ h0
  have hgo : ∀ n R, Execution rows x body n R₀ R → ¬ Joined R → ∃ R', Region.Step rows x body R R' := by
    intro n R he hn
    obtain ⟨hw, done, hi⟩ := TeamInv.execution H hlen he (TeamInv.start h0)
    apply Classical.byContradiction
    intro hno
    apply hn
    intro t ht
    rcases hi.threadOk H hlen ht with ⟨h1, h2, -⟩ | ⟨t', out', e, -⟩
    · exact ⟨h1, h2⟩
    · obtain ⟨i, hi⟩ := List.mem_iff_getElem?.1 ht
      exact absurd ⟨_, i, t, t', out', hi, e, rfl⟩ hno
  have hall : ∀ n, n ≤ R₀.work rows x body → ∃ R, Execution rows x body n R₀ R := by
    intro n
    induction n with
    | zero => exact fun _ => ⟨R₀, .refl _⟩
    | succ n ih =>
      intro hn
      obtain ⟨R, he⟩ := ih (by omega)
      obtain ⟨hw, -⟩ := TeamInv.execution H hlen he (TeamInv.start h0)
      obtain ⟨R', hs⟩ := hgo n R he (by
        rw [work_zero (rows := rows) (x := x) (body := body)]
        omega)
      exact ⟨R', .step he hs⟩
  refine ⟨R₀.work rows x body, hall _ (Nat.le_refl _), fun n R he => ?_⟩
  obtain ⟨hw, done, hi⟩ := TeamInv.execution H hlen he (TeamInv.start h0)
  have hj : Joined R ↔ n = R₀.work rows x body := by
    rw [work_zero (rows := rows) (x := x) (body := body)]
    omega
  refine ⟨hi.noRace, ?_, by omega, hj, hgo n R he, fun hjn => ?_⟩
  · rintro ⟨t, ht, r, hr, hne⟩
    rcases hi.threadOk H hlen ht with ⟨-, -, e⟩ | ⟨t', out', e, -⟩
    · rw [e] at hr; cases hr
    · rw [e] at hr
      injection hr with hr
      exact hne _ hr.symm
  · have hout := hi.joined hjn
    by_cases hab : a < b
    · obtain ⟨c2, e2, out, e3, h3, h4⟩ := outputsLoop_ret sc hv (c := c) (by
        have := hlen (b - 1) (by rw [mem_range]; omega)
        omega)
      rw [h] at e2
      injection e2 with e2
      subst e2
      subst e3
      apply List.ext_getElem?
      intro o
      dsimp only
      rw [hout o]
      by_cases ho : o < c.clauseOutput.length
      · rw [h4 o ho]; simp only [mem_range]
      · have hno : o ∉ range a b := fun hm => ho (hlen o hm)
        rw [if_neg hno, List.getElem?_eq_none (by omega), List.getElem?_eq_none (by omega)]
    · have hnil : range a b = [] := by unfold range; rw [show b - a = 0 by omega]; rfl
      have hs : sc.order c.tick a b = [] := by
        have := (sc.order_law c.tick a b)
        rw [hnil] at this
        exact this.eq_nil
      unfold outputsLoop at h
      rw [hs] at h
      simp only [iter, ok_bind, Res.ok.injEq] at h
      subst h
      apply List.ext_getElem?
      intro o
      rw [hout o, hnil]
      simp

/-- **C53**, classic, as predict, evaluate and decision_function compute clause outputs. -/
theorem C53_classic {t : Tile} {m : Matrix} {X : ClassicSample} {sc : Sched} {a b : Nat} {c c' : Cache}
    (h : outputsLoop sc (fun o => classic.clauseOutPruned t m o X) a b c = .ok c') :
    ParallelOk m.rows X (classicCodePruned t X.length) a b c.clauseOutput c'.clauseOutput :=
  parallel (classicCodePruned_eval t m X) h

/-- **C53**, classic, as training does. -/
theorem C53_classic_training {t : Tile} {m : Matrix} {X : ClassicSample} {sc : Sched} {a b : Nat} {c c' : Cache}
    (h : outputsLoop sc (fun o => classic.clauseOut t m o X) a b c = .ok c') :
    ParallelOk m.rows X (classicCode t X.length) a b c.clauseOutput c'.clauseOutput :=
  parallel (classicCode_eval t m X) h

/-- **C53**, bitwise, as predict, evaluate and decision_function compute clause outputs. -/
theorem C53_bitwise {t : Tile} {m : PMatrix} {X : BitVector} {sc : Sched} {a b : Nat} {c c' : Cache}
    (h : outputsLoop sc (fun o => bitwise.clauseOutPruned t m o X) a b c = .ok c') :
    ParallelOk m.pol X.blocks (bitCodePruned t X.contentBlocks) a b c.clauseOutput c'.clauseOutput :=
  parallel (bitCodePruned_eval t m X) h

/-- **C53**, bitwise, as training does. -/
theorem C53_bitwise_training {t : Tile} {m : PMatrix} {X : BitVector} {sc : Sched} {a b : Nat} {c c' : Cache}
    (h : outputsLoop sc (fun o => bitwise.clauseOut t m o X) a b c = .ok c') :
    ParallelOk m.pol X.blocks (bitCode t X.contentBlocks) a b c.clauseOutput c'.clauseOutput :=
  parallel (bitCode_eval t m X) h

variable {env : Env} {k : Kind}

private theorem loop_of (a : Algo) {st : EstState a.backend env} {a' b : Nat} {out : List Bool} {f : Nat → Res Bool}
    {P : Clause → Prop} (hb : b ≤ out.length) (hcl : b ≤ (a.clauses st).length)
    (hf : ∀ o c, (a.clauses st)[o]? = some c → ∃ v, f o = .ok v ∧ (v = true ↔ P c)) :
    ∃ c', outputsLoop Toy.seq f a' b { Cache.empty with clauseOutput := out } = .ok c' ∧ c'.clauseOutput.length = out.length ∧
      (∀ o c, a' ≤ o → o < b → (a.clauses st)[o]? = some c → (c'.clauseOutput[o]? = some true ↔ P c)) ∧
      ∀ o, o < a' ∨ b ≤ o → c'.clauseOutput[o]? = out[o]? := by
  obtain ⟨c', e, out', e', hl, hv⟩ := outputsLoop_ret Toy.seq (clause := f) (c := { Cache.empty with clauseOutput := out }) (a := a')
    (v := fun o => boolOf (f o)) (fun o _ h2 => by
      obtain ⟨v, h3, -⟩ := hf o _ (List.getElem?_eq_getElem (by omega : o < (a.clauses st).length))
      rw [h3]; rfl) hb
  subst e'
  refine ⟨_, e, hl, fun o c h1 h2 hc => ?_, fun o ho => ?_⟩
  · obtain ⟨v, h3, h4⟩ := hf o c hc
    dsimp only at hv ⊢
    rw [hv o (by omega), if_pos ⟨h1, h2⟩, h3, ← h4]
    simp [boolOf]
  · dsimp only at hv hl ⊢
    by_cases ho' : o < out.length
    · rw [hv o ho', if_neg (by omega)]
    · rw [List.getElem?_eq_none (by omega), List.getElem?_eq_none (by omega)]

/-- **C53** for the machines that can arise, classic: computing the outputs of the clauses `a..b-1` in parallel for an
acceptable sample is correct, and leaves in `clause_output` whether each of them holds and is not empty. -/
theorem C53_classic_machines {st : EstState Algo.classic.backend env} (h : Reached .classic k st) (hN : StatesOk .classic st.params)
    {n : Int} (hn : IntParam st.params "number_of_features" n) {x : ClassicSample} (hg : Algo.classic.Good x)
    (hs : x.length = n) (t : Tile) {a b : Nat} {out : List Bool} (hb : b ≤ out.length) (hc : b ≤ (Algo.classic.clauses st).length) :
    ∃ result : List Bool, result.length = out.length ∧
      (∀ o c, a ≤ o → o < b → (Algo.classic.clauses st)[o]? = some c →
        (result[o]? = some true ↔ c.Holds (Algo.classic.bits x) ∧ c.NonEmpty (Algo.classic.bits x).length)) ∧
      (∀ o, o < a ∨ b ≤ o → result[o]? = out[o]?) ∧
      ParallelOk (st.ta.mat : Matrix).rows x (classicCodePruned t x.length) a b out result := by
  obtain ⟨c', e, h1, h2, h3⟩ := loop_of .classic (st := st) (a' := a) (f := fun o => classic.clauseOutPruned t st.ta.mat o x) hb hc
    (P := fun c => c.Holds (Algo.classic.bits x) ∧ c.NonEmpty (Algo.classic.bits x).length)
    fun o c ho => C04_prediction_output h hN hn (x := x) trivial hg hs ho t
  exact ⟨_, h1, h2, h3, C53_classic e⟩

/-- **C53** for the machines that can arise, bitwise. -/
theorem C53_bitwise_machines {st : EstState Algo.bitwise.backend env} (h : Reached .bitwise k st) (hN : StatesOk .bitwise st.params)
    {n : Int} (hn : IntParam st.params "number_of_features" n) {x : BitVector} (hx : Algo.bitwise.Built x) (hg : Algo.bitwise.Good x)
    (hs : x.len = n) (t : Tile) {a b : Nat} {out : List Bool} (hb : b ≤ out.length) (hc : b ≤ (Algo.bitwise.clauses st).length) :
    ∃ result : List Bool, result.length = out.length ∧
      (∀ o c, a ≤ o → o < b → (Algo.bitwise.clauses st)[o]? = some c →
        (result[o]? = some true ↔ c.Holds (Algo.bitwise.bits x) ∧ c.NonEmpty (Algo.bitwise.bits x).length)) ∧
      (∀ o, o < a ∨ b ≤ o → result[o]? = out[o]?) ∧
      ParallelOk (st.ta.mat : PMatrix).pol x.blocks (bitCodePruned t x.contentBlocks) a b out result := by
  obtain ⟨c', e, h1, h2, h3⟩ := loop_of .bitwise (st := st) (a' := a) (f := fun o => bitwise.clauseOutPruned t st.ta.mat o x) hb hc
    (P := fun c => c.Holds (Algo.bitwise.bits x) ∧ c.NonEmpty (Algo.bitwise.bits x).length)
    fun o c ho => C04_prediction_output h hN hn (x := x) hx hg hs ho t
  exact ⟨_, h1, h2, h3, C53_bitwise e⟩

/-- The six clauses of a machine, shared out between three threads. -/
example : (∃ c', outputsLoop Toy.seq (fun o => classic.clauseOutPruned .t16 Toy.cc.ta.mat o [1, 0, 1]) 0 6 Toy.cc.cache = .ok c') ∧
    TeamOf 0 6 Toy.cc.cache.clauseOutput
      (⟨[⟨[0, 2, 5], none⟩, ⟨[3, 1], none⟩, ⟨[4], none⟩], Toy.cc.cache.clauseOutput⟩ : Region Int Byte) := by
  refine ⟨?_, rfl, by simp, by decide⟩
  have h : ((outputsLoop Toy.seq (fun o => classic.clauseOutPruned .t16 Toy.cc.ta.mat o [1, 0, 1]) 0 6 Toy.cc.cache).bind
      fun c => .ok c.clauseOutput) = .ok [false, false, true, true, true, false] := by decide +kernel
  rw [bind_eq_ok] at h
  obtain ⟨c', h, -⟩ := h
  exact ⟨c', h⟩

/-- Such machines: a trained one of six clauses over three features. -/
example : Reached .classic .classifier Toy.cc ∧ StatesOk .classic Toy.cc.params ∧
    IntParam Toy.cc.params "number_of_features" 3 ∧ Algo.classic.Good ([1, 0, 1] : ClassicSample) ∧
    6 ≤ Toy.cc.cache.clauseOutput.length ∧ 6 ≤ (Algo.classic.clauses Toy.cc).length :=
  ⟨Toy.cc_reached, Toy.cc_states, by show Params.get? _ _ = _; decide +kernel,
    ⟨fun v hv => by simp at hv; exact hv.elim .inr id, trivial⟩, by decide +kernel, by decide +kernel⟩

end Tsetlini
