import Verif.Lemmas.Observe
import Verif.Props.Toy
/-
C04, C07, C08, C09, C10, C42, C43 and the predict half of C12: what clauses, decision_function and predict compute.
-/
namespace Tsetlini
open Res Spec

variable {a : Algo} {k : Kind} {env : Env} {st : EstState a.backend env}

/-! ### helpers -/

theorem withShape_gives {α : Type} {ss : SState env} {chk : Res Status} {f : Nat → Nat → α} {labels nf : Nat}
    {r : Except Status α} (hsh : ss.shape = some (labels, nf)) (hc : chk.Ret fun s => s.code = .ok)
    (h : withShape ss chk f = .ok r) : r = .ok (f labels nf) := by
  obtain ⟨s, rfl, hs⟩ := hc
  unfold withShape at h
  rw [ok_bind, if_neg (by simpa using hs), hsh] at h
  cases h; rfl

theorem withShape_rejects {α : Type} {ss : SState env} {chk : Res Status} {f : Nat → Nat → α}
    {r : Except Status α} {s : Status} (hc : chk = .ok s) (hs : s.code ≠ .ok)
    (h : withShape ss chk f = .ok r) : r = .error s := by
  unfold withShape at h
  rw [hc, ok_bind, if_pos hs] at h
  cases h; rfl

theorem Fit.checkS_sok {cfg : Cfg} {labels nf : Nat} {ss : SState env} (hv : Valid cfg)
    (h : Fit a.lawful cfg labels nf st ss) {x : a.Sample} (hx : SOk a.lawful nf x) :
    (checkS a.backend ss.shape x).Ret fun s => s.code = .ok :=
  ((Sim.checkS_ok hv (.inr ⟨_, _, h⟩) hx.inv).mono fun _ hs => hs.2 ⟨labels, nf, h.shape, hx⟩)

theorem scoresS_eq {cfg : Cfg} {labels nf : Nat} {ss : SState env} (h : Fit a.lawful cfg labels nf st ss)
    (x : List Bool) : scoresS cfg labels ss x = (List.range labels).map fun l =>
      score (outPrunedAt (a.clauses st) x) st.ta.weights cfg.k cfg.T l := by
  unfold scoresS
  rw [h.clausesEq, h.w]

/-! ### C04 -/

/-- **C04** (training): the output of clause `o` is 1 iff every included literal of it is true. -/
theorem C04_training_output (h : Reached a k st) (hN : StatesOk a st.params)
    {n : Int} (hn : IntParam st.params "number_of_features" n) {x : a.Sample} (hx : a.Built x) (hg : a.Good x)
    (hs : a.backend.size x = n) {o : Nat} {c : Clause} (ho : (a.clauses st)[o]? = some c) (t : Tile) :
    ∃ b, a.backend.clauseOut t st.ta.mat o x = .ok b ∧ (b = true ↔ c.Holds (a.bits x)) := by
  have hf : Fitted a st := by
    intro e
    unfold Algo.clauses at ho
    rw [e] at ho; cases ho
  obtain ⟨cfg, labels, nf, ss, h1, hv, h2, hF⟩ := reached_fit h hN hf
  have e := hF.featC hn
  rw [← hF.clausesEq] at ho
  obtain ⟨hlt, hc⟩ := List.getElem?_eq_some_iff.1 ho
  refine ⟨_, a.lawful.out_eq t hF.abs hlt ((lawful_sinv a x).2 hx) ((lawful_bin a x).2 hg) (by omega), ?_⟩
  rw [hc, lawful_bits]
  exact decide_eq_true_iff

/-- **C04** (prediction): in addition at least one literal must be included. -/
theorem C04_prediction_output (h : Reached a k st) (hN : StatesOk a st.params)
    {n : Int} (hn : IntParam st.params "number_of_features" n) {x : a.Sample} (hx : a.Built x) (hg : a.Good x)
    (hs : a.backend.size x = n) {o : Nat} {c : Clause} (ho : (a.clauses st)[o]? = some c) (t : Tile) :
    ∃ b, a.backend.clauseOutPruned t st.ta.mat o x = .ok b ∧
      (b = true ↔ c.Holds (a.bits x) ∧ c.NonEmpty (a.bits x).length) := by
  have hf : Fitted a st := by
    intro e
    unfold Algo.clauses at ho
    rw [e] at ho; cases ho
  obtain ⟨cfg, labels, nf, ss, h1, hv, h2, hF⟩ := reached_fit h hN hf
  have e := hF.featC hn
  rw [← hF.clausesEq] at ho
  obtain ⟨hlt, hc⟩ := List.getElem?_eq_some_iff.1 ho
  refine ⟨_, a.lawful.outPruned_eq t hF.abs hlt ((lawful_sinv a x).2 hx) ((lawful_bin a x).2 hg) (by omega), ?_⟩
  rw [hc, lawful_bits]
  exact decide_eq_true_iff

/-- A trained clause, a sample, and both values of the output occur. -/
example : IntParam Toy.bc.params "number_of_features" 3 ∧
    Algo.bitwise.backend.size (⟨3, [5]⟩ : BitVector) = 3 ∧
    Algo.bitwise.backend.clauseOut .t16 Toy.bc.ta.mat 4 (⟨3, [5]⟩ : BitVector) = .ok true ∧
    Algo.bitwise.backend.clauseOut .t16 Toy.bc.ta.mat 4 (⟨3, [1]⟩ : BitVector) = .ok false := by
  refine ⟨?_, rfl, ?_, ?_⟩
  · show Params.get? _ _ = _; decide +kernel
  · decide +kernel
  · decide +kernel

/-! ### C07 -/

/-- **C07**: decision_function returns, for every label, the clamped signed weighted vote of
its clauses; each score lies in [-T, T]. -/
theorem C07_decision (h : Reached a .classifier st) (hN : StatesOk a st.params) (hf : Fitted a st)
    {T labels clauses n : Int} (hT : IntParam st.params "threshold" T)
    (hl : IntParam st.params "number_of_labels" labels)
    (hc : IntParam st.params "number_of_clauses_per_label" clauses)
    (hn : IntParam st.params "number_of_features" n)
    {x : a.Sample} (hx : a.Built x) (hg : a.Good x) (hs : a.backend.size x = n) (sc : Sched) :
    ∃ scores, Gives (decision1 a.backend env sc st x) scores ∧ scores.length = labels ∧
      (∀ l : Nat, l < labels → scores[l]? =
        some (score (outPrunedAt (a.clauses st) (a.bits x)) st.ta.weights (clauses / 2).toNat T l)) ∧
      ∀ s ∈ scores, -T ≤ s ∧ s ≤ T := by
  obtain ⟨cfg, L, nf, ss, h1, hv, h2, hF⟩ := reached_fit h hN hf
  have e1 := hF.featC hn
  have e2 := hF.labelsC h1 hl
  have e3 := hF.reads.TC hT
  have e4 : clauses = cfg.clauses := hF.reads.clausesC (by rw [h1]; exact hc)
  subst e2 e3 e4
  have hx' : SOk a.lawful nf x := sok_of hx hg (by omega)
  obtain ⟨r, hr, -, -, hr2⟩ := decision1_ref sc hv h1 (.inr ⟨_, _, hF⟩) ((lawful_sinv a x).2 hx)
  have := withShape_gives hF.shape (hF.checkS_sok hv hx') hr2
  obtain ⟨st', r⟩ := r
  dsimp only at this
  subst this
  refine ⟨_, ⟨st', hr⟩, ?_, ?_, ?_⟩
  · simp [scoresS]
  · intro l hl
    rw [scoresS_eq hF, lawful_bits, List.getElem?_map, List.getElem?_range (by omega)]
    rfl
  · exact scoresS_range hv _

/-- The hypotheses are met and the scores are not all equal. -/
example : IntParam Toy.bc.params "threshold" 2 ∧ IntParam Toy.bc.params "number_of_labels" 3 ∧
    IntParam Toy.bc.params "number_of_clauses_per_label" 4 ∧
    (match decision1 bitwise Toy.env Toy.seq Toy.bc (⟨3, [5]⟩ : BitVector) with
      | .ok (_, .ok s) => s
      | _ => []) = [0, -1, 0] := by
  refine ⟨?_, ?_, ?_, ?_⟩
  · show Params.get? _ _ = _; decide +kernel
  · show Params.get? _ _ = _; decide +kernel
  · show Params.get? _ _ = _; decide +kernel
  · decide +kernel

/-! ### C08 -/

/-- **C08**: predict returns the first label with the highest decision_function score; it lies in
[0, number_of_labels). -/
theorem C08_predict (h : Reached a .classifier st) (hN : StatesOk a st.params)
    {labels : Int} (hl : IntParam st.params "number_of_labels" labels)
    {x : a.Sample} (hx : a.Built x) (sc sc' : Sched) {scores : List Int}
    (hd : Gives (decision1 a.backend env sc st x) scores) :
    ∃ i : Nat, Gives (predictClassifier1 a.backend env sc' st x) (i : Int) ∧ FirstMax scores i ∧ (i : Int) < labels := by
  obtain ⟨cfg, ss, h1, hv, h2, hS⟩ := Reached.sim h hN
  have hx' := (lawful_sinv a x).2 hx
  obtain ⟨r, hr, -, -, hr2⟩ := decision1_ref sc hv h1 hS hx'
  obtain ⟨r', hr', -, -, hr2'⟩ := predict1_ref sc' hv h1 hS hx'
  obtain ⟨s0, hd⟩ := hd
  rw [hd] at hr
  cases hr
  dsimp only at hr2
  obtain ⟨s, hs, hiff⟩ := hS.checkS_ok hv hx'
  by_cases hc : s.code = .ok
  · obtain ⟨L, nf, hsh, hok⟩ := hiff.1 hc
    rcases hS with hU | ⟨L', nf', hF⟩
    · rw [hU.shape] at hsh; cases hsh
    · have e' := hF.shape; rw [hsh] at e'; cases e'
      have g1 := withShape_gives hsh ⟨s, hs, hc⟩ hr2
      have g2 := withShape_gives hsh ⟨s, hs, hc⟩ hr2'
      cases g1
      obtain ⟨st', r'⟩ := r'
      dsimp only at g2
      subst g2
      have hne : scoresS cfg L ss (a.lawful.bits x) ≠ [] := by
        have := hF.pos
        intro e
        have := congrArg List.length e
        simp [scoresS] at this
        omega
      refine ⟨_, ⟨st', hr'⟩, argmax_spec hne, ?_⟩
      obtain ⟨m, hm, -⟩ := argmax_spec hne
      have := (List.getElem?_eq_some_iff.1 hm).1
      have e2 := hF.labelsC h1 hl
      subst e2
      simpa [scoresS] using this
  · have := withShape_rejects hs hc hr2
    cases this

example : (match predictClassifier1 bitwise Toy.env Toy.rev Toy.bc (⟨3, [3]⟩ : BitVector) with
      | .ok (_, .ok s) => s
      | _ => -1) = 0 := by decide +kernel

/-! ### C09 -/

/-- **C09**: a regressor's prediction is the clamped weighted count of its true clauses. -/
theorem C09_predict (h : Reached a .regressor st) (hN : StatesOk a st.params) (hf : Fitted a st)
    {T clauses n : Int} (hT : IntParam st.params "threshold" T)
    (hc : IntParam st.params "number_of_regressor_clauses" clauses)
    (hn : IntParam st.params "number_of_features" n)
    {x : a.Sample} (hx : a.Built x) (hg : a.Good x) (hs : a.backend.size x = n) (sc : Sched) :
    Gives (predictRegressor1 a.backend env sc st x)
        (response (outPrunedAt (a.clauses st) (a.bits x)) st.ta.weights (clauses / 2).toNat T) ∧
      0 ≤ response (outPrunedAt (a.clauses st) (a.bits x)) st.ta.weights (clauses / 2).toNat T ∧
      response (outPrunedAt (a.clauses st) (a.bits x)) st.ta.weights (clauses / 2).toNat T ≤ T := by
  obtain ⟨cfg, L, nf, ss, h1, hv, h2, hF⟩ := reached_fit h hN hf
  have e1 := hF.featC hn
  have e3 := hF.reads.TC hT
  have e4 : clauses = cfg.clauses := hF.reads.clausesC (by rw [h1]; exact hc)
  subst e3 e4
  have hx' : SOk a.lawful nf x := sok_of hx hg (by omega)
  obtain ⟨r, hr, -, -, hr2⟩ := predictR1_ref sc hv h1 (.inr ⟨_, _, hF⟩) ((lawful_sinv a x).2 hx)
  have := withShape_gives hF.shape (hF.checkS_sok hv hx') hr2
  obtain ⟨st', r⟩ := r
  dsimp only at this
  subst this
  have hT1 := hv.T
  refine ⟨⟨st', ?_⟩, clampTo_range _ (by omega)⟩
  rw [hr]
  unfold responseS
  rw [hF.len, hF.reg1 h1, Nat.one_mul, hF.clausesEq, hF.w, lawful_bits]
  rfl

example : (match predictRegressor1 classic Toy.env Toy.seq Toy.cr ([1, 1, 0] : ClassicSample) with
      | .ok (_, .ok s) => s
      | _ => -1) = 1 := by decide +kernel

/-! ### C10 -/

theorem batch_of {α : Type} {cfg : Cfg} {ss : SState env} (hv : Valid cfg) (hS : Sim a.lawful cfg st ss)
    {X : List a.Sample} (hX : ∀ x ∈ X, a.Built x) (f : Nat → Nat → a.Sample → α)
    {single : a.Sample → Res (EstState a.backend env × Except Status α)}
    {batch : Res (EstState a.backend env × Except Status (List α))}
    (h1 : ∀ x ∈ X, (single x).Ret fun r =>
      withShape ss (checkS a.backend ss.shape x) (fun l n => f l n x) = .ok r.2)
    (h2 : batch.Ret fun r => withShape ss (checkBatchS a.backend ss.shape X) (fun l n => X.map (f l n)) = .ok r.2) :
    BatchOf single batch X := by
  have hX' : ∀ x ∈ X, a.lawful.SInv x := fun x hx => (lawful_sinv a x).2 (hX x hx)
  obtain ⟨s, hs, hiff⟩ := hS.checkBatchS_ok hv hX'
  obtain ⟨⟨sb, rb⟩, hb, hb2⟩ := h2
  by_cases hc : s.code = .ok
  · obtain ⟨hne, L, nf, hsh, hok⟩ := hiff.1 hc
    have g := withShape_gives hsh ⟨s, hs, hc⟩ hb2
    dsimp only at g
    subst g
    have hsing : ∀ x ∈ X, Gives (single x) (f L nf x) := by
      intro x hx
      obtain ⟨⟨s1, r1⟩, e1, e2⟩ := h1 x hx
      have := withShape_gives hsh ((hS.checkS_ok hv (hX' x hx)).mono fun _ hs => hs.2 ⟨L, nf, hsh, hok x hx⟩) e2
      dsimp only at this
      subst this
      exact ⟨s1, e1⟩
    refine .inl ⟨hne, fun x hx => ⟨_, hsing x hx⟩, _, ⟨sb, hb⟩, by simp, ?_⟩
    intro i x v hx hvv
    rw [List.getElem?_map, hx] at hvv
    cases hvv
    exact hsing x (List.mem_of_getElem? hx)
  · have g := withShape_rejects hs hc hb2
    dsimp only at g
    subst g
    refine .inr ⟨?_, s, sb, hb⟩
    by_cases hne : X = []
    · exact .inl hne
    · right
      have : ¬ ∃ L nf, ss.shape = some (L, nf) ∧ ∀ x ∈ X, SOk a.lawful nf x := fun h => hc (hiff.2 ⟨hne, h⟩)
      have : ∃ x ∈ X, ¬ ∃ L nf, ss.shape = some (L, nf) ∧ SOk a.lawful nf x := by
        apply Classical.byContradiction
        intro hcon
        apply this
        have hall : ∀ x ∈ X, ∃ L nf, ss.shape = some (L, nf) ∧ SOk a.lawful nf x := fun x hx =>
          Classical.byContradiction fun h => hcon ⟨x, hx, h⟩
        cases hsh : ss.shape with
        | none =>
          cases X with
          | nil => exact absurd rfl hne
          | cons x _ =>
            obtain ⟨L, nf, e, -⟩ := hall x (by simp)
            rw [hsh] at e; cases e
        | some p =>
          refine ⟨p.1, p.2, rfl, fun x hx => ?_⟩
          obtain ⟨L, nf, e, h⟩ := hall x hx
          rw [hsh] at e; cases e
          exact h
      obtain ⟨x, hx, hbad⟩ := this
      obtain ⟨⟨s1, r1⟩, e1, e2⟩ := h1 x hx
      obtain ⟨sx, hsx, hiffx⟩ := hS.checkS_ok hv (hX' x hx)
      have hcx : sx.code ≠ .ok := fun h => hbad (hiffx.1 h)
      have := withShape_rejects hsx hcx e2
      dsimp only at this
      subst this
      exact ⟨x, hx, sx, s1, e1⟩

/-- **C10** for classifier predict. -/
theorem C10_predict (h : Reached a .classifier st) (hN : StatesOk a st.params) {X : List a.Sample}
    (hX : ∀ x ∈ X, a.Built x) (sc sc' : Sched) :
    BatchOf (predictClassifier1 a.backend env sc st) (predictClassifier a.backend env sc' st X) X := by
  obtain ⟨cfg, ss, h1, hv, h2, hS⟩ := Reached.sim h hN
  refine batch_of hv hS hX (fun labels _ x => (argmax (scoresS cfg labels ss (a.lawful.bits x)) : Int)) ?_ ?_
  · exact fun x hx => (predict1_ref sc hv h1 hS ((lawful_sinv a x).2 (hX x hx))).mono fun r hr => hr.2.2
  · exact (predict_ref sc' hv h1 hS (fun x hx => (lawful_sinv a x).2 (hX x hx))).mono fun r hr => hr.2.2

/-- **C10** for decision_function. -/
theorem C10_decision (h : Reached a .classifier st) (hN : StatesOk a st.params) {X : List a.Sample}
    (hX : ∀ x ∈ X, a.Built x) (sc sc' : Sched) :
    BatchOf (decision1 a.backend env sc st) (decision a.backend env sc' st X) X := by
  obtain ⟨cfg, ss, h1, hv, h2, hS⟩ := Reached.sim h hN
  refine batch_of hv hS hX (fun labels _ x => scoresS cfg labels ss (a.lawful.bits x)) ?_ ?_
  · exact fun x hx => (decision1_ref sc hv h1 hS ((lawful_sinv a x).2 (hX x hx))).mono fun r hr => hr.2.2
  · exact (decision_ref sc' hv h1 hS (fun x hx => (lawful_sinv a x).2 (hX x hx))).mono fun r hr => hr.2.2

/-- **C10** for regressor predict. -/
theorem C10_predict_regressor (h : Reached a .regressor st) (hN : StatesOk a st.params) {X : List a.Sample}
    (hX : ∀ x ∈ X, a.Built x) (sc sc' : Sched) :
    BatchOf (predictRegressor1 a.backend env sc st) (predictRegressor a.backend env sc' st X) X := by
  obtain ⟨cfg, ss, h1, hv, h2, hS⟩ := Reached.sim h hN
  refine batch_of hv hS hX (fun _ _ x => responseS cfg ss (a.lawful.bits x)) ?_ ?_
  · exact fun x hx => (predictR1_ref sc hv h1 hS ((lawful_sinv a x).2 (hX x hx))).mono fun r hr => hr.2.2
  · exact (predictR_ref sc' hv h1 hS (fun x hx => (lawful_sinv a x).2 (hX x hx))).mono fun r hr => hr.2.2

/-- Both sides of C10 occur: a batch of four accepted samples, and one with a bad sample. -/
example : (match predictClassifier classic Toy.env Toy.seq Toy.cc Toy.X with
      | .ok (_, .ok s) => s
      | _ => []) = [1, 0, 0, 1] ∧
    (match predictClassifier classic Toy.env Toy.seq Toy.cc ([[1, 0, 1], [1, 2, 1]] : List ClassicSample) with
      | .ok (_, .error s) => s.code
      | _ => .ok) = .valueError := by constructor <;> decide +kernel

end Tsetlini
