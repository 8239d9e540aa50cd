import Verif.Spec.Abort
import Verif.Props.Left
import Verif.Props.Shared
/-
C62: calls that run out of memory.
-/
namespace Tsetlini
open Res Spec

variable {a : Algo} {k : Kind} {env : Env}

/-! ### Retrying -/

theorem resize_idem (w : List Nat) (n : Nat) : resize (resize w n) n = resize w n := by
  have h : (resize w n).length = n := by unfold resize; simp; omega
  unfold resize at h ⊢
  rw [h, Nat.sub_self, List.take_of_length_le (by omega)]
  simp

theorem set_set (p : Params) (k : String) (v : PVal) : (p.set k v).set k v = p.set k v := by
  unfold Params.set
  simp [List.filter_cons]

theorem set_set2 (p : Params) {k k' : String} (hk : k ≠ k') (v v' : PVal) :
    (((p.set k v).set k' v').set k v).set k' v' = (p.set k v).set k' v' := by
  unfold Params.set
  have h1 : (k != k') = true := by simpa using hk
  have h2 : (k' != k) = true := by simpa using Ne.symm hk
  simp only [List.filter_cons, h1, h2, bne_self_eq_false, if_true, Bool.false_eq_true, if_false, List.filter_filter]
  congr 2
  congr 1
  funext e
  cases e.1 != k <;> cases e.1 != k' <;> rfl

/-- What `initialize_state` looks at. -/
theorem initializeState_same {B : Backend} {kind : Kind} {st s : EstState B env} (hp : s.params = st.params) (hc : s.cache.tick = st.cache.tick)
    (hw : s.ta.weights = st.ta.weights ∨
      ∃ n, clauseOutputs kind st.params = .ok n ∧ st.params.weighted = .ok true ∧ s.ta.weights = resize st.ta.weights n.toNat) :
    initializeState B env kind s = initializeState B env kind st := by
  unfold initializeState
  rw [hp, hc]
  congr 1; funext _
  congr 1; funext _
  congr 1; funext _
  congr 1; funext _
  congr 1; funext _
  cases ho : clauseOutputs kind st.params with
  | ok n =>
    rw [ok_bind, ok_bind]
    congr 1; funext _
    congr 1; funext _
    cases hwt : st.params.weighted with
    | ok w =>
      rw [ok_bind, ok_bind]
      congr 1; funext q
      obtain ⟨m, g⟩ := q
      dsimp only
      congr 1; funext c
      rcases hw with hw | ⟨n', h1, h2, hw⟩
      · rw [hw]
      · rw [ho] at h1; cases h1
        rw [hwt] at h2; cases h2
        rw [hw]
        simp only [if_true]
        rw [resize_idem]
    | _ => rfl
  | _ => rfl

theorem cacheAborts_tick {kind : Kind} {p : Params} {c : Cache} {l : List Cache} (h : cacheAborts kind p c = .ok l) :
    ∀ c' ∈ l, c'.tick = c.tick := by
  intro c' hc'
  cases kind with
  | classifier =>
    unfold cacheAborts at h
    simp only [bind_eq_ok] at h
    obtain ⟨_, -, _, -, _, -, _, -, h⟩ := h
    cases h
    simp only [List.mem_append, List.mem_singleton] at hc'
    rcases hc' with (((rfl | h) | rfl) | h) | rfl
    · rfl
    · split at h <;> simp at h; rw [h]
    · rfl
    · split at h <;> simp at h; rw [h]
    · rfl
  | regressor =>
    unfold cacheAborts at h
    simp only [bind_eq_ok] at h
    obtain ⟨_, -, _, -, h⟩ := h
    cases h
    simp only [List.mem_append, List.mem_singleton] at hc'
    rcases hc' with (rfl | h) | rfl
    · rfl
    · split at h <;> simp at h; rw [h]
    · rfl

/-- What is left of `initialize_state`. -/
theorem initAborts_facts {B : Backend} {half : CType → Nat → Nat → B.Mat → List B.Mat} {kind : Kind} {st : EstState B env}
    {l : List (EstState B env)} (h : initAborts B half env kind st = .ok l) : ∀ s ∈ l,
    s.params = st.params ∧ s.cache.tick = st.cache.tick ∧ (s.ta.weights = st.ta.weights ∨
      ∃ n, clauseOutputs kind st.params = .ok n ∧ st.params.weighted = .ok true ∧ s.ta.weights = resize st.ta.weights n.toNat) := by
  intro s hs
  unfold initAborts at h
  simp only [bind_eq_ok] at h
  obtain ⟨_, -, seed, -, _, -, states, -, clauses, -, outputs, ho, features, -, ctn, -, weighted, hw, ⟨m, igen⟩, -, caches, hc, h⟩ := h
  cases h
  simp only [List.mem_append, List.mem_cons, List.not_mem_nil, or_false, List.mem_map] at hs
  rcases hs with (((rfl | rfl | rfl) | ⟨m', -, rfl⟩) | h) | ⟨c, hm, rfl⟩
  · exact ⟨rfl, rfl, .inl rfl⟩
  · exact ⟨rfl, rfl, .inl rfl⟩
  · exact ⟨rfl, rfl, .inl rfl⟩
  · exact ⟨rfl, rfl, .inl rfl⟩
  · split at h
    · simp only [List.mem_singleton] at h
      subst h
      exact ⟨rfl, rfl, .inl rfl⟩
    · cases h
  · refine ⟨rfl, cacheAborts_tick hc c hm, ?_⟩
    cases weighted with
    | true => exact .inr ⟨outputs, ho, hw, rfl⟩
    | false => exact .inl rfl

/-- A classifier's `fit` after one that was left before training. -/
theorem fitClassifier_retry {B : Backend} {half : CType → Nat → Nat → B.Mat → List B.Mat} {sc sc' : Sched} {st : EstState B env}
    {X : List B.Sample} {y : List Int} {ml : Int} {ep : Nat} {A : Aborts B env}
    (h : fitAborts B half env sc st X y ml ep = .ok A) {s : EstState B env} (hs : s ∈ A.before) (ep' : Nat) :
    fitClassifier B env sc' s X y ml ep' = fitClassifier B env sc' st X y ml ep' := by
  unfold fitAborts at h
  unfold fitClassifier
  rw [bind_eq_ok] at h
  obtain ⟨s1, e1, h⟩ := h
  rw [e1, ok_bind, ok_bind]
  split at h
  · cases h
    rw [List.mem_singleton] at hs
    rw [hs]
  rename_i h0
  rw [if_neg h0, if_neg h0]
  simp only [bind_eq_ok] at h
  obtain ⟨hi, e2, hi1, e3, s2, e4, h⟩ := h
  rw [e2, ok_bind, ok_bind, e3, ok_bind, ok_bind, e4, ok_bind, ok_bind]
  split at h
  · cases h
    rw [List.mem_singleton] at hs
    rw [hs]
  rename_i h0
  rw [if_neg h0, if_neg h0]
  split at h
  · cases h
  rename_i x0 _
  simp only [bind_eq_ok] at h
  obtain ⟨inits, e5, st3, e6, trained, e7, h⟩ := h
  cases h
  dsimp only
  have key : ∀ q : EstState B env, (q.params.set "number_of_labels" (.int (max hi1 ml))).set "number_of_features" (.int (B.size x0)) =
      (st.params.set "number_of_labels" (.int (max hi1 ml))).set "number_of_features" (.int (B.size x0)) →
      q.cache.tick = st.cache.tick → (q.ta.weights = st.ta.weights ∨ ∃ n, clauseOutputs .classifier
        ((st.params.set "number_of_labels" (.int (max hi1 ml))).set "number_of_features" (.int (B.size x0))) = .ok n ∧
        Params.weighted ((st.params.set "number_of_labels" (.int (max hi1 ml))).set "number_of_features" (.int (B.size x0))) = .ok true ∧
        q.ta.weights = resize st.ta.weights n.toNat) →
      initializeState B env .classifier { q with params := (q.params.set "number_of_labels" (.int (max hi1 ml))).set "number_of_features" (.int (B.size x0)) } =
      initializeState B env .classifier { st with params := (st.params.set "number_of_labels" (.int (max hi1 ml))).set "number_of_features" (.int (B.size x0)) } :=
    fun q h1 h2 h3 => initializeState_same h1 h2 h3
  have hne : "number_of_labels" ≠ "number_of_features" := by decide
  have e : initializeState B env .classifier { s with params := (s.params.set "number_of_labels" (.int (max hi1 ml))).set "number_of_features" (.int (B.size x0)) } =
      initializeState B env .classifier { st with params := (st.params.set "number_of_labels" (.int (max hi1 ml))).set "number_of_features" (.int (B.size x0)) } := by
    simp only [List.mem_append, List.mem_cons, List.not_mem_nil, or_false] at hs
    rcases hs with (rfl | rfl | rfl) | hs
    · rfl
    · exact key _ (by dsimp only; rw [set_set]) rfl (.inl rfl)
    · exact key _ (by dsimp only; rw [set_set2 _ hne]) rfl (.inl rfl)
    · obtain ⟨f1, f2, f3⟩ := initAborts_facts e5 s hs
      refine key _ ?_ f2 f3
      rw [f1]
      dsimp only
      rw [set_set2 _ hne]
  rw [e]

/-- A regressor's `fit` after one that was left before training. -/
theorem fitRegressor_retry {B : Backend} {half : CType → Nat → Nat → B.Mat → List B.Mat} {sc sc' : Sched} {st : EstState B env}
    {X : List B.Sample} {y : List Int} {ep : Nat} {A : Aborts B env}
    (h : fitRAborts B half env sc st X y ep = .ok A) {s : EstState B env} (hs : s ∈ A.before) (ep' : Nat) :
    fitRegressor B env sc' s X y ep' = fitRegressor B env sc' st X y ep' := by
  unfold fitRAborts at h
  unfold fitRegressor
  rw [bind_eq_ok] at h
  obtain ⟨s1, e1, h⟩ := h
  rw [e1, ok_bind, ok_bind]
  split at h
  · cases h
    rw [List.mem_singleton] at hs
    rw [hs]
  rename_i h0
  rw [if_neg h0, if_neg h0]
  rw [bind_eq_ok] at h
  obtain ⟨T, e2, h⟩ := h
  split at h
  · cases h
    rw [List.mem_singleton] at hs
    rw [hs]
  rename_i h0
  split at h
  · cases h
  rename_i x0 _
  simp only [bind_eq_ok] at h
  obtain ⟨inits, e5, st3, e6, trained, e7, h⟩ := h
  cases h
  have e : s.params.set "number_of_features" (.int (B.size x0)) = st.params.set "number_of_features" (.int (B.size x0)) ∧
      s.params.threshold = .ok T ∧
      initializeState B env .regressor { s with params := s.params.set "number_of_features" (.int (B.size x0)) } =
      initializeState B env .regressor { st with params := st.params.set "number_of_features" (.int (B.size x0)) } := by
    have ht : Params.threshold (st.params.set "number_of_features" (.int (B.size x0))) = .ok T := by
      rw [← e2]
      unfold Params.threshold Params.getInt Params.at'
      rw [Params.get?_set_ne _ (by decide)]
    simp only [List.mem_append, List.mem_cons, List.not_mem_nil, or_false] at hs
    rcases hs with (rfl | rfl) | hs
    · exact ⟨rfl, e2, rfl⟩
    · exact ⟨set_set .., ht, initializeState_same (set_set ..) rfl (.inl rfl)⟩
    · obtain ⟨f1, f2, f3⟩ := initAborts_facts e5 s hs
      have g : s.params.set "number_of_features" (.int (B.size x0)) = st.params.set "number_of_features" (.int (B.size x0)) := by
        rw [f1]; exact set_set ..
      exact ⟨g, by rw [f1]; exact ht, initializeState_same g f2 f3⟩
  rw [e.2.1, e2, ok_bind, ok_bind]
  dsimp only
  rw [if_neg h0, if_neg h0, e.2.2]

/-- **C62**: if `fit` runs out of memory before it starts to train, calling it again with the same data - and any number of epochs - comes
to exactly what it would have come to in the first place, whatever is left of the estimator meanwhile. -/
theorem C62_retry (sc sc' : Sched) {c : Call a.Sample k} (hc : IsFit c) {st s : EstState a.backend env} (h : LeftBefore a sc c st s) (ep : Nat) :
    step a.backend env sc' (c.withEpochs ep) s = step a.backend env sc' (c.withEpochs ep) st := by
  obtain ⟨A, h1, h2⟩ := h
  cases c with
  | fit X y ml ep0 =>
    show tagged _ _ = tagged _ _
    rw [fitClassifier_retry h1 h2]
  | fitR X y ep0 =>
    show tagged _ _ = tagged _ _
    rw [fitRegressor_retry h1 h2]
  | _ => exact hc.elim


/-! ### During training -/

theorem epochAborts_mem {σ : Type} {train : Nat → Res (σ × Status)} {n : Nat} {l : List σ} (h : epochAborts train n = .ok l)
    {s : σ} (hs : s ∈ l) : ∃ e, e ≤ n ∧ ∃ o, train e = .ok (s, o) := by
  induction n generalizing l with
  | zero =>
    unfold epochAborts at h
    rw [bind_eq_ok] at h
    obtain ⟨r, e, h⟩ := h
    cases h
    rw [List.mem_singleton] at hs
    exact ⟨0, Nat.le_refl _, r.2, by rw [e, hs]⟩
  | succ n ih =>
    unfold epochAborts at h
    simp only [bind_eq_ok] at h
    obtain ⟨l', e, r, e', h⟩ := h
    cases h
    rcases List.mem_append.1 hs with hs | hs
    · obtain ⟨e0, h0, h1⟩ := ih e hs
      exact ⟨e0, by omega, h1⟩
    · rw [List.mem_singleton] at hs
      exact ⟨n + 1, Nat.le_refl _, r.2, by rw [e', hs]⟩

theorem epochAborts_ok {σ : Type} {train : Nat → Res (σ × Status)} {n : Nat} (h : ∀ e, e ≤ n → ∃ r, train e = .ok r) :
    ∃ l, epochAborts train n = .ok l ∧ ∀ r, train n = .ok r → r.1 ∈ l := by
  induction n with
  | zero =>
    obtain ⟨r, e⟩ := h 0 (Nat.le_refl _)
    refine ⟨[r.1], by unfold epochAborts; rw [e, ok_bind], fun r' e' => ?_⟩
    rw [e] at e'; cases e'
    exact List.mem_singleton.2 rfl
  | succ n ih =>
    obtain ⟨l, hl, -⟩ := ih fun e he => h e (by omega)
    obtain ⟨r, e⟩ := h (n + 1) (Nat.le_refl _)
    refine ⟨l ++ [r.1], by unfold epochAborts; rw [hl, ok_bind, e, ok_bind], fun r' e' => ?_⟩
    rw [e] at e'; cases e'
    exact List.mem_append_right _ (List.mem_singleton.2 rfl)

theorem iter_prefix {σ : Type} {f : Nat → σ → Res σ} {n m : Nat} (hm : m ≤ n) {s s' : σ} (h : iter (List.range n) f s = .ok s') :
    ∃ s1, iter (List.range m) f s = .ok s1 := by
  obtain ⟨d, rfl⟩ := Nat.exists_eq_add_of_le hm
  rw [List.range_add, iter_append, bind_eq_ok] at h
  obtain ⟨s1, h, -⟩ := h
  exact ⟨s1, h⟩

theorem onlineC_prefix {B : Backend} {sc : Sched} {st : EstState B env} {X : List B.Sample} {y : List Int} {n m : Nat} (hm : m ≤ n)
    {r : EstState B env × Status} (h : fitClassifierOnline B env sc st X y n = .ok r) :
    ∃ r, fitClassifierOnline B env sc st X y m = .ok r := by
  unfold fitClassifierOnline at h ⊢
  simp only [bind_eq_ok] at h
  obtain ⟨_, e1, _, e2, _, e3, _, e4, _, e5, _, e6, _, e7, _, e8, _, e9, _, e10, s, e11, h⟩ := h
  obtain ⟨s1, e⟩ := iter_prefix hm e11
  simp only [e1, e2, e3, e4, e5, e6, e7, e8, e9, e10, ok_bind]
  exact ⟨_, by rw [e, ok_bind]⟩

theorem onlineR_prefix {B : Backend} {sc : Sched} {st : EstState B env} {X : List B.Sample} {y : List Int} {n m : Nat} (hm : m ≤ n)
    {r : EstState B env × Status} (h : fitRegressorOnline B env sc st X y n = .ok r) :
    ∃ r, fitRegressorOnline B env sc st X y m = .ok r := by
  unfold fitRegressorOnline at h ⊢
  simp only [bind_eq_ok] at h
  obtain ⟨_, e1, _, e2, _, e3, _, e4, _, e5, _, e6, _, e7, _, e8, _, e9, _, e10, _, e12, _, e13, _, e14, s, e11, h⟩ := h
  obtain ⟨s1, e⟩ := iter_prefix hm e11
  simp only [e1, e2, e3, e4, e5, e6, e7, e8, e9, e10, e12, e13, e14, ok_bind]
  exact ⟨_, by rw [e, ok_bind]⟩

theorem checkedC_prefix {B : Backend} {sc : Sched} {st : EstState B env} {X : List B.Sample} {y : List Int} {n m : Nat} (hm : m ≤ n)
    {r : EstState B env × Status} (h : fitClassifierOnlineChecked B env sc st X y n = .ok r) :
    ∃ r, fitClassifierOnlineChecked B env sc st X y m = .ok r := by
  unfold fitClassifierOnlineChecked at h ⊢
  rw [bind_eq_ok] at h
  obtain ⟨sm, e1, h⟩ := h
  rw [e1, ok_bind]
  split
  · exact ⟨_, rfl⟩
  rename_i h0
  rw [if_neg h0] at h
  simp only [bind_eq_ok] at h
  obtain ⟨nf, e2, sm, e3, h⟩ := h
  rw [e2, ok_bind, e3, ok_bind]
  split
  · exact ⟨_, rfl⟩
  rename_i h0
  rw [if_neg h0] at h
  simp only [bind_eq_ok] at h
  obtain ⟨l, e4, ml, e5, sm, e6, h⟩ := h
  rw [e4, ok_bind, e5, ok_bind, e6, ok_bind]
  split
  · exact ⟨_, rfl⟩
  rename_i h0
  rw [if_neg h0] at h
  exact onlineC_prefix hm h

theorem checkedR_prefix {B : Backend} {sc : Sched} {st : EstState B env} {X : List B.Sample} {y : List Int} {n m : Nat} (hm : m ≤ n)
    {r : EstState B env × Status} (h : fitRegressorOnlineChecked B env sc st X y n = .ok r) :
    ∃ r, fitRegressorOnlineChecked B env sc st X y m = .ok r := by
  unfold fitRegressorOnlineChecked at h ⊢
  rw [bind_eq_ok] at h
  obtain ⟨sm, e1, h⟩ := h
  rw [e1, ok_bind]
  split
  · exact ⟨_, rfl⟩
  rename_i h0
  rw [if_neg h0] at h
  simp only [bind_eq_ok] at h
  obtain ⟨nf, e2, sm, e3, h⟩ := h
  rw [e2, ok_bind, e3, ok_bind]
  split
  · exact ⟨_, rfl⟩
  rename_i h0
  rw [if_neg h0] at h
  simp only [bind_eq_ok] at h
  obtain ⟨l, e4, h⟩ := h
  rw [e4, ok_bind]
  dsimp only at h ⊢
  split
  · exact ⟨_, rfl⟩
  rename_i h0
  rw [if_neg h0] at h
  exact onlineR_prefix hm h

theorem fitAborts_during {B : Backend} {half : CType → Nat → Nat → B.Mat → List B.Mat} {sc : Sched} {st : EstState B env}
    {X : List B.Sample} {y : List Int} {ml : Int} {ep : Nat} {A : Aborts B env}
    (h : fitAborts B half env sc st X y ml ep = .ok A) {s : EstState B env} (hs : s ∈ A.during) :
    ∃ e, e ≤ ep ∧ ∃ o, fitClassifier B env sc st X y ml e = .ok (s, o) := by
  unfold fitAborts at h
  unfold fitClassifier
  rw [bind_eq_ok] at h
  obtain ⟨s1, e1, h⟩ := h
  split at h
  · cases h; cases hs
  rename_i h1
  simp only [bind_eq_ok] at h
  obtain ⟨hi, e2, hi1, e3, s2, e4, h⟩ := h
  split at h
  · cases h; cases hs
  rename_i h2
  split at h
  · cases h
  rename_i x0 _
  simp only [bind_eq_ok] at h
  obtain ⟨inits, e5, st3, e6, trained, e7, h⟩ := h
  cases h
  obtain ⟨e, h3, o, h4⟩ := epochAborts_mem e7 hs
  refine ⟨e, h3, o, ?_⟩
  rw [e1, ok_bind, if_neg h1, e2, ok_bind, e3, ok_bind, e4, ok_bind, if_neg h2]
  dsimp only
  rw [e6, ok_bind, h4]

theorem fitRAborts_during {B : Backend} {half : CType → Nat → Nat → B.Mat → List B.Mat} {sc : Sched} {st : EstState B env}
    {X : List B.Sample} {y : List Int} {ep : Nat} {A : Aborts B env}
    (h : fitRAborts B half env sc st X y ep = .ok A) {s : EstState B env} (hs : s ∈ A.during) :
    ∃ e, e ≤ ep ∧ ∃ o, fitRegressor B env sc st X y e = .ok (s, o) := by
  unfold fitRAborts at h
  unfold fitRegressor
  rw [bind_eq_ok] at h
  obtain ⟨s1, e1, h⟩ := h
  split at h
  · cases h; cases hs
  rename_i h1
  rw [bind_eq_ok] at h
  obtain ⟨T, e2, h⟩ := h
  split at h
  · cases h; cases hs
  rename_i h2
  split at h
  · cases h
  rename_i x0 _
  simp only [bind_eq_ok] at h
  obtain ⟨inits, e5, st3, e6, trained, e7, h⟩ := h
  cases h
  obtain ⟨e, h3, o, h4⟩ := epochAborts_mem e7 hs
  refine ⟨e, h3, o, ?_⟩
  rw [e1, ok_bind, if_neg h1, e2, ok_bind]
  dsimp only
  rw [if_neg h2, e6, ok_bind, h4]

/-- **C62**: if `fit` or `partial_fit` runs out of memory after it has started to train, the estimator is exactly what the same call
with fewer epochs would have made it. -/
theorem C62_during (sc : Sched) {c : Call a.Sample k} {st s : EstState a.backend env} (h : LeftDuring a sc c st s) :
    ∃ e, e ≤ c.epochs ∧ ∃ o, step a.backend env sc (c.withEpochs e) st = .ok (s, o) := by
  obtain ⟨A, h1, h2⟩ := h
  cases c with
  | fit X y ml ep =>
    obtain ⟨e, h3, o, h4⟩ := fitAborts_during h1 h2
    refine ⟨e, h3, .status o, ?_⟩
    show tagged _ _ = _
    rw [h4]; rfl
  | fitR X y ep =>
    obtain ⟨e, h3, o, h4⟩ := fitRAborts_during h1 h2
    refine ⟨e, h3, .status o, ?_⟩
    show tagged _ _ = _
    rw [h4]; rfl
  | partialFit X y ml ep =>
    have h1 : partialFitAborts a.backend a.half env sc st X y ml ep = .ok A := h1
    have key : ∃ e, e ≤ ep ∧ ∃ o, partialFitClassifier a.backend env sc st X y ml e = .ok (s, o) := by
      unfold partialFitAborts at h1
      unfold partialFitClassifier
      split at h1
      · rw [bind_eq_ok] at h1
        obtain ⟨l, e, h1⟩ := h1
        cases h1
        rename_i hf
        simp only [hf, if_true]
        exact epochAborts_mem e h2
      · rename_i hf
        simp only [hf, if_false]
        exact fitAborts_during h1 h2
    obtain ⟨e, h3, o, h4⟩ := key
    refine ⟨e, h3, .status o, ?_⟩
    show tagged _ _ = _
    rw [h4]; rfl
  | partialFitR X y ep =>
    have h1 : partialFitRAborts a.backend a.half env sc st X y ep = .ok A := h1
    have key : ∃ e, e ≤ ep ∧ ∃ o, partialFitRegressor a.backend env sc st X y e = .ok (s, o) := by
      unfold partialFitRAborts at h1
      unfold partialFitRegressor
      split at h1
      · rw [bind_eq_ok] at h1
        obtain ⟨l, e, h1⟩ := h1
        cases h1
        rename_i hf
        simp only [hf, if_true]
        exact epochAborts_mem e h2
      · rename_i hf
        simp only [hf, if_false]
        exact fitRAborts_during h1 h2
    obtain ⟨e, h3, o, h4⟩ := key
    refine ⟨e, h3, .status o, ?_⟩
    show tagged _ _ = _
    rw [h4]; rfl
  | _ => cases h1; cases h2

/-! ### The lists of states exist -/

theorem initAborts_ok {B : Backend} {half : CType → Nat → Nat → B.Mat → List B.Mat} {kind : Kind} {st st' : EstState B env}
    (h : initializeState B env kind st = .ok st') : ∃ l, initAborts B half env kind st = .ok l := by
  unfold initializeState at h
  simp only [bind_eq_ok] at h
  obtain ⟨_, e1, _, e2, _, e3, _, e4, _, e5, _, e6, _, e7, _, e8, _, e9, ⟨m, g⟩, e10, c, e11, h⟩ := h
  have hc : ∃ l, cacheAborts kind st.params st.cache = .ok l := by
    cases kind with
    | classifier =>
      unfold resetCache at e11
      simp only [bind_eq_ok] at e11
      obtain ⟨_, f1, _, f2, _, f3, _, f4, -⟩ := e11
      unfold cacheAborts
      exact ⟨_, by rw [f1, ok_bind, f2, ok_bind, f3, ok_bind, f4, ok_bind]⟩
    | regressor =>
      unfold resetCache at e11
      simp only [bind_eq_ok] at e11
      obtain ⟨_, f1, _, f2, -⟩ := e11
      unfold cacheAborts
      exact ⟨_, by rw [f1, ok_bind, f2, ok_bind]⟩
  obtain ⟨l, hl⟩ := hc
  unfold initAborts
  simp only [e1, e2, e3, e4, e5, e6, e7, e8, e9, e10, hl, ok_bind]
  exact ⟨_, rfl⟩

theorem fitAborts_ok {B : Backend} {half : CType → Nat → Nat → B.Mat → List B.Mat} {sc : Sched} {st : EstState B env}
    {X : List B.Sample} {y : List Int} {ml : Int} {ep : Nat} {r : EstState B env × Status}
    (h : fitClassifier B env sc st X y ml ep = .ok r) :
    ∃ A, fitAborts B half env sc st X y ml ep = .ok A ∧ st ∈ A.before ∧ (r.2.code = .ok → r.1 ∈ A.during) := by
  unfold fitClassifier at h
  unfold fitAborts
  rw [bind_eq_ok] at h
  obtain ⟨s1, e1, h⟩ := h
  rw [e1, ok_bind]
  split at h
  · rename_i h1
    cases h
    exact ⟨_, if_pos h1, List.mem_singleton.2 rfl, fun h => absurd h h1⟩
  rename_i h1
  rw [if_neg h1]
  simp only [bind_eq_ok] at h
  obtain ⟨hi, e2, hi1, e3, s2, e4, h⟩ := h
  rw [e2, ok_bind, e3, ok_bind, e4, ok_bind]
  split at h
  · rename_i h1
    cases h
    exact ⟨_, if_pos h1, List.mem_singleton.2 rfl, fun h => absurd h h1⟩
  rename_i h2
  rw [if_neg h2]
  split at h
  · cases h
  rename_i x0 _
  rw [bind_eq_ok] at h
  obtain ⟨st3, e5, h⟩ := h
  obtain ⟨l, e6⟩ := initAborts_ok (half := half) e5
  dsimp only
  rw [e6, ok_bind, e5, ok_bind]
  obtain ⟨t, e7, h7⟩ := epochAborts_ok (n := ep) fun e he => onlineC_prefix he h
  exact ⟨_, by rw [e7, ok_bind], List.mem_append_left _ (List.mem_cons_self ..), fun _ => h7 _ h⟩

theorem fitRAborts_ok {B : Backend} {half : CType → Nat → Nat → B.Mat → List B.Mat} {sc : Sched} {st : EstState B env}
    {X : List B.Sample} {y : List Int} {ep : Nat} {r : EstState B env × Status}
    (h : fitRegressor B env sc st X y ep = .ok r) :
    ∃ A, fitRAborts B half env sc st X y ep = .ok A ∧ st ∈ A.before ∧ (r.2.code = .ok → r.1 ∈ A.during) := by
  unfold fitRegressor at h
  unfold fitRAborts
  rw [bind_eq_ok] at h
  obtain ⟨s1, e1, h⟩ := h
  rw [e1, ok_bind]
  split at h
  · rename_i h1
    cases h
    exact ⟨_, if_pos h1, List.mem_singleton.2 rfl, fun h => absurd h h1⟩
  rename_i h1
  rw [if_neg h1]
  rw [bind_eq_ok] at h
  obtain ⟨T, e2, h⟩ := h
  dsimp only at h
  rw [e2, ok_bind]
  split at h
  · rename_i h1
    cases h
    exact ⟨_, if_pos h1, List.mem_singleton.2 rfl, fun h => absurd h h1⟩
  rename_i h2
  rw [if_neg h2]
  split at h
  · cases h
  rename_i x0 _
  rw [bind_eq_ok] at h
  obtain ⟨st3, e5, h⟩ := h
  obtain ⟨l, e6⟩ := initAborts_ok (half := half) e5
  dsimp only
  rw [e6, ok_bind, e5, ok_bind]
  obtain ⟨t, e7, h7⟩ := epochAborts_ok (n := ep) fun e he => onlineR_prefix he h
  exact ⟨_, by rw [e7, ok_bind], List.mem_append_left _ (List.mem_cons_self ..), fun _ => h7 _ h⟩

/-- **C62**: for every training call that would have returned, the states above are defined: before training the estimator may be left as
it was, and, if the data was accepted, at the end of training as the call makes it. -/
theorem C62_left (sc : Sched) {c : Call a.Sample k} (hc : ¬ c.Reads) {st : EstState a.backend env} {r : EstState a.backend env} {s : Status}
    (h : step a.backend env sc c st = .ok (r, .status s)) :
    LeftBefore a sc c st st ∧ (s.code = .ok → LeftDuring a sc c st r) := by
  have fin : ∀ A, trainAborts a.backend a.half env sc c st = .ok A → st ∈ A.before → (s.code = .ok → r ∈ A.during) →
      LeftBefore a sc c st st ∧ (s.code = .ok → LeftDuring a sc c st r) := fun A h1 h2 h3 => ⟨⟨A, h1, h2⟩, fun h => ⟨A, h1, h3 h⟩⟩
  cases c with
  | fit X y ml ep =>
    obtain ⟨q, hq, e⟩ := tagged_status h
    cases e
    obtain ⟨A, h1, h2, h3⟩ := fitAborts_ok (half := a.half) hq
    exact fin A h1 h2 h3
  | fitR X y ep =>
    obtain ⟨q, hq, e⟩ := tagged_status h
    cases e
    obtain ⟨A, h1, h2, h3⟩ := fitRAborts_ok (half := a.half) hq
    exact fin A h1 h2 h3
  | partialFit X y ml ep =>
    obtain ⟨q, hq, e⟩ := tagged_status h
    cases e
    unfold partialFitClassifier at hq
    split at hq
    · rename_i hf
      obtain ⟨t, e7, h7⟩ := epochAborts_ok (n := ep) fun e he => checkedC_prefix he hq
      refine fin ⟨[st], t⟩ ?_ (List.mem_singleton.2 rfl) fun _ => h7 _ hq
      show partialFitAborts _ _ _ _ _ _ _ _ _ = _
      unfold partialFitAborts
      rw [if_pos hf, e7, ok_bind]
    · rename_i hf
      obtain ⟨A, h1, h2, h3⟩ := fitAborts_ok (half := a.half) hq
      refine fin A ?_ h2 h3
      show partialFitAborts _ _ _ _ _ _ _ _ _ = _
      unfold partialFitAborts
      rw [if_neg hf, h1]
  | partialFitR X y ep =>
    obtain ⟨q, hq, e⟩ := tagged_status h
    cases e
    unfold partialFitRegressor at hq
    split at hq
    · rename_i hf
      obtain ⟨t, e7, h7⟩ := epochAborts_ok (n := ep) fun e he => checkedR_prefix he hq
      refine fin ⟨[st], t⟩ ?_ (List.mem_singleton.2 rfl) fun _ => h7 _ hq
      show partialFitRAborts _ _ _ _ _ _ _ _ = _
      unfold partialFitRAborts
      rw [if_pos hf, e7, ok_bind]
    · rename_i hf
      obtain ⟨A, h1, h2, h3⟩ := fitRAborts_ok (half := a.half) hq
      refine fin A ?_ h2 h3
      show partialFitRAborts _ _ _ _ _ _ _ _ = _
      unfold partialFitRAborts
      rw [if_neg hf, h1]
  | _ => exact absurd trivial hc

/-! ### `partial_fit`, and calls that only read -/

/-- **C62**: `partial_fit` of a fitted estimator changes nothing at all before it has started to train. -/
theorem C62_partial_fit (sc : Sched) {c : Call a.Sample k} (hc : IsPartialFit c) {st s : EstState a.backend env} (hf : Fitted a st)
    (h : LeftBefore a sc c st s) : s = st := by
  obtain ⟨A, h1, h2⟩ := h
  have hf' : isFitted a.backend st.ta = true := fitted_iff.2 hf
  cases c with
  | partialFit X y ml ep =>
    have h1 : partialFitAborts a.backend a.half env sc st X y ml ep = .ok A := h1
    unfold partialFitAborts at h1
    rw [if_pos hf', bind_eq_ok] at h1
    obtain ⟨l, -, h1⟩ := h1
    cases h1
    exact List.mem_singleton.1 h2
  | partialFitR X y ep =>
    have h1 : partialFitRAborts a.backend a.half env sc st X y ep = .ok A := h1
    unfold partialFitRAborts at h1
    rw [if_pos hf', bind_eq_ok] at h1
    obtain ⟨l, -, h1⟩ := h1
    cases h1
    exact List.mem_singleton.1 h2
  | _ => exact hc.elim

/-- **C62**: an estimator that was not fitted and, after `fit` or `partial_fit` ran out of memory before training, still is not, can be given to
`partial_fit` again, with the same data, and that comes to what it would have come to in the first place. -/
theorem C62_retry_partial_fit (sc sc' : Sched) {c : Call a.Sample k} (hc : IsPartialFit c) {st s : EstState a.backend env}
    (hf : ¬ Fitted a st) (hf' : ¬ Fitted a s) (h : LeftBefore a sc c st s) (ep : Nat) :
    step a.backend env sc' (c.withEpochs ep) s = step a.backend env sc' (c.withEpochs ep) st := by
  obtain ⟨A, h1, h2⟩ := h
  have g : isFitted a.backend st.ta = false := by
    cases e : isFitted a.backend st.ta with
    | false => rfl
    | true => exact absurd (fitted_iff.1 e) hf
  have g' : isFitted a.backend s.ta = false := by
    cases e : isFitted a.backend s.ta with
    | false => rfl
    | true => exact absurd (fitted_iff.1 e) hf'
  cases c with
  | partialFit X y ml ep0 =>
    have h1 : partialFitAborts a.backend a.half env sc st X y ml ep0 = .ok A := h1
    unfold partialFitAborts at h1
    rw [g] at h1
    show tagged _ (partialFitClassifier a.backend env sc' s X y ml ep) = tagged _ (partialFitClassifier a.backend env sc' st X y ml ep)
    unfold partialFitClassifier
    rw [g, g']
    show tagged _ (fitClassifier a.backend env sc' s X y ml ep) = tagged _ (fitClassifier a.backend env sc' st X y ml ep)
    rw [fitClassifier_retry h1 h2]
  | partialFitR X y ep0 =>
    have h1 : partialFitRAborts a.backend a.half env sc st X y ep0 = .ok A := h1
    unfold partialFitRAborts at h1
    rw [g] at h1
    show tagged _ (partialFitRegressor a.backend env sc' s X y ep) = tagged _ (partialFitRegressor a.backend env sc' st X y ep)
    unfold partialFitRegressor
    rw [g, g']
    show tagged _ (fitRegressor a.backend env sc' s X y ep) = tagged _ (fitRegressor a.backend env sc' st X y ep)
    rw [fitRegressor_retry h1 h2]
  | _ => exact hc.elim

/-- **C62**: a call that only reads and is abandoned anywhere - after `n` accesses to the estimator's scratch memory - leaves an estimator
that no further sequence of calls can tell from the one before. -/
theorem C62_reading {st : EstState a.backend env} (h : Reached a k st) (hN : StatesOk a st.params) {c : Call a.Sample k} (hc : c.Reads)
    (ht : WellTyped a c) {o : Out} (ho : Alone a st c o) {scs : Nat → Sched} {n : Nat} {W : Program} (hi : Interleaving n (Program.start scs [st] [(0, c)]) W) :
    ∃ m, W.mems = [m] ∧ Indistinguishable a k st (st.withScratch m) := by
  have hp : ReadOnlyProgram a k [st] [(0, c)] := by
    refine ⟨fun s hs => ?_, fun t d hd => ?_⟩
    · rw [List.mem_singleton] at hs
      subst hs
      exact ⟨h, hN⟩
    · rw [List.mem_singleton] at hd
      cases hd
      exact ⟨hc, ht, st, rfl, o, ho⟩
  obtain ⟨m, h1, h2⟩ := ((C60_safe hp).2 n W hi).2 0 st rfl
  have hl : W.mems.length = 1 := by
    have : ∀ {n : Nat} {V W : Program}, Interleaving n V W → W.mems.length = V.mems.length := by
      intro n V W hi
      induction hi with
      | refl => rfl
      | step _ hs ih =>
        rw [← ih]
        obtain ⟨_, _, _, _, _, -, -, -, rfl⟩ := hs
        simp
    rw [this hi]; rfl
  refine ⟨m, ?_, h2⟩
  match hw : W.mems, hl with
  | [m'], _ =>
    rw [hw] at h1
    cases h1
    rfl

/-! ### A classic regressor -/

/-- What `fit` can leave of a fitted classic regressor before it starts to train, if the number of features stays the same. -/
theorem regressor_left {sc : Sched} {cfg : Cfg} (hv : Valid cfg) (hk : cfg.kind = .regressor) {nf : Nat} {st : EstState classic env} {ss : SState env}
    (hF : Fit classicLawful cfg 1 nf st ss) {X : List ClassicSample} {y : List Int} {ep : Nat} (hX : ∀ x ∈ X, classic.size x = nf)
    {A : Aborts classic env} (h : fitRAborts classic classicHalf env sc st X y ep = .ok A) {s : EstState classic env} (hs : s ∈ A.before) :
    ∃ ss', Fit classicLawful cfg 1 nf s ss' := by
  unfold fitRAborts at h
  rw [bind_eq_ok] at h
  obtain ⟨s1, e1, h⟩ := h
  split at h
  · cases h
    rw [List.mem_singleton] at hs
    exact ⟨ss, hs ▸ hF⟩
  rw [bind_eq_ok] at h
  obtain ⟨T, e2, h⟩ := h
  split at h
  · cases h
    rw [List.mem_singleton] at hs
    exact ⟨ss, hs ▸ hF⟩
  split at h
  · cases h
  rename_i x0 rest
  have hx0 : classic.size x0 = nf := hX x0 (List.mem_cons_self ..)
  rw [hx0] at h
  simp only [bind_eq_ok] at h
  obtain ⟨inits, e5, st3, -, trained, -, h⟩ := h
  cases h
  have hP : Reads (st.params.set "number_of_features" (.int nf)) cfg := hF.reads.set _ (.inr rfl)
  have base : ∀ (m : Matrix) (cl) (g : env.G) (f : env.F) (c : Cache), classicLawful.Abs cfg.ct cfg.states nf m cl → cl.length = 1 * cfg.k →
      c.clauseOutput.length = 1 * cfg.k → (∀ f ∈ c.feedback, f = -1 ∨ f = 0 ∨ f = 1) → (∀ s ∈ c.labelSum, -cfg.T ≤ s ∧ s ≤ cfg.T) →
      c.ct = st.cache.ct → ∃ ss',
      Fit classicLawful cfg 1 nf ⟨st.params.set "number_of_features" (.int nf), ⟨m, st.ta.weights⟩, c, g, f⟩ ss' := by
    intro m cl g f c ha hl c1 c2 c3 c4
    exact ⟨⟨some (1, nf), cl, ss.weights, g, f⟩, {
      reads := hP
      labelsP := fun h => by rw [hk] at h; cases h
      featP := Params.get?_set_self _ _ _
      reg1 := hF.reg1, pos := hF.pos, abs := ha, len := hl, w := hF.w, wlen := hF.wlen, wmax := hF.wmax
      coLen := c1, lsLen := fun h => (by rw [hk] at h; cases h), fbLen := fun h => (by rw [hk] at h; cases h), fbRange := c2, lsRange := c3
      ct := by show CtOk _ _ _ c.ct; rw [c4]; exact hF.ct
      igen := rfl, fgen := rfl, shape := rfl, small := hF.small, nfSmall := hF.nfSmall, alloc := hF.alloc }⟩
  have old := fun g f => base st.ta.mat ss.clauses g f st.cache hF.abs hF.len hF.coLen hF.fbRange hF.lsRange rfl
  simp only [List.mem_append, List.mem_cons, List.not_mem_nil, or_false] at hs
  rcases hs with (rfl | rfl) | hs
  · exact ⟨ss, hF⟩
  · exact old _ _
  have hphys : physicalClauses .regressor (st.params.set "number_of_features" (.int nf)) = .ok ((2 * (1 * cfg.k) : Nat) : Int) := by
    show Params.physicalRegressorClauses _ = _
    have := hv.two_k
    rw [hP.p_clausesR hk, ← hv.two_k]
    simp
  have hout : clauseOutputs .regressor (st.params.set "number_of_features" (.int nf)) = .ok ((1 * cfg.k : Nat) : Int) := by
    show Params.regressorOutputs _ = _
    rw [hP.p_outR hv hk, Nat.one_mul]
  have hfeat : Params.numberOfFeatures (st.params.set "number_of_features" (.int nf)) = .ok (nf : Int) := Params.getInt_eq (Params.get?_set_self _ _ _)
  have hw : st.ta.weights.length = if cfg.weighted then 1 * cfg.k else 0 := by rw [hF.w]; exact hF.wlen
  unfold initAborts at e5
  dsimp only at e5
  simp only [hP.p_states, hphys, hout, hfeat, hP.p_ctype, hP.p_weighted, ok_bind, Int.toNat_natCast, bind_eq_ok] at e5
  obtain ⟨_, -, seed, -, _, -, ⟨m, g⟩, e6, caches, e7, h⟩ := e5
  obtain ⟨r, e8, ha, hg⟩ := classicLawful.init_eq (N := cfg.states) (n := 1 * cfg.k) (nf := nf) (g := env.seedG seed) hv.states (normalize_fits hv cfg.ctype) hF.alloc
  have hlen := initClauses_length env nf (1 * cfg.k) (env.seedG seed)
  rw [e6] at e8
  cases e8
  dsimp only at ha
  cases h
  have hres : (if cfg.weighted = true then resize st.ta.weights (1 * cfg.k) else st.ta.weights) = st.ta.weights := by
    cases hwt : cfg.weighted with
    | false => rfl
    | true =>
      rw [hwt] at hw
      have hw : st.ta.weights.length = 1 * cfg.k := hw
      show resize _ _ = _
      unfold resize
      rw [← hw, List.take_length, Nat.sub_self]
      simp
  rw [hres] at hs
  simp only [classicHalf, List.map_nil, List.append_nil, List.mem_append, List.mem_cons, List.not_mem_nil, or_false, List.mem_map] at hs
  rcases hs with ((rfl | rfl | rfl) | hs) | ⟨c, hc, rfl⟩
  · exact old _ _
  · exact old _ _
  · exact old _ _
  · split at hs
    · rename_i hlt
      rw [hlt.1] at hw
      have hw : st.ta.weights.length = 1 * cfg.k := hw
      omega
    · cases hs
  · have hc' : c = st.cache ∨ c = { st.cache with clauseOutput := List.replicate (1 * cfg.k) false, labelSum := [], feedback := [] } := by
      unfold cacheAborts at e7
      have hout : Params.regressorOutputs (st.params.set "number_of_features" (.int nf)) = .ok ((1 * cfg.k : Nat) : Int) := hout
      dsimp only at e7
      rw [hout, ok_bind, vecSize_ok, ok_bind] at e7
      cases e7
      rw [if_neg (by rw [hF.coLen]; omega)] at hc
      simpa using hc
    rcases hc' with rfl | rfl
    · exact base m _ _ _ _ ha hlen hF.coLen hF.fbRange hF.lsRange rfl
    · exact base m _ _ _ _ ha hlen (by simp) (fun f hf => by cases hf) (fun f hf => by cases hf) rfl

theorem run_defined_of {cfg : Cfg} (hk : cfg.kind = k) (sc : Sched) (hv : Valid cfg) (hN : a.lawful.minStates ≤ cfg.states)
    (cs : List (Call a.Sample k)) (ht : ∀ c ∈ cs, WellTyped a c) {st : EstState a.backend env} {ss : SState env}
    (hs : Sim a.lawful cfg st ss) (h : SafeCalls a sc cs st) : Defined (run a.backend env sc cs st) := by
  subst hk
  exact run_defined sc hv hN cs (fun c hc => WellTyped.typed (ht c hc)) hs h

/-- **C62**: a fitted classic regressor whose `fit` with samples of the same number of features ran out of memory before training stays
usable: it counts as fitted, and every history of safe calls - predictions, say, of samples with that many
features - is defined. -/
theorem C62_regressor {st s : EstState Algo.classic.backend env} (h : Reached .classic .regressor st) (hN : StatesOk .classic st.params)
    (hf : Fitted .classic st) {X : List Algo.classic.Sample} {y : List Int} {ep : Nat}
    (hX : ∀ x ∈ X, IntParam st.params "number_of_features" (Algo.classic.backend.size x)) (sc : Sched)
    (hs : LeftBefore .classic sc (k := .regressor) (.fitR X y ep) st s) :
    Fitted .classic s ∧ ∀ (sc' : Sched) (cs : List (Call Algo.classic.Sample .regressor)), (∀ c ∈ cs, WellTyped .classic c) →
      SafeCalls .classic sc' cs s → Defined (run Algo.classic.backend env sc' cs s) := by
  obtain ⟨cfg, labels, nf, ss, hk, hv, hm, hF⟩ := reached_fit h hN hf
  obtain ⟨A, h1, h2⟩ := hs
  have hl := hF.reg1 hk
  subst hl
  have hX' : ∀ x ∈ X, classic.size x = nf := by
    intro x hx
    have h1 := hX x hx
    have h2 := hF.featP
    unfold IntParam at h1
    rw [h2] at h1
    have : (nf : Int) = (classic.size x : Int) := PVal.int.inj (Option.some.inj h1)
    omega
  obtain ⟨ss', hF'⟩ := regressor_left (env := env) hv hk hF hX' h1 h2
  refine ⟨?_, fun sc' cs ht hsafe => ?_⟩
  · exact Fit.fittedP hv hF'
  · exact run_defined_of (a := .classic) hk sc' hv hm cs ht (.inr ⟨_, _, hF'⟩) hsafe

/-! ### Concrete cases, and what must not be relied on -/

/-- The `i`-th state in which `fit` can be left before training. -/
def Toy.leftAt (a : Algo) {k : Kind} (c : Call a.Sample k) (st : EstState a.backend Toy.env) (i : Nat) : EstState a.backend Toy.env :=
  match trainAborts a.backend a.half Toy.env Toy.seq c st with
  | .ok A => A.before.getD i st
  | _ => st

def Toy.hasLeft (a : Algo) {k : Kind} (c : Call a.Sample k) (st : EstState a.backend Toy.env) (i : Nat) : Bool :=
  match trainAborts a.backend a.half Toy.env Toy.seq c st with
  | .ok A => decide (i < A.before.length)
  | _ => false

theorem Toy.leftBefore_of {a : Algo} {k : Kind} {c : Call a.Sample k} {st : EstState a.backend Toy.env} {i : Nat}
    (h : Toy.hasLeft a c st i = true) : LeftBefore a Toy.seq c st (Toy.leftAt a c st i) := by
  unfold Toy.hasLeft at h
  unfold Toy.leftAt
  split at h
  · rename_i A e
    refine ⟨A, e, ?_⟩
    have hi := of_decide_eq_true h
    rw [List.getD_eq_getElem?_getD, List.getElem?_eq_getElem hi, Option.getD_some]
    exact List.getElem_mem hi
  · cases h

/-- **C62**, what must not be relied on: a new estimator whose first `fit` runs out of memory while the scratch memory is set up counts as fitted, and
predicting - even a sample of the right length - or continuing with `partial_fit` accesses memory out of bounds. -/
theorem C62_half_made : ∃ (st s : EstState classic Toy.env) (X : List ClassicSample) (y : List Int) (x : ClassicSample),
    Reached .classic .classifier st ∧ StatesOk .classic st.params ∧ ¬ Fitted .classic st ∧
    LeftBefore .classic Toy.seq (k := .classifier) (.fit X y 0 1) st s ∧ Fitted .classic s ∧
    step classic Toy.env Toy.seq (k := .classifier) (.predict1 x) s = .ub .oob ∧
    step classic Toy.env Toy.seq (k := .classifier) (.partialFit X y 0 1) s = .ub .oob :=
  ⟨EstState.fresh classic Toy.env Toy.cParams, Toy.leftAt .classic (k := .classifier) (.fit Toy.X [0, 1, 1, 0] 0 1) (EstState.fresh classic Toy.env Toy.cParams) 6,
    Toy.X, [0, 1, 1, 0], [1, 0, 1], .of_run Toy.cParams Toy.seq [] [] Toy.cMade (by simp) rfl,
    Toy.statesOk_of (N := 3) (by decide +kernel) (by decide), fun h => h rfl, Toy.leftBefore_of (by decide +kernel),
    by show Algo.classic.counters (Toy.leftAt .classic (k := .classifier) (.fit Toy.X [0, 1, 1, 0] 0 1) (EstState.fresh classic Toy.env Toy.cParams) 6) ≠ []; decide +kernel,
    Toy.ub_of (by decide +kernel), Toy.ub_of (by decide +kernel)⟩

/-- **C62**, what must not be relied on: a fitted estimator whose `fit` with wider samples runs out of memory before the matrix is made accepts samples
of the new width, and reads out of bounds for them. -/
theorem C62_wider : ∃ (st s : EstState classic Toy.env) (X : List ClassicSample) (y : List Int) (x : ClassicSample),
    Reached .classic .classifier st ∧ StatesOk .classic st.params ∧ Fitted .classic st ∧
    LeftBefore .classic Toy.seq (k := .classifier) (.fit X y 0 1) st s ∧ Algo.classic.counters s = Algo.classic.counters st ∧
    step classic Toy.env Toy.seq (k := .classifier) (.predict1 x) s = .ub .oob :=
  ⟨Toy.narrow, Toy.leftAt .classic (k := .classifier) (.fit Toy.X [0, 1, 1, 0] 0 1) Toy.narrow 2,
    Toy.X, [0, 1, 1, 0], [1, 0, 1], Toy.narrow_reached,
    Toy.statesOk_of (N := 3) (by decide +kernel) (by decide),
    by show Algo.classic.counters Toy.narrow ≠ []; decide +kernel, Toy.leftBefore_of (by decide +kernel),
    by decide +kernel, Toy.ub_of (by decide +kernel)⟩

/-- **C62**, what must not be relied on: not even `fit` with data of the same shape is safe for a classifier - the vector of label scores is emptied before
the number of labels is looked up, for which memory is allocated. -/
theorem C62_same_shape : ∃ (st s : EstState classic Toy.env) (X : List ClassicSample) (y : List Int) (x : ClassicSample),
    Reached .classic .classifier st ∧ StatesOk .classic st.params ∧ Fitted .classic st ∧
    IntParam st.params "number_of_features" 3 ∧ (∀ x ∈ X, x.length = 3) ∧ IntParam st.params "number_of_labels" 3 ∧ (2 ∈ y ∧ ∀ v ∈ y, v ≤ 2) ∧
    LeftBefore .classic Toy.seq (k := .classifier) (.fit X y 0 1) st s ∧
    step classic Toy.env Toy.seq (k := .classifier) (.predict1 x) s = .ub .oob :=
  ⟨Toy.cc, Toy.leftAt .classic (k := .classifier) (.fit Toy.X [0, 1, 2, 0] 0 1) Toy.cc 7,
    Toy.X, [0, 1, 2, 0], [1, 0, 1], Toy.cc_reached, Toy.cc_states, Toy.cc_fitted,
    by show Params.get? _ _ = _; decide +kernel, by decide +kernel, by show Params.get? _ _ = _; decide +kernel, by decide, Toy.leftBefore_of (by decide +kernel),
    Toy.ub_of (by decide +kernel)⟩

/-- The cases of the theorems: a regressor's `fit` on a trained regressor can be left in seven states, the sixth with new automata. -/
example : Reached .classic .regressor Toy.cr ∧ StatesOk .classic Toy.cr.params ∧ Fitted .classic Toy.cr ∧
    (∀ x ∈ Toy.X, IntParam Toy.cr.params "number_of_features" (Algo.classic.backend.size x)) ∧
    LeftBefore .classic Toy.seq (k := .regressor) (.fitR Toy.X [1, 0, 2, 1] 1) Toy.cr (Toy.leftAt .classic (k := .regressor) (.fitR Toy.X [1, 0, 2, 1] 1) Toy.cr 5) ∧
    Algo.classic.counters (Toy.leftAt .classic (k := .regressor) (.fitR Toy.X [1, 0, 2, 1] 1) Toy.cr 5) ≠ Algo.classic.counters Toy.cr :=
  ⟨Toy.cr_reached, Toy.cr_states, Toy.cr_fitted, by show ∀ x ∈ Toy.X, Params.get? _ _ = some (.int ((List.length x : Nat) : Int)); decide +kernel,
    Toy.leftBefore_of (by decide +kernel), by decide +kernel⟩

/-- A prediction abandoned after two accesses; a `partial_fit` of a new estimator left with reseeded generators but no automata; one of a trained estimator left during
training. -/
example : (∃ n W, Interleaving n (Program.start (B := Algo.classic.backend) (k := .classifier) (fun _ => inOrder) [Toy.cc] [(0, .predict1 [1, 0, 1])]) W ∧ ¬ AllReturned W) ∧
    Alone .classic Toy.cc (k := .classifier) (.predict1 [1, 0, 1]) (.label (.ok 1)) ∧
    LeftBefore .classic Toy.seq (k := .classifier) (.partialFit Toy.X [0, 1, 2, 0] 0 1) (EstState.fresh classic Toy.env Toy.cParams)
      (Toy.leftAt .classic (k := .classifier) (.partialFit Toy.X [0, 1, 2, 0] 0 1) (EstState.fresh classic Toy.env Toy.cParams) 5) ∧
    ¬ Fitted .classic (Toy.leftAt .classic (k := .classifier) (.partialFit Toy.X [0, 1, 2, 0] 0 1) (EstState.fresh classic Toy.env Toy.cParams) 5) ∧
    (∃ r, step classic Toy.env Toy.seq (k := .classifier) (.partialFit Toy.X [0, 1, 2, 0] 0 1) Toy.cc = .ok (r, .status .sOk)) := by
  refine ⟨?_, Toy.alone_of (by decide +kernel), Toy.leftBefore_of (by decide +kernel), ?_, ?_⟩
  · have h : ((Toy.exec (Program.start (B := Algo.classic.backend) (k := .classifier) (fun _ => inOrder) [Toy.cc] [(0, .predict1 [1, 0, 1])]) [0, 0]).map
        fun W => W.calls.any fun c => match c.code with | .ret _ => false | _ => true) = some true := by decide +kernel
    cases e : Toy.exec (Program.start (B := Algo.classic.backend) (k := .classifier) (fun _ => inOrder) [Toy.cc] [(0, .predict1 [1, 0, 1])]) [0, 0] with
    | none => rw [e] at h; cases h
    | some W =>
      rw [e] at h
      obtain ⟨n, hn⟩ := Toy.exec_interleaving e
      refine ⟨n, W, hn, fun ha => ?_⟩
      obtain ⟨c, hc, hr⟩ := List.any_eq_true.1 (Option.some.inj h)
      obtain ⟨o, ho⟩ := ha c hc
      rw [ho] at hr
      cases hr
  · intro h
    refine h ?_
    show Algo.classic.counters (Toy.leftAt .classic (k := .classifier) (.partialFit Toy.X [0, 1, 2, 0] 0 1) (EstState.fresh classic Toy.env Toy.cParams) 5) = []
    decide +kernel
  · have h : (match step classic Toy.env Toy.seq (k := .classifier) (.partialFit Toy.X [0, 1, 2, 0] 0 1) Toy.cc with
      | .ok (_, .status ⟨.ok, ""⟩) => true | _ => false) = true := by decide +kernel
    split at h
    · exact ⟨_, by assumption⟩
    · cases h

end Tsetlini
