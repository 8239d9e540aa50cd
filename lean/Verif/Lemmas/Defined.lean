import Verif.Lemmas.Safety
import Verif.Lemmas.Runs
/- Safe calls are defined. -/
namespace Tsetlini
open Res Spec

theorem roomy_alloc {ct : CType} {rows n : Nat} (h : Roomy rows n) :
    allocOk ct.bytes rows n = true ∧ bitAllocOk rows n = true := by
  obtain ⟨-, h2, h3⟩ := h
  have e : ((n : Int) + 63) * rows = (((n + 63) * rows : Nat) : Int) := by rw [Int.natCast_mul, Int.natCast_add]; rfl
  rw [e] at h3
  have h3' : (n + 63) * rows < 4294967296 := by omega
  have key : ∀ m : Nat, m ≤ n + 63 → m * rows < 4294967296 := fun m hm =>
    Nat.lt_of_le_of_lt (Nat.mul_le_mul_right rows hm) h3'
  unfold allocOk bitAllocOk rowItems rowBlocks
  refine ⟨decide_eq_true ?_, decide_eq_true ⟨by omega, key _ (by omega)⟩⟩
  cases ct
  · exact ⟨by show n * 1 + 63 < _; omega, key _ (by show (n * 1 + 63) / 64 * (64 / 1) ≤ _; omega)⟩
  · exact ⟨by show n * 2 + 63 < _; omega, key _ (by show (n * 2 + 63) / 64 * (64 / 2) ≤ _; omega)⟩
  · exact ⟨by show n * 4 + 63 < _; omega, key _ (by show (n * 4 + 63) / 64 * (64 / 4) ≤ _; omega)⟩

theorem lawful_alloc (a : Algo) {ct : CType} {rows n : Nat} (h : Roomy rows n) : a.lawful.Alloc ct rows n := by
  cases a with
  | classic => exact (roomy_alloc h).1
  | bitwise => exact roomy_alloc h

theorem topLabel_spec {y : List Int} (hy : y ≠ []) (h0 : ∀ v ∈ y, 0 ≤ v) : topLabel y = y.foldl max (y.headD 0) := by
  obtain ⟨m, h1, h2, h3, h4⟩ := maxElem_ret hy
  rw [← h4]
  unfold topLabel
  obtain ⟨k2, k3⟩ := foldl_max_spec y (-1)
  have := k2 m (.inr h2)
  have := h0 m h2
  rcases k3 with e | e
  · omega
  · have := h3 _ e; omega

theorem topLabel_le {y : List Int} : ∀ v ∈ y, v ≤ topLabel y := fun v hv => (foldl_max_spec y (-1)).1 v (.inr hv)

variable {a : Algo} {env : Env} {cfg : Cfg} {st : EstState a.backend env} {ss : SState env} {X : List a.Sample} {y : List Int}

theorem size_width (h : XyOk a.lawful X y) : ∃ x ∈ X, a.backend.size x = width a.backend X := by
  cases X with
  | nil => exact absurd rfl h.ne
  | cons x X => exact ⟨x, by simp, rfl⟩

theorem safeFit_sized {ml : Int} {ep : Nat} (hv : Valid cfg) (hk : cfg.kind = .classifier) (hr : Reads st.params cfg)
    (h : SafeFit a st.params X y ml ep) :
    (XyOk a.lawful X y → ∀ v ∈ y, v < 2147483647) ∧
      (XyOk a.lawful X y → (∀ v ∈ y, 0 ≤ v) → Sized a.lawful cfg X y ml ep) := by
  obtain ⟨h1, h2⟩ := h
  have hlt : ∀ v ∈ y, v < 2147483647 := fun v hv' => by have := topLabel_le v hv'; omega
  refine ⟨fun _ => hlt, fun hxy h0 => ?_⟩
  have hc : IntParam st.params "number_of_clauses_per_label" cfg.clauses := by
    have := hr.clauses; unfold Cfg.clauseKey at this; rw [hk] at this; exact this
  obtain ⟨k1, k2⟩ := h2 _ _ hc hr.T
  obtain ⟨n1, -, -⟩ := numLabels_spec hxy.yne h0 ml
  rw [← topLabel_spec hxy.yne h0] at n1
  rw [← n1] at k1 k2
  obtain ⟨x, hx, e⟩ := size_width hxy
  have hR := k1 x hx
  rw [e] at hR
  have e2 : (numLabels y ml : Int) * cfg.clauses = ((2 * (numLabels y ml * cfg.k) : Nat) : Int) := by
    rw [← hv.two_k]; push_cast; rw [← Int.mul_assoc, Int.mul_comm (numLabels y ml : Int) 2, Int.mul_assoc]
  refine ⟨hlt, hR.1, lawful_alloc a (by rw [← e2]; exact hR), ?_⟩
  rcases k2 with k2 | ⟨k2, k3⟩
  · exact .inl k2
  · exact .inr ⟨by omega, by omega⟩

theorem safeFitR_alloc (hv : Valid cfg) (hk : cfg.kind = .regressor) (hr : Reads st.params cfg)
    (h : SafeFitR a st.params X) (hxy : XyOk a.lawful X y) : a.lawful.Alloc cfg.ct (2 * cfg.k) (width a.backend X) := by
  have hc : IntParam st.params "number_of_regressor_clauses" cfg.clauses := by
    have := hr.clauses; unfold Cfg.clauseKey at this; rw [hk] at this; exact this
  obtain ⟨x, hx, e⟩ := size_width hxy
  have hR := h _ hc x hx
  rw [e, ← hv.two_k] at hR
  exact lawful_alloc a (by exact_mod_cast hR)

theorem safeCall_safe (hv : Valid cfg) (hs : Sim a.lawful cfg st ss) (c : Call a.Sample cfg.kind) (ht : c.Typed a.lawful)
    (h : SafeCall a st c) : c.Safe a.lawful cfg ss.shape := by
  generalize hk : cfg.kind = k at c
  cases c with
  | fit X y ml ep => exact safeFit_sized hv hk hs.reads h
  | partialFit X y ml ep =>
    show PSized a.lawful cfg ss.shape X y ml ep
    unfold PSized
    rcases hs with hs | ⟨labels, nf, hs⟩
    · have : ¬ Fitted a st := fun hf => hf hs.cnt
      rw [hs.shape]
      exact safeFit_sized hv hk hs.reads (h.2 this)
    · rw [hs.shape]
      intro _ _ _
      rcases h.1 (hs.fittedP hv) with h | h
      · exact .inl h
      · have := h _ _ (hs.labelsP hk) hs.reads.T
        exact .inr ⟨by omega, by omega⟩
  | evaluate X y =>
    obtain ⟨h1, h2, h3⟩ := h
    rcases hs with hs | ⟨labels, nf, hs⟩
    · exact absurd hs.cnt h1
    · refine ⟨labels, nf, hs.shape, fun x hx => ?_, h2⟩
      obtain ⟨g1, g2⟩ := h3 x hx
      have := hs.featP
      have e : (a.backend.size x : Int) = nf := by unfold IntParam at g2; rw [this] at g2; simpa using g2.symm
      exact sok_of ((lawful_sinv a x).1 (ht.xs x hx)) g1 (by omega)
  | fitR X y ep => exact fun hxy _ => safeFitR_alloc hv hk hs.reads h.1 hxy
  | partialFitR X y ep =>
    intro hsh hxy _
    rcases hs with hs | ⟨labels, nf, hs⟩
    · rcases h.1 with h1 | h1
      · exact absurd hs.cnt h1
      · exact safeFitR_alloc hv hk hs.reads h1 hxy
    · rw [hs.shape] at hsh; cases hsh
  | _ => trivial

theorem noConv_fitS {ml : Int} {ep : Nat} (ht : Typed a.lawful X y) : NoConv (fitS a.lawful env cfg ss X y ml ep) := by
  unfold fitS
  obtain ⟨s1, e1, k1⟩ := checkXy_ok a.lawful X y ht.xs
  rw [e1, ok_bind]
  split
  · exact noConv_ok _
  rename_i hc
  have hxy := k1.1 (by simpa using hc)
  obtain ⟨s2, e2, -⟩ := checkLabels_ok hxy.yne
  rw [e2, ok_bind]
  split
  · exact noConv_ok _
  exact (noConv_iter' (fun _ s => noConv_epochS _ _ _ s) _).bind fun _ _ => noConv_ok _

theorem noConv_refitS {labels nf ep : Nat} (ht : Typed a.lawful X y) :
    NoConv (refitS a.lawful env cfg ss labels nf X y ep) := by
  unfold refitS
  obtain ⟨s1, e1, k1⟩ := checkXy_ok a.lawful X y ht.xs
  rw [e1, ok_bind]
  split
  · exact noConv_ok _
  rename_i hc
  have hxy := k1.1 (by simpa using hc)
  obtain ⟨s2, e2, -⟩ := checkX_ok a.lawful hxy (nf := nf)
  rw [e2, ok_bind]
  split
  · exact noConv_ok _
  obtain ⟨s3, e3, -⟩ := checkLabelsMax_ok hxy.yne labels
  rw [e3, ok_bind]
  split
  · exact noConv_ok _
  exact (noConv_iter' (fun _ s => noConv_epochS _ _ _ s) _).bind fun _ _ => noConv_ok _

/-- The settings of `SafeLoss`. -/
structure LossFine (env : Env) (cfg : Cfg) : Prop where
  bm : cfg.boxMuller = false
  sym : cfg.T ≤ 16777216 ∨ Symmetric env
  loss : LossOk env cfg.loss cfg.C1

theorem SafeLoss.fine (hv : Valid cfg) (hk : cfg.kind = .regressor) (hr : Reads st.params cfg) (h : SafeLoss env st.params) :
    LossFine env cfg := by
  obtain ⟨h1, h2, h3⟩ := h
  refine ⟨?_, ?_, ?_⟩
  · rw [hr.boxMuller hk] at h1; simpa using h1
  · exact h2 _ hr.T
  · intro c hc
    have hC := hr.C1 hk
    rw [hc] at hC
    obtain ⟨b1, b2⟩ := h3 _ _ (hr.loss hk) hC
    have hl := hv.loss hk
    simp only [List.mem_cons, List.not_mem_nil, or_false] at hl
    unfold Cfg.loss
    constructor
    · intro e
      rcases hl with hl | hl | hl | hl | hl | hl <;> rw [hl] at e <;> first | exact absurd e (by decide) | exact b1 hl
    · intro e
      rcases hl with hl | hl | hl | hl | hl | hl <;> rw [hl] at e <;> first | exact absurd e (by decide) | exact b2 hl

theorem noConv_fitRS {ep : Nat} (hv : Valid cfg) (ht : Typed a.lawful X y)
    (hal : XyOk a.lawful X y → (∀ v ∈ y, 0 ≤ v ∧ v ≤ cfg.T) → a.lawful.Alloc cfg.ct (2 * cfg.k) (width a.backend X))
    (hl : ep = 0 ∨ LossFine env cfg) : NoConv (fitRS a.lawful env cfg ss X y ep) := by
  unfold fitRS
  obtain ⟨s1, e1, k1⟩ := checkXy_ok a.lawful X y ht.xs
  rw [e1, ok_bind]
  split
  · exact noConv_ok _
  rename_i hc
  have hxy := k1.1 (by simpa using hc)
  dsimp only
  split
  · exact noConv_ok _
  rename_i hc2
  have hy := (checkResponseY_ok _ _).1 (by simpa using hc2)
  refine NoConv.bind ?_ fun _ _ => noConv_ok _
  rcases hl with rfl | hl
  · exact noConv_ok _
  have hkp := hv.k_pos
  have hnf := a.lawful.alloc_small (hal hxy hy) (by omega)
  refine noConv_regEpochs hv hnf hl.bm hl.sym hl.loss (X := X) (y := y) ⟨hxy.len, fun x hx => ⟨ht.xs x hx, hxy.bin x hx, ?_⟩, hy⟩ ep ?_
  · obtain ⟨x', hx', e'⟩ := size_width hxy
    rw [← e']; exact hxy.size x hx x' hx'
  · show (initClauses env _ (1 * cfg.k) _).1.length = _
    rw [initClauses_length, Nat.one_mul]

theorem noConv_refitRS {nf ep : Nat} (hv : Valid cfg) (ht : Typed a.lawful X y) (hn : nf ≤ 2147483647)
    (hlen : ss.clauses.length = cfg.k) (hl : ep = 0 ∨ LossFine env cfg) : NoConv (refitRS a.lawful env cfg ss nf X y ep) := by
  unfold refitRS
  obtain ⟨s1, e1, k1⟩ := checkXy_ok a.lawful X y ht.xs
  rw [e1, ok_bind]
  split
  · exact noConv_ok _
  rename_i hc
  have hxy := k1.1 (by simpa using hc)
  obtain ⟨s2, e2, k2⟩ := checkX_ok a.lawful hxy (nf := nf)
  rw [e2, ok_bind]
  split
  · exact noConv_ok _
  rename_i hc2
  have hsz := k2.1 (by simpa using hc2)
  dsimp only
  split
  · exact noConv_ok _
  rename_i hc3
  have hy := (checkResponseY_ok _ _).1 (by simpa using hc3)
  refine NoConv.bind ?_ fun _ _ => noConv_ok _
  rcases hl with rfl | hl
  · exact noConv_ok _
  exact noConv_regEpochs hv hn hl.bm hl.sym hl.loss (X := X) (y := y) ⟨hxy.len, fun x hx => ⟨ht.xs x hx, hxy.bin x hx, hsz x hx⟩, hy⟩ ep hlen

theorem noConv_stepS (hv : Valid cfg) (hs : Sim a.lawful cfg st ss) (c : Call a.Sample cfg.kind) (ht : c.Typed a.lawful)
    (h : SafeCall a st c) : NoConv (stepS a.lawful env cfg c ss) := by
  have hS := safeCall_safe hv hs c ht h
  generalize hk : cfg.kind = k at c
  have ret : ∀ {α : Type} {f : α → Out} {q : Res α} {P : Res (EstState a.backend env × α)} ,
      (P.Ret fun r => Sim a.lawful cfg r.1 ss ∧ Frozen st r.1 ∧ q = .ok r.2) → NoConv (q.bind fun p => .ok (ss, f p)) := by
    rintro α f q P ⟨⟨u, v⟩, -, -, -, rfl⟩
    exact noConv_ok _
  have sc : Sched := ⟨fun _ a b => range a b, fun _ _ _ => List.Perm.refl _⟩
  cases c with
  | fit X y ml ep => exact (noConv_fitS ht).bind fun _ _ => noConv_ok _
  | partialFit X y ml ep =>
    refine NoConv.bind ?_ fun _ _ => noConv_ok _
    unfold partialFitS
    split
    · exact noConv_refitS ht
    · exact noConv_fitS ht
  | predict1 x => exact ret (predict1_ref sc hv hk hs ht)
  | predict X => exact ret (predict_ref sc hv hk hs ht)
  | decision1 x => exact ret (decision1_ref sc hv hk hs ht)
  | decision X => exact ret (decision_ref sc hv hk hs ht)
  | evaluate X y => exact ret (evaluate_ref sc hv hk hs hS)
  | fitR X y ep =>
    refine NoConv.bind (noConv_fitRS hv ht hS ?_) fun _ _ => noConv_ok _
    exact h.2.imp id fun h => SafeLoss.fine hv hk hs.reads h
  | partialFitR X y ep =>
    refine NoConv.bind ?_ fun _ _ => noConv_ok _
    have hl := h.2.imp id fun h => SafeLoss.fine hv hk hs.reads h
    unfold partialFitRS
    rcases hs with hs | ⟨labels, nf, hs⟩
    · have hS : PSizedR a.lawful cfg ss.shape X y := hS
      rw [hs.shape] at hS ⊢
      exact noConv_fitRS hv ht (hS rfl) hl
    · have := hs.reg1 hk
      subst this
      rw [hs.shape]
      exact noConv_refitRS hv ht hs.nfSmall (by rw [hs.len, Nat.one_mul]) hl
  | predictR1 x => exact ret (predictR1_ref sc hv hk hs ht)
  | predictR X => exact ret (predictR_ref sc hv hk hs ht)

theorem step_defined (sc : Sched) (hv : Valid cfg) (hN : a.lawful.minStates ≤ cfg.states) (hs : Sim a.lawful cfg st ss)
    (c : Call a.Sample cfg.kind) (ht : c.Typed a.lawful) (h : SafeCall a st c) : Defined (step a.backend env sc c st) := by
  rcases (step_ref sc hv hN hs c ht (safeCall_safe hv hs c ht h)).cases with ⟨r, _, e, _⟩ | ⟨e, _⟩ | ⟨e, e2⟩
  · exact .inl ⟨r, e⟩
  · exact .inr e
  · exact absurd e2 (noConv_stepS hv hs c ht h)

theorem run_defined (sc : Sched) (hv : Valid cfg) (hN : a.lawful.minStates ≤ cfg.states) (cs : List (Call a.Sample cfg.kind))
    (ht : ∀ c ∈ cs, c.Typed a.lawful) (hs : Sim a.lawful cfg st ss) (h : SafeCalls a sc cs st) :
    Defined (run a.backend env sc cs st) := by
  induction cs generalizing st ss with
  | nil => exact .inl ⟨_, rfl⟩
  | cons c cs ih =>
    unfold run
    obtain ⟨h1, h2⟩ := h
    rcases step_defined sc hv hN hs c (ht c (by simp)) h1 with ⟨⟨st', o⟩, e⟩ | e
    · obtain ⟨ss', hs'⟩ := step_inv hv hN hs c (ht c (by simp)) e
      rw [e, ok_bind]
      rcases ih (fun c hc => ht c (by simp [hc])) hs' (h2 _ _ e) with ⟨r, e'⟩ | e'
      · dsimp only; rw [e']; exact .inl ⟨_, rfl⟩
      · dsimp only; rw [e']; exact .inr rfl
    · rw [e]; exact .inr rfl

end Tsetlini
