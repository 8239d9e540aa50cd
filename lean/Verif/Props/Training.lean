import Verif.Lemmas.Calls
import Verif.Props.Toy
/-
C18, C19, C20, C21, C22, C33, C34: what training does to clauses and weights.
-/
namespace Tsetlini
open Res Spec

variable {a : Algo} {env : Env} {st st' : EstState a.backend env} {X : List a.Sample} {y : List Int} {ml : Int} {ep : Nat}
  {sc : Sched} {s : Status} {H : Settings}

/-- The arguments of a training call are values of the declared C++ types. -/
def DataTyped (a : Algo) (X : List a.Sample) (y : List Int) : Prop := (∀ x ∈ X, a.Built x) ∧ ∀ v ∈ y, IsInt v

/-! ### helpers -/

theorem DataTyped.typed (h : DataTyped a X y) : Typed a.lawful X y := ⟨fun x hx => (lawful_sinv a x).2 (h.1 x hx), h.2⟩

theorem Fit.settingsEq {cfg : Cfg} {k : Kind} {labels nf : Nat} {ss : SState env} (h : Fit a.lawful cfg labels nf st ss)
    (hk : cfg.kind = k) (hH : HasSettings k st.params H) : H = cfg.settings :=
  hH.unique (h.reads.settings hk)

theorem Sim.settingsEq {cfg : Cfg} {k : Kind} {ss : SState env} (h : Sim a.lawful cfg st ss)
    (hk : cfg.kind = k) (hH : HasSettings k st.params H) : H = cfg.settings := by
  rcases h with h | ⟨_, _, h⟩
  · exact hH.unique (h.reads.settings hk)
  · exact h.settingsEq hk hH

theorem Spec.Chain.single {ι σ : Type} {R : ι → σ → σ → Prop} {i : ι} {s s' : σ} (h : Chain R [i] s s') : R i s s' := by
  cases h with
  | cons h1 h2 => cases h2; exact h1

/-! ### C34 -/

/-- **C34** (fit): a successful fit of a classifier starts from untrained clauses and runs `ep` epochs, in each of
which every sample is presented exactly once, with its own label. -/
theorem C34_fit (h : Reached a .classifier st) (hN : StatesOk a st.params) (ht : DataTyped a X y)
    (hH : HasSettings .classifier st.params H)
    (hr : fitClassifier a.backend env sc st X y ml ep = .ok (st', s)) (hc : s.code = .ok)
    {labels n : Nat} (hl : IntParam st'.params "number_of_labels" labels) (hn : IntParam st'.params "number_of_features" n) :
    ∃ m₀, Untrained (labels * H.k) n m₀ ∧
      Chain (fun (_ : Nat) => Epoch a env H n labels X y) (List.range ep) m₀ (a.learned st') := by
  obtain ⟨cfg, ss, h1, hv, h2, hS⟩ := Reached.sim h hN
  have e := hS.settingsEq h1 hH
  subst e
  obtain ⟨L, nf, ss', -, -, hF, -, hd, htr, hi⟩ := fit_call hv h1 h2 ht.typed hS hr hc
  have e1 := hF.labelsC h1 hl
  have e2 := hF.featC hn
  have e1 : labels = L := by omega
  have e2 : n = nf := by omega
  subst e1 e2
  have hun := initClauses_untrained env n (labels * cfg.k) (env.seedG cfg.seed)
  have := (epochs_spec hv hF.nfSmall htr (hF.small' hv) hd (initClauses_length env n (labels * cfg.k) (env.seedG cfg.seed)) hi).2
  rw [hF.learnedEq]
  exact ⟨_, hun _, this⟩

/-- **C34** (partial_fit on a fitted classifier): the same, starting from what was learned before. -/
theorem C34_partial_fit (h : Reached a .classifier st) (hN : StatesOk a st.params) (hf : Fitted a st) (ht : DataTyped a X y)
    (hH : HasSettings .classifier st.params H)
    (hr : partialFitClassifier a.backend env sc st X y ml ep = .ok (st', s)) (hc : s.code = .ok)
    {labels n : Nat} (hl : IntParam st.params "number_of_labels" labels) (hn : IntParam st.params "number_of_features" n) :
    Chain (fun (_ : Nat) => Epoch a env H n labels X y) (List.range ep) (a.learned st) (a.learned st') := by
  obtain ⟨cfg, L, nf, ss, h1, hv, h2, hF⟩ := reached_fit h hN hf
  have e := hF.settingsEq h1 hH
  have e1 := hF.labelsC h1 hl
  have e2 := hF.featC hn
  have e1 : labels = L := by omega
  have e2 : n = nf := by omega
  subst e e1 e2
  obtain ⟨ss', hF', -, hd, htr, -, hi⟩ := refit_call hv h1 h2 ht.typed hF hr hc
  rw [hF.learnedEq, hF'.learnedEq]
  exact (epochs_spec hv hF.nfSmall htr (hF.small' hv) hd hF.len hi).2

/-- **C34** for regressors (fit). -/
theorem C34_fit_regressor (h : Reached a .regressor st) (hN : StatesOk a st.params) (ht : DataTyped a X y)
    (hH : HasSettings .regressor st.params H)
    (hr : fitRegressor a.backend env sc st X y ep = .ok (st', s)) (hc : s.code = .ok)
    {n : Nat} (hn : IntParam st'.params "number_of_features" n) :
    ∃ m₀, Untrained H.k n m₀ ∧ Chain (fun (_ : Nat) => EpochR a env H n X y) (List.range ep) m₀ (a.learned st') := by
  obtain ⟨cfg, ss, h1, hv, h2, hS⟩ := Reached.sim h hN
  have e := hS.settingsEq h1 hH
  subst e
  obtain ⟨nf, ss', -, hF, -, hd, hi⟩ := fitR_call hv h1 h2 ht.typed hS hr hc
  have e2 := hF.featC hn
  have e2 : n = nf := by omega
  subst e2
  have hun := initClauses_untrained env n (1 * cfg.k) (env.seedG cfg.seed)
  have hlen := initClauses_length env n (1 * cfg.k) (env.seedG cfg.seed)
  have := (regEpochs_spec hv hF.nfSmall hd (by rw [← Nat.one_mul cfg.k]; exact hlen) hi).2
  rw [hF.learnedEq]
  refine ⟨_, ?_, this⟩
  have := hun (initS env cfg 1 n ss.weights).weights
  have e : cfg.settings.k = 1 * cfg.k := (Nat.one_mul _).symm
  rw [e]
  exact this

/-- **C34** for regressors (partial_fit on a fitted estimator). -/
theorem C34_partial_fit_regressor (h : Reached a .regressor st) (hN : StatesOk a st.params) (hf : Fitted a st) (ht : DataTyped a X y)
    (hH : HasSettings .regressor st.params H)
    (hr : partialFitRegressor a.backend env sc st X y ep = .ok (st', s)) (hc : s.code = .ok)
    {n : Nat} (hn : IntParam st.params "number_of_features" n) :
    Chain (fun (_ : Nat) => EpochR a env H n X y) (List.range ep) (a.learned st) (a.learned st') := by
  obtain ⟨cfg, L, nf, ss, h1, hv, h2, hF⟩ := reached_fit h hN hf
  have e := hF.settingsEq h1 hH
  have e2 := hF.featC hn
  have e2 : n = nf := by omega
  have e3 := hF.reg1 h1
  subst e e2 e3
  obtain ⟨ss', hF', -, hd, -, hi⟩ := refitR_call hv h1 h2 ht.typed hF hr hc
  rw [hF.learnedEq, hF'.learnedEq]
  exact (regEpochs_spec hv hF.nfSmall hd (by rw [hF.len, Nat.one_mul]) hi).2

/-! ### One sample -/

/-- Training a fitted classifier with one sample for one epoch is one step. -/
theorem one_step {x : a.Sample} {t : Nat} (h : Reached a .classifier st) (hN : StatesOk a st.params) (hf : Fitted a st)
    (hx : a.Built x) (hH : HasSettings .classifier st.params H)
    (hr : partialFitClassifier a.backend env sc st [x] [(t : Int)] ml 1 = .ok (st', s)) (hc : s.code = .ok)
    {labels n : Nat} (hl : IntParam st.params "number_of_labels" labels) (hn : IntParam st.params "number_of_features" n)
    (htt : IsInt t) :
    ∃ o, o < labels ∧ o ≠ t ∧ t < labels ∧ Step a env H n (a.bits x) t o (a.learned st) (a.learned st') := by
  have := C34_partial_fit h hN hf (X := [x]) (y := [(t : Int)]) ⟨by simpa using hx, by simpa using htt⟩ hH hr hc hl hn
  obtain ⟨ps, hp, hch⟩ := this.single
  have : ps = [(x, (t : Int))] := List.perm_singleton.1 hp
  subst this
  obtain ⟨t', o, e1, e2, e3, e4, e5⟩ := hch.single
  dsimp only at e1 e5
  have : t' = t := by omega
  subst this
  exact ⟨o, e3, e4, e2, e5⟩

/-! ### C18 -/

/-- **C18**, **C19**: when a classifier is trained with a sample of label `t`, the only clauses and weights that can
change are those of `t` and of one other label `o` of the model. -/
theorem C19_only_two_labels {x : a.Sample} {t : Nat} (h : Reached a .classifier st) (hN : StatesOk a st.params) (hf : Fitted a st)
    (hx : a.Built x) (hr : partialFitClassifier a.backend env sc st [x] [(t : Int)] ml 1 = .ok (st', s)) (hc : s.code = .ok)
    {labels n c : Nat} (hl : IntParam st.params "number_of_labels" labels) (hn : IntParam st.params "number_of_features" n)
    (hcl : IntParam st.params "number_of_clauses_per_label" c) (htt : IsInt t) :
    ∃ o, o < labels ∧ o ≠ t ∧ ∀ i, ¬ Owns (c / 2) t i → ¬ Owns (c / 2) o i →
      (a.clauses st')[i]? = (a.clauses st)[i]? ∧ st'.ta.weights[i]? = st.ta.weights[i]? := by
  obtain ⟨cfg, L, nf, ss, h1, hv, h2, hF⟩ := reached_fit h hN hf
  obtain ⟨o, h3, h4, -, h5⟩ := one_step h hN hf hx (hF.reads.settings h1) hr hc hl hn htt
  have e4 : (c : Int) = cfg.clauses := hF.reads.clausesC (by rw [h1]; exact hcl)
  have e5 : cfg.settings.k = c / 2 := by
    show (cfg.clauses / 2).toNat = _
    omega
  have := h5.others
  rw [e5] at this
  refine ⟨o, h3, h4, fun i h6 h7 => ?_⟩
  have := this i h6 h7
  unfold Learned.at at this
  exact Prod.mk.inj this

/-- **C18**: the opposite label of a sample with label `y` is a label of the model other than `y`, whatever is drawn. -/
theorem C18_opposite (env : Env) {labels t : Nat} (hl : 2 ≤ labels) (hl' : IsInt labels) (ht : t < labels) (g : env.G) :
    ∃ (o : Nat) (g' : env.G), oppositeLabel env labels t g = .ok ((o : Int), g') ∧ o < labels ∧ o ≠ t := by
  obtain ⟨⟨o', g'⟩, h1, o, h2, h3, h4, -, -⟩ := oppositeLabel_ret env hl (by have := hl'.2; omega) ht g
  dsimp only at h2
  subst h2
  exact ⟨o, g', h1, h3, h4⟩

/-- **C18**: every other label can be drawn: some generator output selects it. -/
theorem C18_every_other_label {labels t o : Nat} (hl' : IsInt labels) (ht : t < labels) (ho : o < labels) (hne : o ≠ t) :
    ∃ r : BitVec 32, ∀ (env : Env) (g : env.G), (env.next g).1 = r →
      ∃ g', oppositeLabel env labels t g = .ok ((o : Int), g') := by
  have hl2 := hl'.2
  refine ⟨BitVec.ofNat 32 ((o + labels - (t + 1)) % labels), fun env g hg => ?_⟩
  obtain ⟨⟨o', g'⟩, h1, o₁, h2, h3, h4, h5, -⟩ := oppositeLabel_ret env (n := labels) (by omega) (by omega) ht g
  dsimp only at h2
  subst h2
  rw [hg] at h5
  have hlt : (o + labels - (t + 1)) % labels < labels := Nat.mod_lt _ (by omega)
  have e1 : (BitVec.ofNat 32 ((o + labels - (t + 1)) % labels)).toNat = (o + labels - (t + 1)) % labels := by
    rw [BitVec.toNat_ofNat]
    exact Nat.mod_eq_of_lt (by omega)
  rw [e1] at h5
  have : o₁ = o := by
    rcases Nat.lt_or_ge o (t + 1) with hlt' | hge
    · have e2 : (o + labels - (t + 1)) % labels = o + labels - (t + 1) := Nat.mod_eq_of_lt (by omega)
      rw [e2, Nat.mod_eq_of_lt (a := o + labels - (t + 1)) (by omega)] at h5
      have : t + 1 + (o + labels - (t + 1)) = o + labels := by omega
      rw [this, Nat.add_mod_right, Nat.mod_eq_of_lt ho] at h5
      exact h5
    · have e2 : (o + labels - (t + 1)) % labels = o - (t + 1) := by
        have : o + labels - (t + 1) = (o - (t + 1)) + labels := by omega
        rw [this, Nat.add_mod_right, Nat.mod_eq_of_lt (by omega)]
      rw [e2, Nat.mod_eq_of_lt (a := o - (t + 1)) (by omega)] at h5
      have : t + 1 + (o - (t + 1)) = o := by omega
      rw [this, Nat.mod_eq_of_lt ho] at h5
      exact h5
  subst this
  exact ⟨g', h1⟩

/-! ### C20 -/

/-- **C20**: for some opposite label `o`, clauses that vote for the target `t` (even) and clauses that vote against `o`
(odd) get Type I feedback or none; clauses against the target and for `o` get Type II feedback or none; no other clause
gets any. A target whose score is the threshold gets none, nor does an opposite label whose score is minus the threshold. -/
theorem C20_feedback_types {x : a.Sample} {t : Nat} (h : Reached a .classifier st) (hN : StatesOk a st.params) (hf : Fitted a st)
    (hx : a.Built x) (hH : HasSettings .classifier st.params H)
    (hr : partialFitClassifier a.backend env sc st [x] [(t : Int)] ml 1 = .ok (st', s)) (hc : s.code = .ok)
    {labels n : Nat} (hl : IntParam st.params "number_of_labels" labels) (hn : IntParam st.params "number_of_features" n)
    (htt : IsInt t) :
    ∃ o, o < labels ∧ o ≠ t ∧
      (∀ i, Owns H.k t i → (a.learned st').at i = (a.learned st).at i ∨
        if i % 2 = 0 then TypeI a env H n (a.bits x) (outAt (a.clauses st) (a.bits x) i) ((a.learned st).at i) ((a.learned st').at i)
        else TypeII (a.bits x) (outAt (a.clauses st) (a.bits x) i) ((a.learned st).at i) ((a.learned st').at i)) ∧
      (∀ i, Owns H.k o i → (a.learned st').at i = (a.learned st).at i ∨
        if i % 2 = 0 then TypeII (a.bits x) (outAt (a.clauses st) (a.bits x) i) ((a.learned st).at i) ((a.learned st').at i)
        else TypeI a env H n (a.bits x) (outAt (a.clauses st) (a.bits x) i) ((a.learned st).at i) ((a.learned st').at i)) ∧
      (∀ i, ¬ Owns H.k t i → ¬ Owns H.k o i → (a.learned st').at i = (a.learned st).at i) ∧
      (score (outAt (a.clauses st) (a.bits x)) st.ta.weights H.k H.threshold t = H.threshold →
        ∀ i, Owns H.k t i → (a.learned st').at i = (a.learned st).at i) ∧
      (score (outAt (a.clauses st) (a.bits x)) st.ta.weights H.k H.threshold o = -H.threshold →
        ∀ i, Owns H.k o i → (a.learned st').at i = (a.learned st).at i) := by
  obtain ⟨o, h3, h4, -, h5⟩ := one_step h hN hf hx hH hr hc hl hn htt
  exact ⟨o, h3, h4, h5.target, h5.opposite, h5.others, h5.targetFull, h5.oppositeFull⟩

/-! ### C21 -/

/-- **C21**: whatever Type II feedback does to a clause, only literals that are false in the sample and excluded move,
by one towards inclusion, all of them if any, and only if the clause was true; a weight goes down by at most one. -/
theorem C21_type_II {x : List Bool} {out : Bool} {u u' : Option Clause × Option Nat} (h : TypeII x out u u') :
    ∃ c c', u.1 = some c ∧ u'.1 = some c' ∧ c'.pos.length = c.pos.length ∧ c'.neg.length = c.neg.length ∧
      (∀ (f : Nat) (v : Int), c.pos[f]? = some v →
        c'.pos[f]? = some (if out = true ∧ val x f = false ∧ v < 0 then v + 1 else v)) ∧
      (∀ (f : Nat) (v : Int), c.neg[f]? = some v →
        c'.neg[f]? = some (if out = true ∧ val x f = true ∧ v < 0 then v + 1 else v)) ∧
      u'.2 = u.2.map (fun w => if out then w - 1 else w) := by
  obtain ⟨c, h1, h2⟩ := h
  cases out with
  | false =>
    rw [if_neg (by simp)] at h2
    subst h2
    refine ⟨c, c, h1, h1, rfl, rfl, fun f v hv => ?_, fun f v hv => ?_, ?_⟩
    · simp [hv]
    · simp [hv]
    · cases u'.2 <;> simp
  | true =>
    rw [if_pos rfl] at h2
    refine ⟨c, _, h1, h2.1, by simp [Clause.contradict], by simp [Clause.contradict], fun f v hv => ?_, fun f v hv => ?_, ?_⟩
    · simp [Clause.contradict, hv]
    · simp [Clause.contradict, hv]
    · rw [h2.2]; rfl

/-- **C21** at the API: training with one sample of label `t` and some opposite label `o`: a clause against `t` or
for `o` is changed in one way only: if it was true, all its excluded literals that are false in the sample move
one step towards inclusion. -/
theorem C21_contradicting_literals {x : a.Sample} {t : Nat} (h : Reached a .classifier st) (hN : StatesOk a st.params) (hf : Fitted a st)
    (hx : a.Built x) (hH : HasSettings .classifier st.params H)
    (hr : partialFitClassifier a.backend env sc st [x] [(t : Int)] ml 1 = .ok (st', s)) (hc : s.code = .ok)
    {labels n : Nat} (hl : IntParam st.params "number_of_labels" labels) (hn : IntParam st.params "number_of_features" n)
    (htt : IsInt t) :
    ∃ o, o < labels ∧ o ≠ t ∧ ∀ i, (Owns H.k t i ∧ i % 2 = 1) ∨ (Owns H.k o i ∧ i % 2 = 0) →
      (a.clauses st')[i]? = (a.clauses st)[i]? ∨
      ∃ c c', (a.clauses st)[i]? = some c ∧ (a.clauses st')[i]? = some c' ∧ c.Holds (a.bits x) ∧
        (∀ (f : Nat) (v : Int), c.pos[f]? = some v → c'.pos[f]? = some (if val (a.bits x) f = false ∧ v < 0 then v + 1 else v)) ∧
        (∀ (f : Nat) (v : Int), c.neg[f]? = some v → c'.neg[f]? = some (if val (a.bits x) f = true ∧ v < 0 then v + 1 else v)) := by
  obtain ⟨o, h3, h4, h5, h6, -⟩ := C20_feedback_types h hN hf hx hH hr hc hl hn htt
  refine ⟨o, h3, h4, fun i hi => ?_⟩
  have key : (a.learned st').at i = (a.learned st).at i ∨
      TypeII (a.bits x) (outAt (a.clauses st) (a.bits x) i) ((a.learned st).at i) ((a.learned st').at i) := by
    rcases hi with ⟨hi, hp⟩ | ⟨hi, hp⟩
    · exact (h5 i hi).imp_right fun h => by rwa [if_neg (by omega)] at h
    · exact (h6 i hi).imp_right fun h => by rwa [if_pos hp] at h
  rcases key with key | key
  · exact .inl (Prod.mk.inj key).1
  · obtain ⟨c, c', e1, e2, -, -, e3, e4, -⟩ := C21_type_II key
    have e1 : (a.clauses st)[i]? = some c := e1
    cases ho : outAt (a.clauses st) (a.bits x) i with
    | false =>
      rw [ho] at key
      obtain ⟨c, k1, k2⟩ := key
      rw [if_neg (by simp)] at k2
      exact .inl (Prod.mk.inj k2).1
    | true =>
      simp only [ho, true_and] at e3 e4
      refine .inr ⟨c, c', e1, e2, ?_, e3, e4⟩
      unfold outAt at ho
      rw [e1] at ho
      exact of_decide_eq_true ho

/-! ### C22 -/

/-- Every counter of `c'` differs from that of `c` by at most one. -/
def MovesByOne (c c' : Clause) : Prop :=
  c'.pos.length = c.pos.length ∧ c'.neg.length = c.neg.length ∧
  (∀ (f : Nat) (v v' : Int), c.pos[f]? = some v → c'.pos[f]? = some v' → v - 1 ≤ v' ∧ v' ≤ v + 1) ∧
  (∀ (f : Nat) (v v' : Int), c.neg[f]? = some v → c'.neg[f]? = some v' → v - 1 ≤ v' ∧ v' ≤ v + 1)

/-- No literal that is true in the sample moved towards exclusion. -/
def KeepsTrueLiterals (x : List Bool) (c c' : Clause) : Prop :=
  (∀ (f : Nat) (v v' : Int), val x f = true → c.pos[f]? = some v → c'.pos[f]? = some v' → v ≤ v') ∧
  (∀ (f : Nat) (v v' : Int), val x f = false → c.neg[f]? = some v → c'.neg[f]? = some v' → v ≤ v')

theorem dec_bounds (N v : Int) : v - 1 ≤ dec N v ∧ dec N v ≤ v + 1 := by unfold dec; split <;> omega
theorem inc_bounds (N v : Int) : v ≤ inc N v ∧ inc N v ≤ v + 1 := by unfold inc; split <;> omega

theorem weaken_moves (N : Int) (tp tn : List Bool) (c : Clause) : MovesByOne c (c.weaken N tp tn) := by
  refine ⟨by simp [Clause.weaken], by simp [Clause.weaken], fun f v v' h h' => ?_, fun f v v' h h' => ?_⟩ <;>
  · simp only [Clause.weaken, List.getElem?_mapIdx, h, Option.map_some, Option.some.injEq] at h'
    have := dec_bounds N v
    subst h'; split <;> omega

theorem strengthen_moves (N : Int) (b : Bool) (x tp tn : List Bool) (c : Clause) :
    MovesByOne c (c.strengthen N b x tp tn) ∧ KeepsTrueLiterals x c (c.strengthen N b x tp tn) := by
  refine ⟨⟨by simp [Clause.strengthen], by simp [Clause.strengthen], fun f v v' h h' => ?_, fun f v v' h h' => ?_⟩,
    fun f v v' hx h h' => ?_, fun f v v' hx h h' => ?_⟩ <;>
  · simp only [Clause.strengthen, List.getElem?_mapIdx, h, Option.map_some, Option.some.injEq] at h'
    have := dec_bounds N v
    have := inc_bounds N v
    subst h'
    try rw [hx]
    repeat' split
    all_goals first | omega | contradiction

theorem contradict_moves (x : List Bool) (c : Clause) :
    MovesByOne c (c.contradict x) ∧ KeepsTrueLiterals x c (c.contradict x) := by
  refine ⟨⟨by simp [Clause.contradict], by simp [Clause.contradict], fun f v v' h h' => ?_, fun f v v' h h' => ?_⟩,
    fun f v v' hx h h' => ?_, fun f v v' hx h h' => ?_⟩ <;>
  · simp only [Clause.contradict, List.getElem?_mapIdx, h, Option.map_some, Option.some.injEq] at h'
    subst h'
    split <;> omega

theorem MovesByOne.refl (c : Clause) : MovesByOne c c := by
  refine ⟨rfl, rfl, fun f v v' h h' => ?_, fun f v v' h h' => ?_⟩ <;>
  · rw [h] at h'; cases h'; omega

theorem KeepsTrueLiterals.refl (x : List Bool) (c : Clause) : KeepsTrueLiterals x c c := by
  refine ⟨fun f v v' _ h h' => ?_, fun f v v' _ h h' => ?_⟩ <;>
  · rw [h] at h'; cases h'; omega

/-- **C22** (one application of feedback, classifiers and regressors): every counter moves by at most one, the weight too, and
the literals of a true clause that are true in the sample do not move towards exclusion. -/
theorem C22_feedback {x : List Bool} {n : Nat} {out : Bool} {u u' : Option Clause × Option Nat}
    (h : TypeI .classic env H n x out u u' ∨ TypeII x out u u') :
    ∃ c c', u.1 = some c ∧ u'.1 = some c' ∧ MovesByOne c c' ∧ (out = true → KeepsTrueLiterals x c c') ∧
      ∃ f : Nat → Nat, u'.2 = u.2.map f ∧ ∀ w, f w ≤ w + 1 ∧ w ≤ f w + 1 := by
  rcases h with ⟨c, c', h1, h2, h3⟩ | ⟨c, h1, h2⟩
  · cases out with
    | true =>
      rw [if_pos rfl] at h3
      obtain ⟨⟨tp, tn, -, -, rfl⟩, h4⟩ := h3
      refine ⟨c, _, h1, h2, (strengthen_moves ..).1, fun _ => (strengthen_moves ..).2, _, h4, fun w => ?_⟩
      unfold raise; split <;> omega
    | false =>
      rw [if_neg (by simp)] at h3
      obtain ⟨⟨tp, tn, -, -, rfl⟩, h4⟩ := h3
      exact ⟨c, _, h1, h2, weaken_moves .., by simp, id, by rw [h4]; simp, fun w => by simp⟩
  · cases out with
    | true =>
      rw [if_pos rfl] at h2
      exact ⟨c, _, h1, h2.1, (contradict_moves ..).1, fun _ => (contradict_moves ..).2, _, h2.2, fun w => by omega⟩
    | false =>
      rw [if_neg (by simp)] at h2
      subst h2
      exact ⟨c, c, h1, h1, .refl c, fun _ => .refl x c, id, by simp, fun w => by simp⟩

/-- **C22** at the API: training a classic classifier with one sample moves every counter and every weight by at most
one, and the literals of a true clause that are true in the sample do not move towards exclusion. -/
theorem C22_step {st st' : EstState Algo.classic.backend env} {x : Algo.classic.Sample} {t : Nat}
    (h : Reached .classic .classifier st) (hN : StatesOk .classic st.params) (hf : Fitted .classic st)
    (hr : partialFitClassifier Algo.classic.backend env sc st [x] [(t : Int)] ml 1 = .ok (st', s)) (hc : s.code = .ok)
    (htt : IsInt t) {i : Nat} {c : Clause} (hi : (Algo.classic.clauses st)[i]? = some c) :
    ∃ c', (Algo.classic.clauses st')[i]? = some c' ∧ MovesByOne c c' ∧
      (c.Holds (Algo.classic.bits x) → KeepsTrueLiterals (Algo.classic.bits x) c c') ∧
      ∀ w, st.ta.weights[i]? = some w → ∃ w', st'.ta.weights[i]? = some w' ∧ w' ≤ w + 1 ∧ w ≤ w' + 1 := by
  obtain ⟨cfg, L, nf, ss, h1, hv, h2, hF⟩ := reached_fit h hN hf
  obtain ⟨o, -, -, h5, h6, h7, -⟩ := C20_feedback_types (x := x) h hN hf trivial (hF.reads.settings h1) hr hc
    (labels := L) (n := nf) (hF.labelsP h1) hF.featP htt
  have key : ((Algo.classic.learned st').at i = (Algo.classic.learned st).at i) ∨
      (TypeI .classic env cfg.settings nf (Algo.classic.bits x) (outAt (Algo.classic.clauses st) (Algo.classic.bits x) i)
        ((Algo.classic.learned st).at i) ((Algo.classic.learned st').at i) ∨
      TypeII (Algo.classic.bits x) (outAt (Algo.classic.clauses st) (Algo.classic.bits x) i)
        ((Algo.classic.learned st).at i) ((Algo.classic.learned st').at i)) := by
    by_cases g1 : Owns cfg.settings.k t i
    · refine (h5 i g1).imp_right fun g => ?_
      split at g
      · exact .inl g
      · exact .inr g
    · by_cases g2 : Owns cfg.settings.k o i
      · refine (h6 i g2).imp_right fun g => ?_
        split at g
        · exact .inr g
        · exact .inl g
      · exact .inl (h7 i g1 g2)
  rcases key with key | key
  · obtain ⟨k1, k2⟩ := Prod.mk.inj key
    refine ⟨c, by rw [← hi]; exact k1, .refl c, fun _ => .refl _ c, fun w hw => ⟨w, by rw [← hw]; exact k2, by omega, by omega⟩⟩
  · obtain ⟨c₀, c', e1, e2, e3, e4, f, e5, e6⟩ := C22_feedback key
    have e1 : (Algo.classic.clauses st)[i]? = some c₀ := e1
    rw [hi] at e1
    cases e1
    refine ⟨c', e2, e3, fun hh => e4 ?_, fun w hw => ?_⟩
    · unfold outAt
      rw [hi]
      exact decide_eq_true hh
    · have e5 : st'.ta.weights[i]? = (st.ta.weights[i]?).map f := e5
      rw [hw] at e5
      exact ⟨f w, e5, e6 w⟩

/-! ### C33 -/

/-- **C33**: training a regressor with one sample whose response should be `y`: no change if the response is `y`;
otherwise at most `k` times some clause gets Type I feedback (response too low) or Type II feedback (too high). -/
theorem C33_regressor_step {x : a.Sample} {y : Int} (h : Reached a .regressor st) (hN : StatesOk a st.params) (hf : Fitted a st)
    (hx : a.Built x) (hy : IsInt y) (hH : HasSettings .regressor st.params H)
    (hr : partialFitRegressor a.backend env sc st [x] [y] 1 = .ok (st', s)) (hc : s.code = .ok)
    {n : Nat} (hn : IntParam st.params "number_of_features" n) :
    StepR a env H n (a.bits x) y (a.learned st) (a.learned st') := by
  have := C34_partial_fit_regressor h hN hf (X := [x]) (y := [y]) ⟨by simpa using hx, by simpa using hy⟩ hH hr hc hn
  obtain ⟨ps, hp, hch⟩ := this.single
  have : ps = [(x, y)] := List.perm_singleton.1 hp
  subst this
  exact hch.single

/-! ### The hypotheses are met -/

def Toy.xc : Algo.classic.Sample := ([1, 0, 1] : ClassicSample)
def Toy.xb : Algo.bitwise.Sample := (⟨3, [5]⟩ : BitVector)

def Toy.settingsC : Settings := ⟨3, 3, 2, false, 2, 2⟩
def Toy.settingsR : Settings := ⟨3, 3, 3, false, 2, 2⟩

theorem Toy.cc_settings : HasSettings .classifier Toy.cc.params Toy.settingsC := by
  refine ⟨?_, ?_, ?_, ⟨0, ?_, rfl⟩, ?_, ⟨4, ?_, rfl⟩⟩ <;> (first | show Params.get? _ _ = _ | skip) <;> decide +kernel

theorem Toy.bc_settings : HasSettings .classifier Toy.bc.params Toy.settingsC := by
  refine ⟨?_, ?_, ?_, ⟨0, ?_, rfl⟩, ?_, ⟨4, ?_, rfl⟩⟩ <;> (first | show Params.get? _ _ = _ | skip) <;> decide +kernel

theorem Toy.cr_settings : HasSettings .regressor Toy.cr.params Toy.settingsR := by
  refine ⟨?_, ?_, ?_, ⟨0, ?_, rfl⟩, ?_, ⟨4, ?_, rfl⟩⟩ <;> (first | show Params.get? _ _ = _ | skip) <;> decide +kernel

theorem Toy.br_settings : HasSettings .regressor Toy.br.params Toy.settingsR := by
  refine ⟨?_, ?_, ?_, ⟨0, ?_, rfl⟩, ?_, ⟨4, ?_, rfl⟩⟩ <;> (first | show Params.get? _ _ = _ | skip) <;> decide +kernel

/-- C18 to C22: training the toy classic classifier with one sample of label 1 reports OK; the opposite label is 2, its clause 4
(Type II) and its clause 5 (Type I, false clause) change. -/
example : ∃ st' s, partialFitClassifier Algo.classic.backend Toy.env Toy.seq Toy.cc [Toy.xc] [(1 : Nat)] 0 1 = .ok (st', s) ∧
    s.code = .ok ∧ (Algo.classic.clauses Toy.cc).drop 4 = [⟨[-2, -1, 0], [-1, 0, -1]⟩, ⟨[-1, -3, 0], [-2, -2, 0]⟩] ∧
    (Algo.classic.clauses st').drop 4 = [⟨[-2, 0, 0], [0, 0, 0]⟩, ⟨[-1, -3, 0], [-2, -2, -1]⟩] ∧
    (Algo.classic.clauses st').take 4 = (Algo.classic.clauses Toy.cc).take 4 ∧ IntParam Toy.cc.params "number_of_labels" (3 : Nat) ∧
    IntParam Toy.cc.params "number_of_features" (3 : Nat) ∧ HasSettings .classifier Toy.cc.params Toy.settingsC := by
  obtain ⟨st', s, h1, h2, h3⟩ := Toy.outcome_ok (B := Algo.classic.backend)
    (r := partialFitClassifier Algo.classic.backend Toy.env Toy.seq Toy.cc [Toy.xc] [(1 : Nat)] 0 1) (by decide +kernel)
  have e : Toy.outcome (B := Algo.classic.backend)
      (partialFitClassifier Algo.classic.backend Toy.env Toy.seq Toy.cc [Toy.xc] [(1 : Nat)] 0 1) =
      some ([[0, 0, -3], [-2, -1, 0], [-2, -2, -2], [1, 0, -2], [-1, -2, 0], [-3, 0, -1], [0, -1, -2], [-1, -2, -2],
        [-2, 0, 0], [0, 0, 0], [-1, -3, 0], [-2, -2, -1]], [0, 1, 1, 0, 0, 0]) := by decide +kernel
  rw [h3] at e
  have e' : Algo.classic.counters st' = [[0, 0, -3], [-2, -1, 0], [-2, -2, -2], [1, 0, -2], [-1, -2, 0], [-3, 0, -1], [0, -1, -2],
    [-1, -2, -2], [-2, 0, 0], [0, 0, 0], [-1, -3, 0], [-2, -2, -1]] := (Prod.mk.inj (Option.some.inj e)).1
  refine ⟨st', s, h1, h2, by decide +kernel, ?_, ?_, ?_, ?_, Toy.cc_settings⟩
  · unfold Algo.clauses; rw [e']; rfl
  · unfold Algo.clauses; rw [e']; decide +kernel
  · show Params.get? _ _ = _; decide +kernel
  · show Params.get? _ _ = _; decide +kernel

/-- C33: training the toy bitwise regressor with one sample; the response was too low, so there was Type I feedback. -/
example : IntParam Toy.br.params "number_of_features" (3 : Nat) ∧ HasSettings .regressor Toy.br.params Toy.settingsR ∧
    Algo.bitwise.counters Toy.br = [[0, 0, -1], [-1, -1, -1], [-2, -1, -1], [-1, 0, -2]] ∧
    Toy.outcome (B := Algo.bitwise.backend) (partialFitRegressor Algo.bitwise.backend Toy.env Toy.seq Toy.br [Toy.xb] [3] 1) =
      some ([[0, 0, -1], [-1, -1, -1], [-1, -2, -1], [-2, 1, -3]], [0, 1]) := by
  refine ⟨?_, Toy.br_settings, by decide +kernel, by decide +kernel⟩
  show Params.get? _ _ = _; decide +kernel

/-- C33: a response that was too high gives Type II feedback. -/
example : Algo.classic.counters Toy.cr = [[0, 0, -1], [-1, -1, -1], [-2, -2, -2], [-1, 0, -1]] ∧ Toy.cr.ta.weights = [0, 1] ∧
    Toy.outcome (B := Algo.classic.backend) (partialFitRegressor Algo.classic.backend Toy.env Toy.seq Toy.cr [Toy.xc] [0] 1) =
      some ([[0, 0, -1], [-1, -1, -1], [-2, -1, -2], [0, 0, 0]], [0, 0]) := by
  refine ⟨by decide +kernel, by decide +kernel, by decide +kernel⟩

/-- C34: fitting again and training on, for three epochs. -/
example : (Toy.outcome (B := Algo.bitwise.backend)
      (fitClassifier Algo.bitwise.backend Toy.env Toy.seq Toy.bc Toy.XB [0, 1, 2, 1] 0 3)).isSome ∧
    (Toy.outcome (B := Algo.bitwise.backend)
      (partialFitClassifier Algo.bitwise.backend Toy.env Toy.seq Toy.bc Toy.XB [0, 1, 2, 1] 0 3)).isSome ∧
    (Toy.outcome (B := Algo.bitwise.backend) (fitRegressor Algo.bitwise.backend Toy.env Toy.seq Toy.br Toy.XB [0, 1, 2, 1] 3)).isSome ∧
    (Toy.outcome (B := Algo.bitwise.backend) (partialFitRegressor Algo.bitwise.backend Toy.env Toy.seq Toy.br Toy.XB [0, 1, 2, 1] 3)).isSome ∧
    HasSettings .classifier Toy.bc.params Toy.settingsC ∧ HasSettings .regressor Toy.cr.params Toy.settingsR := by
  refine ⟨?_, ?_, ?_, ?_, Toy.bc_settings, Toy.cr_settings⟩ <;> decide +kernel

end Tsetlini
