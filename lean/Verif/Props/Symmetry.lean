import Verif.Spec.Symmetry
import Verif.Props.Specificity
import Verif.Props.Stuck
import Verif.Props.Loaded
/-
C85: what predictions depend on, and on what they do not: the names and the polarity of features, the order of clauses, how far a counter
is from its boundary, and features that no clause mentions.
-/
namespace Tsetlini
open Res Spec

/-! ### clauses and votes -/

theorem has_lt {c : Clause} {n f : Nat} {b : Bool} (hp : c.pos.length = n) (hn : c.neg.length = n) (h : c.Has f b) : f < n := by
  obtain ⟨v, hv, -⟩ := h
  have := (List.getElem?_eq_some_iff.1 hv).1
  cases b <;> simp at this <;> omega

theorem holds_has {c : Clause} {x : List Bool} (hp : c.pos.length = x.length) (hn : c.neg.length = x.length) :
    c.Holds x ↔ ∀ f b, c.Has f b → val x f = b := by
  constructor
  · intro h f b hb
    have := h f (has_lt hp hn hb)
    cases b with
    | true => exact this.1 hb
    | false => exact this.2 hb
  · intro h f _
    exact ⟨h f true, h f false⟩

theorem nonEmpty_has {c : Clause} {n : Nat} (hp : c.pos.length = n) (hn : c.neg.length = n) : c.NonEmpty n ↔ ∃ f b, c.Has f b := by
  constructor
  · rintro ⟨f, -, h | h⟩
    · exact ⟨f, true, h⟩
    · exact ⟨f, false, h⟩
  · rintro ⟨f, b, h⟩
    refine ⟨f, has_lt hp hn h, ?_⟩
    cases b with
    | true => exact .inl h
    | false => exact .inr h

theorem reworded_out {τ : Nat → Nat × Bool} {c c' : Clause} {x x' : List Bool} (hp : c.pos.length = x.length) (hn : c.neg.length = x.length)
    (hp' : c'.pos.length = x'.length) (hn' : c'.neg.length = x'.length) (h : Reworded τ c c')
    (hx : ∀ f b, c.Has f b → val x' (τ f).1 = (val x f != (τ f).2)) : c'.outPruned x' = c.outPruned x := by
  unfold Clause.outPruned
  rw [decide_eq_decide, holds_has hp hn, holds_has hp' hn', nonEmpty_has hp hn, nonEmpty_has hp' hn']
  refine and_congr ⟨fun h1 f b hb => ?_, fun h1 g b' hb' => ?_⟩ ⟨fun ⟨g, b', hb'⟩ => ?_, fun ⟨f, b, hb⟩ => ?_⟩
  · have e1 := h1 _ _ (h.1 f b hb)
    rw [hx f b hb] at e1
    generalize (τ f).2 = z at e1
    revert e1
    generalize val x f = w
    cases z <;> cases w <;> cases b <;> simp
  · obtain ⟨f, b, hb, e1, e2⟩ := h.2 g b' hb'
    rw [← e1, hx f b hb, h1 f b hb, e2]
  · obtain ⟨f, b, hb, -⟩ := h.2 g b' hb'
    exact ⟨f, b, hb⟩
  · exact ⟨_, _, h.1 f b hb⟩

theorem perm_of_subset : ∀ {l₁ l₂ : List Nat}, l₁.Nodup → (∀ i ∈ l₁, i ∈ l₂) → l₂.length ≤ l₁.length → l₁.Perm l₂
  | [], l₂, _, _, h => by
    have : l₂ = [] := List.eq_nil_of_length_eq_zero (by simpa using h)
    rw [this]
  | i :: l₁, l₂, hn, hs, hl => by
    have hi := hs i List.mem_cons_self
    have hp := List.perm_cons_erase hi
    refine List.Perm.trans ?_ hp.symm
    refine .cons _ (perm_of_subset (List.nodup_cons.1 hn).2 (fun j hj => ?_) ?_)
    · have hne : j ≠ i := fun e => (List.nodup_cons.1 hn).1 (e ▸ hj)
      exact (List.mem_erase_of_ne hne).2 (hs j (List.mem_cons_of_mem _ hj))
    · have := List.length_erase_of_mem hi
      have := List.length_pos_of_mem hi
      rw [List.length_cons] at hl
      omega

theorem sum_perm {l l' : List Int} (h : l.Perm l') : l.sum = l'.sum := by
  induction h with
  | nil => rfl
  | cons _ _ ih => rw [List.sum_cons, List.sum_cons, ih]
  | swap a b l => rw [List.sum_cons, List.sum_cons, List.sum_cons, List.sum_cons]; omega
  | trans _ _ h1 h2 => rw [h1, h2]

theorem nodup_map_on {α β : Type} {f : α → β} : ∀ {l : List α}, (∀ x ∈ l, ∀ y ∈ l, f x = f y → x = y) → l.Nodup → (l.map f).Nodup
  | [], _, _ => List.nodup_nil
  | a :: l, hi, hn => by
    rw [List.map_cons, List.nodup_cons]
    refine ⟨fun h => ?_, nodup_map_on (fun x hx y hy => hi x (List.mem_cons_of_mem _ hx) y (List.mem_cons_of_mem _ hy)) (List.nodup_cons.1 hn).2⟩
    obtain ⟨b, hb, e⟩ := List.mem_map.1 h
    have := hi b (List.mem_cons_of_mem _ hb) a List.mem_cons_self e
    exact (List.nodup_cons.1 hn).1 (this ▸ hb)

theorem owned_mem {k l i : Nat} : i ∈ List.range' (l * k) k ↔ Owns k l i := by
  rw [List.mem_range'_1]; rfl

variable {τ : Nat → Nat × Bool} {k n n' l l' : Nat} {m m' : Learned} {σ : Nat → Nat} {x x' : List Bool}

theorem Spec.SameRules.sum (h : SameRules τ k m m' l l' σ) (hw : Wide x.length m.clauses) (hw' : Wide x'.length m'.clauses)
    (hx : SameSample τ m.clauses x x') (g : Int → Nat → Int) (hg : ∀ i, Owns k l i → ∀ w, g w (σ i) = g w i) :
    ((List.range' (l * k) k).map fun o => if outPrunedAt m.clauses x o then g (Spec.weight m.weights o) o else 0).sum =
      ((List.range' (l' * k) k).map fun o => if outPrunedAt m'.clauses x' o then g (Spec.weight m'.weights o) o else 0).sum := by
  have hp : ((List.range' (l * k) k).map σ).Perm (List.range' (l' * k) k) := by
    refine perm_of_subset (nodup_map_on (fun i hi j hj => h.inj i j (owned_mem.1 hi) (owned_mem.1 hj)) List.nodup_range') (fun j hj => ?_) (by simp)
    obtain ⟨i, hi, e⟩ := List.mem_map.1 hj
    subst e
    exact owned_mem.2 (h.owner i (owned_mem.1 hi))
  rw [← sum_perm (hp.map _), List.map_map]
  refine congrArg List.sum (List.map_congr_left fun i hi => ?_)
  have hi := owned_mem.1 hi
  obtain ⟨c, c', e, e', hr⟩ := h.clause i hi
  have ho : outPrunedAt m'.clauses x' (σ i) = outPrunedAt m.clauses x i := by
    unfold outPrunedAt
    rw [e, e']
    dsimp only
    exact reworded_out (hw i c e).1 (hw i c e).2 (hw' _ c' e').1 (hw' _ c' e').2 hr (hx c (List.mem_of_getElem? e))
  show _ = if outPrunedAt m'.clauses x' (σ i) = true then g (Spec.weight m'.weights (σ i)) (σ i) else 0
  rw [ho, h.weight i hi, hg i hi]

theorem Spec.SameRules.score (h : SameRules τ k m m' l l' σ) (hs : KeepsSign k l σ) (hw : Wide x.length m.clauses) (hw' : Wide x'.length m'.clauses)
    (hx : SameSample τ m.clauses x x') (T : Int) :
    Spec.score (outPrunedAt m'.clauses x') m'.weights k T l' = Spec.score (outPrunedAt m.clauses x) m.weights k T l :=
  congrArg (clampTo (-T) T) (h.sum hw hw' hx (fun w i => if i % 2 = 0 then w else -w) (fun i hi w => by rw [hs i hi])).symm

theorem Spec.SameRules.response (h : SameRules τ k m m' 0 0 σ) (hw : Wide x.length m.clauses) (hw' : Wide x'.length m'.clauses)
    (hx : SameSample τ m.clauses x x') (T : Int) :
    Spec.response (outPrunedAt m'.clauses x') m'.weights k T = Spec.response (outPrunedAt m.clauses x) m.weights k T := by
  have := h.sum hw hw' hx (fun w _ => w) (fun _ _ _ => rfl)
  rw [Nat.zero_mul, ← List.range_eq_range'] at this
  exact congrArg (clampTo 0 T) this.symm

/-! ### C85 -/

variable {a₁ a₂ : Algo} {env₁ env₂ : Env} {st₁ : EstState a₁.backend env₁} {st₂ : EstState a₂.backend env₂} {sc₁ sc₂ : Sched}
  {x₁ : a₁.Sample} {x₂ : a₂.Sample} {T c : Int}

theorem Reads.halfClauses {p : Params} {cfg : Cfg} {kd : Kind} (h : Reads p cfg) (hk : cfg.kind = kd) (hc : IntParam p (clauseParam kd) c) :
    cfg.settings.k = (c / 2).toNat := by
  obtain ⟨c', k1, k2⟩ := (h.settings hk).k
  have := k1.symm.trans hc
  have : c' = c := by simpa using this
  rw [k2, this]

/-- **C85**: label `l` of one classifier and label `l'` of another, perhaps of the other family, whose clauses say the same in other words
get the same score for samples that are the same in these words. -/
theorem C85_score (h₁ : Reached a₁ .classifier st₁) (hN₁ : StatesOk a₁ st₁.params) (hf₁ : Fitted a₁ st₁)
    (h₂ : Reached a₂ .classifier st₂) (hN₂ : StatesOk a₂ st₂.params) (hf₂ : Fitted a₂ st₂)
    (hT₁ : IntParam st₁.params "threshold" T) (hT₂ : IntParam st₂.params "threshold" T)
    (hc₁ : IntParam st₁.params "number_of_clauses_per_label" c) (hc₂ : IntParam st₂.params "number_of_clauses_per_label" c)
    (hx₁ : a₁.Built x₁) (hx₂ : a₂.Built x₂) (hx : SameSample τ (a₁.clauses st₁) (a₁.bits x₁) (a₂.bits x₂))
    (hr : SameRules τ (c / 2).toNat (a₁.learned st₁) (a₂.learned st₂) l l' σ) (hs : KeepsSign (c / 2).toNat l σ)
    {d₁ d₂ : List Int} (hd₁ : Gives (decision1 a₁.backend env₁ sc₁ st₁ x₁) d₁) (hd₂ : Gives (decision1 a₂.backend env₂ sc₂ st₂ x₂) d₂)
    (hl : l < d₁.length) (hl' : l' < d₂.length) : d₂[l']? = d₁[l]? := by
  obtain ⟨cfg₁, L₁, n₁, ss₁, k1, v1, -, F1⟩ := reached_fit h₁ hN₁ hf₁
  obtain ⟨cfg₂, L₂, n₂, ss₂, k2, v2, -, F2⟩ := reached_fit h₂ hN₂ hf₂
  have o1 := F1.decision_sok v1 k1 hx₁ hd₁
  have o2 := F2.decision_sok v2 k2 hx₂ hd₂
  cases gives_unique hd₁ (F1.decision v1 k1 o1 sc₁)
  cases gives_unique hd₂ (F2.decision v2 k2 o2 sc₂)
  simp only [List.length_map, List.length_range] at hl hl'
  rw [List.getElem?_map, List.getElem?_map, List.getElem?_range hl, List.getElem?_range hl']
  have e := hr.score hs (x := a₁.bits x₁) (x' := a₂.bits x₂) (by rw [bits_length o1]; exact F1.wide) (by rw [bits_length o2]; exact F2.wide) hx T
  rw [F1.reads.halfClauses k1 hc₁, F2.reads.halfClauses k2 hc₂, ← F1.reads.TC hT₁, ← F2.reads.TC hT₂]
  exact congrArg some e

/-- **C85**: if this is so for every label, the two predict the same. -/
theorem C85_predict (h₁ : Reached a₁ .classifier st₁) (hN₁ : StatesOk a₁ st₁.params) (hf₁ : Fitted a₁ st₁)
    (h₂ : Reached a₂ .classifier st₂) (hN₂ : StatesOk a₂ st₂.params) (hf₂ : Fitted a₂ st₂)
    (hT₁ : IntParam st₁.params "threshold" T) (hT₂ : IntParam st₂.params "threshold" T)
    (hc₁ : IntParam st₁.params "number_of_clauses_per_label" c) (hc₂ : IntParam st₂.params "number_of_clauses_per_label" c)
    {labels : Nat} (hl₁ : IntParam st₁.params "number_of_labels" labels) (hl₂ : IntParam st₂.params "number_of_labels" labels)
    (hx₁ : a₁.Built x₁) (hx₂ : a₂.Built x₂) (hx : SameSample τ (a₁.clauses st₁) (a₁.bits x₁) (a₂.bits x₂))
    (hr : ∀ l < labels, ∃ σ, SameRules τ (c / 2).toNat (a₁.learned st₁) (a₂.learned st₂) l l σ ∧ KeepsSign (c / 2).toNat l σ)
    {v w : Int} (hv : Gives (predictClassifier1 a₁.backend env₁ sc₁ st₁ x₁) v) (hw : Gives (predictClassifier1 a₂.backend env₂ sc₂ st₂ x₂) w) :
    v = w := by
  obtain ⟨cfg₁, L₁, n₁, ss₁, k1, v1, -, F1⟩ := reached_fit h₁ hN₁ hf₁
  obtain ⟨cfg₂, L₂, n₂, ss₂, k2, v2, -, F2⟩ := reached_fit h₂ hN₂ hf₂
  have o1 := F1.predict_sok v1 k1 hx₁ hv
  have o2 := F2.predict_sok v2 k2 hx₂ hw
  obtain ⟨i, hi1, hi2⟩ := F1.predict v1 k1 o1 sc₁
  obtain ⟨j, hj1, hj2⟩ := F2.predict v2 k2 o2 sc₂
  have e1 := F1.labelsC k1 hl₁
  have e2 := F2.labelsC k2 hl₂
  have e1 : labels = L₁ := by omega
  have e2 : labels = L₂ := by omega
  subst e1 e2
  have e : (List.range labels).map (Spec.score (outPrunedAt (a₂.clauses st₂) (a₂.bits x₂)) st₂.ta.weights cfg₂.settings.k cfg₂.T) =
      (List.range labels).map (Spec.score (outPrunedAt (a₁.clauses st₁) (a₁.bits x₁)) st₁.ta.weights cfg₁.settings.k cfg₁.T) := by
    refine List.map_congr_left fun l hl => ?_
    obtain ⟨σ, hr, hs⟩ := hr l (List.mem_range.1 hl)
    rw [F1.reads.halfClauses k1 hc₁, F2.reads.halfClauses k2 hc₂, ← F1.reads.TC hT₁, ← F2.reads.TC hT₂]
    exact hr.score hs (x := a₁.bits x₁) (x' := a₂.bits x₂) (by rw [bits_length o1]; exact F1.wide) (by rw [bits_length o2]; exact F2.wide) hx T
  rw [e] at hj2
  rw [gives_unique hv hi1, gives_unique hw hj1, FirstMax.unique hi2 hj2]

/-- **C85** for regressors, where all clauses vote for the response. -/
theorem C85_response (h₁ : Reached a₁ .regressor st₁) (hN₁ : StatesOk a₁ st₁.params) (hf₁ : Fitted a₁ st₁)
    (h₂ : Reached a₂ .regressor st₂) (hN₂ : StatesOk a₂ st₂.params) (hf₂ : Fitted a₂ st₂)
    (hT₁ : IntParam st₁.params "threshold" T) (hT₂ : IntParam st₂.params "threshold" T)
    (hc₁ : IntParam st₁.params "number_of_regressor_clauses" c) (hc₂ : IntParam st₂.params "number_of_regressor_clauses" c)
    (hx₁ : a₁.Built x₁) (hx₂ : a₂.Built x₂) (hx : SameSample τ (a₁.clauses st₁) (a₁.bits x₁) (a₂.bits x₂))
    (hr : SameRules τ (c / 2).toNat (a₁.learned st₁) (a₂.learned st₂) 0 0 σ)
    {v w : Int} (hv : Gives (predictRegressor1 a₁.backend env₁ sc₁ st₁ x₁) v) (hw : Gives (predictRegressor1 a₂.backend env₂ sc₂ st₂ x₂) w) :
    v = w := by
  obtain ⟨cfg₁, L₁, n₁, ss₁, k1, v1, -, F1⟩ := reached_fit h₁ hN₁ hf₁
  obtain ⟨cfg₂, L₂, n₂, ss₂, k2, v2, -, F2⟩ := reached_fit h₂ hN₂ hf₂
  have o1 := F1.predictR_sok v1 k1 hx₁ hv
  have o2 := F2.predictR_sok v2 k2 hx₂ hw
  have e1 := F1.reg1 k1
  have e2 := F2.reg1 k2
  subst e1 e2
  have g1 := F1.predictR v1 k1 o1 sc₁
  have g2 := F2.predictR v2 k2 o2 sc₂
  rw [gives_unique hv g1, gives_unique hw g2, F1.reads.halfClauses k1 hc₁, F2.reads.halfClauses k2 hc₂, ← F1.reads.TC hT₁, ← F2.reads.TC hT₂]
  exact (hr.response (x := a₁.bits x₁) (x' := a₂.bits x₂) (by rw [bits_length o1]; exact F1.wide) (by rw [bits_length o2]; exact F2.wide) hx T).symm

/-- Nothing is renamed. -/
def plain (f : Nat) : Nat × Bool := (f, false)

theorem reworded_refl (c : Clause) : Reworded plain c c :=
  ⟨fun f b h => by simpa [plain] using h, fun g b h => ⟨g, b, h, rfl, by simp [plain]⟩⟩

theorem sameRules_refl {L : Nat} (hlen : m.clauses.length = L * k) (hl : l < L) : SameRules plain k m m l l id ∧ KeepsSign k l id := by
  refine ⟨⟨fun _ h => h, fun _ _ _ _ h => h, fun _ _ => rfl, fun i hi => ?_⟩, fun _ _ => rfl⟩
  have : i < m.clauses.length := by
    rw [hlen]
    have h1 := hi.2
    have h2 := Nat.mul_le_mul_right k (show l + 1 ≤ L from hl)
    rw [Nat.add_mul, Nat.one_mul] at h2
    omega
  exact ⟨_, _, List.getElem?_eq_getElem this, List.getElem?_eq_getElem this, reworded_refl _⟩

variable {a : Algo} {env : Env} {st : EstState a.backend env} {x y : a.Sample}

/-- **C85**: features none of whose literals is included in any clause do not matter: samples that agree on the others are given the
same scores and the same label. -/
theorem C85_irrelevant (h : Reached a .classifier st) (hN : StatesOk a st.params) (hf : Fitted a st) (hx : a.Built x) (hy : a.Built y)
    (hxy : ∀ c ∈ a.clauses st, ∀ f b, c.Has f b → val (a.bits y) f = val (a.bits x) f)
    {d : List Int} {v : Int} (hd : Gives (decision1 a.backend env sc₁ st x) d) (hv : Gives (predictClassifier1 a.backend env sc₁ st x) v)
    {d' : List Int} {v' : Int} (hd' : Gives (decision1 a.backend env sc₂ st y) d') (hv' : Gives (predictClassifier1 a.backend env sc₂ st y) v') :
    d' = d ∧ v' = v := by
  obtain ⟨cfg, L, nf, ss, h1, hok, -, F⟩ := reached_fit h hN hf
  have o1 := F.decision_sok hok h1 hx hd
  have o2 := F.decision_sok hok h1 hy hd'
  have e : (List.range L).map (Spec.score (outPrunedAt (a.clauses st) (a.bits y)) st.ta.weights cfg.settings.k cfg.T) =
      (List.range L).map (Spec.score (outPrunedAt (a.clauses st) (a.bits x)) st.ta.weights cfg.settings.k cfg.T) := by
    refine List.map_congr_left fun l hl => ?_
    have hlen : (a.learned st).clauses.length = L * cfg.settings.k := by
      show (a.clauses st).length = _
      rw [← F.clausesEq, F.len]; rfl
    obtain ⟨r1, r2⟩ := sameRules_refl (m := a.learned st) hlen (List.mem_range.1 hl)
    exact r1.score r2 (x := a.bits x) (x' := a.bits y) (by rw [bits_length o1]; exact F.wide) (by rw [bits_length o2]; exact F.wide)
      (fun c hc f b hb => by simpa [plain] using hxy c hc f b hb) cfg.T
  have g1 := F.decision hok h1 o1 sc₁
  have g2 := F.decision hok h1 o2 sc₂
  obtain ⟨i, hi1, hi2⟩ := F.predict hok h1 o1 sc₁
  obtain ⟨j, hj1, hj2⟩ := F.predict hok h1 o2 sc₂
  rw [e] at g2 hj2
  rw [gives_unique hd g1, gives_unique hd' g2, gives_unique hv hi1, gives_unique hv' hj1, FirstMax.unique hi2 hj2]
  exact ⟨rfl, rfl⟩

/-- **C85**: the same for regressors. -/
theorem C85_irrelevant_regressor (h : Reached a .regressor st) (hN : StatesOk a st.params) (hf : Fitted a st) (hx : a.Built x) (hy : a.Built y)
    (hxy : ∀ c ∈ a.clauses st, ∀ f b, c.Has f b → val (a.bits y) f = val (a.bits x) f)
    {v v' : Int} (hv : Gives (predictRegressor1 a.backend env sc₁ st x) v) (hv' : Gives (predictRegressor1 a.backend env sc₂ st y) v') : v' = v := by
  obtain ⟨cfg, L, nf, ss, h1, hok, -, F⟩ := reached_fit h hN hf
  have o1 := F.predictR_sok hok h1 hx hv
  have o2 := F.predictR_sok hok h1 hy hv'
  have e1 := F.reg1 h1
  subst e1
  have hlen : (a.learned st).clauses.length = 1 * cfg.settings.k := by
    show (a.clauses st).length = _
    rw [← F.clausesEq, F.len]; rfl
  obtain ⟨r1, -⟩ := sameRules_refl (m := a.learned st) (l := 0) hlen (by decide)
  have g1 := F.predictR hok h1 o1 sc₁
  have g2 := F.predictR hok h1 o2 sc₂
  rw [gives_unique hv g1, gives_unique hv' g2]
  exact r1.response (x := a.bits x) (x' := a.bits y) (by rw [bits_length o1]; exact F.wide) (by rw [bits_length o2]; exact F.wide)
      (fun c hc f b hb => by simpa [plain] using hxy c hc f b hb) cfg.T

/-! ### Hypotheses and cases -/

instance (c : Clause) (f : Nat) (b : Bool) : Decidable (c.Has f b) := inferInstanceAs (Decidable (Includes ..))

theorem reworded_of {n : Nat} {c c' : Clause} (hl : (c.pos.length = n ∧ c.neg.length = n) ∧ c'.pos.length = n ∧ c'.neg.length = n)
    (h1 : ∀ f < n, ∀ b, c.Has f b → c'.Has (τ f).1 (b != (τ f).2))
    (h2 : ∀ g < n, ∀ b', c'.Has g b' → ∃ f < n, ∃ b, c.Has f b ∧ (τ f).1 = g ∧ (b != (τ f).2) = b') : Reworded τ c c' :=
  ⟨fun f b h => h1 f (has_lt hl.1.1 hl.1.2 h) b h, fun g b' h =>
    have ⟨f, _, b, k⟩ := h2 g (has_lt hl.2.1 hl.2.2 h) b' h
    ⟨f, b, k⟩⟩

/-- A model that says the same as `Toy.hand` in other words: feature 0 is called 1 and complemented, the labels are swapped. -/
def Toy.reworded : List Clause :=
  let yes : Clause := ⟨[-1, -1, -1], [-2, 1, -3]⟩
  let no : Clause := ⟨[-3, 2, -1], [-1, -1, -1]⟩
  [no, yes, yes, no]

/-- The words. -/
def Toy.words (f : Nat) : Nat × Bool := ((f + 1) % 3, f == 0)

theorem Toy.model_of {cl : List Clause} {ws : List Nat} (h1 : cl.length = 4) (h2 : ∀ c ∈ cl, c.pos.length = 3 ∧ c.neg.length = 3)
    (h3 : ∀ c ∈ cl, ∀ v ∈ c.pos ++ c.neg, -3 ≤ v ∧ v ≤ (3 : Int) - 1) (h4 : ws.length = 4) (h5 : ∀ w ∈ ws, (w : Int) + 1 ≤ 3) :
    ModelOf .classifier Toy.cParams 2 3 cl ws := by
  have key : ∀ {key : String} {v w : Int}, Toy.cParams.get? key = some (.int w) → IntParam Toy.cParams key v → v = w := fun h1 h2 => by
    unfold IntParam at h2
    rw [h1] at h2
    simpa using h2.symm
  constructor
  · decide
  · intro h; cases h
  · intro C hC
    rw [key (w := 4) (by decide +kernel) hC, h1]
    decide
  · exact h2
  · intro N hN
    rw [key (w := 3) (by decide +kernel) hN]
    intro c hc v hv
    exact h3 c hc v (List.mem_append.2 hv)
  · intro w hw
    rw [show Toy.cParams.get? "weighted" = some (.bool true) by decide +kernel] at hw
    cases hw
    rw [h1, h4]; rfl
  · intro M hM
    rw [key (w := 3) (by decide +kernel) hM]
    exact h5
  · decide
  · rw [h1]; decide
  · rw [h1]; decide

/-- C85: the hypotheses of `C85_score` are met by a classic and a bitwise classifier, which load these models. -/
example : ∃ (st₁ : EstState Algo.classic.backend Toy.env) (st₂ : EstState Algo.bitwise.backend Toy.env),
    Reached .classic .classifier st₁ ∧ Fitted .classic st₁ ∧ Reached .bitwise .classifier st₂ ∧ Fitted .bitwise st₂ ∧
    IntParam st₁.params "threshold" 2 ∧ IntParam st₂.params "threshold" 2 ∧
    IntParam st₁.params "number_of_clauses_per_label" 4 ∧ IntParam st₂.params "number_of_clauses_per_label" 4 ∧
    SameSample Toy.words (Algo.classic.clauses st₁) (Algo.classic.bits ([1, 0, 0] : ClassicSample)) (Algo.bitwise.bits (⟨3, [5]⟩ : BitVector)) ∧
    SameRules Toy.words 2 (Algo.classic.learned st₁) (Algo.bitwise.learned st₂) 0 1 (· + 2) ∧ KeepsSign 2 0 (· + 2) := by
  obtain ⟨js₁, h₁⟩ := C80_any_model .classic Toy.gio_faithful Toy.cMade (Toy.floats_of (by decide +kernel))
    (Toy.model_of (cl := Toy.hand) (ws := [2, 0, 1, 1]) rfl (by decide) (by decide) rfl (by decide)) Toy.cc.igen Toy.cc.fgen
  obtain ⟨js₂, h₂⟩ := C80_any_model .bitwise Toy.gio_faithful Toy.cMade (Toy.floats_of (by decide +kernel))
    (Toy.model_of (cl := Toy.reworded) (ws := [1, 1, 2, 0]) rfl (by decide) (by decide) rfl (by decide)) Toy.cc.igen Toy.cc.fgen
  obtain ⟨st₁, -, r1, f1, c1, w1, -, -, -, -, p1⟩ := h₁ Toy.cc
  obtain ⟨st₂, -, r2, f2, c2, w2, -, -, -, -, p2⟩ := h₂ Toy.bc
  have g : ∀ (p : Params), AgreeBut (sizeParams .classifier) Toy.cParams p → ∀ (key : String) (v : PVal), key ∉ sizeParams .classifier →
      Toy.cParams.get? key = some v → p.get? key = some v := fun p hp key v hk hv => by rw [← hv]; exact hp key hk
  refine ⟨st₁, st₂, r1, f1, r2, f2, g _ p1 _ _ (by decide) (by decide +kernel), g _ p2 _ _ (by decide) (by decide +kernel),
    g _ p1 _ _ (by decide) (by decide +kernel), g _ p2 _ _ (by decide) (by decide +kernel), ?_, ⟨?_, ?_, ?_, ?_⟩, ?_⟩
  · rw [c1]
    intro c hc f b hb
    have hf : f < 3 := has_lt (show c.pos.length = 3 from (by decide : ∀ c ∈ Toy.hand, c.pos.length = 3) c hc)
      ((by decide : ∀ c ∈ Toy.hand, c.neg.length = 3) c hc) hb
    exact (by decide : ∀ c ∈ Toy.hand, ∀ f < 3, ∀ b, c.Has f b → val (Algo.bitwise.bits (⟨3, [5]⟩ : BitVector)) (Toy.words f).1 =
      (val (Algo.classic.bits ([1, 0, 0] : ClassicSample)) f != (Toy.words f).2)) c hc f hf b hb
  · intro i hi
    unfold Owns at *
    omega
  · intro i j _ _ e
    omega
  · intro i hi
    show weight st₂.ta.weights (i + 2) = weight st₁.ta.weights i
    rw [w1, w2]
    obtain ⟨-, hi⟩ := hi
    match i, hi with
    | 0, _ => rfl
    | 1, _ => rfl
  · intro i hi
    show ∃ c c', (Algo.classic.clauses st₁)[i]? = some c ∧ (Algo.bitwise.clauses st₂)[i + 2]? = some c' ∧ _
    rw [c1, c2]
    obtain ⟨-, hi⟩ := hi
    match i, hi with
    | 0, _ => exact ⟨_, _, rfl, rfl, reworded_of (n := 3) (by decide) (by decide) (by decide)⟩
    | 1, _ => exact ⟨_, _, rfl, rfl, reworded_of (n := 3) (by decide) (by decide) (by decide)⟩
  · intro i _
    show (i + 2) % 2 = i % 2
    omega

/-- C85: features 1 and 2 do not matter to this model. -/
example : ∃ st : EstState Algo.classic.backend Toy.env, Reached .classic .classifier st ∧ Fitted .classic st ∧
    ∀ c ∈ Algo.classic.clauses st, ∀ f b, c.Has f b →
      val (Algo.classic.bits ([1, 1, 0] : ClassicSample)) f = val (Algo.classic.bits ([1, 0, 1] : ClassicSample)) f := by
  obtain ⟨js₁, h₁⟩ := C80_any_model .classic Toy.gio_faithful Toy.cMade (Toy.floats_of (by decide +kernel))
    (Toy.model_of (cl := Toy.hand) (ws := [2, 0, 1, 1]) rfl (by decide) (by decide) rfl (by decide)) Toy.cc.igen Toy.cc.fgen
  obtain ⟨st₁, -, r1, f1, c1, -⟩ := h₁ Toy.cc
  refine ⟨st₁, r1, f1, ?_⟩
  rw [c1]
  intro c hc f b hb
  have hf : f < 3 := has_lt ((by decide : ∀ c ∈ Toy.hand, c.pos.length = 3) c hc) ((by decide : ∀ c ∈ Toy.hand, c.neg.length = 3) c hc) hb
  exact (by decide : ∀ c ∈ Toy.hand, ∀ f < 3, ∀ b, c.Has f b → val (Algo.classic.bits ([1, 1, 0] : ClassicSample)) f =
      val (Algo.classic.bits ([1, 0, 1] : ClassicSample)) f) c hc f hf b hb

end Tsetlini
