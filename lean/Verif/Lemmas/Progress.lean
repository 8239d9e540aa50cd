import Verif.Spec.Training
/-
What feedback does to the votes on the sample it is about.
-/
namespace Tsetlini
open Spec

/-! ### one clause -/

theorem includes_mapIdx {g : Nat → Int → Int} {row : List Int} {f : Nat} :
    Includes (row.mapIdx g) f ↔ ∃ v, row[f]? = some v ∧ 0 ≤ g f v := by
  unfold Includes
  rw [List.getElem?_mapIdx]
  constructor
  · rintro ⟨c, h1, h2⟩
    obtain ⟨v, h3, h4⟩ := Option.map_eq_some_iff.1 h1
    exact ⟨v, h3, h4 ▸ h2⟩
  · rintro ⟨v, h1, h2⟩
    exact ⟨_, by rw [h1]; rfl, h2⟩

theorem strengthen_pos {N : Int} {b : Bool} {x tp tn : List Bool} {c : Clause} {f : Nat} :
    (val x f = true → Includes c.pos f → Includes (c.strengthen N b x tp tn).pos f) ∧
    (val x f = false → Includes (c.strengthen N b x tp tn).pos f → Includes c.pos f) := by
  constructor
  · rintro hx ⟨v, h1, h2⟩
    refine includes_mapIdx.2 ⟨v, h1, ?_⟩
    rw [hx]
    simp only [if_true]
    unfold inc
    repeat' split
    all_goals omega
  · intro hx h
    obtain ⟨v, h1, h2⟩ := includes_mapIdx.1 h
    rw [hx] at h2
    refine ⟨v, h1, ?_⟩
    simp only [Bool.false_eq_true, if_false] at h2
    unfold dec at h2
    repeat' split at h2
    all_goals omega

theorem strengthen_neg {N : Int} {b : Bool} {x tp tn : List Bool} {c : Clause} {f : Nat} :
    (val x f = false → Includes c.neg f → Includes (c.strengthen N b x tp tn).neg f) ∧
    (val x f = true → Includes (c.strengthen N b x tp tn).neg f → Includes c.neg f) := by
  constructor
  · rintro hx ⟨v, h1, h2⟩
    refine includes_mapIdx.2 ⟨v, h1, ?_⟩
    rw [hx]
    simp only [Bool.false_eq_true, if_false]
    unfold inc
    repeat' split
    all_goals omega
  · intro hx h
    obtain ⟨v, h1, h2⟩ := includes_mapIdx.1 h
    rw [hx] at h2
    refine ⟨v, h1, ?_⟩
    simp only [if_true] at h2
    unfold dec at h2
    repeat' split at h2
    all_goals omega

/-- A clause that is true for the sample stays true when it is strengthened. -/
theorem strengthen_holds {N : Int} {b : Bool} {x tp tn : List Bool} {c : Clause} (h : c.Holds x) :
    (c.strengthen N b x tp tn).Holds x := by
  intro f hf
  constructor
  · intro hi
    cases hv : val x f with
    | true => rfl
    | false => exact absurd (hv.symm.trans ((h f hf).1 (strengthen_pos.2 hv hi))) (by decide)
  · intro hi
    cases hv : val x f with
    | false => rfl
    | true => exact absurd (hv.symm.trans ((h f hf).2 (strengthen_neg.2 hv hi))) (by decide)

theorem strengthen_nonEmpty {N : Int} {b : Bool} {x tp tn : List Bool} {c : Clause} (h : c.Holds x) (hn : c.NonEmpty x.length) :
    (c.strengthen N b x tp tn).NonEmpty x.length := by
  obtain ⟨f, hf, hi⟩ := hn
  refine ⟨f, hf, hi.imp (fun hi => strengthen_pos.1 ((h f hf).1 hi) hi) (fun hi => strengthen_neg.1 ((h f hf).2 hi) hi)⟩

theorem contradict_includes {x : List Bool} {c : Clause} {f : Nat} :
    (Includes c.pos f → Includes (c.contradict x).pos f) ∧ (Includes c.neg f → Includes (c.contradict x).neg f) ∧
    (val x f = true → Includes (c.contradict x).pos f → Includes c.pos f) ∧
    (val x f = false → Includes (c.contradict x).neg f → Includes c.neg f) := by
  refine ⟨?_, ?_, ?_, ?_⟩
  · rintro ⟨v, h1, h2⟩
    refine includes_mapIdx.2 ⟨v, h1, ?_⟩
    split <;> omega
  · rintro ⟨v, h1, h2⟩
    refine includes_mapIdx.2 ⟨v, h1, ?_⟩
    split <;> omega
  · intro hx h
    obtain ⟨v, h1, h2⟩ := includes_mapIdx.1 h
    rw [hx] at h2
    exact ⟨v, h1, by simpa using h2⟩
  · intro hx h
    obtain ⟨v, h1, h2⟩ := includes_mapIdx.1 h
    rw [hx] at h2
    exact ⟨v, h1, by simpa using h2⟩

/-- Type II feedback never makes a clause true for its sample. -/
theorem contradict_outPruned {x : List Bool} {c : Clause} (h : (c.contradict x).outPruned x = true) : c.outPruned x = true := by
  obtain ⟨h1, f, hf, h2⟩ := of_decide_eq_true h
  refine decide_eq_true ⟨fun f hf => ?_, f, hf, ?_⟩
  · obtain ⟨h3, h4⟩ := h1 f hf
    exact ⟨fun hi => h3 (contradict_includes.1 hi), fun hi => h4 (contradict_includes.2.1 hi)⟩
  · obtain ⟨h3, h4⟩ := h1 f hf
    exact h2.imp (fun hi => contradict_includes.2.2.1 (h3 hi) hi) (fun hi => contradict_includes.2.2.2 (h4 hi) hi)

/-! ### one clause and its weight -/

/-- What a clause with its weight contributes to a sum of votes for the sample. -/
def share (x : List Bool) (u : Option Clause × Option Nat) : Int :=
  match u.1 with
  | some c => if c.outPruned x then 1 + (u.2.getD 0 : Int) else 0
  | none => 0

theorem share_nonneg (x : List Bool) (u : Option Clause × Option Nat) : 0 ≤ share x u := by
  unfold share
  repeat' split
  all_goals omega

theorem vote_share (m : Learned) (x : List Bool) (i : Nat) :
    vote m.weights i (outPrunedAt m.clauses x i) = if i % 2 = 0 then share x (m.at i) else - share x (m.at i) := by
  unfold vote outPrunedAt share Learned.at weight
  rw [List.getD_eq_getElem?_getD]
  cases m.clauses[i]? with
  | none => simp
  | some c =>
    dsimp only
    repeat' split
    all_goals omega

theorem weight_share (m : Learned) (x : List Bool) (i : Nat) :
    (if outPrunedAt m.clauses x i then weight m.weights i else 0) = share x (m.at i) := by
  unfold outPrunedAt share Learned.at weight
  rw [List.getD_eq_getElem?_getD]
  cases m.clauses[i]? with
  | none => simp
  | some c => rfl

theorem typeI_share {a : Algo} {env : Env} {H : Settings} {n : Nat} {x : List Bool} {out : Bool} {u u' : Option Clause × Option Nat}
    (h : TypeI a env H n x out u u') (ho : ∀ c, u.1 = some c → out = c.out x) : share x u ≤ share x u' := by
  obtain ⟨c, c', h1, h2, h3⟩ := h
  have ho := ho c h1
  cases out with
  | false =>
    have : share x u = 0 := by
      unfold share
      rw [h1]
      dsimp only
      rw [if_neg]
      intro hp
      exact absurd ho.symm (by simp [Clause.out, (of_decide_eq_true hp).1])
    have := share_nonneg x u'
    omega
  | true =>
    rw [if_pos rfl] at h3
    obtain ⟨⟨tp, tn, -, -, rfl⟩, hw⟩ := h3
    have hh : c.Holds x := of_decide_eq_true ho.symm
    unfold share
    rw [h1, h2, hw]
    dsimp only
    by_cases hp : c.outPruned x = true
    · have hp' : (c.strengthen H.states H.boost x tp tn).outPruned x = true :=
        decide_eq_true ⟨strengthen_holds hh, strengthen_nonEmpty hh (of_decide_eq_true hp).2⟩
      rw [if_pos hp, if_pos hp']
      cases u.2 with
      | none => simp
      | some w =>
        have : w ≤ raise H.maxWeight w := by unfold raise; split <;> omega
        simp
        omega
    · rw [if_neg hp]
      split <;> omega

/-- After Type I feedback a clause that was true is true. -/
theorem typeI_holds {a : Algo} {env : Env} {H : Settings} {n : Nat} {x : List Bool} {u u' : Option Clause × Option Nat}
    (h : TypeI a env H n x true u u') {c : Clause} (h1 : u.1 = some c) (hh : c.Holds x) : ∃ c', u'.1 = some c' ∧ c'.Holds x := by
  obtain ⟨c₁, c', h1', h2, h3⟩ := h
  rw [h1] at h1'
  cases h1'
  rw [if_pos rfl] at h3
  obtain ⟨⟨tp, tn, -, -, rfl⟩, -⟩ := h3
  exact ⟨_, h2, strengthen_holds hh⟩

theorem typeII_share {x : List Bool} {out : Bool} {u u' : Option Clause × Option Nat} (h : TypeII x out u u') :
    share x u' ≤ share x u := by
  obtain ⟨c, h1, h2⟩ := h
  cases out with
  | false => rw [if_neg (by simp)] at h2; subst h2; omega
  | true =>
    rw [if_pos rfl] at h2
    obtain ⟨h2, h3⟩ := h2
    unfold share
    rw [h1, h2, h3]
    dsimp only
    by_cases hp : (c.contradict x).outPruned x = true
    · rw [if_pos hp, if_pos (contradict_outPruned hp)]
      cases u.2 with
      | none => simp
      | some w => simp
    · rw [if_neg hp]
      split <;> omega

/-! ### sums -/

theorem sum_map_le {ι : Type} (l : List ι) (f g : ι → Int) (h : ∀ i ∈ l, f i ≤ g i) : (l.map f).sum ≤ (l.map g).sum := by
  induction l with
  | nil => simp
  | cons i l ih =>
    have := ih fun j hj => h j (List.mem_cons_of_mem _ hj)
    have := h i (List.mem_cons_self)
    simp
    omega

theorem clampTo_mono {lo hi v w : Int} (h : v ≤ w) : clampTo lo hi v ≤ clampTo lo hi w := by unfold clampTo; omega

theorem mem_owns {k l i : Nat} : i ∈ List.range' (l * k) k ↔ Owns k l i := by
  rw [List.mem_range'_1]; rfl

theorem score_mono {m m' : Learned} {x : List Bool} {k l : Nat} {T : Int}
    (h : ∀ i, Owns k l i → if i % 2 = 0 then share x (m.at i) ≤ share x (m'.at i) else share x (m'.at i) ≤ share x (m.at i)) :
    score (outPrunedAt m.clauses x) m.weights k T l ≤ score (outPrunedAt m'.clauses x) m'.weights k T l := by
  unfold score
  refine clampTo_mono (sum_map_le _ _ _ fun i hi => ?_)
  have := h i (mem_owns.1 hi)
  rw [vote_share, vote_share]
  split <;> rename_i h0
  · rwa [if_pos h0] at this
  · rw [if_neg h0] at this; omega

theorem response_mono {m m' : Learned} {x : List Bool} {k : Nat} {T : Int} (h : ∀ i, i < k → share x (m.at i) ≤ share x (m'.at i)) :
    response (outPrunedAt m.clauses x) m.weights k T ≤ response (outPrunedAt m'.clauses x) m'.weights k T := by
  unfold response
  refine clampTo_mono (sum_map_le _ _ _ fun i hi => ?_)
  rw [weight_share, weight_share]
  exact h i (List.mem_range.1 hi)

theorem owns_inj {k l l' i : Nat} (h : Owns k l i) (h' : Owns k l' i) : l = l' := by
  obtain ⟨h1, h2⟩ := h
  obtain ⟨h3, h4⟩ := h'
  rcases Nat.lt_trichotomy l l' with hl | hl | hl
  · have := Nat.mul_le_mul_right k hl
    rw [Nat.succ_eq_add_one, Nat.add_one_mul] at this
    omega
  · exact hl
  · have := Nat.mul_le_mul_right k hl
    rw [Nat.succ_eq_add_one, Nat.add_one_mul] at this
    omega

/-! ### one step -/

theorem outAt_at (m : Learned) (x : List Bool) (i : Nat) (c : Clause) (h : (m.at i).1 = some c) : outAt m.clauses x i = c.out x := by
  unfold outAt
  rw [show m.clauses[i]? = some c from h]

theorem Spec.Step.mono {a : Algo} {env : Env} {H : Settings} {n : Nat} {x : List Bool} {t o : Nat} {m m' : Learned}
    (h : Step a env H n x t o m m') (ho : o ≠ t) (l : Nat) :
    if l = t then score (outPrunedAt m.clauses x) m.weights H.k H.threshold l ≤ score (outPrunedAt m'.clauses x) m'.weights H.k H.threshold l
    else score (outPrunedAt m'.clauses x) m'.weights H.k H.threshold l ≤ score (outPrunedAt m.clauses x) m.weights H.k H.threshold l := by
  split <;> rename_i hl
  · subst hl
    refine score_mono fun i hi => ?_
    have := h.target i hi
    split <;> rename_i h0
    · rw [if_pos h0] at this
      rcases this with e | h1
      · rw [e]; omega
      · exact typeI_share h1 (outAt_at m x i)
    · rw [if_neg h0] at this
      rcases this with e | h1
      · rw [e]; omega
      · exact typeII_share h1
  · refine score_mono fun i hi => ?_
    by_cases hlo : l = o
    · subst hlo
      have := h.opposite i hi
      split <;> rename_i h0
      · rw [if_pos h0] at this
        rcases this with e | h1
        · rw [e]; omega
        · exact typeII_share h1
      · rw [if_neg h0] at this
        rcases this with e | h1
        · rw [e]; omega
        · exact typeI_share h1 (outAt_at m x i)
    · rw [h.others i (fun h' => hl (owns_inj hi h')) (fun h' => hlo (owns_inj hi h'))]
      split <;> omega

theorem learned_ext {m m' : Learned} (h : ∀ i, m'.at i = m.at i) : m' = m := by
  obtain ⟨c, w⟩ := m
  obtain ⟨c', w'⟩ := m'
  have h1 : c' = c := List.ext_getElem? fun i => (Prod.mk.inj (h i)).1
  have h2 : w' = w := List.ext_getElem? fun i => (Prod.mk.inj (h i)).2
  rw [h1, h2]

theorem Spec.Step.full {a : Algo} {env : Env} {H : Settings} {n : Nat} {x : List Bool} {t o : Nat} {m m' : Learned}
    (h : Step a env H n x t o m m') (ht : score (outAt m.clauses x) m.weights H.k H.threshold t = H.threshold)
    (ho : score (outAt m.clauses x) m.weights H.k H.threshold o = -H.threshold) : m' = m := by
  refine learned_ext fun i => ?_
  by_cases h1 : Owns H.k t i
  · exact h.targetFull ht i h1
  · by_cases h2 : Owns H.k o i
    · exact h.oppositeFull ho i h2
    · exact h.others i h1 h2

/-! ### one step of a regressor -/

theorem Spec.StepR.mono {a : Algo} {env : Env} {H : Settings} {n : Nat} {x : List Bool} {y : Int} {m m' : Learned}
    (h : StepR a env H n x y m m') :
    (response (outAt m.clauses x) m.weights H.k H.threshold < y →
      response (outPrunedAt m.clauses x) m.weights H.k H.threshold ≤ response (outPrunedAt m'.clauses x) m'.weights H.k H.threshold) ∧
    (y < response (outAt m.clauses x) m.weights H.k H.threshold →
      response (outPrunedAt m'.clauses x) m'.weights H.k H.threshold ≤ response (outPrunedAt m.clauses x) m.weights H.k H.threshold) := by
  obtain ⟨-, picks, -, -, hch⟩ := h
  constructor
  · intro hlt
    refine response_mono fun i _ => ?_
    -- a clause that was true stays true and never loses votes; one that was false contributed nothing
    have key : ∀ (l : List Nat) (m₁ m₂ : Learned),
        Chain (fun i m' m'' => (∀ j, j ≠ i → m''.at j = m'.at j) ∧
          (m''.clauses.length = m'.clauses.length ∧ m''.weights.length = m'.weights.length) ∧
          (response (outAt m.clauses x) m.weights H.k H.threshold < y → TypeI a env H n x (outAt m.clauses x i) (m'.at i) (m''.at i)) ∧
          (y < response (outAt m.clauses x) m.weights H.k H.threshold → TypeII x (outAt m.clauses x i) (m'.at i) (m''.at i)) ∧
          (response (outAt m.clauses x) m.weights H.k H.threshold = y → m'' = m')) l m₁ m₂ →
        (outAt m.clauses x i = true → ∃ c, (m₁.at i).1 = some c ∧ c.Holds x) →
        outAt m.clauses x i = true → share x (m₁.at i) ≤ share x (m₂.at i) := by
      intro l m₁ m₂ hc
      induction hc with
      | nil => intros; omega
      | @cons j l s s₁ s₂ h1 _ ih =>
        intro hinv hout
        obtain ⟨hother, -, hI, -, -⟩ := h1
        by_cases hij : i = j
        · subst hij
          have hI := hI hlt
          obtain ⟨c, hc1, hc2⟩ := hinv hout
          have h2 := typeI_share hI fun c' hc' => by
            rw [hc1] at hc'; cases hc'
            rw [hout]; exact (decide_eq_true hc2).symm
          rw [hout] at hI
          have := ih (fun _ => typeI_holds hI hc1 hc2) hout
          omega
        · have e := hother i hij
          rw [← e]
          exact ih (by rw [e]; exact hinv) hout
    cases ho : outAt m.clauses x i with
    | true =>
      refine key picks m m' hch (fun _ => ?_) ho
      unfold outAt at ho
      cases hc : m.clauses[i]? with
      | none => rw [hc] at ho; cases ho
      | some c =>
        rw [hc] at ho
        exact ⟨c, hc, of_decide_eq_true ho⟩
    | false =>
      have : share x (m.at i) = 0 := by
        unfold share
        cases hc : (m.at i).1 with
        | none => rfl
        | some c =>
          have e := outAt_at m x i c hc
          dsimp only
          rw [if_neg]
          intro hp
          rw [ho] at e
          exact absurd e.symm (by simp [Clause.out, (of_decide_eq_true hp).1])
      have := share_nonneg x (m'.at i)
      omega
  · intro hlt
    refine response_mono fun i _ => ?_
    generalize outAt m.clauses x = out at hch hlt
    generalize response out m.weights H.k H.threshold = r at hch hlt
    induction hch with
    | nil => omega
    | @cons j l s s₁ s₂ h1 _ ih =>
      obtain ⟨hother, -, -, hII, -⟩ := h1
      by_cases hij : i = j
      · subst hij
        have := typeII_share (hII hlt)
        omega
      · rw [← hother i hij]
        exact ih

/-- Without empty clauses, clause outputs in training and in prediction are the same. -/
theorem outAt_pruned {cl : List Clause} {x : List Bool} (h : ∀ c ∈ cl, c.NonEmpty x.length) : outAt cl x = outPrunedAt cl x := by
  funext i
  unfold outAt outPrunedAt
  cases hc : cl[i]? with
  | none => rfl
  | some c =>
    have := h c (List.mem_of_getElem? hc)
    show decide _ = decide _
    simp [this]

/-- The response while training is at least the predicted one. -/
theorem response_pruned_le (cl : List Clause) (ws : List Nat) (x : List Bool) (k : Nat) (T : Int) :
    response (outPrunedAt cl x) ws k T ≤ response (outAt cl x) ws k T := by
  unfold response
  refine clampTo_mono (sum_map_le _ _ _ fun i _ => ?_)
  unfold outPrunedAt outAt weight
  cases cl[i]? with
  | none => simp
  | some c =>
    dsimp only
    by_cases hp : c.outPruned x = true
    · rw [if_pos hp, if_pos (show c.out x = true from decide_eq_true (of_decide_eq_true hp).1)]; omega
    · rw [if_neg hp]; split <;> omega

end Tsetlini
