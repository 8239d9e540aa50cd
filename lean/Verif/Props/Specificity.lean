import Verif.Spec.Specificity
import Verif.Props.Progress
import Verif.Props.Reference
/-
C83: what the extreme values of the specificity do: with `s = 1` and no boost nothing but contradicting feedback raises a counter,
with a huge `s` no counter ever goes down.
-/
namespace Tsetlini
open Res Spec

variable {a : Algo} {env : Env} {st st' : EstState a.backend env} {X : List a.Sample} {y : List Int} {ml : Int} {ep : Nat}
  {sc : Sched} {s : Status} {H : Settings} {R : RegSettings} {n : Nat}

/-! ### relations on clauses -/

/-- `Counters` for one clause. -/
structure Rel1 (Q : Int → Int → Prop) (c c' : Clause) : Prop where
  posLen : c'.pos.length = c.pos.length
  negLen : c'.neg.length = c.neg.length
  pos : ∀ (f : Nat) (v v' : Int), c.pos[f]? = some v → c'.pos[f]? = some v' → Q v v'
  neg : ∀ (f : Nat) (v v' : Int), c.neg[f]? = some v → c'.neg[f]? = some v' → Q v v'

theorem Rel1.refl {Q : Int → Int → Prop} (hQ : ∀ v, Q v v) (c : Clause) : Rel1 Q c c :=
  ⟨rfl, rfl, fun _ _ _ h h' => by rw [h] at h'; cases h'; exact hQ _, fun _ _ _ h h' => by rw [h] at h'; cases h'; exact hQ _⟩

theorem rel_trans_list {Q : Int → Int → Prop} (hQ : ∀ u v w, Q u v → Q v w → Q u w) {l₁ l₂ l₃ : List Int} (hl : l₂.length = l₁.length)
    (h : ∀ (f : Nat) (v v' : Int), l₁[f]? = some v → l₂[f]? = some v' → Q v v')
    (h' : ∀ (f : Nat) (v v' : Int), l₂[f]? = some v → l₃[f]? = some v' → Q v v') (f : Nat) (v v' : Int) (e : l₁[f]? = some v)
    (e' : l₃[f]? = some v') : Q v v' := by
  have hf : f < l₂.length := by rw [hl]; exact (List.getElem?_eq_some_iff.1 e).1
  have e2 := List.getElem?_eq_getElem hf
  exact hQ _ _ _ (h _ _ _ e e2) (h' _ _ _ e2 e')

theorem Rel1.trans {Q : Int → Int → Prop} (hQ : ∀ u v w, Q u v → Q v w → Q u w) {c c' c'' : Clause} (h : Rel1 Q c c') (h' : Rel1 Q c' c'') :
    Rel1 Q c c'' :=
  ⟨h'.posLen.trans h.posLen, h'.negLen.trans h.negLen, rel_trans_list hQ h.posLen h.pos h'.pos, rel_trans_list hQ h.negLen h.neg h'.neg⟩

theorem Spec.Counters.refl {Q : Int → Int → Prop} (hQ : ∀ v, Q v v) (cs : List Clause) : Counters Q cs cs :=
  ⟨rfl, fun i c c' h h' => by
    rw [h] at h'
    cases h'
    have := Rel1.refl hQ c
    exact ⟨this.1, this.2, this.3, this.4⟩⟩

theorem Spec.Counters.rel {Q : Int → Int → Prop} {cs cs' : List Clause} (h : Counters Q cs cs') {i : Nat} {c c' : Clause}
    (e : cs[i]? = some c) (e' : cs'[i]? = some c') : Rel1 Q c c' :=
  let ⟨a, b, d, f⟩ := h.2 i c c' e e'
  ⟨a, b, d, f⟩

theorem Spec.Counters.trans {Q : Int → Int → Prop} (hQ : ∀ u v w, Q u v → Q v w → Q u w) {cs cs' cs'' : List Clause} (h : Counters Q cs cs')
    (h' : Counters Q cs' cs'') : Counters Q cs cs'' := by
  refine ⟨h'.1.trans h.1, fun i c c'' e e'' => ?_⟩
  have hi : i < cs'.length := by rw [h.1]; exact (List.getElem?_eq_some_iff.1 e).1
  have e' := List.getElem?_eq_getElem hi
  have := (h.rel e e').trans hQ (h'.rel e' e'')
  exact ⟨this.1, this.2, this.3, this.4⟩

theorem counters_set {Q : Int → Int → Prop} (hQ : ∀ v, Q v v) {cs : List Clause} {i : Nat} {c c' : Clause} (e : cs[i]? = some c)
    (h : Rel1 Q c c') : Counters Q cs (cs.set i c') := by
  refine ⟨List.length_set .., fun j d d' e1 e2 => ?_⟩
  by_cases hij : i = j
  · subst hij
    rw [e] at e1
    cases e1
    rw [List.getElem?_set_self (List.getElem?_eq_some_iff.1 e).1] at e2
    cases e2
    exact ⟨h.1, h.2, h.3, h.4⟩
  · rw [List.getElem?_set_ne hij, e1] at e2
    cases e2
    have := Rel1.refl hQ d
    exact ⟨this.1, this.2, this.3, this.4⟩

theorem rel1_mapIdx {Q : Int → Int → Prop} {c : Clause} {f g : Nat → Int → Int} (hf : ∀ i v, i < c.pos.length → Q v (f i v))
    (hg : ∀ i v, i < c.neg.length → Q v (g i v)) : Rel1 Q c ⟨c.pos.mapIdx f, c.neg.mapIdx g⟩ := by
  refine ⟨by simp, by simp, fun i v v' e e' => ?_, fun i v v' e e' => ?_⟩
  · rw [List.getElem?_mapIdx, e] at e'
    cases e'
    exact hf _ _ (List.getElem?_eq_some_iff.1 e).1
  · rw [List.getElem?_mapIdx, e] at e'
    cases e'
    exact hg _ _ (List.getElem?_eq_some_iff.1 e).1

/-! ### any training, as far as the clauses are concerned -/

/-- A relation on clauses that every feedback satisfies is satisfied by training. -/
theorem refStep_keeps {P : List Clause → List Clause → Prop} (refl : ∀ c, P c c) (trans : ∀ c d e, P c d → P d e → P c e)
    (hI : ∀ x i out (u u' : Trainee env), GiveI a env H n x i out u u' → P u.learned.clauses u'.learned.clauses)
    (hII : ∀ x i out (u u' : Trainee env), GiveII x i out u u' → P u.learned.clauses u'.learned.clauses)
    {x : List Bool} {t o : Nat} {u u' : Trainee env} (h : RefStep a env H n x t o u u') : P u.learned.clauses u'.learned.clauses := by
  obtain ⟨v, h1, h2⟩ := h
  refine trans _ _ _ (h1.invariant (P := fun u u' => P u.learned.clauses u'.learned.clauses) (fun _ => refl _) (fun _ _ _ => trans _ _ _) ?_)
    (h2.invariant (P := fun u u' => P u.learned.clauses u'.learned.clauses) (fun _ => refl _) (fun _ _ _ => trans _ _ _) ?_)
  · intro i _ w w' h
    dsimp only at h
    split at h
    · split at h
      · exact hI _ _ _ _ _ h
      · exact hII _ _ _ _ _ h
    · subst h; exact refl _
  · intro i _ w w' h
    dsimp only at h
    split at h
    · split at h
      · exact hII _ _ _ _ _ h
      · exact hI _ _ _ _ _ h
    · subst h; exact refl _

theorem refEpochs_keep {P : List Clause → List Clause → Prop} (refl : ∀ c, P c c) (trans : ∀ c d e, P c d → P d e → P c e)
    (hI : ∀ x i out (u u' : Trainee env), GiveI a env H n x i out u u' → P u.learned.clauses u'.learned.clauses)
    (hII : ∀ x i out (u u' : Trainee env), GiveII x i out u u' → P u.learned.clauses u'.learned.clauses)
    {labels : Nat} {u u' : Trainee env} (h : Chain (fun (_ : Nat) => RefEpoch a env H n labels X y) (List.range ep) u u') :
    P u.learned.clauses u'.learned.clauses := by
  refine h.invariant (P := fun u u' => P u.learned.clauses u'.learned.clauses) (fun _ => refl _) (fun _ _ _ => trans _ _ _) ?_
  rintro - - v v' h
  refine h.invariant (P := fun u u' => P u.learned.clauses u'.learned.clauses) (fun _ => refl _) (fun _ _ _ => trans _ _ _) ?_
  rintro i - w w' ⟨x, t, -, -, h⟩
  exact refStep_keeps refl trans hI hII h

theorem refEpochsR_keep {P : List Clause → List Clause → Prop} (refl : ∀ c, P c c) (trans : ∀ c d e, P c d → P d e → P c e)
    (hI : ∀ x i out (u u' : Trainee env), GiveI a env H n x i out u u' → P u.learned.clauses u'.learned.clauses)
    (hII : ∀ x i out (u u' : Trainee env), GiveII x i out u u' → P u.learned.clauses u'.learned.clauses)
    {u u' : Trainee env} (h : Chain (fun (_ : Nat) => RefEpochR a env H R n X y) (List.range ep) u u') :
    P u.learned.clauses u'.learned.clauses := by
  refine h.invariant (P := fun u u' => P u.learned.clauses u'.learned.clauses) (fun _ => refl _) (fun _ _ _ => trans _ _ _) ?_
  rintro - - v v' h
  refine h.invariant (P := fun u u' => P u.learned.clauses u'.learned.clauses) (fun _ => refl _) (fun _ _ _ => trans _ _ _) ?_
  rintro i - w w' ⟨x, t, -, -, hh, g, -, h⟩
  refine h.invariant (P := fun u u' => P u.learned.clauses u'.learned.clauses) (fun _ => refl _) (fun _ _ _ => trans _ _ _) ?_
  rintro - - z z' h
  dsimp only at h
  split at h
  · exact hI _ _ _ ⟨z.learned, skip env z.g 1, z.f⟩ _ h
  · split at h
    · exact hII _ _ _ ⟨z.learned, skip env z.g 1, z.f⟩ _ h
    · subst h; exact refl _

/-! ### the number of chosen features -/

theorem rnd64_zero : env.rnd64 0 = 0 := by
  have := env.rnd64_exact_law 0 0 (by decide) (by decide)
  rwa [show (((0 : Int) : Rat) / ((2 ^ 0 : Nat) : Rat)) = 0 by decide +kernel] at this

theorem chosen_one (hn : n ≤ 16777216) (r : BitVec 32) : chosen env 1 n r = n := by
  have e : env.rnd n = n := rnd_int env (m := n) (by simpa using hn)
  have e1 : env.rnd (1 / 1) = 1 := by
    rw [show (1 / 1 : Rat) = 1 by decide +kernel, rnd_one]
  unfold chosen
  dsimp only
  rw [e1, e, Rat.one_mul, e]
  have f : ((n : Rat)).floor = n := Rat.floor_intCast n
  rw [f]
  have z : (n : Rat) - ((n : Int) : Rat) = 0 := by rw [Rat.intCast_natCast]; grind
  rw [z, rnd_zero, Rat.zero_mul, rnd64_zero]
  have : roundHalfAway 0 = 0 := by decide +kernel
  rw [this, if_neg (by omega)]
  simp

theorem rat_floor_small {q : Rat} (h0 : 0 ≤ q) (h1 : q < 1) : q.floor = 0 := by
  have a : (0 : Int) ≤ q.floor := Rat.le_floor_iff.2 (by simpa using h0)
  have b : q.floor < 1 := Rat.floor_lt_iff.2 (by simpa using h1)
  omega

theorem rat_inv_le {p q : Rat} (h0 : 0 < p) (h : p ≤ q) : 1 / q ≤ 1 / p := by
  have hq : 0 < q := by grind
  rw [Rat.div_def, Rat.div_def, Rat.one_mul, Rat.one_mul]
  have a := Rat.le_of_lt (Rat.inv_pos.2 h0)
  have b := Rat.le_of_lt (Rat.inv_pos.2 hq)
  have := Rat.mul_le_mul_of_nonneg_right (Rat.mul_le_mul_of_nonneg_right h a) b
  rw [Rat.mul_inv_cancel _ (by grind), Rat.one_mul, Rat.mul_assoc, Rat.mul_comm p⁻¹, ← Rat.mul_assoc,
    Rat.mul_inv_cancel _ (by grind), Rat.one_mul] at this
  exact this

theorem chosen_none {s : Rat} {e : Nat} (he : e ≤ 31) (hn : n ≤ 2 ^ e) (hs : ((2 ^ (e + 34) : Nat) : Rat) ≤ s) (r : BitVec 32) :
    chosen env s n r = 0 := by
  have hE : (0 : Rat) < ((2 ^ e : Nat) : Rat) := by exact_mod_cast Nat.two_pow_pos e
  have hP : (0 : Rat) < ((2 ^ (e + 34) : Nat) : Rat) := by exact_mod_cast Nat.two_pow_pos _
  have h1 : env.rnd (1 / s) ≤ 1 / ((2 ^ (e + 34) : Nat) : Rat) := by
    have := env.rnd_mono_law _ _ (rat_inv_le hP hs)
    have k := env.rnd_exact_law 1 (e + 34) (by decide) (by omega)
    rw [show ((1 : Int) : Rat) = 1 by rfl] at k
    rwa [k] at this
  have h10 : 0 ≤ env.rnd (1 / s) := rnd_nonneg env (by
    rw [Rat.div_def, Rat.one_mul]
    exact Rat.le_of_lt (Rat.inv_pos.2 (by grind)))
  have h2 : env.rnd n ≤ ((2 ^ e : Nat) : Rat) := by
    have := env.rnd_mono_law n ((2 ^ e : Nat) : Rat) (by exact_mod_cast hn)
    have k := env.rnd_exact_up_law 1 e (by decide) (by omega)
    rw [show ((1 : Int) : Rat) = 1 by rfl, Rat.one_mul] at k
    rwa [k] at this
  have h20 : 0 ≤ env.rnd n := rnd_nonneg env (by exact_mod_cast Nat.zero_le n)
  have h3 : env.rnd (1 / s) * env.rnd n ≤ 1 / 17179869184 := by
    refine Rat.le_trans (Rat.mul_le_mul_of_nonneg_right h1 h20) ?_
    refine Rat.le_trans (Rat.mul_le_mul_of_nonneg_left h2 (by rw [Rat.div_def, Rat.one_mul]; exact Rat.le_of_lt (Rat.inv_pos.2 hP))) ?_
    have k : ((2 ^ (e + 34) : Nat) : Rat) = ((2 ^ e : Nat) : Rat) * 17179869184 := by
      rw [Nat.pow_add, Rat.natCast_mul]
      rfl
    rw [k]
    generalize ((2 ^ e : Nat) : Rat) = E at *
    rw [Rat.div_def, Rat.one_mul, Rat.inv_mul_rev, Rat.mul_assoc, Rat.inv_mul_cancel _ (by grind), Rat.mul_one]
    decide +kernel
  have k34 : env.rnd (1 / 17179869184) = 1 / 17179869184 := by
    have k := env.rnd_exact_law 1 34 (by decide) (by decide)
    rwa [show ((1 : Int) : Rat) / ((2 ^ 34 : Nat) : Rat) = 1 / 17179869184 by decide +kernel] at k
  have h4 : env.rnd (env.rnd (1 / s) * env.rnd n) ≤ 1 / 17179869184 := by
    have := env.rnd_mono_law _ _ h3
    rwa [k34] at this
  have h40 : 0 ≤ env.rnd (env.rnd (1 / s) * env.rnd n) := rnd_nonneg env (Rat.mul_nonneg h10 h20)
  unfold chosen
  dsimp only
  generalize env.rnd (env.rnd (1 / s) * env.rnd n) = q at *
  rw [rat_floor_small h40 (by grind)]
  have z : q - ((0 : Int) : Rat) = q := by rw [Rat.intCast_zero]; grind
  rw [z]
  have h5 : env.rnd q ≤ 1 / 17179869184 := by
    have := env.rnd_mono_law _ _ h4
    rwa [k34] at this
  have h50 : 0 ≤ env.rnd q := rnd_nonneg env h40
  have h6 : env.rnd64 (env.rnd q * 4294967295) ≤ 1 / 4 := by
    have k := env.rnd64_exact_law 1 2 (by decide) (by decide)
    rw [show ((1 : Int) : Rat) / ((2 ^ 2 : Nat) : Rat) = 1 / 4 by decide +kernel] at k
    have := env.rnd64_mono_law (env.rnd q * 4294967295) (1 / 4) (by grind)
    rwa [k] at this
  have h60 : 0 ≤ env.rnd64 (env.rnd q * 4294967295) := by
    have := env.rnd64_mono_law 0 (env.rnd q * 4294967295) (by grind)
    rwa [rnd64_zero] at this
  have h7 : roundHalfAway (env.rnd64 (env.rnd q * 4294967295)) = 0 := by
    unfold roundHalfAway
    rw [if_pos h60]
    exact rat_floor_small (by grind) (by grind)
  rw [h7, if_neg (by omega)]
  rfl

/-! ### feedback -/

/-- The length of the lists of the clauses. -/
def Wide (n : Nat) (cs : List Clause) : Prop := ∀ (i : Nat) (c : Clause), cs[i]? = some c → c.pos.length = n ∧ c.neg.length = n

theorem tossed_count {s : Rat} {g g' : env.G} {l : List Bool} (h : Tossed env s n g l g') :
    l.length = n ∧ ∃ r, l.count true = chosen env s n r := by
  obtain ⟨j, h1, h2, -⟩ := h
  exact ⟨by rw [h1]; simp [marked], _, h2⟩

theorem tossedBoth_count {s : Rat} {g g' : env.G} {tp tn : List Bool} (h : TossedBoth env s n g tp tn g') :
    (tp.length = n ∧ ∃ r, tp.count true = chosen env s n r) ∧ (tn.length = n ∧ ∃ r, tn.count true = chosen env s n r) := by
  obtain ⟨g₁, h⟩ := h
  split at h
  · exact ⟨tossed_count h.2, tossed_count h.1⟩
  · exact ⟨tossed_count h.1, tossed_count h.2⟩

theorem none_marked {l : List Bool} (h : l.count true = 0) (f : Nat) : l.getD f false = false := by
  rw [List.getD_eq_getElem?_getD]
  cases e : l[f]? with
  | none => rfl
  | some b =>
    cases b with
    | false => rfl
    | true => exact absurd (List.mem_of_getElem? e) (List.count_eq_zero.1 h)

theorem all_marked {l : List Bool} (h : l.count true = l.length) {f : Nat} (hf : f < l.length) : l.getD f false = true := by
  rw [List.getD_eq_getElem?_getD, List.getElem?_eq_getElem hf]
  have := (List.count_eq_length.1 h) _ (List.getElem_mem hf)
  exact this.symm

theorem contradict_rel {Q : Int → Int → Prop} (h1 : ∀ v, Q v v) (h2 : ∀ v, v < 0 → Q v (v + 1)) (x : List Bool) (c : Clause) :
    Rel1 Q c (c.contradict x) := by
  refine rel1_mapIdx (fun i v _ => ?_) (fun i v _ => ?_)
  · split
    · rename_i h; simp at h; exact h2 v h.2
    · exact h1 v
  · split
    · rename_i h; simp at h; exact h2 v h.2
    · exact h1 v

theorem giveII_rel {Q : Int → Int → Prop} (h1 : ∀ v, Q v v) (h2 : ∀ v, v < 0 → Q v (v + 1)) {x : List Bool} {i : Nat} {out : Bool}
    {u u' : Trainee env} (h : GiveII x i out u u') : Counters Q u.learned.clauses u'.learned.clauses := by
  obtain ⟨c, e, h⟩ := h
  subst h
  split
  · exact counters_set h1 e (contradict_rel h1 h2 x c)
  · exact .refl h1 _

/-- No counter goes down if no feature is ever chosen. -/
theorem giveI_none (h0 : ∀ r, chosen env H.s n r = 0) {x : List Bool} {i : Nat} {out : Bool} {u u' : Trainee env}
    (h : GiveI a env H n x i out u u') : Counters (· ≤ ·) u.learned.clauses u'.learned.clauses := by
  have hr : ∀ v : Int, v ≤ v := Int.le_refl
  obtain ⟨c, c', g', e, h⟩ := h
  split at h
  · obtain ⟨⟨tp, tn, ht, e'⟩, h⟩ := h
    subst h e'
    obtain ⟨⟨-, r1, k1⟩, -, r2, k2⟩ := tossedBoth_count ht
    rw [h0] at k1 k2
    refine counters_set hr e (rel1_mapIdx (fun f v _ => ?_) fun f v _ => ?_)
    · rw [none_marked k1]
      have := (inc_bounds H.states v).1
      split <;> simp <;> omega
    · rw [none_marked k2]
      have := (inc_bounds H.states v).1
      split <;> simp <;> omega
  · obtain ⟨h, e'⟩ := h
    subst e'
    cases a with
    | classic =>
      obtain ⟨tp, tn, ht, e'⟩ := h
      subst e'
      obtain ⟨⟨-, r1, k1⟩, -, r2, k2⟩ := tossedBoth_count ht
      rw [h0] at k1 k2
      refine counters_set hr e (rel1_mapIdx (fun f v _ => ?_) fun f v _ => ?_)
      · rw [none_marked k1]; simp
      · rw [none_marked k2]; simp
    | bitwise =>
      obtain ⟨h, -⟩ := h
      rw [h0] at h
      subst h
      exact counters_set hr e (.refl hr _)

/-- At most 0, or not above what it was. -/
def Capped (v v' : Int) : Prop := v' ≤ max v 0

theorem dec_capped (N v : Int) : Capped v (dec N v) := by
  have : dec N v ≤ v := by unfold dec; split <;> omega
  unfold Capped; omega

theorem capped_refl (v : Int) : Capped v v := by unfold Capped; omega
theorem capped_trans (u v w : Int) (h : Capped u v) (h' : Capped v w) : Capped u w := by unfold Capped at *; omega

theorem weakenAt_capped (N : Int) (p q : Nat) (c : Clause) : Rel1 Capped c (c.weakenAt N p q) := by
  have key : ∀ (l : List Int) (p f : Nat) (v v' : Int), l[f]? = some v → (l.modify p (dec N))[f]? = some v' → Capped v v' := by
    intro l p f v v' e e'
    rw [List.getElem?_modify, e] at e'
    by_cases hpf : p = f
    · simp [hpf] at e'; subst e'; exact dec_capped _ _
    · simp [hpf] at e'; subst e'; exact capped_refl _
  exact ⟨by simp [Clause.weakenAt], by simp [Clause.weakenAt], key _ _, key _ _⟩

/-- If all features are always chosen, Type I feedback raises no counter. -/
theorem giveI_all (h0 : ∀ r, chosen env H.s n r = n) (hb : H.boost = false) {x : List Bool} {i : Nat} {out : Bool} {u u' : Trainee env}
    (hw : Wide n u.learned.clauses) (h : GiveI a env H n x i out u u') : Counters Capped u.learned.clauses u'.learned.clauses := by
  obtain ⟨c, c', g', e, h⟩ := h
  obtain ⟨w1, w2⟩ := hw i c e
  split at h
  · obtain ⟨⟨tp, tn, ht, e'⟩, h⟩ := h
    subst h e'
    obtain ⟨⟨l1, r1, k1⟩, l2, r2, k2⟩ := tossedBoth_count ht
    rw [h0] at k1 k2
    refine counters_set capped_refl e (rel1_mapIdx (fun f v hf => ?_) fun f v hf => ?_)
    · rw [all_marked (by omega) (by omega), hb]
      split
      · exact capped_refl _
      · exact dec_capped _ _
    · rw [all_marked (by omega) (by omega), hb]
      split
      · exact dec_capped _ _
      · exact capped_refl _
  · obtain ⟨h, e'⟩ := h
    subst e'
    cases a with
    | classic =>
      obtain ⟨tp, tn, ht, e'⟩ := h
      subst e'
      refine counters_set capped_refl e (rel1_mapIdx (fun f v _ => ?_) fun f v _ => ?_)
      · split
        · exact dec_capped _ _
        · exact capped_refl _
      · split
        · exact dec_capped _ _
        · exact capped_refl _
    | bitwise =>
      obtain ⟨h, -⟩ := h
      subst h
      refine counters_set capped_refl e ?_
      generalize List.range _ = l
      clear e w1 w2
      induction l generalizing c with
      | nil => exact .refl capped_refl _
      | cons j l ih => exact (weakenAt_capped ..).trans capped_trans (ih _)

theorem Spec.Counters.wide {Q : Int → Int → Prop} {cs cs' : List Clause} (h : Counters Q cs cs') (hw : Wide n cs) : Wide n cs' := by
  intro i c' e'
  have hi : i < cs.length := by rw [← h.1]; exact (List.getElem?_eq_some_iff.1 e').1
  have e := List.getElem?_eq_getElem hi
  have k1 := (h.rel e e').posLen
  have k2 := (h.rel e e').negLen
  have k3 := hw i _ e
  omega

theorem refEpochs_none (h0 : ∀ r, chosen env H.s n r = 0) {labels : Nat} {u u' : Trainee env}
    (h : Chain (fun (_ : Nat) => RefEpoch a env H n labels X y) (List.range ep) u u') :
    Counters (· ≤ ·) u.learned.clauses u'.learned.clauses :=
  refEpochs_keep (.refl Int.le_refl) (fun _ _ _ => .trans (Q := (· ≤ ·)) fun _ _ _ => Int.le_trans) (fun _ _ _ _ _ => giveI_none h0)
    (fun _ _ _ _ _ => giveII_rel Int.le_refl (fun v _ => by omega)) h

theorem refEpochsR_none (h0 : ∀ r, chosen env H.s n r = 0) {u u' : Trainee env}
    (h : Chain (fun (_ : Nat) => RefEpochR a env H R n X y) (List.range ep) u u') :
    Counters (· ≤ ·) u.learned.clauses u'.learned.clauses :=
  refEpochsR_keep (.refl Int.le_refl) (fun _ _ _ => .trans (Q := (· ≤ ·)) fun _ _ _ => Int.le_trans) (fun _ _ _ _ _ => giveI_none h0)
    (fun _ _ _ _ _ => giveII_rel Int.le_refl (fun v _ => by omega)) h

theorem capped_up (v : Int) (h : v < 0) : Capped v (v + 1) := by unfold Capped; omega

theorem capped_all {cs cs' cs'' : List Clause} (h : Wide n cs → Counters Capped cs cs') (h' : Wide n cs' → Counters Capped cs' cs'') (hw : Wide n cs) :
    Counters Capped cs cs'' := (h hw).trans capped_trans (h' ((h hw).wide hw))

theorem refEpochs_all (h0 : ∀ r, chosen env H.s n r = n) (hb : H.boost = false) {labels : Nat} {u u' : Trainee env}
    (h : Chain (fun (_ : Nat) => RefEpoch a env H n labels X y) (List.range ep) u u') (hw : Wide n u.learned.clauses) :
    Counters Capped u.learned.clauses u'.learned.clauses :=
  refEpochs_keep (P := fun cs cs' => Wide n cs → Counters Capped cs cs') (fun _ _ => .refl capped_refl _)
    (fun _ _ _ => capped_all) (fun _ _ _ _ _ h hw => giveI_all h0 hb hw h)
    (fun _ _ _ _ _ h _ => giveII_rel capped_refl capped_up h) h hw

theorem refEpochsR_all (h0 : ∀ r, chosen env H.s n r = n) (hb : H.boost = false) {u u' : Trainee env}
    (h : Chain (fun (_ : Nat) => RefEpochR a env H R n X y) (List.range ep) u u') (hw : Wide n u.learned.clauses) :
    Counters Capped u.learned.clauses u'.learned.clauses :=
  refEpochsR_keep (P := fun cs cs' => Wide n cs → Counters Capped cs cs') (fun _ _ => .refl capped_refl _)
    (fun _ _ _ => capped_all) (fun _ _ _ _ _ h hw => giveI_all h0 hb hw h)
    (fun _ _ _ _ _ h _ => giveII_rel capped_refl capped_up h) h hw

theorem newClauses_wide (count : Nat) (g : env.G) : Wide n (newClauses env count n g) ∧
    ∀ c ∈ newClauses env count n g, ∀ v, v ∈ c.pos ∨ v ∈ c.neg → v ≤ 0 := by
  have key : ∀ c ∈ newClauses env count n g, (c.pos.length = n ∧ c.neg.length = n) ∧ ∀ v, v ∈ c.pos ∨ v ∈ c.neg → v ≤ 0 := by
    intro c hc
    unfold newClauses at hc
    obtain ⟨i, -, e⟩ := List.mem_map.1 hc
    subst e
    refine ⟨⟨by simp, by simp⟩, fun v hv => ?_⟩
    rcases hv with hv | hv <;> obtain ⟨f, -, e⟩ := List.mem_map.1 hv <;> subst e <;> dsimp only <;> split <;> omega
  exact ⟨fun i c e => (key c (List.mem_of_getElem? e)).1, fun c hc => (key c hc).2⟩

theorem Spec.Counters.low {cs cs' : List Clause} (h : Counters Capped cs cs') (h0 : ∀ c ∈ cs, ∀ v, v ∈ c.pos ∨ v ∈ c.neg → v ≤ 0) :
    ∀ c ∈ cs', ∀ v, v ∈ c.pos ∨ v ∈ c.neg → v ≤ 0 := by
  intro c' hc' v' hv'
  obtain ⟨i, hi, e'⟩ := List.getElem_of_mem hc'
  have e' : cs'[i]? = some c' := by rw [List.getElem?_eq_getElem hi, e']
  have hi' : i < cs.length := by rw [← h.1]; exact hi
  have e := List.getElem?_eq_getElem hi'
  have hr := h.rel e e'
  have h0 := h0 _ (List.getElem_mem hi')
  rcases hv' with hv | hv
  · obtain ⟨f, hf, k⟩ := List.getElem_of_mem hv
    have k : c'.pos[f]? = some v' := by rw [List.getElem?_eq_getElem hf, k]
    have hf' : f < cs[i].pos.length := by have := hr.posLen; omega
    have k1 := hr.pos f _ _ (List.getElem?_eq_getElem hf') k
    have k2 := h0 _ (.inl (List.getElem_mem hf'))
    unfold Capped at k1
    omega
  · obtain ⟨f, hf, k⟩ := List.getElem_of_mem hv
    have k : c'.neg[f]? = some v' := by rw [List.getElem?_eq_getElem hf, k]
    have hf' : f < cs[i].neg.length := by have := hr.negLen; omega
    have k1 := hr.neg f _ _ (List.getElem?_eq_getElem hf') k
    have k2 := h0 _ (.inr (List.getElem_mem hf'))
    unfold Capped at k1
    omega

theorem Fit.wide {cfg : Cfg} {L nf : Nat} {ss : SState env} (h : Fit a.lawful cfg L nf st ss) : Wide nf (a.clauses st) := by
  intro i c e
  rw [← h.clausesEq] at e
  have := a.lawful.abs_wf h.abs c (List.mem_of_getElem? e)
  exact ⟨this.posLen, this.negLen⟩

theorem Reads.specific {p : Params} {cfg : Cfg} (h : Reads p cfg) {s : Rat} (hs : p.get? "s" = some (.real (.fin s))) : cfg.settings.s = s := by
  have := h.s.symm.trans hs
  have : cfg.s = s := by simpa using this
  exact this

theorem Reads.unboosted {p : Params} {cfg : Cfg} (h : Reads p cfg) (hb : IntParam p "boost_true_positive_feedback" 0) :
    cfg.settings.boost = false := by
  have := h.boost.symm.trans hb
  have e : cfg.boost = 0 := by simpa using this
  show (cfg.boost != 0) = false
  rw [e]
  rfl

/-! ### C83 -/

/-- **C83**: with `s = 1`, no boost and up to 2^24 features, training raises no counter above 0: afterwards a counter is at most 0 or at most
what it was. (Type I feedback raises nothing, as every literal is always chosen.) -/
theorem C83_unspecific (h : Reached a .classifier st) (hN : StatesOk a st.params) (hf : Fitted a st) (ht : DataTyped a X y)
    (hs : st.params.get? "s" = some (.real (.fin 1))) (hb : IntParam st.params "boost_true_positive_feedback" 0)
    (hn : IntParam st.params "number_of_features" n) (hsmall : n ≤ 16777216)
    (hr : partialFitClassifier a.backend env sc st X y ml ep = .ok (st', s)) (hc : s.code = .ok) :
    Counters (fun v v' => v' ≤ max v 0) (a.clauses st) (a.clauses st') := by
  obtain ⟨cfg, L, nf, ss, h1, hv, h2, hF⟩ := reached_fit h hN hf
  have e2 := hF.featC hn
  have e2 : n = nf := by omega
  subst e2
  have hl : IntParam st.params "number_of_labels" L := hF.labelsP h1
  have hch := C52_partial_fit h hN hf ht (hF.reads.settings h1) hr hc hl hn
  have es := hF.reads.specific hs
  exact refEpochs_all (fun r => by rw [es]; exact chosen_one hsmall r) (hF.reads.unboosted hb) hch hF.wide

/-- **C83** (fit): so after a fit no counter is above 0. -/
theorem C83_unspecific_fit (h : Reached a .classifier st) (hN : StatesOk a st.params) (ht : DataTyped a X y)
    (hs : st.params.get? "s" = some (.real (.fin 1))) (hb : IntParam st.params "boost_true_positive_feedback" 0)
    (hr : fitClassifier a.backend env sc st X y ml ep = .ok (st', s)) (hc : s.code = .ok)
    (hn : IntParam st'.params "number_of_features" n) (hsmall : n ≤ 16777216) :
    ∀ c ∈ a.clauses st', ∀ v, v ∈ c.pos ∨ v ∈ c.neg → v ≤ 0 := by
  obtain ⟨cfg, ss, h1, hv, h2, hS⟩ := Reached.sim h hN
  obtain ⟨L, nf, ss', -, -, hF, -⟩ := fit_call hv h1 h2 ht.typed hS hr hc
  have hrd := hS.readsOf
  obtain ⟨u, hu, hch⟩ := C52_fit h hN ht (hrd.settings h1) hrd.seed hrd.weighted hr hc (hF.labelsP h1) hn
  have es := hrd.specific hs
  have hw := newClauses_wide (n := n) (L * cfg.settings.k) (env.seedG cfg.seed)
  rw [← hu.1] at hw
  exact (refEpochs_all (fun r => by rw [es]; exact chosen_one hsmall r) (hrd.unboosted hb) hch hw.1).low hw.2

/-- **C83** for regressors. -/
theorem C83_unspecific_regressor (h : Reached a .regressor st) (hN : StatesOk a st.params) (hf : Fitted a st) (ht : DataTyped a X y)
    (hs : st.params.get? "s" = some (.real (.fin 1))) (hb : IntParam st.params "boost_true_positive_feedback" 0)
    (hn : IntParam st.params "number_of_features" n) (hsmall : n ≤ 16777216)
    (hr : partialFitRegressor a.backend env sc st X y ep = .ok (st', s)) (hc : s.code = .ok) :
    Counters (fun v v' => v' ≤ max v 0) (a.clauses st) (a.clauses st') := by
  obtain ⟨cfg, L, nf, ss, h1, hv, h2, hF⟩ := reached_fit h hN hf
  have e2 := hF.featC hn
  have e2 : n = nf := by omega
  subst e2
  have hrd := hF.reads
  have hR : HasRegSettings st.params ⟨cfg.boxMuller, cfg.lossName, cfg.C1⟩ := ⟨hrd.boxMuller h1, hrd.loss h1, hrd.C1 h1⟩
  have hch := C52_partial_fit_regressor h hN hf ht (hrd.settings h1) hR hr hc hn
  have es := hrd.specific hs
  exact refEpochsR_all (fun r => by rw [es]; exact chosen_one hsmall r) (hrd.unboosted hb) hch hF.wide

/-- **C83** for regressors (fit). -/
theorem C83_unspecific_fit_regressor (h : Reached a .regressor st) (hN : StatesOk a st.params) (ht : DataTyped a X y)
    (hs : st.params.get? "s" = some (.real (.fin 1))) (hb : IntParam st.params "boost_true_positive_feedback" 0)
    (hr : fitRegressor a.backend env sc st X y ep = .ok (st', s)) (hc : s.code = .ok)
    (hn : IntParam st'.params "number_of_features" n) (hsmall : n ≤ 16777216) :
    ∀ c ∈ a.clauses st', ∀ v, v ∈ c.pos ∨ v ∈ c.neg → v ≤ 0 := by
  obtain ⟨cfg, ss, h1, hv, h2, hS⟩ := Reached.sim h hN
  have hrd := hS.readsOf
  have hR : HasRegSettings st.params ⟨cfg.boxMuller, cfg.lossName, cfg.C1⟩ := ⟨hrd.boxMuller h1, hrd.loss h1, hrd.C1 h1⟩
  obtain ⟨u, hu, hch⟩ := C52_fit_regressor h hN ht (hrd.settings h1) hR hrd.seed hrd.weighted hr hc hn
  have es := hrd.specific hs
  have hw := newClauses_wide (n := n) cfg.settings.k (env.seedG cfg.seed)
  rw [← hu.1] at hw
  exact (refEpochsR_all (fun r => by rw [es]; exact chosen_one hsmall r) (hrd.unboosted hb) hch hw.1).low hw.2

/-- **C83**: with a specificity of 2^34 times the number of features or more, no counter ever goes down: a literal, once included, stays. -/
theorem C83_specific (h : Reached a .classifier st) (hN : StatesOk a st.params) (hf : Fitted a st) (ht : DataTyped a X y) {sp : Rat} {e : Nat}
    (hs : st.params.get? "s" = some (.real (.fin sp))) (hn : IntParam st.params "number_of_features" n)
    (he : e ≤ 31) (hne : n ≤ 2 ^ e) (hse : ((2 ^ (e + 34) : Nat) : Rat) ≤ sp)
    (hr : partialFitClassifier a.backend env sc st X y ml ep = .ok (st', s)) (hc : s.code = .ok) :
    Counters (· ≤ ·) (a.clauses st) (a.clauses st') := by
  obtain ⟨cfg, L, nf, ss, h1, hv, h2, hF⟩ := reached_fit h hN hf
  have e2 := hF.featC hn
  have e2 : n = nf := by omega
  subst e2
  have hl : IntParam st.params "number_of_labels" L := hF.labelsP h1
  have hch := C52_partial_fit h hN hf ht (hF.reads.settings h1) hr hc hl hn
  have es := hF.reads.specific hs
  exact refEpochs_none (fun r => by rw [es]; exact chosen_none he hne hse r) hch

/-- **C83** for regressors. -/
theorem C83_specific_regressor (h : Reached a .regressor st) (hN : StatesOk a st.params) (hf : Fitted a st) (ht : DataTyped a X y) {sp : Rat} {e : Nat}
    (hs : st.params.get? "s" = some (.real (.fin sp))) (hn : IntParam st.params "number_of_features" n)
    (he : e ≤ 31) (hne : n ≤ 2 ^ e) (hse : ((2 ^ (e + 34) : Nat) : Rat) ≤ sp)
    (hr : partialFitRegressor a.backend env sc st X y ep = .ok (st', s)) (hc : s.code = .ok) :
    Counters (· ≤ ·) (a.clauses st) (a.clauses st') := by
  obtain ⟨cfg, L, nf, ss, h1, hv, h2, hF⟩ := reached_fit h hN hf
  have e2 := hF.featC hn
  have e2 : n = nf := by omega
  subst e2
  have hrd := hF.reads
  have hR : HasRegSettings st.params ⟨cfg.boxMuller, cfg.lossName, cfg.C1⟩ := ⟨hrd.boxMuller h1, hrd.loss h1, hrd.C1 h1⟩
  have hch := C52_partial_fit_regressor h hN hf ht (hrd.settings h1) hR hr hc hn
  have es := hrd.specific hs
  exact refEpochsR_none (fun r => by rw [es]; exact chosen_none he hne hse r) hch

/-! ### Hypotheses and cases -/

/-- A classifier's or regressor's arguments with specificity `s` and boost `b`. -/
def Toy.spC (s : Rat) (b : Bool) : Request .classifier :=
  .classifierArgs [.threshold 2, .clausesPerLabel 4, .states 3, .specificity (.fin s), .boost b, .seed 5#32]
def Toy.spR (s : Rat) (b : Bool) : Request .regressor :=
  .regressorArgs [.threshold 3, .regressorClauses 4, .states 3, .specificity (.fin s), .boost b, .seed 5#32]
def Toy.spCC (s : Rat) (b : Bool) : EstState Algo.classic.backend Toy.env := after .classic (made (spC s b)) [.fit Toy.X [0, 1, 2, 1] 0 2]
def Toy.spBC (s : Rat) (b : Bool) : EstState Algo.bitwise.backend Toy.env := after .bitwise (made (spC s b)) [.fit XB [0, 1, 2, 1] 0 2]
def Toy.spCR (s : Rat) (b : Bool) : EstState Algo.classic.backend Toy.env := after .classic (made (spR s b)) [.fitR Toy.X [3, 0, 2, 1] 2]
def Toy.spBR (s : Rat) (b : Bool) : EstState Algo.bitwise.backend Toy.env := after .bitwise (made (spR s b)) [.fitR XB [3, 0, 2, 1] 2]

/-- C83: hypotheses of the theorems for `s = 1`, for classifiers of both families, after a fit. -/
example : Reached .classic .classifier (Toy.spCC 1 false) ∧ Reached .bitwise .classifier (Toy.spBC 1 false) ∧
    StatesOk .classic (Toy.spCC 1 false).params ∧ StatesOk .bitwise (Toy.spBC 1 false).params ∧
    Algo.classic.counters (Toy.spCC 1 false) ≠ [] ∧ Algo.bitwise.counters (Toy.spBC 1 false) ≠ [] ∧
    (Toy.spCC 1 false).params.get? "s" = some (.real (.fin 1)) ∧ IntParam (Toy.spCC 1 false).params "boost_true_positive_feedback" 0 ∧
    IntParam (Toy.spCC 1 false).params "number_of_features" (3 : Nat) ∧
    (Toy.outcome (B := Algo.classic.backend)
      (partialFitClassifier Algo.classic.backend Toy.env Toy.seq (Toy.spCC 1 false) Toy.X [1, 1, 0, 2] 0 2)).isSome ∧
    (Toy.outcome (B := Algo.bitwise.backend)
      (partialFitClassifier Algo.bitwise.backend Toy.env Toy.seq (Toy.spBC 1 false) Toy.XB [1, 1, 0, 2] 0 2)).isSome :=
  ⟨Toy.reached_of (Toy.made_of (Toy.spC 1 false) (by constructor <;> decide +kernel) (by decide +kernel)) (by decide +kernel) (by decide +kernel),
    Toy.reached_of (Toy.made_of (Toy.spC 1 false) (by constructor <;> decide +kernel) (by decide +kernel)) (by decide +kernel) (by decide +kernel),
    Toy.statesOk_of (N := 3) (by decide +kernel) (by decide), Toy.statesOk_of (N := 3) (by decide +kernel) (by decide),
    by decide +kernel, by decide +kernel, by decide +kernel, by unfold IntParam; decide +kernel, by unfold IntParam; decide +kernel,
    by decide +kernel, by decide +kernel⟩

/-- C83: the same for regressors. -/
example : Reached .classic .regressor (Toy.spCR 1 false) ∧ Reached .bitwise .regressor (Toy.spBR 1 false) ∧
    (Toy.outcome (B := Algo.classic.backend)
      (partialFitRegressor Algo.classic.backend Toy.env Toy.seq (Toy.spCR 1 false) Toy.X [1, 3, 0, 2] 2)).isSome ∧
    (Toy.outcome (B := Algo.bitwise.backend)
      (partialFitRegressor Algo.bitwise.backend Toy.env Toy.seq (Toy.spBR 1 false) Toy.XB [1, 3, 0, 2] 2)).isSome :=
  ⟨Toy.reached_of (Toy.made_of (Toy.spR 1 false) (by constructor <;> decide +kernel) (by decide +kernel)) (by decide +kernel) (by decide +kernel),
    Toy.reached_of (Toy.made_of (Toy.spR 1 false) (by constructor <;> decide +kernel) (by decide +kernel)) (by decide +kernel) (by decide +kernel),
    by decide +kernel, by decide +kernel⟩

/-- C83: with boost, or with a larger `s`, counters do go above 0. -/
example : ((Algo.classic.clauses (Toy.spCC 1 true)).any fun c => c.pos.any (0 < ·)) = true ∧
    ((Algo.bitwise.clauses (Toy.spBR 68719476736 false)).any fun c => c.pos.any (0 < ·)) = true := by
  decide +kernel

/-- C83: hypotheses of the theorems for a huge `s` (2^36 for three features). -/
example : Reached .classic .classifier (Toy.spCC 68719476736 false) ∧ Reached .bitwise .regressor (Toy.spBR 68719476736 false) ∧
    (Toy.spCC 68719476736 false).params.get? "s" = some (.real (.fin 68719476736)) ∧
    IntParam (Toy.spCC 68719476736 false).params "number_of_features" (3 : Nat) ∧ 3 ≤ 2 ^ 2 ∧ ((2 ^ (2 + 34) : Nat) : Rat) ≤ 68719476736 ∧
    (Toy.outcome (B := Algo.classic.backend)
      (partialFitClassifier Algo.classic.backend Toy.env Toy.seq (Toy.spCC 68719476736 false) Toy.X [1, 1, 0, 2] 0 2)).isSome ∧
    (Toy.outcome (B := Algo.bitwise.backend)
      (partialFitRegressor Algo.bitwise.backend Toy.env Toy.seq (Toy.spBR 68719476736 false) Toy.XB [1, 3, 0, 2] 2)).isSome :=
  ⟨Toy.reached_of (Toy.made_of (Toy.spC 68719476736 false) (by constructor <;> decide +kernel) (by decide +kernel)) (by decide +kernel) (by decide +kernel),
    Toy.reached_of (Toy.made_of (Toy.spR 68719476736 false) (by constructor <;> decide +kernel) (by decide +kernel)) (by decide +kernel) (by decide +kernel),
    by decide +kernel, by unfold IntParam; decide +kernel, by decide, by decide +kernel, by decide +kernel, by decide +kernel⟩

end Tsetlini
