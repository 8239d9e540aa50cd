import Verif.Spec.Threads
import Verif.Lemmas.Res
/- Interleaved execution of parallel loops: code run by one thread computes what the sequential model
does, and any interleaving of a team ends in the same outputs. -/
namespace Tsetlini
open Res Spec

variable {C S α β σ : Type}

/-- ThreadCode run without interruption. -/
def ThreadCode.eval (rows : List (List C)) (x : List S) : ThreadCode C S α → Res α
  | .ret a => .ok a
  | .row r k => (rd rows r).bind fun _ => k.eval rows x
  | .cell r c k => (rd rows r).bind fun l => (rd l c).bind fun v => (k v).eval rows x
  | .sample f k => (rd x f).bind fun v => (k v).eval rows x

/-- The number of actions of code run without interruption. -/
def ThreadCode.cost (rows : List (List C)) (x : List S) : ThreadCode C S α → Nat
  | .ret _ => 0
  | .row _ k => 1 + k.cost rows x
  | .cell r c k => match (rd rows r).bind fun l => rd l c with
    | .ok v => 1 + (k v).cost rows x
    | _ => 0
  | .sample f k => match rd x f with
    | .ok v => 1 + (k v).cost rows x
    | _ => 0

section eval
variable {rows : List (List C)} {x : List S}

theorem ThreadCode.eval_bind (p : ThreadCode C S α) (f : α → ThreadCode C S β) :
    (p.bind f).eval rows x = (p.eval rows x).bind fun a => (f a).eval rows x := by
  induction p with
  | ret a => rfl
  | row r k ih => simp only [ThreadCode.bind, ThreadCode.eval]; rw [ih, Res.bind_assoc]
  | cell r c k ih => simp only [ThreadCode.bind, ThreadCode.eval, ih, Res.bind_assoc]
  | sample i k ih => simp only [ThreadCode.bind, ThreadCode.eval, ih, Res.bind_assoc]

variable {step : Nat → σ → ThreadCode C S σ} {step' : Nat → σ → Res σ} (h : ∀ i s, (step i s).eval rows x = step' i s)
include h

theorem ThreadCode.eval_iter (is : List Nat) (s : σ) : (ThreadCode.iter is step s).eval rows x = Tsetlini.iter is step' s := by
  induction is generalizing s with
  | nil => rfl
  | cons i is ih => simp only [ThreadCode.iter, Tsetlini.iter, ThreadCode.eval_bind, h, ih]

theorem ThreadCode.eval_tileBatch (stop : σ → Bool) (B : Nat) (hB : 0 < B) (n kk : Nat) (st : σ) :
    (ThreadCode.tileBatch step stop B hB n kk st).eval rows x = Tsetlini.tileBatch step' stop B hB n kk st := by
  generalize hm : n - kk = m
  induction m using Nat.strongRecOn generalizing kk st with
  | _ m ih =>
    rw [ThreadCode.tileBatch, Tsetlini.tileBatch]
    split
    · rw [ThreadCode.eval_bind, ThreadCode.eval_iter h]
      congr 1
      funext s
      split
      · rfl
      · exact ih (n - (kk + B)) (by omega) _ _ rfl
    · rfl

theorem ThreadCode.eval_tileTail (stop : σ → Bool) (fs : List Nat) (st : σ) :
    (ThreadCode.tileTail step stop fs st).eval rows x = Tsetlini.tileTail step' stop fs st := by
  induction fs generalizing st with
  | nil => rfl
  | cons f fs ih =>
    simp only [ThreadCode.tileTail, Tsetlini.tileTail]
    split
    · rfl
    · rw [ThreadCode.eval_bind, h]; simp only [ih]

theorem ThreadCode.eval_tileLoops (stop : σ → Bool) (t : Tile) (n : Nat) (st : σ) :
    (ThreadCode.tileLoops step stop t n st).eval rows x = Tsetlini.tileLoops step' stop t n st := by
  simp only [ThreadCode.tileLoops, Tsetlini.tileLoops, ThreadCode.eval_bind, ThreadCode.eval_tileBatch h, ThreadCode.eval_tileTail h]

end eval

/-! ### The clause outputs -/

theorem simpleCode_eval {rows : List (List Int)} {X : ClassicSample} {p q : Nat} {pos neg : List Int}
    (hp : rows[p]? = some pos) (hq : rows[q]? = some neg) (fs : List Nat) (o e : Bool) :
    (simpleCode p q fs o e).eval rows X = simpleLoop pos neg X fs o e := by
  induction fs generalizing o e with
  | nil => rfl
  | cons f fs ih =>
    simp only [simpleCode, simpleLoop]
    split
    · simp only [ThreadCode.eval, rd_of_getElem? hp, rd_of_getElem? hq, ok_bind, ih]
    · rfl

theorem flagCode_eval {rows : List (List Int)} {X : ClassicSample} {p q : Nat} {pos neg : List Int}
    (hp : rows[p]? = some pos) (hq : rows[q]? = some neg) (f : Nat) (st : Byte × Byte) :
    (flagCode p q f st).eval rows X = flagStep pos neg X f st := by
  simp only [flagCode, flagStep, ThreadCode.eval, rd_of_getElem? hp, rd_of_getElem? hq, ok_bind]

theorem bitSimpleCode_eval {rows : List (List Block)} {X : List Block} {p q : Nat} {pos neg : List Block}
    (hp : rows[p]? = some pos) (hq : rows[q]? = some neg) (fs : List Nat) (o : Bool) (a : Block) :
    (bitSimpleCode p q fs o a).eval rows X = bitSimpleLoop pos neg X fs o a := by
  induction fs generalizing o a with
  | nil => rfl
  | cons f fs ih =>
    simp only [bitSimpleCode, bitSimpleLoop]
    split
    · simp only [ThreadCode.eval, rd_of_getElem? hp, rd_of_getElem? hq, ok_bind, ih]
    · rfl

theorem bitStepCode_eval {rows : List (List Block)} {X : List Block} {p q : Nat} {pos neg : List Block}
    (hp : rows[p]? = some pos) (hq : rows[q]? = some neg) (f : Nat) (st : BlkSt) :
    (bitStepCode p q f st).eval rows X = bitStep pos neg X f st := by
  simp only [bitStepCode, bitStep, ThreadCode.eval, rd_of_getElem? hp, rd_of_getElem? hq, ok_bind]

private theorem two_rows {rows : List (List C)} {x : List S} {k : ThreadCode C S Bool} {r q : Nat} {f : List C → List C → Res Bool}
    (h : ∀ pos neg, rows[r]? = some pos → rows[q]? = some neg → k.eval rows x = f pos neg) :
    (ThreadCode.row r (ThreadCode.row q k)).eval rows x = (rd rows r).bind fun pos => (rd rows q).bind fun neg => f pos neg := by
  simp only [ThreadCode.eval]
  cases hr : rows[r]? with
  | none => simp [rd, hr, Res.bind]
  | some pos =>
    rw [rd_of_getElem? hr, ok_bind, ok_bind]
    cases hq : rows[q]? with
    | none => simp [rd, hq, Res.bind]
    | some neg =>
      rw [rd_of_getElem? hq, ok_bind, ok_bind]
      exact h pos neg hr hq

theorem classicCode_eval (t : Tile) (m : Matrix) (X : ClassicSample) (o : Nat) :
    (classicCode t X.length o).eval m.rows X = classic.clauseOut t m o X := by
  refine two_rows fun pos neg hp hq => ?_
  unfold classicClause
  split
  · rw [ThreadCode.eval_bind, simpleCode_eval hp hq]; rfl
  · rw [ThreadCode.eval_bind, ThreadCode.eval_tileLoops (flagCode_eval hp hq)]; rfl

theorem classicCodePruned_eval (t : Tile) (m : Matrix) (X : ClassicSample) (o : Nat) :
    (classicCodePruned t X.length o).eval m.rows X = classic.clauseOutPruned t m o X := by
  refine two_rows fun pos neg hp hq => ?_
  unfold classicClausePruned
  split
  · rw [ThreadCode.eval_bind, simpleCode_eval hp hq]; rfl
  · rw [ThreadCode.eval_bind, ThreadCode.eval_tileLoops (flagCode_eval hp hq)]; rfl

theorem bitCode_eval (t : Tile) (M : PMatrix) (X : BitVector) (o : Nat) :
    (bitCode t X.contentBlocks o).eval M.pol X.blocks = bitwise.clauseOut t M o X := by
  refine two_rows fun pos neg hp hq => ?_
  unfold bitClause
  split
  · rw [ThreadCode.eval_bind, bitSimpleCode_eval hp hq]; rfl
  · rw [ThreadCode.eval_bind, ThreadCode.eval_tileLoops (bitStepCode_eval hp hq)]; rfl

theorem bitCodePruned_eval (t : Tile) (M : PMatrix) (X : BitVector) (o : Nat) :
    (bitCodePruned t X.contentBlocks o).eval M.pol X.blocks = bitwise.clauseOutPruned t M o X := by
  refine two_rows fun pos neg hp hq => ?_
  unfold bitClausePruned
  split
  · rw [ThreadCode.eval_bind, bitSimpleCode_eval hp hq]; rfl
  · rw [ThreadCode.eval_bind, ThreadCode.eval_tileLoops (bitStepCode_eval hp hq)]; rfl

/-! ### Teams -/

/-- The iterations a thread has not finished. -/
def Thread.owns (t : Thread C S) : List Nat := (match t.cur with | some (o, _) => [o] | none => []) ++ t.todo

/-- The actions a thread has yet to take. -/
def Thread.work (rows : List (List C)) (x : List S) (body : Nat → ThreadCode C S Bool) (t : Thread C S) : Nat :=
  (match t.cur with | some (_, k) => k.cost rows x + 1 | none => 0) +
  (t.todo.map fun o => (body o).cost rows x + 2).sum

variable {rows : List (List C)} {x : List S} {body : Nat → ThreadCode C S Bool} {val : Nat → Bool} {out0 : List Bool} {a b : Nat}

/-- What holds of a team throughout: `done` are the finished iterations. -/
structure TeamInv (rows : List (List C)) (x : List S) (body : Nat → ThreadCode C S Bool) (val : Nat → Bool) (out0 : List Bool)
    (a b : Nat) (R : Region C S) (done : List Nat) : Prop where
  owned : (done ++ R.threads.flatMap Thread.owns).Perm (range a b)
  cur : ∀ t ∈ R.threads, ∀ o k, t.cur = some (o, k) → k.eval rows x = .ok (val o)
  len : R.out.length = out0.length
  out : ∀ o, R.out[o]? = if o ∈ done then some (val o) else out0[o]?

theorem split_at {α : Type} {l : List α} {i : Nat} {t : α} (h : l[i]? = some t) :
    ∃ l1 l2, l = l1 ++ t :: l2 ∧ l1.length = i ∧ ∀ t', l.set i t' = l1 ++ t' :: l2 := by
  induction l generalizing i with
  | nil => simp at h
  | cons y l ih =>
    cases i with
    | zero =>
      simp at h
      subst h
      exact ⟨[], l, rfl, rfl, fun _ => rfl⟩
    | succ i =>
      simp at h
      obtain ⟨l1, l2, e, hl, hs⟩ := ih h
      exact ⟨y :: l1, l2, by rw [e]; rfl, by simp [hl], fun t' => by simp [hs]⟩

/-- One action of a thread. -/
theorem thread_step {t : Thread C S} {out : List Bool}
    (H : ∀ o ∈ range a b, (body o).eval rows x = .ok (val o)) (hout : ∀ o ∈ range a b, o < out.length)
    (ho : ∀ o ∈ t.owns, o ∈ range a b) (hc : ∀ o k, t.cur = some (o, k) → k.eval rows x = .ok (val o)) :
    (t.cur = none ∧ t.todo = [] ∧ t.step rows x body out = none) ∨
    ∃ t' out', t.step rows x body out = some (.ok (t', out')) ∧
      t.work rows x body = t'.work rows x body + 1 ∧
      (∀ o k, t'.cur = some (o, k) → k.eval rows x = .ok (val o)) ∧
      ((out' = out ∧ t'.owns = t.owns) ∨ ∃ o, out' = out.set o (val o) ∧ t.owns = o :: t'.owns ∧ o < out.length) := by
  obtain ⟨todo, cur⟩ := t
  cases cur with
  | none =>
    cases todo with
    | nil => exact .inl ⟨rfl, rfl, rfl⟩
    | cons o os =>
      refine .inr ⟨⟨os, some (o, body o)⟩, out, rfl, ?_, ?_, .inl ⟨rfl, rfl⟩⟩
      · simp only [Thread.work, List.map_cons, List.sum_cons]
        omega
      · intro o' k e
        injection e with e
        injection e with e1 e2
        subst e1
        subst e2
        exact H _ (ho _ (by simp [Thread.owns]))
  | some p =>
    obtain ⟨o, k⟩ := p
    have he := hc o k rfl
    have hlt := hout o (ho o (by simp [Thread.owns]))
    right
    cases k with
    | ret v =>
      simp only [ThreadCode.eval, Res.ok.injEq] at he
      subst he
      refine ⟨⟨todo, none⟩, out.set o (val o), ?_, ?_, ?_, .inr ⟨o, rfl, rfl, hlt⟩⟩
      · simp [Thread.step, wr, hlt, Res.bind]
      · simp only [Thread.work, ThreadCode.cost]
        omega
      · intro o' k e
        cases e
    | row r k =>
      simp only [ThreadCode.eval, bind_eq_ok] at he
      obtain ⟨l, h1, h2⟩ := he
      refine ⟨⟨todo, some (o, k)⟩, out, ?_, ?_, ?_, .inl ⟨rfl, rfl⟩⟩
      · simp [Thread.step, h1, Res.bind]
      · simp only [Thread.work, ThreadCode.cost]
        omega
      · intro o' k' e
        injection e with e
        injection e with e1 e2
        subst e1
        subst e2
        exact h2
    | cell r c k =>
      simp only [ThreadCode.eval, bind_eq_ok] at he
      obtain ⟨l, h1, v, h2, h3⟩ := he
      refine ⟨⟨todo, some (o, k v)⟩, out, ?_, ?_, ?_, .inl ⟨rfl, rfl⟩⟩
      · simp [Thread.step, h1, h2, Res.bind]
      · simp only [Thread.work, ThreadCode.cost, h1, h2, ok_bind]
        omega
      · intro o' k' e
        injection e with e
        injection e with e1 e2
        subst e1
        subst e2
        exact h3
    | sample f k =>
      simp only [ThreadCode.eval, bind_eq_ok] at he
      obtain ⟨v, h2, h3⟩ := he
      refine ⟨⟨todo, some (o, k v)⟩, out, ?_, ?_, ?_, .inl ⟨rfl, rfl⟩⟩
      · simp [Thread.step, h2, Res.bind]
      · simp only [Thread.work, ThreadCode.cost, h2]
        omega
      · intro o' k' e
        injection e with e
        injection e with e1 e2
        subst e1
        subst e2
        exact h3

/-- The actions a team has yet to take. -/
def Region.work (rows : List (List C)) (x : List S) (body : Nat → ThreadCode C S Bool) (R : Region C S) : Nat :=
  (R.threads.map (Thread.work rows x body)).sum

section inv
variable (H : ∀ o ∈ range a b, (body o).eval rows x = .ok (val o)) (hout : ∀ o ∈ range a b, o < out0.length)
include H hout

theorem TeamInv.threadOk {R : Region C S} {done : List Nat} (h : TeamInv rows x body val out0 a b R done) {t : Thread C S}
    (ht : t ∈ R.threads) :
    (t.cur = none ∧ t.todo = [] ∧ t.step rows x body R.out = none) ∨
    ∃ t' out', t.step rows x body R.out = some (.ok (t', out')) ∧
      t.work rows x body = t'.work rows x body + 1 ∧
      (∀ o k, t'.cur = some (o, k) → k.eval rows x = .ok (val o)) ∧
      ((out' = R.out ∧ t'.owns = t.owns) ∨ ∃ o, out' = R.out.set o (val o) ∧ t.owns = o :: t'.owns ∧ o < R.out.length) := by
  refine thread_step H (fun o ho => by rw [h.len]; exact hout o ho) (fun o ho => ?_) (h.cur t ht)
  exact h.owned.mem_iff.1 (List.mem_append_right _ (List.mem_flatMap.2 ⟨t, ht, ho⟩))

theorem TeamInv.step {R R' : Region C S} {done : List Nat} (h : TeamInv rows x body val out0 a b R done)
    (hs : Region.Step rows x body R R') :
    R.work rows x body = R'.work rows x body + 1 ∧ ∃ done', TeamInv rows x body val out0 a b R' done' := by
  obtain ⟨i, t, t', out', hi, he, rfl⟩ := hs
  obtain ⟨l1, l2, hl, -, hset⟩ := split_at hi
  have htm : t ∈ R.threads := by rw [hl]; simp
  rcases h.threadOk H hout htm with ⟨-, -, hn⟩ | ⟨t2, out2, e2, hw, hcur, hcase⟩
  · rw [hn] at he; cases he
  · rw [he] at e2
    injection e2 with e2
    injection e2 with e2
    injection e2 with e2a e2b
    subst e2a
    subst e2b
    have hmem : ∀ u ∈ l1 ++ t' :: l2, u = t' ∨ u ∈ R.threads := by
      intro u hu
      rw [hl]
      simp only [List.mem_append, List.mem_cons] at hu ⊢
      rcases hu with hu | hu | hu
      · exact .inr (.inl hu)
      · exact .inl hu
      · exact .inr (.inr (.inr hu))
    have hcurs : ∀ u ∈ l1 ++ t' :: l2, ∀ o k, u.cur = some (o, k) → k.eval rows x = .ok (val o) := by
      intro u hu
      rcases hmem u hu with rfl | hu
      · exact hcur
      · exact h.cur u hu
    have howned := h.owned
    rw [hl, List.flatMap_append, List.flatMap_cons] at howned
    refine ⟨?_, ?_⟩
    · unfold Region.work
      rw [hset t', hl]
      simp only [List.map_append, List.map_cons, List.sum_append, List.sum_cons]
      omega
    · rcases hcase with ⟨ho, hown⟩ | ⟨o, ho, hown, hlt⟩
      · refine ⟨done, ⟨?_, ?_, ?_, ?_⟩⟩
        · dsimp only
          rw [hset t', List.flatMap_append, List.flatMap_cons, hown]
          exact howned
        · dsimp only
          rw [hset t']
          exact hcurs
        · rw [ho]; exact h.len
        · rw [ho]; exact h.out
      · refine ⟨o :: done, ⟨?_, ?_, ?_, ?_⟩⟩
        · dsimp only
          rw [hset t', List.flatMap_append, List.flatMap_cons]
          rw [hown] at howned
          refine List.Perm.trans ?_ howned
          rw [List.cons_append]
          refine List.Perm.trans ?_ (List.Perm.append_left done (List.perm_middle.symm))
          exact List.perm_middle.symm
        · dsimp only
          rw [hset t']
          exact hcurs
        · rw [ho]; simp [h.len]
        · intro o'
          rw [ho, List.getElem?_set]
          by_cases hoo : o = o'
          · subst hoo; simp [hlt]
          · rw [if_neg hoo, h.out o']
            have : o' ≠ o := fun e => hoo e.symm
            simp [this]

theorem TeamInv.execution {R R' : Region C S} {n : Nat} (he : Execution rows x body n R R')
    (h : TeamInv rows x body val out0 a b R []) :
    R.work rows x body = R'.work rows x body + n ∧ ∃ done, TeamInv rows x body val out0 a b R' done := by
  induction he with
  | refl => exact ⟨rfl, [], h⟩
  | step _ hs ih =>
    obtain ⟨h1, done, h2⟩ := ih h
    obtain ⟨h3, h4⟩ := h2.step H hout hs
    exact ⟨by omega, h4⟩

end inv

theorem TeamInv.start {R : Region C S} (h : TeamOf a b out0 R) : TeamInv rows x body val out0 a b R [] := by
  obtain ⟨h1, h2, h3⟩ := h
  refine ⟨?_, ?_, by rw [h1], by simp [h1]⟩
  · have : R.threads.flatMap Thread.owns = R.threads.flatMap (·.todo) := by
      clear h1 h3
      generalize R.threads = l at h2 ⊢
      induction l with
      | nil => rfl
      | cons t l ih =>
        rw [List.flatMap_cons, List.flatMap_cons, ih fun u hu => h2 u (List.mem_cons_of_mem _ hu)]
        simp [Thread.owns, h2 t (by simp)]
    simpa [this] using h3
  · intro t ht o k e
    rw [h2 t ht] at e
    cases e

theorem TeamInv.noRace {R : Region C S} {done : List Nat} (h : TeamInv rows x body val out0 a b R done) : ¬ DataRace R := by
  rintro ⟨i, j, ti, tj, l, wi, wj, hij, hi, hj, ai, aj, hw⟩
  have hnd : (R.threads.flatMap Thread.owns).Nodup :=
    (List.nodup_append.1 (h.owned.nodup_iff.2 (range_nodup a b))).2.1
  -- a write is to the own element of `clause_output`
  have hwr : ∀ {t : Thread C S} {l}, access t = some (l, true) → ∃ o, l = .out o ∧ o ∈ t.owns := by
    intro t l e
    unfold access at e
    split at e <;> simp at e
    next o v hc => exact ⟨o, e.symm, by simp [Thread.owns, hc]⟩
  have hany : ∀ {t : Thread C S} {o w}, access t = some (.out o, w) → o ∈ t.owns := by
    intro t o w e
    unfold access at e
    split at e <;> simp at e
    next o' v hc => rw [← e.1]; simp [Thread.owns, hc]
  have key : ∀ {i j : Nat} {ti tj : Thread C S} {o : Nat}, i < j → R.threads[i]? = some ti → R.threads[j]? = some tj →
      o ∈ ti.owns → o ∈ tj.owns → False := by
    intro i j ti tj o hlt hi hj h1 h2
    obtain ⟨l1, l2, hl, hlen, -⟩ := split_at hi
    rw [hl] at hj hnd
    rw [List.getElem?_append_right (by omega)] at hj
    have : j - l1.length = (j - l1.length - 1) + 1 := by omega
    rw [this, List.getElem?_cons_succ] at hj
    have hm := List.mem_of_getElem? hj
    rw [List.flatMap_append, List.flatMap_cons] at hnd
    have hnd2 := (List.nodup_append.1 hnd).2.1
    exact (List.nodup_append.1 hnd2).2.2 o h1 o (List.mem_flatMap.2 ⟨tj, hm, h2⟩) rfl
  obtain ⟨o, ho1, ho2⟩ : ∃ o, o ∈ ti.owns ∧ o ∈ tj.owns := by
    rcases hw with rfl | rfl
    · obtain ⟨o, rfl, h1⟩ := hwr ai
      exact ⟨o, h1, hany aj⟩
    · obtain ⟨o, rfl, h1⟩ := hwr aj
      exact ⟨o, hany ai, h1⟩
  rcases Nat.lt_or_gt_of_ne hij with hlt | hlt
  · exact key hlt hi hj ho1 ho2
  · exact key hlt hj hi ho2 ho1

theorem TeamInv.joined {R : Region C S} {done : List Nat} (h : TeamInv rows x body val out0 a b R done) (hj : Joined R) :
    ∀ o, R.out[o]? = if o ∈ range a b then some (val o) else out0[o]? := by
  have : R.threads.flatMap Thread.owns = [] := by
    rw [List.flatMap_eq_nil_iff]
    intro t ht
    obtain ⟨h1, h2⟩ := hj t ht
    simp [Thread.owns, h1, h2]
  have hp := h.owned
  rw [this, List.append_nil] at hp
  intro o
  rw [h.out o]
  simp only [hp.mem_iff]

end Tsetlini
