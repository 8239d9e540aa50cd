import Verif.Spec.BitOutputs
import Verif.Lemmas.Threads
import Verif.Lemmas.Bits
/- Interleaved execution of parallel loops that store into a bit vector. -/
namespace Tsetlini
open Res Spec

theorem assignBlock_bits {v : List Block} {pos : Nat} (h : pos / 64 < v.length) (val : Bool) (j : Nat) :
    bitAt (v.set (pos / 64) (assignBlock (v.getD (pos / 64) 0#64) pos val)) j = if j = pos then val else bitAt v j := by
  obtain ⟨v', e, -, hb⟩ := bitAssign_ret (v := v) val h
  have : bitAssign v pos val = .ok (v.set (pos / 64) (assignBlock (v.getD (pos / 64) 0#64) pos val)) := by
    cases val <;> simp [bitAssign, bitSet, bitClear, assignBlock, rd_ok h, wr_ok h, h]
  rw [this] at e
  injection e with e
  subst e
  exact hb j

/-- Iterations a thread has not finished. -/
def BitThread.owns {C S : Type} (t : BitThread C S) : List Nat := (match t.cur with | some (o, _) => [o] | none => []) ++ t.todo

variable {C S : Type} {rows : List (List C)} {x : List S} {body : Nat → ThreadCode C S Bool} {val : Nat → Bool} {a b : Nat}

/-- The actions a thread has yet to take. -/
def BitThread.work (rows : List (List C)) (x : List S) (body : Nat → ThreadCode C S Bool) (t : BitThread C S) : Nat :=
  (match t.cur with | some (_, .run k) => k.cost rows x + 2 | some (_, .store _) => 1 | none => 0) +
  (t.todo.map fun o => (body o).cost rows x + 3).sum

/-- The computation a thread is in yields the right value. -/
def BitThread.Sound (rows : List (List C)) (x : List S) (val : Nat → Bool) (t : BitThread C S) : Prop :=
  ∀ o k, t.cur = some (o, .run k) → k.eval rows x = .ok (val o)

/-- The block a thread is about to write is the present one but for its bit. -/
def BitThread.Fresh (val : Nat → Bool) (out : List Block) (t : BitThread C S) : Prop :=
  ∀ o blk, t.cur = some (o, .store blk) → blk = assignBlock (out.getD (o / 64) 0#64) o (val o)

theorem bitThread_step {t : BitThread C S} {out : List Block}
    (H : ∀ o ∈ range a b, (body o).eval rows x = .ok (val o)) (hout : ∀ o ∈ range a b, o / 64 < out.length)
    (ho : ∀ o ∈ t.owns, o ∈ range a b) (hs : t.Sound rows x val) :
    (t.cur = none ∧ t.todo = [] ∧ t.step rows x body out = none) ∨
    ∃ t' out', t.step rows x body out = some (.ok (t', out')) ∧
      t.work rows x body = t'.work rows x body + 1 ∧ t'.Sound rows x val ∧
      ((out' = out ∧ t'.owns = t.owns ∧ t'.Fresh val out ∧ (∀ o blk, t.cur ≠ some (o, .store blk)) ∧
        ∀ o blk, t'.cur = some (o, .store blk) → t.cur = some (o, .run (.ret (val o)))) ∨
       ∃ o blk, t.cur = some (o, .store blk) ∧ out' = out.set (o / 64) blk ∧ t'.cur = none ∧ t'.todo = t.todo ∧ o / 64 < out.length) := by
  obtain ⟨todo, cur⟩ := t
  cases cur with
  | none =>
    cases todo with
    | nil => exact .inl ⟨rfl, rfl, rfl⟩
    | cons o os =>
      refine .inr ⟨⟨os, some (o, .run (body o))⟩, out, rfl, ?_, ?_, .inl ⟨rfl, rfl, by intro o b e; simp at e, by simp, by simp⟩⟩
      · simp only [BitThread.work, List.map_cons, List.sum_cons]
        omega
      · intro o' k e
        simp only [Option.some.injEq, Prod.mk.injEq, BitPhase.run.injEq] at e
        obtain ⟨rfl, rfl⟩ := e
        exact H _ (ho _ (by simp [BitThread.owns]))
  | some p =>
    obtain ⟨o, ph⟩ := p
    have hlt := hout o (ho o (by simp [BitThread.owns]))
    right
    cases ph with
    | store blk =>
      refine ⟨⟨todo, none⟩, out.set (o / 64) blk, ?_, ?_, ?_, .inr ⟨o, blk, rfl, rfl, rfl, rfl, hlt⟩⟩
      · simp [BitThread.step, wr, hlt, Res.bind]
      · simp only [BitThread.work]
        omega
      · intro o' k e
        cases e
    | run k =>
      have he := hs o k rfl
      cases k with
      | ret v =>
        simp only [ThreadCode.eval, Res.ok.injEq] at he
        subst he
        refine ⟨⟨todo, some (o, .store (assignBlock out[o / 64] o (val o)))⟩, out, ?_, ?_, ?_, .inl ⟨rfl, rfl, ?_, by simp, ?_⟩⟩
        · simp [BitThread.step, rd_ok hlt, Res.bind]
        · simp only [BitThread.work, ThreadCode.cost]
          omega
        · intro o' k e
          simp at e
        · intro o' b e
          simp only [Option.some.injEq, Prod.mk.injEq, BitPhase.store.injEq] at e
          obtain ⟨rfl, rfl⟩ := e
          simp [hlt]
        · intro o' b e
          simp only [Option.some.injEq, Prod.mk.injEq, BitPhase.store.injEq] at e
          obtain ⟨rfl, rfl⟩ := e
          rfl
      | row r k =>
        simp only [ThreadCode.eval, bind_eq_ok] at he
        obtain ⟨l, h1, h2⟩ := he
        refine ⟨⟨todo, some (o, .run k)⟩, out, ?_, ?_, ?_, .inl ⟨rfl, rfl, by intro o b e; simp at e, by simp, by simp⟩⟩
        · simp [BitThread.step, h1, Res.bind]
        · simp only [BitThread.work, ThreadCode.cost]
          omega
        · intro o' k' e
          simp only [Option.some.injEq, Prod.mk.injEq, BitPhase.run.injEq] at e
          obtain ⟨rfl, rfl⟩ := e
          exact h2
      | cell r c k =>
        simp only [ThreadCode.eval, bind_eq_ok] at he
        obtain ⟨l, h1, v, h2, h3⟩ := he
        refine ⟨⟨todo, some (o, .run (k v))⟩, out, ?_, ?_, ?_, .inl ⟨rfl, rfl, by intro o b e; simp at e, by simp, by simp⟩⟩
        · simp [BitThread.step, h1, h2, Res.bind]
        · simp only [BitThread.work, ThreadCode.cost, h1, h2, ok_bind]
          omega
        · intro o' k' e
          simp only [Option.some.injEq, Prod.mk.injEq, BitPhase.run.injEq] at e
          obtain ⟨rfl, rfl⟩ := e
          exact h3
      | sample f k =>
        simp only [ThreadCode.eval, bind_eq_ok] at he
        obtain ⟨v, h2, h3⟩ := he
        refine ⟨⟨todo, some (o, .run (k v))⟩, out, ?_, ?_, ?_, .inl ⟨rfl, rfl, by intro o b e; simp at e, by simp, by simp⟩⟩
        · simp [BitThread.step, h2, Res.bind]
        · simp only [BitThread.work, ThreadCode.cost, h2]
          omega
        · intro o' k' e
          simp only [Option.some.injEq, Prod.mk.injEq, BitPhase.run.injEq] at e
          obtain ⟨rfl, rfl⟩ := e
          exact h3

/-! ### Teams whose threads do not share blocks -/

/-- The actions a team has yet to take. -/
def BitRegion.work (rows : List (List C)) (x : List S) (body : Nat → ThreadCode C S Bool) (R : BitRegion C S) : Nat :=
  (R.threads.map (BitThread.work rows x body)).sum

/-- What holds of such a team throughout: `done` are the finished iterations. -/
structure BitInv (rows : List (List C)) (x : List S) (val : Nat → Bool) (out0 : List Block)
    (a b : Nat) (R : BitRegion C S) (done : List Nat) : Prop where
  owned : (done ++ R.threads.flatMap BitThread.owns).Perm (range a b)
  sound : ∀ t ∈ R.threads, t.Sound rows x val
  fresh : ∀ t ∈ R.threads, t.Fresh val R.out
  apart : ∀ (i j : Nat) (ti tj : BitThread C S), i ≠ j → R.threads[i]? = some ti → R.threads[j]? = some tj →
    ∀ o ∈ ti.owns, ∀ p ∈ tj.owns, o / 64 ≠ p / 64
  len : R.out.length = out0.length
  out : ∀ o, bitAt R.out o = if o ∈ done then val o else bitAt out0 o

variable {out0 : List Block}

section inv
variable (H : ∀ o ∈ range a b, (body o).eval rows x = .ok (val o)) (hout : ∀ o ∈ range a b, o / 64 < out0.length)
include H hout

theorem BitInv.threadOk {R : BitRegion C S} {done : List Nat} (h : BitInv rows x val out0 a b R done) {t : BitThread C S}
    (ht : t ∈ R.threads) :
    (t.cur = none ∧ t.todo = [] ∧ t.step rows x body R.out = none) ∨
    ∃ t' out', t.step rows x body R.out = some (.ok (t', out')) ∧
      t.work rows x body = t'.work rows x body + 1 ∧ t'.Sound rows x val ∧
      ((out' = R.out ∧ t'.owns = t.owns ∧ t'.Fresh val R.out ∧ (∀ o blk, t.cur ≠ some (o, .store blk)) ∧
        ∀ o blk, t'.cur = some (o, .store blk) → t.cur = some (o, .run (.ret (val o)))) ∨
       ∃ o blk, t.cur = some (o, .store blk) ∧ out' = R.out.set (o / 64) blk ∧ t'.cur = none ∧ t'.todo = t.todo ∧ o / 64 < R.out.length) := by
  refine bitThread_step H (fun o ho => by rw [h.len]; exact hout o ho) (fun o ho => ?_) (h.sound t ht)
  exact h.owned.mem_iff.1 (List.mem_append_right _ (List.mem_flatMap.2 ⟨t, ht, ho⟩))

theorem BitInv.step {R R' : BitRegion C S} {done : List Nat} (h : BitInv rows x val out0 a b R done)
    (hs : BitRegion.Step rows x body R R') :
    R.work rows x body = R'.work rows x body + 1 ∧ ∃ done', BitInv rows x val out0 a b R' done' := by
  obtain ⟨i, t, t', out', hi, he, rfl⟩ := hs
  obtain ⟨l1, l2, hl, -, hset⟩ := split_at hi
  have hilt : i < R.threads.length := (List.getElem?_eq_some_iff.1 hi).1
  have htm : t ∈ R.threads := List.mem_of_getElem? hi
  rcases h.threadOk H hout htm with ⟨-, -, hn⟩ | ⟨t2, out2, e2, hw, hsound, hcase⟩
  · rw [hn] at he; cases he
  · rw [he] at e2
    injection e2 with e2
    injection e2 with e2
    injection e2 with e2a e2b
    subst e2a
    subst e2b
    -- the threads afterwards
    have hget : ∀ j u, (R.threads.set i t')[j]? = some u → (j = i ∧ u = t') ∨ (j ≠ i ∧ R.threads[j]? = some u) := by
      intro j u hj
      rw [List.getElem?_set] at hj
      by_cases hji : i = j
      · subst hji
        simp [hilt] at hj
        exact .inl ⟨rfl, hj.symm⟩
      · rw [if_neg hji] at hj
        exact .inr ⟨fun e => hji e.symm, hj⟩
    have hsounds : ∀ u ∈ R.threads.set i t', u.Sound rows x val := by
      intro u hu
      obtain ⟨j, hj⟩ := List.mem_iff_getElem?.1 hu
      rcases hget j u hj with ⟨-, rfl⟩ | ⟨-, hj⟩
      · exact hsound
      · exact h.sound u (List.mem_of_getElem? hj)
    have hsub : ∀ o ∈ t'.owns, o ∈ t.owns := by
      rcases hcase with ⟨-, hown, -⟩ | ⟨o, blk, hc, -, hn, htd, -⟩
      · rw [hown]; exact fun _ h => h
      · intro p hp
        simp only [BitThread.owns, hn, htd, List.nil_append] at hp
        simp [BitThread.owns, hp]
    have hapart : ∀ (j k : Nat) (tj tk : BitThread C S), j ≠ k → (R.threads.set i t')[j]? = some tj →
        (R.threads.set i t')[k]? = some tk → ∀ o ∈ tj.owns, ∀ p ∈ tk.owns, o / 64 ≠ p / 64 := by
      intro j k tj tk hjk hj hk o ho p hp
      rcases hget j tj hj with ⟨rfl, rfl⟩ | ⟨hji, hj'⟩
      · rcases hget k tk hk with ⟨rfl, -⟩ | ⟨-, hk⟩
        · exact absurd rfl hjk
        · exact h.apart j k t tk hjk hi hk o (hsub o ho) p hp
      · rcases hget k tk hk with ⟨rfl, rfl⟩ | ⟨-, hk⟩
        · exact h.apart j k tj t hjk hj' hi o ho p (hsub p hp)
        · exact h.apart j k tj tk hjk hj' hk o ho p hp
    have howned := h.owned
    rw [hl, List.flatMap_append, List.flatMap_cons] at howned
    refine ⟨?_, ?_⟩
    · unfold BitRegion.work
      rw [hset t', hl]
      simp only [List.map_append, List.map_cons, List.sum_append, List.sum_cons]
      omega
    · rcases hcase with ⟨ho, hown, hfresh, -⟩ | ⟨o, blk, hc, ho, hn, htd, hlt⟩
      · refine ⟨done, ⟨?_, hsounds, ?_, hapart, ?_, ?_⟩⟩
        · dsimp only
          rw [hset t', List.flatMap_append, List.flatMap_cons, hown]
          exact howned
        · intro u hu
          obtain ⟨j, hj⟩ := List.mem_iff_getElem?.1 hu
          rw [ho]
          rcases hget j u hj with ⟨-, rfl⟩ | ⟨-, hj⟩
          · exact hfresh
          · exact h.fresh u (List.mem_of_getElem? hj)
        · rw [ho]; exact h.len
        · rw [ho]; exact h.out
      · have hblk := h.fresh t htm o blk hc
        have hown : t.owns = o :: t'.owns := by simp [BitThread.owns, hc, hn, htd]
        refine ⟨o :: done, ⟨?_, hsounds, ?_, hapart, ?_, ?_⟩⟩
        · dsimp only
          rw [hset t', List.flatMap_append, List.flatMap_cons]
          rw [hown] at howned
          refine List.Perm.trans ?_ howned
          rw [List.cons_append]
          refine List.Perm.trans ?_ (List.Perm.append_left done (List.perm_middle.symm))
          exact List.perm_middle.symm
        · intro u hu
          obtain ⟨j, hj⟩ := List.mem_iff_getElem?.1 hu
          rcases hget j u hj with ⟨-, rfl⟩ | ⟨hji, hj⟩
          · intro o' b' e
            rw [hn] at e; cases e
          · intro p b' e
            have hp : p ∈ u.owns := by simp [BitThread.owns, e]
            have hne := h.apart i j t u (fun e => hji e.symm) hi hj o (by rw [hown]; simp) p hp
            rw [h.fresh u (List.mem_of_getElem? hj) p b' e, ho]
            simp only [List.getD_eq_getElem?_getD, List.getElem?_set, if_neg hne]
        · rw [ho]; simp [h.len]
        · intro o'
          rw [ho, hblk, assignBlock_bits hlt, h.out o']
          by_cases hoo : o' = o
          · subst hoo; simp
          · simp [hoo]

theorem BitInv.execution {R R' : BitRegion C S} {n : Nat} (he : BitExecution rows x body n R R')
    (h : BitInv rows x val out0 a b R []) :
    R.work rows x body = R'.work rows x body + n ∧ ∃ done, BitInv rows x val out0 a b R' done := by
  induction he with
  | refl => exact ⟨rfl, [], h⟩
  | step _ hs ih =>
    obtain ⟨h1, done, h2⟩ := ih h
    obtain ⟨h3, h4⟩ := h2.step H hout hs
    exact ⟨by omega, h4⟩

end inv

theorem owns_of_none {t : BitThread C S} (h : t.cur = none) : t.owns = t.todo := by simp [BitThread.owns, h]

theorem flatMap_owns {l : List (BitThread C S)} (h : ∀ t ∈ l, t.cur = none) : l.flatMap BitThread.owns = l.flatMap (·.todo) := by
  induction l with
  | nil => rfl
  | cons t l ih =>
    rw [List.flatMap_cons, List.flatMap_cons, ih fun u hu => h u (List.mem_cons_of_mem _ hu)]
    rw [owns_of_none (h t (by simp))]

theorem BitInv.start {R : BitRegion C S} (h : BitTeamOf a b out0 R) (hA : Apart R) : BitInv rows x val out0 a b R [] := by
  obtain ⟨h1, h2, h3⟩ := h
  refine ⟨?_, ?_, ?_, ?_, by rw [h1], by simp [h1]⟩
  · simpa [flatMap_owns h2] using h3
  · intro t ht o k e
    rw [h2 t ht] at e
    cases e
  · intro t ht o k e
    rw [h2 t ht] at e
    cases e
  · intro i j ti tj hij hi hj o ho p hp
    rw [owns_of_none (h2 _ (List.mem_of_getElem? hi))] at ho
    rw [owns_of_none (h2 _ (List.mem_of_getElem? hj))] at hp
    exact hA i j ti tj hij hi hj o ho p hp

theorem bitAccess_block {t : BitThread C S} {q : Nat} {w : Bool} (h : bitAccess t = some (.block q, w)) :
    ∃ o ∈ t.owns, o / 64 = q := by
  unfold bitAccess at h
  split at h <;> simp at h
  · next o v hc => exact ⟨o, by simp [BitThread.owns, hc], h.1⟩
  · next o v hc => exact ⟨o, by simp [BitThread.owns, hc], h.1⟩

theorem bitAccess_write {t : BitThread C S} {l : BitLoc} (h : bitAccess t = some (l, true)) : ∃ q, l = .block q := by
  unfold bitAccess at h
  split at h <;> simp at h
  exact ⟨_, h.symm⟩

theorem BitInv.noRace {R : BitRegion C S} {done : List Nat} (h : BitInv rows x val out0 a b R done) : ¬ BitRace R := by
  rintro ⟨i, j, ti, tj, l, wi, wj, hij, hi, hj, ai, aj, hw⟩
  obtain ⟨q, rfl⟩ : ∃ q, l = .block q := by
    rcases hw with rfl | rfl
    · exact bitAccess_write ai
    · exact bitAccess_write aj
  obtain ⟨o, h1, h2⟩ := bitAccess_block ai
  obtain ⟨p, h3, h4⟩ := bitAccess_block aj
  exact h.apart i j ti tj hij hi hj o h1 p h3 (by omega)

theorem BitInv.joined {R : BitRegion C S} {done : List Nat} (h : BitInv rows x val out0 a b R done) (hj : BitJoined R) :
    ∀ o, bitAt R.out o = if a ≤ o ∧ o < b then val o else bitAt out0 o := by
  have : R.threads.flatMap BitThread.owns = [] := by
    rw [List.flatMap_eq_nil_iff]
    intro t ht
    obtain ⟨h1, h2⟩ := hj t ht
    simp [BitThread.owns, h1, h2]
  have hp := h.owned
  rw [this, List.append_nil] at hp
  intro o
  rw [h.out o]
  simp only [hp.mem_iff, mem_range]

theorem bit_work_zero {R : BitRegion C S} : BitJoined R ↔ R.work rows x body = 0 := by
  unfold BitRegion.work BitJoined
  rw [List.sum_eq_zero_iff_forall_eq_nat]
  simp only [List.mem_map, forall_exists_index, and_imp, forall_apply_eq_imp_iff₂]
  refine forall_congr' fun t => imp_congr_right fun _ => ?_
  obtain ⟨todo, cur⟩ := t
  cases cur with
  | some p => obtain ⟨o, ph⟩ := p; cases ph <;> simp [BitThread.work]
  | none => cases todo with
    | nil => simp [BitThread.work]
    | cons o os => simp [BitThread.work]

/-! ### One thread running alone -/

/-- Actions of one thread, the others pausing. -/
inductive Solo (rows : List (List C)) (x : List S) (body : Nat → ThreadCode C S Bool) :
    BitThread C S → List Block → BitThread C S → List Block → Prop
  | refl (t out) : Solo rows x body t out t out
  | step {t out t' out' t'' out''} : t.step rows x body out = some (.ok (t', out')) →
      Solo rows x body t' out' t'' out'' → Solo rows x body t out t'' out''

theorem Spec.BitExecution.trans {R R' R'' : BitRegion C S} {n m : Nat} (h : BitExecution rows x body n R R')
    (h' : BitExecution rows x body m R' R'') : BitExecution rows x body (n + m) R R'' := by
  induction h' with
  | refl => exact h
  | step _ hs ih => exact .step (ih h) hs

theorem Solo.lift {t t' : BitThread C S} {out out' : List Block} (h : Solo rows x body t out t' out') :
    ∀ {l : List (BitThread C S)} {i : Nat}, l[i]? = some t →
      ∃ n, BitExecution rows x body n ⟨l, out⟩ ⟨l.set i t', out'⟩ := by
  induction h with
  | refl t out =>
    intro l i hi
    obtain ⟨h1, h2⟩ := List.getElem?_eq_some_iff.1 hi
    subst h2
    exact ⟨0, by rw [List.set_getElem_self]; exact .refl _⟩
  | @step t out t' out' t'' out'' hs _ ih =>
    intro l i hi
    have hlt : i < l.length := (List.getElem?_eq_some_iff.1 hi).1
    obtain ⟨n, hn⟩ := ih (l := l.set i t') (i := i) (by simp [hlt])
    rw [List.set_set] at hn
    refine ⟨(0 + 1) + n, BitExecution.trans ?_ hn⟩
    exact .step (.refl _) ⟨i, t, t', out', hi, hs, rfl⟩

section solo
variable (H : ∀ o ∈ range a b, (body o).eval rows x = .ok (val o))
include H

/-- A thread can come to the point where it is about to store the output of any of its iterations. -/
theorem solo_reach {o : Nat} (t : BitThread C S) (out : List Block) (hout : ∀ o ∈ range a b, o / 64 < out.length)
    (ho : ∀ o ∈ t.owns, o ∈ range a b) (hs : t.Sound rows x val) (hf : t.Fresh val out) (hm : o ∈ t.owns)
    (hc : ∀ blk, t.cur ≠ some (o, .store blk)) :
    ∃ t' out', Solo rows x body t out t' out' ∧ t'.cur = some (o, .run (.ret (val o))) ∧ out'.length = out.length ∧
      (∃ l, t.owns = l ++ t'.owns ∧ o ∉ l) ∧ ∀ j, j ∉ t.owns ∨ j = o → bitAt out' j = bitAt out j := by
  generalize hw : t.work rows x body = w
  induction w using Nat.strongRecOn generalizing t out with
  | _ w ih =>
    rcases bitThread_step H hout ho hs with ⟨h1, h2, -⟩ | ⟨t', out', e, hwk, hs', hcase⟩
    · simp [BitThread.owns, h1, h2] at hm
    · by_cases hat : t.cur = some (o, .run (.ret (val o)))
      · exact ⟨t, out, .refl _ _, hat, rfl, ⟨[], rfl, by simp⟩, fun _ _ => rfl⟩
      · rcases hcase with ⟨rfl, hown, hfr, hns, hst⟩ | ⟨p, blk, hcp, rfl, hn, htd, hlt⟩
        · obtain ⟨t'', out'', g1, g2, g3, ⟨l, g4, g4'⟩, g5⟩ := ih _ (by omega) t' out' hout (by rw [hown]; exact ho) hs' hfr
            (by rw [hown]; exact hm) (fun blk e => hat (hst o blk e)) rfl
          exact ⟨t'', out'', .step e g1, g2, g3, ⟨l, by rw [← hown]; exact g4, g4'⟩, fun j hj => g5 j (by rw [hown]; exact hj)⟩
        · have hpo : p ≠ o := by
            rintro rfl
            exact hc blk hcp
          have hown : t.owns = p :: t'.owns := by simp [BitThread.owns, hcp, hn, htd]
          have hblk := hf p blk hcp
          obtain ⟨t'', out'', g1, g2, g3, ⟨l, g4, g4'⟩, g5⟩ := ih _ (by omega) t' (out.set (p / 64) blk) (by simpa using hout)
            (fun q hq => ho q (by rw [hown]; exact List.mem_cons_of_mem _ hq)) hs'
            (by intro o' b' e; rw [hn] at e; cases e)
            (by rw [hown] at hm; exact (List.mem_cons.1 hm).resolve_left (fun e => hpo e.symm)) (by simp [hn]) rfl
          refine ⟨t'', out'', .step e g1, g2, by simpa using g3, ⟨p :: l, by rw [hown, g4]; rfl, ?_⟩, fun j hj => ?_⟩
          · simp only [List.mem_cons, not_or]
            exact ⟨fun e => hpo e.symm, g4'⟩
          · rw [g5 j (by
              rcases hj with hj | hj
              · exact .inl fun hm => hj (by rw [hown]; exact List.mem_cons_of_mem _ hm)
              · exact .inr hj), hblk, assignBlock_bits hlt, if_neg]
            rintro rfl
            rcases hj with hj | hj
            · exact hj (by rw [hown]; simp)
            · exact hpo hj

/-- A thread can finish. -/
theorem solo_finish (t : BitThread C S) (out : List Block) (hout : ∀ o ∈ range a b, o / 64 < out.length)
    (ho : ∀ o ∈ t.owns, o ∈ range a b) (hs : t.Sound rows x val) (hf : t.Fresh val out) :
    ∃ out', Solo rows x body t out ⟨[], none⟩ out' ∧ out'.length = out.length ∧ ∀ j, j ∉ t.owns → bitAt out' j = bitAt out j := by
  generalize hw : t.work rows x body = w
  induction w using Nat.strongRecOn generalizing t out with
  | _ w ih =>
    rcases bitThread_step H hout ho hs with ⟨h1, h2, -⟩ | ⟨t', out', e, hwk, hs', hcase⟩
    · obtain ⟨todo, cur⟩ := t
      dsimp only at h1 h2
      subst h1
      subst h2
      exact ⟨out, .refl _ _, rfl, fun _ _ => rfl⟩
    · rcases hcase with ⟨rfl, hown, hfr, hns, hst⟩ | ⟨p, blk, hcp, rfl, hn, htd, hlt⟩
      · obtain ⟨out'', g1, g3, g5⟩ := ih _ (by omega) t' out' hout (by rw [hown]; exact ho) hs' hfr rfl
        exact ⟨out'', .step e g1, g3, fun j hj => g5 j (by rw [hown]; exact hj)⟩
      · have hown : t.owns = p :: t'.owns := by simp [BitThread.owns, hcp, hn, htd]
        have hblk := hf p blk hcp
        obtain ⟨out'', g1, g3, g5⟩ := ih _ (by omega) t' (out.set (p / 64) blk) (by simpa using hout)
          (fun q hq => ho q (by rw [hown]; exact List.mem_cons_of_mem _ hq)) hs'
          (by intro o' b' e; rw [hn] at e; cases e) rfl
        refine ⟨out'', .step e g1, by simpa using g3, fun j hj => ?_⟩
        rw [g5 j (fun hm => hj (by rw [hown]; exact List.mem_cons_of_mem _ hm)), hblk, assignBlock_bits hlt, if_neg]
        rintro rfl
        exact hj (by rw [hown]; simp)

/-- A team between iterations can finish, each thread in turn. -/
theorem team_finish (l : List (BitThread C S)) (out : List Block) (hout : ∀ o ∈ range a b, o / 64 < out.length)
    (hn : ∀ t ∈ l, t.cur = none) (ho : ∀ t ∈ l, ∀ o ∈ t.todo, o ∈ range a b) :
    ∃ n R, BitExecution rows x body n ⟨l, out⟩ R ∧ BitJoined R ∧
      ∀ j, (∀ t ∈ l, j ∉ t.todo) → bitAt R.out j = bitAt out j := by
  suffices h : ∀ (l1 l2 : List (BitThread C S)) (out : List Block), (∀ o ∈ range a b, o / 64 < out.length) →
      (∀ t ∈ l1, t.cur = none ∧ t.todo = []) → (∀ t ∈ l2, t.cur = none) → (∀ t ∈ l2, ∀ o ∈ t.todo, o ∈ range a b) →
      ∃ n R, BitExecution rows x body n ⟨l1 ++ l2, out⟩ R ∧ BitJoined R ∧
        ∀ j, (∀ t ∈ l2, j ∉ t.todo) → bitAt R.out j = bitAt out j from
    h [] l out hout (by simp) hn ho
  clear hout hn ho
  intro l1 l2
  induction l2 generalizing l1 with
  | nil =>
    intro out _ h1 _ _
    exact ⟨0, ⟨l1 ++ [], out⟩, .refl _, by intro t ht; rw [List.append_nil] at ht; exact h1 t ht, fun _ _ => rfl⟩
  | cons t l2 ih =>
    intro out hout h1 h2 h3
    have hc := h2 t (by simp)
    obtain ⟨out', g1, g2, g3⟩ := solo_finish H t out hout
      (by rw [owns_of_none hc]; exact h3 t (by simp)) (by intro o k e; rw [hc] at e; cases e) (by intro o k e; rw [hc] at e; cases e)
    obtain ⟨n, hx⟩ := g1.lift (l := l1 ++ t :: l2) (i := l1.length) (by simp)
    have hset : (l1 ++ t :: l2).set l1.length ⟨[], none⟩ = (l1 ++ [⟨[], none⟩]) ++ l2 := by simp
    rw [hset] at hx
    obtain ⟨m, R, k1, k2, k3⟩ := ih (l1 ++ [⟨[], none⟩]) out' (by rw [g2]; exact hout)
      (by
        intro u hu
        rcases List.mem_append.1 hu with hu | hu
        · exact h1 u hu
        · simp at hu; subst hu; exact ⟨rfl, rfl⟩)
      (fun u hu => h2 u (List.mem_cons_of_mem _ hu)) (fun u hu => h3 u (List.mem_cons_of_mem _ hu))
    refine ⟨n + m, R, hx.trans k1, k2, fun j hj => ?_⟩
    rw [k3 j fun u hu => hj u (List.mem_cons_of_mem _ hu), g3 j (by rw [owns_of_none hc]; exact hj t (by simp))]

end solo

end Tsetlini
