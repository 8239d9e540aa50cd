import Verif.Spec.Tossers
import Verif.Lemmas.Res
/-
C55: the cache of random floats.
-/
namespace Tsetlini
open Res Spec

variable {V S : Type}

/-- The state of a generator after `m` numbers. -/
def genAfter (next : S → V × S) (s : S) : Nat → S
  | 0 => s
  | m + 1 => genAfter next (next s).2 m

theorem genAfter_succ (next : S → V × S) (s : S) (m : Nat) :
    genAfter next s (m + 1) = (next (genAfter next s m)).2 := by
  induction m generalizing s with
  | zero => rfl
  | succ m ih => exact ih _

theorem drawn_eq (next : S → V × S) (s : S) (m : Nat) : drawn next s m = (next (genAfter next s m)).1 := by
  induction m generalizing s with
  | zero => rfl
  | succ m ih => exact ih _

/-- The unread entries of the cache are different numbers, none of them returned yet. -/
structure FrandOk (next : S → V × S) (s0 : S) (size m : Nat) (used : List Nat) (c : FrandCache V) (s : S) : Prop where
  gen : s = genAfter next s0 m
  len : c.vals.length = size
  pos : c.pos ≤ size
  fresh : ∃ ix : Nat → Nat, (∀ i, c.pos ≤ i → i < size → c.vals[i]? = some (drawn next s0 (ix i)) ∧ ix i < m ∧ ix i ∉ used) ∧
    ∀ i j, c.pos ≤ i → i < size → c.pos ≤ j → j < size → ix i = ix j → i = j
  old : ∀ u ∈ used, u < m

theorem refill_ret {next : S → V × S} {s0 : S} {size m : Nat} {used : List Nat} {c : FrandCache V} {s : S}
    (h : FrandOk next s0 size m used c s) :
    (c.refill next s).Ret fun r => r.1.pos = 0 ∧ FrandOk next s0 size (m + c.pos) used r.1 r.2 := by
  unfold FrandCache.refill
  rw [h.len, Nat.min_eq_left h.pos, List.range_eq_range']
  refine Ret.bind (P := fun (u : List V × S) => u.1.length = size ∧ u.2 = genAfter next s0 (m + c.pos) ∧
    ∀ j, u.1[j]? = if j < c.pos then some (drawn next s0 (m + j)) else c.vals[j]?) ?_ ?_
  · have := iter_range'_ret (f := fun i (u : List V × S) =>
      (wr u.1 i (next u.2).1).bind fun vals => .ok (vals, (next u.2).2)) (P := fun i (u : List V × S) => u.1.length = size ∧ u.2 = genAfter next s0 (m + i) ∧
      ∀ j, u.1[j]? = if j < i then some (drawn next s0 (m + j)) else c.vals[j]?) c.pos 0 (c.vals, s)
      ⟨h.len, h.gen, fun j => by rw [if_neg (by omega)]⟩ ?_
    · rw [Nat.zero_add] at this
      exact this
    · rintro i - hi ⟨vals, s'⟩ ⟨h1, h2, h3⟩
      have := h.pos
      dsimp only at h1 h2 h3 ⊢
      rw [wr_ok (by omega), ok_bind, ret_ok]
      refine ⟨by simpa using h1, ?_, fun j => ?_⟩
      · dsimp only
        rw [h2, ← genAfter_succ]
        rfl
      · dsimp only
        rw [List.getElem?_set]
        by_cases hij : i = j
        · subst hij
          rw [if_pos rfl, if_pos (by omega), if_pos (by omega), drawn_eq, h2]
        · rw [if_neg hij, h3 j]
          by_cases hj : j < i
          · rw [if_pos hj, if_pos (by omega)]
          · rw [if_neg hj, if_neg (by omega)]
  · rintro ⟨vals, s'⟩ ⟨h1, h2, h3⟩
    dsimp only at h1 h2 h3 ⊢
    rw [ret_ok]
    obtain ⟨ix, i1, i2⟩ := h.fresh
    have hp := h.pos
    refine ⟨rfl, h2, h1, Nat.zero_le _, ⟨fun i => if i < c.pos then m + i else ix i, ?_, ?_⟩, fun u hu => ?_⟩
    · intro i _ hi
      dsimp only
      rw [h3 i]
      by_cases hc : i < c.pos
      · rw [if_pos hc, if_pos hc]
        exact ⟨rfl, by omega, fun hu => by have := h.old _ hu; omega⟩
      · rw [if_neg hc, if_neg hc]
        obtain ⟨a, b, d⟩ := i1 i (by omega) hi
        exact ⟨a, by omega, d⟩
    · intro i j _ hi _ hj he
      dsimp only at he
      by_cases hc : i < c.pos
      · rw [if_pos hc] at he
        by_cases hd : j < c.pos
        · rw [if_pos hd] at he; omega
        · rw [if_neg hd] at he
          have := (i1 j (by omega) hj).2.1; omega
      · rw [if_neg hc] at he
        have := (i1 i (by omega) hi).2.1
        by_cases hd : j < c.pos
        · rw [if_pos hd] at he; omega
        · rw [if_neg hd] at he
          exact i2 i j (by omega) hi (by omega) hj he
    · have := h.old u hu; omega

theorem next_ret {next : S → V × S} {s0 : S} {size m : Nat} {used : List Nat} {c : FrandCache V} {s : S}
    (h : FrandOk next s0 size m used c s) (hp : c.pos < size) :
    ∃ c' i, c.next = .ok (drawn next s0 i, c') ∧ i ∉ used ∧ c'.pos = c.pos + 1 ∧
      FrandOk next s0 size m (i :: used) c' s := by
  obtain ⟨ix, i1, i2⟩ := h.fresh
  obtain ⟨a, b, d⟩ := i1 c.pos (Nat.le_refl _) hp
  unfold FrandCache.next
  rw [rd_of_getElem? a, ok_bind]
  refine ⟨_, _, rfl, d, rfl, h.gen, h.len, hp, ⟨ix, fun i h1 h2 => ?_, fun i j h1 h2 h3 h4 => ?_⟩, fun u hu => ?_⟩
  · dsimp only at h1 ⊢
    obtain ⟨a', b', d'⟩ := i1 i (by omega) h2
    refine ⟨a', b', fun hm => ?_⟩
    rcases List.mem_cons.1 hm with e | hm
    · have := i2 i c.pos (by omega) h2 (Nat.le_refl _) hp e
      omega
    · exact d' hm
  · dsimp only at h1 h3
    exact i2 i j (by omega) h2 (by omega) h4
  · rcases List.mem_cons.1 hu with rfl | hu
    · exact b
    · exact h.old u hu

theorem next_oob {c : FrandCache V} (h : c.vals.length ≤ c.pos) : c.next = .ub .oob := by
  unfold FrandCache.next rd
  rw [List.getElem?_eq_none h]
  rfl

theorem frandRun_ret {next : S → V × S} {s0 : S} {size : Nat} (cs : List FrandCall) {m : Nat} {used : List Nat}
    {c : FrandCache V} {s : S} (h : FrandOk next s0 size m used c s) :
    (Enough size (size - c.pos) cs → ∃ ix : List Nat, frandRun next cs c s = .ok (ix.map (drawn next s0)) ∧ ix.Nodup ∧
      ∀ i ∈ ix, i ∉ used) ∧
    (¬ Enough size (size - c.pos) cs → frandRun next cs c s = .ub .oob) := by
  induction cs generalizing m used c s with
  | nil => exact ⟨fun _ => ⟨[], rfl, List.nodup_nil, by simp⟩, fun h => absurd trivial h⟩
  | cons a cs ih =>
    cases a with
    | refill =>
      obtain ⟨⟨c', s'⟩, e, hp, h'⟩ := refill_ret h
      have := ih h'
      unfold frandRun Enough
      rw [e, ok_bind]
      dsimp only at hp this ⊢
      rw [hp, Nat.sub_zero] at this
      exact this
    | next =>
      by_cases hp : c.pos < size
      · obtain ⟨c', i, e, hi, hpos, h'⟩ := next_ret h hp
        have := ih h'
        unfold frandRun Enough
        rw [e, ok_bind]
        dsimp only
        rw [hpos, show size - (c.pos + 1) = size - c.pos - 1 by omega] at this
        constructor
        · rintro ⟨-, hE⟩
          obtain ⟨ix, e1, e2, e3⟩ := this.1 hE
          rw [e1, ok_bind]
          refine ⟨i :: ix, rfl, List.nodup_cons.2 ⟨fun hm => e3 i hm (List.mem_cons_self ..), e2⟩, fun j hj => ?_⟩
          rcases List.mem_cons.1 hj with rfl | hj
          · exact hi
          · exact fun hu => e3 j hj (List.mem_cons_of_mem _ hu)
        · intro hE
          rw [this.2 (fun h => hE ⟨by omega, h⟩)]
          rfl
      · unfold frandRun Enough
        refine ⟨fun hE => by omega, fun _ => ?_⟩
        rw [next_oob (by rw [h.len]; omega)]
        rfl

theorem make_frandOk (next : S → V × S) (s0 : S) (zero : V) (size : Nat) :
    FrandOk next s0 size 0 [] (FrandCache.make zero size) s0 where
  gen := rfl
  len := List.length_replicate
  pos := Nat.le_refl _
  fresh := ⟨id, fun i h1 h2 => by have : size ≤ i := h1; omega, fun i j h1 h2 => by have : size ≤ i := h1; omega⟩
  old := by simp

/-- **C55**: a new cache of any size, refilled from any generator and read in any order: as long as at most `size`
numbers are taken after each refill (none before the first), every number returned was drawn from the
generator and no drawn number is returned twice. -/
theorem C55_fresh (gen : S → V × S) (s0 : S) (zero : V) (size : Nat) (cs : List FrandCall) (h : Enough size 0 cs) :
    ∃ ix : List Nat, frandRun gen cs (FrandCache.make zero size) s0 = .ok (ix.map (drawn gen s0)) ∧ ix.Nodup := by
  have hk := (frandRun_ret cs (make_frandOk gen s0 zero size)).1
  have e : size - (FrandCache.make zero size).pos = 0 := Nat.sub_self _
  rw [e] at hk
  obtain ⟨ix, e1, e2, -⟩ := hk h
  exact ⟨ix, e1, e2⟩

/-- **C55**: taking more reads outside the cache. -/
theorem C55_exhausted (gen : S → V × S) (s0 : S) (zero : V) (size : Nat) (cs : List FrandCall) (h : ¬ Enough size 0 cs) :
    frandRun gen cs (FrandCache.make zero size) s0 = .ub .oob := by
  have hk := (frandRun_ret cs (make_frandOk gen s0 zero size)).2
  have e : size - (FrandCache.make zero size).pos = 0 := Nat.sub_self _
  rw [e] at hk
  exact hk h

/-- Three entries, the generator that counts: after two reads and a refill the new numbers come before the unread one. -/
example : Enough 3 0 [.refill, .next, .next, .refill, .next, .next, .next] ∧
    frandRun (fun n : Nat => (n, n + 1)) [.refill, .next, .next, .refill, .next, .next, .next] (FrandCache.make 0 3) 10 =
      .ok [10, 11, 13, 14, 12] ∧
    ¬ Enough 3 0 [.refill, .next, .next, .next, .next] := by
  refine ⟨by simp [Enough], by decide, by simp [Enough]⟩

end Tsetlini
