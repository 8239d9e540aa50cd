import Verif.Lemmas.Tiles
import Verif.Spec.Clause
/- The classic clause output is the conjunction of the included literals. -/
namespace Tsetlini
open Res Spec

/-- The truth values a classic sample stands for. -/
def classicBits (X : ClassicSample) : List Bool := X.map (fun v => v != 0#8)

/-- Only 0 and 1. -/
def Binary (X : ClassicSample) : Prop := ∀ v ∈ X, v = 0#8 ∨ v = 1#8

/-- Feature `f` falsifies the clause. -/
def violB (pos neg : List Int) (x : List Bool) (f : Nat) : Bool :=
  (decide (Includes pos f) && !(val x f)) || (decide (Includes neg f) && val x f)

/-- Feature `f` has an included literal. -/
def inclB (pos neg : List Int) (f : Nat) : Bool :=
  decide (Includes pos f) || decide (Includes neg f)

theorem holds_iff (pos neg : List Int) (x : List Bool) :
    (Clause.mk pos neg).Holds x ↔ ¬ ∃ f, f < x.length ∧ violB pos neg x f = true := by
  unfold Clause.Holds violB
  constructor
  · rintro h ⟨f, hf, hv⟩
    have := h f hf
    cases hx : val x f <;> simp_all
  · intro h f hf
    have := fun hv => h ⟨f, hf, hv⟩
    cases hx : val x f <;> simp_all

theorem nonEmpty_iff (pos neg : List Int) (n : Nat) :
    (Clause.mk pos neg).NonEmpty n ↔ ∃ f, f < n ∧ inclB pos neg f = true := by
  simp [Clause.NonEmpty, inclB]

theorem decide_includes {row : List Int} {f : Nat} (h : f < row.length) :
    decide (Includes row f) = action row[f] := by
  simp [Includes, action, List.getElem?_eq_getElem h]

theorem val_classicBits {X : ClassicSample} {f : Nat} (h : f < X.length) :
    val (classicBits X) f = (X[f] != 0#8) := by
  simp [val, classicBits, h]

private theorem flag_cases (x : Byte) (hx : x = 0#8 ∨ x = 1#8) (a b : Bool) :
    clauseFlag x a b = b2c ((a && !(x != 0#8)) || (b && (x != 0#8))) := by
  rcases hx with rfl | rfl <;> cases a <;> cases b <;> decide

private theorem max1 (t : Byte) (ht : t = 0#8 ∨ t = 1#8) (v : Bool) :
    (maxChar (b2c v) t = 0#8 ∨ maxChar (b2c v) t = 1#8) ∧
      (maxChar (b2c v) t != 0#8) = ((t != 0#8) || v) := by
  rcases ht with rfl | rfl <;> cases v <;> decide

private theorem max2 (t : Byte) (ht : t = 0#8 ∨ t = 1#8 ∨ t = 2#8) (a b : Bool) :
    (maxChar (b2c a + b2c b) t = 0#8 ∨ maxChar (b2c a + b2c b) t = 1#8 ∨
      maxChar (b2c a + b2c b) t = 2#8) ∧
      (maxChar (b2c a + b2c b) t != 0#8) = ((t != 0#8) || (a || b)) := by
  rcases ht with rfl | rfl | rfl <;> cases a <;> cases b <;> decide

theorem flag_tileStep (pos neg : List Int) (X : ClassicSample) (hb : Binary X)
    (hp : X.length ≤ pos.length) (hn : X.length ≤ neg.length) :
    TileStep (flagStep pos neg X) (fun st => st.1 != 0#8) (fun st => st.2 != 0#8)
      (fun st => (st.1 = 0#8 ∨ st.1 = 1#8) ∧ (st.2 = 0#8 ∨ st.2 = 1#8 ∨ st.2 = 2#8))
      (violB pos neg (classicBits X)) (inclB pos neg) X.length where
  step_ok := by
    rintro f hf ⟨t, i⟩ ⟨ht, hi⟩
    have h1 : f < pos.length := by omega
    have h2 : f < neg.length := by omega
    simp only [flagStep, rd_ok h1, rd_ok h2, rd_ok hf, ok_bind, ret_ok, violB, inclB,
      decide_includes h1, decide_includes h2, val_classicBits hf]
    rw [flag_cases _ (hb _ (List.getElem_mem hf))]
    obtain ⟨a1, a2⟩ := max1 t ht ((action pos[f] && !(X[f] != 0#8)) || (action neg[f] && (X[f] != 0#8)))
    obtain ⟨b1, b2⟩ := max2 i hi (action pos[f]) (action neg[f])
    exact ⟨⟨a1, b1⟩, a2, b2⟩

theorem batchedLoops_done (t : Tile) (pos neg : List Int) (X : ClassicSample) (hb : Binary X)
    (hp : X.length ≤ pos.length) (hn : X.length ≤ neg.length) :
    (batchedLoops t pos neg X).Ret
      (Done (fun st => st.1 != 0#8) (fun st => st.2 != 0#8)
        (violB pos neg (classicBits X)) (inclB pos neg) X.length) :=
  tileLoops_done (flag_tileStep pos neg X hb hp hn) t _
    ⟨by decide, by simp, by simp⟩

/-- The plain loop: exact result, for any bytes. -/
theorem simpleLoop_done (pos neg : List Int) (X : ClassicSample)
    (hp : X.length ≤ pos.length) (hn : X.length ≤ neg.length) (m k : Nat) (hk : k + m = X.length)
    (e : Bool) (hv : ¬ ∃ f, f < k ∧ violB pos neg (classicBits X) f = true)
    (he : e = false ↔ ∃ f, f < k ∧ inclB pos neg f = true) :
    (simpleLoop pos neg X (List.range' k m) true e).Ret fun r =>
      (r.1 = true ↔ ¬ ∃ f, f < X.length ∧ violB pos neg (classicBits X) f = true) ∧
      (r.1 = true → (r.2 = false ↔ ∃ f, f < X.length ∧ inclB pos neg f = true)) := by
  induction m generalizing k e with
  | zero =>
    obtain rfl : k = X.length := by omega
    simp only [List.range'_zero, simpleLoop, ret_ok]
    exact ⟨by simpa using hv, fun _ => he⟩
  | succ m ih =>
    have hf : k < X.length := by omega
    have h1 : k < pos.length := by omega
    have h2 : k < neg.length := by omega
    rw [List.range'_succ]
    simp only [simpleLoop, if_true, rd_ok h1, rd_ok h2, rd_ok hf, ok_bind]
    have hvk : violB pos neg (classicBits X) k =
        (action pos[k] && X[k] == 0#8 || action neg[k] && X[k] != 0#8) := by
      simp only [violB, decide_includes h1, decide_includes h2, val_classicBits hf]
      cases hx : (X[k] == 0#8) <;> simp_all
    have hik : inclB pos neg k = (action pos[k] || action neg[k]) := by
      simp only [inclB, decide_includes h1, decide_includes h2]
    rw [← hvk, ← hik]
    cases hviol : violB pos neg (classicBits X) k with
    | true =>
      have hend : ∀ e', simpleLoop pos neg X (List.range' (k + 1) m) false e' = .ok (false, e') := by
        intro e'; cases m <;> simp [List.range'_succ, simpleLoop]
      simp only [if_true, hend, ret_ok]
      refine ⟨?_, by simp⟩
      simp only [Bool.false_eq_true, false_iff, Classical.not_not]
      exact ⟨k, hf, hviol⟩
    | false =>
      refine ih (k + 1) (by omega) _ ?_ ?_
      · rintro ⟨f, hf', hp'⟩
        by_cases hfk : f = k
        · subst hfk; rw [hviol] at hp'; cases hp'
        · exact hv ⟨f, by omega, hp'⟩
      · cases hincl : inclB pos neg k with
        | true => simp only [if_true, true_iff]; exact ⟨k, by omega, hincl⟩
        | false =>
          simp only [Bool.false_eq_true, if_false, he]
          constructor
          · rintro ⟨f, hf', hp'⟩; exact ⟨f, by omega, hp'⟩
          · rintro ⟨f, hf', hp'⟩
            by_cases hfk : f = k
            · subst hfk; rw [hincl] at hp'; cases hp'
            · exact ⟨f, by omega, hp'⟩

theorem classicClause_eq (t : Tile) (pos neg : List Int) (X : ClassicSample) (hb : Binary X)
    (hp : X.length ≤ pos.length) (hn : X.length ≤ neg.length) :
    classicClause t pos neg X = .ok ((Clause.mk pos neg).out (classicBits X)) := by
  have hl : (classicBits X).length = X.length := by simp [classicBits]
  unfold classicClause
  split
  · have := simpleLoop_done pos neg X hp hn X.length 0 (by omega) true (by simp) (by simp)
    obtain ⟨r, hr, h1, h2⟩ := this
    rw [show range 0 X.length = List.range' 0 X.length by simp [range], hr]
    simp only [ok_bind, Clause.out, holds_iff, hl]
    congr 1
    rw [Bool.eq_iff_iff, h1, decide_eq_true_iff]
  · obtain ⟨r, hr, h1, h2⟩ := batchedLoops_done t pos neg X hb hp hn
    rw [hr]
    simp only [ok_bind, Clause.out, holds_iff, hl]
    congr 1
    rw [Bool.eq_iff_iff, decide_eq_true_iff, ← h1]
    simp

theorem classicClausePruned_eq (t : Tile) (pos neg : List Int) (X : ClassicSample) (hb : Binary X)
    (hp : X.length ≤ pos.length) (hn : X.length ≤ neg.length) :
    classicClausePruned t pos neg X = .ok ((Clause.mk pos neg).outPruned (classicBits X)) := by
  have hl : (classicBits X).length = X.length := by simp [classicBits]
  unfold classicClausePruned
  split
  · have := simpleLoop_done pos neg X hp hn X.length 0 (by omega) true (by simp) (by simp)
    obtain ⟨⟨o, e⟩, hr, h1, h2⟩ := this
    rw [show range 0 X.length = List.range' 0 X.length by simp [range], hr]
    simp only [ok_bind, Clause.outPruned, holds_iff, nonEmpty_iff, hl]
    congr 1
    rw [Bool.eq_iff_iff, decide_eq_true_iff]
    dsimp only at h1 h2
    cases o
    · simp only [Bool.false_eq_true, false_iff] at h1
      simp [h1]
    · simp only [true_iff, forall_const] at h1 h2
      rw [← h2]
      cases e <;> simp [h1]
  · obtain ⟨⟨tg, na⟩, hr, h1, h2⟩ := batchedLoops_done t pos neg X hb hp hn
    rw [hr]
    simp only [ok_bind, Clause.outPruned, holds_iff, nonEmpty_iff, hl]
    congr 1
    rw [Bool.eq_iff_iff, decide_eq_true_iff, ← h1]
    dsimp only at h2 ⊢
    by_cases ht : tg = 0#8
    · subst ht
      simp only [bne_self_eq_false, forall_const] at h2
      rw [← h2]
      by_cases hn0 : na = 0#8 <;> simp [hn0]
    · by_cases hn0 : na = 0#8 <;> simp [hn0, ht]

end Tsetlini
