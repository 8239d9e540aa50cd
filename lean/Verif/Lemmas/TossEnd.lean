import Verif.Lemmas.Step
import Verif.Spec.Reference
/- When the drawing loop of the coin tosser ends. -/
namespace Tsetlini
open Res Spec

theorem marks_le (l : List Bool) : marks l ≤ l.length := List.count_le_length

theorem marks_full {l : List Bool} (h : ∀ i : Nat, i < l.length → l[i]? = some true) : marks l = l.length := by
  unfold marks
  rw [List.count_eq_length]
  intro b hb
  obtain ⟨i, hi, rfl⟩ := List.getElem_of_mem hb
  have := h i hi
  rw [List.getElem?_eq_getElem hi] at this
  exact (Option.some.inj this).symm

/-- If every index is already marked or still to come within the fuel, the loop ends. -/
theorem tossLoop_ends (env : Env) (fuel hits it : Nat) (cache : List Bool) (g : env.G)
    (hit : it = marks cache) (hle : hits ≤ cache.length)
    (hcov : ∀ i, i < cache.length → cache[i]? = some true ∨
      ∃ j, j < fuel ∧ (draw env g j).toNat % cache.length = i) :
    ∃ r, tossLoop env fuel hits it cache g = .ok r := by
  induction fuel generalizing it cache g with
  | zero =>
    unfold tossLoop
    by_cases h : it < hits
    · exfalso
      have : marks cache = cache.length := marks_full fun i hi => by
        rcases hcov i hi with h | ⟨j, hj, -⟩
        · exact h
        · omega
      omega
    · exact ⟨_, if_neg h⟩
  | succ fuel ih =>
    unfold tossLoop
    by_cases h : it < hits
    · have hl : cache.length ≠ 0 := by omega
      rw [if_pos h]
      dsimp only
      rw [if_neg hl]
      have hix : (env.next g).1.toNat % cache.length < cache.length := Nat.mod_lt _ (by omega)
      rw [rd_ok hix, ok_bind]
      refine ih _ (cache.set _ true) _ ?_ ?_ ?_
      · rw [marks_set hix, hit]
      · rw [List.length_set]; exact hle
      · intro i hi
        rw [List.length_set] at hi ⊢
        rw [List.getElem?_set]
        by_cases he : (env.next g).1.toNat % cache.length = i
        · left; rw [if_pos he, if_pos (by omega)]
        · rw [if_neg he]
          rcases hcov i hi with h | ⟨j, hj, e⟩
          · exact .inl h
          · cases j with
            | zero => exact absurd e he
            | succ j => exact .inr ⟨j, by omega, e⟩
    · exact ⟨_, if_neg h⟩

theorem near_le {env : Env} {s : Rat} (hs : 1 ≤ s) {n h : Nat} (hn : n ≤ 16777216) (hh : Near env s n h) : h ≤ n := by
  have hs' := rat_div_le hs
  have hs0 : 0 ≤ env.rnd (1 / s) := rnd_nonneg env hs'.1
  have hs1 : env.rnd (1 / s) ≤ 1 := rnd_le_one env hs'.2
  have hn0 : 0 ≤ env.rnd n := rnd_nonneg env (by exact_mod_cast Nat.zero_le n)
  have e : env.rnd n = n := rnd_int env (m := n) (by simpa using hn)
  have hp1 : env.rnd (1 / s) * env.rnd n ≤ env.rnd n := by
    have := Rat.mul_le_mul_of_nonneg_right hs1 hn0; rwa [Rat.one_mul] at this
  have hq : env.rnd (env.rnd (1 / s) * env.rnd n) ≤ n := by
    have := env.rnd_mono_law _ _ hp1
    rw [e, e] at this
    rw [e]; exact this
  unfold Near at hh
  generalize env.rnd (env.rnd (1 / s) * env.rnd n) = q at *
  dsimp only at hh
  have f1 := floor_le' q
  rcases hh with h | ⟨h, hne⟩
  · have : (q.floor : Rat) ≤ ((n : Int) : Rat) := Rat.le_trans f1 (by exact_mod_cast hq)
    have := Rat.intCast_le_intCast.1 this
    omega
  · have h1 : (q.floor : Rat) < ((n : Int) : Rat) := by
      have : q ≤ ((n : Int) : Rat) := by exact_mod_cast hq
      grind
    have := Rat.intCast_lt_intCast.1 h1
    omega

end Tsetlini
