import Verif.Model.CoinTosserApprox
import Verif.Lemmas.TossEnd
import Verif.Lemmas.Bits
/- The coin tossers of lib/src/coin_tosser.hpp. -/
namespace Tsetlini
open Res Spec

/-- The first `n` bits of a bit container. -/
def bitsOf (v : List Block) (n : Nat) : List Bool := (List.range n).map (bitAt v)

theorem bitsOf_length (v : List Block) (n : Nat) : (bitsOf v n).length = n := by simp [bitsOf]

theorem bitsOf_getElem {v : List Block} {n i : Nat} (h : i < (bitsOf v n).length) : (bitsOf v n)[i] = bitAt v i := by
  simp [bitsOf]

theorem bitsOf_set {v v' : List Block} {n i : Nat} {b : Bool} (h : ∀ j, bitAt v' j = if j = i then b else bitAt v j) :
    bitsOf v' n = (bitsOf v n).set i b := by
  apply List.ext_getElem?
  intro j
  rw [List.getElem?_set]
  unfold bitsOf
  simp only [List.getElem?_map, List.length_map, List.length_range]
  by_cases hj : j < n
  · rw [List.getElem?_range hj]
    simp only [Option.map_some, h j]
    by_cases e : i = j
    · subst e; simp [hj]
    · simp [e, Ne.symm e]
  · rw [List.getElem?_eq_none (by simpa using hj)]
    by_cases e : i = j
    · subst e; simp [hj]
    · simp [e]

theorem bitsOf_zero (k n : Nat) : bitsOf (List.replicate k 0#64) n = List.replicate n false := by
  apply List.ext_getElem (by simp [bitsOf])
  intro i h1 h2
  rw [bitsOf_getElem, bitAt_replicate_zero]
  simp

/-- The bit version of the loop does what the other does. -/
theorem bitTossLoop_eq (env : Env) (size fuel hits it : Nat) (v : List Block) (g : env.G) (hs : size ≤ v.length * 64) :
    tossLoop env fuel hits it (bitsOf v size) g =
      (bitTossLoop env size fuel hits it v g).bind (fun r => .ok (bitsOf r.1 size, r.2)) ∧
    ∀ r, bitTossLoop env size fuel hits it v g = .ok r → r.1.length = v.length ∧
      ∀ j, size ≤ j → bitAt r.1 j = bitAt v j := by
  induction fuel generalizing it v g with
  | zero =>
    unfold tossLoop bitTossLoop
    by_cases h : it < hits
    · simp [h, Res.bind]
    · simp only [if_neg h, ok_bind, true_and]
      intro r hr; cases hr; exact ⟨rfl, fun _ _ => rfl⟩
  | succ fuel ih =>
    unfold tossLoop bitTossLoop
    by_cases h : it < hits
    · simp only [if_pos h, bitsOf_length]
      by_cases h0 : size = 0
      · simp [h0, Res.bind]
      · simp only [if_neg h0]
        have hix : (env.next g).1.toNat % size < size := Nat.mod_lt _ (by omega)
        generalize (env.next g).1.toNat % size = ix at hix
        have hb : ix / 64 < v.length := by omega
        obtain ⟨v', hv', hl, hbit⟩ := bitSet_ret hb
        rw [rd_ok (by rw [bitsOf_length]; exact hix), bitTest_ok hb, ok_bind, ok_bind, hv', ok_bind,
          bitsOf_getElem, ← bitsOf_set hbit]
        obtain ⟨h1, h2⟩ := ih (it + if bitAt v ix then 0 else 1) v' (env.next g).2 (by rw [hl]; exact hs)
        refine ⟨h1, fun r hr => ?_⟩
        obtain ⟨h3, h4⟩ := h2 r hr
        refine ⟨by rw [h3, hl], fun j hj => ?_⟩
        rw [h4 j hj, hbit j, if_neg (by omega)]
    · simp only [if_neg h, ok_bind, true_and]
      intro r hr; cases hr; exact ⟨rfl, fun _ _ => rfl⟩

/-- Exchanging two entries keeps the number of marks. -/
theorem marks_swap {l : List Bool} {i j : Nat} (hi : i < l.length) (hj : j < l.length) :
    marks ((l.set i l[j]).set j l[i]) = marks l := by
  unfold marks
  have hc : ∀ k (hk : k < l.length), l[k] = true → 0 < l.count true := fun k hk e =>
    List.count_pos_iff.2 (e ▸ List.getElem_mem hk)
  rw [List.count_set (by simpa using hj), List.count_set hi]
  by_cases e : i = j
  · subst e
    simp only [List.getElem_set_self]
    have := hc i hi
    cases h : l[i] <;> simp_all
  · rw [List.getElem_set_ne e]
    have h1 := hc i hi
    have h2 := hc j hj
    have h3 : l[i] = true → l[j] = true → 2 ≤ l.count true := by
      intro a b
      have h4 : (l.set i false).count true = l.count true - 1 := by
        rw [List.count_set hi]; simp [a]
      have h5 : 0 < (l.set i false).count true :=
        List.count_pos_iff.2 (by
          have : (l.set i false)[j]'(by simpa using hj) = true := by rw [List.getElem_set_ne e]; exact b
          exact this ▸ List.getElem_mem _)
      omega
    cases a : l[i] <;> cases b : l[j] <;> simp_all <;> omega

theorem mutate_ret (env : Env) (t : TossCache) (g : env.G) (h : t.cache.length ≠ 0) :
    ∃ t', t.mutate env g = .ok (t', (env.next (env.next g).2).2) ∧ t'.base = t.base ∧ t'.cache.length = t.cache.length ∧
      marks t'.cache = marks t.cache := by
  unfold TossCache.mutate
  dsimp only
  rw [if_neg h]
  have hi : (env.next g).1.toNat % t.cache.length < t.cache.length := Nat.mod_lt _ (by omega)
  have hj : (env.next (env.next g).2).1.toNat % t.cache.length < t.cache.length := Nat.mod_lt _ (by omega)
  generalize (env.next g).1.toNat % t.cache.length = i at hi
  generalize (env.next (env.next g).2).1.toNat % t.cache.length = j at hj
  rw [rd_ok hi, rd_ok hj, ok_bind, ok_bind, wr_ok hi, ok_bind, wr_ok (by simpa using hj), ok_bind]
  exact ⟨_, rfl, rfl, by simp, marks_swap hi hj⟩

/-- The bit version of `mutate` does what the other does. -/
theorem bitMutate_eq (env : Env) (t : BitTossCache) (g : env.G) (h : t.cache.len ≠ 0)
    (hs : t.cache.len ≤ t.cache.blocks.length * 64) :
    ∃ t', t.mutate env g = .ok (t', (env.next (env.next g).2).2) ∧ t'.base = t.base ∧ t'.cache.len = t.cache.len ∧
      t'.cache.blocks.length = t.cache.blocks.length ∧
      marks (bitsOf t'.cache.blocks t.cache.len) = marks (bitsOf t.cache.blocks t.cache.len) ∧
      ∀ j, t.cache.len ≤ j → bitAt t'.cache.blocks j = bitAt t.cache.blocks j := by
  unfold BitTossCache.mutate
  dsimp only
  rw [if_neg h]
  have hi : (env.next g).1.toNat % t.cache.len < t.cache.len := Nat.mod_lt _ (by omega)
  have hj : (env.next (env.next g).2).1.toNat % t.cache.len < t.cache.len := Nat.mod_lt _ (by omega)
  generalize (env.next g).1.toNat % t.cache.len = i at hi
  generalize (env.next (env.next g).2).1.toNat % t.cache.len = j at hj
  have bi : i / 64 < t.cache.blocks.length := by omega
  have bj : j / 64 < t.cache.blocks.length := by omega
  rw [bitTest_ok bi, bitTest_ok bj, ok_bind, ok_bind]
  by_cases hx : (bitAt t.cache.blocks i ^^ bitAt t.cache.blocks j) = true
  · rw [if_pos hx]
    obtain ⟨v, hv, hl, hb⟩ := bitFlip_ret bi
    obtain ⟨v', hv', hl', hb'⟩ := bitFlip_ret (v := v) (pos := j) (by rw [hl]; exact bj)
    rw [hv, ok_bind, hv', ok_bind]
    have hne : i ≠ j := by rintro rfl; simp at hx
    have e1 : (!(bitAt t.cache.blocks i)) = bitAt t.cache.blocks j := by
      cases a : bitAt t.cache.blocks i <;> cases b : bitAt t.cache.blocks j <;> simp_all
    have e2 : (!(bitAt v j)) = bitAt t.cache.blocks i := by
      rw [hb j, if_neg (Ne.symm hne)]
      cases a : bitAt t.cache.blocks i <;> cases b : bitAt t.cache.blocks j <;> simp_all
    refine ⟨_, rfl, rfl, rfl, by dsimp only; rw [hl', hl], ?_, ?_⟩
    · dsimp only
      rw [e1] at hb
      rw [e2] at hb'
      rw [bitsOf_set (n := t.cache.len) hb', bitsOf_set (n := t.cache.len) hb]
      have := marks_swap (l := bitsOf t.cache.blocks t.cache.len) (i := i) (j := j)
        (by rw [bitsOf_length]; exact hi) (by rw [bitsOf_length]; exact hj)
      rwa [bitsOf_getElem, bitsOf_getElem] at this
    · intro k hk
      dsimp only
      rw [hb' k, if_neg (by omega), hb k, if_neg (by omega)]
  · rw [if_neg hx]
    exact ⟨_, rfl, rfl, rfl, rfl, rfl, fun _ _ => rfl⟩

/-- `& ~63` on `size_t` rounds down to a multiple of 64. -/
theorem and_mask64 (x : BitVec 64) : (x &&& ~~~ (64#64 - 1#64)).toNat = x.toNat / 64 * 64 := by
  have : x &&& ~~~ (64#64 - 1#64) = (x >>> 6) <<< 6 := by
    apply BitVec.eq_of_getLsbD_eq
    intro i hi
    rw [BitVec.getLsbD_and, BitVec.getLsbD_not, BitVec.getLsbD_shiftLeft, BitVec.getLsbD_ushiftRight]
    have hm : (64#64 - 1#64).getLsbD i = decide (i < 6) := by
      have : ∀ i, i < 64 → (64#64 - 1#64).getLsbD i = decide (i < 6) := by decide
      exact this i hi
    rw [hm]
    by_cases h : i < 6
    · simp [h]
    · simp [h, hi, show 6 + (i - 6) = i by omega]
  rw [this, BitVec.toNat_shiftLeft, BitVec.toNat_ushiftRight, Nat.shiftRight_eq_div_pow, Nat.shiftLeft_eq]
  have := x.isLt
  rw [Nat.mod_eq_of_lt (by omega)]

theorem onesFor_post {env : Env} {size : Nat} {s : Rat} {k : Nat} (h : onesFor env size (.fin s) = .ok k) :
    (k : Int) = roundHalfAway (env.rnd (env.rnd size / s)) := by
  unfold onesFor at h
  dsimp only at h
  split at h
  · cases h
  · unfold toUnsigned at h
    split at h
    · rename_i h1
      cases h
      rw [Rat.floor_intCast]
      have : (-1 : Int) < roundHalfAway (env.rnd (env.rnd size / s)) := by
        exact Rat.intCast_lt_intCast.1 (by simpa using h1.1)
      omega
    · cases h

theorem onesFor_le (env : Env) {size : Nat} (hn : size ≤ 16777216) {s : Rat} (hs : 1 ≤ s) :
    ∃ k, onesFor env size (.fin s) = .ok k ∧ k ≤ size := by
  have hs0 : ¬ s = 0 := by intro e; rw [e] at hs; exact absurd hs (by decide)
  have e : env.rnd size = size := rnd_int env (m := size) (by simpa using hn)
  have hq := rat_div_le hs
  have hn0 : (0 : Rat) ≤ size := by exact_mod_cast Nat.zero_le size
  have e2 : (size : Rat) / s = 1 / s * size := by rw [Rat.div_def, Rat.div_def, Rat.one_mul, Rat.mul_comm]
  have h0 : 0 ≤ (size : Rat) / s := by rw [e2]; exact Rat.mul_nonneg hq.1 hn0
  have h1 : (size : Rat) / s ≤ size := by
    rw [e2]
    have := Rat.mul_le_mul_of_nonneg_right hq.2 hn0
    rwa [Rat.one_mul] at this
  have g0 : 0 ≤ env.rnd (size / s) := rnd_nonneg env h0
  have g1 : env.rnd (size / s) ≤ size := by have := env.rnd_mono_law _ _ h1; rwa [e] at this
  unfold onesFor
  dsimp only
  rw [if_neg hs0, e]
  generalize env.rnd (size / s) = x at g0 g1
  have r0 : 0 ≤ roundHalfAway x := by
    unfold roundHalfAway
    rw [if_pos g0, Rat.le_floor_iff]
    have : ((0 : Int) : Rat) = 0 := rfl
    grind
  have r1 : roundHalfAway x ≤ size := by
    unfold roundHalfAway
    rw [if_pos g0]
    have : (x + 1/2).floor < (size : Int) + 1 := by
      rw [Rat.floor_lt_iff]
      have : (((size : Int) + 1 : Int) : Rat) = (size : Rat) + 1 := by rw [Rat.intCast_add]; rfl
      grind
    omega
  unfold toUnsigned
  have b1 : (-1 : Rat) < (roundHalfAway x : Rat) := by
    have : (((-1 : Int)) : Rat) < (roundHalfAway x : Rat) := Rat.intCast_lt_intCast.2 (by omega)
    simpa using this
  have b2 : (roundHalfAway x : Rat) < 4294967296 := by
    have : (roundHalfAway x : Rat) < ((4294967296 : Int) : Rat) := Rat.intCast_lt_intCast.2 (by omega)
    simpa using this
  rw [if_pos ⟨b1, b2⟩]
  exact ⟨_, rfl, by rw [Rat.floor_intCast]; omega⟩

end Tsetlini
