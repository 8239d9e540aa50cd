import Verif.Lemmas.Chance
import Verif.Lemmas.Reference
import Verif.Props.Reference
import Verif.Props.Generator
/-
C65: random choices have the intended probabilities, up to rounding, if all 2^32 words of a generator are equally likely.
-/
namespace Tsetlini
open Res Spec

variable {env : Env}

/-! ### helpers -/

theorem div_one (x c : Rat) : x / c = x * (1 / c) := by rw [Rat.div_def, Rat.div_def, Rat.one_mul]

theorem prob_close {p : BitVec 32 → Bool} {W e : Rat} (h : Close e (ways p) W) : Close (e / 4294967296) (prob p) (W / 4294967296) := by
  have c : (0 : Rat) < 4294967296 := by decide +kernel
  have h1 := div_le_div' h.1 c
  have h2 := div_le_div' h.2 c
  unfold Close prob
  rw [div_one, div_one e] at h1 h2
  rw [div_one (ways p : Rat), div_one W, div_one e]
  constructor <;> grind

theorem chance_agree (hr : env.rnd = rne32) {T d : Int} (hT : 1 ≤ T) (hT2 : T * 2 ≤ 2147483647) (hd : 1 ≤ d) (hd2 : d ≤ 2 * T) :
    Agree 4 (chance env T d) ((d : Rat) / ((2 * T : Int) : Rat)) := by
  have t1 : (1 : Rat) ≤ ((2 * T : Int) : Rat) := by
    have : (1 : Int) ≤ 2 * T := by omega
    exact_mod_cast Rat.intCast_le_intCast.2 this
  have t2 : ((2 * T : Int) : Rat) ≤ 2147483648 := by
    have : (2 * T : Int) ≤ 2147483648 := by omega
    exact Rat.le_trans (Rat.intCast_le_intCast.2 this) (by decide +kernel)
  have d1 : (1 : Rat) ≤ (d : Rat) := by exact_mod_cast Rat.intCast_le_intCast.2 hd
  unfold chance
  rw [hr]
  generalize ((2 * T : Int) : Rat) = D at *
  generalize (d : Rat) = x at *
  have a := rne32_agree (x := D) (Rat.le_trans (by decide +kernel) t1)
  have a0 := a.lower t1 (by decide +kernel)
  have a0 : 0 < rne32 D := by
    have : (0 : Rat) < 1 * loss ^ 1 := by decide +kernel
    grind
  have b := a.inv a0 (by grind)
  have hD : (1 : Rat) / 2147483648 ≤ 1 / D := by
    have h := div_le_div' (div_le_div' t2 (show (0 : Rat) < 2147483648 by decide +kernel)) (show 0 < D by grind)
    have e1 : D / 2147483648 / D = 1 / 2147483648 := by
      rw [div_one D, show D * (1 / 2147483648) = 1 / 2147483648 * D by grind, mul_div' (by grind)]
    have e2 : (2147483648 : Rat) / 2147483648 = 1 := by decide +kernel
    rwa [e1, e2] at h
  have b0 := b.lower hD (by decide +kernel)
  have c := b.rnd (Rat.le_trans (by decide +kernel) b0)
  have c0 := c.lower hD (by decide +kernel)
  have dd := rne32_agree (x := x) (Rat.le_trans (by decide +kernel) d1)
  have d0 := dd.lower d1 (by decide +kernel)
  have m := c.mul dd (Rat.le_trans (by decide +kernel) hD) (by grind)
  have e : x / D = 1 / D * x := by rw [div_one x]; grind
  rw [e]
  refine m.rnd ?_
  have h1 : (1 : Rat) / 2147483648 * loss ^ 2 * (1 * loss ^ 1) ≤ rne32 (1 / rne32 D) * rne32 x :=
    Rat.le_trans (Rat.mul_le_mul_of_nonneg_right c0 (by decide +kernel))
      (Rat.mul_le_mul_of_nonneg_left d0 (Rat.le_trans (by decide +kernel) c0))
  exact Rat.le_trans (by decide +kernel) h1

/-- The words for which the float generator does not exceed the probability of feedback. -/
theorem chance_prob (hr : env.rnd = rne32) {T d : Int} (hT : 1 ≤ T) (hT2 : T * 2 ≤ 2147483647) (hd : 0 ≤ d) (hd2 : d ≤ 2 * T) :
    Close ((d : Rat) / ((2 * T : Int) : Rat) / 2097152 + 1 / 8589934592)
      (prob fun y => decide (frngPost rne32 y ≤ chance env T d)) ((d : Rat) / ((2 * T : Int) : Rat)) := by
  have t1 : (1 : Rat) ≤ ((2 * T : Int) : Rat) := by
    have : (1 : Int) ≤ 2 * T := by omega
    exact_mod_cast Rat.intCast_le_intCast.2 this
  have p0 : (0 : Rat) ≤ (d : Rat) / ((2 * T : Int) : Rat) :=
    div_nonneg' (by exact_mod_cast Rat.intCast_le_intCast.2 hd) (by grind)
  have p1 : (d : Rat) / ((2 * T : Int) : Rat) ≤ 1 := by
    have h := div_le_div' (Rat.intCast_le_intCast.2 hd2) (show (0 : Rat) < ((2 * T : Int) : Rat) by grind)
    rwa [show ((2 * T : Int) : Rat) / ((2 * T : Int) : Rat) = 1 by
      rw [Rat.div_def]; exact Rat.mul_inv_cancel _ (by grind)] at h
  have ha : Agree 4 (chance env T d) ((d : Rat) / ((2 * T : Int) : Rat)) := by
    by_cases h : d = 0
    · subst h
      have e1 : chance env T 0 = 0 := by
        unfold chance
        rw [hr, show rne32 ((0 : Int) : Rat) = 0 by decide +kernel, Rat.mul_zero]
        decide +kernel
      have e2 : ((0 : Int) : Rat) / ((2 * T : Int) : Rat) = 0 := by rw [Rat.div_def]; exact Rat.zero_mul _
      rw [e1, e2]
      unfold Agree
      rw [Rat.zero_mul]
      decide +kernel
    · exact chance_agree hr hT hT2 (by omega) hd2
  generalize (d : Rat) / ((2 * T : Int) : Rat) = p at *
  have h := ways_le_thr (thr := chance env T d) (W := p * 4294967296) (by grind) (by grind) (by
    rwa [show p * 4294967296 * (1 / 4294967296) = p by grind])
  have := prob_close h
  rw [mul_div' (by decide +kernel)] at this
  rwa [show (p * 4294967296 / 2097152 + 1 / 2) / 4294967296 = p / 2097152 + 1 / 8589934592 by
    rw [div_one, div_one (p * 4294967296), div_one p]; grind] at this

theorem frng_pos (y : BitVec 32) : 0 < frngPost rne32 y := (C41_frng_range y).1

theorem mean_close {f : BitVec 32 → Nat} {W e : Rat} (h : Close e (total f) W) : Close (e / 4294967296) (mean f) (W / 4294967296) := by
  have c : (0 : Rat) < 4294967296 := by decide +kernel
  have h1 := div_le_div' h.1 c
  have h2 := div_le_div' h.2 c
  unfold Close mean
  rw [div_one, div_one e] at h1 h2
  rw [div_one (total f : Rat), div_one W, div_one e]
  constructor <;> grind

theorem roundHalfAway_near {x : Rat} (h : 0 ≤ x) : Close (1 / 2) (roundHalfAway x : Rat) x := by
  unfold roundHalfAway
  rw [if_pos h]
  have h1 := rfloor_le (x + 1 / 2)
  have h2 := rlt_floor (x + 1 / 2)
  constructor <;> grind

/-- The scaling of a fraction to words. -/
theorem scale_near {x : Rat} (h0 : 0 ≤ x) (h1 : x ≤ 1) :
    Close (1 + 1 / 1024) (rne64 (x * 4294967295)) (x * 4294967296) ∧ 0 ≤ rne64 (x * 4294967295) ∧ rne64 (x * 4294967295) ≤ 4294967295 := by
  have y0 : 0 ≤ x * 4294967295 := by grind
  have y1 : x * 4294967295 ≤ 4294967295 := by grind
  have h := rne64_close y0
  have m0 := rne_mono (p := 53) (q := 1074) (by decide) y0
  have m1 := rne_mono (p := 53) (q := 1074) (by decide) y1
  rw [show rne 53 1074 0 = 0 by decide +kernel] at m0
  rw [show rne 53 1074 4294967295 = 4294967295 by decide +kernel] at m1
  refine ⟨?_, m0, m1⟩
  have e : x * 4294967295 / 9007199254740992 + 1 / (2 ^ 1075 : Nat) ≤ 1 / 1024 := by
    have := div_le_div' y1 (show (0 : Rat) < 9007199254740992 by decide +kernel)
    have h2 : (4294967295 : Rat) / 9007199254740992 + 1 / (2 ^ 1075 : Nat) ≤ 1 / 1024 := by decide +kernel
    grind
  obtain ⟨h2, h3⟩ := h
  generalize rne64 (x * 4294967295) = z at *
  constructor <;> grind

/-- The words below a scaled and rounded fraction. -/
theorem ways_scaled {x : Rat} (h0 : 0 ≤ x) (h1 : x ≤ 1) :
    Close 2 (ways fun r => decide ((r.toNat : Int) < roundHalfAway (rne64 (x * 4294967295)))) (x * 4294967296) := by
  obtain ⟨a1, a2, a3⟩ := scale_near h0 h1
  have a4 := roundHalfAway_range (hi := 4294967295) a2 (Rat.le_trans a3 (by decide +kernel))
  have a5 := roundHalfAway_near a2
  generalize rne64 (x * 4294967295) = z at *
  obtain ⟨u, hu⟩ := Int.eq_ofNat_of_zero_le a4.1
  rw [hu] at a4 a5 ⊢
  have e : ways (fun r => decide ((r.toNat : Int) < ((u : Nat) : Int))) = u := by
    rw [show (fun r : BitVec 32 => decide ((r.toNat : Int) < ((u : Nat) : Int))) = fun r => decide (r.toNat < u) by
      funext r; simp, ways_lt]
    omega
  rw [e]
  have a5 : Close (1 / 2) (u : Rat) z := by exact_mod_cast a5
  obtain ⟨a6, a7⟩ := a1
  obtain ⟨a8, a9⟩ := a5
  constructor <;> grind

/-- ... without rounding to an integer. -/
theorem ways_scaled' {x : Rat} (h0 : 0 ≤ x) (h1 : x ≤ 1) :
    Close 3 (ways fun r => decide ((r.toNat : Rat) < rne64 (x * 4294967295))) (x * 4294967296) := by
  obtain ⟨a1, a2, a3⟩ := scale_near h0 h1
  generalize rne64 (x * 4294967295) = z at *
  have hb0 : 0 ≤ z.floor := Rat.le_floor_iff.2 (by simpa using a2)
  have hb1 := rfloor_le z
  have hb2 := rlt_floor z
  obtain ⟨b, hb⟩ := Int.eq_ofNat_of_zero_le hb0
  rw [hb] at hb1 hb2
  have hb1 : (b : Rat) ≤ z := by exact_mod_cast hb1
  have hb2 : z < (b : Rat) + 1 := by exact_mod_cast hb2
  have hsm : b < 4294967296 := by
    have : (b : Rat) < (4294967296 : Nat) := by
      have : ((4294967296 : Nat) : Rat) = 4294967296 := by decide +kernel
      grind
    exact_mod_cast this
  have l1 : b ≤ ways fun r => decide ((r.toNat : Rat) < z) := by
    refine le_ways (by omega) fun r hr => ?_
    have hr : (r.toNat : Rat) < b := by exact_mod_cast hr
    have : (r.toNat : Rat) < z := by grind
    simpa using this
  have l2 : (ways fun r => decide ((r.toNat : Rat) < z)) ≤ b + 1 := by
    refine ways_le fun r hr => ?_
    have hr : ((b + 1 : Nat) : Rat) ≤ r.toNat := by exact_mod_cast hr
    rw [Rat.natCast_add] at hr
    have : ((1 : Nat) : Rat) = 1 := by decide +kernel
    simp only [decide_eq_false_iff_not]
    grind
  have l1 : (b : Rat) ≤ (ways fun r => decide ((r.toNat : Rat) < z) : Nat) := by exact_mod_cast l1
  have l2 : ((ways fun r => decide ((r.toNat : Rat) < z) : Nat) : Rat) ≤ (b : Rat) + 1 := by exact_mod_cast l2
  obtain ⟨a6, a7⟩ := a1
  constructor <;> grind

/-- `n/s` as the library computes it. -/
theorem quotient_near {s : Rat} (hs : 1 ≤ s) {n : Nat} (hn : n ≤ 2147483647) :
    Close ((n : Rat) / s / 4194304 + 1 / 1099511627776) (rne32 (rne32 (1 / s) * rne32 n)) ((n : Rat) / s) := by
  have n0 : (0 : Rat) ≤ n := by exact_mod_cast Nat.zero_le n
  have n1 : (n : Rat) ≤ 2147483647 := by
    have : (n : Rat) ≤ (2147483647 : Nat) := by exact_mod_cast hn
    exact Rat.le_trans this (by decide +kernel)
  obtain ⟨x0, x1⟩ := rat_div_le hs
  have hx := rne32_close x0
  have hN := rne32_close n0
  rw [div_one (n : Rat) s]
  rw [show (n : Rat) * (1 / s) = 1 / s * n by grind]
  generalize (1 : Rat) / s = x at *
  have hA := rne32_nonneg x0
  have hB := rne32_nonneg n0
  have hq := rne32_close (Rat.mul_nonneg hA hB)
  have η0 : (0 : Rat) ≤ 1 / (2 ^ 150 : Nat) := by decide +kernel
  have η1 : (1 : Rat) / (2 ^ 150 : Nat) ≤ 1 / 75557863725914323419136 := by decide +kernel
  have hz : n = 0 → rne32 (n : Rat) = 0 := by intro h; subst h; decide +kernel
  have nz : n = 0 ∨ (1 : Rat) ≤ n := by
    rcases Nat.eq_zero_or_pos n with h | h
    · exact .inl h
    · exact .inr (by exact_mod_cast h)
  have nz' : n = 0 → (n : Rat) = 0 := by intro h; subst h; rfl
  generalize rne32 x = A at *
  generalize rne32 (n : Rat) = B at *
  generalize rne32 (A * B) = q at *
  generalize (1 : Rat) / (2 ^ 150 : Nat) = η at *
  generalize hm : (n : Rat) = m at *
  rw [div_one] at hx hN hq
  obtain ⟨a1, a2⟩ := hx
  obtain ⟨b1, b2⟩ := hN
  have up : A * B ≤ (x * (1 + 1 / 16777216) + η) * (m * (1 + 1 / 16777216) + η) :=
    Rat.le_trans (Rat.mul_le_mul_of_nonneg_right (c := B) (show A ≤ x * (1 + 1 / 16777216) + η by grind) hB)
      (Rat.mul_le_mul_of_nonneg_left (show B ≤ m * (1 + 1 / 16777216) + η by grind) (by grind))
  have xη : x * η ≤ η := by have := Rat.mul_le_mul_of_nonneg_right x1 η0; grind
  have mη : m * η ≤ 1 / 17592186044416 := by
    have h1 := Rat.mul_le_mul_of_nonneg_right n1 η0
    grind
  have ηη : η * η ≤ η := by have := Rat.mul_le_mul_of_nonneg_right (show η ≤ 1 by grind) η0; grind
  have p0 : 0 ≤ x * m := Rat.mul_nonneg x0 n0
  have xη0 : 0 ≤ x * η := Rat.mul_nonneg x0 η0
  have mη0 : 0 ≤ m * η := Rat.mul_nonneg n0 η0
  have ηη0 : 0 ≤ η * η := Rat.mul_nonneg η0 η0
  have up' : A * B ≤ x * m * (1 + 1 / 16777216) * (1 + 1 / 16777216) + 2 * (x * η) + 2 * (m * η) + η * η := by
    refine Rat.le_trans up ?_
    grind
  have low : x * m * (1 - 1 / 16777216) * (1 - 1 / 16777216) - x * η - m * η ≤ A * B := by
    rcases nz with h | h
    · rw [nz' h, hz h]; grind
    · have l1 := Rat.mul_le_mul_of_nonneg_right (c := m * (1 - 1 / 16777216) - η)
        (show x * (1 - 1 / 16777216) - η ≤ A by grind) (by grind)
      have l2 := Rat.mul_le_mul_of_nonneg_left (show m * (1 - 1 / 16777216) - η ≤ B by grind) hA
      refine Rat.le_trans ?_ (Rat.le_trans l1 l2)
      grind
  rw [div_one] 
  generalize A * B = c at *
  obtain ⟨q1, q2⟩ := hq
  generalize x * m = p at *
  generalize x * η = r1 at *
  generalize m * η = r2 at *
  generalize η * η = r3 at *
  constructor <;> grind

theorem mean_chosen (hr : env.rnd = rne32) (hr64 : env.rnd64 = rne64) {s : Rat} (hs : 1 ≤ s) {n : Nat} (hn : n ≤ 2147483647) :
    Close ((n : Rat) / s / 2097152 + 1 / 1073741824) (mean (chosen env s n)) ((n : Rat) / s) := by
  have hq := quotient_near hs hn
  have n0 : (0 : Rat) ≤ n := by exact_mod_cast Nat.zero_le n
  obtain ⟨x0, x1⟩ := rat_div_le hs
  have q0 : 0 ≤ rne32 (rne32 (1 / s) * rne32 n) := rne32_nonneg (Rat.mul_nonneg (rne32_nonneg x0) (rne32_nonneg n0))
  have p0 : 0 ≤ (n : Rat) / s := div_nonneg' n0 (by grind)
  have ht : total (chosen env s n) = 4294967296 * (rne32 (rne32 (1 / s) * rne32 n)).floor.toNat +
      ways fun r => decide ((r.toNat : Int) < roundHalfAway (rne64 (rne32 (rne32 (rne32 (1 / s) * rne32 n) -
        (rne32 (rne32 (1 / s) * rne32 n)).floor) * 4294967295))) := by
    rw [← total_add]
    congr 1
    funext r
    unfold chosen
    rw [hr, hr64]
    dsimp only
    simp only [decide_eq_true_eq]
  generalize rne32 (rne32 (1 / s) * rne32 n) = q at *
  have f1 := rfloor_le q
  have f2 := rlt_floor q
  have f0 : 0 ≤ q.floor := Rat.le_floor_iff.2 (by simpa using q0)
  obtain ⟨F, hF⟩ := Int.eq_ofNat_of_zero_le f0
  rw [hF] at f1 f2 ht
  have f1 : (F : Rat) ≤ q := by exact_mod_cast f1
  have f2 : q < (F : Rat) + 1 := by exact_mod_cast f2
  have ec : (((F : Nat) : Int) : Rat) = (F : Rat) := rfl
  rw [ec, Int.toNat_natCast] at ht
  have g0 : 0 ≤ q - F := by grind
  have k := rne32_close g0
  have k0 := rne32_nonneg g0
  have k1 : rne32 (q - F) ≤ 1 := by
    have := rne_mono (p := 24) (q := 149) (by decide) (show q - F ≤ 1 by grind)
    rw [show rne 24 149 1 = 1 by decide +kernel] at this
    exact this
  have kq : q - F ≤ q := by
    have : (0 : Rat) ≤ F := by exact_mod_cast Nat.zero_le F
    grind
  have w := ways_scaled k0 k1
  generalize rne32 (q - F) = d at *
  have η1 : (1 : Rat) / (2 ^ 150 : Nat) ≤ 1 / 75557863725914323419136 := by decide +kernel
  generalize (1 : Rat) / (2 ^ 150 : Nat) = η at *
  have ht' : (total (chosen env s n) : Rat) = 4294967296 * (F : Rat) +
      (ways fun r => decide ((r.toNat : Int) < roundHalfAway (rne64 (d * 4294967295))) : Nat) := by
    rw [ht, Rat.natCast_add, Rat.natCast_mul]; rfl
  generalize ways (fun r => decide ((r.toNat : Int) < roundHalfAway (rne64 (d * 4294967295)))) = v at *
  generalize (n : Rat) / s = p at *
  have : Close (p * 2048 + 4) (total (chosen env s n)) (p * 4294967296) := by
    rw [ht', div_one] at *
    rw [div_one] at k
    obtain ⟨k2, k3⟩ := k
    obtain ⟨w1, w2⟩ := w
    obtain ⟨q1, q2⟩ := hq
    constructor <;> grind
  have := mean_close this
  rw [mul_div' (by decide +kernel)] at this
  rwa [show (p * 2048 + 4) / 4294967296 = p / 2097152 + 1 / 1073741824 by rw [div_one, div_one p]; grind] at this

/-! ### C65 -/

/-- **C65** (feedback): training with a sample of label `t` and opposite label `o` whose scores are `tv` and `ov`, with one float
draw for each of the `k` clauses of `t` and then of `o`: `P` decides for the clauses of `t`, `Q` for those of `o`, and in binary32
arithmetic the probability that a clause gets feedback is `(T - tv) / 2T` resp. `(T + ov) / 2T` up to a relative error of 2^-21
and an absolute one of 2^-33; a clause of a label that has the score it should have gets none. -/
theorem C65_feedback (hr : env.rnd = rne32) {N t o k : Nat} {tv ov T : Int} (hto : o ≠ t)
    (h1 : t * k + k ≤ N) (h2 : o * k + k ≤ N) (hn : N ≤ 2147483647)
    (hT : 1 ≤ T) (hT2 : T * 2 ≤ 2147483647) (htv : -T ≤ tv ∧ tv ≤ T) (hov : -T ≤ ov ∧ ov ≤ T) :
    ∃ P Q : BitVec 32 → Bool,
      (∀ (old : List Int) (g : env.F) (w : Nat → BitVec 32), old.length = N → (∀ j, fdraw env g j = frngPost rne32 (w j)) →
        ∃ fb g', classifierFeedback env old t o tv ov k T g = .ok (fb, g') ∧
          (∀ j < k, fb[t * k + j]? = some (if P (w j) then (if (t * k + j) % 2 = 0 then 1 else -1) else 0)) ∧
          ∀ j < k, fb[o * k + j]? = some (if Q (w (k + j)) then (if (o * k + j) % 2 = 0 then -1 else 1) else 0)) ∧
      Close (((T - tv : Int) : Rat) / ((2 * T : Int) : Rat) / 2097152 + 1 / 8589934592) (prob P)
        (((T - tv : Int) : Rat) / ((2 * T : Int) : Rat)) ∧
      Close (((T + ov : Int) : Rat) / ((2 * T : Int) : Rat) / 2097152 + 1 / 8589934592) (prob Q)
        (((T + ov : Int) : Rat) / ((2 * T : Int) : Rat)) ∧
      (tv = T → ∀ r, P r = false) ∧ (ov = -T → ∀ r, Q r = false) := by
  refine ⟨fun y => decide (frngPost rne32 y ≤ chance env T (T - tv)), fun y => decide (frngPost rne32 y ≤ chance env T (T + ov)), ?_,
    chance_prob hr hT hT2 (by omega) (by omega), chance_prob hr hT hT2 (by omega) (by omega), ?_, ?_⟩
  · intro old g w ho hw
    obtain ⟨fb, a1, a2, a3⟩ := classifierFeedback_exact (env := env) (tv := tv) (ov := ov) g hto h1 h2 hn hT hT2 htv hov
    rw [classifierFeedback_congr env (fb := List.replicate N 0) (fb' := old) (by rw [List.length_replicate, ho])] at a1
    refine ⟨fb, _, a1, fun j hj => ?_, fun j hj => ?_⟩
    · rw [a2 j hj, hw]; simp
    · rw [a3 j hj, hw]; simp
  all_goals
    intro h r
    have e0 : ∀ d : Int, d = 0 → chance env T d = 0 := by
      intro d hd
      subst hd
      unfold chance
      rw [hr, show rne32 ((0 : Int) : Rat) = 0 by decide +kernel, Rat.mul_zero]
      decide +kernel
    have := frng_pos r
    rw [e0 _ (by omega)]
    simp only [decide_eq_false_iff_not]
    grind

/-- **C65** (opposite label): each of the other labels is the opposite one for an equal share of the words. -/
theorem C65_opposite {labels t o : Nat} (hl : IsInt labels) (ht : t < labels) (ho : o < labels) (hne : o ≠ t) :
    ∃ P : BitVec 32 → Bool, Even (labels - 1) (ways P) ∧
      ∀ (env : Env) (g : env.G), P (env.next g).1 = true ↔ ∃ g', oppositeLabel env labels t g = .ok ((o : Int), g') := by
  have hl2 := hl.2
  have key : ∀ r : Nat, r < labels - 1 → ((t + 1 + r) % labels = o ↔ r = (o + labels - 1 - t) % labels) := by
    intro r hr
    by_cases h1 : t + 1 + r < labels
    · rw [Nat.mod_eq_of_lt h1]
      by_cases h2 : o + labels - 1 - t < labels
      · rw [Nat.mod_eq_of_lt h2]; omega
      · rw [Nat.mod_eq_sub_mod (by omega), Nat.mod_eq_of_lt (by omega)]; omega
    · rw [Nat.mod_eq_sub_mod (by omega), Nat.mod_eq_of_lt (by omega)]
      by_cases h2 : o + labels - 1 - t < labels
      · rw [Nat.mod_eq_of_lt h2]; omega
      · rw [Nat.mod_eq_sub_mod (by omega), Nat.mod_eq_of_lt (by omega)]; omega
  refine ⟨fun r => r.toNat % (labels - 1) == (o + labels - 1 - t) % labels, ways_mod _ _ ?_, fun env g => ?_⟩
  · by_cases h2 : o + labels - 1 - t < labels
    · rw [Nat.mod_eq_of_lt h2]; omega
    · rw [Nat.mod_eq_sub_mod (by omega), Nat.mod_eq_of_lt (by omega)]; omega
  · obtain ⟨⟨o', g'⟩, e, b, k1, k2, k3, k4, k5⟩ := oppositeLabel_ret env (n := labels) (by omega) (by omega) ht g
    dsimp only at k1 k5
    subst k1
    rw [e]
    have hm := key ((env.next g).1.toNat % (labels - 1)) (Nat.mod_lt _ (by omega))
    rw [← k4] at hm
    simp only [beq_iff_eq]
    rw [← hm]
    constructor
    · intro h; subst h; exact ⟨_, rfl⟩
    · rintro ⟨g'', h⟩
      have := (Res.ok.inj h)
      simp only [Prod.mk.injEq, Int.natCast_inj] at this
      exact this.1

/-- **C65** (features): a tosser for `n` features and specificity `s` marks `f r` features when the word `r` was drawn, and the mean of
`f` is `n/s` up to a relative error of 2^-21 and an absolute one of 2^-30. -/
theorem C65_features (hr : env.rnd = rne32) (hr64 : env.rnd64 = rne64) {s : Rat} (hs : 1 ≤ s) {n : Nat} (hn : n ≤ 2147483647)
    {ct : CoinTosser} (hct : CoinTosser.make env (.fin s) n = .ok ct) :
    ∃ f : BitVec 32 → Nat,
      (∀ g, (ct.estimateHits env g).1 = f (env.next g).1) ∧
      (∀ (old : List Bool) (g g' : env.G) (l : List Bool), old.length = n → tosses env ct old g = .ok (l, g') →
        l.count true = f (env.next g).1) ∧
      Close ((n : Rat) / s / 2097152 + 1 / 1073741824) (mean f) ((n : Rat) / s) := by
  have e : ctNums env s n = (ct.hitsFloor, ct.thr) := by unfold ctNums; rw [hct]
  refine ⟨chosen env s n, fun g => ?_, fun old g g' l ho h => ?_, mean_chosen hr hr64 hs hn⟩
  · rw [← ctNums_chosen env hs hn, e]; rfl
  · obtain ⟨j, -, h2, -⟩ := tosses_exact hs hn (by rw [e]) (by rw [e]) ho h
    exact h2

/-- **C65** (indices): taking a word modulo `n`, each of `n` indices is hit by an equal share of the words. This is how each feature of a
toss (`Tossed`), each literal a bitwise clause weakens (`Faded`) and each clause a regressor trains (`RefStepR`) is chosen, see C52. -/
theorem C65_index {n i : Nat} (hi : i < n) : Even n (ways fun r => r.toNat % n == i) := ways_mod n i hi

/-- **C65** (regressor): when `n` clauses and a loss `v` make less than half a clause to train, one clause is trained with a probability
that is `n * v` up to a relative error of 2^-22 and an absolute one of 2^-30, and none otherwise. -/
theorem C65_regressor (hr : env.rnd = rne32) (hr64 : env.rnd64 = rne64) {n : Nat} (hn0 : 1 ≤ n) (hn : n ≤ 2147483647) {v : Rat} (hv : 0 ≤ v)
    (hnp : env.rnd (env.rnd n * v) < 1 / 2) :
    ∃ P : BitVec 32 → Bool,
      (∀ g, feedbackHits env false n (.fin v) g = .ok (if P (env.next g).1 then 1 else 0, (env.next g).2)) ∧
      Close ((n : Rat) * v / 4194304 + 1 / 1073741824) (prob P) ((n : Rat) * v) := by
  refine ⟨fun r => decide ((r.toNat : Rat) < rne64 (rne32 (rne32 n * v) * 4294967295)), fun g => ?_, ?_⟩
  · unfold feedbackHits
    rw [hr] at hnp ⊢
    rw [hr64]
    dsimp only
    rw [if_neg (by decide), if_neg (by grind)]
    simp only [decide_eq_true_eq]
    rw [Nat.min_eq_left (by split <;> omega)]
  · rw [hr] at hnp
    have n0 : (0 : Rat) ≤ n := by exact_mod_cast Nat.zero_le n
    have n1 : (1 : Rat) ≤ n := by exact_mod_cast hn0
    have hN := rne32_agree (x := (n : Rat)) (Rat.le_trans (by decide +kernel) n1)
    have hB := rne32_nonneg n0
    have hq := rne32_close (Rat.mul_nonneg hB hv)
    have q0 := rne32_nonneg (Rat.mul_nonneg hB hv)
    have w := ways_scaled' q0 (by grind)
    have hN' : Agree 1 (rne32 n * v) (n * v) := hN.mul (Agree.refl v) n0 hv
    have p0 : 0 ≤ (n : Rat) * v := Rat.mul_nonneg n0 hv
    generalize rne32 (rne32 n * v) = q at *
    generalize rne32 (n : Rat) * v = c at *
    generalize (n : Rat) * v = p at *
    have η1 : (1 : Rat) / (2 ^ 150 : Nat) ≤ 1 / 75557863725914323419136 := by decide +kernel
    generalize (1 : Rat) / (2 ^ 150 : Nat) = η at *
    unfold Agree at hN'
    rw [Rat.pow_succ, Rat.pow_zero, Rat.one_mul, show loss = 1 - 1 / 16777216 by decide +kernel] at hN'
    obtain ⟨c1, c2⟩ := hN'
    rw [div_one] at hq
    obtain ⟨q1, q2⟩ := hq
    have w' : Close (p * 1024 + 4) (ways fun r => decide ((r.toNat : Rat) < rne64 (q * 4294967295))) (p * 4294967296) := by
      obtain ⟨w1, w2⟩ := w
      generalize ((ways fun r => decide ((r.toNat : Rat) < rne64 (q * 4294967295)) : Nat) : Rat) = y at *
      constructor <;> grind
    have := prob_close w'
    rw [mul_div' (by decide +kernel)] at this
    rwa [show (p * 1024 + 4) / 4294967296 = p / 4194304 + 1 / 1073741824 by rw [div_one, div_one p]; grind] at this

/-! ### Initial clauses -/

variable {a : Algo} {st st' : EstState a.backend env} {X : List a.Sample} {y : List Int} {ml : Int} {sc : Sched} {s : Status} {H : Settings}

theorem ways_even : ways (fun r => r.toNat % 2 == 0) = 2147483648 := by
  rw [ways_eq (q := fun r => r % 2 == 0) fun r hr => by rw [ofNat_toNat hr], countP_range_mod 2 0 (by omega)]
  rfl

theorem newClauses_drawn {count n : Nat} {g : env.G} {cs : List Clause} (hcl : cs = newClauses env count n g) :
    DrawnBy (fun r => r.toNat % 2 == 0) (draw env g) count n cs := by
  refine ⟨fun i f => i * (2 * n) + f, fun i f => i * (2 * n) + n + f, ?_, ?_⟩
  · intro i f i' f' hf hf'
    have inj : ∀ {x y : Nat}, x < 2 * n → y < 2 * n → i * (2 * n) + x = i' * (2 * n) + y → i = i' ∧ x = y := by
      intro x y hx hy h
      have h1 : (i * (2 * n) + x) / (2 * n) = i := by
        rw [Nat.mul_comm, Nat.mul_add_div (by omega), Nat.div_eq_of_lt hx]; rfl
      have h2 : (i' * (2 * n) + y) / (2 * n) = i' := by
        rw [Nat.mul_comm, Nat.mul_add_div (by omega), Nat.div_eq_of_lt hy]; rfl
      have e : i = i' := by rw [← h1, h, h2]
      subst e
      exact ⟨rfl, by omega⟩
    dsimp only
    refine ⟨fun h => inj (by omega) (by omega) h, fun h => ?_, fun h => ?_⟩
    · have := inj (x := n + f) (y := n + f') (by omega) (by omega) (by omega)
      omega
    · have := inj (x := f) (y := n + f') (by omega) (by omega) (by omega)
      omega
  · intro i hi
    rw [hcl]
    unfold newClauses
    refine ⟨_, by rw [List.getElem?_map, List.getElem?_range hi]; rfl, by simp, by simp, fun f hf => ?_⟩
    dsimp only
    rw [List.getElem?_map, List.getElem?_map, List.getElem?_range hf]
    simp

/-- **C65** (initial clauses): fitting a classifier for no epoch makes each counter of each clause -1 or 0 by a word of its own, each for
exactly half of the words. -/
theorem C65_initial (h : Reached a .classifier st) (hN : StatesOk a st.params) (ht : DataTyped a X y)
    (hH : HasSettings .classifier st.params H) {seed : BitVec 32} (hs : st.params.get? "random_state" = some (.seed seed))
    (hr : fitClassifier a.backend env sc st X y ml 0 = .ok (st', s)) (hc : s.code = .ok)
    {labels n : Nat} (hl : IntParam st'.params "number_of_labels" labels) (hn : IntParam st'.params "number_of_features" n) :
    ∃ P : BitVec 32 → Bool, ways P = 2147483648 ∧ DrawnBy P (draw env (env.seedG seed)) (labels * H.k) n (a.clauses st') := by
  obtain ⟨b, hb⟩ : ∃ b, st.params.get? "weighted" = some (.bool b) := by
    obtain ⟨cfg, ss, -, -, -, hS⟩ := Reached.sim h hN
    exact ⟨_, hS.readsOf.weighted⟩
  obtain ⟨u, hu, hch⟩ := C52_fit h hN ht hH hs hb hr hc hl hn
  have e : u = a.trainee st' := by cases hch; rfl
  subst e
  exact ⟨_, ways_even, newClauses_drawn hu.1⟩

/-- **C65** (initial clauses of a regressor). -/
theorem C65_initial_regressor (h : Reached a .regressor st) (hN : StatesOk a st.params) (ht : DataTyped a X y)
    (hH : HasSettings .regressor st.params H) {seed : BitVec 32} (hs : st.params.get? "random_state" = some (.seed seed))
    (hr : fitRegressor a.backend env sc st X y 0 = .ok (st', s)) (hc : s.code = .ok)
    {n : Nat} (hn : IntParam st'.params "number_of_features" n) :
    ∃ P : BitVec 32 → Bool, ways P = 2147483648 ∧ DrawnBy P (draw env (env.seedG seed)) H.k n (a.clauses st') := by
  obtain ⟨cfg, ss, hk, -, -, hS⟩ := Reached.sim h hN
  have hrd := hS.readsOf
  have hR : HasRegSettings st.params ⟨cfg.boxMuller, cfg.lossName, cfg.C1⟩ := ⟨hrd.boxMuller hk, hrd.loss hk, hrd.C1 hk⟩
  obtain ⟨u, hu, hch⟩ := C52_fit_regressor h hN ht hH hR hs hrd.weighted hr hc hn
  have e : u = a.trainee st' := by cases hch; rfl
  subst e
  exact ⟨_, ways_even, newClauses_drawn hu.1⟩

/-! ### Hypotheses and cases -/

/-- The float generator always yields `frngPost` of some words, as `C65_feedback` requires. -/
theorem words_of (env : Env) (hr : env.rnd = rne32) (g : env.F) : ∃ w : Nat → BitVec 32, ∀ j, fdraw env g j = frngPost rne32 (w j) := by
  have h : ∀ j, ∃ y : BitVec 32, fdraw env g j = frngPost rne32 y := by
    intro j
    induction j generalizing g with
    | zero => rw [← hr]; exact env.fnext_law g
    | succ j ih => exact ih (env.fnext g).2
  exact ⟨fun j => (h j).choose, fun j => (h j).choose_spec⟩

/-- C65: the environment of the library meets the hypotheses; two labels of two clauses each, threshold 15, scores -1 and 2. -/
example (u : Unspecified) : (realEnv u).rnd = rne32 ∧ (realEnv u).rnd64 = rne64 ∧
    ∃ P Q : BitVec 32 → Bool, Close (16 / 30 / 2097152 + 1 / 8589934592) (prob P) (16 / 30) ∧
      Close (17 / 30 / 2097152 + 1 / 8589934592) (prob Q) (17 / 30) := by
  obtain ⟨P, Q, -, h1, h2, -⟩ := C65_feedback (env := realEnv u) rfl (N := 4) (t := 0) (o := 1) (k := 2) (tv := -1) (ov := 2) (T := 15)
    (by decide) (by decide) (by decide) (by decide) (by decide) (by decide) (by decide) (by decide)
  exact ⟨rfl, rfl, P, Q, h1, h2⟩

/-- C65: rounding is observable: with threshold 41 a clause of a label with the worst score, which should always get feedback, gets none
for the word 2^32 - 1. -/
example (u : Unspecified) : chance (realEnv u) 41 82 < 1 ∧ frngPost rne32 0xFFFFFFFF#32 = 1 := by
  constructor
  · show rne32 (rne32 (1 / rne32 ((2 * 41 : Int) : Rat)) * rne32 ((82 : Int) : Rat)) < 1
    decide +kernel
  · decide +kernel

/-- C65: three of ten features on average. -/
example (u : Unspecified) : ∃ ct, CoinTosser.make (realEnv u) (.fin (10 / 3)) 10 = .ok ct := by
  obtain ⟨ct, h, -⟩ := make_ret (realEnv u) (q := 10 / 3) (by decide +kernel) (n := 10) (by decide)
  exact ⟨ct, h⟩

/-- C65: 20 clauses and a loss of 1/64 make less than half a clause. -/
example : rne32 (rne32 (20 : Nat) * (1 / 64)) < 1 / 2 := by decide +kernel

/-- C65: fits for no epoch. -/
example : Toy.bc.params.get? "random_state" = some (.seed 5) ∧
    (Toy.outcome (B := Algo.bitwise.backend)
      (fitClassifier Algo.bitwise.backend Toy.env Toy.seq Toy.bc Toy.XB [0, 1, 2, 1] 0 0)).isSome ∧
    (Toy.outcome (B := Algo.classic.backend)
      (fitRegressor Algo.classic.backend Toy.env Toy.seq Toy.cr [Toy.xc] [0] 0)).isSome := by
  refine ⟨?_, ?_, ?_⟩ <;> decide +kernel

end Tsetlini
