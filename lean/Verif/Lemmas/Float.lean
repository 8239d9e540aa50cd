import Verif.Model.Estimator
import Verif.Lemmas.Res
/- Rounding. -/
namespace Tsetlini
open Res

variable (env : Env)

theorem rnd_int {m : Int} (h : m.natAbs ≤ 16777216) : env.rnd m = m := by
  have := env.rnd_exact_law m 0 (by simpa using h) (by omega)
  rwa [show ((2 ^ 0 : Nat) : Rat) = 1 by rfl, Rat.div_def, show (1:Rat)⁻¹ = 1 by grind, Rat.mul_one] at this

theorem rnd_zero : env.rnd 0 = 0 := rnd_int env (m := 0) (by decide)
theorem rnd_one : env.rnd 1 = 1 := rnd_int env (m := 1) (by decide)

theorem rnd_pow (k : Nat) (hk : k ≤ 104) : env.rnd ((2 ^ k : Nat) : Rat) = ((2 ^ k : Nat) : Rat) := by
  have := env.rnd_exact_up_law 1 k (by decide) hk
  simpa [Rat.one_mul] using this

theorem rnd_nonneg {x : Rat} (h : 0 ≤ x) : 0 ≤ env.rnd x := by
  have := env.rnd_mono_law 0 x h; rwa [rnd_zero] at this

theorem rnd_le_one {x : Rat} (h : x ≤ 1) : env.rnd x ≤ 1 := by
  have := env.rnd_mono_law x 1 h; rwa [rnd_one] at this

theorem rnd_le_int {x : Rat} {m : Int} (hm : m.natAbs ≤ 16777216) (h : x ≤ m) : env.rnd x ≤ m := by
  have := env.rnd_mono_law x m h; rwa [rnd_int env hm] at this

theorem rnd_ge_int {x : Rat} {m : Int} (hm : m.natAbs ≤ 16777216) (h : m ≤ x) : m ≤ env.rnd x := by
  have := env.rnd_mono_law m x h; rwa [rnd_int env hm] at this

theorem rnd_le_mulpow {x : Rat} {m : Int} {k : Nat} (hm : m.natAbs ≤ 16777216) (hk : k ≤ 104)
    (h : x ≤ m * ((2 ^ k : Nat) : Rat)) : env.rnd x ≤ m * ((2 ^ k : Nat) : Rat) := by
  have := env.rnd_mono_law _ _ h; rwa [env.rnd_exact_up_law m k (by simpa using hm) hk] at this

theorem rnd64_int {m : Int} (h : m.natAbs ≤ 9007199254740992) : env.rnd64 m = m := by
  have := env.rnd64_exact_law m 0 (by simpa using h) (by omega)
  rwa [show ((2 ^ 0 : Nat) : Rat) = 1 by rfl, Rat.div_def, show (1:Rat)⁻¹ = 1 by grind, Rat.mul_one] at this

theorem rnd64_bounds {x : Rat} {lo hi : Int} (h1 : lo.natAbs ≤ 9007199254740992)
    (h2 : hi.natAbs ≤ 9007199254740992) (hl : lo ≤ x) (hh : x ≤ hi) :
    (lo : Rat) ≤ env.rnd64 x ∧ env.rnd64 x ≤ hi := by
  have a := env.rnd64_mono_law _ _ hl
  have b := env.rnd64_mono_law _ _ hh
  rw [rnd64_int env h1] at a
  rw [rnd64_int env h2] at b
  exact ⟨a, b⟩

theorem toUnsigned_ok {m : Int} (h0 : 0 ≤ m) (h1 : m < 4294967296) : toUnsigned m = .ok m.toNat := by
  unfold toUnsigned
  have a : (-1 : Rat) < (m : Rat) := by
    have : ((-1 : Int) : Rat) < (m : Rat) := Rat.intCast_lt_intCast.2 (by omega)
    exact this
  have b : (m : Rat) < 4294967296 := by
    have : (m : Rat) < ((4294967296 : Int) : Rat) := Rat.intCast_lt_intCast.2 h1
    exact this
  rw [if_pos ⟨a, b⟩, Rat.floor_intCast]

theorem roundHalfAway_range {x : Rat} {hi : Int} (h0 : 0 ≤ x) (h1 : x ≤ hi) :
    0 ≤ roundHalfAway x ∧ roundHalfAway x ≤ hi := by
  unfold roundHalfAway
  rw [if_pos h0]
  constructor
  · apply Rat.le_floor_iff.2
    grind
  · have : (x + 1/2).floor < hi + 1 := by
      apply Rat.floor_lt_iff.2
      push_cast
      grind
    omega

theorem rat_div_le {q : Rat} (h : 1 ≤ q) : 0 ≤ 1 / q ∧ 1 / q ≤ 1 := by
  have h0 : 0 < q := by grind
  have hi : 0 < q⁻¹ := Rat.inv_pos.2 h0
  rw [Rat.div_def, Rat.one_mul]
  refine ⟨Rat.le_of_lt hi, ?_⟩
  have := Rat.mul_le_mul_of_nonneg_right h (Rat.le_of_lt hi)
  rw [Rat.one_mul, Rat.mul_inv_cancel _ (by grind)] at this
  exact this

theorem floor_le' (x : Rat) : (x.floor : Rat) ≤ x := Rat.floor_le x
theorem lt_floor' (x : Rat) : x < (x.floor : Rat) + 1 := by
  have := Rat.lt_floor (x := x); grind

theorem make_ret {q : Rat} (hq : 1 ≤ q) {n : Nat} (hn : n ≤ 2147483648) :
    (CoinTosser.make env (.fin q) n).Ret fun ct =>
      ct.cache1 = List.replicate n false ∧ ct.cache2 = List.replicate n false ∧
      (ct.hitsFloor : Int) = (env.rnd (env.rnd (1 / q) * env.rnd n)).floor ∧
      (n ≤ 16777216 → ct.hitsFloor + (if 0 < ct.thr then 1 else 0) ≤ n) ∧
      (n = 0 → ct.hitsFloor = 0 ∧ ct.thr = 0) := by
  unfold CoinTosser.make
  dsimp only
  rw [if_neg (by grind)]
  have hs := rat_div_le hq
  have hs0 : 0 ≤ env.rnd (1 / q) := rnd_nonneg env hs.1
  have hs1 : env.rnd (1 / q) ≤ 1 := rnd_le_one env hs.2
  generalize env.rnd (1 / q) = sInv at *
  have hn0 : 0 ≤ env.rnd n := rnd_nonneg env (by exact_mod_cast Nat.zero_le n)
  have hnb : env.rnd n ≤ ((2 ^ 31 : Nat) : Rat) := by
    rw [← rnd_pow env 31 (by omega)]
    apply env.rnd_mono_law
    exact_mod_cast hn
  have hp0 : 0 ≤ sInv * env.rnd n := Rat.mul_nonneg hs0 hn0
  have hp1 : sInv * env.rnd n ≤ env.rnd n := by
    have := Rat.mul_le_mul_of_nonneg_right hs1 hn0; rwa [Rat.one_mul] at this
  have hP0 : 0 ≤ env.rnd (sInv * env.rnd n) := rnd_nonneg env hp0
  have hP1 : env.rnd (sInv * env.rnd n) ≤ ((2 ^ 31 : Nat) : Rat) := by
    rw [← rnd_pow env 31 (by omega)]
    exact env.rnd_mono_law _ _ (Rat.le_trans hp1 hnb)
  have hP2 : n ≤ 16777216 → env.rnd (sInv * env.rnd n) ≤ n := by
    intro h
    have e : env.rnd n = n := rnd_int env (m := n) (by simpa using h)
    have := env.rnd_mono_law _ _ hp1
    rw [e, e] at this
    rw [e]; exact this
  generalize env.rnd (sInv * env.rnd n) = P at *
  have f1 := floor_le' P
  have f2 := lt_floor' P
  have hf0 : 0 ≤ P.floor := Rat.le_floor_iff.2 (by simpa using hP0)
  have hf1 : P.floor ≤ 2147483648 := by
    have : (P.floor : Rat) ≤ ((2147483648 : Int) : Rat) := Rat.le_trans f1 hP1
    exact Rat.intCast_le_intCast.1 this
  rw [toUnsigned_ok hf0 (by omega), ok_bind]
  have g0 : 0 ≤ P - P.floor := by grind
  have g1 : P - P.floor ≤ 1 := by grind
  have F0 : 0 ≤ env.rnd (P - P.floor) := rnd_nonneg env g0
  have F1 : env.rnd (P - P.floor) ≤ 1 := rnd_le_one env g1
  have Fz : P = P.floor → env.rnd (P - P.floor) = 0 := by
    intro h
    rw [show P - P.floor = 0 by grind]; exact rnd_zero env
  generalize env.rnd (P - P.floor) = F at *
  have hr := rnd64_bounds env (x := F * 4294967295) (lo := 0) (hi := 4294967295) (by decide) (by decide)
    (by push_cast; grind) (by push_cast; grind)
  have hz : F = 0 → env.rnd64 (F * 4294967295) = 0 := by
    intro h; rw [h, Rat.zero_mul]; exact rnd64_int env (m := 0) (by decide)
  generalize env.rnd64 (F * 4294967295) = D at *
  have hR := roundHalfAway_range hr.1 hr.2
  rw [toUnsigned_ok hR.1 (by omega), ok_bind, ret_ok]
  have hthr : P = P.floor → (roundHalfAway D).toNat = 0 := by
    intro h
    rw [hz (Fz h)]; decide +kernel
  have big : n ≤ 16777216 → P.floor.toNat + (if 0 < (roundHalfAway D).toNat then 1 else 0) ≤ n := by
    intro h
    have h2 := hP2 h
    have h3 : P.floor ≤ n := by
      have : (P.floor : Rat) ≤ ((n : Int) : Rat) := Rat.le_trans f1 h2
      exact Rat.intCast_le_intCast.1 this
    by_cases he : P = P.floor
    · rw [hthr he]; simp; omega
    · have : P.floor < n := by
        have h4 : (P.floor : Rat) < ((n : Int) : Rat) := by
          have h5 : (P.floor : Rat) < P := by grind
          have h6 : P ≤ ((n : Int) : Rat) := h2
          grind
        exact Rat.intCast_lt_intCast.1 h4
      split <;> omega
  refine ⟨rfl, rfl, ?_, big, ?_⟩
  · dsimp only; omega
  · rintro rfl
    have := big (by omega)
    dsimp only
    constructor
    · omega
    · split at this <;> omega

end Tsetlini
