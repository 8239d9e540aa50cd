import Verif.Spec.Chance
import Verif.Lemmas.Ieee
import Verif.Model.Env
/-
Counting words, and the relative error of rounding.
-/
namespace Tsetlini
open Spec

/-! ### Counting -/

theorem countP_range_mod (m c : Nat) (hc : c < m) (M : Nat) :
    ((List.range M).countP fun r => r % m == c) = M / m + if c < M % m then 1 else 0 := by
  induction M with
  | zero => simp
  | succ M ih =>
    rw [List.range_succ, List.countP_append, ih, List.countP_singleton]
    have h1 := Nat.div_add_mod M m
    have h2 : M % m < m := Nat.mod_lt _ (by omega)
    by_cases h : M % m + 1 < m
    · have e1 : (M + 1) / m = M / m ∧ (M + 1) % m = M % m + 1 := by
        rw [Nat.div_mod_unique (by omega)]; omega
      rw [e1.1, e1.2]
      generalize M / m = q at *
      generalize M % m = t at *
      by_cases hh : t = c
      · subst hh; simp
      · have : (t == c) = false := by simpa using hh
        rw [this]
        by_cases h3 : c < t
        · simp [h3, show c < t + 1 by omega]
        · simp [h3, show ¬ c < t + 1 by omega]
    · have e1 : (M + 1) / m = M / m + 1 ∧ (M + 1) % m = 0 := by
        rw [Nat.div_mod_unique (by omega), Nat.mul_add]; omega
      rw [e1.1, e1.2]
      generalize M / m = q at *
      generalize M % m = t at *
      by_cases hh : t = c
      · subst hh; simp
      · have : (t == c) = false := by simpa using hh
        rw [this]
        simp [show c < t by omega]

theorem countP_range_lt (k M : Nat) : ((List.range M).countP fun r => decide (r < k)) = min k M := by
  induction M with
  | zero => simp
  | succ M ih =>
    rw [List.range_succ, List.countP_append, ih, List.countP_singleton]
    by_cases h : M < k
    · simp only [h, decide_true]; simp; omega
    · simp only [h, decide_false]; simp; omega

/-- A predicate that holds below `a` holds for at least `a` words. -/
theorem le_countP_range {p : Nat → Bool} {a M : Nat} (ha : a ≤ M) (h : ∀ r < a, p r = true) : a ≤ (List.range M).countP p := by
  have h1 := countP_range_lt a M
  rw [Nat.min_eq_left ha] at h1
  rw [← h1]
  exact List.countP_mono_left fun r _ hr => h r (by simpa using hr)

/-- A predicate that fails from `b` on holds for at most `b` words. -/
theorem countP_range_le {p : Nat → Bool} {b M : Nat} (h : ∀ r < M, b ≤ r → p r = false) : (List.range M).countP p ≤ b := by
  have h1 := countP_range_lt b M
  refine Nat.le_trans ?_ (Nat.le_trans (Nat.le_of_eq h1) (Nat.min_le_left _ _))
  refine List.countP_mono_left fun r hr hp => ?_
  have hr := List.mem_range.1 hr
  simp only [decide_eq_true_eq]
  refine Nat.lt_of_not_le fun hb => ?_
  rw [h r hr hb] at hp
  cases hp

theorem ofNat_toNat {r : Nat} (h : r < 4294967296) : (BitVec.ofNat 32 r).toNat = r := by
  rw [BitVec.toNat_ofNat]; exact Nat.mod_eq_of_lt h

theorem ways_eq {p : BitVec 32 → Bool} {q : Nat → Bool} (h : ∀ r < 4294967296, p (BitVec.ofNat 32 r) = q r) :
    ways p = (List.range 4294967296).countP q := by
  unfold ways
  generalize 4294967296 = M at *
  refine List.countP_congr fun r hr => ?_
  have := h r (List.mem_range.1 hr)
  rw [this]

theorem ways_mod (m c : Nat) (hc : c < m) : Even m (ways fun r => r.toNat % m == c) := by
  rw [ways_eq (q := fun r => r % m == c) fun r hr => by rw [ofNat_toNat hr], countP_range_mod m c hc]
  unfold Even
  split
  · exact .inr rfl
  · exact .inl rfl

theorem ways_lt (k : Nat) : ways (fun r => decide (r.toNat < k)) = min k 4294967296 := by
  rw [ways_eq (q := fun r => decide (r < k)) fun r hr => by rw [ofNat_toNat hr]]
  exact countP_range_lt k _

theorem le_ways {p : BitVec 32 → Bool} {a : Nat} (ha : a ≤ 4294967296) (h : ∀ r : BitVec 32, r.toNat < a → p r = true) : a ≤ ways p := by
  unfold ways
  refine le_countP_range ha fun r hr => h _ ?_
  rw [ofNat_toNat (by omega)]; exact hr

theorem ways_le {p : BitVec 32 → Bool} {b : Nat} (h : ∀ r : BitVec 32, b ≤ r.toNat → p r = false) : ways p ≤ b := by
  unfold ways
  refine countP_range_le fun r hr hb => h _ ?_
  rw [ofNat_toNat hr]; exact hb

theorem sum_map_add (l : List Nat) (c : Nat) (p : Nat → Bool) :
    (l.map fun r => c + if p r then 1 else 0).sum = l.length * c + l.countP p := by
  induction l with
  | nil => simp
  | cons x l ih =>
    rw [List.map_cons, List.sum_cons, ih, List.length_cons, List.countP_cons, Nat.add_mul, Nat.one_mul]
    omega

theorem total_add (c : Nat) (p : BitVec 32 → Bool) : total (fun r => c + if p r then 1 else 0) = 4294967296 * c + ways p := by
  unfold total ways
  have := sum_map_add (List.range 4294967296) c fun r => p (BitVec.ofNat 32 r)
  rw [List.length_range] at this
  exact this

/-! ### The relative error of rounding -/

/-- `1 - 2^-24`. -/
def loss : Rat := 16777215 / 16777216

/-- `x` and `y` agree up to `i` roundings to 24 digits. -/
def Agree (i : Nat) (x y : Rat) : Prop := y * loss ^ i ≤ x ∧ x * loss ^ i ≤ y

theorem loss_pow_pos (i : Nat) : 0 < loss ^ i := Rat.pow_pos (by decide +kernel)

theorem loss_pow_le (i : Nat) : loss ^ i ≤ 1 := by
  induction i with
  | zero => decide +kernel
  | succ i ih =>
    rw [Rat.pow_succ]
    have := Rat.mul_le_mul_of_nonneg_left (show loss ≤ 1 by decide +kernel) (Rat.le_of_lt (loss_pow_pos i))
    grind

theorem loss_pow_add (i j : Nat) : loss ^ (i + j) = loss ^ i * loss ^ j := by
  induction j with
  | zero => rw [Nat.add_zero, Rat.pow_zero, Rat.mul_one]
  | succ j ih => rw [← Nat.add_assoc, Rat.pow_succ, Rat.pow_succ, ih, Rat.mul_assoc]

theorem Agree.symm {i : Nat} {x y : Rat} (h : Agree i x y) : Agree i y x := ⟨h.2, h.1⟩

theorem Agree.refl (x : Rat) : Agree 0 x x := by
  unfold Agree; rw [Rat.pow_zero]; grind

theorem Agree.nonneg {i : Nat} {x y : Rat} (h : Agree i x y) (hy : 0 ≤ y) : 0 ≤ x :=
  Rat.le_trans (Rat.mul_nonneg hy (Rat.le_of_lt (loss_pow_pos i))) h.1

theorem Agree.trans {i j : Nat} {x y z : Rat} (h : Agree i x y) (h' : Agree j y z) : Agree (i + j) x z := by
  constructor
  · rw [loss_pow_add, Rat.mul_comm (loss ^ i), ← Rat.mul_assoc]
    exact Rat.le_trans (Rat.mul_le_mul_of_nonneg_right h'.1 (Rat.le_of_lt (loss_pow_pos i))) h.1
  · rw [loss_pow_add, ← Rat.mul_assoc]
    exact Rat.le_trans (Rat.mul_le_mul_of_nonneg_right h.2 (Rat.le_of_lt (loss_pow_pos j))) h'.2

theorem Agree.mul {i j : Nat} {x y z w : Rat} (h : Agree i x y) (h' : Agree j z w) (hy : 0 ≤ y) (hw : 0 ≤ w) :
    Agree (i + j) (x * z) (y * w) := by
  have hx := h.nonneg hy
  have hz := h'.nonneg hw
  constructor
  · rw [loss_pow_add, show y * w * (loss ^ i * loss ^ j) = (y * loss ^ i) * (w * loss ^ j) by grind]
    exact Rat.le_trans (Rat.mul_le_mul_of_nonneg_right h.1 (Rat.mul_nonneg hw (Rat.le_of_lt (loss_pow_pos j))))
      (Rat.mul_le_mul_of_nonneg_left h'.1 hx)
  · rw [loss_pow_add, show x * z * (loss ^ i * loss ^ j) = (x * loss ^ i) * (z * loss ^ j) by grind]
    exact Rat.le_trans (Rat.mul_le_mul_of_nonneg_right h.2 (Rat.mul_nonneg hz (Rat.le_of_lt (loss_pow_pos j))))
      (Rat.mul_le_mul_of_nonneg_left h'.2 hy)

theorem Agree.inv {i : Nat} {x y : Rat} (h : Agree i x y) (hx : 0 < x) (hy : 0 < y) : Agree i (1 / x) (1 / y) := by
  have key : ∀ {x y : Rat}, 0 < x → 0 < y → x * loss ^ i ≤ y → 1 / y * loss ^ i ≤ 1 / x := by
    intro x y hx hy h
    have h1 := div_le_div' (div_le_div' h hy) hx
    have e1 : x * loss ^ i / y / x = 1 / y * loss ^ i := by
      rw [Rat.div_def, Rat.div_def, Rat.div_def]
      have : x * x⁻¹ = 1 := Rat.mul_inv_cancel _ (by grind)
      grind
    have e2 : y / y / x = 1 / x := by
      rw [show y / y = 1 by rw [Rat.div_def]; exact Rat.mul_inv_cancel _ (by grind)]
    rwa [e1, e2] at h1
  exact ⟨key hx hy h.2, key hy hx h.1⟩

/-- Rounding moves a number by at most half of its last digit. -/
theorem rnePos_err {p q : Nat} (hp : 1 ≤ p) {x : Rat} (hx : 0 ≤ x) :
    ∃ e : Rat, (rnePos p q x - x ≤ e / (2 ^ q : Nat) ∧ x - rnePos p q x ≤ e / (2 ^ q : Nat)) ∧
      (e = 1 / 2 ∨ e * (2 ^ p : Nat) ≤ x * (2 ^ q : Nat)) := by
  have hn := roundEven_near (x * (2 ^ q : Nat) / (2 ^ lastDigit p q x : Nat))
  have hs := @le_scaled p q x hx
  have hr : rnePos p q x = (roundEven (x * (2 ^ q : Nat) / (2 ^ lastDigit p q x : Nat)) : Rat) * (2 ^ lastDigit p q x : Nat) / (2 ^ q : Nat) := rfl
  rw [hr]
  generalize lastDigit p q x = k at *
  have hk := pow_pos_rat k
  have hq := pow_pos_rat q
  have ex : x = x * (2 ^ q : Nat) / (2 ^ q : Nat) := (mul_div' hq).symm
  generalize hX : x * (2 ^ q : Nat) = X at *
  have eX : X = X / (2 ^ k : Nat) * (2 ^ k : Nat) := (div_mul' hk).symm
  generalize hY : X / (2 ^ k : Nat) = Y at *
  generalize (roundEven Y : Rat) = R at *
  refine ⟨(2 ^ k : Nat) / 2, ⟨?_, ?_⟩, ?_⟩
  · have h1 : R * (2 ^ k : Nat) - X ≤ (2 ^ k : Nat) / 2 := by
      have := Rat.mul_le_mul_of_nonneg_right hn.1 (Rat.le_of_lt hk)
      rw [eX]; grind
    have := div_le_div' h1 hq
    rw [ex]
    rw [Rat.div_def] at this ⊢
    rw [Rat.div_def] at this ⊢
    grind
  · have h1 : X - R * (2 ^ k : Nat) ≤ (2 ^ k : Nat) / 2 := by
      have := Rat.mul_le_mul_of_nonneg_right hn.2 (Rat.le_of_lt hk)
      rw [eX]; grind
    have := div_le_div' h1 hq
    rw [ex]
    rw [Rat.div_def] at this ⊢
    rw [Rat.div_def] at this ⊢
    grind
  · by_cases h0 : k = 0
    · subst h0; left; decide +kernel
    · right
      have := hs (by omega)
      have e : ((2 ^ (p - 1 + k) : Nat) : Rat) = (2 ^ k : Nat) / 2 * (2 ^ p : Nat) := by
        have : 2 * 2 ^ (p - 1 + k) = 2 ^ k * 2 ^ p := by
          rw [← Nat.pow_add, ← Nat.pow_succ']; congr 1; omega
        have h2 : (2 : Rat) * (2 ^ (p - 1 + k) : Nat) = (2 ^ k : Nat) * (2 ^ p : Nat) := by exact_mod_cast this
        grind
      rwa [e] at this

/-- Rounding a normal number to binary32. -/
theorem rne32_agree {x : Rat} (hx : (1 : Rat) / (2 ^ 126 : Nat) ≤ x) : Agree 1 (rne32 x) x := by
  have h0 : 0 ≤ x := Rat.le_trans (by decide +kernel) hx
  obtain ⟨e, h1, h2⟩ := @rnePos_err 24 149 (by decide) x h0
  have hr : rne32 x = rnePos 24 149 x := if_pos h0
  rw [hr]
  have h3 : e / (2 ^ 149 : Nat) ≤ x / 16777216 := by
    rcases h2 with h2 | h2
    · subst h2
      have : (1 / 2 : Rat) / (2 ^ 149 : Nat) = (1 : Rat) / (2 ^ 126 : Nat) / 16777216 := by decide +kernel
      rw [this]
      exact div_le_div' hx (by decide +kernel)
    · have := div_le_div' (div_le_div' h2 (show (0 : Rat) < (2 ^ 24 : Nat) by decide +kernel)) (pow_pos_rat 149)
      rw [mul_div' (by decide +kernel)] at this
      rwa [show x * (2 ^ 149 : Nat) / (2 ^ 24 : Nat) = x / (2 ^ 24 : Nat) * (2 ^ 149 : Nat) by
        rw [Rat.div_def, Rat.div_def]; grind, mul_div' (pow_pos_rat 149)] at this
  unfold Agree
  rw [Rat.pow_succ, Rat.pow_zero, Rat.one_mul]
  generalize rnePos 24 149 x = R at *
  have h4 : loss = 1 - 1 / 16777216 := by decide +kernel
  rw [h4]
  have h5 : x / 16777216 = x * (1 / 16777216) := by rw [Rat.div_def, Rat.div_def, Rat.one_mul]
  rw [h5] at h3
  obtain ⟨h6, h7⟩ := h1
  constructor <;> grind

/-- Rounding any non-negative number. -/
theorem rne_near {p q : Nat} (hp : 1 ≤ p) {x : Rat} (h0 : 0 ≤ x) : Close (x / (2 ^ p : Nat) + 1 / (2 ^ (q + 1) : Nat)) (rne p q x) x := by
  obtain ⟨e, h1, h2⟩ := @rnePos_err p q hp x h0
  have hr : rne p q x = rnePos p q x := if_pos h0
  rw [hr]
  have hx : 0 ≤ x / (2 ^ p : Nat) := div_nonneg' h0 (pow_pos_rat p)
  have hη : (0 : Rat) ≤ 1 / (2 ^ (q + 1) : Nat) := div_nonneg' (by decide +kernel) (pow_pos_rat _)
  have h3 : e / (2 ^ q : Nat) ≤ x / (2 ^ p : Nat) + 1 / (2 ^ (q + 1) : Nat) := by
    rcases h2 with h2 | h2
    · subst h2
      have : (1 / 2 : Rat) / (2 ^ q : Nat) = (1 : Rat) / (2 ^ (q + 1) : Nat) := by
        rw [Nat.pow_succ, Rat.natCast_mul, Rat.div_def, Rat.div_def, Rat.div_def, Rat.inv_mul_rev, Rat.mul_comm]
        rw [Rat.one_mul, Rat.one_mul, Rat.mul_comm]
        rfl
      rw [this]
      grind
    · have := div_le_div' (div_le_div' h2 (pow_pos_rat p)) (pow_pos_rat q)
      rw [mul_div' (pow_pos_rat p)] at this
      have e : x * (2 ^ q : Nat) / (2 ^ p : Nat) / (2 ^ q : Nat) = x / (2 ^ p : Nat) := by
        rw [show x * (2 ^ q : Nat) / (2 ^ p : Nat) = x / (2 ^ p : Nat) * (2 ^ q : Nat) by
          rw [Rat.div_def, Rat.div_def]; grind, mul_div' (pow_pos_rat q)]
      rw [e] at this
      grind
  constructor <;> grind

/-- Rounding any non-negative number to binary32. -/
theorem rne32_close {x : Rat} (h0 : 0 ≤ x) : Close (x / 16777216 + 1 / (2 ^ 150 : Nat)) (rne32 x) x :=
  rne_near (p := 24) (q := 149) (by decide) h0

/-- ... and to binary64. -/
theorem rne64_close {x : Rat} (h0 : 0 ≤ x) : Close (x / 9007199254740992 + 1 / (2 ^ 1075 : Nat)) (rne64 x) x :=
  rne_near (p := 53) (q := 1074) (by decide) h0

theorem rne32_nonneg {x : Rat} (h : 0 ≤ x) : 0 ≤ rne32 x := by
  have := rne_mono (p := 24) (q := 149) (by decide) h
  rwa [show rne 24 149 0 = 0 by decide +kernel] at this

/-! ### The float generator against a threshold -/

theorem Agree.lower {i : Nat} {x y c : Rat} (h : Agree i x y) (hy : c ≤ y) (hc : 0 ≤ c) : c * loss ^ i ≤ x :=
  Rat.le_trans (Rat.mul_le_mul_of_nonneg_right hy (Rat.le_of_lt (loss_pow_pos i))) h.1

/-- Rounding once more. -/
theorem Agree.rnd {i : Nat} {x y : Rat} (h : Agree i x y) (hx : (1 : Rat) / (2 ^ 126 : Nat) ≤ x) : Agree (i + 1) (rne32 x) y := by
  have := (rne32_agree hx).trans h
  rwa [Nat.add_comm] at this

theorem frng_agree (y : BitVec 32) : Agree 3 (frngPost rne32 y) (((y.toNat : Rat) + 1 / 2) * (1 / 4294967296)) := by
  have h0 : (0 : Rat) ≤ y.toNat := by exact_mod_cast Nat.zero_le _
  have a : Agree 1 (rne32 (y.toNat : Rat)) y.toNat := by
    by_cases h : y.toNat = 0
    · rw [h]
      rw [show rne32 ((0 : Nat) : Rat) = 0 by decide +kernel]
      unfold Agree
      decide +kernel
    · refine rne32_agree ?_
      have : 1 ≤ y.toNat := by omega
      have : (1 : Rat) ≤ y.toNat := by exact_mod_cast this
      exact Rat.le_trans (by decide +kernel) this
  unfold frngPost
  have a0 := a.nonneg h0
  generalize rne32 (y.toNat : Rat) = A at *
  generalize (y.toNat : Rat) = Y at *
  have b : Agree 1 (A + 1 / 2) (Y + 1 / 2) := by
    have := loss_pow_le 1
    obtain ⟨a1, a2⟩ := a
    unfold Agree
    generalize loss ^ 1 = l at *
    constructor <;> grind
  have c := b.rnd (by have : (1 : Rat) / (2 ^ 126 : Nat) ≤ 1 / 2 := by decide +kernel
                      grind)
  have c0 : (1 / 2 : Rat) * loss ^ 2 ≤ rne32 (A + 1 / 2) := c.lower (by grind) (by decide +kernel)
  have d := c.mul (Agree.refl (1 / 4294967296)) (by grind) (by decide +kernel)
  refine d.rnd ?_
  have := Rat.mul_le_mul_of_nonneg_right c0 (show (0 : Rat) ≤ 1 / 4294967296 by decide +kernel)
  exact Rat.le_trans (by decide +kernel) this

/-- The words that send the float generator to at most `thr`, where `thr` is `W / 2^32` up to four roundings. -/
theorem ways_le_thr {thr W : Rat} (hW0 : 0 ≤ W) (hW1 : W ≤ 4294967296) (h : Agree 4 thr (W * (1 / 4294967296))) :
    Close (W / 2097152 + 1 / 2) (ways fun y => decide (frngPost rne32 y ≤ thr)) W := by
  have l7 : (0 : Rat) < loss ^ 7 := loss_pow_pos 7
  have e7 : loss ^ 7 = loss ^ 4 * loss ^ 3 := loss_pow_add 4 3
  have hlow : ∀ y : BitVec 32, (y.toNat : Rat) + 1 / 2 ≤ W * loss ^ 7 → frngPost rne32 y ≤ thr := by
    intro y hy
    have h3 := (frng_agree y).2
    have h4 := h.1
    have h5 : ((y.toNat : Rat) + 1 / 2) * (1 / 4294967296) ≤ W * (1 / 4294967296) * loss ^ 4 * loss ^ 3 := by
      have := Rat.mul_le_mul_of_nonneg_right hy (show (0 : Rat) ≤ 1 / 4294967296 by decide +kernel)
      rw [e7] at this
      grind
    have h6 := Rat.mul_le_mul_of_nonneg_right h4 (Rat.le_of_lt (loss_pow_pos 3))
    exact Rat.le_of_mul_le_mul_right (Rat.le_trans h3 (Rat.le_trans h5 h6)) (loss_pow_pos 3)
  have hhigh : ∀ y : BitVec 32, W < ((y.toNat : Rat) + 1 / 2) * loss ^ 7 → ¬ frngPost rne32 y ≤ thr := by
    intro y hy hc
    have h3 := (frng_agree y).1
    have h4 := h.2
    have h5 := Rat.mul_le_mul_of_nonneg_right (Rat.le_trans h3 hc) (Rat.le_of_lt (loss_pow_pos 4))
    have h6 := Rat.le_trans h5 h4
    rw [e7] at hy
    grind
  constructor
  · -- at most
    have hd0 : 0 ≤ W / loss ^ 7 + 1 / 2 := by
      have := div_nonneg' hW0 l7
      grind
    have hb0 : 0 ≤ (W / loss ^ 7 + 1 / 2).floor := Rat.le_floor_iff.2 (by simpa using hd0)
    have hb1 := rfloor_le (W / loss ^ 7 + 1 / 2)
    have hb2 := rlt_floor (W / loss ^ 7 + 1 / 2)
    obtain ⟨b, hb⟩ := Int.eq_ofNat_of_zero_le hb0
    rw [hb] at hb1 hb2
    have hb1 : (b : Rat) ≤ W / loss ^ 7 + 1 / 2 := by exact_mod_cast hb1
    have hb2 : W / loss ^ 7 + 1 / 2 < (b : Rat) + 1 := by exact_mod_cast hb2
    have hle : ways (fun y => decide (frngPost rne32 y ≤ thr)) ≤ b := by
      refine ways_le fun r hr => ?_
      have hr : (b : Rat) ≤ r.toNat := by exact_mod_cast hr
      have h1 : W / loss ^ 7 < (r.toNat : Rat) + 1 / 2 := by grind
      have h2 := Rat.mul_lt_mul_of_pos_right h1 l7
      rw [div_mul' l7] at h2
      simpa using hhigh r h2
    have hle : (ways (fun y => decide (frngPost rne32 y ≤ thr)) : Rat) ≤ b := by exact_mod_cast hle
    have e : W / loss ^ 7 ≤ W * (1 + 1 / 2097152) := by
      have : (1 : Rat) / loss ^ 7 ≤ 1 + 1 / 2097152 := by decide +kernel
      have := Rat.mul_le_mul_of_nonneg_left this hW0
      rwa [show W * (1 / loss ^ 7) = W / loss ^ 7 by rw [Rat.div_def, Rat.div_def, Rat.one_mul]] at this
    have e2 : W / 2097152 = W * (1 / 2097152) := by rw [Rat.div_def, Rat.div_def, Rat.one_mul]
    rw [e2]
    grind
  · -- at least
    have hd0 : 0 ≤ W * loss ^ 7 + 1 / 2 := by
      have := Rat.mul_nonneg hW0 (Rat.le_of_lt l7)
      grind
    have hb0 : 0 ≤ (W * loss ^ 7 + 1 / 2).floor := Rat.le_floor_iff.2 (by simpa using hd0)
    have hb1 := rfloor_le (W * loss ^ 7 + 1 / 2)
    have hb2 := rlt_floor (W * loss ^ 7 + 1 / 2)
    obtain ⟨b, hb⟩ := Int.eq_ofNat_of_zero_le hb0
    rw [hb] at hb1 hb2
    have hb1 : (b : Rat) ≤ W * loss ^ 7 + 1 / 2 := by exact_mod_cast hb1
    have hb2 : W * loss ^ 7 + 1 / 2 < (b : Rat) + 1 := by exact_mod_cast hb2
    have hW : W * loss ^ 7 ≤ W := by
      have := Rat.mul_le_mul_of_nonneg_left (loss_pow_le 7) hW0
      grind
    have hsm : b < 4294967297 := by
      have : (b : Rat) < (4294967297 : Nat) := by
        have : ((4294967297 : Nat) : Rat) = 4294967297 := by decide +kernel
        grind
      exact_mod_cast this
    have hle : b ≤ ways (fun y => decide (frngPost rne32 y ≤ thr)) := by
      refine le_ways (by omega) fun r hr => ?_
      have hr : ((r.toNat + 1 : Nat) : Rat) ≤ b := by exact_mod_cast hr
      rw [Rat.natCast_add] at hr
      have : ((1 : Nat) : Rat) = 1 := by decide +kernel
      simpa using hlow r (by grind)
    have hle : (b : Rat) ≤ (ways (fun y => decide (frngPost rne32 y ≤ thr)) : Rat) := by exact_mod_cast hle
    have e : W * (1 - 1 / 2097152) ≤ W * loss ^ 7 := by
      have : (1 : Rat) - 1 / 2097152 ≤ loss ^ 7 := by decide +kernel
      exact Rat.mul_le_mul_of_nonneg_left this hW0
    have e2 : W / 2097152 = W * (1 / 2097152) := by rw [Rat.div_def, Rat.div_def, Rat.one_mul]
    rw [e2]
    grind

end Tsetlini
