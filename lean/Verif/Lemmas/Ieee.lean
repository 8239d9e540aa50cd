import Verif.Model.Ieee
/- Laws of IEEE rounding. -/
namespace Tsetlini

theorem rfloor_le (x : Rat) : (x.floor : Rat) ≤ x := Rat.floor_le x
theorem rlt_floor (x : Rat) : x < (x.floor : Rat) + 1 := by
  have := Rat.lt_floor_add_one x; exact_mod_cast this

theorem rfloor_mono {x y : Rat} (h : x ≤ y) : x.floor ≤ y.floor :=
  Rat.le_floor_iff.2 (Rat.le_trans (rfloor_le x) h)

theorem roundEven_bounds (x : Rat) : x.floor ≤ roundEven x ∧ roundEven x ≤ x.floor + 1 := by
  unfold roundEven
  dsimp only
  split
  · omega
  · split
    · omega
    · split <;> omega

theorem roundEven_mono {x y : Rat} (h : x ≤ y) : roundEven x ≤ roundEven y := by
  have hf := rfloor_mono h
  have hx := roundEven_bounds x
  have hy := roundEven_bounds y
  by_cases he : x.floor = y.floor
  · unfold roundEven
    rw [he]
    dsimp only
    have : x - y.floor ≤ y - y.floor := by grind
    generalize x - (y.floor : Rat) = a at *
    generalize y - (y.floor : Rat) = b at *
    repeat' split
    all_goals first | omega | grind
  · omega

theorem roundEven_int (n : Int) : roundEven (n : Rat) = n := by
  unfold roundEven
  dsimp only
  rw [Rat.floor_intCast, show (n : Rat) - n = 0 by grind, if_pos (by decide +kernel)]

theorem roundEven_le {x : Rat} {n : Int} (h : x ≤ n) : roundEven x ≤ n := by
  have := roundEven_mono h; rwa [roundEven_int] at this

theorem le_roundEven {x : Rat} {n : Int} (h : n ≤ x) : n ≤ roundEven x := by
  have := roundEven_mono h; rwa [roundEven_int] at this

/-- The result is within half a unit. -/
theorem roundEven_near (x : Rat) : (roundEven x : Rat) - x ≤ 1/2 ∧ x - roundEven x ≤ 1/2 := by
  have h1 := rfloor_le x
  have h2 := rlt_floor x
  unfold roundEven
  dsimp only
  repeat' split
  all_goals (try push_cast); constructor <;> grind

theorem pow_pos_rat (k : Nat) : (0 : Rat) < ((2 ^ k : Nat) : Rat) := by
  have : 0 < 2 ^ k := Nat.pow_pos (by decide)
  exact_mod_cast this

theorem div_nonneg' {x y : Rat} (hx : 0 ≤ x) (hy : 0 < y) : 0 ≤ x / y := by
  rw [Rat.div_def]; exact Rat.mul_nonneg hx (Rat.le_of_lt (Rat.inv_pos.2 hy))

theorem div_le_div' {x y c : Rat} (h : x ≤ y) (hc : 0 < c) : x / c ≤ y / c := by
  rw [Rat.div_def, Rat.div_def]
  exact Rat.mul_le_mul_of_nonneg_right h (Rat.le_of_lt (Rat.inv_pos.2 hc))

theorem mul_div' {x c : Rat} (hc : 0 < c) : x * c / c = x := by
  rw [Rat.div_def, Rat.mul_assoc, Rat.mul_inv_cancel _ (by grind), Rat.mul_one]

theorem div_mul' {x c : Rat} (hc : 0 < c) : x / c * c = x := by
  rw [Rat.div_def, Rat.mul_assoc, Rat.mul_comm c⁻¹, Rat.mul_inv_cancel _ (by grind), Rat.mul_one]

theorem log2_mono {m n : Nat} (h : m ≤ n) : m.log2 ≤ n.log2 := by
  by_cases hm : m = 0
  · subst hm; exact Nat.zero_le _
  · rw [Nat.le_log2 (by omega)]
    exact Nat.le_trans (Nat.log2_self_le hm) h

theorem lastDigit_mono {p q : Nat} {x y : Rat} (h : x ≤ y) : lastDigit p q x ≤ lastDigit p q y := by
  unfold lastDigit
  have h1 := Rat.mul_le_mul_of_nonneg_right h (Rat.le_of_lt (pow_pos_rat q))
  have h2 := rfloor_mono h1
  have := log2_mono (Int.toNat_le_toNat h2)
  omega

section
variable {p q : Nat} {x : Rat}

theorem scaled_lt (hp : 1 ≤ p) (hx : 0 ≤ x) : x * (2 ^ q : Nat) < ((2 ^ (p + lastDigit p q x) : Nat) : Rat) := by
  have h0 : 0 ≤ (x * (2 ^ q : Nat)).floor :=
    Rat.le_floor_iff.2 (by simpa using Rat.mul_nonneg hx (Rat.le_of_lt (pow_pos_rat q)))
  have h1 := rlt_floor (x * (2 ^ q : Nat))
  unfold lastDigit
  generalize x * (2 ^ q : Nat) = X at *
  obtain ⟨m, hm⟩ := Int.eq_ofNat_of_zero_le h0
  have h1' : X < (m : Rat) + 1 := by rw [hm] at h1; exact_mod_cast h1
  rw [hm, Int.toNat_natCast]
  have h2 := Nat.lt_log2_self (n := m)
  have h3 : m + 1 ≤ 2 ^ (p + (m.log2 - (p - 1))) :=
    Nat.le_trans h2 (Nat.pow_le_pow_right (by decide) (by omega))
  have h4 : (m : Rat) + 1 ≤ ((2 ^ (p + (m.log2 - (p - 1))) : Nat) : Rat) := by exact_mod_cast h3
  grind

theorem le_scaled (hx : 0 ≤ x) (hk : 0 < lastDigit p q x) :
    ((2 ^ (p - 1 + lastDigit p q x) : Nat) : Rat) ≤ x * (2 ^ q : Nat) := by
  have h1 := rfloor_le (x * (2 ^ q : Nat))
  have h0 : 0 ≤ (x * (2 ^ q : Nat)).floor :=
    Rat.le_floor_iff.2 (by simpa using Rat.mul_nonneg hx (Rat.le_of_lt (pow_pos_rat q)))
  unfold lastDigit at hk ⊢
  generalize x * (2 ^ q : Nat) = X at *
  obtain ⟨m, hm⟩ := Int.eq_ofNat_of_zero_le h0
  have h1' : (m : Rat) ≤ X := by rw [hm] at h1; exact_mod_cast h1
  rw [hm, Int.toNat_natCast] at hk ⊢
  have hm0 : m ≠ 0 := fun e => by rw [e] at hk; simp at hk
  have h2 := Nat.log2_self_le hm0
  rw [show p - 1 + (m.log2 - (p - 1)) = m.log2 by omega]
  have : ((2 ^ m.log2 : Nat) : Rat) ≤ (m : Rat) := by exact_mod_cast h2
  grind

/-- The scaled result lies between the powers of two around the scaled argument. -/
theorem rnePos_le_pow (hp : 1 ≤ p) (hx : 0 ≤ x) :
    rnePos p q x * (2 ^ q : Nat) ≤ ((2 ^ (p + lastDigit p q x) : Nat) : Rat) := by
  unfold rnePos
  rw [div_mul' (pow_pos_rat q)]
  have h := Rat.le_of_lt (scaled_lt (q := q) hp hx)
  generalize lastDigit p q x = k at *
  have h1 : x * (2 ^ q : Nat) / (2 ^ k : Nat) ≤ (((2 ^ p : Nat) : Int) : Rat) := by
    have := div_le_div' h (pow_pos_rat k)
    rw [Nat.pow_add, Rat.natCast_mul, mul_div' (pow_pos_rat k)] at this
    exact_mod_cast this
  have h2 := roundEven_le h1
  have h3 : (roundEven (x * (2 ^ q : Nat) / (2 ^ k : Nat)) : Rat) ≤ (((2 ^ p : Nat) : Int) : Rat) :=
    Rat.intCast_le_intCast.2 h2
  rw [Nat.pow_add, Rat.natCast_mul]
  exact Rat.mul_le_mul_of_nonneg_right (by exact_mod_cast h3) (Rat.le_of_lt (pow_pos_rat k))

theorem pow_le_rnePos (hx : 0 ≤ x) (hk : 0 < lastDigit p q x) :
    ((2 ^ (p - 1 + lastDigit p q x) : Nat) : Rat) ≤ rnePos p q x * (2 ^ q : Nat) := by
  unfold rnePos
  rw [div_mul' (pow_pos_rat q)]
  have h := le_scaled (p := p) (q := q) hx hk
  generalize lastDigit p q x = k at *
  have h1 : (((2 ^ (p - 1) : Nat) : Int) : Rat) ≤ x * (2 ^ q : Nat) / (2 ^ k : Nat) := by
    have := div_le_div' h (pow_pos_rat k)
    rw [Nat.pow_add, Rat.natCast_mul, mul_div' (pow_pos_rat k)] at this
    exact_mod_cast this
  have h3 := Rat.intCast_le_intCast.2 (le_roundEven h1)
  rw [Nat.pow_add, Rat.natCast_mul]
  exact Rat.mul_le_mul_of_nonneg_right (by exact_mod_cast h3) (Rat.le_of_lt (pow_pos_rat k))

theorem rnePos_mono (hp : 1 ≤ p) {y : Rat} (hx : 0 ≤ x) (h : x ≤ y) : rnePos p q x ≤ rnePos p q y := by
  have hy : 0 ≤ y := Rat.le_trans hx h
  have hk := lastDigit_mono (p := p) (q := q) h
  rcases Nat.lt_or_ge (lastDigit p q x) (lastDigit p q y) with hlt | hge
  · have h1 := rnePos_le_pow (q := q) hp hx
    have h2 := pow_le_rnePos (p := p) (q := q) hy (by omega)
    have h3 : 2 ^ (p + lastDigit p q x) ≤ 2 ^ (p - 1 + lastDigit p q y) :=
      Nat.pow_le_pow_right (by decide) (by omega)
    have h4 : ((2 ^ (p + lastDigit p q x) : Nat) : Rat) ≤ ((2 ^ (p - 1 + lastDigit p q y) : Nat) : Rat) := by
      exact_mod_cast h3
    have h5 := div_le_div' (Rat.le_trans h1 (Rat.le_trans h4 h2)) (pow_pos_rat q)
    rwa [mul_div' (pow_pos_rat q), mul_div' (pow_pos_rat q)] at h5
  · have e : lastDigit p q y = lastDigit p q x := by omega
    unfold rnePos
    rw [e]
    apply div_le_div' _ (pow_pos_rat q)
    apply Rat.mul_le_mul_of_nonneg_right _ (Rat.le_of_lt (pow_pos_rat _))
    apply Rat.intCast_le_intCast.2
    apply roundEven_mono
    apply div_le_div' _ (pow_pos_rat _)
    exact Rat.mul_le_mul_of_nonneg_right h (Rat.le_of_lt (pow_pos_rat q))

theorem rnePos_nonneg (hx : 0 ≤ x) : 0 ≤ rnePos p q x := by
  unfold rnePos
  apply div_nonneg' _ (pow_pos_rat q)
  apply Rat.mul_nonneg _ (Rat.le_of_lt (pow_pos_rat _))
  have : ((0 : Int) : Rat) ≤ x * (2 ^ q : Nat) / (2 ^ lastDigit p q x : Nat) :=
    div_nonneg' (Rat.mul_nonneg hx (Rat.le_of_lt (pow_pos_rat q))) (pow_pos_rat _)
  exact_mod_cast Rat.intCast_le_intCast.2 (le_roundEven this)

theorem rne_mono (hp : 1 ≤ p) {x y : Rat} (h : x ≤ y) : rne p q x ≤ rne p q y := by
  unfold rne
  by_cases hx : 0 ≤ x
  · rw [if_pos hx, if_pos (Rat.le_trans hx h)]
    exact rnePos_mono hp hx h
  · rw [if_neg hx]
    have hx' : 0 ≤ -x := by grind
    by_cases hy : 0 ≤ y
    · rw [if_pos hy]
      have h1 := rnePos_nonneg (p := p) (q := q) hx'
      have h2 := rnePos_nonneg (p := p) (q := q) hy
      grind
    · rw [if_neg hy]
      have h1 := rnePos_mono (q := q) hp (x := -y) (y := -x) (by grind) (by grind)
      grind

/-- A number of which a multiple of its last digit is meant is not changed. -/
theorem rnePos_exact {n j : Nat} (hn : n ≤ 2 ^ p) (hp : 1 ≤ p) (hx : x * (2 ^ q : Nat) = ((n * 2 ^ j : Nat) : Rat)) :
    rnePos p q x = x := by
  have hk : ∃ m, n * 2 ^ j = m * 2 ^ lastDigit p q x := by
    unfold lastDigit
    rw [hx]
    have : ((n * 2 ^ j : Nat) : Rat).floor.toNat = n * 2 ^ j := by
      rw [show ((n * 2 ^ j : Nat) : Rat) = (((n * 2 ^ j : Nat) : Int) : Rat) from rfl, Rat.floor_intCast, Int.toNat_natCast]
    rw [this]
    by_cases he : n = 2 ^ p
    · subst he
      rw [← Nat.pow_add, Nat.log2_two_pow]
      exact ⟨2 ^ (p - 1), by rw [← Nat.pow_add]; congr 1; omega⟩
    · by_cases h0 : n = 0
      · subst h0; exact ⟨0, by simp⟩
      have hlt : n * 2 ^ j < 2 ^ (p + j) := by
        rw [Nat.pow_add]; exact Nat.mul_lt_mul_of_pos_right (by omega) (Nat.pow_pos (by decide))
      have hlog : (n * 2 ^ j).log2 < p + j :=
        (Nat.log2_lt (Nat.mul_ne_zero h0 (Nat.ne_of_gt (Nat.pow_pos (by decide))))).2 hlt
      refine ⟨n * 2 ^ (j - ((n * 2 ^ j).log2 - (p - 1))), ?_⟩
      rw [Nat.mul_assoc, ← Nat.pow_add]
      congr 2; omega
  obtain ⟨m, hm⟩ := hk
  unfold rnePos
  generalize lastDigit p q x = k at *
  rw [hx, hm, Rat.natCast_mul, mul_div' (pow_pos_rat k), show ((m : Nat) : Rat) = ((m : Int) : Rat) from rfl, roundEven_int]
  have : ((m : Int) : Rat) * ((2 ^ k : Nat) : Rat) = x * (2 ^ q : Nat) := by
    rw [hx, hm, Rat.natCast_mul]; rfl
  rw [this, mul_div' (pow_pos_rat q)]

theorem rne_neg (x : Rat) : rne p q (-x) = - rne p q x := by
  have z : rnePos p q 0 = 0 := by
    unfold rnePos
    rw [Rat.zero_mul, show (0 : Rat) / ((2 ^ lastDigit p q 0 : Nat) : Rat) = ((0 : Int) : Rat) by
      rw [Rat.div_def, Rat.zero_mul]; rfl, roundEven_int]
    rw [show ((0 : Int) : Rat) = 0 from rfl, Rat.zero_mul, Rat.div_def, Rat.zero_mul]
  unfold rne
  by_cases h : x = 0
  · subst h
    rw [show -(0 : Rat) = 0 by grind, if_pos (by grind), z]
    grind
  · by_cases hx : 0 ≤ x
    · rw [if_neg (by grind), if_pos hx, show - -x = x by grind]
    · rw [if_pos (by grind), if_neg hx, show - -rnePos p q (-x) = rnePos p q (-x) by grind]

theorem rne_exact_abs {x : Rat} {n j : Nat} (hn : n ≤ 2 ^ p) (hp : 1 ≤ p)
    (hx : x * (2 ^ q : Nat) = ((n * 2 ^ j : Nat) : Rat) ∨ -x * (2 ^ q : Nat) = ((n * 2 ^ j : Nat) : Rat)) :
    rne p q x = x := by
  have pos : ∀ z : Rat, z * (2 ^ q : Nat) = ((n * 2 ^ j : Nat) : Rat) → rne p q z = z := by
    intro z hz
    have h0 : 0 ≤ z := by
      have : z = ((n * 2 ^ j : Nat) : Rat) / (2 ^ q : Nat) := by rw [← hz, mul_div' (pow_pos_rat q)]
      rw [this]
      exact div_nonneg' (by exact_mod_cast Nat.zero_le _) (pow_pos_rat q)
    unfold rne
    rw [if_pos h0, rnePos_exact hn hp hz]
  rcases hx with h | h
  · exact pos x h
  · have := pos _ h
    rw [rne_neg] at this
    grind

theorem rne_exact (hp : 1 ≤ p) {m : Int} (hm : m.natAbs ≤ 2 ^ p) {k : Nat} (hk : k ≤ q) :
    rne p q (m / (2 ^ k : Nat)) = m / (2 ^ k : Nat) := by
  have e : ((m : Rat) / (2 ^ k : Nat)) * (2 ^ q : Nat) = m * ((2 ^ (q - k) : Nat) : Rat) := by
    have : ((2 ^ q : Nat) : Rat) = ((2 ^ k : Nat) : Rat) * ((2 ^ (q - k) : Nat) : Rat) := by
      rw [← Rat.natCast_mul, ← Nat.pow_add]; congr 2; omega
    rw [this, ← Rat.mul_assoc, div_mul' (pow_pos_rat k)]
  refine rne_exact_abs (n := m.natAbs) (j := q - k) hm hp ?_
  rw [Rat.neg_mul, e, Rat.natCast_mul]
  rcases Int.natAbs_eq m with h | h
  · left; rw [show ((m.natAbs : Nat) : Rat) = ((m.natAbs : Int) : Rat) from rfl, ← h]
  · right
    have : ((m.natAbs : Nat) : Rat) = -(m : Rat) := by
      rw [show ((m.natAbs : Nat) : Rat) = ((m.natAbs : Int) : Rat) from rfl, ← Rat.intCast_neg]
      congr 1; omega
    rw [this, Rat.neg_mul]

theorem rne_exact_up (hp : 1 ≤ p) {m : Int} (hm : m.natAbs ≤ 2 ^ p) (k : Nat) :
    rne p q (m * (2 ^ k : Nat)) = m * (2 ^ k : Nat) := by
  refine rne_exact_abs (n := m.natAbs) (j := k + q) hm hp ?_
  have e : (m : Rat) * (2 ^ k : Nat) * (2 ^ q : Nat) = m * ((2 ^ (k + q) : Nat) : Rat) := by
    rw [Rat.mul_assoc, ← Rat.natCast_mul, ← Nat.pow_add]
  rw [Rat.neg_mul, e, Rat.natCast_mul]
  rcases Int.natAbs_eq m with h | h
  · left; rw [show ((m.natAbs : Nat) : Rat) = ((m.natAbs : Int) : Rat) from rfl, ← h]
  · right
    have : ((m.natAbs : Nat) : Rat) = -(m : Rat) := by
      rw [show ((m.natAbs : Nat) : Rat) = ((m.natAbs : Int) : Rat) from rfl, ← Rat.intCast_neg]
      congr 1; omega
    rw [this, Rat.neg_mul]

end

theorem rnePos_shape (hp : 1 ≤ p) {x : Rat} (hx : 0 ≤ x) :
    ∃ n j : Nat, n ≤ 2 ^ p ∧ rnePos p q x * (2 ^ q : Nat) = ((n * 2 ^ j : Nat) : Rat) := by
  have h0 : (0 : Int) ≤ roundEven (x * (2 ^ q : Nat) / (2 ^ lastDigit p q x : Nat)) := by
    refine le_roundEven ?_
    exact div_nonneg' (Rat.mul_nonneg hx (Rat.le_of_lt (pow_pos_rat q))) (pow_pos_rat _)
  have h1 : roundEven (x * (2 ^ q : Nat) / (2 ^ lastDigit p q x : Nat)) ≤ ((2 ^ p : Nat) : Int) := by
    refine roundEven_le ?_
    have := div_le_div' (Rat.le_of_lt (scaled_lt (q := q) hp hx)) (pow_pos_rat (lastDigit p q x))
    rwa [Nat.pow_add, Rat.natCast_mul, mul_div' (pow_pos_rat _)] at this
  refine ⟨(roundEven (x * (2 ^ q : Nat) / (2 ^ lastDigit p q x : Nat))).toNat, lastDigit p q x, by omega, ?_⟩
  unfold rnePos
  rw [div_mul' (pow_pos_rat q), Rat.natCast_mul]
  congr 1
  generalize roundEven (x * (2 ^ q : Nat) / (2 ^ lastDigit p q x : Nat)) = m at *
  rw [show ((m.toNat : Nat) : Rat) = ((m.toNat : Int) : Rat) from rfl, Int.toNat_of_nonneg h0]

/-- Rounding twice is rounding once. -/
theorem rne_idem (hp : 1 ≤ p) (x : Rat) : rne p q (rne p q x) = rne p q x := by
  have pos : ∀ z : Rat, 0 ≤ z → rne p q (rnePos p q z) = rnePos p q z := by
    intro z hz
    obtain ⟨n, j, hn, e⟩ := rnePos_shape (q := q) hp hz
    exact rne_exact_abs hn hp (.inl e)
  by_cases hx : 0 ≤ x
  · have : rne p q x = rnePos p q x := by unfold rne; rw [if_pos hx]
    rw [this, pos x hx]
  · have : rne p q x = - rnePos p q (-x) := by unfold rne; rw [if_neg hx]
    rw [this, rne_neg, pos (-x) (by grind)]

end Tsetlini
