import Verif.Lemmas.GrisuDigits
import Verif.Lemmas.JsonFormat
import Verif.Lemmas.Ieee
import Verif.Spec.JsonText
namespace Tsetlini
open Spec

/-! ### Numbers that round to a given one -/

theorem roundEven_eq {x : Rat} {n : Int} (h1 : (n : Rat) - 1/2 < x) (h2 : x < n + 1/2) : roundEven x = n := by
  obtain ⟨g1, g2⟩ := roundEven_near x
  have a1 : (roundEven x : Rat) < (n + 1 : Int) := by rw [Rat.intCast_add]; simp only [Rat.intCast_one]; grind
  have a2 : ((n - 1 : Int) : Rat) < roundEven x := by rw [Rat.intCast_sub]; simp only [Rat.intCast_one]; grind
  have := Rat.intCast_lt_intCast.1 a1
  have := Rat.intCast_lt_intCast.1 a2
  omega

theorem floor_toNat_bounds {X : Rat} {a b : Nat} (h1 : (a : Rat) ≤ X) (h2 : X < (b : Rat)) : a ≤ X.floor.toNat ∧ X.floor.toNat < b := by
  have g1 : ((a : Nat) : Int) ≤ X.floor := Rat.le_floor_iff.2 (by exact_mod_cast h1)
  have g2 : X.floor < (b : Int) := by
    have := rfloor_le X
    have : (X.floor : Rat) < ((b : Int) : Rat) := by
      have hb : ((b : Int) : Rat) = (b : Rat) := by norm_cast
      rw [hb]; grind
    exact Rat.intCast_lt_intCast.1 this
  omega

theorem log2_eq {n k : Nat} (h1 : 2 ^ k ≤ n) (h2 : n < 2 ^ (k + 1)) : n.log2 = k := by
  have hn : n ≠ 0 := by
    have : 0 < 2 ^ k := Nat.pow_pos (by decide)
    omega
  have a := (Nat.le_log2 hn).2 h1
  have b := (Nat.log2_lt hn).2 h2
  omega

/-- A number nearer to a double than to its neighbours is rounded to it. -/
theorem rne64_interval {f k : Nat} {x : Rat} (hf : f < 2 ^ 53) (hf0 : 0 < f) (hn : k = 0 ∨ 2 ^ 52 ≤ f)
    (hlo : ((2 * f - 1 : Nat) : Rat) * (2 ^ k : Nat) < 2 * (x * (2 ^ 1074 : Nat)))
    (hhi : 2 * (x * (2 ^ 1074 : Nat)) < ((2 * f + 1 : Nat) : Rat) * (2 ^ k : Nat))
    (hcl : f = 2 ^ 52 → 1 ≤ k → ((4 * f - 1 : Nat) : Rat) * (2 ^ k : Nat) < 4 * (x * (2 ^ 1074 : Nat))) :
    rne64 x * (2 ^ 1074 : Nat) = ((f * 2 ^ k : Nat) : Rat) := by
  have hP := pow_pos_rat k
  have hx : 0 ≤ x := by
    have h1 : 0 ≤ ((2 * f - 1 : Nat) : Rat) * (2 ^ k : Nat) := Rat.mul_nonneg (by exact_mod_cast Nat.zero_le _) (Rat.le_of_lt hP)
    have h2 : 0 < x * (2 ^ 1074 : Nat) := by grind
    rcases Rat.le_total (a := 0) (b := x) with h | h
    · exact h
    · have : x * (2 ^ 1074 : Nat) ≤ 0 * (2 ^ 1074 : Nat) := Rat.mul_le_mul_of_nonneg_right h (Rat.le_of_lt (pow_pos_rat 1074))
      rw [Rat.zero_mul] at this
      grind
  unfold rne64 rne
  rw [if_pos hx]
  unfold rnePos
  rw [div_mul' (pow_pos_rat 1074)]
  have hcast : ((2 * f - 1 : Nat) : Rat) = 2 * (f : Rat) - 1 := by
    have : ((2 * f - 1 : Nat) : Rat) + 1 = 2 * (f : Rat) := by
      have : 2 * f - 1 + 1 = 2 * f := by omega
      exact_mod_cast congrArg (Nat.cast : Nat → Rat) this
    grind
  have hcast2 : ((2 * f + 1 : Nat) : Rat) = 2 * (f : Rat) + 1 := by norm_cast
  have hcast4 : ((4 * f - 1 : Nat) : Rat) = 4 * (f : Rat) - 1 := by
    have : ((4 * f - 1 : Nat) : Rat) + 1 = 4 * (f : Rat) := by
      have : 4 * f - 1 + 1 = 4 * f := by omega
      exact_mod_cast congrArg (Nat.cast : Nat → Rat) this
    grind
  rw [hcast] at hlo
  rw [hcast2] at hhi
  rw [hcast4] at hcl
  unfold lastDigit
  generalize hX : x * (2 ^ 1074 : Nat) = X at *
  -- the regular case
  have regular : X.floor.toNat.log2 - (53 - 1) = k →
      (roundEven (X / (2 ^ (X.floor.toNat.log2 - (53 - 1)) : Nat)) : Rat) * (2 ^ (X.floor.toNat.log2 - (53 - 1)) : Nat) = ((f * 2 ^ k : Nat) : Rat) := by
    intro hk
    rw [hk]
    have : roundEven (X / (2 ^ k : Nat)) = (f : Int) := by
      have e : X / (2 ^ k : Nat) * (2 ^ k : Nat) = X := div_mul' hP
      refine roundEven_eq ?_ ?_
      · refine Rat.not_le.1 fun hc => ?_
        have := Rat.mul_le_mul_of_nonneg_right hc (Rat.le_of_lt hP)
        rw [e] at this
        have hfc : (((f : Nat) : Int) : Rat) = (f : Rat) := by norm_cast
        rw [hfc] at this
        grind
      · refine Rat.not_le.1 fun hc => ?_
        have := Rat.mul_le_mul_of_nonneg_right hc (Rat.le_of_lt hP)
        rw [e] at this
        have hfc : (((f : Nat) : Int) : Rat) = (f : Rat) := by norm_cast
        rw [hfc] at this
        grind
    rw [this, Rat.natCast_mul]
    have hfc : (((f : Nat) : Int) : Rat) = (f : Rat) := by norm_cast
    rw [hfc]
  have hpk : ∀ a : Nat, ((a * 2 ^ k : Nat) : Rat) = (a : Rat) * ((2 ^ k : Nat) : Rat) := fun a => by rw [Rat.natCast_mul]
  have hle : ∀ {a b : Nat}, a ≤ b → (a : Rat) * ((2 ^ k : Nat) : Rat) ≤ (b : Rat) * ((2 ^ k : Nat) : Rat) := fun h =>
    Rat.mul_le_mul_of_nonneg_right (by exact_mod_cast h) (Rat.le_of_lt hP)
  have hup : X < ((2 ^ 53 * 2 ^ k : Nat) : Rat) := by
    rw [hpk]
    have := hle (show f + 1 ≤ 2 ^ 53 by omega)
    have e : ((f + 1 : Nat) : Rat) = (f : Rat) + 1 := by norm_cast
    rw [e] at this
    grind
  rcases Nat.eq_zero_or_pos k with hk0 | hk0
  · refine regular ?_
    subst hk0
    have hX0 : ((0 : Nat) : Rat) ≤ X := by
      have : (0 : Rat) ≤ (f : Rat) := by exact_mod_cast Nat.zero_le f
      have : (1 : Rat) ≤ (f : Rat) := by exact_mod_cast hf0
      have h1 : ((2 ^ 0 : Nat) : Rat) = 1 := by rw [Nat.pow_zero]; rfl
      rw [h1] at hlo
      have : ((0 : Nat) : Rat) = 0 := by norm_cast
      rw [this]
      grind
    obtain ⟨-, h2⟩ := floor_toNat_bounds hX0 hup
    have : X.floor.toNat.log2 ≤ 52 := by
      rcases Nat.eq_zero_or_pos X.floor.toNat with h | h
      · rw [h]; simp
      · have := (Nat.log2_lt (k := 53) (n := X.floor.toNat) (by omega)).2 (by omega)
        omega
    omega
  · have hf52 : 2 ^ 52 ≤ f := by omega
    by_cases hXl : ((2 ^ 52 * 2 ^ k : Nat) : Rat) ≤ X
    · refine regular ?_
      obtain ⟨h1, h2⟩ := floor_toNat_bounds hXl hup
      rw [← Nat.pow_add] at h1 h2
      have := log2_eq (k := 52 + k) h1 (by rw [show 52 + k + 1 = 53 + k by omega]; exact h2)
      omega
    · have hXl' : X < ((2 ^ 52 * 2 ^ k : Nat) : Rat) := Rat.not_le.1 hXl
      -- the double is a power of two and the number below it
      have hfe : f = 2 ^ 52 := by
        rcases Nat.lt_or_ge (2 ^ 52) f with h | h
        · have := hle h
          have e : ((2 ^ 52 + 1 : Nat) : Rat) = ((2 ^ 52 : Nat) : Rat) + 1 := by norm_cast
          rw [e] at this
          rw [hpk] at hXl'
          grind
        · omega
      have hc := hcl hfe hk0
      obtain ⟨j, rfl⟩ : ∃ j, k = j + 1 := ⟨k - 1, by omega⟩
      have hP' := pow_pos_rat j
      have hPP : ((2 ^ (j + 1) : Nat) : Rat) = 2 * ((2 ^ j : Nat) : Rat) := by
        rw [Nat.pow_succ, Nat.mul_comm, Rat.natCast_mul]; norm_cast
      rw [hPP] at hc hlo
      have hXge : ((2 ^ 52 * 2 ^ j : Nat) : Rat) ≤ X := by
        rw [Rat.natCast_mul, ← hfe]
        have : (1 : Rat) ≤ (f : Rat) := by exact_mod_cast hf0
        have : 1 * ((2 ^ j : Nat) : Rat) ≤ (f : Rat) * ((2 ^ j : Nat) : Rat) := Rat.mul_le_mul_of_nonneg_right this (Rat.le_of_lt hP')
        grind
      obtain ⟨h1, h2⟩ := floor_toNat_bounds hXge hXl'
      rw [← Nat.pow_add] at h1 h2
      have hl := log2_eq (k := 52 + j) h1 (by rw [show 52 + j + 1 = 52 + (j + 1) by omega]; exact h2)
      rw [hl, show 52 + j - (53 - 1) = j by omega]
      have : roundEven (X / (2 ^ j : Nat)) = ((2 * f : Nat) : Int) := by
        have e : X / (2 ^ j : Nat) * (2 ^ j : Nat) = X := div_mul' hP'
        have hfc : (((2 * f : Nat) : Int) : Rat) = 2 * (f : Rat) := by norm_cast
        refine roundEven_eq ?_ ?_
        · refine Rat.not_le.1 fun hc' => ?_
          have := Rat.mul_le_mul_of_nonneg_right hc' (Rat.le_of_lt hP')
          rw [e, hfc] at this
          grind
        · refine Rat.not_le.1 fun hc' => ?_
          have := Rat.mul_le_mul_of_nonneg_right hc' (Rat.le_of_lt hP')
          rw [e, hfc] at this
          rw [Rat.natCast_mul, hPP, ← hfe] at hXl'
          grind
      rw [this, Rat.natCast_mul, hPP]
      have hfc : (((2 * f : Nat) : Int) : Rat) = 2 * (f : Rat) := by norm_cast
      rw [hfc]
      grind

/-! ### The pieces of Grisu -/

/-- `diyfp::mul` is the rounded upper half of the product. -/
theorem mul_spec {x y : Diyfp} (hx : x.f < 18446744073709551616) (hy : y.f < 18446744073709551616) :
    x.mul y = ⟨(x.f * y.f + 9223372036854775808) / 18446744073709551616, x.e + y.e + 64⟩ := by
  unfold Diyfp.mul
  dsimp only
  congr 1
  have hb : ∀ a b : Nat, a < 4294967296 → b < 4294967296 → a * b ≤ 18446744065119617025 := by
    intro a b ha hb
    have := Nat.mul_le_mul (show a ≤ 4294967295 by omega) (show b ≤ 4294967295 by omega)
    omega
  have q0 := hb (x.f % 4294967296) (y.f % 4294967296) (Nat.mod_lt _ (by decide)) (Nat.mod_lt _ (by decide))
  have q1 := hb (x.f % 4294967296) (y.f / 4294967296) (Nat.mod_lt _ (by decide)) (by omega)
  have q2 := hb (x.f / 4294967296) (y.f % 4294967296) (by omega) (Nat.mod_lt _ (by decide))
  have q3 := hb (x.f / 4294967296) (y.f / 4294967296) (by omega) (by omega)
  have e : x.f * y.f = x.f / 4294967296 * (y.f / 4294967296) * 18446744073709551616 +
      (x.f % 4294967296 * (y.f / 4294967296) + x.f / 4294967296 * (y.f % 4294967296)) * 4294967296 + x.f % 4294967296 * (y.f % 4294967296) := by
    have ex := Nat.div_add_mod x.f 4294967296
    have ey := Nat.div_add_mod y.f 4294967296
    generalize x.f / 4294967296 = a at *
    generalize x.f % 4294967296 = b at *
    generalize y.f / 4294967296 = c at *
    generalize y.f % 4294967296 = d at *
    rw [← ex, ← ey]
    grind
  have hlt : x.f * y.f ≤ 340282366920938463426481119284349108225 := by
    have := Nat.mul_le_mul (show x.f ≤ 18446744073709551615 by omega) (show y.f ≤ 18446744073709551615 by omega)
    omega
  rw [e]
  rw [e] at hlt
  generalize x.f % 4294967296 * (y.f % 4294967296) = p0 at *
  generalize x.f % 4294967296 * (y.f / 4294967296) = p1 at *
  generalize x.f / 4294967296 * (y.f % 4294967296) = p2 at *
  generalize x.f / 4294967296 * (y.f / 4294967296) = p3 at *
  simp only [u64]
  omega

theorem normalizeLoop_spec : ∀ (t fuel f : Nat) (e : Int), t < fuel → 9223372036854775808 ≤ f * 2 ^ t → f * 2 ^ t < 18446744073709551616 →
    Diyfp.normalizeLoop fuel ⟨f, e⟩ = .ok ⟨f * 2 ^ t, e - t⟩ := by
  intro t
  induction t with
  | zero =>
    intro fuel f e hf h1 h2
    obtain ⟨fuel, rfl⟩ : ∃ n, fuel = n + 1 := ⟨fuel - 1, by omega⟩
    unfold Diyfp.normalizeLoop
    simp only [Nat.pow_zero, Nat.mul_one] at h1 h2 ⊢
    rw [if_neg (by omega)]
    simp
  | succ t ih =>
    intro fuel f e hf h1 h2
    obtain ⟨fuel, rfl⟩ : ∃ n, fuel = n + 1 := ⟨fuel - 1, by omega⟩
    have hp : 0 < 2 ^ t := Nat.pow_pos (by decide)
    have e1 : f * 2 ^ (t + 1) = f * 2 * 2 ^ t := by rw [Nat.pow_succ]; grind
    have h3 : f * 2 ≤ f * 2 * 2 ^ t := Nat.le_mul_of_pos_right _ hp
    unfold Diyfp.normalizeLoop
    dsimp only
    rw [if_pos (by omega), u64_of_lt (by omega), ih fuel (f * 2) (e - 1) (by omega) (by omega) (by omega), e1]
    congr 2
    omega

theorem normalize_spec {t f : Nat} {e : Int} (h1 : 9223372036854775808 ≤ f * 2 ^ t) (h2 : f * 2 ^ t < 18446744073709551616) (ht : t ≤ 63) :
    Diyfp.normalize ⟨f, e⟩ = .ok ⟨f * 2 ^ t, e - t⟩ := by
  unfold Diyfp.normalize
  have : f ≠ 0 := by intro h; subst h; simp at h1
  rw [jsonAssert_ok this, Res.ok_bind]
  exact normalizeLoop_spec t 65 f e (by omega) h1 h2

theorem normalizeTo_spec {t f : Nat} {e e' : Int} (he : e - e' = t) (h2 : f * 2 ^ t < 18446744073709551616) (ht : t ≤ 63) :
    Diyfp.normalizeTo ⟨f, e⟩ e' = .ok ⟨f * 2 ^ t, e'⟩ := by
  unfold Diyfp.normalizeTo
  dsimp only
  rw [he, jsonAssert_ok (by omega), Res.ok_bind, if_neg (by omega), Int.toNat_natCast, u64_of_lt h2,
    jsonAssert_ok (Nat.mul_div_cancel _ (Nat.pow_pos (by decide))), Res.ok_bind]

/-- The parts of a positive double. -/
structure Parts (q : Rat) (f k : Nat) : Prop where
  value : q * (2 ^ 1074 : Nat) = ((f * 2 ^ k : Nat) : Rat)
  pos : 0 < f
  lt : f < 2 ^ 53
  normal : k = 0 ∨ 2 ^ 52 ≤ f
  exp : k ≤ 2045

theorem double_bits {q : Rat} (h : Double q) (h0 : 0 < q) : ∃ f k, Parts q f k ∧
    (doubleBits q = (0, f) ∧ k = 0 ∧ f < 2 ^ 52 ∨ doubleBits q = (k + 1, f - 4503599627370496) ∧ 2 ^ 52 ≤ f) := by
  obtain ⟨m, j, hm, hj, he⟩ := h
  have hpos : 0 < q * (2 ^ 1074 : Nat) := Rat.mul_pos h0 (pow_pos_rat 1074)
  have hm0 : 0 < m := by
    rcases Int.lt_or_le 0 m with h | h
    · exact h
    · have h1 : (m : Rat) ≤ ((0 : Int) : Rat) := Rat.intCast_le_intCast.2 h
      have h2 := Rat.mul_le_mul_of_nonneg_right h1 (Rat.le_of_lt (pow_pos_rat j))
      rw [← he, Rat.intCast_zero, Rat.zero_mul] at h2
      grind
  obtain ⟨n, rfl⟩ := Int.eq_ofNat_of_zero_le (Int.le_of_lt hm0)
  have hv : q * (2 ^ 1074 : Nat) = ((n * 2 ^ j : Nat) : Rat) := by
    rw [he, Rat.natCast_mul]
    norm_cast
  have hn : n < 2 ^ 53 := by simpa using hm
  have hn0 : 0 < n := by omega
  have hfl : (q * (2 ^ 1074 : Nat)).floor.toNat = n * 2 ^ j := by
    rw [hv]
    have : (((n * 2 ^ j : Nat) : Rat)).floor = ((n * 2 ^ j : Nat) : Int) := by rw [← Rat.intCast_natCast]; exact Rat.floor_intCast _
    rw [this, Int.toNat_natCast]
  unfold doubleBits
  rw [hfl]
  dsimp only
  have hj0 : 0 < 2 ^ j := Nat.pow_pos (by decide)
  have hN0 : 0 < n * 2 ^ j := Nat.mul_pos hn0 hj0
  by_cases hs : n * 2 ^ j < 4503599627370496
  · rw [if_pos hs]
    refine ⟨n * 2 ^ j, 0, ⟨by rw [hv]; simp, hN0, by omega, .inl rfl, by omega⟩, .inl ⟨rfl, rfl, by omega⟩⟩
  · rw [if_neg hs]
    have hL1 := Nat.log2_self_le (n := n * 2 ^ j) (by omega)
    have hL2 := Nat.lt_log2_self (n := n * 2 ^ j)
    generalize hL : (n * 2 ^ j).log2 = L at *
    have hL52 : 52 ≤ L := by
      rcases Nat.lt_or_ge L 52 with h | h
      · have : 2 ^ (L + 1) ≤ 2 ^ 52 := Nat.pow_le_pow_right (by decide) (by omega)
        omega
      · exact h
    have hLj : L < 53 + j := by
      have h1 : n * 2 ^ j < 2 ^ 53 * 2 ^ j := Nat.mul_lt_mul_of_pos_right hn hj0
      rw [← Nat.pow_add] at h1
      exact (Nat.pow_lt_pow_iff_right (by decide)).1 (Nat.lt_of_le_of_lt hL1 h1)
    have hdiv : n * 2 ^ j / 2 ^ (L - 52) * 2 ^ (L - 52) = n * 2 ^ j := by
      refine Nat.div_mul_cancel ?_
      exact Nat.dvd_trans (Nat.pow_dvd_pow 2 (by omega)) (Nat.dvd_mul_left _ _)
    generalize hf : n * 2 ^ j / 2 ^ (L - 52) = f at *
    have hk0 : 0 < 2 ^ (L - 52) := Nat.pow_pos (by decide)
    have hf1 : 2 ^ 52 ≤ f := by
      have : 2 ^ 52 * 2 ^ (L - 52) ≤ f * 2 ^ (L - 52) := by rw [← Nat.pow_add, hdiv, show 52 + (L - 52) = L by omega]; exact hL1
      exact Nat.le_of_mul_le_mul_right this hk0
    have hf2 : f < 2 ^ 53 := by
      have : f * 2 ^ (L - 52) < 2 ^ 53 * 2 ^ (L - 52) := by rw [← Nat.pow_add, hdiv, show 53 + (L - 52) = L + 1 by omega]; exact hL2
      exact Nat.lt_of_mul_lt_mul_right this
    refine ⟨f, L - 52, ⟨by rw [hv, hdiv], by omega, hf2, .inr hf1, by omega⟩, .inr ⟨rfl, hf1⟩⟩

/-- The shift that normalizes. -/
theorem exists_shift {f : Nat} (h0 : 0 < f) (h : f < 2 ^ 53) :
    ∃ s, 11 ≤ s ∧ s ≤ 63 ∧ 9223372036854775808 ≤ f * 2 ^ s ∧ (f + 1) * 2 ^ s ≤ 18446744073709551616 ∧ (f = 2 ^ 52 → s = 11) := by
  have h1 := Nat.log2_self_le (n := f) (by omega)
  have h2 := Nat.lt_log2_self (n := f)
  have h3 := (Nat.log2_lt (k := 53) (n := f) (by omega)).2 h
  have hL : f = 2 ^ 52 → f.log2 = 52 := by intro h; exact log2_eq (by omega) (by omega)
  generalize f.log2 = L at *
  refine ⟨63 - L, by omega, by omega, ?_, ?_, by omega⟩
  · have : 2 ^ L * 2 ^ (63 - L) ≤ f * 2 ^ (63 - L) := Nat.mul_le_mul_right _ h1
    rw [← Nat.pow_add, show L + (63 - L) = 63 by omega] at this
    exact this
  · have : (f + 1) * 2 ^ (63 - L) ≤ 2 ^ (L + 1) * 2 ^ (63 - L) := Nat.mul_le_mul_right _ h2
    rw [← Nat.pow_add, show L + 1 + (63 - L) = 64 by omega] at this
    exact this

/-- The boundaries: `h` is half the distance to the next number, in units of `2^e`. -/
theorem boundaries_spec {q : Rat} (hq : Double q) (h0 : 0 < q) : ∃ f k s : Nat, Parts q f k ∧ 11 ≤ s ∧ s ≤ 63 ∧
    9223372036854775808 ≤ f * 2 ^ s ∧ (f + 1) * 2 ^ s ≤ 18446744073709551616 ∧ (f = 2 ^ 52 → s = 11) ∧
    computeBoundaries q = .ok ⟨⟨f * 2 ^ s, (k : Int) - 1074 - s⟩,
      ⟨if f = 2 ^ 52 ∧ 1 ≤ k then (4 * f - 1) * 2 ^ (s - 2) else (2 * f - 1) * 2 ^ (s - 1), (k : Int) - 1074 - s⟩,
      ⟨(2 * f + 1) * 2 ^ (s - 1), (k : Int) - 1074 - s⟩⟩ := by
  obtain ⟨f, k, hp, hb⟩ := double_bits hq h0
  obtain ⟨s, hs1, hs2, hs3, hs4, hs5⟩ := exists_shift hp.pos hp.lt
  refine ⟨f, k, s, hp, hs1, hs2, hs3, hs4, hs5, ?_⟩
  have hlt := hp.lt
  have hpos := hp.pos
  have h53 : (2 : Nat) ^ 53 = 9007199254740992 := by decide
  have h52 : (2 : Nat) ^ 52 = 4503599627370496 := by decide
  have hv : (if (doubleBits q).1 = 0 then (⟨(doubleBits q).2, -1074⟩ : Diyfp) else ⟨(doubleBits q).2 + 4503599627370496, ((doubleBits q).1 : Int) - 1075⟩) =
      ⟨f, (k : Int) - 1074⟩ := by
    rcases hb with ⟨h, hk, _⟩ | ⟨h, hf⟩
    · rw [h]; subst hk; simp
    · rw [h]; dsimp only; rw [if_neg (by omega)]
      have a : f - 4503599627370496 + 4503599627370496 = f := by omega
      have b : ((k + 1 : Nat) : Int) - 1075 = (k : Int) - 1074 := by omega
      rw [a, b]
  have hc : (decide ((doubleBits q).2 = 0) && decide (1 < (doubleBits q).1)) = decide (f = 2 ^ 52 ∧ 1 ≤ k) := by
    rcases hb with ⟨h, hk, hf⟩ | ⟨h, hf⟩
    · rw [h]; subst hk; simp
    · rw [h]; dsimp only
      rw [Bool.eq_iff_iff]
      simp only [Bool.and_eq_true, decide_eq_true_eq]
      omega
  unfold computeBoundaries
  dsimp only
  rw [hv, hc]
  dsimp only
  have e1 : f * 2 ^ s = 2 * f * 2 ^ (s - 1) := by
    have : 2 ^ s = 2 * 2 ^ (s - 1) := by rw [show s = s - 1 + 1 by omega, Nat.pow_succ, show s - 1 + 1 - 1 = s - 1 by omega]; omega
    rw [this]; grind
  have e2 : (f + 1) * 2 ^ s = (2 * f + 2) * 2 ^ (s - 1) := by
    have : 2 ^ s = 2 * 2 ^ (s - 1) := by rw [show s = s - 1 + 1 by omega, Nat.pow_succ, show s - 1 + 1 - 1 = s - 1 by omega]; omega
    rw [this]; grind
  have hh0 : 0 < 2 ^ (s - 1) := Nat.pow_pos (by decide)
  rw [u64_of_lt (n := 2 * f + 1) (by omega)]
  have m1 : 2 * f * 2 ^ (s - 1) ≤ (2 * f + 1) * 2 ^ (s - 1) := Nat.mul_le_mul_right _ (by omega)
  have m2 : (2 * f + 1) * 2 ^ (s - 1) < (2 * f + 2) * 2 ^ (s - 1) := Nat.mul_lt_mul_of_pos_right (by omega) hh0
  rw [normalize_spec (t := s - 1) (by omega) (by omega) (by omega), Res.ok_bind]
  dsimp only
  have ee : (k : Int) - 1074 - 1 - ((s - 1 : Nat) : Int) = (k : Int) - 1074 - s := by omega
  rw [ee]
  have mf : f * 2 ^ s < (f + 1) * 2 ^ s := Nat.mul_lt_mul_of_pos_right (by omega) (Nat.pow_pos (by decide))
  have hw : Diyfp.normalize ⟨f, (k : Int) - 1074⟩ = .ok ⟨f * 2 ^ s, (k : Int) - 1074 - s⟩ := normalize_spec hs3 (by omega) hs2
  by_cases hcl : f = 2 ^ 52 ∧ 1 ≤ k
  · rw [if_pos hcl, if_pos (decide_eq_true hcl), u64_of_lt (n := 4 * f - 1) (by omega)]
    have hs := hs5 hcl.1
    subst hs
    have hf' : f = 4503599627370496 := by omega
    have g1 : (4 * f - 1) * 2 ^ 9 < 18446744073709551616 := by rw [hf']; decide
    have g2 : (k : Int) - 1074 - 2 - ((k : Int) - 1074 - (11 : Nat)) = (9 : Nat) := by omega
    have g3 := normalizeTo_spec g2 g1 (by omega)
    rw [g3, Res.ok_bind, hw, Res.ok_bind]
  · rw [if_neg hcl, if_neg (by simpa using hcl), u64_of_lt (n := 2 * f - 1) (by omega)]
    have m3 : (2 * f - 1) * 2 ^ (s - 1) ≤ 2 * f * 2 ^ (s - 1) := Nat.mul_le_mul_right _ (by omega)
    rw [normalizeTo_spec (t := s - 1) (by omega) (by omega) (by omega), Res.ok_bind, hw, Res.ok_bind]

/-- What the table of powers is: the nearest multiples of powers of two, and near enough to each exponent. -/
def powerOk (e : Int) : Res CachedPower → Bool
  | .ok c => decide (9223372036854775808 ≤ c.f ∧ c.f < 18446744073709551616 ∧ -60 ≤ c.e + e + 64 ∧ c.e + e + 64 ≤ -32 ∧ -300 ≤ c.k ∧ c.k ≤ 324 ∧ -1060 ≤ c.e ∧
     2 * c.f * (2 ^ (c.e + 1060).toNat * 10 ^ 300) ≤ 2 * (10 ^ (c.k + 300).toNat * 2 ^ 1060) + 2 ^ (c.e + 1060).toNat * 10 ^ 300 ∧
     2 * (10 ^ (c.k + 300).toNat * 2 ^ 1060) ≤ 2 * c.f * (2 ^ (c.e + 1060).toNat * 10 ^ 300) + 2 ^ (c.e + 1060).toNat * 10 ^ 300)
  | _ => false

theorem powers_ok : ∀ i : Fin 2098, powerOk ((i.1 : Int) - 1137) (cachedPower ((i.1 : Int) - 1137)) = true := by decide +kernel

theorem cachedPower_spec {e : Int} (h1 : -1137 ≤ e) (h2 : e ≤ 960) : ∃ c, cachedPower e = .ok c ∧
    9223372036854775808 ≤ c.f ∧ c.f < 18446744073709551616 ∧ -60 ≤ c.e + e + 64 ∧ c.e + e + 64 ≤ -32 ∧ -300 ≤ c.k ∧ c.k ≤ 324 ∧ -1060 ≤ c.e ∧
     2 * c.f * (2 ^ (c.e + 1060).toNat * 10 ^ 300) ≤ 2 * (10 ^ (c.k + 300).toNat * 2 ^ 1060) + 2 ^ (c.e + 1060).toNat * 10 ^ 300 ∧
     2 * (10 ^ (c.k + 300).toNat * 2 ^ 1060) ≤ 2 * c.f * (2 ^ (c.e + 1060).toNat * 10 ^ 300) + 2 ^ (c.e + 1060).toNat * 10 ^ 300 := by
  have h := powers_ok ⟨(e + 1137).toNat, by omega⟩
  have he : (((⟨(e + 1137).toNat, by omega⟩ : Fin 2098).1 : Nat) : Int) - 1137 = e := by dsimp only; omega
  rw [he] at h
  match hc : cachedPower e with
  | .ok c => rw [hc] at h; exact ⟨c, rfl, of_decide_eq_true h⟩
  | .ub _ => rw [hc] at h; exact absurd h (by simp [powerOk])
  | .exn _ => rw [hc] at h; exact absurd h (by simp [powerOk])
  | .timeout => rw [hc] at h; exact absurd h (by simp [powerOk])

end Tsetlini
