import Verif.Spec.LogText
import Verif.Lemmas.JsonNum
import Verif.Lemmas.Ieee
/- The numbers of the log. -/
namespace Tsetlini
open Spec

theorem head_app {l l' : Bytes} (h : l ≠ []) : (l ++ l').head? = l.head? := by
  cases l with
  | nil => exact absurd rfl h
  | cons c l => rfl

theorem digitsBack_spec : ∀ (fuel n : Nat), n < fuel →
    DigitsText (digitsBack fuel n).reverse ∧ digitsNumber (digitsBack fuel n).reverse = n ∧ (digitsBack fuel n).reverse.head? ≠ none ∧
    ((digitsBack fuel n).reverse.head? = some 48 → (digitsBack fuel n).reverse = [48])
  | 0, n, h => absurd h (Nat.not_lt_zero n)
  | fuel + 1, n, h => by
    unfold digitsBack
    by_cases h10 : n < 10
    · rw [if_pos h10]
      refine ⟨⟨by simp, fun c hc => ?_⟩, ?_, by simp, fun h0 => ?_⟩
      · simp at hc; omega
      · simp [digitsNumber]
      · simp at h0 ⊢; omega
    · rw [if_neg h10]
      obtain ⟨h1, h2, h3, h4⟩ := digitsBack_spec fuel (n / 10) (by omega)
      rw [List.reverse_cons]
      have hne := h1.1
      refine ⟨⟨by simp, fun c hc => ?_⟩, ?_, ?_, ?_⟩
      · rcases List.mem_append.1 hc with hc | hc
        · exact h1.2 c hc
        · simp at hc; omega
      · rw [digitsNumber_eq, digitsValue_snoc, ← digitsNumber_eq, h2]; omega
      · rw [head_app hne]; exact h3
      · rw [head_app hne]
        intro h0
        have h5 := h4 h0
        rw [h5] at h2
        have : digitsNumber [48] = 0 := by decide
        omega

theorem putNat_text (n : Nat) : IntText (putNat n) ∧ digitsNumber (putNat n) = n := by
  obtain ⟨h1, h2, h3, h4⟩ := digitsBack_spec (n + 1) n (by omega)
  exact ⟨⟨h1, h4⟩, h2⟩

theorem putNat_digits (n : Nat) : ∀ c ∈ putNat n, 48 ≤ c ∧ c ≤ 57 := (putNat_text n).1.1.2

theorem putNat_inj {m n : Nat} (h : putNat m = putNat n) : m = n := by
  rw [← (putNat_text m).2, ← (putNat_text n).2, h]

theorem putInt_inj {i j : Int} (h : putInt i = putInt j) : i = j := by
  have hm : ∀ n : Nat, ∀ t, 45 :: t ≠ putNat n := fun n t h => by
    have := putNat_digits n 45 (by rw [← h]; exact List.mem_cons_self)
    omega
  unfold putInt at h
  split at h <;> split at h
  · have := putNat_inj (List.cons.inj h).2; omega
  · exact absurd h (hm _ _)
  · exact absurd h.symm (hm _ _)
  · have := putNat_inj h; omega

theorem decimal_int (t : Bytes) : decimal t [] 0 = digitsNumber t := by
  unfold decimal
  rw [List.append_nil]
  show _ * (10 : Rat) ^ (0 : Int) = _
  rw [Rat.zpow_zero, Rat.mul_one]

theorem putNat_decimal (n : Nat) : Decimal (putNat n) ((n : Int) : Rat) := by
  have := Decimal.pos (putNat_text n).1 .none .none
  rw [List.append_nil, List.append_nil, decimal_int, (putNat_text n).2] at this
  exact this

theorem putInt_decimal (i : Int) : Decimal (putInt i) i := by
  unfold putInt
  split
  · have := Decimal.neg (putNat_text i.natAbs).1 .none .none
    rw [List.append_nil, List.append_nil, decimal_int, (putNat_text _).2] at this
    have e : (-(i.natAbs : Nat) : Rat) = ((i : Int) : Rat) := by
      have : (i : Int) = -(i.natAbs : Int) := by omega
      rw [this, Rat.intCast_neg, Rat.intCast_natCast, Int.natAbs_neg, Int.natAbs_natCast]
    rw [e] at this
    exact this
  · have := putNat_decimal i.natAbs
    rwa [show ((i.natAbs : Nat) : Int) = i by omega] at this

/-! ### Powers of ten -/

theorem ten_pos (e : Int) : (0 : Rat) < (10 : Rat) ^ e := Rat.zpow_pos (by decide +kernel)

theorem ten_add (a b : Int) : (10 : Rat) ^ (a + b) = (10 : Rat) ^ a * (10 : Rat) ^ b := Rat.zpow_add (by decide +kernel) a b

theorem ten_nat (n : Nat) : (10 : Rat) ^ (n : Int) = ((10 ^ n : Nat) : Rat) := by
  rw [← pow10_zpow]
  unfold pow10
  rw [if_pos (by omega)]
  rfl

theorem ten_neg (e : Int) : (10 : Rat) ^ e * (10 : Rat) ^ (-e) = 1 := by
  rw [← ten_add, Int.add_right_neg, Rat.zpow_zero]

theorem sizeOfNat_spec {n : Nat} (h : 0 < n) : ∃ k, sizeOfNat n = k + 1 ∧ 10 ^ k ≤ n ∧ n < 10 ^ (k + 1) := by
  obtain ⟨⟨⟨h1, h2⟩, h3⟩, h4⟩ := putNat_text n
  unfold sizeOfNat
  rw [if_neg (by omega)]
  generalize putNat n = t at *
  cases t with
  | nil => exact absurd rfl h1
  | cons c t =>
    have hc : 49 ≤ c := by
      have := (h2 c List.mem_cons_self).1
      by_cases h0 : c = 48
      · have := h3 (by rw [h0]; rfl)
        rw [this] at h4
        have : digitsNumber [48] = 0 := by decide
        omega
      · omega
    have h5 := digitsValue_ge (t := t) hc
    have h6 := digitsValue_lt h2
    rw [← digitsNumber_eq, h4] at h5 h6
    exact ⟨t.length, rfl, h5, h6⟩

theorem exp10_spec {q : Rat} (h : 0 < q) : (10 : Rat) ^ exp10 q ≤ q ∧ q < (10 : Rat) ^ (exp10 q + 1) := by
  unfold exp10
  split
  · rename_i h1
    have hf : (1 : Int) ≤ q.floor := Rat.le_floor_iff.2 h1
    obtain ⟨k, h2, h3, h4⟩ := sizeOfNat_spec (n := q.floor.toNat) (by omega)
    rw [h2]
    have e1 : ((k + 1 : Nat) : Int) - 1 = (k : Nat) := by omega
    have e2 : ((k : Nat) : Int) + 1 = (k + 1 : Nat) := by omega
    rw [e1, e2, ten_nat, ten_nat]
    have h5 : ((10 ^ k : Nat) : Int) ≤ q.floor := by omega
    have h6 : q.floor < ((10 ^ (k + 1) : Nat) : Int) := by omega
    exact ⟨Rat.le_floor_iff.1 h5, Rat.floor_lt_iff.1 h6⟩
  · rename_i h1
    have h1 : q < 1 := Rat.not_le.1 h1
    have hq : q * (1 / q) = 1 := by rw [Rat.div_def, Rat.one_mul, Rat.mul_inv_cancel _ (by grind)]
    have hi : 0 < 1 / q := by
      rw [Rat.div_def, Rat.one_mul]; exact Rat.inv_pos.2 h
    have hgt : (1 : Rat) < 1 / q := by
      have := Rat.mul_lt_mul_of_pos_right h1 hi
      grind
    have hc : (1 : Int) < (1 / q).ceil := Rat.lt_ceil_iff.2 hgt
    obtain ⟨k, h2, h3, h4⟩ := sizeOfNat_spec (n := (1 / q).ceil.toNat - 1) (by omega)
    rw [h2]
    have h5 : ((10 ^ k : Nat) : Int) < (1 / q).ceil := by omega
    have h6 : (1 / q).ceil ≤ ((10 ^ (k + 1) : Nat) : Int) := by omega
    have h5 : ((10 ^ k : Nat) : Rat) < 1 / q := Rat.lt_ceil_iff.1 h5
    have h6 : 1 / q ≤ ((10 ^ (k + 1) : Nat) : Rat) := Rat.ceil_le_iff.1 h6
    rw [← ten_nat] at h5 h6
    have e1 : -((k + 1 : Nat) : Int) + 1 = -(k : Nat) := by omega
    rw [e1]
    constructor
    · have h7 := Rat.mul_le_mul_of_nonneg_left h6 (Rat.le_of_lt h)
      rw [hq] at h7
      have h8 := Rat.mul_le_mul_of_nonneg_right h7 (Rat.le_of_lt (ten_pos (-((k + 1 : Nat) : Int))))
      rw [Rat.mul_assoc, ten_neg] at h8
      grind
    · have h7 := Rat.mul_lt_mul_of_pos_left h5 h
      rw [hq] at h7
      have h8 := Rat.mul_lt_mul_of_pos_right h7 (ten_pos (-((k : Nat) : Int)))
      rw [Rat.mul_assoc, ten_neg] at h8
      grind

theorem sixDigits_spec {q : Rat} (h : 0 < q) : ∃ m e, sixDigits q = (m, e) ∧ 100000 ≤ m ∧ m < 1000000 ∧
    (m : Rat) * (10 : Rat) ^ (e - 5) - q ≤ q / 200000 ∧ q - (m : Rat) * (10 : Rat) ^ (e - 5) ≤ q / 200000 ∧
    ∀ j k : Int, q = j * (10 : Rat) ^ k → j.natAbs < 1000000 → (m : Rat) * (10 : Rat) ^ (e - 5) = q := by
  obtain ⟨h1, h2⟩ := exp10_spec h
  generalize he : exp10 q = e at h1 h2
  generalize hx : q * (10 : Rat) ^ (5 - e) = x
  have hP := ten_pos (5 - e)
  have hQ := ten_pos (e - 5)
  have hPQ : (10 : Rat) ^ (e - 5) * (10 : Rat) ^ (5 - e) = 1 := by
    rw [← ten_add, show e - 5 + (5 - e) = (0 : Int) by omega, Rat.zpow_zero]
  have hqx : q = x * (10 : Rat) ^ (e - 5) := by
    rw [← hx, Rat.mul_assoc, Rat.mul_comm ((10 : Rat) ^ (5 - e)), hPQ, Rat.mul_one]
  have hx1 : (100000 : Rat) ≤ x := by
    have := Rat.mul_le_mul_of_nonneg_right h1 (Rat.le_of_lt hP)
    rw [← ten_add, hx, show e + (5 - e) = (5 : Int) by omega] at this
    exact Rat.le_trans (by decide +kernel) this
  have hx2 : x < (1000000 : Rat) := by
    have := Rat.mul_lt_mul_of_pos_right h2 hP
    rw [← ten_add, hx, show e + 1 + (5 - e) = (6 : Int) by omega] at this
    rw [show (10 : Rat) ^ (6 : Int) = 1000000 by decide +kernel] at this
    exact this
  have hr1 : (100000 : Int) ≤ roundEven x := le_roundEven hx1
  have hr2 : roundEven x ≤ (1000000 : Int) := roundEven_le (Rat.le_of_lt hx2)
  obtain ⟨hn1, hn2⟩ := roundEven_near x
  -- the digits found, at the first exponent
  have key : ∀ (m : Nat) (e' : Int), (m : Rat) * (10 : Rat) ^ (e' - 5) = (roundEven x : Rat) * (10 : Rat) ^ (e - 5) →
      (m : Rat) * (10 : Rat) ^ (e' - 5) - q ≤ q / 200000 ∧ q - (m : Rat) * (10 : Rat) ^ (e' - 5) ≤ q / 200000 ∧
      ∀ j k : Int, q = j * (10 : Rat) ^ k → j.natAbs < 1000000 → (m : Rat) * (10 : Rat) ^ (e' - 5) = q := by
    intro m e' hm
    rw [hm]
    have hw : (1 / 2 : Rat) ≤ x / 200000 := by grind
    have hs : ∀ a : Rat, a ≤ 1/2 → a * (10 : Rat) ^ (e - 5) ≤ q / 200000 := fun a ha => by
      have := Rat.mul_le_mul_of_nonneg_right (Rat.le_trans ha hw) (Rat.le_of_lt hQ)
      grind
    refine ⟨?_, ?_, ?_⟩
    · have := hs _ hn1
      grind
    · have := hs _ hn2
      grind
    · intro j k hj hj6
      have hxj : x = j * (10 : Rat) ^ (k + (5 - e)) := by rw [← hx, hj, ten_add, Rat.mul_assoc]
      by_cases hk : 0 ≤ k + (5 - e)
      · obtain ⟨n, hn⟩ := Int.eq_ofNat_of_zero_le hk
        rw [hn, ten_nat, ← Rat.intCast_natCast, ← Rat.intCast_mul] at hxj
        rw [hqx]
        rw [hxj, roundEven_int]
      · exfalso
        have hle : (j : Rat) ≤ ((999999 : Int) : Rat) := Rat.intCast_le_intCast.2 (by omega)
        have h3 := Rat.mul_le_mul_of_nonneg_right hle (Rat.le_of_lt (ten_pos (k + (5 - e))))
        rw [← hxj] at h3
        obtain ⟨n, hn⟩ : ∃ n : Nat, k + (5 - e) = -((n : Int) + 1) := ⟨(-(k + (5 - e)) - 1).toNat, by omega⟩
        have h4 : (10 : Rat) ^ (k + (5 - e)) ≤ 1 / 10 := by
          have h5 := ten_neg ((n : Int) + 1)
          rw [← hn] at h5
          have h6 : (10 : Rat) ≤ (10 : Rat) ^ ((n : Int) + 1) := by
            have : ((n : Int) + 1) = ((n + 1 : Nat) : Int) := by omega
            rw [this, ten_nat]
            have : 10 ≤ 10 ^ (n + 1) := by
              have := Nat.pow_pos (n := n) (show 0 < 10 by decide)
              rw [Nat.pow_succ]; omega
            exact_mod_cast this
          have h7 := Rat.mul_le_mul_of_nonneg_right h6 (Rat.le_of_lt (ten_pos (k + (5 - e))))
          rw [h5] at h7
          grind
        have e9 : ((999999 : Int) : Rat) = 999999 := rfl
        rw [e9] at h3
        grind
  unfold sixDigits
  rw [he]
  dsimp only
  rw [hx]
  have hcast : (((roundEven x).toNat : Nat) : Rat) = (roundEven x : Rat) := by
    rw [← Rat.intCast_natCast, Int.toNat_of_nonneg (by omega)]
  by_cases h6 : (roundEven x).toNat = 1000000
  · rw [if_pos h6]
    refine ⟨_, _, rfl, by decide, by decide, key 100000 (e + 1) ?_⟩
    rw [← hcast, h6, show e + 1 - 5 = 1 + (e - 5) by omega, ten_add, Rat.zpow_one, ← Rat.mul_assoc]
    congr 1
    decide +kernel
  · rw [if_neg h6]
    exact ⟨_, _, rfl, by omega, by omega, key _ e (by rw [hcast])⟩

/-! ### The text -/

theorem stripZeros_spec (t : Bytes) : ∃ z, t = stripZeros t ++ List.replicate z 48 := by
  have h : ∀ l : Bytes, ∃ z, l = List.replicate z 48 ++ l.dropWhile (· == 48) := by
    intro l
    induction l with
    | nil => exact ⟨0, rfl⟩
    | cons c l ih =>
      by_cases hc : c = 48
      · obtain ⟨z, hz⟩ := ih
        refine ⟨z + 1, ?_⟩
        rw [List.dropWhile_cons_of_pos (by simp [hc]), List.replicate_succ, List.cons_append, ← hz, hc]
      · exact ⟨0, by rw [List.dropWhile_cons_of_neg (by simp [hc])]; rfl⟩
  obtain ⟨z, hz⟩ := h t.reverse
  refine ⟨z, ?_⟩
  have := congrArg List.reverse hz
  rw [List.reverse_append, List.reverse_reverse, List.reverse_replicate] at this
  exact this

theorem decimal_strip (int t : Bytes) (e : Int) : decimal int (stripZeros t) e = (digitsNumber (int ++ t) : Rat) * (10 : Rat) ^ (e - t.length) := by
  obtain ⟨z, hz⟩ := stripZeros_spec t
  generalize stripZeros t = s at *
  subst hz
  unfold decimal
  rw [← List.append_assoc, digitsNumber_eq, digitsNumber_eq (int ++ s ++ _), digitsValue_app (int ++ s), digitsValue_zeros, List.length_replicate, Nat.add_zero,
    List.length_append, List.length_replicate, Rat.natCast_mul, ← ten_nat, Rat.mul_assoc, ← ten_add]
  congr 2
  omega

theorem stripZeros_mem {t : Bytes} {c : Nat} (h : c ∈ stripZeros t) : c ∈ t := by
  obtain ⟨z, hz⟩ := stripZeros_spec t
  rw [hz]
  exact List.mem_append_left _ h

theorem putFraction_text {t : Bytes} (h : ∀ c ∈ t, 48 ≤ c ∧ c ≤ 57) : FracText (putFraction t) (stripZeros t) := by
  unfold putFraction
  split
  · rename_i h0; rw [h0]; exact .none
  · rename_i h0
    exact .some ⟨h0, fun c hc => h c (stripZeros_mem hc)⟩

theorem putExponent_text (e : Int) : ExpText (putExponent e) e := by
  unfold putExponent
  have hd : DigitsText (if e.natAbs < 10 then [48, 48 + e.natAbs] else putNat e.natAbs) ∧
      digitsNumber (if e.natAbs < 10 then [48, 48 + e.natAbs] else putNat e.natAbs) = e.natAbs := by
    split
    · refine ⟨⟨by simp, fun c hc => ?_⟩, by simp [digitsNumber]⟩
      simp at hc
      omega
    · exact ⟨(putNat_text _).1.1, (putNat_text _).2⟩
  generalize (if e.natAbs < 10 then [48, 48 + e.natAbs] else putNat e.natAbs) = t at *
  split
  · have := ExpText.minus (e := 101) (.inl rfl) hd.1
    rw [hd.2, show -(e.natAbs : Int) = e by omega] at this
    exact this
  · have := ExpText.plus (e := 101) (.inl rfl) hd.1
    rw [hd.2, show (e.natAbs : Int) = e by omega] at this
    exact this

theorem putPositive_text {q : Rat} (h : 0 < q) : ∃ (int frac exp ds : Bytes) (e : Int), putPositive q = int ++ frac ++ exp ∧ IntText int ∧ FracText frac ds ∧
    ExpText exp e ∧ 0 < decimal int ds e ∧ decimal int ds e - q ≤ q / 200000 ∧ q - decimal int ds e ≤ q / 200000 ∧
    (∀ j k : Int, q = j * (10 : Rat) ^ k → j.natAbs < 1000000 → decimal int ds e = q) ∧
    ∃ j k : Int, decimal int ds e = j * (10 : Rat) ^ k ∧ j.natAbs < 1000000 := by
  obtain ⟨m, e, h1, h2, h3, h4⟩ := sixDigits_spec h
  unfold putPositive
  rw [h1]
  dsimp only
  obtain ⟨⟨⟨hne, hd⟩, h0⟩, hv⟩ := putNat_text m
  have hlen : (putNat m).length = 6 := by
    obtain ⟨k, a1, a2, a3⟩ := sizeOfNat_spec (n := m) (by omega)
    unfold sizeOfNat at a1
    rw [if_neg (by omega)] at a1
    have b1 : k < 6 := by
      by_cases hk : 6 ≤ k
      · have := Nat.pow_le_pow_right (show 0 < 10 by decide) hk
        omega
      · omega
    have b2 : 5 ≤ k := by
      by_cases hk : k + 1 ≤ 5
      · have := Nat.pow_le_pow_right (show 0 < 10 by decide) hk
        omega
      · omega
    omega
  have hhead : (putNat m).head? ≠ some 48 := by
    intro hh
    have := h0 hh
    rw [this] at hlen
    simp at hlen
  generalize putNat m = ds at *
  have hpos : 0 < (m : Rat) * (10 : Rat) ^ (e - 5) := by
    have hm : (0 : Rat) < (m : Rat) := Rat.natCast_pos.2 (by omega)
    exact Rat.mul_pos hm (ten_pos _)
  have take : ∀ n, 0 < n → IntText (ds.take n) := by
    intro n hn
    refine ⟨⟨?_, fun c hc => hd c (List.mem_of_mem_take hc)⟩, fun hh => ?_⟩
    · intro h0
      have := congrArg List.length h0
      rw [List.length_take, List.length_nil] at this
      omega
    · rw [List.head?_take, if_neg (by omega)] at hh
      exact absurd hh hhead
  have drop : ∀ n, ∀ c ∈ ds.drop n, 48 ≤ c ∧ c ≤ 57 := fun n c hc => hd c (List.mem_of_mem_drop hc)
  split
  · rename_i hc
    refine ⟨_, _, _, stripZeros (ds.drop 1), e, rfl, take 1 (by decide), putFraction_text (drop 1), putExponent_text e, ?_⟩
    rw [decimal_strip, List.take_append_drop, hv, List.length_drop, hlen, show e - ((6 - 1 : Nat) : Int) = e - 5 by omega]
    exact ⟨hpos, h4.1, h4.2.1, h4.2.2, m, e - 5, by rw [Rat.intCast_natCast], by omega⟩
  · split
    · rename_i hc hc'
      refine ⟨_, _, [], stripZeros (ds.drop (e.toNat + 1)), 0, (List.append_nil _).symm, take (e.toNat + 1) (by omega), putFraction_text (drop _), .none, ?_⟩
      rw [decimal_strip, List.take_append_drop, hv, List.length_drop, hlen, show (0 : Int) - ((6 - (e.toNat + 1) : Nat) : Int) = e - 5 by omega]
      exact ⟨hpos, h4.1, h4.2.1, h4.2.2, m, e - 5, by rw [Rat.intCast_natCast], by omega⟩
    · rename_i hc hc'
      refine ⟨[48], _, [], stripZeros (List.replicate (-e - 1).toNat 48 ++ ds), 0, (List.append_nil _).symm, ⟨⟨by simp, by simp⟩, fun _ => rfl⟩,
        putFraction_text ?_, .none, ?_⟩
      · intro c hc
        rcases List.mem_append.1 hc with hc | hc
        · rw [List.eq_of_mem_replicate hc]; decide
        · exact hd c hc
      · have hv' : digitsNumber ([48] ++ (List.replicate (-e - 1).toNat 48 ++ ds)) = m := by
          rw [digitsNumber_eq] at hv ⊢
          rw [digitsValue_app, digitsValue_app (List.replicate _ _), digitsValue_zeros, hv]
          have : digitsValue [48] = 0 := by decide
          rw [this]
          omega
        rw [decimal_strip, hv', List.length_append, List.length_replicate, hlen, show (0 : Int) - (((-e - 1).toNat + 6 : Nat) : Int) = e - 5 by omega]
        exact ⟨hpos, h4.1, h4.2.1, h4.2.2, m, e - 5, by rw [Rat.intCast_natCast], by omega⟩

end Tsetlini
