import Verif.Lemmas.Grisu
namespace Tsetlini
open Spec

/-- The rounded product, less one, is below the exact one. -/
theorem product_up {B H X F A T r : Nat} (hB : B = 2 * H) (hX : X < B) (hA : 0 < A) (hT : 2 * F * A ≤ 2 * T + A)
    (hr : (r + 1) * B ≤ X * F + H) : r * B * A < X * T := by
  have h1 : (r + 1) * B * A ≤ (X * F + H) * A := Nat.mul_le_mul_right _ hr
  have h2 : X * (2 * F * A) ≤ X * (2 * T + A) := Nat.mul_le_mul_left _ hT
  have h3 : X * A < B * A := Nat.mul_lt_mul_of_pos_right hX hA
  have e1 : (r + 1) * B * A = r * B * A + B * A := by grind
  have e2 : (X * F + H) * A = X * F * A + H * A := by grind
  have e3 : X * (2 * F * A) = 2 * (X * F * A) := by grind
  have e4 : X * (2 * T + A) = 2 * (X * T) + X * A := by grind
  rw [e1, e2] at h1
  rw [e3, e4] at h2
  generalize r * B * A = a at *
  generalize X * F * A = b at *
  generalize X * T = c at *
  generalize X * A = d at *
  have hBA : B * A = 2 * (H * A) := by rw [hB, Nat.mul_assoc]
  omega

/-- The rounded product and one more is above the exact one. -/
theorem product_down {B H X F A T r : Nat} (hB : B = 2 * H) (hX : X < B) (hA : 0 < A) (hT : 2 * T ≤ 2 * F * A + A)
    (hr : X * F + H < (r + 1) * B) : X * T < (r + 1) * B * A := by
  have h1 : (X * F + H) * A < (r + 1) * B * A := Nat.mul_lt_mul_of_pos_right hr hA
  have h2 : X * (2 * T) ≤ X * (2 * F * A + A) := Nat.mul_le_mul_left _ hT
  have h3 : X * A < B * A := Nat.mul_lt_mul_of_pos_right hX hA
  have e2 : (X * F + H) * A = X * F * A + H * A := by grind
  have e3 : X * (2 * F * A + A) = 2 * (X * F * A) + X * A := by grind
  have e4 : X * (2 * T) = 2 * (X * T) := by grind
  rw [e2] at h1
  rw [e3, e4] at h2
  generalize (r + 1) * B * A = a at *
  generalize X * F * A = b at *
  generalize X * T = c at *
  generalize X * A = d at *
  have hBA : B * A = 2 * (H * A) := by rw [hB, Nat.mul_assoc]
  omega

/-- The number that the digits write, scaled. -/
theorem digits_scaled (D a b : Nat) (k : Int) (hk : -300 ≤ k) :
    (D : Rat) * pow10 (-k + ((a : Int) - b)) * ((10 ^ b * 10 ^ (k + 300).toNat : Nat) : Rat) = ((D * 10 ^ a * 10 ^ 300 : Nat) : Rat) := by
  have h := pow10_add (-k + ((a : Int) - b)) (b + (k + 300).toNat)
  rw [show -k + ((a : Int) - b) + ((b + (k + 300).toNat : Nat) : Int) = ((a + 300 : Nat) : Int) by omega] at h
  have h2 : pow10 ((a + 300 : Nat) : Int) = ((10 ^ (a + 300) : Nat) : Rat) := by
    unfold pow10
    rw [if_pos (by omega), Int.toNat_natCast]
  rw [h2] at h
  rw [← Nat.pow_add, Nat.mul_assoc, ← Nat.pow_add, Rat.natCast_mul, h, Rat.mul_assoc]

theorem scaled_up {D a b f kv s G U A T Wp hi Kp : Nat} (hU : 18446744073709551616 * A * U * G = 10 ^ 300 * 2 ^ 2197) (hG : Wp * G = (2 * f + 1) * 2 ^ kv * 2 ^ 62)
    (hT : T = Kp * 2 ^ 1060) (hhi : hi * 18446744073709551616 * A < Wp * T) (hD : D * 10 ^ a * U ≤ hi * 10 ^ b) (hG0 : 0 < G) (_ : s = s) :
    D * 10 ^ a * 10 ^ 300 * 2 * 2 ^ 1074 < (2 * f + 1) * 2 ^ kv * (10 ^ b * Kp) := by
  have h10 : 0 < 10 ^ b := Nat.pow_pos (by decide)
  have h1 : D * 10 ^ a * U * (18446744073709551616 * A) ≤ hi * 10 ^ b * (18446744073709551616 * A) := Nat.mul_le_mul_right _ hD
  have h2 : hi * 18446744073709551616 * A * 10 ^ b < Wp * T * 10 ^ b := Nat.mul_lt_mul_of_pos_right hhi h10
  have h3 : D * 10 ^ a * U * (18446744073709551616 * A) < Wp * T * 10 ^ b := by
    refine Nat.lt_of_le_of_lt h1 ?_
    rw [show hi * 10 ^ b * (18446744073709551616 * A) = hi * 18446744073709551616 * A * 10 ^ b by grind]
    exact h2
  have h4 : D * 10 ^ a * U * (18446744073709551616 * A) * G < Wp * T * 10 ^ b * G := Nat.mul_lt_mul_of_pos_right h3 hG0
  rw [show D * 10 ^ a * U * (18446744073709551616 * A) * G = D * 10 ^ a * (18446744073709551616 * A * U * G) by grind, hU,
    show Wp * T * 10 ^ b * G = Wp * G * T * 10 ^ b by grind, hG, hT] at h4
  have e : (2 : Nat) ^ 2197 = 2 * 2 ^ 1074 * (2 ^ 62 * 2 ^ 1060) := by
    rw [show 2 * 2 ^ 1074 = 2 ^ 1075 by rw [Nat.mul_comm, ← Nat.pow_succ], ← Nat.pow_add, ← Nat.pow_add]
  rw [e] at h4
  generalize (2 : Nat) ^ 1074 = P at *
  generalize hQ : (2 : Nat) ^ 62 * 2 ^ 1060 = Q at *
  have e1 : D * 10 ^ a * (10 ^ 300 * (2 * P * Q)) = D * 10 ^ a * 10 ^ 300 * 2 * P * Q := by grind
  have e2 : (2 * f + 1) * 2 ^ kv * 2 ^ 62 * (Kp * 2 ^ 1060) * 10 ^ b = (2 * f + 1) * 2 ^ kv * (10 ^ b * Kp) * Q := by rw [← hQ]; grind
  rw [e1, e2] at h4
  exact Nat.lt_of_mul_lt_mul_right h4

theorem scaled_down {D a b m kv c G U A T Wm lo Kp : Nat} (hU : 18446744073709551616 * A * U * G = 10 ^ 300 * 2 ^ 2197) (hG : Wm * G * c = m * 2 ^ kv * 2 ^ 63)
    (hT : T = Kp * 2 ^ 1060) (hlo : Wm * T < lo * 18446744073709551616 * A) (hD : lo * 10 ^ b ≤ D * 10 ^ a * U) (hG0 : 0 < G) (hc : 0 < c) :
    m * 2 ^ kv * (10 ^ b * Kp) < D * 10 ^ a * 10 ^ 300 * c * 2 ^ 1074 := by
  have h10 : 0 < 10 ^ b := Nat.pow_pos (by decide)
  have h1 : lo * 10 ^ b * (18446744073709551616 * A) ≤ D * 10 ^ a * U * (18446744073709551616 * A) := Nat.mul_le_mul_right _ hD
  have h2 : Wm * T * 10 ^ b < lo * 18446744073709551616 * A * 10 ^ b := Nat.mul_lt_mul_of_pos_right hlo h10
  have h3 : Wm * T * 10 ^ b < D * 10 ^ a * U * (18446744073709551616 * A) := by
    refine Nat.lt_of_lt_of_le h2 ?_
    rw [show lo * 18446744073709551616 * A * 10 ^ b = lo * 10 ^ b * (18446744073709551616 * A) by grind]
    exact h1
  have h4 : Wm * T * 10 ^ b * (G * c) < D * 10 ^ a * U * (18446744073709551616 * A) * (G * c) := Nat.mul_lt_mul_of_pos_right h3 (Nat.mul_pos hG0 hc)
  rw [show D * 10 ^ a * U * (18446744073709551616 * A) * (G * c) = D * 10 ^ a * (18446744073709551616 * A * U * G) * c by grind, hU,
    show Wm * T * 10 ^ b * (G * c) = Wm * G * c * T * 10 ^ b by grind, hG, hT] at h4
  have e : (2 : Nat) ^ 2197 = 2 ^ 1074 * (2 ^ 63 * 2 ^ 1060) := by
    rw [← Nat.pow_add, ← Nat.pow_add]
  rw [e] at h4
  generalize (2 : Nat) ^ 1074 = P at *
  generalize hQ : (2 : Nat) ^ 63 * 2 ^ 1060 = Q at *
  have e1 : D * 10 ^ a * (10 ^ 300 * (P * Q)) * c = D * 10 ^ a * 10 ^ 300 * c * P * Q := by grind
  have e2 : m * 2 ^ kv * 2 ^ 63 * (Kp * 2 ^ 1060) * 10 ^ b = m * 2 ^ kv * (10 ^ b * Kp) * Q := by rw [← hQ]; grind
  rw [e1, e2] at h4
  exact Nat.lt_of_mul_lt_mul_right h4

/-- The digits of a double read back as that double. -/
theorem grisu2_spec {q : Rat} (hq : Double q) (h0 : 0 < q) : ∃ buf e, grisu2 q = .ok (buf, e) ∧ Short buf ∧ -400 < e ∧ e < 400 ∧
    f64 ((digitsValue buf : Rat) * pow10 e) = .fin q := by
  obtain ⟨f, kv, s, hp, hs1, hs2, hs3, hs4, hs5, hb⟩ := boundaries_spec hq h0
  have hf53 := hp.lt
  have hf0 := hp.pos
  have hkv := hp.exp
  have h53 : (2 : Nat) ^ 53 = 9007199254740992 := by decide
  have h52 : (2 : Nat) ^ 52 = 4503599627370496 := by decide
  unfold grisu2
  rw [hb, Res.ok_bind]
  unfold grisuBounds
  dsimp only
  rw [jsonAssert_ok rfl, Res.ok_bind, Res.ok_bind]
  obtain ⟨c, hc, hcf1, hcf2, hce1, hce2, hck1, hck2, hce, hacc1, hacc2⟩ := cachedPower_spec (e := (kv : Int) - 1074 - s) (by omega) (by omega)
  rw [hc, Res.ok_bind]
  -- the three numbers
  have e1 : f * 2 ^ s = 2 * f * 2 ^ (s - 1) := by
    have : 2 ^ s = 2 * 2 ^ (s - 1) := by rw [show s = s - 1 + 1 by omega, Nat.pow_succ, show s - 1 + 1 - 1 = s - 1 by omega]; omega
    rw [this]; grind
  have e2 : (f + 1) * 2 ^ s = (2 * f + 2) * 2 ^ (s - 1) := by
    have : 2 ^ s = 2 * 2 ^ (s - 1) := by rw [show s = s - 1 + 1 by omega, Nat.pow_succ, show s - 1 + 1 - 1 = s - 1 by omega]; omega
    rw [this]; grind
  have hh : 2 ^ 10 ≤ 2 ^ (s - 1) := Nat.pow_le_pow_right (by decide) (by omega)
  have e3 : (2 * f + 1) * 2 ^ (s - 1) = 2 * f * 2 ^ (s - 1) + 2 ^ (s - 1) := by grind
  have e4 : (2 * f + 2) * 2 ^ (s - 1) = 2 * f * 2 ^ (s - 1) + 2 * 2 ^ (s - 1) := by grind
  have e5 : (2 * f - 1) * 2 ^ (s - 1) + 2 ^ (s - 1) = 2 * f * 2 ^ (s - 1) := by
    have : 2 * f = (2 * f - 1) + 1 := by omega
    rw [this, Nat.add_mul, Nat.one_mul, ← this]
  have eW : ((f : Nat) * 2 ^ s, 0) = ((f : Nat) * 2 ^ s, 0) := rfl
  -- names
  generalize hWm : (if f = 2 ^ 52 ∧ 1 ≤ kv then (4 * f - 1) * 2 ^ (s - 2) else (2 * f - 1) * 2 ^ (s - 1)) = Wm at *
  generalize hWp : (2 * f + 1) * 2 ^ (s - 1) = Wp at *
  have hWp64 : Wp < 18446744073709551616 := by omega
  have hWm_cases : (f = 2 ^ 52 ∧ 1 ≤ kv ∧ Wm = 9223372036854775296 ∧ f * 2 ^ s = 9223372036854775808 ∧ Wp = 9223372036854776832) ∨
      (¬ (f = 2 ^ 52 ∧ 1 ≤ kv) ∧ Wm + 2 ^ (s - 1) = f * 2 ^ s ∧ Wm + 2 * 2 ^ (s - 1) = Wp) := by
    by_cases hcl : f = 2 ^ 52 ∧ 1 ≤ kv
    · left
      have hs := hs5 hcl.1
      rw [if_pos hcl] at hWm
      rw [hs, hcl.1] at hWm hWp
      refine ⟨hcl.1, hcl.2, hWm.symm, ?_, hWp.symm⟩
      rw [hs, hcl.1]
    · right
      rw [if_neg hcl] at hWm
      exact ⟨hcl, by omega, by omega⟩
  have hWlt : f * 2 ^ s < 18446744073709551616 := by omega
  have hWmlt : Wm < 18446744073709551616 := by omega
  have hWm0 : 0 < Wm := by omega
  rw [mul_spec (x := ⟨Wm, _⟩) (y := ⟨c.f, c.e⟩) hWmlt hcf2, mul_spec (x := ⟨f * 2 ^ s, _⟩) (y := ⟨c.f, c.e⟩) hWlt hcf2,
    mul_spec (x := ⟨Wp, _⟩) (y := ⟨c.f, c.e⟩) hWp64 hcf2]
  dsimp only
  -- the products
  have pm : Wm * c.f + 512 * c.f ≤ f * 2 ^ s * c.f := by
    rw [← Nat.add_mul]; exact Nat.mul_le_mul_right _ (by omega)
  have pp : f * 2 ^ s * c.f + 1024 * c.f ≤ Wp * c.f := by
    rw [← Nat.add_mul]; exact Nat.mul_le_mul_right _ (by omega)
  have plo : 9223372036854775808 * c.f ≤ f * 2 ^ s * c.f := Nat.mul_le_mul_right _ hs3
  have phi : Wp * c.f ≤ 340282366920938463426481119284349108225 := by
    have := Nat.mul_le_mul (show Wp ≤ 18446744073709551615 by omega) (show c.f ≤ 18446744073709551615 by omega)
    omega
  have pprec : (Wp * c.f = 9223372036854776832 * c.f ∧ Wm * c.f = 9223372036854775296 * c.f) ∨
      (Wm * c.f + 2048 * c.f ≤ Wp * c.f ∧ Wp * c.f ≤ 18446744073709551616 * c.f) := by
    rcases hWm_cases with ⟨_, _, h1, _, h2⟩ | ⟨_, _, h2⟩
    · left; rw [h1, h2]; exact ⟨rfl, rfl⟩
    · right
      refine ⟨?_, Nat.mul_le_mul_right _ (by omega)⟩
      rw [← Nat.add_mul]; exact Nat.mul_le_mul_right _ (by omega)
  generalize hrm : (Wm * c.f + 9223372036854775808) / 18446744073709551616 = rm at *
  generalize hr : (f * 2 ^ s * c.f + 9223372036854775808) / 18446744073709551616 = r at *
  generalize hrp : (Wp * c.f + 9223372036854775808) / 18446744073709551616 = rp at *
  have brm1 : Wm * c.f + 9223372036854775808 < (rm + 1) * 18446744073709551616 := by omega
  have brp : rp * 18446744073709551616 ≤ Wp * c.f + 9223372036854775808 := by omega
  obtain ⟨hi, rfl⟩ : ∃ hi, rp = hi + 1 := ⟨rp - 1, by omega⟩
  have hi64 : hi < 18446744073709551616 := by omega
  rw [u64_of_lt (n := rm + 1) (by omega)]
  have hu : u64 (hi + 1 + 18446744073709551616 - 1) = hi := by unfold u64; omega
  rw [hu]
  have hee : (kv : Int) - 1074 - s + c.e + 64 = c.e + ((kv : Int) - 1074 - s) + 64 := by omega
  rw [hee]
  have hone : 2 ^ (-(c.e + ((kv : Int) - 1074 - s) + 64)).toNat ≤ hi := by
    have : 2 ^ (-(c.e + ((kv : Int) - 1074 - s) + 64)).toNat ≤ 2 ^ 60 := Nat.pow_le_pow_right (by decide) (by omega)
    have : (2 : Nat) ^ 60 = 1152921504606846976 := by decide
    omega
  have h1016 : (10 : Nat) ^ 16 = 10000000000000000 := by decide
  obtain ⟨buf, n, hd, hfound⟩ := digitGen_spec (exp10 := -c.k) (e := c.e + ((kv : Int) - 1074 - s) + 64) (lo := rm + 1) (w := r) (hi := hi) hce1 hce2 (by omega)
    (by omega) (by omega) hi64 hone (by rw [h1016]; rcases pprec with h | h <;> omega)
  rw [hd]
  refine ⟨buf, -c.k + n, rfl, hfound.short, ?_, ?_, ?_⟩
  · have := hfound.low; omega
  · have := hfound.high; omega
  obtain ⟨a, b, hn, hlo, hhi⟩ := hfound.within
  -- back to the double
  have hA0 : 0 < 2 ^ (c.e + 1060).toNat * 10 ^ 300 := Nat.mul_pos (Nat.pow_pos (by decide)) (Nat.pow_pos (by decide))
  have hup := product_up (by decide) hWp64 hA0 hacc1 brp
  have hdown := product_down (by decide) hWmlt hA0 hacc2 brm1
  have hU : 18446744073709551616 * (2 ^ (c.e + 1060).toNat * 10 ^ 300) * 2 ^ (-(c.e + ((kv : Int) - 1074 - s) + 64)).toNat * 2 ^ (kv + 63 - s) =
      10 ^ 300 * 2 ^ 2197 := by
    rw [show (18446744073709551616 : Nat) = 2 ^ 64 by decide]
    rw [show 2 ^ 64 * (2 ^ (c.e + 1060).toNat * 10 ^ 300) * 2 ^ (-(c.e + ((kv : Int) - 1074 - s) + 64)).toNat * 2 ^ (kv + 63 - s) =
      10 ^ 300 * (2 ^ 64 * 2 ^ (c.e + 1060).toNat * 2 ^ (-(c.e + ((kv : Int) - 1074 - s) + 64)).toNat * 2 ^ (kv + 63 - s)) by
        generalize (10 : Nat) ^ 300 = t
        generalize (2 : Nat) ^ 64 = t1
        generalize (2 : Nat) ^ (c.e + 1060).toNat = t2
        generalize (2 : Nat) ^ (-(c.e + ((kv : Int) - 1074 - s) + 64)).toNat = t3
        generalize (2 : Nat) ^ (kv + 63 - s) = t4
        grind]
    rw [← Nat.pow_add, ← Nat.pow_add, ← Nat.pow_add]
    rw [show 64 + (c.e + 1060).toNat + (-(c.e + ((kv : Int) - 1074 - s) + 64)).toNat + (kv + 63 - s) = 2197 by omega]
  have hG0 : 0 < 2 ^ (kv + 63 - s) := Nat.pow_pos (by decide)
  have pw : ∀ i j l : Nat, i + j = l → (2 : Nat) ^ i * 2 ^ j = 2 ^ l := by intro i j l h; rw [← Nat.pow_add, h]
  have hGp : Wp * 2 ^ (kv + 63 - s) = (2 * f + 1) * 2 ^ kv * 2 ^ 62 := by
    rw [← hWp, Nat.mul_assoc, Nat.mul_assoc, pw _ _ (kv + 62) (by omega), pw _ _ (kv + 62) (by omega)]
  have k1 := scaled_up (s := s) hU hGp rfl hup hhi hG0 rfl
  have k2 : (2 * f - 1) * 2 ^ kv * (10 ^ b * 10 ^ (c.k + 300).toNat) < digitsValue buf * 10 ^ a * 10 ^ 300 * 2 * 2 ^ 1074 ∧
      (f = 2 ^ 52 → 1 ≤ kv → (4 * f - 1) * 2 ^ kv * (10 ^ b * 10 ^ (c.k + 300).toNat) < digitsValue buf * 10 ^ a * 10 ^ 300 * 4 * 2 ^ 1074) := by
    by_cases hcl : f = 2 ^ 52 ∧ 1 ≤ kv
    · rw [if_pos hcl] at hWm
      have hGm : Wm * 2 ^ (kv + 63 - s) * 4 = (4 * f - 1) * 2 ^ kv * 2 ^ 63 := by
        rw [← hWm, show (4 : Nat) = 2 ^ 2 by decide, Nat.mul_assoc, Nat.mul_assoc, Nat.mul_assoc, pw _ 2 (kv + 65 - s) (by omega), pw _ _ (kv + 63) (by omega),
          pw _ _ (kv + 63) (by omega)]
      have g := scaled_down hU hGm rfl hdown hlo hG0 (by decide)
      refine ⟨?_, fun _ _ => g⟩
      have h1 : 2 * ((2 * f - 1) * 2 ^ kv * (10 ^ b * 10 ^ (c.k + 300).toNat)) ≤ (4 * f - 1) * 2 ^ kv * (10 ^ b * 10 ^ (c.k + 300).toNat) := by
        generalize 10 ^ b * 10 ^ (c.k + 300).toNat = Y
        have h3 : 2 * (2 * f - 1) ≤ 4 * f - 1 := by omega
        have h4 := Nat.mul_le_mul_right (2 ^ kv * Y) h3
        rw [Nat.mul_assoc, Nat.mul_assoc, Nat.mul_assoc] at *
        exact h4
      have h2 : digitsValue buf * 10 ^ a * 10 ^ 300 * 4 * 2 ^ 1074 = 2 * (digitsValue buf * 10 ^ a * 10 ^ 300 * 2 * 2 ^ 1074) := by
        generalize digitsValue buf * 10 ^ a * 10 ^ 300 = t
        generalize (2 : Nat) ^ 1074 = t2
        grind
      rw [h2] at g
      generalize (2 * f - 1) * 2 ^ kv * (10 ^ b * 10 ^ (c.k + 300).toNat) = t1 at *
      generalize digitsValue buf * 10 ^ a * 10 ^ 300 * 2 * 2 ^ 1074 = t2 at *
      omega
    · rw [if_neg hcl] at hWm
      have hGm : Wm * 2 ^ (kv + 63 - s) * 2 = (2 * f - 1) * 2 ^ kv * 2 ^ 63 := by
        have h2 : ∀ x : Nat, x * 2 = x * 2 ^ 1 := by intro x; simp
        rw [h2, ← hWm, Nat.mul_assoc, Nat.mul_assoc, Nat.mul_assoc, pw _ 1 (kv + 64 - s) (by omega), pw _ _ (kv + 63) (by omega),
          pw _ _ (kv + 63) (by omega)]
      have g := scaled_down hU hGm rfl hdown hlo hG0 (by decide)
      exact ⟨g, fun h1 h2 => absurd ⟨h1, h2⟩ hcl⟩
  -- in rationals
  have hsc := digits_scaled (digitsValue buf) a b c.k hck1
  rw [← hn] at hsc
  have hY : (0 : Rat) < ((10 ^ b * 10 ^ (c.k + 300).toNat : Nat) : Rat) := by
    have : 0 < 10 ^ b * 10 ^ (c.k + 300).toNat := Nat.mul_pos (Nat.pow_pos (by decide)) (Nat.pow_pos (by decide))
    have h := Rat.natCast_lt_natCast.2 this
    rwa [show ((0 : Nat) : Rat) = 0 from rfl] at h
  generalize hx : (digitsValue buf : Rat) * pow10 (-c.k + n) = x at *
  generalize hYn : 10 ^ b * 10 ^ (c.k + 300).toNat = Y at *
  generalize hZ : digitsValue buf * 10 ^ a * 10 ^ 300 = Z at *
  have conv : ∀ m t : Nat, m * 2 ^ kv * Y < Z * t * 2 ^ 1074 → ((m : Nat) : Rat) * (2 ^ kv : Nat) < (t : Rat) * (x * (2 ^ 1074 : Nat)) := by
    intro m t h
    have h' : ((m * 2 ^ kv * Y : Nat) : Rat) < ((Z * t * 2 ^ 1074 : Nat) : Rat) := Rat.natCast_lt_natCast.2 h
    rw [Rat.natCast_mul, Rat.natCast_mul, Rat.natCast_mul, Rat.natCast_mul, ← hsc] at h'
    refine Rat.not_le.1 fun hc => ?_
    have := Rat.mul_le_mul_of_nonneg_right hc (Rat.le_of_lt hY)
    grind
  have conv' : ∀ m t : Nat, Z * t * 2 ^ 1074 < m * 2 ^ kv * Y → (t : Rat) * (x * (2 ^ 1074 : Nat)) < ((m : Nat) : Rat) * (2 ^ kv : Nat) := by
    intro m t h
    have h' : ((Z * t * 2 ^ 1074 : Nat) : Rat) < ((m * 2 ^ kv * Y : Nat) : Rat) := Rat.natCast_lt_natCast.2 h
    rw [Rat.natCast_mul, Rat.natCast_mul, Rat.natCast_mul, Rat.natCast_mul, ← hsc] at h'
    refine Rat.not_le.1 fun hc => ?_
    have := Rat.mul_le_mul_of_nonneg_right hc (Rat.le_of_lt hY)
    grind
  have hrne := rne64_interval hf53 hf0 hp.normal (conv _ 2 k2.1) (conv' _ 2 k1) (fun h1 h2 => conv _ 4 (k2.2 h1 h2))
  rw [← hp.value] at hrne
  have hval : rne64 x = q := by
    rw [← mul_div' (x := rne64 x) (pow_pos_rat 1074), hrne, mul_div' (pow_pos_rat 1074)]
  unfold f64 overflowAt
  rw [hval]
  have hqlt : q < ((2 ^ 1024 : Nat) : Rat) := by
    refine Rat.not_le.1 fun hc => ?_
    have h1 := Rat.mul_le_mul_of_nonneg_right hc (Rat.le_of_lt (pow_pos_rat 1074))
    rw [hp.value, ← Rat.natCast_mul, ← Nat.pow_add] at h1
    have h2 := Rat.natCast_le_natCast.1 h1
    have h3 : f * 2 ^ kv < 2 ^ 53 * 2 ^ kv := Nat.mul_lt_mul_of_pos_right hf53 (Nat.pow_pos (by decide))
    rw [← Nat.pow_add] at h3
    have h4 : (2 : Nat) ^ (53 + kv) ≤ 2 ^ (1024 + 1074) := Nat.pow_le_pow_right (by decide) (by omega)
    exact absurd (Nat.lt_of_lt_of_le h3 h4) (Nat.not_lt.2 h2)
  rw [if_neg (Rat.not_le.2 hqlt), if_neg]
  refine Rat.not_le.2 ?_
  have := pow_pos_rat 1024
  grind

end Tsetlini
