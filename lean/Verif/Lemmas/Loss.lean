import Verif.Lemmas.RealEnv
import Verif.Lemmas.Float
/-
Ranges of the loss functions.
-/
namespace Tsetlini
open Res Spec

/-- The error of rounding a number between 0 and 1 to binary32. -/
theorem rne32_near {y : Rat} (h0 : 0 ≤ y) (h1 : y ≤ 1) : rne32 y ≤ y + 1 / 16777216 := by
  have hk : lastDigit 24 149 y ≤ 126 := by
    have := lastDigit_mono (p := 24) (q := 149) h1
    have e : lastDigit 24 149 1 = 126 := by decide +kernel
    omega
  unfold rne32 rne rnePos
  rw [if_pos h0]
  have := (roundEven_near (y * (2 ^ 149 : Nat) / (2 ^ lastDigit 24 149 y : Nat))).1
  generalize (roundEven (y * (2 ^ 149 : Nat) / (2 ^ lastDigit 24 149 y : Nat)) : Rat) = m at *
  have hp := pow_pos_rat (lastDigit 24 149 y)
  have h2 : ((2 ^ lastDigit 24 149 y : Nat) : Rat) ≤ ((2 ^ 126 : Nat) : Rat) := by
    exact_mod_cast Nat.pow_le_pow_right (by decide) hk
  generalize ((2 ^ lastDigit 24 149 y : Nat) : Rat) = d at *
  have h3 : m * d ≤ (y * (2 ^ 149 : Nat) / d + 1/2) * d :=
    Rat.mul_le_mul_of_nonneg_right (by grind) (Rat.le_of_lt hp)
  rw [Rat.add_mul, div_mul' hp] at h3
  have h4 := div_le_div' (c := ((2 ^ 149 : Nat) : Rat)) (y := y * (2 ^ 149 : Nat) + 1/2 * (2 ^ 126 : Nat)) (x := m * d)
    (by grind) (pow_pos_rat 149)
  refine Rat.le_trans h4 ?_
  have e : (y * (2 ^ 149 : Nat) + 1/2 * (2 ^ 126 : Nat)) / (2 ^ 149 : Nat) = y + 1/2 * (2 ^ 126 : Nat) / (2 ^ 149 : Nat) := by
    rw [Rat.div_def, Rat.add_mul, ← Rat.div_def, mul_div' (pow_pos_rat 149), ← Rat.div_def]
  rw [e]
  have : (1/2 : Rat) * (2 ^ 126 : Nat) / (2 ^ 149 : Nat) = 1 / 16777216 := by decide +kernel
  rw [this]
  exact Rat.le_refl

theorem ratAbs_nonneg (x : Rat) : 0 ≤ ratAbs x := by unfold ratAbs; split <;> grind
theorem ratAbs_neg (x : Rat) : ratAbs (-x) = ratAbs x := by unfold ratAbs; split <;> split <;> grind
theorem ratAbs_le {x c : Rat} : ratAbs x ≤ c ↔ -c ≤ x ∧ x ≤ c := by unfold ratAbs; split <;> grind
theorem ratAbs_mul (x y : Rat) : ratAbs (x * y) = ratAbs x * ratAbs y := by
  unfold ratAbs
  by_cases hx : x < 0 <;> by_cases hy : y < 0
  · rw [if_pos hx, if_pos hy, if_neg]
    · grind
    · have := Rat.mul_nonneg (a := -x) (b := -y) (by grind) (by grind); grind
  · rw [if_pos hx, if_neg hy]
    have := Rat.mul_nonneg (a := -x) (b := y) (by grind) (by grind)
    split
    · grind
    · grind
  · rw [if_neg hx, if_pos hy]
    have := Rat.mul_nonneg (a := x) (b := -y) (by grind) (by grind)
    split
    · grind
    · grind
  · rw [if_neg hx, if_neg hy, if_neg]
    have := Rat.mul_nonneg (a := x) (b := y) (by grind) (by grind)
    grind

theorem mul_self_range {x : Rat} (h0 : -1 ≤ x) (h1 : x ≤ 1) : 0 ≤ x * x ∧ x * x ≤ 1 := by
  have e : x * x = ratAbs x * ratAbs x := by unfold ratAbs; split <;> grind
  have a := ratAbs_nonneg x
  have b : ratAbs x ≤ 1 := ratAbs_le.2 ⟨h0, h1⟩
  rw [e]
  refine ⟨Rat.mul_nonneg a a, ?_⟩
  have := Rat.mul_le_mul_of_nonneg_right b a
  grind

theorem mul_le_left {c a : Rat} (hc : 0 ≤ c) (ha : a ≤ 1) : c * a ≤ c := by
  have := Rat.mul_le_mul_of_nonneg_left ha hc
  grind

section
variable (env : Env)

/-- A product with a factor in [-1, 1], rounded. -/
theorem rnd_mul_le {d x : Rat} (hd : 0 ≤ d) (h0 : -1 ≤ x) (h1 : x ≤ 1) (hi : env.rnd d = d) (hn : env.rnd (-d) = -d) :
    ratAbs (env.rnd (d * x)) ≤ d := by
  rw [ratAbs_le]
  have a := mul_le_left hd h1
  have b := mul_le_left (c := d) (a := -x) hd (by grind)
  constructor
  · have := env.rnd_mono_law (-d) (d * x) (by grind); grind
  · have := env.rnd_mono_law _ _ a; grind

/-- `c|x| + (1-c)x²` in float arithmetic. -/
def l1p2 (c x : Rat) : Rat := env.rnd (env.rnd (c * ratAbs x) + env.rnd (env.rnd (env.rnd (1 - c) * x) * x))

/-- Under any rounding the parts lie between 0 and 1. -/
theorem l1p2_parts {c x : Rat} (hc0 : 0 ≤ c) (hc1 : c ≤ 1) (h0 : -1 ≤ x) (h1 : x ≤ 1) :
    (0 ≤ env.rnd (c * ratAbs x) ∧ env.rnd (c * ratAbs x) ≤ env.rnd c) ∧
    (0 ≤ env.rnd (env.rnd (env.rnd (1 - c) * x) * x) ∧ env.rnd (env.rnd (env.rnd (1 - c) * x) * x) ≤ 1) := by
  have ha0 := ratAbs_nonneg x
  have ha1 : ratAbs x ≤ 1 := ratAbs_le.2 ⟨h0, h1⟩
  refine ⟨⟨rnd_nonneg env (Rat.mul_nonneg hc0 ha0), env.rnd_mono_law _ _ (mul_le_left hc0 ha1)⟩, ?_⟩
  have d0 : 0 ≤ env.rnd (1 - c) := rnd_nonneg env (by grind)
  have d1 : env.rnd (1 - c) ≤ 1 := rnd_le_one env (by grind)
  generalize env.rnd (1 - c) = d at *
  have m0 : ((-1 : Int) : Rat) ≤ d * x := by
    have := mul_le_left (c := d) (a := -x) d0 (by grind)
    have e : ((-1 : Int) : Rat) = -1 := rfl
    grind
  have m1 : d * x ≤ 1 := by have := mul_le_left d0 h1; grind
  have e0 := rnd_ge_int env (m := -1) (by decide) m0
  have e1 := rnd_le_one env m1
  by_cases hx : 0 ≤ x
  · have f0 := rnd_nonneg env (Rat.mul_nonneg d0 hx)
    generalize env.rnd (d * x) = y at *
    exact ⟨rnd_nonneg env (Rat.mul_nonneg f0 hx), rnd_le_one env (by have := mul_le_left f0 h1; grind)⟩
  · have f0 : env.rnd (d * x) ≤ 0 := by
      have h := Rat.mul_nonneg (a := d) (b := -x) d0 (by grind)
      have := env.rnd_mono_law (d * x) 0 (by grind)
      rwa [rnd_zero] at this
    generalize env.rnd (d * x) = y at *
    have hm := Rat.mul_nonneg (a := -y) (b := -x) (by grind) (by grind)
    have hl := mul_le_left (c := -y) (a := -x) (by grind) (by grind)
    have e : ((-1 : Int) : Rat) = -1 := rfl
    exact ⟨rnd_nonneg env (by grind), rnd_le_one env (by grind)⟩

theorem rnd_two : env.rnd 2 = 2 := rnd_int env (m := 2) (by decide)

theorem l1p2_le_two {c x : Rat} (hc0 : 0 ≤ c) (hc1 : c ≤ 1) (h0 : -1 ≤ x) (h1 : x ≤ 1) :
    0 ≤ l1p2 env c x ∧ l1p2 env c x ≤ 2 := by
  obtain ⟨⟨a, b⟩, d, e⟩ := l1p2_parts env hc0 hc1 h0 h1
  have f : env.rnd c ≤ 1 := rnd_le_one env hc1
  refine ⟨rnd_nonneg env (by grind), ?_⟩
  have := env.rnd_mono_law (env.rnd (c * ratAbs x) + env.rnd (env.rnd (env.rnd (1 - c) * x) * x)) 2 (by grind)
  rwa [rnd_two] at this

end

/-- With IEEE rounding, the value is at most 1. -/
theorem l1p2_le_one {env : Env} (he : env.rnd = rne32) {c x : Rat} (hf : rne32 c = c) (hc0 : 0 ≤ c) (hc1 : c ≤ 1)
    (h0 : -1 ≤ x) (h1 : x ≤ 1) : l1p2 env c x ≤ 1 := by
  obtain ⟨⟨a, b⟩, -⟩ := l1p2_parts env hc0 hc1 h0 h1
  have hd0 : 0 ≤ env.rnd (1 - c) := rnd_nonneg env (by grind)
  have hd1 := rne32_near (y := 1 - c) (by grind) (by grind)
  have hi : env.rnd (env.rnd (1 - c)) = env.rnd (1 - c) := by rw [he]; exact rne_idem (by decide) _
  have hn : env.rnd (- env.rnd (1 - c)) = - env.rnd (1 - c) := by
    rw [he] at hi ⊢; exact (rne_neg _).trans (by rw [← show rne32 (rne32 (1 - c)) = rne 24 149 (rne32 (1 - c)) from rfl, hi])
  have hy := rnd_mul_le env hd0 h0 h1 hi hn
  unfold l1p2
  rw [he] at *
  generalize rne32 (1 - c) = d at *
  have hz : rne32 (rne32 (d * x) * x) ≤ d := by
    refine Rat.le_trans (rne_mono (p := 24) (q := 149) (y := d) (by decide) ?_) (by rw [show rne 24 149 d = d from hi]; exact Rat.le_refl)
    have h2 : ratAbs (rne32 (d * x) * x) ≤ d := by
      rw [ratAbs_mul]
      exact Rat.le_trans (mul_le_left (ratAbs_nonneg _) (ratAbs_le.2 ⟨h0, h1⟩)) hy
    exact (ratAbs_le.1 h2).2
  have hs : rne32 (c * ratAbs x) + rne32 (rne32 (d * x) * x) ≤ 1 + 1 / 16777216 := by grind
  have := rne_mono (p := 24) (q := 149) (by decide) hs
  have e : rne 24 149 (1 + 1 / 16777216) = 1 := by decide +kernel
  rw [e] at this
  exact this

end Tsetlini
