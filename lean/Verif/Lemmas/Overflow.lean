import Verif.Model.Overflow
import Verif.Spec.Overflow
import Verif.Lemmas.Loss
import Verif.Lemmas.Chance
/-
Where IEEE arithmetic with infinities and rounded rationals agree.
-/
namespace Tsetlini
open Spec Fl

theorem rne32_max : rne32 maxFloat = maxFloat := by
  have := rne_exact_up (p := 24) (q := 149) (by decide) (m := 16777215) (by decide) 104
  exact this

theorem rne32_nmax : rne32 (-maxFloat) = -maxFloat := by
  show rne 24 149 (-maxFloat) = _
  rw [rne_neg]; exact congrArg _ rne32_max

theorem rne32_mono {x y : Rat} (h : x ≤ y) : rne32 x ≤ rne32 y := rne_mono (by decide) h
theorem rne64_mono {x y : Rat} (h : x ≤ y) : rne64 x ≤ rne64 y := rne_mono (by decide) h
theorem rne32_idem (x : Rat) : rne32 (rne32 x) = rne32 x := rne_idem (by decide) x
theorem rne32_int {m : Int} (h : m.natAbs ≤ 16777216) : rne32 m = m := rnd_int (realEnv default) h
theorem rne32_mulpow {m : Int} (h : m.natAbs ≤ 16777216) (k : Nat) : rne32 (m * (2 ^ k : Nat)) = m * (2 ^ k : Nat) :=
  rne_exact_up (by decide) h k

/-- Of the size of a finite float. -/
def InRange (x : Rat) : Prop := -maxFloat ≤ x ∧ x ≤ maxFloat

theorem max_lt : maxFloat < ((2 ^ 128 : Nat) : Rat) := by decide +kernel
theorem one_le_max : (1 : Rat) ≤ maxFloat := by decide +kernel

theorem InRange.rnd {x : Rat} (h : InRange x) : InRange (rne32 x) := by
  constructor
  · have := rne32_mono h.1; rwa [rne32_nmax] at this
  · have := rne32_mono h.2; rwa [rne32_max] at this

theorem InRange.f32 {x : Rat} (h : InRange x) : f32 x = .fin (rne32 x) := by
  have h1 := h.rnd
  have h2 := max_lt
  unfold Tsetlini.f32 overflowAt
  rw [if_neg (by have := h1.2; grind), if_neg (by have := h1.1; grind)]

theorem f32_small {x : Rat} (h : -1 ≤ x) (h' : x ≤ 1) : f32 x = .fin (rne32 x) := by
  have := one_le_max
  exact InRange.f32 ⟨by grind, by grind⟩

theorem InRange.neg {x : Rat} (h : InRange x) : InRange (-x) := ⟨by have := h.2; grind, by have := h.1; grind⟩

theorem InRange.mul {x y : Rat} (h : InRange x) (h0 : -1 ≤ y) (h1 : y ≤ 1) : InRange (x * y) := by
  have key : ∀ {x : Rat}, 0 ≤ x → x ≤ maxFloat → InRange (x * y) := by
    intro x hx hm
    have a1 := Rat.mul_le_mul_of_nonneg_left h1 hx
    have a2 := Rat.mul_le_mul_of_nonneg_left h0 hx
    rw [Rat.mul_one] at a1
    exact ⟨by grind, by grind⟩
  by_cases hx : 0 ≤ x
  · exact key hx h.2
  · have := (key (x := -x) (by grind) (by have := h.1; grind)).neg
    rwa [Rat.neg_mul, show -(-(x * y)) = x * y by grind] at this

theorem InRange.between {a b x : Rat} (ha : InRange a) (hb : InRange b) (h : a ≤ x) (h' : x ≤ b) : InRange x :=
  ⟨Rat.le_trans ha.1 h, Rat.le_trans h' hb.2⟩

theorem inRange_nat {n : Nat} (h : n ≤ 4294967296) : InRange (n : Rat) := by
  have h1 : (0 : Rat) ≤ (n : Rat) := by exact_mod_cast Nat.zero_le n
  have h2 : (n : Rat) ≤ ((4294967296 : Nat) : Rat) := Rat.natCast_le_natCast.2 h
  have h3 : ((4294967296 : Nat) : Rat) ≤ maxFloat := by decide +kernel
  have h4 := one_le_max
  exact ⟨by grind, by grind⟩

theorem inRange_int {i : Int} (h : -4294967296 ≤ i) (h' : i ≤ 4294967296) : InRange (i : Rat) := by
  have h1 : (((-4294967296 : Int)) : Rat) ≤ (i : Rat) := Rat.intCast_le_intCast.2 h
  have h2 : (i : Rat) ≤ ((4294967296 : Int) : Rat) := Rat.intCast_le_intCast.2 h'
  have h3 : ((4294967296 : Int) : Rat) ≤ maxFloat := by decide +kernel
  have h4 : -maxFloat ≤ (((-4294967296 : Int)) : Rat) := by decide +kernel
  exact ⟨Rat.le_trans h4 h1, Rat.le_trans h2 h3⟩

theorem floatOf_fin {i : Int} (h : -4294967296 ≤ i) (h' : i ≤ 4294967296) : floatOf i = .fin (rne32 i) :=
  (inRange_int h h').f32

theorem f32_cases (x : Rat) : (f32 x = .fin (rne32 x) ∧ rne32 x < ((2 ^ 128 : Nat) : Rat) ∧ -((2 ^ 128 : Nat) : Rat) < rne32 x) ∨
    (f32 x = .inf false ∧ ((2 ^ 128 : Nat) : Rat) ≤ rne32 x) ∨ (f32 x = .inf true ∧ rne32 x ≤ -((2 ^ 128 : Nat) : Rat)) := by
  unfold f32 overflowAt
  by_cases h1 : ((2 ^ 128 : Nat) : Rat) ≤ rne32 x
  · rw [if_pos h1]; exact .inr (.inl ⟨rfl, h1⟩)
  · rw [if_neg h1]
    by_cases h2 : rne32 x ≤ -((2 ^ 128 : Nat) : Rat)
    · rw [if_pos h2]; exact .inr (.inr ⟨rfl, h2⟩)
    · rw [if_neg h2]; exact .inl ⟨rfl, by grind, by grind⟩

/-! ### Losses -/

theorem ratAbs_eq (x : Rat) : (Fl.fin x).abs = .fin (ratAbs x) := rfl

/-- What the IEEE loss is if the other one is `v`. -/
def SameLoss (a b : Fl) : Prop := a = b ∨ (a = .inf true ∧ ∃ v, b = .fin v ∧ v ≤ -((2 ^ 126 : Nat) : Rat))

theorem sq_small {x : Rat} (h0 : -1 ≤ x) (h1 : x ≤ 1) : mul f32 (.fin x) (.fin x) = .fin (rne32 (x * x)) := by
  have := mul_self_range h0 h1
  exact f32_small (by grind) this.2

theorem rne32_max1 : rne32 (1 + maxFloat) = maxFloat := by decide +kernel

theorem f32_mid {x : Rat} (h : -((2 ^ 128 : Nat) : Rat) < rne32 x) (h' : rne32 x < ((2 ^ 128 : Nat) : Rat)) : f32 x = .fin (rne32 x) := by
  unfold f32 overflowAt
  rw [if_neg (by grind), if_neg (by grind)]

theorem rne32_le_max1 {x : Rat} (h : x ≤ 1 + maxFloat) : rne32 x ≤ maxFloat := by
  have := rne32_mono h
  rwa [rne32_max1] at this

theorem max1_le_rne32 {x : Rat} (h : -(1 + maxFloat) ≤ x) : -maxFloat ≤ rne32 x := by
  have h1 := rne32_mono h
  have h2 : rne32 (-(1 + maxFloat)) = -rne32 (1 + maxFloat) := rne_neg _
  rwa [h2, rne32_max1] at h1

theorem sq_nonneg (c : Rat) : 0 ≤ c * c := by
  by_cases h : 0 ≤ c
  · exact Rat.mul_nonneg h h
  · have := Rat.mul_nonneg (a := -c) (b := -c) (by grind) (by grind); grind

theorem rne32_le_one {x : Rat} (h : x ≤ 1) : rne32 x ≤ 1 := by
  have := rne32_mono h
  rwa [show rne32 1 = 1 by decide +kernel] at this

/-- The last branch of the loss berHu. -/
theorem berHu_far {c x : Rat} (hc : InRange c) (hc1 : c ≤ 1) (h0 : -1 ≤ x) (h1 : x ≤ 1) :
    SameLoss (sub f32 (mul f32 (.fin x) (.fin x)) (add f32 (mul f32 (.fin c) (.fin c)) (.fin c)))
      (.fin (rne32 (rne32 (x * x) - rne32 (rne32 (c * c) + c)))) := by
  rw [sq_small h0 h1]
  have hq := mul_self_range h0 h1
  have x0 : 0 ≤ rne32 (x * x) := rne32_nonneg hq.1
  have x1 : rne32 (x * x) ≤ 1 := rne32_le_one hq.2
  have cc0 := sq_nonneg c
  have cc0' : 0 ≤ rne32 (c * c) := rne32_nonneg cc0
  have hm := max_lt
  have p0 : (2 : Rat) < ((2 ^ 128 : Nat) : Rat) := by decide +kernel
  show SameLoss (sub f32 _ (add f32 (f32 (c * c)) (.fin c))) _
  rcases f32_cases (c * c) with ⟨e, l1, l2⟩ | ⟨e, l1⟩ | ⟨e, l1⟩
  · have lo : -maxFloat ≤ rne32 (rne32 (c * c) + c) := by
      have a1 : rne32 c ≤ rne32 (rne32 (c * c) + c) := rne32_mono (by grind)
      exact Rat.le_trans hc.rnd.1 a1
    have hi : rne32 (rne32 (c * c) + c) < ((2 ^ 128 : Nat) : Rat) := by
      by_cases h : 0 ≤ c
      · have a3 : c * c ≤ 1 := by have := Rat.mul_le_mul_of_nonneg_left hc1 h; grind
        have a4 : rne32 (c * c) ≤ 1 := rne32_le_one a3
        have a5 : rne32 (rne32 (c * c) + c) ≤ 2 := by
          have := rne32_mono (x := rne32 (c * c) + c) (y := 2) (by grind)
          rwa [show rne32 2 = 2 by decide +kernel] at this
        grind
      · have a1 : rne32 (rne32 (c * c) + c) ≤ rne32 (rne32 (c * c)) := rne32_mono (by grind)
        rw [rne32_idem] at a1
        grind
    refine .inl ?_
    rw [e]
    show sub f32 _ (f32 (rne32 (c * c) + c)) = _
    rw [f32_mid (by grind) hi]
    show f32 (rne32 (x * x) + -rne32 (rne32 (c * c) + c)) = _
    rw [← Rat.sub_eq_add_neg]
    refine f32_mid ?_ ?_
    · have a1 : rne32 (-rne32 (rne32 (c * c) + c)) ≤ rne32 (rne32 (x * x) - rne32 (rne32 (c * c) + c)) := rne32_mono (by grind)
      rw [show rne32 (-rne32 (rne32 (c * c) + c)) = -rne32 (rne32 (rne32 (c * c) + c)) from rne_neg _, rne32_idem] at a1
      grind
    · have := rne32_le_max1 (x := rne32 (x * x) - rne32 (rne32 (c * c) + c)) (by grind)
      grind
  · refine .inr ⟨by rw [e]; rfl, _, rfl, ?_⟩
    have key : ((2 ^ 127 : Nat) : Rat) ≤ rne32 (c * c) + c := by
      by_cases h : -((2 ^ 127 : Nat) : Rat) ≤ c
      · have : ((2 ^ 128 : Nat) : Rat) = 2 * ((2 ^ 127 : Nat) : Rat) := by decide +kernel
        grind
      · have b1 : ((2 ^ 127 : Nat) : Rat) * ((2 ^ 127 : Nat) : Rat) ≤ c * c := by
          have i0 := pow_pos_rat 127
          have i1 := Rat.mul_le_mul_of_nonneg_left (a := ((2 ^ 127 : Nat) : Rat)) (b := -c) (c := -c) (by grind) (by grind)
          have i2 := Rat.mul_le_mul_of_nonneg_left (a := ((2 ^ 127 : Nat) : Rat)) (b := -c) (c := ((2 ^ 127 : Nat) : Rat)) (by grind) (by grind)
          grind
        have b2 := rne32_mono b1
        have b3 : rne32 (((2 ^ 127 : Nat) : Rat) * ((2 ^ 127 : Nat) : Rat)) = ((2 ^ 127 : Nat) : Rat) * ((2 ^ 127 : Nat) : Rat) := by
          decide +kernel
        rw [b3] at b2
        have b4 : ((2 ^ 127 : Nat) : Rat) + ((2 ^ 128 : Nat) : Rat) ≤ ((2 ^ 127 : Nat) : Rat) * ((2 ^ 127 : Nat) : Rat) := by decide +kernel
        have b5 := hc.1
        grind
    have b1 := rne32_mono key
    rw [show rne32 ((2 ^ 127 : Nat) : Rat) = ((2 ^ 127 : Nat) : Rat) by decide +kernel] at b1
    have b6 : (1 : Rat) - ((2 ^ 127 : Nat) : Rat) ≤ -((2 ^ 126 : Nat) : Rat) := by decide +kernel
    have b7 := rne32_mono (x := rne32 (x * x) - rne32 (rne32 (c * c) + c)) (y := -((2 ^ 126 : Nat) : Rat)) (by grind)
    rwa [show rne32 (-((2 ^ 126 : Nat) : Rat)) = -((2 ^ 126 : Nat) : Rat) by decide +kernel] at b7
  · grind

theorem ratAbs_range {x : Rat} (h0 : -1 ≤ x) (h1 : x ≤ 1) : 0 ≤ ratAbs x ∧ ratAbs x ≤ 1 := ⟨ratAbs_nonneg x, ratAbs_le.2 ⟨h0, h1⟩⟩

/-- The loss L1+2 of a finite C1. -/
theorem l1p2_fin {c x : Rat} (hc : InRange c) (h0 : -1 ≤ x) (h1 : x ≤ 1) :
    add f32 (mul f32 (.fin c) (.fin (ratAbs x))) (mul f32 (mul f32 (sub f32 (.fin 1) (.fin c)) (.fin x)) (.fin x)) =
      .fin (rne32 (rne32 (c * ratAbs x) + rne32 (rne32 (rne32 (1 - c) * x) * x))) := by
  obtain ⟨a0, a1⟩ := ratAbs_range h0 h1
  have hm := max_lt
  have r1 : InRange (c * ratAbs x) := hc.mul (by grind) a1
  have r2 : f32 (1 + -c) = .fin (rne32 (1 - c)) ∧ InRange (rne32 (1 - c)) := by
    have : InRange (rne32 (1 - c)) := ⟨max1_le_rne32 (by have := hc.2; grind), rne32_le_max1 (by have := hc.1; grind)⟩
    refine ⟨?_, this⟩
    rw [← Rat.sub_eq_add_neg]
    exact f32_mid (by have := this.1; grind) (by have := this.2; grind)
  have r3 : InRange (rne32 (1 - c) * x) := r2.2.mul h0 h1
  have r4 : InRange (rne32 (rne32 (1 - c) * x) * x) := r3.rnd.mul h0 h1
  show add f32 (f32 (c * ratAbs x)) (mul f32 (mul f32 (f32 (1 + -c)) (.fin x)) (.fin x)) = _
  rw [r1.f32, r2.1]
  show add f32 _ (mul f32 (f32 (rne32 (1 - c) * x)) (.fin x)) = _
  rw [r3.f32]
  show add f32 _ (f32 (rne32 (rne32 (1 - c) * x) * x)) = _
  rw [r4.f32]
  show f32 (rne32 (c * ratAbs x) + rne32 (rne32 (rne32 (1 - c) * x) * x)) = _
  -- the two summands have opposite signs, or are small
  have sgn : ∀ d : Rat, (0 ≤ d → 0 ≤ rne32 (rne32 (d * x) * x)) := by
    intro d hd
    by_cases hx : 0 ≤ x
    · exact rne32_nonneg (Rat.mul_nonneg (rne32_nonneg (Rat.mul_nonneg hd hx)) hx)
    · have e : rne32 (rne32 (d * x) * x) = rne32 (rne32 (d * -x) * -x) := by
        have : rne32 (d * -x) = -rne32 (d * x) := by
          rw [Rat.mul_neg]; exact rne_neg _
        rw [this]; congr 1; grind
      rw [e]
      exact rne32_nonneg (Rat.mul_nonneg (rne32_nonneg (Rat.mul_nonneg hd (by grind))) (by grind))
  by_cases c0 : c < 0
  · have s1 : rne32 (c * ratAbs x) ≤ 0 := by
      have : c * ratAbs x ≤ 0 := by
        have := Rat.mul_nonneg (a := -c) (b := ratAbs x) (by grind) a0; grind
      have := rne32_mono this
      rwa [show rne32 0 = 0 by decide +kernel] at this
    have s2 := sgn (rne32 (1 - c)) (rne32_nonneg (by grind))
    exact (InRange.between r1.rnd r4.rnd (by grind) (by grind)).f32
  · have s1 : 0 ≤ rne32 (c * ratAbs x) := rne32_nonneg (Rat.mul_nonneg (by grind) a0)
    by_cases c1 : c ≤ 1
    · have s2 := sgn (rne32 (1 - c)) (rne32_nonneg (by grind))
      have s3 : rne32 (c * ratAbs x) ≤ 1 := rne32_le_one (by
        have := Rat.mul_le_mul_of_nonneg_left a1 (c := c) (by grind); grind)
      have s4 := (r4.rnd)
      have s5 : rne32 (1 - c) ≤ 1 := rne32_le_one (by grind)
      have s50 : 0 ≤ rne32 (1 - c) := rne32_nonneg (by grind)
      have s6 : -1 ≤ rne32 (rne32 (1 - c) * x) ∧ rne32 (rne32 (1 - c) * x) ≤ 1 := by
        have t1 := Rat.mul_le_mul_of_nonneg_left h1 s50
        have t2 := Rat.mul_le_mul_of_nonneg_left h0 s50
        refine ⟨?_, rne32_le_one (by grind)⟩
        have := rne32_mono (x := -1) (y := rne32 (1 - c) * x) (by grind)
        rwa [show rne32 (-1) = -1 by decide +kernel] at this
      have s7 : rne32 (rne32 (rne32 (1 - c) * x) * x) ≤ 1 := by
        refine rne32_le_one ?_
        generalize rne32 (rne32 (1 - c) * x) = y at s6
        have t1 : ratAbs (y * x) ≤ 1 := by
          rw [ratAbs_mul]
          have t2 := ratAbs_range s6.1 s6.2
          have := Rat.mul_le_mul_of_nonneg_left a1 t2.1
          grind
        exact (ratAbs_le.1 t1).2
      have : (2 : Rat) ≤ maxFloat := by decide +kernel
      exact InRange.f32 ⟨by grind, by grind⟩
    · have s2 : rne32 (rne32 (rne32 (1 - c) * x) * x) ≤ 0 := by
        have e : rne32 (rne32 (rne32 (1 - c) * x) * x) = -rne32 (rne32 (rne32 (c - 1) * x) * x) := by
          have : rne32 (1 - c) = -rne32 (c - 1) := by
            rw [show (1 - c : Rat) = -(c - 1) by grind]; exact rne_neg _
          rw [this, Rat.neg_mul, show rne32 (-(rne32 (c - 1) * x)) = -rne32 (rne32 (c - 1) * x) from rne_neg _, Rat.neg_mul]
          exact rne_neg _
        have := sgn (rne32 (c - 1)) (rne32_nonneg (by grind))
        grind
      exact (InRange.between r4.rnd r1.rnd (by grind) (by grind)).f32

/-- The losses agree, but for berHu with a C1 whose square overflows. -/
theorem loss_same {env : Env} (he : env.rnd = rne32) (l : Loss) {C1 : Fl} (hC : IsFloat C1) {x : Rat} (h0 : -1 ≤ x) (h1 : x ≤ 1) :
    SameLoss (lossIeee l C1 (.fin x)) (lossVal env l C1 x) ∧ (l ≠ .berHu → lossIeee l C1 (.fin x) = lossVal env l C1 x) := by
  cases l with
  | abs => exact ⟨.inl rfl, fun _ => rfl⟩
  | sq =>
    have : lossIeee .sq C1 (.fin x) = lossVal env .sq C1 x := by
      show mul f32 (.fin x) (.fin x) = .fin (env.rnd (x * x))
      rw [sq_small h0 h1, he]
    exact ⟨.inl this, fun _ => this⟩
  | berHu =>
    refine ⟨?_, fun h => absurd rfl h⟩
    cases C1 with
    | nan => exact .inl (by
        show (if Fl.le (.fin (ratAbs x)) .nan = true then Fl.fin (ratAbs x) else sub f32 (mul f32 (.fin x) (.fin x)) .nan) = Fl.nan
        rw [if_neg (by simp [Fl.le]), sq_small h0 h1]; rfl)
    | inf s =>
      cases s
      · exact .inl rfl
      · refine .inl ?_
        show (if Fl.le (.fin (ratAbs x)) (.inf true) = true then Fl.fin (ratAbs x) else sub f32 (mul f32 (.fin x) (.fin x)) .nan) = Fl.nan
        rw [if_neg (by simp [Fl.le]), sq_small h0 h1]; rfl
    | fin c =>
      obtain ⟨-, hc⟩ := hC
      show SameLoss (if decide (ratAbs x ≤ c) = true then .fin (ratAbs x) else _)
        (if ratAbs x ≤ c then .fin (ratAbs x) else .fin (env.rnd (env.rnd (x * x) - env.rnd (env.rnd (c * c) + c))))
      rw [he]
      by_cases hx : ratAbs x ≤ c
      · rw [if_pos hx, if_pos (by simpa using hx)]; exact .inl rfl
      · rw [if_neg hx, if_neg (by simpa using hx)]
        have ha := ratAbs_range h0 h1
        exact berHu_far hc (by grind) h0 h1
  | l1p2 =>
    have : lossIeee .l1p2 C1 (.fin x) = lossVal env .l1p2 C1 x := by
      cases C1 with
      | nan => rfl
      | inf s =>
        show add f32 (mul f32 (.inf s) (.fin (ratAbs x))) (mul f32 (mul f32 (.inf (!s)) (.fin x)) (.fin x)) = Fl.nan
        dsimp only [mul]
        by_cases hx : x = 0
        · subst hx; rfl
        · rw [if_neg hx]
          have hn : ratAbs x ≠ 0 := by unfold ratAbs; split <;> grind
          have hp : ¬ ratAbs x < 0 := by have := ratAbs_nonneg x; grind
          rw [if_neg hn]
          dsimp only [mul]
          rw [if_neg hx]
          dsimp only [add]
          rw [if_neg]
          by_cases hx' : x < 0 <;> cases s <;> simp [hp, hx']
      | fin c =>
        show _ = Fl.fin (env.rnd (env.rnd (c * ratAbs x) + env.rnd (env.rnd (env.rnd (1 - c) * x) * x)))
        rw [he]
        exact l1p2_fin hC.2 h0 h1
    exact ⟨.inl this, fun _ => this⟩

/-! ### Doubles -/

theorem f64_mid {x : Rat} (h : -((2 ^ 512 : Nat) : Rat) ≤ x) (h' : x ≤ ((2 ^ 512 : Nat) : Rat)) : f64 x = .fin (rne64 x) := by
  have a1 := rne64_mono h
  have a2 := rne64_mono h'
  rw [show rne64 (-((2 ^ 512 : Nat) : Rat)) = -((2 ^ 512 : Nat) : Rat) by decide +kernel] at a1
  rw [show rne64 ((2 ^ 512 : Nat) : Rat) = ((2 ^ 512 : Nat) : Rat) by decide +kernel] at a2
  have a3 : ((2 ^ 512 : Nat) : Rat) < ((2 ^ 1024 : Nat) : Rat) := by decide +kernel
  unfold f64 overflowAt
  rw [if_neg (by grind), if_neg (by grind)]

/-! ### Hits -/

/-- Less than zero. -/
def NegFl (x : Fl) : Prop := (∃ v, x = .fin v ∧ v < 0) ∨ x = .inf true
/-- More than zero. -/
def PosFl (x : Fl) : Prop := (∃ v, x = .fin v ∧ 0 < v) ∨ x = .inf false

theorem f32_neg {x : Rat} (h : rne32 x < 0) : NegFl (f32 x) := by
  have := pow_pos_rat 128
  rcases f32_cases x with ⟨e, -, -⟩ | ⟨e, l⟩ | ⟨e, -⟩
  · exact .inl ⟨_, e, h⟩
  · grind
  · exact .inr e

theorem f32_pos {x : Rat} (h : 0 < rne32 x) : PosFl (f32 x) := by
  have := pow_pos_rat 128
  rcases f32_cases x with ⟨e, -, -⟩ | ⟨e, l⟩ | ⟨e, l⟩
  · exact .inl ⟨_, e, h⟩
  · exact .inr e
  · grind

theorem normal_ub {t : BmTables} {mean var : Fl} {r : BitVec 32} (h : NegFl var ∨ var = .nan) :
    (normalIeee t mean var r).round.toUnsigned = .ub .floatConv := by
  have e : var.sqrt t.sqrt = .nan := by
    rcases h with (⟨v, rfl, hv⟩ | rfl) | rfl
    · exact if_pos hv
    · rfl
    · rfl
  have : normalIeee t mean var r = .nan := by
    unfold normalIeee
    dsimp only
    rw [e]
    have : ∀ y : Fl, mul f32 .nan y = .nan := fun y => by cases y <;> rfl
    rw [this]
    cases mean <;> rfl
  rw [this]; rfl

theorem size_float {n : Nat} (h1 : 1 ≤ n) (h2 : n ≤ 4294967296) : floatOf n = .fin (rne32 n) ∧ 1 ≤ rne32 n ∧ rne32 n ≤ 4294967296 := by
  refine ⟨floatOf_fin (by omega) (by omega), ?_, ?_⟩
  · have : ((1 : Nat) : Rat) ≤ (n : Rat) := Rat.natCast_le_natCast.2 h1
    have := rne32_mono this
    rwa [show rne32 ((1 : Nat) : Rat) = 1 by decide +kernel] at this
  · have : (n : Rat) ≤ ((4294967296 : Nat) : Rat) := Rat.natCast_le_natCast.2 h2
    have := rne32_mono this
    rwa [show rne32 ((4294967296 : Nat) : Rat) = 4294967296 by decide +kernel] at this

/-- A float greater than 1 exceeds it noticeably. -/
theorem above_one {p : Rat} (hp : rne32 p = p) (h : 1 < p) : 1 + 1 / 16777216 ≤ p := by
  by_cases h' : 1 + 1 / 16777216 ≤ p
  · exact h'
  · have := rne32_mono (x := p) (y := 1 + 1 / 16777216) (by grind)
    rw [show rne32 (1 + 1 / 16777216) = 1 by decide +kernel, hp] at this
    grind

/-- The variance of a chance that is none. -/
theorem var_neg {N p : Rat} (hN : 1 ≤ N) (hp : rne32 p = p) (h : p < 0 ∨ 1 < p) :
    NegFl (mul f32 (mul f32 (.fin N) (.fin p)) (sub f32 (.fin 1) (.fin p))) ∧ rne32 (rne32 (N * p) * rne32 (1 - p)) < 0 := by
  show NegFl (mul f32 (f32 (N * p)) (f32 (1 + -p))) ∧ _
  rw [← Rat.sub_eq_add_neg]
  rcases h with h | h
  · have a1 : rne32 (N * p) ≤ p := by
      have : N * p ≤ p := by
        have := Rat.mul_le_mul_of_nonneg_left hN (c := -p) (by grind); grind
      have := rne32_mono this
      rwa [hp] at this
    have a2 : 1 ≤ rne32 (1 - p) := by
      have := rne32_mono (x := 1) (y := 1 - p) (by grind)
      rwa [show rne32 1 = 1 by decide +kernel] at this
    have key : ∀ {v d : Rat}, rne32 v = v → v < 0 → 1 ≤ d → rne32 (v * d) < 0 := by
      intro v d hv h0 hd
      have : v * d ≤ v := by
        have := Rat.mul_le_mul_of_nonneg_left hd (c := -v) (by grind); grind
      have := rne32_mono this
      rw [hv] at this
      grind
    have k := key (rne32_idem (N * p)) (by grind) a2
    refine ⟨?_, k⟩
    rcases f32_cases (N * p) with ⟨e, -, -⟩ | ⟨e, l⟩ | ⟨e, l⟩
    · rcases f32_cases (1 - p) with ⟨e', -, -⟩ | ⟨e', l'⟩ | ⟨e', l'⟩
      · rw [e, e']; exact f32_neg k
      · rw [e, e']; refine .inr ?_
        show (if rne32 (N * p) = 0 then Fl.nan else .inf (xor (decide (rne32 (N * p) < 0)) false)) = _
        rw [if_neg (by grind), decide_eq_true (by grind)]; rfl
      · have := pow_pos_rat 128; grind
    · have := pow_pos_rat 128; grind
    · rcases f32_cases (1 - p) with ⟨e', -, -⟩ | ⟨e', l'⟩ | ⟨e', l'⟩
      · rw [e, e']; refine .inr ?_
        show (if rne32 (1 - p) = 0 then Fl.nan else .inf (xor true (decide (rne32 (1 - p) < 0)))) = _
        rw [if_neg (by grind), decide_eq_false (by grind)]; rfl
      · rw [e, e']; exact .inr rfl
      · have := pow_pos_rat 128; grind
  · have h1 := above_one hp h
    have a1 : 1 ≤ rne32 (N * p) := by
      have : 1 ≤ N * p := by
        have := Rat.mul_le_mul_of_nonneg_left hN (c := p) (by grind); grind
      have := rne32_mono this
      rwa [show rne32 1 = 1 by decide +kernel] at this
    have a2 : rne32 (1 - p) ≤ -(1 / 16777216) := by
      have := rne32_mono (x := 1 - p) (y := -(1 / 16777216)) (by grind)
      rwa [show rne32 (-(1 / 16777216)) = -(1 / 16777216) by decide +kernel] at this
    have k : rne32 (rne32 (N * p) * rne32 (1 - p)) < 0 := by
      have : rne32 (N * p) * rne32 (1 - p) ≤ -(1 / 16777216) := by
        have := Rat.mul_le_mul_of_nonneg_left a1 (c := -rne32 (1 - p)) (by grind); grind
      have := rne32_mono this
      rw [show rne32 (-(1 / 16777216)) = -(1 / 16777216) by decide +kernel] at this
      grind
    refine ⟨?_, k⟩
    rcases f32_cases (N * p) with ⟨e, -, -⟩ | ⟨e, l⟩ | ⟨e, l⟩
    · rcases f32_cases (1 - p) with ⟨e', -, -⟩ | ⟨e', l'⟩ | ⟨e', l'⟩
      · rw [e, e']; exact f32_neg k
      · have := pow_pos_rat 128; grind
      · rw [e, e']; refine .inr ?_
        show (if rne32 (N * p) = 0 then Fl.nan else .inf (xor (decide (rne32 (N * p) < 0)) true)) = _
        rw [if_neg (by grind), decide_eq_false (by grind)]; rfl
    · rcases f32_cases (1 - p) with ⟨e', -, -⟩ | ⟨e', l'⟩ | ⟨e', l'⟩
      · rw [e, e']; refine .inr ?_
        show (if rne32 (1 - p) = 0 then Fl.nan else .inf (xor false (decide (rne32 (1 - p) < 0)))) = _
        rw [if_neg (by grind), decide_eq_true (by grind)]; rfl
      · have := pow_pos_rat 128; grind
      · rw [e, e']; exact .inr rfl
    · have := pow_pos_rat 128; grind

/-- The normal deviate of a chance. -/
theorem normal_chance {env : Env} {t : BmTables} (hm : IeeeMachine env t) {N p : Rat} (hN : 1 ≤ N) (hN' : N ≤ 4294967296) (h0 : 0 ≤ p) (h1 : p ≤ 1)
    (r : BitVec 32) : ∃ v, bmNormal rne32 t (rne32 (N * p)) (rne32 (rne32 (N * p) * rne32 (1 - p))) r = some v ∧
      normalIeee t (mul f32 (.fin N) (.fin p)) (mul f32 (mul f32 (.fin N) (.fin p)) (sub f32 (.fin 1) (.fin p))) r = .fin v := by
  have big : (4294967296 : Rat) * 8 ≤ maxFloat := by decide +kernel
  have m0 : 0 ≤ N * p := Rat.mul_nonneg (by grind) h0
  have m1 : N * p ≤ 4294967296 := by
    have := Rat.mul_le_mul_of_nonneg_left h1 (c := N) (by grind); grind
  have e1 : mul f32 (.fin N) (.fin p) = .fin (rne32 (N * p)) := InRange.f32 ⟨by grind, by grind⟩
  have n0 : 0 ≤ rne32 (N * p) := rne32_nonneg m0
  have n1 : rne32 (N * p) ≤ 4294967296 := by
    have := rne32_mono m1
    rwa [show rne32 4294967296 = 4294967296 by decide +kernel] at this
  have e2 : sub f32 (.fin 1) (.fin p) = .fin (rne32 (1 - p)) := by
    show f32 (1 + -p) = _
    rw [← Rat.sub_eq_add_neg]
    exact f32_small (by grind) (by grind)
  have d0 : 0 ≤ rne32 (1 - p) := rne32_nonneg (by grind)
  have d1 : rne32 (1 - p) ≤ 1 := rne32_le_one (by grind)
  rw [e1, e2]
  generalize rne32 (N * p) = m at n0 n1
  generalize rne32 (1 - p) = d at d0 d1
  have v0 : 0 ≤ m * d := Rat.mul_nonneg n0 d0
  have v1 : m * d ≤ 4294967296 := by
    have := Rat.mul_le_mul_of_nonneg_left d1 n0; grind
  have e3 : mul f32 (.fin m) (.fin d) = .fin (rne32 (m * d)) := InRange.f32 ⟨by grind, by grind⟩
  rw [e3]
  have w0 : 0 ≤ rne32 (m * d) := rne32_nonneg v0
  have w1 : rne32 (m * d) ≤ 4294967296 := by
    have := rne32_mono v1
    rwa [show rne32 4294967296 = 4294967296 by decide +kernel] at this
  generalize rne32 (m * d) = w at w0 w1
  unfold bmNormal normalIeee
  dsimp only
  rw [if_neg (by grind)]
  refine ⟨_, rfl, ?_⟩
  obtain ⟨r0, r1⟩ := hm.radius (r.toNat % 256)
  obtain ⟨g0, g1⟩ := hm.angle (r.toNat / 256 % 256)
  generalize t.radius (r.toNat % 256) = ra at r0 r1
  generalize t.angle (r.toNat / 256 % 256) = an at g0 g1
  have q0 := Rat.mul_le_mul_of_nonneg_left g0 r0
  have q1 := Rat.mul_le_mul_of_nonneg_left g1 r0
  have e4 : mul f32 (.fin ra) (.fin an) = .fin (rne32 (ra * an)) := InRange.f32 ⟨by grind, by grind⟩
  rw [e4]
  have b0 : -4 ≤ rne32 (ra * an) := by
    have := rne32_mono (x := -4) (y := ra * an) (by grind)
    rwa [show rne32 (-4) = -4 by decide +kernel] at this
  have b1 : rne32 (ra * an) ≤ 4 := by
    have := rne32_mono (x := ra * an) (y := 4) (by grind)
    rwa [show rne32 4 = 4 by decide +kernel] at this
  generalize rne32 (ra * an) = z at b0 b1
  obtain ⟨s0, s1⟩ := hm.sqrt w w0
  have e5 : (Fl.fin w).sqrt t.sqrt = .fin (t.sqrt w) := if_neg (by grind)
  rw [e5]
  have s2 : t.sqrt w ≤ 4294967296 := by rcases s1 with s1 | s1 <;> grind
  generalize t.sqrt w = sq at s0 s2
  have z0 := Rat.mul_le_mul_of_nonneg_left b0 s0
  have z1 := Rat.mul_le_mul_of_nonneg_left b1 s0
  have e6 : mul f32 (.fin sq) (.fin z) = .fin (rne32 (sq * z)) := InRange.f32 ⟨by grind, by grind⟩
  rw [e6]
  have y0 : -17179869184 ≤ rne32 (sq * z) := by
    have := rne32_mono (x := -17179869184) (y := sq * z) (by grind)
    rwa [show rne32 (-17179869184) = -17179869184 by decide +kernel] at this
  have y1 : rne32 (sq * z) ≤ 17179869184 := by
    have := rne32_mono (x := sq * z) (y := 17179869184) (by grind)
    rwa [show rne32 17179869184 = 17179869184 by decide +kernel] at this
  exact InRange.f32 ⟨by grind, by grind⟩

/-- A loss that is a float. -/
def FloatLoss (b : Fl) : Prop := ∀ v, b = .fin v → rne32 v = v

theorem binomial_same {env : Env} {t : BmTables} (hm : IeeeMachine env t) {n : Nat} (h1 : 1 ≤ n) (h2 : n ≤ 4294967296) {a b : Fl}
    (h : SameLoss a b) (hb : FloatLoss b) (g : env.G) : binomialIeee env t n a g = binomial env n b g := by
  obtain ⟨e1, e2, e3⟩ := size_float h1 h2
  have neg : ∀ p : Rat, rne32 p = p → (p < 0 ∨ 1 < p) → binomial env n (.fin p) g = .ub .floatConv := by
    intro p hp hq
    unfold binomial
    dsimp only
    rw [hm.normal, hm.rnd]
    have := (var_neg e2 hp hq).2
    unfold bmNormal
    rw [if_pos this]
  have inf : ∀ s, binomialIeee env t n (.inf s) g = .ub .floatConv := by
    intro s
    unfold binomialIeee
    dsimp only
    rw [e1, normal_ub]
    · rfl
    · have : mul f32 (.fin (rne32 n)) (.inf s) = .inf s := by
        show (if rne32 n = 0 then Fl.nan else .inf (xor (decide (rne32 n < 0)) s)) = _
        rw [if_neg (by grind), decide_eq_false (by grind), Bool.false_xor]
      rw [this]
      refine .inl (.inr ?_)
      show Fl.inf (xor s (!s)) = _
      cases s <;> rfl
  rcases h with rfl | ⟨rfl, v, rfl, hv⟩
  · cases a with
    | inf s => rw [inf s]; rfl
    | nan =>
      unfold binomialIeee
      dsimp only
      rw [normal_ub]
      · rfl
      · refine .inr ?_
        rw [e1]
        rfl
    | fin p =>
      have hp := hb p rfl
      by_cases hq : p < 0 ∨ 1 < p
      · rw [neg p hp hq]
        unfold binomialIeee
        dsimp only
        rw [e1, normal_ub (.inl (var_neg e2 hp hq).1)]
        rfl
      · obtain ⟨v, w1, w2⟩ := normal_chance hm e2 e3 (p := p) (by grind) (by grind) (env.next g).1
        unfold binomialIeee binomial
        dsimp only
        rw [e1, w2, hm.normal, hm.rnd, w1]
        rfl
  · rw [inf true, neg v (hb v rfl)]
    have := pow_pos_rat 126
    exact .inl (by grind)

theorem hits_same {env : Env} {t : BmTables} (hm : IeeeMachine env t) {n : Nat} (h1 : 1 ≤ n) (h2 : n ≤ 4294967296) {a b : Fl} {bm : Bool}
    (h : SameLoss a b) (hb : FloatLoss b) (g : env.G) : feedbackHitsIeee env t bm n a g = feedbackHits env bm n b g := by
  cases bm with
  | true => exact binomial_same hm h1 h2 h hb g
  | false =>
    obtain ⟨e1, e2, e3⟩ := size_float h1 h2
    unfold feedbackHitsIeee feedbackHits
    simp only [Bool.false_eq_true, ↓reduceIte]
    rw [e1]
    dsimp only [Fl.widen]
    have r0 : (0 : Rat) ≤ ((env.next g).1.toNat : Rat) := by exact_mod_cast Nat.zero_le _
    have big := pow_pos_rat 128
    -- far below zero: no hits
    have low : ∀ p : Rat, rne32 (rne32 n * p) ≤ 0 → (if (env.rnd (env.rnd n * p)) ≥ 1/2 then
          (Tsetlini.toUnsigned (roundHalfAway (env.rnd (env.rnd n * p)))).bind fun h => .ok (min h n, g)
        else (.ok (min (if ((env.next g).1.toNat : Rat) < env.rnd64 (env.rnd (env.rnd n * p) * 4294967295) then 1 else 0) n, (env.next g).2) : Res (Nat × env.G))) =
        .ok (min 0 n, (env.next g).2) := by
      intro p hp
      rw [hm.rnd, hm.rnd64, if_neg (by grind), if_neg]
      have : rne32 (rne32 n * p) * 4294967295 ≤ 0 := by grind
      have := rne64_mono this
      rw [show rne64 0 = 0 by decide +kernel] at this
      grind
    have infT : (if Fl.le (.fin (1/2)) (mul f32 (.fin (rne32 n)) (.inf true)) = true then
          (mul f32 (.fin (rne32 n)) (.inf true)).round.toUnsigned.bind fun h => .ok (min h n, g)
        else (.ok (min (if Fl.lt (.fin (env.next g).1.toNat) (mul f64 (mul f32 (.fin (rne32 n)) (.inf true)) (.fin 4294967295)) = true then 1 else 0) n,
          (env.next g).2) : Res (Nat × env.G))) = .ok (min 0 n, (env.next g).2) := by
      have : mul f32 (.fin (rne32 n)) (.inf true) = .inf true := by
        show (if rne32 n = 0 then Fl.nan else .inf (xor (decide (rne32 n < 0)) true)) = _
        rw [if_neg (by grind), decide_eq_false (by grind)]; rfl
      rw [this]
      rfl
    rcases h with rfl | ⟨rfl, v, rfl, hv⟩
    · cases a with
      | inf s =>
        cases s
        · have : mul f32 (.fin (rne32 n)) (.inf false) = .inf false := by
            show (if rne32 n = 0 then Fl.nan else .inf (xor (decide (rne32 n < 0)) false)) = _
            rw [if_neg (by grind), decide_eq_false (by grind)]; rfl
          rw [this]; rfl
        · refine infT.trans ?_
          show _ = Res.ok (0, _)
          rw [Nat.zero_min]
      | nan =>
        show (.ok (min 0 n, (env.next g).2) : Res (Nat × env.G)) = .ok (0, _)
        rw [Nat.zero_min]
      | fin p =>
        dsimp only
        rcases f32_cases (rne32 n * p) with ⟨e, l1, l2⟩ | ⟨e, l1⟩ | ⟨e, l1⟩
        · rw [show mul f32 (.fin (rne32 n)) (.fin p) = .fin (rne32 (rne32 n * p)) from e]
          rw [hm.rnd, hm.rnd64]
          generalize rne32 (rne32 n * p) = m at l1 l2
          by_cases hh : m ≥ 1 / 2
          · have : Fl.le (.fin (1/2)) (.fin m) = true := decide_eq_true hh
            rw [if_pos hh]
            exact if_pos this
          · have : ¬ Fl.le (.fin (1/2)) (.fin m) = true := fun q => hh (of_decide_eq_true q)
            rw [if_neg hh]
            refine (if_neg this).trans ?_
            have k : ((2 ^ 128 : Nat) : Rat) * 4294967296 ≤ ((2 ^ 512 : Nat) : Rat) := by decide +kernel
            have : mul f64 (.fin m) (.fin 4294967295) = .fin (rne64 (m * 4294967295)) := f64_mid (by grind) (by grind)
            have l : Fl.lt (.fin (env.next g).1.toNat) (mul f64 (.fin m) (.fin 4294967295)) =
                decide (((env.next g).1.toNat : Rat) < rne64 (m * 4294967295)) := by rw [this]; rfl
            have : (if Fl.lt (.fin (env.next g).1.toNat) (mul f64 (.fin m) (.fin 4294967295)) = true then 1 else 0 : Nat) =
                if ((env.next g).1.toNat : Rat) < rne64 (m * 4294967295) then 1 else 0 := by
              rw [l]
              by_cases q : ((env.next g).1.toNat : Rat) < rne64 (m * 4294967295)
              · rw [if_pos q, if_pos (decide_eq_true q)]
              · rw [if_neg q, if_neg (fun q' => q (of_decide_eq_true q'))]
            exact congrArg (fun k : Nat => (Res.ok (min k n, (env.next g).2) : Res (Nat × env.G))) this
        · rw [show mul f32 (.fin (rne32 n)) (.fin p) = .inf false from e, hm.rnd, if_pos (by
            have : (1 : Rat) ≤ ((2 ^ 128 : Nat) : Rat) := by decide +kernel
            grind)]
          show _ = (Tsetlini.toUnsigned _).bind _
          have : Tsetlini.toUnsigned (roundHalfAway (rne32 (rne32 n * p)) : Rat) = .ub .floatConv := by
            unfold Tsetlini.toUnsigned
            rw [if_neg]
            intro ⟨_, q⟩
            unfold roundHalfAway at q
            rw [if_pos (by grind)] at q
            have q1 := lt_floor' (rne32 (rne32 n * p) + 1 / 2)
            have q2 : (4294967297 : Rat) ≤ ((2 ^ 128 : Nat) : Rat) := by decide +kernel
            grind
          rw [this]
          rfl
        · rw [show mul f32 (.fin (rne32 n)) (.fin p) = .inf true from e]
          refine Eq.trans ?_ (low p (by grind)).symm
          rfl
    · refine infT.trans ?_
      refine (low v ?_).symm
      have p126 := pow_pos_rat 126
      have : rne32 n * v ≤ 0 := by
        have := Rat.mul_nonneg (a := rne32 n) (b := -v) (by grind) (by grind)
        grind
      have := rne32_mono this
      rwa [show rne32 0 = 0 by decide +kernel] at this

end Tsetlini
