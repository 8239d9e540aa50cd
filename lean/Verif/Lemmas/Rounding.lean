import Verif.Spec.Rounding
import Verif.Lemmas.Ieee
import Verif.Model.Overflow
namespace Tsetlini
open Spec

theorem abs_neg' (x : Rat) : (-x).abs = x.abs := by
  unfold Rat.abs
  split <;> split <;> grind

theorem abs_mul_pos {x c : Rat} (hc : 0 < c) : (x * c).abs = x.abs * c := by
  unfold Rat.abs
  by_cases h : 0 ≤ x
  · rw [if_pos h, if_pos (Rat.mul_nonneg h (Rat.le_of_lt hc))]
  · have : x * c < 0 := by
      have := Rat.mul_lt_mul_of_pos_right (Rat.not_le.1 h) hc
      rwa [Rat.zero_mul] at this
    rw [if_neg h, if_neg (by grind), Rat.neg_mul]

theorem mul_le_cancel {a b c : Rat} (hc : 0 < c) (h : a * c ≤ b * c) : a ≤ b := by
  refine Rat.not_lt.1 fun h' => ?_
  have := Rat.mul_lt_mul_of_pos_right h' hc
  grind

theorem mul_eq_cancel {a b c : Rat} (hc : 0 < c) (h : a * c = b * c) : a = b := by
  have h1 := mul_le_cancel hc (show a * c ≤ b * c by grind)
  have h2 := mul_le_cancel hc (show b * c ≤ a * c by grind)
  grind

/-- The nearest integer. -/
theorem roundEven_nearest (x : Rat) (n : Int) : (x - roundEven x).abs ≤ (x - n).abs := by
  have h := roundEven_near x
  by_cases he : roundEven x = n
  · rw [he]; exact Rat.le_refl
  have hne : (n : Rat) + 1 ≤ roundEven x ∨ (roundEven x : Rat) + 1 ≤ n := by
    rcases Int.lt_or_gt_of_ne he with h | h
    · right; exact_mod_cast (show roundEven x + 1 ≤ n by omega)
    · left; exact_mod_cast (show n + 1 ≤ roundEven x by omega)
  unfold Rat.abs
  split <;> split <;> grind

theorem roundEven_tie {x : Rat} {n : Int} (hn : n ≠ roundEven x) (h : (x - n).abs = (x - roundEven x).abs) : roundEven x % 2 = 0 := by
  have hb := roundEven_near x
  have hne : (n : Rat) + 1 ≤ roundEven x ∨ (roundEven x : Rat) + 1 ≤ n := by
    rcases Int.lt_or_gt_of_ne hn with h | h
    · left; exact_mod_cast (show n + 1 ≤ roundEven x by omega)
    · right; exact_mod_cast (show roundEven x + 1 ≤ n by omega)
  have hd : (x - roundEven x) = 1/2 ∨ (x - roundEven x) = -(1/2) := by
    unfold Rat.abs at h
    split at h <;> split at h <;> grind
  have hf1 := rfloor_le x
  have hf2 := rlt_floor x
  have hfr : x - (x.floor : Rat) = 1/2 := by
    have hbd := roundEven_bounds x
    rcases (by omega : roundEven x = x.floor ∨ roundEven x = x.floor + 1) with e | e
    · rw [e] at hd; grind
    · rw [e, Rat.intCast_add] at hd; simp at hd; grind
  unfold roundEven
  dsimp only
  rw [hfr, if_neg (by decide +kernel), if_neg (by decide +kernel)]
  split
  · assumption
  · omega

theorem InFormat.neg {p q : Nat} {d : Rat} (h : InFormat p q d) : InFormat p q (-d) := by
  obtain ⟨m, k, h1, h2⟩ := h
  exact ⟨-m, k, by omega, by rw [Rat.neg_mul, h2, Rat.intCast_neg, Rat.neg_mul]⟩

theorem EvenLast.neg {p q : Nat} {d : Rat} (h : EvenLast p q d) : EvenLast p q (-d) := by
  obtain ⟨m, k, h1, h2, h3, h4⟩ := h
  exact ⟨-m, k, by omega, by rw [Rat.neg_mul, h2, Rat.intCast_neg, Rat.neg_mul], by omega, by omega⟩

theorem Rounds.neg {p q : Nat} {x y : Rat} (h : Rounds p q x y) : Rounds p q (-x) (-y) := by
  have e : ∀ d : Rat, (-x - d).abs = (x - -d).abs := fun d => by
    rw [← abs_neg']; congr 1; grind
  have e' : (-x - -y).abs = (x - y).abs := by rw [e, Rat.neg_neg]
  refine ⟨InFormat.neg h.format, fun d hd => ?_, fun d hd hne ht => ?_⟩
  · rw [e', e]
    exact h.nearest _ (InFormat.neg hd)
  · rw [e, e'] at ht
    exact EvenLast.neg (h.ties _ (InFormat.neg hd) (fun h => hne (by rw [← h, Rat.neg_neg])) ht)

/-- The numbers `r * 2^e` of the format around `x`. -/
theorem rounds_pos {p q : Nat} (hp : 2 ≤ p) {x : Rat} (hx : 0 ≤ x) : Rounds p q x (rnePos p q x) := by
  have hq := pow_pos_rat q
  have hE := pow_pos_rat (lastDigit p q x)
  have hlt := scaled_lt (q := q) (show 1 ≤ p by omega) hx
  have hge := fun h => le_scaled (p := p) (q := q) hx h
  have hup := rnePos_le_pow (q := q) (show 1 ≤ p by omega) hx
  have hlo := fun h => pow_le_rnePos (p := p) (q := q) hx h
  have hy : rnePos p q x * (2 ^ q : Nat) = (roundEven (x * (2 ^ q : Nat) / (2 ^ lastDigit p q x : Nat)) : Rat) * (2 ^ lastDigit p q x : Nat) := by
    unfold rnePos
    rw [div_mul' hq]
  have hr0 : 0 ≤ roundEven (x * (2 ^ q : Nat) / (2 ^ lastDigit p q x : Nat)) :=
    le_roundEven (div_nonneg' (Rat.mul_nonneg hx (Rat.le_of_lt hq)) hE)
  have hs : x * (2 ^ q : Nat) = x * (2 ^ q : Nat) / (2 ^ lastDigit p q x : Nat) * (2 ^ lastDigit p q x : Nat) := (div_mul' hE).symm
  generalize rnePos p q x = y at *
  generalize lastDigit p q x = e at *
  generalize hsc : x * (2 ^ q : Nat) / (2 ^ e : Nat) = s at *
  -- differences, scaled
  have dist : ∀ d : Rat, (x - d).abs * (2 ^ q : Nat) = (x * (2 ^ q : Nat) - d * (2 ^ q : Nat)).abs := by
    intro d
    rw [← abs_mul_pos hq]
    congr 1
    grind
  have distM : ∀ (d : Rat) (M : Int), d * (2 ^ q : Nat) = M * (2 ^ e : Nat) → (x - d).abs * (2 ^ q : Nat) = (s - M).abs * (2 ^ e : Nat) := by
    intro d M hd
    rw [dist, hd, hs, ← abs_mul_pos hE]
    congr 1
    grind
  have near : ∀ (d : Rat) (M : Int), d * (2 ^ q : Nat) = M * (2 ^ e : Nat) → (x - y).abs ≤ (x - d).abs := by
    intro d M hd
    refine mul_le_cancel hq ?_
    rw [distM y _ hy, distM d M hd]
    exact Rat.mul_le_mul_of_nonneg_right (roundEven_nearest s M) (Rat.le_of_lt hE)
  -- a number of the format is a multiple of 2^e, or smaller than the least number with p digits and last digit 2^e
  have cases : ∀ d, InFormat p q d → (∃ M : Int, d * (2 ^ q : Nat) = M * (2 ^ e : Nat)) ∨ (0 < e ∧ d * (2 ^ q : Nat) < ((2 ^ (p - 1 + e) : Nat) : Rat)) := by
    rintro d ⟨m, k, hm, hd⟩
    by_cases hk : e ≤ k
    · left
      refine ⟨m * (2 ^ (k - e) : Nat), ?_⟩
      rw [hd, Rat.intCast_mul, Rat.mul_assoc, Rat.intCast_natCast, ← Rat.natCast_mul, ← Nat.pow_add]
      congr 4
      omega
    · right
      refine ⟨by omega, ?_⟩
      rw [hd]
      have h1 : m * (2 ^ k : Nat) < ((2 ^ (p - 1 + e) : Nat) : Int) := by
        have h2 : m < (2 ^ p : Nat) := by omega
        have h3 : m * (2 ^ k : Nat) < (2 ^ p : Nat) * (2 ^ k : Nat) := Int.mul_lt_mul_of_pos_right h2 (by have := Nat.pow_pos (n := k) (show 0 < 2 by decide); omega)
        have h4 : 2 ^ p * 2 ^ k ≤ 2 ^ (p - 1 + e) := by rw [← Nat.pow_add]; exact Nat.pow_le_pow_right (by decide) (by omega)
        have h5 : ((2 ^ p : Nat) : Int) * ((2 ^ k : Nat) : Int) ≤ ((2 ^ (p - 1 + e) : Nat) : Int) := by rw [← Int.natCast_mul]; exact Int.ofNat_le.2 h4
        omega
      have := Rat.intCast_lt_intCast.2 h1
      rw [Rat.intCast_mul, Rat.intCast_natCast, Rat.intCast_natCast] at this
      exact this
  have bin : ((2 ^ (p - 1 + e) : Nat) : Rat) / (2 ^ q : Nat) * (2 ^ q : Nat) = (((2 ^ (p - 1) : Nat) : Int) : Rat) * (2 ^ e : Nat) := by
    rw [div_mul' hq, Rat.intCast_natCast, ← Rat.natCast_mul, ← Nat.pow_add]
  have strict : ∀ d, 0 < e → d * (2 ^ q : Nat) < ((2 ^ (p - 1 + e) : Nat) : Rat) → (x - y).abs < (x - d).abs := by
    intro d he hd
    have h1 := near _ _ bin
    have h2 := hge he
    have h3 : (x - ((2 ^ (p - 1 + e) : Nat) : Rat) / (2 ^ q : Nat)).abs < (x - d).abs := by
      refine Rat.not_le.1 fun h => ?_
      have h4 := Rat.mul_le_mul_of_nonneg_right h (Rat.le_of_lt hq)
      rw [dist, dist, div_mul' hq] at h4
      generalize x * (2 ^ q : Nat) = X at *
      generalize d * (2 ^ q : Nat) = D at *
      generalize ((2 ^ (p - 1 + e) : Nat) : Rat) = B at *
      unfold Rat.abs at h4
      rw [if_pos (by grind), if_pos (by grind)] at h4
      grind
    grind
  have hrp : roundEven s ≤ (2 ^ p : Nat) := by
    rw [hy, Nat.pow_add, Rat.natCast_mul] at hup
    have := mul_le_cancel hE hup
    exact Rat.intCast_le_intCast.1 (by rw [Rat.intCast_natCast]; exact this)
  refine ⟨?_, fun d hd => ?_, fun d hd hne ht => ?_⟩
  · by_cases hr : roundEven s = (2 ^ p : Nat)
    · refine ⟨(2 ^ (p - 1) : Nat), e + 1, ?_, ?_⟩
      · rw [Int.natAbs_natCast]; exact Nat.pow_lt_pow_right (by decide) (by omega)
      · rw [hy, hr, Rat.intCast_natCast, Rat.intCast_natCast, ← Rat.natCast_mul, ← Rat.natCast_mul, ← Nat.pow_add, ← Nat.pow_add]
        congr 2
        omega
    · exact ⟨roundEven s, e, by omega, hy⟩
  · rcases cases d hd with ⟨M, hM⟩ | ⟨he, hM⟩
    · exact near d M hM
    · exact Rat.le_of_lt (strict d he hM)
  · rcases cases d hd with ⟨M, hM⟩ | ⟨he, hM⟩
    · have hMr : M ≠ roundEven s := by
        intro hMr
        refine hne (mul_eq_cancel hq ?_)
        rw [hM, hy, hMr]
      have heq : (s - M).abs = (s - roundEven s).abs := by
        refine mul_eq_cancel hE ?_
        rw [← distM d M hM, ← distM y _ hy, ht]
      have heven := roundEven_tie hMr heq
      by_cases hr : roundEven s = (2 ^ p : Nat)
      · refine ⟨(2 ^ (p - 1) : Nat), e + 1, ?_, ?_, .inr (by rw [Int.natAbs_natCast]; exact Nat.le_refl _), ?_⟩
        · rw [Int.natAbs_natCast]; exact Nat.pow_lt_pow_right (by decide) (by omega)
        · rw [hy, hr, Rat.intCast_natCast, Rat.intCast_natCast, ← Rat.natCast_mul, ← Rat.natCast_mul, ← Nat.pow_add, ← Nat.pow_add]
          congr 2
          omega
        · rw [show p - 1 = (p - 2) + 1 by omega, Nat.pow_succ]
          omega
      · refine ⟨roundEven s, e, by omega, hy, ?_, heven⟩
        by_cases he : e = 0
        · exact .inl he
        · right
          have h1 := hlo (by omega)
          rw [hy, Nat.pow_add, Rat.natCast_mul] at h1
          have h2 := mul_le_cancel hE h1
          have h3 : ((2 ^ (p - 1) : Nat) : Int) ≤ roundEven s := Rat.intCast_le_intCast.1 (by rw [Rat.intCast_natCast]; exact h2)
          omega
    · exact absurd ht (by have := strict d he hM; grind)

theorem rounds_rne {p q : Nat} (hp : 2 ≤ p) (x : Rat) : Rounds p q x (rne p q x) := by
  unfold rne
  split
  · rename_i h; exact rounds_pos hp h
  · rename_i h
    have := Rounds.neg (rounds_pos (q := q) hp (x := -x) (by grind))
    rwa [Rat.neg_neg] at this

/-! ### Uniqueness -/

theorem even_gap {p q : Nat} (hp : 1 ≤ p) {y y' : Rat} (h0 : 0 ≤ y) (hlt : y < y') (he : EvenLast p q y) (he' : EvenLast p q y')
    (hgap : ∀ d, InFormat p q d → y < d → y' ≤ d) : False := by
  have hq := pow_pos_rat q
  obtain ⟨m, k, h1, h2, h3, h4⟩ := he
  obtain ⟨m', k', h1', h2', h3', h4'⟩ := he'
  have hK := pow_pos_rat k
  have hK' := pow_pos_rat k'
  have pw : ∀ j, (0 : Int) < (2 ^ j : Nat) := fun j => by have := Nat.pow_pos (n := j) (show 0 < 2 by decide); omega
  have cast : ∀ {a b : Int} {i j : Nat}, (a : Rat) * (2 ^ i : Nat) ≤ (b : Rat) * (2 ^ j : Nat) → a * (2 ^ i : Nat) ≤ b * (2 ^ j : Nat) := by
    intro a b i j h
    refine Rat.intCast_le_intCast.1 ?_
    rw [Rat.intCast_mul, Rat.intCast_mul, Rat.intCast_natCast, Rat.intCast_natCast]
    exact h
  have hm0 : 0 ≤ m := by
    have h := Rat.mul_nonneg h0 (Rat.le_of_lt hq)
    rw [h2] at h
    exact Rat.intCast_nonneg.1 (mul_le_cancel hK (by rw [Rat.zero_mul]; exact h))
  have hlt2 : (m : Rat) * (2 ^ k : Nat) < m' * (2 ^ k' : Nat) := by
    rw [← h2, ← h2']
    exact Rat.mul_lt_mul_of_pos_right hlt hq
  have hlt3 : m * (2 ^ k : Nat) < m' * (2 ^ k' : Nat) := by
    refine Rat.intCast_lt_intCast.1 ?_
    rw [Rat.intCast_mul, Rat.intCast_mul, Rat.intCast_natCast, Rat.intCast_natCast]
    exact hlt2
  have hpp : 2 ^ p = 2 ^ (p - 1) * 2 := by rw [← Nat.pow_succ]; congr 1; omega
  have hnext : m' * (2 ^ k' : Nat) ≤ (m + 1) * (2 ^ k : Nat) := by
    have hd : ((m + 1 : Int) : Rat) * (2 ^ k : Nat) / (2 ^ q : Nat) * (2 ^ q : Nat) = ((m + 1 : Int) : Rat) * (2 ^ k : Nat) := div_mul' hq
    have := hgap (((m + 1 : Int) : Rat) * (2 ^ k : Nat) / (2 ^ q : Nat)) ⟨m + 1, k, by omega, hd⟩ (by
      refine Rat.not_le.1 fun h => ?_
      have h := Rat.mul_le_mul_of_nonneg_right h (Rat.le_of_lt hq)
      rw [hd, h2] at h
      have h := mul_le_cancel hK h
      have := Rat.intCast_le_intCast.1 h
      omega)
    have h := Rat.mul_le_mul_of_nonneg_right this (Rat.le_of_lt hq)
    rw [hd, h2'] at h
    exact cast h
  have hm'0 : 0 < m' := by
    refine Int.not_le.1 fun h => ?_
    have h5 : m' * (2 ^ k' : Nat) ≤ 0 := Int.mul_nonpos_of_nonpos_of_nonneg h (Int.le_of_lt (pw _))
    have h6 : 0 ≤ m * (2 ^ k : Nat) := Int.mul_nonneg hm0 (Int.le_of_lt (pw _))
    omega
  -- a number with a greater last digit is too great
  have big : ∀ {a b : Int} {i j : Nat}, (2 ^ (p - 1) : Nat) ≤ b → i < j → a < (2 ^ p : Nat) → a * (2 ^ i : Nat) < b * (2 ^ j : Nat) := by
    intro a b i j hb hij ha
    have e1 : a * (2 ^ i : Nat) < (2 ^ p : Nat) * (2 ^ i : Nat) := Int.mul_lt_mul_of_pos_right ha (pw _)
    have e2 : ((2 ^ (p - 1) : Nat) : Int) * (2 ^ j : Nat) ≤ b * (2 ^ j : Nat) := Int.mul_le_mul_of_nonneg_right hb (Int.le_of_lt (pw _))
    have e3 : 2 ^ p * 2 ^ i ≤ 2 ^ (p - 1) * 2 ^ j := by
      rw [← Nat.pow_add, ← Nat.pow_add]
      exact Nat.pow_le_pow_right (by decide) (by omega)
    have e4 : ((2 ^ p : Nat) : Int) * (2 ^ i : Nat) ≤ ((2 ^ (p - 1) : Nat) : Int) * (2 ^ j : Nat) := by
      rw [← Int.natCast_mul, ← Int.natCast_mul]
      exact Int.ofNat_le.2 e3
    omega
  rcases Nat.lt_trichotomy k k' with hk | hk | hk
  · have := big (a := m + 1) (b := m') (i := k) (j := k') (by omega) hk (by omega)
    omega
  · subst hk
    have h5 := Int.lt_of_mul_lt_mul_right hlt3 (Int.le_of_lt (pw _))
    have h6 := Int.le_of_mul_le_mul_right hnext (pw _)
    omega
  · have := big (a := m') (b := m) (i := k') (j := k) (by omega) hk (by omega)
    omega

theorem rounds_lt {p q : Nat} (hp : 1 ≤ p) {x y y' : Rat} (h : Rounds p q x y) (h' : Rounds p q x y') (hlt : y < y') : False := by
  have heq : (x - y').abs = (x - y).abs := Rat.le_antisymm (h'.nearest _ h.format) (h.nearest _ h'.format)
  have he := h.ties _ h'.format (by grind) heq
  have he' := h'.ties _ h.format (by grind) heq.symm
  have mid : x - y = y' - x := by
    unfold Rat.abs at heq
    split at heq <;> split at heq <;> grind
  have hgap : ∀ d, InFormat p q d → y < d → y' ≤ d := by
    intro d hd hyd
    refine Rat.not_lt.1 fun hdy => ?_
    have := h.nearest _ hd
    unfold Rat.abs at this
    split at this <;> split at this <;> grind
  by_cases h0 : 0 ≤ y
  · exact even_gap hp h0 hlt he he' hgap
  by_cases h1 : y' ≤ 0
  · refine even_gap (y := -y') (y' := -y) hp (by grind) (by grind) (EvenLast.neg he') (EvenLast.neg he) fun d hd hyd => ?_
    refine Rat.not_lt.1 fun hdy => ?_
    have := hgap (-d) (InFormat.neg hd) (by grind)
    grind
  · have := hgap 0 ⟨0, 0, Nat.pow_pos (by decide), by simp⟩ (by grind)
    grind

/-- There is at most one rounded number. -/
theorem rounds_unique {p q : Nat} (hp : 1 ≤ p) {x y y' : Rat} (h : Rounds p q x y) (h' : Rounds p q x y') : y = y' := by
  by_cases h1 : y < y'
  · exact (rounds_lt hp h h' h1).elim
  by_cases h2 : y' < y
  · exact (rounds_lt hp h' h h2).elim
  grind

theorem rounds_iff {p q : Nat} (hp : 2 ≤ p) {x y : Rat} : Rounds p q x y ↔ rne p q x = y :=
  ⟨fun h => rounds_unique (by omega) (rounds_rne hp x) h, fun h => h ▸ rounds_rne hp x⟩

theorem overflow_iff {x q : Rat} {B : Rat} (hB : 0 < B) : (if B ≤ x then Fl.inf false else if x ≤ -B then Fl.inf true else Fl.fin x) = .fin q ↔ x = q ∧ q.abs < B := by
  by_cases h1 : B ≤ x
  · rw [if_pos h1]
    refine ⟨fun h => Fl.noConfusion h, fun ⟨h, h2⟩ => ?_⟩
    subst h
    unfold Rat.abs at h2
    split at h2 <;> grind
  rw [if_neg h1]
  by_cases h2 : x ≤ -B
  · rw [if_pos h2]
    refine ⟨fun h => Fl.noConfusion h, fun ⟨h, h2⟩ => ?_⟩
    subst h
    unfold Rat.abs at h2
    split at h2 <;> grind
  rw [if_neg h2]
  constructor
  · intro h
    have := Fl.fin.inj h
    subst this
    refine ⟨rfl, ?_⟩
    unfold Rat.abs
    split <;> grind
  · rintro ⟨rfl, -⟩
    rfl

/-- `double`. -/
theorem f64_iff {x q : Rat} : f64 x = .fin q ↔ RoundsDouble x q := by
  unfold f64 overflowAt RoundsDouble
  rw [rounds_iff (by decide)]
  exact overflow_iff (pow_pos_rat 1024)

/-- `float`. -/
theorem f32_iff {x q : Rat} : f32 x = .fin q ↔ RoundsFloat x q := by
  unfold f32 overflowAt RoundsFloat
  rw [rounds_iff (by decide)]
  exact overflow_iff (pow_pos_rat 128)

end Tsetlini
