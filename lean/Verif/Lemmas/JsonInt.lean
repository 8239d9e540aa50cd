import Verif.Model.JsonParse
import Verif.Lemmas.Res
namespace Tsetlini

/-- Digits of a number: not empty, digits only, no leading zero unless alone. -/
structure Numeral (t : Bytes) : Prop where
  digits : ∀ c ∈ t, 48 ≤ c ∧ c ≤ 57
  nonempty : t ≠ []
  head : t.head? = some 48 → t = [48]

theorem digitsValue_append (s t : Bytes) (n : Nat) :
    (s ++ t).foldl (fun n c => n * 10 + (c - 48)) n = t.foldl (fun n c => n * 10 + (c - 48)) (s.foldl (fun n c => n * 10 + (c - 48)) n) := by
  rw [List.foldl_append]

theorem digitsValue_snoc (s : Bytes) (c : Nat) : digitsValue (s ++ [c]) = digitsValue s * 10 + (c - 48) := by
  simp [digitsValue, List.foldl_append]

theorem digitsValue_foldl (t : Bytes) (n : Nat) :
    t.foldl (fun n c => n * 10 + (c - 48)) n = n * 10 ^ t.length + digitsValue t := by
  induction t generalizing n with
  | nil => simp [digitsValue]
  | cons c t ih =>
    simp only [List.foldl_cons, List.length_cons, digitsValue]
    rw [ih, ih (0 * 10 + (c - 48)), Nat.zero_mul, Nat.zero_add, Nat.add_mul, Nat.pow_succ]
    have : n * 10 * 10 ^ t.length = n * (10 ^ t.length * 10) := by rw [Nat.mul_assoc, Nat.mul_comm 10]
    omega

theorem digitsValue_app (s t : Bytes) : digitsValue (s ++ t) = digitsValue s * 10 ^ t.length + digitsValue t := by
  unfold digitsValue
  rw [List.foldl_append, digitsValue_foldl]
  rfl

theorem digitsValue_cons (c : Nat) (t : Bytes) : digitsValue (c :: t) = (c - 48) * 10 ^ t.length + digitsValue t := by
  have := digitsValue_app [c] t
  rwa [show digitsValue [c] = c - 48 by simp [digitsValue]] at this

theorem digitsValue_lt {t : Bytes} (h : ∀ c ∈ t, 48 ≤ c ∧ c ≤ 57) : digitsValue t < 10 ^ t.length := by
  induction t with
  | nil => simp [digitsValue]
  | cons c t ih =>
    rw [digitsValue_cons, List.length_cons, Nat.pow_succ]
    have := ih fun d hd => h d (List.mem_cons_of_mem _ hd)
    have hc := h c List.mem_cons_self
    have : (c - 48) * 10 ^ t.length ≤ 9 * 10 ^ t.length := Nat.mul_le_mul_right _ (by omega)
    omega

theorem digitsValue_ge {c : Nat} {t : Bytes} (hc : 49 ≤ c) : 10 ^ t.length ≤ digitsValue (c :: t) := by
  rw [digitsValue_cons]
  have : 1 * 10 ^ t.length ≤ (c - 48) * 10 ^ t.length := Nat.mul_le_mul_right _ (by omega)
  omega

theorem digitsValue_zeros (n : Nat) : digitsValue (List.replicate n 48) = 0 := by
  induction n with
  | zero => rfl
  | succ n ih => rw [List.replicate_succ, digitsValue_cons, ih]; simp

theorem countDigits_spec (fuel : Nat) : ∀ n x : Nat, 0 < x → x < 10 ^ (4 * fuel) →
    ∃ d, countDigits fuel n x = .ok (n + d) ∧ 10 ^ d ≤ x ∧ x < 10 ^ (d + 1) := by
  induction fuel with
  | zero => intro n x h0 h; simp at h; omega
  | succ fuel ih =>
    intro n x h0 h
    unfold countDigits
    split
    · exact ⟨0, rfl, by omega, by omega⟩
    split
    · exact ⟨1, rfl, by omega, by omega⟩
    split
    · exact ⟨2, rfl, by omega, by omega⟩
    split
    · exact ⟨3, rfl, by omega, by omega⟩
    · have hlt : x / 10000 < 10 ^ (4 * fuel) := by
        have e : (10 : Nat) ^ (4 * (fuel + 1)) = 10 ^ (4 * fuel) * 10000 := by rw [Nat.mul_add, Nat.pow_add]
        omega
      obtain ⟨d, hd, h1, h2⟩ := ih (n + 4) (x / 10000) (by omega) hlt
      refine ⟨d + 4, by rw [hd]; congr 1; omega, ?_, ?_⟩
      · rw [Nat.pow_add]; omega
      · rw [show d + 4 + 1 = (d + 1) + 4 by omega, Nat.pow_add]; omega

theorem putBack_spec {c : Nat} {buf : Bytes} {p : Nat} (hp : p + 1 ≤ buf.length) :
    ∃ buf', putBack c (buf, p + 1) = .ok (buf', p) ∧ buf'.length = buf.length ∧ buf'.take p = buf.take p ∧
      buf'.drop p = c :: buf.drop (p + 1) := by
  refine ⟨buf.set p c, ?_, by simp, ?_, ?_⟩
  · unfold putBack
    rw [if_neg (by simp)]
    simp only [Nat.add_sub_cancel]
    rw [wr_ok (by omega)]
    rfl
  · rw [List.take_set_of_le (Nat.le_refl p)]
  · rw [List.drop_set, if_neg (by omega), Nat.sub_self]
    rw [List.drop_eq_getElem_cons (by omega : p < buf.length)]
    rfl

theorem putDigits_spec (fuel : Nat) : ∀ (x d neg : Nat) (buf : Bytes), neg + d ≤ buf.length → d + 1 ≤ 2 * fuel →
    10 ^ (d - 1) ≤ x → x < 10 ^ d → 0 < d →
    ∃ t, putDigits fuel x (buf, neg + d) = .ok (buf.take neg ++ t ++ buf.drop (neg + d), neg) ∧ t.length = d ∧
      (∀ c ∈ t, 48 ≤ c ∧ c ≤ 57) ∧ digitsValue t = x := by
  induction fuel with
  | zero => intro x d neg buf _ hf; omega
  | succ fuel ih =>
    intro x d neg buf hb hf hl hu hd
    unfold putDigits
    split
    · rename_i hx
      obtain ⟨e, rfl⟩ : ∃ e, d = e + 3 := by
        refine ⟨d - 3, ?_⟩
        have : ¬ d ≤ 2 := fun h => by
          have := Nat.pow_le_pow_right (by decide : 0 < 10) h
          omega
        omega
      obtain ⟨b1, h1, l1, t1, d1⟩ := putBack_spec (c := 48 + x % 100 % 10) (buf := buf) (p := neg + e + 2) (by omega)
      obtain ⟨b2, h2, l2, t2, d2⟩ := putBack_spec (c := 48 + x % 100 / 10) (buf := b1) (p := neg + e + 1) (by omega)
      rw [show neg + (e + 3) = neg + e + 2 + 1 by omega, h1, Res.ok_bind, h2, Res.ok_bind]
      have hp3 : (10 : Nat) ^ (e + 3) = 10 ^ (e + 1) * 100 := by rw [show e + 3 = (e + 1) + 2 by omega, Nat.pow_add]
      have hp2 : (10 : Nat) ^ (e + 3 - 1) = 10 ^ e * 100 := by rw [show e + 3 - 1 = e + 2 by omega, Nat.pow_add]
      rw [hp3] at hu
      rw [hp2] at hl
      obtain ⟨t, ht, htl, htd, htv⟩ := ih (x / 100) (e + 1) neg b2 (by omega) (by omega) (by simp; omega) (by omega) (by omega)
      refine ⟨t ++ [48 + x % 100 / 10, 48 + x % 100 % 10], ?_, by simp [htl], ?_, ?_⟩
      · rw [show neg + e + 1 = neg + (e + 1) by omega, ht]
        have e1 : b2.take neg = buf.take neg := by
          have a1 : b2.take neg = b1.take neg := by
            have := congrArg (List.take neg) t2
            rwa [List.take_take, List.take_take, Nat.min_eq_left (by omega)] at this
          have a2 : b1.take neg = buf.take neg := by
            have := congrArg (List.take neg) t1
            rwa [List.take_take, List.take_take, Nat.min_eq_left (by omega)] at this
          rw [a1, a2]
        have e2 : b2.drop (neg + (e + 1)) = [48 + x % 100 / 10, 48 + x % 100 % 10] ++ buf.drop (neg + e + 2 + 1) := by
          rw [show neg + (e + 1) = neg + e + 1 by omega, d2, show neg + e + 1 + 1 = neg + e + 2 by omega, d1]
          rfl
        rw [e1, e2]
        simp
      · intro c hc
        rcases List.mem_append.1 hc with h | h
        · exact htd c h
        · simp at h; omega
      · rw [show t ++ [48 + x % 100 / 10, 48 + x % 100 % 10] = (t ++ [48 + x % 100 / 10]) ++ [48 + x % 100 % 10] by simp,
          digitsValue_snoc, digitsValue_snoc, htv]
        omega
    split
    · rename_i hx1 hx
      obtain rfl : d = 2 := by
        have a : ¬ d ≤ 1 := fun h => by
          have := Nat.pow_le_pow_right (by decide : 0 < 10) h
          omega
        have b : ¬ 3 ≤ d := fun h => by
          have := Nat.pow_le_pow_right (by decide : 0 < 10) (show 2 ≤ d - 1 by omega)
          omega
        omega
      obtain ⟨b1, h1, l1, t1, d1⟩ := putBack_spec (c := 48 + x % 10) (buf := buf) (p := neg + 1) (by omega)
      obtain ⟨b2, h2, l2, t2, d2⟩ := putBack_spec (c := 48 + x / 10) (buf := b1) (p := neg) (by omega)
      rw [show neg + 2 = neg + 1 + 1 by omega, h1, Res.ok_bind, h2]
      refine ⟨[48 + x / 10, 48 + x % 10], ?_, rfl, by simp; omega, by simp [digitsValue]; omega⟩
      congr 2
      conv => lhs; rw [← List.take_append_drop neg b2]
      rw [d2, d1, t2]
      have := congrArg (List.take neg) t1
      rw [List.take_take, List.take_take, Nat.min_eq_left (by omega)] at this
      rw [this]
      simp
    · rename_i hx1 hx
      obtain rfl : d = 1 := by
        have b : ¬ 2 ≤ d := fun h => by
          have := Nat.pow_le_pow_right (by decide : 0 < 10) (show 1 ≤ d - 1 by omega)
          omega
        omega
      obtain ⟨b1, h1, l1, t1, d1⟩ := putBack_spec (c := 48 + x) (buf := buf) (p := neg) (by omega)
      rw [h1]
      refine ⟨[48 + x], ?_, rfl, by simp; omega, by simp [digitsValue]⟩
      congr 2
      conv => lhs; rw [← List.take_append_drop neg b1]
      rw [d1, t1]
      simp

theorem jsonAssert_ok {c : Prop} [Decidable c] (h : c) : jsonAssert c = .ok () := if_pos h

/-- The text of an integer. -/
theorem dumpInteger_spec {x : Int} (h : x.natAbs < 10 ^ 20) :
    ∃ t, dumpInteger x = .ok ((if x < 0 then [45] else []) ++ t) ∧ Numeral t ∧ digitsValue t = x.natAbs := by
  unfold dumpInteger
  by_cases h0 : x = 0
  · subst h0
    exact ⟨[48], rfl, ⟨by simp, by simp, fun _ => rfl⟩, by simp [digitsValue]⟩
  rw [if_neg h0]
  have hpos : 0 < x.natAbs := by omega
  obtain ⟨d, hd, h1, h2⟩ := countDigits_spec 20 1 x.natAbs hpos
    (Nat.lt_of_lt_of_le h (Nat.pow_le_pow_right (by decide) (by decide)))
  have hd20 : d < 20 := by
    apply Nat.lt_of_not_le
    intro hc
    have := Nat.pow_le_pow_right (by decide : 0 < 10) hc
    omega
  dsimp only
  rw [hd, Res.ok_bind]
  by_cases hn : x < 0
  · simp only [hn, decide_true, ↓reduceIte]
    rw [jsonAssert_ok (by omega), Res.ok_bind]
    obtain ⟨t, ht, htl, htd, htv⟩ := putDigits_spec 20 x.natAbs (1 + d) 1 ((List.replicate 64 0).set 0 45) (by simp; omega) (by omega)
      (by rw [show 1 + d - 1 = d by omega]; exact h1) (by rw [Nat.add_comm 1 d]; exact h2) (by omega)
    rw [ht]
    refine ⟨t, ?_, ⟨htd, fun hc => by subst hc; simp at htl; omega, ?_⟩, htv⟩
    · rw [Res.ok_bind]
      congr 1
      have e1 : List.take 1 ((List.replicate 64 0).set 0 45) = [45] := by decide
      rw [e1, List.take_append_of_le_length (by simp [htl]; omega)]
      rw [List.take_of_length_le (by simp [htl]; omega)]
    · intro hc
      cases t with
      | nil => simp at hc
      | cons c t =>
        simp only [List.head?_cons, Option.some.injEq] at hc
        subst hc
        have : digitsValue (48 :: t) < 10 ^ t.length := by
          rw [digitsValue_cons]
          have := digitsValue_lt fun c hc => htd c (List.mem_cons_of_mem _ hc)
          omega
        simp only [List.length_cons] at htl
        have : t.length = d := by omega
        subst this
        omega
  · simp only [hn, decide_false, Bool.false_eq_true, ↓reduceIte]
    rw [jsonAssert_ok (by omega), Res.ok_bind]
    obtain ⟨t, ht, htl, htd, htv⟩ := putDigits_spec 20 x.natAbs (1 + d) 0 (List.replicate 64 0) (by simp; omega) (by omega)
      (by rw [show 1 + d - 1 = d by omega]; exact h1) (by rw [Nat.add_comm 1 d]; exact h2) (by omega)
    rw [ht]
    refine ⟨t, ?_, ⟨htd, fun hc => by subst hc; simp at htl; omega, ?_⟩, htv⟩
    · rw [Res.ok_bind]
      congr 1
      rw [List.take_zero, List.nil_append, List.take_append_of_le_length (by omega)]
      rw [List.take_of_length_le (by omega)]
    · intro hc
      cases t with
      | nil => simp at hc
      | cons c t =>
        simp only [List.head?_cons, Option.some.injEq] at hc
        subst hc
        have : digitsValue (48 :: t) < 10 ^ t.length := by
          rw [digitsValue_cons]
          have := digitsValue_lt fun c hc => htd c (List.mem_cons_of_mem _ hc)
          omega
        simp only [List.length_cons] at htl
        have : t.length = d := by omega
        subst this
        omega

end Tsetlini
