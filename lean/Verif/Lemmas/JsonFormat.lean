import Verif.Lemmas.JsonNumber
namespace Tsetlini

theorem ten_pow_pos (n : Nat) : (0 : Rat) < ((10 ^ n : Nat) : Rat) := by
  have : 0 < 10 ^ n := Nat.pow_pos (by decide)
  exact_mod_cast this

theorem pow10_succ (e : Int) : pow10 (e + 1) = pow10 e * 10 := by
  unfold pow10
  by_cases h : 0 ≤ e
  · rw [if_pos h, if_pos (by omega)]
    obtain ⟨n, rfl⟩ := Int.eq_ofNat_of_zero_le h
    rw [show ((n : Int) + 1).toNat = n + 1 by omega, show (n : Int).toNat = n by omega, Nat.pow_succ, Rat.natCast_mul]
    rfl
  · rw [if_neg h]
    obtain ⟨n, hn⟩ : ∃ n : Nat, e = -(n + 1 : Int) := ⟨(-e - 1).toNat, by omega⟩
    subst hn
    by_cases h0 : n = 0
    · subst h0
      decide +kernel
    · rw [if_neg (by omega)]
      have e1 : (-(-((n : Int) + 1) + 1)).toNat = n := by omega
      have e2 : (-(-((n : Int) + 1))).toNat = n + 1 := by omega
      rw [e1, e2, Nat.pow_succ, Rat.natCast_mul]
      have := ten_pow_pos n
      have h10 : ((10 : Nat) : Rat) = 10 := rfl
      rw [h10]
      grind

theorem pow10_pos (e : Int) : 0 < pow10 e := by
  unfold pow10
  split
  · exact ten_pow_pos _
  · rw [Rat.div_def, Rat.one_mul]
    exact Rat.inv_pos.2 (ten_pow_pos _)

theorem pow10_add (e : Int) (n : Nat) : pow10 (e + n) = pow10 e * ((10 ^ n : Nat) : Rat) := by
  induction n with
  | zero => simp
  | succ n ih =>
    rw [show e + ((n + 1 : Nat) : Int) = e + n + 1 by omega, pow10_succ, ih, Nat.pow_succ, Rat.natCast_mul]
    have h10 : ((10 : Nat) : Rat) = 10 := rfl
    rw [h10]
    grind

theorem appendExponent_spec {e : Int} (h : e.natAbs < 1000) :
    ∃ ds, appendExponent e = (if e < 0 then 45 else 43) :: ds ∧ Digits ds ∧ ds ≠ [] ∧ digitsValue ds = e.natAbs := by
  unfold appendExponent
  have hs : (if e < 0 then [45] else [43]) = [if e < 0 then 45 else 43] := by split <;> rfl
  rw [hs]
  dsimp only
  generalize (if e < 0 then 45 else 43) = sg
  split
  · refine ⟨[48, 48 + e.natAbs], rfl, ?_, by simp, by simp [digitsValue]⟩
    intro c hc; simp at hc; omega
  split
  · refine ⟨[48 + e.natAbs / 10, 48 + e.natAbs % 10], rfl, ?_, by simp, by simp [digitsValue]; omega⟩
    intro c hc; simp at hc; omega
  · refine ⟨[48 + e.natAbs / 100, 48 + e.natAbs % 100 / 10, 48 + e.natAbs % 100 % 10], rfl, ?_, by simp, by simp [digitsValue]; omega⟩
    intro c hc; simp at hc; omega

/-- The parts of a printed `double`. -/
structure FloatText (t : Bytes) (x : Rat) (c : Nat) (int frac : Bytes) (o : Option (Bool × Bytes)) : Prop where
  text : t = c :: int ++ fracText frac ++ expText o
  hint : Numeral (c :: int)
  hfrac : Digits frac
  hexp : ExpOk o
  float : frac ≠ [] ∨ o ≠ none
  value : (digitsValue (c :: int ++ frac) : Rat) * pow10 (expVal o - frac.length) = x

theorem digits_append {s t : Bytes} (hs : Digits s) (ht : Digits t) : Digits (s ++ t) := by
  intro c hc
  rcases List.mem_append.1 hc with h | h
  · exact hs c h
  · exact ht c h

theorem digits_zeros (n : Nat) : Digits (List.replicate n 48) := by
  intro c hc
  rw [List.mem_replicate] at hc
  omega

theorem formatBuffer_spec {d : Nat} {ds : Bytes} {e : Int} (hd : Digits (d :: ds)) (h0 : d ≠ 48) (h : (((d :: ds).length : Int) + e - 1).natAbs < 1000) :
    ∃ c int frac o, FloatText (formatBuffer (d :: ds) e) ((digitsValue (d :: ds) : Rat) * pow10 e) c int frac o := by
  unfold formatBuffer
  have hlen : ((d :: ds).length : Int) = ds.length + 1 := by simp
  have hone : Numeral [d] := ⟨fun c hc => hd c (by simp at hc; simp [hc]), by simp, fun hc => absurd (by simpa using hc) h0⟩
  have hnum : ∀ u, Digits u → Numeral (d :: u) := fun u hu =>
    ⟨fun c hc => by
      rcases List.mem_cons.1 hc with h | h
      · subst h; exact hd c List.mem_cons_self
      · exact hu c h, by simp, fun hc => absurd (by simpa using hc) h0⟩
  dsimp only
  split
  · rename_i hc
    refine ⟨d, ds ++ List.replicate e.toNat 48, [48], none, ?_, hnum _ (digits_append hd.tail (digits_zeros _)), by intro c hc; simp at hc; omega,
      by intro _ _ h; simp at h, .inl (by simp), ?_⟩
    · rw [show (((d :: ds).length : Int) + e - ((d :: ds).length : Int)).toNat = e.toNat by omega]
      simp [fracText, expText]
    · have e1 : d :: (ds ++ List.replicate e.toNat 48) ++ [48] = (d :: ds) ++ (List.replicate e.toNat 48 ++ [48]) := by simp
      rw [e1, digitsValue_app, digitsValue_snoc, digitsValue_zeros]
      simp only [expVal, List.length_append, List.length_replicate, List.length_singleton, Nat.add_zero, Nat.zero_mul, Nat.sub_self]
      have e2 : pow10 e = pow10 (0 - (1 : Nat)) * ((10 ^ (e.toNat + 1) : Nat) : Rat) := by
        rw [← pow10_add]
        congr 1
        omega
      rw [e2, Rat.natCast_mul]
      grind
  split
  · rename_i h1 h2
    obtain ⟨j, hj⟩ : ∃ j : Nat, ((d :: ds).length : Int) + e = j + 1 := ⟨(((d :: ds).length : Int) + e - 1).toNat, by omega⟩
    rw [hj]
    have ej : ((j : Int) + 1).toNat = j + 1 := by omega
    rw [ej]
    have hjl : j < ds.length := by omega
    refine ⟨d, ds.take j, ds.drop j, none, ?_, hnum _ fun c hc => hd.tail c (List.mem_of_mem_take hc), fun c hc => hd.tail c (List.mem_of_mem_drop hc),
      by intro _ _ h; simp at h, .inl ?_, ?_⟩
    · have : ds.drop j ≠ [] := by simp; omega
      simp [fracText, expText, this]
    · simp; omega
    · rw [show d :: ds.take j ++ ds.drop j = d :: ds by simp]
      congr 2
      simp only [expVal, List.length_drop]
      omega
  split
  · rename_i h1 h2 h3
    refine ⟨48, [], List.replicate (-(((d :: ds).length : Int) + e)).toNat 48 ++ (d :: ds), none, ?_, ⟨by simp, by simp, fun _ => rfl⟩,
      digits_append (digits_zeros _) hd, by intro _ _ h; simp at h, .inl (by simp), ?_⟩
    · simp [fracText, expText]
    · rw [show [48] ++ (List.replicate (-(((d :: ds).length : Int) + e)).toNat 48 ++ (d :: ds)) =
        (48 :: List.replicate (-(((d :: ds).length : Int) + e)).toNat 48) ++ (d :: ds) by simp, digitsValue_app,
        show (48 :: List.replicate (-(((d :: ds).length : Int) + e)).toNat 48) = List.replicate ((-(((d :: ds).length : Int) + e)).toNat + 1) 48 from rfl,
        digitsValue_zeros, Nat.zero_mul, Nat.zero_add]
      congr 2
      simp only [expVal, List.length_append, List.length_replicate]
      omega
  obtain ⟨xs, hx, hxd, hxn, hxv⟩ := appendExponent_spec h
  have hval : expVal (some (decide (((d :: ds).length : Int) + e - 1 < 0), xs)) = ((d :: ds).length : Int) + e - 1 := by
    simp only [expVal, hxv, decide_eq_true_eq]
    split <;> omega
  have htxt : expText (some (decide (((d :: ds).length : Int) + e - 1 < 0), xs)) = 101 :: appendExponent (((d :: ds).length : Int) + e - 1) := by
    rw [hx]
    simp [expText]
  have hok : ExpOk (some (decide (((d :: ds).length : Int) + e - 1 < 0), xs)) := by
    intro n u hu
    simp only [Option.some.injEq, Prod.mk.injEq] at hu
    exact hu.2 ▸ ⟨hxd, hxn⟩
  split
  · rename_i h1
    have : ds = [] := by
      apply List.eq_nil_of_length_eq_zero
      omega
    subst this
    refine ⟨d, [], [], _, ?_, hone, by intro c hc; simp at hc, hok, .inr (by simp), ?_⟩
    · rw [htxt]; simp [fracText]
    · rw [hval]
      have : (([d] : Bytes).length : Int) + e - 1 - (([] : Bytes).length : Nat) = e := by simp; omega
      rw [this]
      rfl
  · rename_i h1
    have hne : ds ≠ [] := by
      intro h; subst h; simp at h1
    refine ⟨d, [], ds, _, ?_, hone, hd.tail, hok, .inl hne, ?_⟩
    · rw [htxt]; simp [fracText, hne]
    · rw [hval]
      have : ((d :: ds).length : Int) + e - 1 - (ds.length : Nat) = e := by simp; omega
      rw [this]
      rfl

end Tsetlini
