import Verif.Lemmas.JsonNumber
namespace Tsetlini

theorem u64_of_lt {n : Nat} (h : n < 18446744073709551616) : u64 n = n := Nat.mod_eq_of_lt h

/-- `grisu2_round`: the last digit goes down, but not to zero. -/
theorem grisuRoundLoop_spec (dist delta ten : Nat) (hd64 : delta < 18446744073709551616) (hten : 0 < ten) : ∀ (fuel d rest : Nat) (b : Bytes),
    d < fuel → d ≤ 9 → 0 < d → rest ≤ delta → delta < rest + d * ten →
    ∃ d', grisuRoundLoop dist delta ten fuel (b ++ [48 + d]) rest = .ok (b ++ [48 + d']) ∧ 0 < d' ∧ d' ≤ d ∧ rest + d * ten ≤ delta + d' * ten := by
  intro fuel
  induction fuel with
  | zero => intro d rest b h; omega
  | succ fuel ih =>
    intro d rest b hf hd9 hd0 hr hlt
    unfold grisuRoundLoop
    by_cases hc : rest < dist ∧ ten ≤ delta - rest ∧ (u64 (rest + ten) < dist ∨ u64 (rest + ten) - dist < dist - rest)
    · rw [if_pos hc]
      have hd2 : 2 ≤ d := by
        rcases Nat.lt_or_ge d 2 with h | h
        · have : d = 1 := by omega
          subst this
          omega
        · exact h
      obtain ⟨d1, rfl⟩ : ∃ d1, d = d1 + 1 := ⟨d - 1, by omega⟩
      rw [Nat.add_one_mul] at hlt
      have hlen : (b ++ [48 + (d1 + 1)]).length - 1 = b.length := by simp
      rw [hlen, u64_of_lt (by omega)]
      have h1 : rd (b ++ [48 + (d1 + 1)]) b.length = .ok (48 + (d1 + 1)) := by unfold rd; simp
      have h2 : wr (b ++ [48 + (d1 + 1)]) b.length (48 + (d1 + 1) - 1) = .ok (b ++ [48 + d1]) := by
        rw [wr_ok (by simp)]
        congr 1
        rw [List.set_append_right (h := Nat.le_refl _)]
        simp
      rw [h1, Res.ok_bind, jsonAssert_ok (by omega), Res.ok_bind, h2, Res.ok_bind]
      obtain ⟨d', h3, h4, h5, h6⟩ := ih d1 (rest + ten) b (by omega) (by omega) (by omega) (by omega) (by omega)
      exact ⟨d', h3, h4, by omega, by rw [Nat.add_one_mul]; omega⟩
    · rw [if_neg hc]
      exact ⟨d, rfl, hd0, Nat.le_refl _, by omega⟩

theorem grisuRound_spec {dist delta rest ten d : Nat} {b : Bytes} (hd64 : delta < 18446744073709551616) (hten : 0 < ten) (hdist : dist ≤ delta)
    (hd9 : d ≤ 9) (hr : rest ≤ delta) (hlt : delta < rest + d * ten) :
    ∃ d', grisuRound (b ++ [48 + d]) dist delta rest ten = .ok (b ++ [48 + d']) ∧ 0 < d' ∧ d' ≤ d ∧ rest + d * ten ≤ delta + d' * ten := by
  unfold grisuRound
  rw [jsonAssert_ok (by simp), Res.ok_bind, jsonAssert_ok hdist, Res.ok_bind, jsonAssert_ok hr, Res.ok_bind, jsonAssert_ok hten, Res.ok_bind]
  have : 0 < d := by
    rcases Nat.eq_zero_or_pos d with h | h
    · subst h; omega
    · exact h
  exact grisuRoundLoop_spec dist delta ten hd64 hten 257 d rest b (by omega) hd9 this hr hlt

/-- A decimal number without leading and trailing zeros. -/
structure Short (t : Bytes) : Prop where
  digits : Digits t
  nonempty : t ≠ []
  len : t.length ≤ 17
  head : t.head? ≠ some 48
  last : t.getLast? ≠ some 48

theorem Digits.snoc {t : Bytes} {c : Nat} (h : Digits t) (hc : 48 ≤ c ∧ c ≤ 57) : Digits (t ++ [c]) := by
  intro x hx
  rcases List.mem_append.1 hx with h1 | h1
  · exact h x h1
  · simp at h1; subst h1; exact hc

theorem short_snoc {t : Bytes} {d : Nat} (h : Digits t) (hh : t.head? ≠ some 48) (hl : t.length < 17) (hd0 : 0 < d) (hd9 : d ≤ 9) : Short (t ++ [48 + d]) where
  digits := h.snoc (by omega)
  nonempty := by simp
  len := by simp; omega
  head := by
    cases t with
    | nil => simp; omega
    | cons a t => simpa using hh
  last := by simp; omega

theorem head_snoc {t : Bytes} {d : Nat} (hh : t.head? ≠ some 48) (h : t = [] → 0 < d) : (t ++ [48 + d]).head? ≠ some 48 := by
  cases t with
  | nil => have := h rfl; simp; omega
  | cons a t => simpa using hh

/-- What the digits found mean: a number between the bounds `lo` and `hi`, in units of `1 / U`. -/
structure Found (U lo hi : Nat) (buf : Bytes) (n : Int) : Prop where
  short : Short buf
  low : -17 ≤ n
  high : n ≤ 9
  within : ∃ a b : Nat, n = a - b ∧ lo * 10 ^ b ≤ digitsValue buf * 10 ^ a * U ∧ digitsValue buf * 10 ^ a * U ≤ hi * 10 ^ b

theorem digitLoop1_spec {s p2 delta dist M K : Nat} (hM : M < 18446744073709551616) (hp2 : p2 < 2 ^ s) (hdist : dist ≤ delta) (hdelta : delta < M) (hK : K ≤ 10) :
    ∀ (n : Nat) (buf : Bytes) (p1 p : Nat), Digits buf → buf.head? ≠ some 48 → buf.length = K - n → n ≤ K → (buf = [] → 10 ^ (n - 1) ≤ p1) →
    p1 < 10 ^ n → (0 < n → p = 10 ^ (n - 1)) → M = digitsValue buf * 10 ^ n * 2 ^ s + p1 * 2 ^ s + p2 → delta < p1 * 2 ^ s + p2 →
    (∃ buf' n', digitLoop1 s p2 delta dist n buf p1 p = .ok (.error (buf', n')) ∧ Found (2 ^ s) (M - delta) M buf' n') ∨
    (∃ buf', digitLoop1 s p2 delta dist n buf p1 p = .ok (.ok buf') ∧ Digits buf' ∧ buf'.head? ≠ some 48 ∧ buf'.length = K ∧
      M = digitsValue buf' * 2 ^ s + p2 ∧ delta < p2) := by
  intro n
  induction n with
  | zero =>
    intro buf p1 p hd hh hl hn hp1 hlt hp hMe hde
    refine .inr ⟨buf, rfl, hd, hh, by omega, ?_, ?_⟩
    · have : p1 = 0 := by simpa using hlt
      subst this
      simpa using hMe
    · have : p1 = 0 := by simpa using hlt
      subst this
      simpa using hde
  | succ n ih =>
    intro buf p1 p hd hh hl hn hp1 hlt hp hMe hde
    have hp' : p = 10 ^ n := by simpa using hp (by omega)
    subst hp'
    have hpos : 0 < 10 ^ n := Nat.pow_pos (by decide)
    unfold digitLoop1
    rw [if_neg (by omega)]
    have hd9 : p1 / 10 ^ n ≤ 9 := by
      have : p1 / 10 ^ n < 10 := (Nat.div_lt_iff_lt_mul hpos).2 (by rw [Nat.pow_succ] at hlt; omega)
      omega
    have hdm := Nat.div_add_mod p1 (10 ^ n)
    have hr : p1 % 10 ^ n < 10 ^ n := Nat.mod_lt _ hpos
    rw [jsonAssert_ok hd9, Res.ok_bind]
    unfold pushDigit
    rw [if_pos (by omega), Res.ok_bind]
    dsimp only
    generalize hdd : p1 / 10 ^ n = d at *
    generalize hrr : p1 % 10 ^ n = r at *
    have hd1 : buf = [] → 0 < d := by
      intro h
      have := hp1 h
      simp only [Nat.add_sub_cancel] at this
      rcases Nat.eq_zero_or_pos d with h0 | h0
      · subst h0; omega
      · exact h0
    have hval : digitsValue (buf ++ [48 + d]) = digitsValue buf * 10 + d := by rw [digitsValue_snoc]; omega
    have e1 : p1 * 2 ^ s = d * (10 ^ n * 2 ^ s) + r * 2 ^ s := by
      rw [← hdm, Nat.add_mul, Nat.mul_comm (10 ^ n) d, Nat.mul_assoc]
    have e2 : digitsValue buf * 10 ^ (n + 1) * 2 ^ s + d * (10 ^ n * 2 ^ s) = (digitsValue buf * 10 + d) * 10 ^ n * 2 ^ s := by
      rw [Nat.pow_succ, Nat.add_mul, Nat.add_mul]
      grind
    have hMe' : M = digitsValue (buf ++ [48 + d]) * 10 ^ n * 2 ^ s + r * 2 ^ s + p2 := by rw [hval]; omega
    have hu1 : u64 (r * 2 ^ s) = r * 2 ^ s := u64_of_lt (by omega)
    have hu2 : u64 (r * 2 ^ s + p2) = r * 2 ^ s + p2 := u64_of_lt (by omega)
    rw [hu1, hu2]
    have hs0 : 0 < 2 ^ s := Nat.pow_pos (by decide)
    by_cases hc : r * 2 ^ s + p2 ≤ delta
    · rw [if_pos hc]
      left
      have hten : 10 ^ n * 2 ^ s < 18446744073709551616 := by
        have : 1 * (10 ^ n * 2 ^ s) ≤ digitsValue (buf ++ [48 + d]) * (10 ^ n * 2 ^ s) := by
          refine Nat.mul_le_mul_right _ ?_
          rw [hval]
          cases buf with
          | nil => have := hd1 rfl; omega
          | cons c buf =>
            have hc49 : 49 ≤ c := by
              have := hd c List.mem_cons_self
              have : c ≠ 48 := by intro h; exact hh (by simp [h])
              omega
            have := digitsValue_ge (t := buf) hc49
            have : 0 < 10 ^ buf.length := Nat.pow_pos (by decide)
            omega
        rw [Nat.mul_assoc] at hMe'
        omega
      rw [u64_of_lt hten]
      obtain ⟨d', g1, g2, g3, g4⟩ := grisuRound_spec (b := buf) (ten := 10 ^ n * 2 ^ s) (d := d) (by omega) (Nat.mul_pos hpos hs0) hdist hd9 hc (by omega)
      rw [g1]
      refine ⟨_, n, rfl, short_snoc hd hh (by omega) g2 (by omega), by omega, by omega, n, 0, by omega, ?_, ?_⟩
      · have : digitsValue (buf ++ [48 + d']) = digitsValue buf * 10 + d' := by rw [digitsValue_snoc]; omega
        rw [this, Nat.pow_zero, Nat.mul_one]
        rw [hval] at hMe'
        rw [Nat.mul_assoc, Nat.add_mul] at hMe' ⊢
        omega
      · have : digitsValue (buf ++ [48 + d']) = digitsValue buf * 10 + d' := by rw [digitsValue_snoc]; omega
        rw [this, Nat.pow_zero, Nat.mul_one]
        rw [hval] at hMe'
        rw [Nat.mul_assoc, Nat.add_mul] at hMe' ⊢
        have : d' * (10 ^ n * 2 ^ s) ≤ d * (10 ^ n * 2 ^ s) := Nat.mul_le_mul_right _ g3
        omega
    · rw [if_neg hc]
      refine ih (buf ++ [48 + d]) r (10 ^ n / 10) (hd.snoc (by omega)) (head_snoc hh hd1) (by simp; omega) (by omega) (by simp) hr ?_ hMe' (by omega)
      intro hn0
      obtain ⟨n', rfl⟩ : ∃ n', n = n' + 1 := ⟨n - 1, by omega⟩
      rw [Nat.pow_succ]
      simp

theorem digitLoop2_spec {s M delta0 dist0 K : Nat} (hs : s ≤ 60) (hM : 10 ^ (K - 1) * 2 ^ s ≤ M) (hK : 1 ≤ K) (hprec : M ≤ delta0 * 10 ^ 16) (hdist : dist0 ≤ delta0) :
    ∀ (fuel m : Nat) (buf : Bytes) (p2 : Nat), Digits buf → buf.head? ≠ some 48 → buf ≠ [] → buf.length = K + m → 17 ≤ fuel + m → 0 < fuel →
    M * 10 ^ m = digitsValue buf * 2 ^ s + p2 → p2 < 2 ^ s → delta0 * 10 ^ m < p2 →
    ∃ b d r m', digitLoop2 s fuel buf m p2 (delta0 * 10 ^ m) (dist0 * 10 ^ m) = .ok (b ++ [48 + d], m', r, delta0 * 10 ^ m', dist0 * 10 ^ m') ∧
      Digits b ∧ b.head? ≠ some 48 ∧ b.length < 17 ∧ d ≤ 9 ∧ m' ≤ 17 ∧ M * 10 ^ m' = (digitsValue b * 10 + d) * 2 ^ s + r ∧
      r ≤ delta0 * 10 ^ m' ∧ delta0 * 10 ^ m' < r + d * 2 ^ s ∧ delta0 * 10 ^ m' < 18446744073709551616 := by
  intro fuel
  induction fuel with
  | zero => intro m buf p2 _ _ _ _ _ h; omega
  | succ fuel ih =>
    intro m buf p2 hd hh hb hl hf _ hMe hp2 hde
    have hs60 : 2 ^ s ≤ 2 ^ 60 := Nat.pow_le_pow_right (by decide) hs
    have h60 : (2 : Nat) ^ 60 = 1152921504606846976 := by decide
    have hs0 : 0 < 2 ^ s := Nat.pow_pos (by decide)
    have hlt : K + m < 17 := by
      -- 10^(K-1) * delta0 * 10^m < 10^(K-1) * 2^s ≤ M ≤ delta0 * 10^16
      have h1 : 10 ^ (K - 1) * (delta0 * 10 ^ m) < 10 ^ (K - 1) * 2 ^ s := Nat.mul_lt_mul_of_pos_left (by omega) (Nat.pow_pos (by decide))
      have h2 : delta0 * 10 ^ (K - 1 + m) < delta0 * 10 ^ 16 := by
        rw [Nat.pow_add]
        have : delta0 * (10 ^ (K - 1) * 10 ^ m) = 10 ^ (K - 1) * (delta0 * 10 ^ m) := by grind
        omega
      have h3 := Nat.lt_of_mul_lt_mul_left h2
      have h4 := (Nat.pow_lt_pow_iff_right (by decide)).1 h3
      omega
    unfold digitLoop2
    rw [jsonAssert_ok (by omega), Res.ok_bind]
    dsimp only
    rw [u64_of_lt (n := p2 * 10) (by omega)]
    have hdm := Nat.div_add_mod (p2 * 10) (2 ^ s)
    have hr : p2 * 10 % 2 ^ s < 2 ^ s := Nat.mod_lt _ hs0
    have hd9 : p2 * 10 / 2 ^ s ≤ 9 := by
      have : p2 * 10 / 2 ^ s < 10 := (Nat.div_lt_iff_lt_mul hs0).2 (by omega)
      omega
    generalize hdd : p2 * 10 / 2 ^ s = d at *
    generalize hrr : p2 * 10 % 2 ^ s = r at *
    rw [jsonAssert_ok hd9, Res.ok_bind]
    unfold pushDigit
    rw [if_pos (by omega), Res.ok_bind, u64_of_lt (n := delta0 * 10 ^ m * 10) (by omega)]
    have hdd' : dist0 * 10 ^ m ≤ delta0 * 10 ^ m := Nat.mul_le_mul_right _ hdist
    rw [u64_of_lt (n := dist0 * 10 ^ m * 10) (by omega)]
    have e1 : delta0 * 10 ^ m * 10 = delta0 * 10 ^ (m + 1) := by rw [Nat.pow_succ, Nat.mul_assoc]
    have e2 : dist0 * 10 ^ m * 10 = dist0 * 10 ^ (m + 1) := by rw [Nat.pow_succ, Nat.mul_assoc]
    have e3 : M * 10 ^ (m + 1) = (digitsValue buf * 10 + d) * 2 ^ s + r := by
      rw [Nat.pow_succ, ← Nat.mul_assoc, hMe, Nat.add_mul, Nat.add_mul]
      have : digitsValue buf * 2 ^ s * 10 = digitsValue buf * 10 * 2 ^ s := by grind
      have : 2 ^ s * d = d * 2 ^ s := Nat.mul_comm _ _
      omega
    have hcomm : 2 ^ s * d = d * 2 ^ s := Nat.mul_comm _ _
    have hd64 : delta0 * 10 ^ (m + 1) < 18446744073709551616 := by omega
    rw [e1, e2]
    by_cases hc : r ≤ delta0 * 10 ^ (m + 1)
    · rw [if_pos hc]
      exact ⟨buf, d, r, m + 1, rfl, hd, hh, by omega, hd9, by omega, e3, hc, by omega, hd64⟩
    · rw [if_neg hc]
      have hval : digitsValue (buf ++ [48 + d]) = digitsValue buf * 10 + d := by rw [digitsValue_snoc]; omega
      refine ih (m + 1) (buf ++ [48 + d]) r (hd.snoc (by omega)) (head_snoc hh (fun h => absurd h hb)) (by simp) (by simp; omega) (by omega) (by omega) ?_ hr (by omega)
      rw [hval]; exact e3

theorem findLargestPow10_spec {n : Nat} (h0 : 0 < n) (h : n < 4294967296) :
    ∃ K, 1 ≤ K ∧ K ≤ 10 ∧ findLargestPow10 n = (K, 10 ^ (K - 1)) ∧ 10 ^ (K - 1) ≤ n ∧ n < 10 ^ K := by
  unfold findLargestPow10
  split
  · exact ⟨10, by omega, by omega, rfl, by omega, by omega⟩
  split
  · exact ⟨9, by omega, by omega, rfl, by omega, by omega⟩
  split
  · exact ⟨8, by omega, by omega, rfl, by omega, by omega⟩
  split
  · exact ⟨7, by omega, by omega, rfl, by omega, by omega⟩
  split
  · exact ⟨6, by omega, by omega, rfl, by omega, by omega⟩
  split
  · exact ⟨5, by omega, by omega, rfl, by omega, by omega⟩
  split
  · exact ⟨4, by omega, by omega, rfl, by omega, by omega⟩
  split
  · exact ⟨3, by omega, by omega, rfl, by omega, by omega⟩
  split
  · exact ⟨2, by omega, by omega, rfl, by omega, by omega⟩
  · exact ⟨1, by omega, by omega, rfl, by omega, by omega⟩

/-- `grisu2_digit_gen`: digits of a number between the bounds. -/
theorem digitGen_spec {exp10 e : Int} {lo w hi : Nat} (he1 : -60 ≤ e) (he2 : e ≤ -32) (hlo : 0 < lo) (h1 : lo ≤ w) (h2 : w ≤ hi)
    (h64 : hi < 18446744073709551616) (hone : 2 ^ (-e).toNat ≤ hi) (hprec : hi ≤ (hi - lo) * 10 ^ 16) :
    ∃ buf n, digitGen exp10 ⟨lo, e⟩ ⟨w, e⟩ ⟨hi, e⟩ = .ok (buf, exp10 + n) ∧ Found (2 ^ (-e).toNat) lo hi buf n := by
  unfold digitGen
  dsimp only
  rw [jsonAssert_ok he1, Res.ok_bind, jsonAssert_ok he2, Res.ok_bind]
  have sub : ∀ x : Nat, x ≤ hi → Diyfp.sub ⟨hi, e⟩ ⟨x, e⟩ = .ok ⟨hi - x, e⟩ := by
    intro x hx
    unfold Diyfp.sub
    rw [jsonAssert_ok rfl, Res.ok_bind, jsonAssert_ok hx, Res.ok_bind]
    congr 2
    unfold u64
    dsimp only
    omega
  rw [sub lo (by omega), Res.ok_bind, sub w h2, Res.ok_bind]
  dsimp only
  generalize hs : (-e).toNat = s at *
  have hs1 : 32 ≤ s := by omega
  have hs2 : s ≤ 60 := by omega
  have hs0 : 0 < 2 ^ s := Nat.pow_pos (by decide)
  have hs32 : 2 ^ 32 ≤ 2 ^ s := Nat.pow_le_pow_right (by decide) hs1
  have hp1lt : hi / 2 ^ s < 4294967296 := by
    refine (Nat.div_lt_iff_lt_mul hs0).2 ?_
    have : (2 : Nat) ^ 32 = 4294967296 := by decide
    omega
  have hp1pos : 0 < hi / 2 ^ s := Nat.div_pos hone hs0
  rw [Nat.mod_eq_of_lt hp1lt, jsonAssert_ok hp1pos, Res.ok_bind]
  have hdm := Nat.div_add_mod hi (2 ^ s)
  have hp2 : hi % 2 ^ s < 2 ^ s := Nat.mod_lt _ hs0
  generalize hpp1 : hi / 2 ^ s = p1 at *
  generalize hpp2 : hi % 2 ^ s = p2 at *
  obtain ⟨K, hK1, hK10, hK, hKl, hKu⟩ := findLargestPow10_spec hp1pos hp1lt
  rw [hK]
  dsimp only
  have hcomm : 2 ^ s * p1 = p1 * 2 ^ s := Nat.mul_comm _ _
  have hM : 10 ^ (K - 1) * 2 ^ s ≤ hi := by
    have : 10 ^ (K - 1) * 2 ^ s ≤ p1 * 2 ^ s := Nat.mul_le_mul_right _ hKl
    omega
  rcases digitLoop1_spec (s := s) (p2 := p2) (delta := hi - lo) (dist := hi - w) (M := hi) (K := K) h64 hp2 (by omega) (by omega) hK10 K [] p1 (10 ^ (K - 1))
    (by intro c hc; simp at hc) (by simp) (by simp) (by omega) (fun _ => hKl) hKu (fun _ => rfl) (by simp [digitsValue]; omega) (by omega) with
    ⟨buf, n, g1, g2⟩ | ⟨buf, g1, g2, g3, g4, g5, g6⟩
  · rw [g1, Res.ok_bind]
    refine ⟨buf, n, rfl, ?_⟩
    rwa [show hi - (hi - lo) = lo by omega] at g2
  · rw [g1, Res.ok_bind]
    dsimp only
    rw [jsonAssert_ok g6, Res.ok_bind]
    have hb : buf ≠ [] := by intro h; rw [h] at g4; simp at g4; omega
    obtain ⟨b, d, r, m, l1, l2, l3, l4, l5, l6, l7, l8, l9, l10⟩ := digitLoop2_spec (s := s) (M := hi) (delta0 := hi - lo) (dist0 := hi - w) (K := K) hs2 hM hK1 hprec
      (by omega) 65 0 buf p2 g2 g3 hb (by omega) (by omega) (by omega) (by rw [Nat.pow_zero, Nat.mul_one]; exact g5) hp2 (by rw [Nat.pow_zero, Nat.mul_one]; exact g6)
    rw [Nat.pow_zero, Nat.mul_one, Nat.mul_one] at l1
    rw [l1, Res.ok_bind]
    dsimp only
    obtain ⟨d', k1, k2, k3, k4⟩ := grisuRound_spec (b := b) (ten := 2 ^ s) (d := d) (delta := (hi - lo) * 10 ^ m) (dist := (hi - w) * 10 ^ m) (rest := r) l10 hs0
      (Nat.mul_le_mul_right _ (by omega)) l5 l8 l9
    rw [k1, Res.ok_bind]
    refine ⟨_, -(m : Int), by rw [Int.sub_eq_add_neg], short_snoc l2 l3 l4 k2 (by omega), by omega, by omega, 0, m, by omega, ?_, ?_⟩
    · have : digitsValue (b ++ [48 + d']) = digitsValue b * 10 + d' := by rw [digitsValue_snoc]; omega
      rw [this, Nat.pow_zero, Nat.mul_one, Nat.add_mul]
      rw [Nat.add_mul] at l7
      rw [Nat.sub_mul] at k4
      have : lo * 10 ^ m ≤ hi * 10 ^ m := Nat.mul_le_mul_right _ (by omega)
      omega
    · have : digitsValue (b ++ [48 + d']) = digitsValue b * 10 + d' := by rw [digitsValue_snoc]; omega
      rw [this, Nat.pow_zero, Nat.mul_one, Nat.add_mul]
      rw [Nat.add_mul] at l7
      have : d' * 2 ^ s ≤ d * 2 ^ s := Nat.mul_le_mul_right _ k3
      omega

end Tsetlini
