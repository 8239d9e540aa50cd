import Verif.Lemmas.Rounding
import Verif.Lemmas.JsonLex
/- The numbers of the grammar and those that the lexer finds. -/
namespace Tsetlini
open Spec

theorem digitsNumber_eq (t : Bytes) : digitsNumber t = digitsValue t := by
  induction t with
  | nil => rfl
  | cons c t ih => rw [digitsValue_cons, ← ih]; rfl

theorem pow10_zpow (e : Int) : pow10 e = (10 : Rat) ^ e := by
  have hp : ∀ n : Nat, ((10 ^ n : Nat) : Rat) = (10 : Rat) ^ n := by
    intro n
    induction n with
    | zero => rfl
    | succ n ih => rw [Nat.pow_succ, Rat.natCast_mul, ih, Rat.pow_succ]; rfl
  unfold pow10
  split
  · rename_i h
    obtain ⟨n, rfl⟩ := Int.eq_ofNat_of_zero_le h
    rw [hp, Rat.zpow_natCast]
    rfl
  · rename_i h
    obtain ⟨n, hn⟩ : ∃ n : Nat, e = -(n : Int) := ⟨(-e).toNat, by omega⟩
    subst hn
    rw [hp, Rat.zpow_neg, Rat.zpow_natCast, Rat.div_def, Rat.one_mul, show (- -(n : Int)).toNat = n by omega]

theorem isDigit_iff {c : Nat} : isDigit c = true ↔ 48 ≤ c ∧ c ≤ 57 := decide_eq_true_iff

theorem isDigit_not {c : Nat} (h : ¬ (48 ≤ c ∧ c ≤ 57)) : isDigit c = false := decide_eq_false h

theorem digitsText_iff {c : Nat} {t : Bytes} : DigitsText (c :: t) ↔ (48 ≤ c ∧ c ≤ 57) ∧ Digits t := by
  constructor
  · intro h; exact ⟨h.2 c List.mem_cons_self, fun d hd => h.2 d (List.mem_cons_of_mem _ hd)⟩
  · intro h
    refine ⟨by simp, fun d hd => ?_⟩
    rcases List.mem_cons.1 hd with rfl | hd
    · exact h.1
    · exact h.2 d hd

theorem intText_iff {t : Bytes} : IntText t ↔ Numeral t :=
  ⟨fun h => ⟨h.1.2, h.1.1, h.2⟩, fun h => ⟨⟨h.nonempty, h.digits⟩, h.head⟩⟩

/-! ### What the automaton accepts -/

theorem any2_sound : ∀ (t : Bytes) {ty ty' : NumType} {acc u rest : Bytes}, numLoop .any2 ty acc t = some (ty', u, rest) →
    ∃ ds, t = ds ++ rest ∧ Digits ds ∧ u = acc ++ ds ∧ ty' = ty := by
  intro t
  induction t with
  | nil =>
    intro ty ty' acc u rest h
    simp only [numLoop, numStep, Option.some.injEq, Prod.mk.injEq] at h
    obtain ⟨rfl, rfl, rfl⟩ := h
    exact ⟨[], rfl, by intro c hc; simp at hc, by simp, rfl⟩
  | cons c t ih =>
    intro ty ty' acc u rest h
    rw [numLoop] at h
    by_cases hc : isDigit c = true
    · simp only [numStep, hc, ↓reduceIte] at h
      obtain ⟨ds, rfl, h2, rfl, rfl⟩ := ih h
      refine ⟨c :: ds, rfl, ?_, by simp, rfl⟩
      exact (digitsText_iff.2 ⟨isDigit_iff.1 hc, h2⟩).2
    · simp only [numStep, hc, Bool.false_eq_true, ↓reduceIte, Option.some.injEq, Prod.mk.injEq] at h
      obtain ⟨rfl, rfl, rfl⟩ := h
      exact ⟨[], rfl, by intro c hc; simp at hc, by simp, rfl⟩

theorem sign_sound {t : Bytes} {ty ty' : NumType} {acc u rest : Bytes} (h : numLoop .sign ty acc t = some (ty', u, rest)) :
    ∃ ds, t = ds ++ rest ∧ DigitsText ds ∧ u = acc ++ ds ∧ ty' = ty := by
  cases t with
  | nil => simp [numLoop, numStep] at h
  | cons c t =>
    rw [numLoop] at h
    by_cases hc : isDigit c = true
    · simp only [numStep, hc, ↓reduceIte] at h
      obtain ⟨ds, rfl, h2, rfl, rfl⟩ := any2_sound t h
      exact ⟨c :: ds, rfl, digitsText_iff.2 ⟨isDigit_iff.1 hc, h2⟩, by simp, rfl⟩
    · simp [numStep, hc] at h

theorem exponent_sound {t : Bytes} {ty ty' : NumType} {acc u rest : Bytes} (h : numLoop .exponent ty acc t = some (ty', u, rest)) {c0 : Nat}
    (hc0 : c0 = 101 ∨ c0 = 69) : ∃ x e, t = x ++ rest ∧ ExpText (c0 :: x) e ∧ u = acc ++ x ∧ ty' = ty := by
  cases t with
  | nil => simp [numLoop, numStep] at h
  | cons c t =>
    rw [numLoop] at h
    by_cases hs : c = 43 ∨ c = 45
    · simp only [numStep, hs, ↓reduceIte] at h
      obtain ⟨ds, rfl, h2, rfl, rfl⟩ := sign_sound h
      rcases hs with rfl | rfl
      · exact ⟨43 :: ds, _, rfl, .plus hc0 h2, by simp, rfl⟩
      · exact ⟨45 :: ds, _, rfl, .minus hc0 h2, by simp, rfl⟩
    · by_cases hc : isDigit c = true
      · simp only [numStep, hs, hc, ↓reduceIte] at h
        obtain ⟨ds, rfl, h2, rfl, rfl⟩ := any2_sound t h
        exact ⟨c :: ds, _, rfl, .plain hc0 (digitsText_iff.2 ⟨isDigit_iff.1 hc, h2⟩), by simp, rfl⟩
      · simp [numStep, hs, hc] at h

theorem decimal2_sound : ∀ (t : Bytes) {ty' : NumType} {acc u rest : Bytes}, numLoop .decimal2 .float acc t = some (ty', u, rest) →
    ∃ ds x e, t = ds ++ x ++ rest ∧ Digits ds ∧ ExpText x e ∧ u = acc ++ ds ++ x ∧ ty' = .float := by
  intro t
  have nil : Digits [] := by intro c hc; simp at hc
  induction t with
  | nil =>
    intro ty' acc u rest h
    simp only [numLoop, numStep, Option.some.injEq, Prod.mk.injEq] at h
    obtain ⟨rfl, rfl, rfl⟩ := h
    exact ⟨[], [], 0, rfl, nil, .none, by simp, rfl⟩
  | cons c t ih =>
    intro ty' acc u rest h
    rw [numLoop] at h
    by_cases hc : isDigit c = true
    · simp only [numStep, hc, ↓reduceIte] at h
      obtain ⟨ds, x, e, rfl, h2, h3, rfl, rfl⟩ := ih h
      exact ⟨c :: ds, x, e, rfl, (digitsText_iff.2 ⟨isDigit_iff.1 hc, h2⟩).2, h3, by simp, rfl⟩
    · by_cases he : c = 101 ∨ c = 69
      · simp only [numStep, hc, he, Bool.false_eq_true, ↓reduceIte] at h
        obtain ⟨x, e, rfl, h3, rfl, rfl⟩ := exponent_sound h he
        exact ⟨[], c :: x, e, rfl, nil, h3, by simp, rfl⟩
      · simp only [numStep, hc, he, Bool.false_eq_true, ↓reduceIte, Option.some.injEq, Prod.mk.injEq] at h
        obtain ⟨rfl, rfl, rfl⟩ := h
        exact ⟨[], [], 0, rfl, nil, .none, by simp, rfl⟩

theorem decimal1_sound {t : Bytes} {ty' : NumType} {acc u rest : Bytes} (h : numLoop .decimal1 .float acc t = some (ty', u, rest)) :
    ∃ ds x e, t = ds ++ x ++ rest ∧ DigitsText ds ∧ ExpText x e ∧ u = acc ++ ds ++ x ∧ ty' = .float := by
  cases t with
  | nil => simp [numLoop, numStep] at h
  | cons c t =>
    rw [numLoop] at h
    by_cases hc : isDigit c = true
    · simp only [numStep, hc, ↓reduceIte] at h
      obtain ⟨ds, x, e, rfl, h2, h3, rfl, rfl⟩ := decimal2_sound t h
      exact ⟨c :: ds, x, e, rfl, digitsText_iff.2 ⟨isDigit_iff.1 hc, h2⟩, h3, by simp, rfl⟩
    · simp [numStep, hc] at h

/-- After the integer part. -/
theorem after_int_sound {st : NumState} (hst : st = .zero ∨ st = .any1) {t : Bytes} {ty ty' : NumType} {acc u rest : Bytes}
    (hn : st = .any1 → ∀ c, t.head? = some c → isDigit c = false) (h : numLoop st ty acc t = some (ty', u, rest)) :
    ∃ fr ds x e, t = fr ++ x ++ rest ∧ FracText fr ds ∧ ExpText x e ∧ u = acc ++ fr ++ x ∧ ty' = if fr ++ x = [] then ty else .float := by
  cases t with
  | nil =>
    have h' : some (ty, acc, []) = some (ty', u, rest) := by rcases hst with rfl | rfl <;> exact h
    simp only [Option.some.injEq, Prod.mk.injEq] at h'
    obtain ⟨rfl, rfl, rfl⟩ := h'
    exact ⟨[], [], [], 0, rfl, .none, .none, by simp, rfl⟩
  | cons c t =>
    rw [numLoop] at h
    have hm : numStep ty st (some c) = if c = 46 then .next .decimal1 .float else if c = 101 ∨ c = 69 then .next .exponent .float else .done := by
      rcases hst with rfl | rfl
      · rfl
      · simp [numStep, hn rfl c rfl]
    rw [hm] at h
    by_cases h1 : c = 46
    · subst h1
      simp only [↓reduceIte] at h
      obtain ⟨ds, x, e, rfl, h2, h3, rfl, rfl⟩ := decimal1_sound h
      exact ⟨46 :: ds, ds, x, e, rfl, .some h2, h3, by simp, by simp⟩
    · by_cases he : c = 101 ∨ c = 69
      · simp only [h1, he, ↓reduceIte] at h
        obtain ⟨x, e, rfl, h3, rfl, rfl⟩ := exponent_sound h he
        exact ⟨[], [], c :: x, e, rfl, .none, h3, by simp, by simp⟩
      · simp only [h1, he, ↓reduceIte, Option.some.injEq, Prod.mk.injEq] at h
        obtain ⟨rfl, rfl, rfl⟩ := h
        exact ⟨[], [], [], 0, rfl, .none, .none, by simp, rfl⟩

theorem any1_sound : ∀ (t : Bytes) {ty ty' : NumType} {acc u rest : Bytes}, numLoop .any1 ty acc t = some (ty', u, rest) →
    ∃ i fr ds x e, t = i ++ fr ++ x ++ rest ∧ Digits i ∧ FracText fr ds ∧ ExpText x e ∧ u = acc ++ i ++ fr ++ x ∧ ty' = if fr ++ x = [] then ty else .float := by
  intro t
  induction t with
  | nil =>
    intro ty ty' acc u rest h
    obtain ⟨fr, ds, x, e, h1, h2, h3, h4, h5⟩ := after_int_sound (.inr rfl) (by intro _ c hc; simp at hc) h
    exact ⟨[], fr, ds, x, e, by simpa using h1, by intro c hc; simp at hc, h2, h3, by simpa using h4, h5⟩
  | cons c t ih =>
    intro ty ty' acc u rest h
    by_cases hc : isDigit c = true
    · rw [numLoop] at h
      simp only [numStep, hc, ↓reduceIte] at h
      obtain ⟨i, fr, ds, x, e, rfl, h2, h3, h4, rfl, h5⟩ := ih h
      exact ⟨c :: i, fr, ds, x, e, by simp, (digitsText_iff.2 ⟨isDigit_iff.1 hc, h2⟩).2, h3, h4, by simp, h5⟩
    · obtain ⟨fr, ds, x, e, h1, h2, h3, h4, h5⟩ := after_int_sound (.inr rfl) (by intro _ d hd; simp at hd; subst hd; simpa using hc) h
      exact ⟨[], fr, ds, x, e, by simpa using h1, by intro c hc; simp at hc, h2, h3, by simpa using h4, h5⟩

/-- After the first digit. -/
theorem int_sound {c : Nat} (hc : 48 ≤ c ∧ c ≤ 57) {t : Bytes} {ty ty' : NumType} {acc u rest : Bytes} (h : numLoop (digitState c) ty acc t = some (ty', u, rest)) :
    ∃ i fr ds x e, t = i ++ fr ++ x ++ rest ∧ IntText (c :: i) ∧ FracText fr ds ∧ ExpText x e ∧ u = acc ++ i ++ fr ++ x ∧ ty' = if fr ++ x = [] then ty else .float := by
  unfold digitState at h
  by_cases h0 : c = 48
  · rw [if_pos h0] at h
    subst h0
    obtain ⟨fr, ds, x, e, h1, h2, h3, h4, h5⟩ := after_int_sound (.inl rfl) (by intro h; cases h) h
    exact ⟨[], fr, ds, x, e, by simpa using h1, ⟨⟨by simp, by simp⟩, fun _ => rfl⟩, h2, h3, by simpa using h4, h5⟩
  · rw [if_neg h0] at h
    obtain ⟨i, fr, ds, x, e, h1, h2, h3⟩ := any1_sound t h
    refine ⟨i, fr, ds, x, e, h1, ⟨digitsText_iff.2 ⟨hc, h2⟩, fun h => ?_⟩, h3⟩
    simp at h
    exact absurd h h0

/-! ### The automaton accepts them -/

theorem Spec.ExpText.head {x : Bytes} {e : Int} (h : ExpText x e) : x = [] ∨ ∃ c u, x = c :: u ∧ (c = 101 ∨ c = 69) := by
  cases h with
  | none => exact .inl rfl
  | plain h _ => exact .inr ⟨_, _, rfl, h⟩
  | plus h _ => exact .inr ⟨_, _, rfl, h⟩
  | minus h _ => exact .inr ⟨_, _, rfl, h⟩

theorem exp_complete {st : NumState} {ty : NumType} {x : Bytes} {e : Int} {acc rest : Bytes} (hst : st = .zero ∨ st = .any1 ∨ st = .decimal2)
    (hx : ExpText x e) (h : Ends rest) : numLoop st ty acc (x ++ rest) = some (if x = [] then ty else .float, acc ++ x, rest) := by
  have first : ∀ (c : Nat) (u : Bytes), c = 101 ∨ c = 69 → numLoop st ty acc (c :: u) = numLoop .exponent .float (acc ++ [c]) u := by
    intro c u hc
    have hd : isDigit c = false := isDigit_not (by omega)
    rw [numLoop]
    rcases hst with rfl | rfl | rfl <;> simp [numStep, hd, hc, show c ≠ 46 by omega]
  have digits : ∀ (s : NumState) (acc' t : Bytes), s = .exponent ∨ s = .sign → DigitsText t →
      numLoop s .float acc' (t ++ rest) = some (.float, acc' ++ t, rest) := by
    intro s acc' t hs ht
    match t, ht with
    | [], ht => exact absurd rfl ht.1
    | d :: t, ht =>
      obtain ⟨hd, ht⟩ := digitsText_iff.1 ht
      rw [List.cons_append, numLoop]
      have : numStep .float s (some d) = .next .any2 .float := by
        rcases hs with rfl | rfl <;> simp [numStep, isDigit_of hd, show ¬ (d = 43 ∨ d = 45) by omega]
      rw [this]
      dsimp only
      rw [numLoop_any2 ht, numLoop_end rfl h]
      simp
  cases hx with
  | none =>
    simp only [List.nil_append, List.append_nil, ↓reduceIte]
    exact numLoop_end (by rcases hst with h | h | h <;> subst h <;> rfl) h
  | @plain c t hc ht =>
    rw [show [c] ++ t ++ rest = c :: (t ++ rest) by simp, first c _ hc, digits _ _ _ (.inl rfl) ht]
    simp
  | @plus c t hc ht =>
    rw [show [c, 43] ++ t ++ rest = c :: 43 :: (t ++ rest) by simp, first c _ hc, numLoop]
    have : numStep .float .exponent (some 43) = .next .sign .float := rfl
    rw [this]
    dsimp only
    rw [digits _ _ _ (.inr rfl) ht]
    simp
  | @minus c t hc ht =>
    rw [show [c, 45] ++ t ++ rest = c :: 45 :: (t ++ rest) by simp, first c _ hc, numLoop]
    have : numStep .float .exponent (some 45) = .next .sign .float := rfl
    rw [this]
    dsimp only
    rw [digits _ _ _ (.inr rfl) ht]
    simp

theorem int_complete {ty : NumType} {c : Nat} {int fr ds x : Bytes} {e : Int} {acc rest : Bytes} (hi : IntText (c :: int))
    (hf : FracText fr ds) (hx : ExpText x e) (h : Ends rest) :
    numLoop (digitState c) ty acc (int ++ fr ++ x ++ rest) = some (if fr ++ x = [] then ty else .float, acc ++ int ++ fr ++ x, rest) := by
  rw [List.append_assoc, List.append_assoc, numLoop_int (intText_iff.1 hi)]
  have hds : digitState c = .zero ∨ digitState c = .any1 := by unfold digitState; split <;> simp
  cases hf with
  | none =>
    simp only [List.nil_append, List.append_nil]
    rw [exp_complete (by rcases hds with h | h <;> simp [h]) hx h]
  | some hd =>
    match ds, hd with
    | [], hd => exact absurd rfl hd.1
    | d :: ds, hd =>
      obtain ⟨h1, h2⟩ := digitsText_iff.1 hd
      have e1 : isDigit 46 = false := rfl
      rw [show [46] ++ (d :: ds) ++ (x ++ rest) = 46 :: d :: (ds ++ (x ++ rest)) by simp]
      have step1 : ∀ acc', numLoop (digitState c) ty acc' (46 :: d :: (ds ++ (x ++ rest))) =
          numLoop .decimal1 .float (acc' ++ [46]) (d :: (ds ++ (x ++ rest))) := by
        intro acc'
        rw [numLoop]
        rcases hds with h | h <;> simp [h, numStep, e1]
      rw [step1, numLoop]
      simp only [numStep, isDigit_of h1, ↓reduceIte]
      rw [numLoop_decimal2 h2, exp_complete (by simp) hx h]
      simp

/-! ### Values -/

theorem exponentValue_exp {c : Nat} {x : Bytes} {e : Int} (h : ExpText (c :: x) e) : exponentValue x = e := by
  generalize hy : c :: x = y at h
  cases h with
  | none => cases hy
  | @plain _ t hc ht =>
    simp at hy
    obtain ⟨rfl, rfl⟩ := hy
    match x, ht with
    | [], ht => exact absurd rfl ht.1
    | d :: t, ht =>
      have hd := (digitsText_iff.1 ht).1
      rw [digitsNumber_eq]
      unfold exponentValue
      split
      · rename_i h; simp at h; omega
      · rename_i h; simp at h; omega
      · rfl
  | plus hc ht =>
    simp at hy
    obtain ⟨rfl, rfl⟩ := hy
    rw [digitsNumber_eq]
    rfl
  | minus hc ht =>
    simp at hy
    obtain ⟨rfl, rfl⟩ := hy
    rw [digitsNumber_eq]
    rfl

theorem decimalValue_eq {int fr ds x : Bytes} {e : Int} (hi : Digits int) (hf : FracText fr ds) (hx : ExpText x e) :
    decimalValue (int ++ fr ++ x) = decimal int ds e := by
  have hx1 : ∀ c, x.head? = some c → isDigit c = false := by
    intro c hc
    rcases hx.head with rfl | ⟨d, u, rfl, hd⟩
    · simp at hc
    · simp at hc; subst hc; exact isDigit_not (by omega)
  have hx46 : x.head? ≠ some 46 := by
    rcases hx.head with rfl | ⟨d, u, rfl, hd⟩
    · simp
    · simp; omega
  have he : (if x.head? = some 101 ∨ x.head? = some 69 then exponentValue (x.drop 1) else 0) = e := by
    rcases hx.head with rfl | ⟨d, u, rfl, hd⟩
    · generalize hy : ([] : Bytes) = y at hx
      cases hx with
      | none => rfl
      | plain => cases hy
      | plus => cases hy
      | minus => cases hy
    · rw [if_pos (by rcases hd with rfl | rfl <;> simp)]
      exact exponentValue_exp hx
  unfold decimalValue decimal
  rw [← pow10_zpow, digitsNumber_eq]
  cases hf with
  | none =>
    simp only [List.append_nil]
    obtain ⟨h1, h2⟩ := takeWhile_digits hi hx1
    rw [h1, h2]
    simp only [hx46, ↓reduceIte]
    rw [he]
    simp
  | some hd =>
    obtain ⟨h1, h2⟩ := takeWhile_digits (ds := int) (u := 46 :: ds ++ x) hi (by intro c hc; simp at hc; subst hc; rfl)
    have e0 : int ++ ([46] ++ ds) ++ x = int ++ (46 :: ds ++ x) := by simp
    rw [e0, h1, h2]
    obtain ⟨h3, h4⟩ := takeWhile_digits (ds := ds) (u := x) hd.2 hx1
    have e2 : (46 :: ds ++ x).head? = some 46 := rfl
    have e3 : (46 :: ds ++ x).drop 1 = ds ++ x := rfl
    simp only [e2, ↓reduceIte, e3]
    rw [h3, h4, he]

theorem Spec.IntText.digits {t : Bytes} (h : IntText t) : Digits t := h.1.2

theorem Spec.IntText.cons {t : Bytes} (h : IntText t) : ∃ c i, t = c :: i ∧ 48 ≤ c ∧ c ≤ 57 := by
  match t, h with
  | [], h => exact absurd rfl h.1.1
  | c :: i, h => exact ⟨c, i, rfl, h.1.2 c List.mem_cons_self⟩

/-- The token of a number. -/
def numTok (neg : Bool) (int fx : Bytes) (d : Rat) : Tok :=
  if neg then if fx = [] ∧ digitsNumber int ≤ 2 ^ 63 then .integer (-(digitsNumber int : Int)) else .float (f64 (-d))
  else if fx = [] ∧ digitsNumber int < 2 ^ 64 then .unsigned (digitsNumber int) else .float (f64 d)

theorem numberToken_nat {int fr ds x : Bytes} {e : Int} (hi : IntText int) (hf : FracText fr ds) (hx : ExpText x e) :
    numberToken (if fr ++ x = [] then .unsigned else .float) (int ++ fr ++ x) = numTok false int (fr ++ x) (decimal int ds e) := by
  have hv : strtod (int ++ fr ++ x) = f64 (decimal int ds e) := by
    rw [← decimalValue_eq hi.digits hf hx]
    obtain ⟨c, i, rfl, h1, h2⟩ := hi.cons
    simp only [List.cons_append]
    unfold strtod
    split
    · rename_i h; simp at h; omega
    · rfl
  unfold numTok
  simp only [Bool.false_eq_true, ↓reduceIte]
  by_cases h : fr ++ x = []
  · have hfr : fr = [] := (List.append_eq_nil_iff.1 h).1
    have hxx : x = [] := (List.append_eq_nil_iff.1 h).2
    rw [if_pos h]
    unfold numberToken
    dsimp only
    rw [hv]
    have e1 : digitsValue (int ++ fr ++ x) = digitsNumber int := by rw [hfr, hxx, digitsNumber_eq]; simp
    rw [e1]
    by_cases hb : digitsNumber int < 2 ^ 64
    · rw [if_pos (by omega), if_pos ⟨h, hb⟩]
    · rw [if_neg (by omega), if_neg (fun hh => hb hh.2)]
  · rw [if_neg h, if_neg (fun hh => h hh.1)]
    unfold numberToken
    dsimp only
    rw [hv]

theorem numberToken_neg {int fr ds x : Bytes} {e : Int} (hi : IntText int) (hf : FracText fr ds) (hx : ExpText x e) :
    numberToken (if fr ++ x = [] then .integer else .float) (45 :: (int ++ fr ++ x)) = numTok true int (fr ++ x) (decimal int ds e) := by
  have hv : strtod (45 :: (int ++ fr ++ x)) = f64 (-decimal int ds e) := by
    rw [← decimalValue_eq hi.digits hf hx]
    rfl
  unfold numTok
  simp only [↓reduceIte]
  by_cases h : fr ++ x = []
  · have hfr : fr = [] := (List.append_eq_nil_iff.1 h).1
    have hxx : x = [] := (List.append_eq_nil_iff.1 h).2
    rw [if_pos h]
    unfold numberToken
    dsimp only
    rw [hv]
    have e1 : digitsValue (List.drop 1 (45 :: (int ++ fr ++ x))) = digitsNumber int := by rw [hfr, hxx, digitsNumber_eq]; simp
    rw [e1]
    by_cases hb : digitsNumber int ≤ 2 ^ 63
    · rw [if_pos (by omega), if_pos ⟨h, hb⟩]
    · rw [if_neg (by omega), if_neg (fun hh => hb hh.2)]
  · rw [if_neg h, if_neg (fun hh => h hh.1)]
    unfold numberToken
    dsimp only
    rw [hv]

/-- The token of a value that is a number. -/
def numberTok : TVal → Tok
  | .unsigned n => .unsigned n
  | .integer i => .integer i
  | .float x => .float x
  | _ => .parseError

theorem numTok_value {neg : Bool} {int fr ds x : Bytes} {e : Int} (hi : IntText int) (hf : FracText fr ds) (hx : ExpText x e) :
    (∃ y, (∀ q, y ≠ .fin q) ∧ numTok neg int (fr ++ x) (decimal int ds e) = .float y) ∨
    ∃ v, NumberText ((if neg then [45] else []) ++ int ++ fr ++ x) v ∧ numTok neg int (fr ++ x) (decimal int ds e) = numberTok v := by
  have real : ∀ (y : Fl), (∀ q, y = .fin q → NumberText ((if neg then [45] else []) ++ int ++ fr ++ x) (.float (.fin q))) →
      (∃ z, (∀ q, z ≠ .fin q) ∧ Tok.float y = .float z) ∨ ∃ v, NumberText ((if neg then [45] else []) ++ int ++ fr ++ x) v ∧ Tok.float y = numberTok v := by
    intro y hy
    cases y with
    | fin q => exact .inr ⟨_, hy q rfl, rfl⟩
    | inf s => exact .inl ⟨.inf s, fun q h => Fl.noConfusion h, rfl⟩
    | nan => exact .inl ⟨.nan, fun q h => Fl.noConfusion h, rfl⟩
  unfold numTok
  cases neg with
  | false =>
    simp only [Bool.false_eq_true, ↓reduceIte]
    by_cases h : fr ++ x = [] ∧ digitsNumber int < 2 ^ 64
    · rw [if_pos h]
      have hfr : fr = [] := (List.append_eq_nil_iff.1 h.1).1
      have hxx : x = [] := (List.append_eq_nil_iff.1 h.1).2
      refine .inr ⟨.unsigned (digitsNumber int), ?_, rfl⟩
      rw [hfr, hxx]
      simpa using NumberText.nat hi h.2
    · rw [if_neg h]
      refine real _ fun q hq => ?_
      have hne : fr ++ x ≠ [] ∨ 2 ^ 64 ≤ digitsNumber int := by
        by_cases h1 : fr ++ x = []
        · exact .inr (Nat.le_of_not_lt fun hb => h ⟨h1, hb⟩)
        · exact .inl h1
      exact .real hi hf hx hne (f64_iff.1 hq)
  | true =>
    simp only [↓reduceIte]
    by_cases h : fr ++ x = [] ∧ digitsNumber int ≤ 2 ^ 63
    · rw [if_pos h]
      have hfr : fr = [] := (List.append_eq_nil_iff.1 h.1).1
      have hxx : x = [] := (List.append_eq_nil_iff.1 h.1).2
      refine .inr ⟨.integer (-(digitsNumber int : Int)), ?_, rfl⟩
      rw [hfr, hxx]
      simpa using NumberText.neg hi h.2
    · rw [if_neg h]
      refine real _ fun q hq => ?_
      have hne : fr ++ x ≠ [] ∨ 2 ^ 63 < digitsNumber int := by
        by_cases h1 : fr ++ x = []
        · exact .inr (Nat.lt_of_not_le fun hb => h ⟨h1, hb⟩)
        · exact .inl h1
      exact .negReal hi hf hx hne (f64_iff.1 hq)

/-- What was read as a number is a number of the grammar, or too great. -/
theorem scanNumber_sound {c : Nat} (hc : c = 45 ∨ 48 ≤ c ∧ c ≤ 57) {t : Bytes} {tok : Tok} {rest : Bytes} (h : scanNumber c t = (tok, rest)) :
    tok = .parseError ∨ (∃ y, (∀ q, y ≠ .fin q) ∧ tok = .float y) ∨ ∃ u v, c :: t = u ++ rest ∧ NumberText u v ∧ tok = numberTok v := by
  unfold scanNumber at h
  dsimp only at h
  by_cases h45 : c = 45
  · subst h45
    simp only [↓reduceIte] at h
    cases t with
    | nil => simp [numLoop, numStep] at h; exact .inl h.1.symm
    | cons d t =>
      rw [numLoop] at h
      by_cases hd : 48 ≤ d ∧ d ≤ 57
      · have e1 : numStep .integer .minus (some d) = .next (digitState d) .integer := by
          simp only [numStep, digitState, isDigit_of hd]
          split <;> rfl
        rw [e1] at h
        dsimp only at h
        match hl : numLoop (digitState d) .integer ([45] ++ [d]) t with
        | none =>
          rw [hl] at h
          simp only [Prod.mk.injEq] at h
          exact .inl h.1.symm
        | some (ty, u, r) =>
          rw [hl] at h
          simp only [Prod.mk.injEq] at h
          obtain ⟨rfl, rfl⟩ := h
          obtain ⟨i, fr, ds, x, e, rfl, h2, h3, h4, rfl, rfl⟩ := int_sound hd hl
          have hv := numTok_value (neg := true) h2 h3 h4
          rw [← numberToken_neg h2 h3 h4] at hv
          have e2 : [45] ++ [d] ++ i ++ fr ++ x = 45 :: (d :: i ++ fr ++ x) := by simp
          rw [e2]
          rcases hv with hv | ⟨v, hv1, hv2⟩
          · exact .inr (.inl hv)
          · exact .inr (.inr ⟨_, v, by simp, hv1, hv2⟩)
      · have e1 : numStep .integer .minus (some d) = .error := by
          simp [numStep, isDigit_not hd, show d ≠ 48 by omega]
        rw [e1] at h
        simp at h
        exact .inl h.1.symm
  · have hd : 48 ≤ c ∧ c ≤ 57 := by omega
    have e1 : (if c = 45 then NumState.minus else if c = 48 then .zero else .any1) = digitState c := if_neg h45
    have e2 : (if c = 45 then NumType.integer else .unsigned) = .unsigned := if_neg h45
    rw [e1, e2] at h
    match hl : numLoop (digitState c) .unsigned [c] t with
    | none =>
      rw [hl] at h
      simp only [Prod.mk.injEq] at h
      exact .inl h.1.symm
    | some (ty, u, r) =>
      rw [hl] at h
      simp only [Prod.mk.injEq] at h
      obtain ⟨rfl, rfl⟩ := h
      obtain ⟨i, fr, ds, x, e, rfl, h2, h3, h4, rfl, rfl⟩ := int_sound hd hl
      have hv := numTok_value (neg := false) h2 h3 h4
      rw [← numberToken_nat h2 h3 h4] at hv
      have e2 : [c] ++ i ++ fr ++ x = c :: i ++ fr ++ x := by simp
      rw [e2]
      rcases hv with hv | ⟨v, hv1, hv2⟩
      · exact .inr (.inl hv)
      · exact .inr (.inr ⟨_, v, by simp, hv1, hv2⟩)

theorem scan_nat {int fr ds x : Bytes} {e : Int} {rest : Bytes} (hi : IntText int) (hf : FracText fr ds) (hx : ExpText x e) (h : Ends rest) :
    ∃ c t, int ++ fr ++ x ++ rest = c :: t ∧ 48 ≤ c ∧ c ≤ 57 ∧ scanNumber c t = (numTok false int (fr ++ x) (decimal int ds e), rest) := by
  obtain ⟨c, i, rfl, hc1, hc2⟩ := hi.cons
  refine ⟨c, i ++ fr ++ x ++ rest, by simp, hc1, hc2, ?_⟩
  unfold scanNumber
  have e1 : (if c = 45 then NumState.minus else if c = 48 then .zero else .any1) = digitState c := if_neg (by omega)
  have e2 : (if c = 45 then NumType.integer else .unsigned) = .unsigned := if_neg (by omega)
  simp only [e1, e2]
  rw [int_complete hi hf hx h]
  dsimp only
  rw [← numberToken_nat hi hf hx]
  simp

theorem scan_neg {int fr ds x : Bytes} {e : Int} {rest : Bytes} (hi : IntText int) (hf : FracText fr ds) (hx : ExpText x e) (h : Ends rest) :
    scanNumber 45 (int ++ fr ++ x ++ rest) = (numTok true int (fr ++ x) (decimal int ds e), rest) := by
  obtain ⟨c, i, rfl, hc1, hc2⟩ := hi.cons
  unfold scanNumber
  simp only [↓reduceIte, List.cons_append]
  rw [numLoop]
  have e1 : numStep .integer .minus (some c) = .next (digitState c) .integer := by
    simp only [numStep, digitState, isDigit_of ⟨hc1, hc2⟩]
    split <;> rfl
  rw [e1]
  dsimp only
  rw [int_complete hi hf hx h]
  dsimp only
  rw [← numberToken_neg hi hf hx]
  simp

/-- A number of the grammar is read. -/
theorem scanNumber_text {t : Bytes} {v : TVal} (ht : NumberText t v) {rest : Bytes} (h : Ends rest) :
    ∃ c u, t ++ rest = c :: u ∧ (c = 45 ∨ 48 ≤ c ∧ c ≤ 57) ∧ scanNumber c u = (numberTok v, rest) := by
  cases ht with
  | nat hi hb =>
    obtain ⟨c, u, h1, h2, h3, h4⟩ := scan_nat hi .none .none h
    refine ⟨c, u, by simpa using h1, .inr ⟨h2, h3⟩, ?_⟩
    rw [h4]
    unfold numTok
    simp only [Bool.false_eq_true, ↓reduceIte]
    rw [if_pos ⟨rfl, hb⟩]
    rfl
  | @neg t hi hb =>
    refine ⟨45, t ++ rest, by simp, .inl rfl, ?_⟩
    have := scan_neg hi .none .none h
    rw [List.append_nil, List.append_nil] at this
    rw [this]
    unfold numTok
    simp only [↓reduceIte]
    rw [if_pos ⟨rfl, hb⟩]
    rfl
  | real hi hf hx hne hq =>
    obtain ⟨c, u, h1, h2, h3, h4⟩ := scan_nat hi hf hx h
    refine ⟨c, u, h1, .inr ⟨h2, h3⟩, ?_⟩
    rw [h4]
    unfold numTok
    simp only [Bool.false_eq_true, ↓reduceIte]
    rw [if_neg (by rintro ⟨a, b⟩; rcases hne with h | h; exact h a; omega), f64_iff.2 hq]
    rfl
  | @negReal int frac exp ds e q hi hf hx hne hq =>
    refine ⟨45, int ++ frac ++ exp ++ rest, by simp, .inl rfl, ?_⟩
    rw [scan_neg hi hf hx h]
    unfold numTok
    simp only [↓reduceIte]
    rw [if_neg (by rintro ⟨a, b⟩; rcases hne with h | h; exact h a; omega), f64_iff.2 hq]
    rfl

end Tsetlini
