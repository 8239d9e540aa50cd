import Verif.Lemmas.JsonInt
namespace Tsetlini

/-- What may follow a number. -/
def Ends (rest : Bytes) : Prop := ∀ c, rest.head? = some c → isDigit c = false ∧ c ≠ 46 ∧ c ≠ 101 ∧ c ≠ 69

/-- Digits only. -/
def Digits (t : Bytes) : Prop := ∀ c ∈ t, 48 ≤ c ∧ c ≤ 57

theorem isDigit_of {c : Nat} (h : 48 ≤ c ∧ c ≤ 57) : isDigit c = true := decide_eq_true h

theorem Digits.tail {c : Nat} {t : Bytes} (h : Digits (c :: t)) : Digits t := fun d hd => h d (List.mem_cons_of_mem _ hd)

theorem numLoop_any1 {ty : NumType} {ds : Bytes} (h : Digits ds) (acc u : Bytes) :
    numLoop .any1 ty acc (ds ++ u) = numLoop .any1 ty (acc ++ ds) u := by
  induction ds generalizing acc with
  | nil => simp
  | cons c ds ih =>
    rw [List.cons_append, numLoop]
    simp only [numStep, isDigit_of (h c List.mem_cons_self), ↓reduceIte]
    rw [ih h.tail]
    simp

theorem numLoop_decimal2 {ty : NumType} {ds : Bytes} (h : Digits ds) (acc u : Bytes) :
    numLoop .decimal2 ty acc (ds ++ u) = numLoop .decimal2 ty (acc ++ ds) u := by
  induction ds generalizing acc with
  | nil => simp
  | cons c ds ih =>
    rw [List.cons_append, numLoop]
    simp only [numStep, isDigit_of (h c List.mem_cons_self), ↓reduceIte]
    rw [ih h.tail]
    simp

theorem numLoop_any2 {ty : NumType} {ds : Bytes} (h : Digits ds) (acc u : Bytes) :
    numLoop .any2 ty acc (ds ++ u) = numLoop .any2 ty (acc ++ ds) u := by
  induction ds generalizing acc with
  | nil => simp
  | cons c ds ih =>
    rw [List.cons_append, numLoop]
    simp only [numStep, isDigit_of (h c List.mem_cons_self), ↓reduceIte]
    rw [ih h.tail]
    simp

/-- The accepting states. -/
def NumState.accepts : NumState → Bool
  | .zero | .any1 | .decimal2 | .any2 => true
  | _ => false

theorem numLoop_end {st : NumState} {ty : NumType} {acc rest : Bytes} (hst : st.accepts = true) (h : Ends rest) :
    numLoop st ty acc rest = some (ty, acc, rest) := by
  cases rest with
  | nil => cases st <;> first | rfl | exact absurd hst (by decide)
  | cons c rest =>
    obtain ⟨h1, h2, h3, h4⟩ := h c rfl
    unfold numLoop
    cases st <;> first | exact absurd hst (by decide) | simp [numStep, h1, h2, h3, h4]

/-- The state after the first digit. -/
def digitState (c : Nat) : NumState := if c = 48 then .zero else .any1

theorem digitState_accepts (c : Nat) : (digitState c).accepts = true := by
  unfold digitState; split <;> rfl

theorem numLoop_int {ty : NumType} {c : Nat} {ds : Bytes} (h : Numeral (c :: ds)) (acc u : Bytes) :
    numLoop (digitState c) ty acc (ds ++ u) = numLoop (digitState c) ty (acc ++ ds) u := by
  by_cases hc : c = 48
  · subst hc
    have := h.head rfl
    have : ds = [] := by simpa using this
    subst this
    simp
  · rw [digitState, if_neg hc]
    exact numLoop_any1 (fun d hd => h.digits d (List.mem_cons_of_mem _ hd)) _ _

/-- An exponent: its sign and its digits. -/
def expText : Option (Bool × Bytes) → Bytes
  | none => []
  | some (neg, ds) => 101 :: (if neg then 45 else 43) :: ds

/-- The value of an exponent. -/
def expVal : Option (Bool × Bytes) → Int
  | none => 0
  | some (neg, ds) => if neg then -(digitsValue ds : Int) else digitsValue ds

/-- The fraction with its point. -/
def fracText (frac : Bytes) : Bytes := if frac = [] then [] else 46 :: frac

/-- The exponent has digits. -/
def ExpOk (o : Option (Bool × Bytes)) : Prop := ∀ neg ds, o = some (neg, ds) → Digits ds ∧ ds ≠ []

theorem numLoop_exp {st : NumState} {ty : NumType} {o : Option (Bool × Bytes)} {acc rest : Bytes} (hst : st = .zero ∨ st = .any1 ∨ st = .decimal2)
    (ho : ExpOk o) (h : Ends rest) :
    numLoop st ty acc (expText o ++ rest) = some (if o = none then ty else .float, acc ++ expText o, rest) := by
  cases o with
  | none =>
    simp only [expText, List.nil_append, List.append_nil, ↓reduceIte]
    exact numLoop_end (by rcases hst with h | h | h <;> subst h <;> rfl) h
  | some p =>
    obtain ⟨neg, ds⟩ := p
    obtain ⟨hd, hne⟩ := ho neg ds rfl
    cases ds with
    | nil => exact absurd rfl hne
    | cons d ds =>
      have hdig := isDigit_of (hd d List.mem_cons_self)
      have e1 : isDigit 101 = false := rfl
      have step1 : numLoop st ty acc (expText (some (neg, d :: ds)) ++ rest) =
          numLoop .exponent .float (acc ++ [101]) ((if neg then 45 else 43) :: d :: ds ++ rest) := by
        simp only [expText, List.cons_append]
        rw [numLoop]
        rcases hst with h | h | h <;> subst h <;> simp [numStep, e1]
      rw [step1]
      have step2 : ∀ acc', numLoop .exponent .float acc' ((if neg then 45 else 43) :: d :: ds ++ rest) =
          numLoop .sign .float (acc' ++ [if neg then 45 else 43]) (d :: ds ++ rest) := by
        intro acc'
        simp only [List.cons_append]
        rw [numLoop]
        cases neg <;> simp [numStep]
      rw [step2]
      simp only [List.cons_append]
      rw [numLoop]
      simp only [numStep, hdig, ↓reduceIte]
      rw [numLoop_any2 hd.tail, numLoop_end rfl h]
      simp [expText]

theorem numLoop_text {ty : NumType} {c : Nat} {int frac : Bytes} {o : Option (Bool × Bytes)} {acc rest : Bytes} (hi : Numeral (c :: int))
    (hf : Digits frac) (ho : ExpOk o) (h : Ends rest) :
    numLoop (digitState c) ty acc (int ++ (fracText frac ++ (expText o ++ rest))) =
      some (if frac = [] ∧ o = none then ty else .float, acc ++ int ++ fracText frac ++ expText o, rest) := by
  rw [numLoop_int hi]
  have hds : digitState c = .zero ∨ digitState c = .any1 := by unfold digitState; split <;> simp
  cases frac with
  | nil =>
    simp only [fracText, ↓reduceIte, List.nil_append, List.append_nil]
    rw [numLoop_exp (by rcases hds with h | h <;> simp [h]) ho h]
    simp
  | cons d frac =>
    have hdig := isDigit_of (hf d List.mem_cons_self)
    have e1 : isDigit 46 = false := rfl
    simp only [fracText, List.cons_append]
    rw [if_neg (by simp)]
    simp only [List.cons_append]
    have step1 : ∀ acc', numLoop (digitState c) ty acc' (46 :: d :: (frac ++ (expText o ++ rest))) =
        numLoop .decimal1 .float (acc' ++ [46]) (d :: (frac ++ (expText o ++ rest))) := by
      intro acc'
      rw [numLoop]
      rcases hds with h | h <;> simp [h, numStep, e1]
    rw [step1, numLoop]
    simp only [numStep, hdig, ↓reduceIte]
    rw [numLoop_decimal2 hf.tail, numLoop_exp (by simp) ho h]
    simp

theorem takeWhile_digits {ds u : Bytes} (h : Digits ds) (hu : ∀ c, u.head? = some c → isDigit c = false) :
    (ds ++ u).takeWhile isDigit = ds ∧ (ds ++ u).dropWhile isDigit = u := by
  induction ds with
  | nil =>
    cases u with
    | nil => simp
    | cons c u => simp [hu c rfl]
  | cons c ds ih =>
    obtain ⟨h1, h2⟩ := ih h.tail
    simp [isDigit_of (h c List.mem_cons_self), h1, h2]

theorem exponentValue_text {neg : Bool} {ds : Bytes} : exponentValue ((if neg then 45 else 43) :: ds) = expVal (some (neg, ds)) := by
  cases neg <;> rfl

theorem decimalValue_text {int frac : Bytes} {o : Option (Bool × Bytes)} (hi : Digits int) (hf : Digits frac) :
    decimalValue (int ++ fracText frac ++ expText o) = (digitsValue (int ++ frac) : Rat) * pow10 (expVal o - frac.length) := by
  have hx : ∀ c, (expText o).head? = some c → isDigit c = false := by
    intro c hc
    cases o with
    | none => simp [expText] at hc
    | some p => simp [expText] at hc; subst hc; rfl
  have hx46 : (expText o).head? ≠ some 46 := by
    cases o with
    | none => simp [expText]
    | some p => simp [expText]
  have he : (if (expText o).head? = some 101 ∨ (expText o).head? = some 69 then exponentValue ((expText o).drop 1) else 0) = expVal o := by
    cases o with
    | none => simp [expText, expVal]
    | some p =>
      obtain ⟨neg, ds⟩ := p
      have : (expText (some (neg, ds))).head? = some 101 := rfl
      rw [if_pos (.inl this)]
      exact exponentValue_text
  unfold decimalValue
  cases frac with
  | nil =>
    simp only [fracText, ↓reduceIte, List.append_nil]
    obtain ⟨h1, h2⟩ := takeWhile_digits hi hx
    rw [h1, h2]
    simp only [hx46, ↓reduceIte]
    rw [he]
    simp
  | cons d frac =>
    have ef : fracText (d :: frac) = 46 :: d :: frac := rfl
    rw [ef]
    obtain ⟨h1, h2⟩ := takeWhile_digits (ds := int) (u := 46 :: d :: frac ++ expText o) hi (by intro c hc; simp at hc; subst hc; rfl)
    have e : int ++ 46 :: d :: frac ++ expText o = int ++ (46 :: d :: frac ++ expText o) := by simp
    rw [e, h1, h2]
    obtain ⟨h3, h4⟩ := takeWhile_digits (ds := d :: frac) (u := expText o) hf hx
    have e2 : (46 :: d :: frac ++ expText o).head? = some 46 := rfl
    have e3 : (46 :: d :: frac ++ expText o).drop 1 = d :: frac ++ expText o := rfl
    simp only [e2, ↓reduceIte, e3]
    rw [h3, h4, he]

/-- Reading a number with a fraction or an exponent. -/
theorem scanNumber_float {c : Nat} {int frac : Bytes} {o : Option (Bool × Bytes)} {rest : Bytes} (hi : Numeral (c :: int))
    (hf : Digits frac) (ho : ExpOk o) (h : Ends rest) (hx : frac ≠ [] ∨ o ≠ none) :
    scanNumber c (int ++ (fracText frac ++ (expText o ++ rest))) =
      (.float (f64 ((digitsValue (c :: int ++ frac) : Rat) * pow10 (expVal o - frac.length))), rest) := by
  have hc := hi.digits c List.mem_cons_self
  unfold scanNumber
  have e1 : (if c = 45 then NumState.minus else if c = 48 then .zero else .any1) = digitState c := if_neg (by omega)
  have e2 : (if c = 45 then NumType.integer else .unsigned) = .unsigned := if_neg (by omega)
  simp only [e1, e2]
  rw [numLoop_text hi hf ho h, if_neg (fun hn => hx.elim (fun h => h hn.1) (fun h => h hn.2))]
  simp only [numberToken]
  have e3 : [c] ++ int ++ fracText frac ++ expText o = (c :: int) ++ fracText frac ++ expText o := rfl
  rw [e3]
  have e4 : strtod ((c :: int) ++ fracText frac ++ expText o) = f64 (decimalValue ((c :: int) ++ fracText frac ++ expText o)) := by
    simp only [List.cons_append]
    unfold strtod
    split
    · rename_i h; simp at h; omega
    · rfl
  rw [e4, decimalValue_text hi.digits hf]

/-- The same after a minus sign. -/
theorem scanNumber_neg_float {c : Nat} {int frac : Bytes} {o : Option (Bool × Bytes)} {rest : Bytes} (hi : Numeral (c :: int))
    (hf : Digits frac) (ho : ExpOk o) (h : Ends rest) (hx : frac ≠ [] ∨ o ≠ none) :
    scanNumber 45 (c :: int ++ (fracText frac ++ (expText o ++ rest))) =
      (.float (f64 (-((digitsValue (c :: int ++ frac) : Rat) * pow10 (expVal o - frac.length)))), rest) := by
  have hc := hi.digits c List.mem_cons_self
  unfold scanNumber
  simp only [↓reduceIte, List.cons_append]
  rw [numLoop]
  have e1 : numStep .integer .minus (some c) = .next (digitState c) .integer := by
    simp only [numStep, digitState, isDigit_of hc]
    split <;> rfl
  rw [e1]
  dsimp only
  rw [numLoop_text hi hf ho h, if_neg (fun hn => hx.elim (fun h => h hn.1) (fun h => h hn.2))]
  simp only [numberToken]
  have e3 : [45] ++ [c] ++ int ++ fracText frac ++ expText o = 45 :: ((c :: int) ++ fracText frac ++ expText o) := rfl
  rw [e3]
  have e4 : strtod (45 :: ((c :: int) ++ fracText frac ++ expText o)) = f64 (-decimalValue ((c :: int) ++ fracText frac ++ expText o)) := rfl
  rw [e4, decimalValue_text hi.digits hf]
  rfl

/-- Reading a non-negative integer. -/
theorem scanNumber_nat {c : Nat} {int rest : Bytes} (hi : Numeral (c :: int)) (h : Ends rest) (hv : digitsValue (c :: int) ≤ 18446744073709551615) :
    scanNumber c (int ++ rest) = (.unsigned (digitsValue (c :: int)), rest) := by
  have hc := hi.digits c List.mem_cons_self
  unfold scanNumber
  have e1 : (if c = 45 then NumState.minus else if c = 48 then .zero else .any1) = digitState c := if_neg (by omega)
  have e2 : (if c = 45 then NumType.integer else .unsigned) = .unsigned := if_neg (by omega)
  simp only [e1, e2]
  have := numLoop_text (ty := .unsigned) (acc := [c]) (frac := []) (o := none) hi (by intro c hc; simp at hc) (by intro n d h; simp at h) h
  simp only [fracText, expText, ↓reduceIte, List.nil_append, List.append_nil, and_self] at this
  rw [this]
  simp only [numberToken, List.singleton_append]
  rw [if_pos hv]

/-- Reading a negative integer. -/
theorem scanNumber_neg {c : Nat} {int rest : Bytes} (hi : Numeral (c :: int)) (h : Ends rest) (hv : digitsValue (c :: int) ≤ 9223372036854775808) :
    scanNumber 45 (c :: int ++ rest) = (.integer (-(digitsValue (c :: int) : Int)), rest) := by
  have hc := hi.digits c List.mem_cons_self
  unfold scanNumber
  simp only [↓reduceIte, List.cons_append]
  rw [numLoop]
  have e1 : numStep .integer .minus (some c) = .next (digitState c) .integer := by
    simp only [numStep, digitState, isDigit_of hc]
    split <;> rfl
  rw [e1]
  dsimp only
  have := numLoop_text (ty := .integer) (acc := [45] ++ [c]) (frac := []) (o := none) hi (by intro c hc; simp at hc) (by intro n d h; simp at h) h
  simp only [fracText, expText, ↓reduceIte, List.nil_append, List.append_nil, and_self] at this
  rw [this]
  simp only [numberToken]
  have e2 : ([45] ++ [c] ++ int).drop 1 = c :: int := rfl
  rw [e2, if_pos hv]

end Tsetlini
