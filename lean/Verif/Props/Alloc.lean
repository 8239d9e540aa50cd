import Verif.Props.Bits
/-
C39: exactly which shapes have storage for every cell, and that a fit writes outside the storage
exactly for the others.  C37: what a new bit vector holds.
-/
namespace Tsetlini
open Res Spec

private theorem rowItems_wrap {M : NumericMatrix} {item cols : Nat} (hi : item = 1 ∨ item = 2 ∨ item = 4)
    (i : M.itemSize.toNat = item) (c : M.ncols.toNat = cols) (hf : ¬ cols * item + 63 < 4294967296) :
    M.rowItems.toNat < cols := by
  have hc := M.ncols.isLt
  unfold NumericMatrix.rowItems
  rw [BitVec.toNat_mul, BitVec.toNat_udiv, BitVec.toNat_udiv, BitVec.toNat_sub, BitVec.toNat_add, BitVec.toNat_mul, i, c]
  rw [c] at hc
  rcases hi with rfl | rfl | rfl <;> simp <;> omega

/-- The last cell of a shape whose size wraps lies outside the storage. -/
private theorem last_out {item rows cols : Nat} (hi : item = 1 ∨ item = 2 ∨ item = 4)
    (h1 : 1 ≤ rows) (h2 : 1 ≤ cols) (hr : rows < 4294967296) (hc : cols < 4294967296)
    (ha : ¬ (cols * item + 63 < 4294967296 ∧ paddedItems item cols * rows < 4294967296)) :
    numCell (NumericMatrix.make (.ofNat 32 item) (.ofNat 32 rows) (.ofNat 32 cols)) (rows - 1, cols - 1) = .ub .oob := by
  have i : (BitVec.ofNat 32 item).toNat = item := by simp; omega
  have r : (BitVec.ofNat 32 rows).toNat = rows := by simp; omega
  have c : (BitVec.ofNat 32 cols).toNat = cols := by simp; omega
  generalize hM : NumericMatrix.make (.ofNat 32 item) (.ofNat 32 rows) (.ofNat 32 cols) = M
  have hlen : M.v.length = M.rowItems.toNat * rows % 4294967296 := by
    subst hM
    simp only [NumericMatrix.make, List.length_replicate, BitVec.toNat_mul, r]
    rfl
  have hI : M.itemSize.toNat = item := by subst hM; exact i
  have hC : M.ncols.toNat = cols := by subst hM; exact c
  have hRl := M.rowItems.isLt
  have hidx : M.index (.ofNat 64 (rows - 1)) (.ofNat 64 (cols - 1)) = (rows - 1) * M.rowItems.toNat + (cols - 1) := by
    unfold NumericMatrix.index NumericMatrix.rowOffset
    rw [BitVec.toNat_mul, BitVec.toNat_setWidth]
    simp only [BitVec.toNat_ofNat]
    rw [Nat.mod_eq_of_lt (a := rows - 1) (by omega), Nat.mod_eq_of_lt (a := cols - 1) (by omega),
      Nat.mod_eq_of_lt (a := M.rowItems.toNat) (by omega)]
    have : (rows - 1) * M.rowItems.toNat ≤ 4294967296 * 4294967295 := Nat.mul_le_mul (by omega) (by omega)
    omega
  have hge : M.v.length ≤ M.index (.ofNat 64 (rows - 1)) (.ofNat 64 (cols - 1)) := by
    rw [hidx, hlen]
    have hsplit : M.rowItems.toNat * rows = (rows - 1) * M.rowItems.toNat + M.rowItems.toNat := by
      rw [Nat.mul_comm, ← Nat.add_one_mul]
      congr 1
      omega
    by_cases hf : cols * item + 63 < 4294967296
    · have hR := NumericMatrix.rowItems_eq hi hI hC hf
      have hbig : ¬ M.rowItems.toNat * rows < 4294967296 := by
        intro h
        rw [hR, ← paddedItems_eq hi] at h
        exact ha ⟨hf, h⟩
      omega
    · have := rowItems_wrap hi hI hC hf
      have hm := Nat.mod_le (M.rowItems.toNat * rows) 4294967296
      omega
  unfold numCell NumericMatrix.load rd
  rw [List.getElem?_eq_none hge]

/-- **C39**, exactness: every cell of a new `rows` by `cols` matrix of 1, 2 or 4 byte items lies in the
storage if and only if neither the bytes of a row nor the padded size of the matrix reach 2^32. -/
theorem C39_numeric_exact {item rows cols : Nat} (hi : item = 1 ∨ item = 2 ∨ item = 4)
    (h1 : 1 ≤ rows) (h2 : 1 ≤ cols) (hr : rows < 4294967296) (hc : cols < 4294967296) :
    (∀ q, InShape rows cols q →
      numCell (NumericMatrix.make (.ofNat 32 item) (.ofNat 32 rows) (.ofNat 32 cols)) q ≠ .ub .oob) ↔
    cols * item + 63 < 4294967296 ∧ paddedItems item cols * rows < 4294967296 := by
  constructor
  · intro h
    refine Decidable.byContradiction fun hn => h (rows - 1, cols - 1) ⟨?_, ?_⟩ (last_out hi h1 h2 hr hc hn)
    · show rows - 1 < rows; omega
    · show cols - 1 < cols; omega
  · rintro ⟨hf, hf2⟩ q hq e
    rw [(C39_numeric hi hr hf hf2).1 q hq] at e
    cases e

private theorem rowBlocks_wrap {rows cols : Nat} (hc : cols < 4294967296) (hf : ¬ cols + 511 < 4294967296) :
    (BitMatrix.make (.ofNat 32 rows) (.ofNat 32 cols)).rowBlocks.toNat = 0 := by
  have e1 : (64#32 * 8#32) = 512#32 := by decide
  have e2 : (64#32 / 8#32) = 8#32 := by decide
  have c : (BitVec.ofNat 32 cols).toNat = cols := by simp; omega
  simp only [BitMatrix.make]
  rw [e1, e2, BitVec.toNat_mul, BitVec.toNat_udiv, BitVec.toNat_sub, BitVec.toNat_add, c]
  simp
  omega

private theorem last_out_bits {rows cols : Nat}
    (h1 : 1 ≤ rows) (h2 : 1 ≤ cols) (hr : rows < 4294967296) (hc : cols < 4294967296)
    (ha : ¬ (cols + 511 < 4294967296 ∧ paddedBlocks cols * rows < 4294967296)) :
    bitCell (BitMatrix.make (.ofNat 32 rows) (.ofNat 32 cols)) (rows - 1, cols - 1) = .ub .oob := by
  have r : (BitVec.ofNat 32 rows).toNat = rows := by simp; omega
  have c : (BitVec.ofNat 32 cols).toNat = cols := by simp; omega
  have hz := @rowBlocks_wrap rows cols hc
  have hrb : cols + 511 < 4294967296 → (BitMatrix.make (.ofNat 32 rows) (.ofNat 32 cols)).rowBlocks.toNat = paddedBlocks cols := by
    intro hf
    have e1 : (64#32 * 8#32) = 512#32 := by decide
    have e2 : (64#32 / 8#32) = 8#32 := by decide
    simp only [BitMatrix.make]
    rw [e1, e2, BitVec.toNat_mul, BitVec.toNat_udiv, BitVec.toNat_sub, BitVec.toNat_add, c]
    unfold paddedBlocks
    simp
    omega
  have hlen : (BitMatrix.make (.ofNat 32 rows) (.ofNat 32 cols)).v.length =
      (BitMatrix.make (.ofNat 32 rows) (.ofNat 32 cols)).rowBlocks.toNat * rows % 4294967296 := by
    simp only [BitMatrix.make, List.length_replicate, BitVec.toNat_mul, r]
  generalize BitMatrix.make (.ofNat 32 rows) (.ofNat 32 cols) = M at hz hrb hlen ⊢
  have hRl := M.rowBlocks.isLt
  have hidx : M.index (.ofNat 64 (rows - 1)) (.ofNat 64 (cols - 1)) = (rows - 1) * M.rowBlocks.toNat + (cols - 1) / 64 := by
    unfold BitMatrix.index BitMatrix.rowOffset
    rw [BitVec.toNat_mul, BitVec.toNat_setWidth]
    simp only [BitVec.toNat_ofNat]
    rw [Nat.mod_eq_of_lt (a := rows - 1) (by omega), Nat.mod_eq_of_lt (a := cols - 1) (by omega),
      Nat.mod_eq_of_lt (a := M.rowBlocks.toNat) (by omega)]
    have : (rows - 1) * M.rowBlocks.toNat ≤ 4294967296 * 4294967295 := Nat.mul_le_mul (by omega) (by omega)
    omega
  have hge : M.v.length ≤ M.index (.ofNat 64 (rows - 1)) (.ofNat 64 (cols - 1)) := by
    rw [hidx, hlen]
    have hsplit : M.rowBlocks.toNat * rows = (rows - 1) * M.rowBlocks.toNat + M.rowBlocks.toNat := by
      rw [Nat.mul_comm, ← Nat.add_one_mul]
      congr 1
      omega
    by_cases hf : cols + 511 < 4294967296
    · have hbig : ¬ M.rowBlocks.toNat * rows < 4294967296 := by
        intro h
        rw [hrb hf] at h
        exact ha ⟨hf, h⟩
      omega
    · rw [hz hf]; simp
  unfold bitCell BitMatrix.test rd
  rw [List.getElem?_eq_none hge]
  rfl

/-- **C39**, exactness for bit matrices. -/
theorem C39_bits_exact {rows cols : Nat}
    (h1 : 1 ≤ rows) (h2 : 1 ≤ cols) (hr : rows < 4294967296) (hc : cols < 4294967296) :
    (∀ q, InShape rows cols q → bitCell (BitMatrix.make (.ofNat 32 rows) (.ofNat 32 cols)) q ≠ .ub .oob) ↔
    cols + 511 < 4294967296 ∧ paddedBlocks cols * rows < 4294967296 := by
  constructor
  · intro h
    refine Decidable.byContradiction fun hn => h (rows - 1, cols - 1) ⟨?_, ?_⟩ (last_out_bits h1 h2 hr hc hn)
    · show rows - 1 < rows; omega
    · show cols - 1 < cols; omega
  · rintro ⟨hf, hf2⟩ q hq e
    rw [(C37_matrix hr hf hf2).1 q hq] at e
    cases e

/-- A shape on either side of the limit: 2^26 - 1 and 2^26 rows of 49 counters of 4 bytes, with 64 items
per padded row, need less than and exactly 2^32 items. -/
example : (49 * 4 + 63 < 4294967296 ∧ paddedItems 4 49 * 67108863 < 4294967296) ∧
    ¬ (paddedItems 4 49 * 67108864 < 4294967296) ∧
    (600 + 511 < 4294967296 ∧ paddedBlocks 600 * 268435455 < 4294967296) ∧
    ¬ (paddedBlocks 600 * 268435456 < 4294967296) := by decide +kernel

private theorem bytes_cases (ct : CType) : ct.bytes = 1 ∨ ct.bytes = 2 ∨ ct.bytes = 4 := by
  cases ct <;> simp [CType.bytes]

variable {env : Env}

private theorem initRows_shape (ct : CType) (cols rows : Nat) (g : env.G) :
    (initRows env ct cols rows g).1.length = rows ∧ ∀ r ∈ (initRows env ct cols rows g).1, r.length = cols := by
  induction rows generalizing g with
  | zero => simp [initRows]
  | succ n ih =>
    have h := initRow_spec env cols g
    rw [← initRow_int32 env ct] at h
    simp only [initRows, List.length_cons, List.mem_cons]
    refine ⟨by rw [(ih _).1], ?_⟩
    rintro r (rfl | hr)
    · exact h.1
    · exact (ih _).2 r hr

private theorem allocOk_iff (ct : CType) {rows cols : Nat} : allocOk ct.bytes rows cols = true ↔
    cols * ct.bytes + 63 < 4294967296 ∧ paddedItems ct.bytes cols * rows < 4294967296 := by
  unfold allocOk
  rw [decide_eq_true_eq, paddedItems_eq (bytes_cases ct)]

private theorem numCell_or (M : NumericMatrix) (q : Nat × Nat) : numCell M q = .ub .oob ∨ ∃ v, numCell M q = .ok v := by
  unfold numCell NumericMatrix.load rd
  split
  · exact .inr ⟨_, rfl⟩
  · exact .inl rfl

/-- **C39**, as a classic fit meets it: if every cell of the counters has a place in their storage,
all are set up; setting them up is undefined behaviour exactly when some cell has none. -/
theorem C39_initialize_classic (ct : CType) {rows cols : Nat} (g : env.G)
    (h1 : 1 ≤ rows) (h2 : 1 ≤ cols) (hr : rows < 4294967296) (hc : cols < 4294967296) :
    ((∃ m g', classicInit env ct rows cols g = .ok (m, g') ∧ m.rows.length = rows ∧ ∀ r ∈ m.rows, r.length = cols) ↔
      ∀ q, InShape rows cols q → ∃ v,
        numCell (NumericMatrix.make (.ofNat 32 ct.bytes) (.ofNat 32 rows) (.ofNat 32 cols)) q = .ok v) ∧
    (classicInit env ct rows cols g = .ub .oob ↔
      ∃ q, InShape rows cols q ∧
        numCell (NumericMatrix.make (.ofNat 32 ct.bytes) (.ofNat 32 rows) (.ofNat 32 cols)) q = .ub .oob) := by
  have hx := C39_numeric_exact (bytes_cases ct) h1 h2 hr hc
  rw [← allocOk_iff] at hx
  have hs := initRows_shape (env := env) ct cols rows g
  unfold classicInit
  cases ha : allocOk ct.bytes rows cols with
  | true =>
    have hall := hx.2 ha
    refine ⟨⟨fun _ q hq => ?_, fun _ => ⟨_, _, rfl, hs.1, hs.2⟩⟩, ⟨fun e => ?_, ?_⟩⟩
    · rcases numCell_or (NumericMatrix.make (.ofNat 32 ct.bytes) (.ofNat 32 rows) (.ofNat 32 cols)) q with h | h
      · exact absurd h (hall q hq)
      · exact h
    · cases e
    · rintro ⟨q, hq, e⟩
      exact absurd e (hall q hq)
  | false =>
    have hne : ¬ ∀ q, InShape rows cols q →
        numCell (NumericMatrix.make (.ofNat 32 ct.bytes) (.ofNat 32 rows) (.ofNat 32 cols)) q ≠ .ub .oob := by
      intro h
      rw [hx.1 h] at ha
      cases ha
    refine ⟨⟨?_, fun h => ?_⟩, ⟨fun _ => ?_, fun _ => rfl⟩⟩
    · rintro ⟨m, g', e, -⟩
      cases e
    · refine absurd (fun q hq => ?_) hne
      obtain ⟨v, hv⟩ := h q hq
      rw [hv]
      intro e
      cases e
    · apply Classical.byContradiction
      intro hno
      exact hne fun q hq e => hno ⟨q, hq, e⟩

private theorem bitAllocOk_iff {rows cols : Nat} : bitAllocOk rows cols = true ↔
    cols + 511 < 4294967296 ∧ paddedBlocks cols * rows < 4294967296 := by
  unfold bitAllocOk
  rw [decide_eq_true_eq]
  rfl

/-- **C39**, as a bitwise fit meets it: setting up the automata is undefined behaviour exactly when
some cell of the counters or of the polarity bits has no place in its storage, and succeeds otherwise. -/
theorem C39_initialize_bitwise (ct : CType) {rows cols : Nat} (g : env.G)
    (h1 : 1 ≤ rows) (h2 : 1 ≤ cols) (hr : rows < 4294967296) (hc : cols < 4294967296) :
    (bitwiseInit env ct rows cols g = .ub .oob ↔
      ∃ q, InShape rows cols q ∧
        (numCell (NumericMatrix.make (.ofNat 32 ct.bytes) (.ofNat 32 rows) (.ofNat 32 cols)) q = .ub .oob ∨
         bitCell (BitMatrix.make (.ofNat 32 rows) (.ofNat 32 cols)) q = .ub .oob)) ∧
    ((∃ r, bitwiseInit env ct rows cols g = .ok r) ∨ bitwiseInit env ct rows cols g = .ub .oob) := by
  obtain ⟨hA, hB⟩ := C39_initialize_classic (env := env) ct g h1 h2 hr hc
  have hx := C39_bits_exact h1 h2 hr hc
  rw [← bitAllocOk_iff] at hx
  unfold bitwiseInit
  by_cases hu : classicInit env ct rows cols g = .ub .oob
  · obtain ⟨q, hq, e⟩ := hB.1 hu
    rw [hu]
    exact ⟨⟨fun _ => ⟨q, hq, .inl e⟩, fun _ => rfl⟩, .inr rfl⟩
  · have hnum : ∀ q, InShape rows cols q →
        numCell (NumericMatrix.make (.ofNat 32 ct.bytes) (.ofNat 32 rows) (.ofNat 32 cols)) q ≠ .ub .oob :=
      fun q hq e => hu (hB.2 ⟨q, hq, e⟩)
    obtain ⟨m, g', e, hl, hr'⟩ := hA.2 fun q hq => (numCell_or _ q).resolve_left (hnum q hq)
    rw [e]
    dsimp only [ok_bind]
    cases hb : bitAllocOk rows cols with
    | true =>
      obtain ⟨pol, e2, -⟩ := initPol_ret cols m.rows hr'
      show ((initPol (rowBlocks cols) m.rows).bind _ = _ ↔ _) ∧ ((∃ r, (initPol (rowBlocks cols) m.rows).bind _ = .ok r) ∨ _)
      rw [e2]
      refine ⟨⟨fun e => ?_, ?_⟩, .inl ⟨_, rfl⟩⟩
      · cases e
      · rintro ⟨q, hq, h | h⟩
        · exact absurd h (hnum q hq)
        · exact absurd h (hx.2 hb q hq)
    | false =>
      refine ⟨⟨fun _ => ?_, fun _ => rfl⟩, .inr rfl⟩
      apply Classical.byContradiction
      intro hno
      rw [hx.1 fun q hq e => hno ⟨q, hq, .inr e⟩] at hb
      cases hb

/-- 6 rows of 70 counters have storage, whatever their type. -/
example : (∀ ct : CType, ∀ g, ∃ m g', classicInit Toy.env ct 6 70 g = .ok (m, g') ∧ m.rows.length = 6 ∧
    ∀ r ∈ m.rows, r.length = 70) ∧
    (∀ g, classicInit Toy.env .int32 268435456 16 g = .ub .oob) := by
  refine ⟨fun ct g => ?_, fun g => ?_⟩
  · refine (C39_initialize_classic ct g (by omega) (by omega) (by omega) (by omega)).1.2 ?_
    intro q hq
    refine (numCell_or _ q).resolve_left ((C39_numeric_exact (bytes_cases ct) ?_ ?_ ?_ ?_).2 ?_ q hq) <;> try omega
    cases ct <;> decide
  · exact (C39_initialize_classic .int32 g (by omega) (by omega) (by omega) (by omega)).2.2
      ⟨(0, 0), ⟨by decide, by decide⟩, C39_wraps.2.1⟩

/-! ### C37: new vectors -/

/-- **C37**, a new bit vector of length `n` has storage for its `n` bits, at most 63 more, and reads as 0
at every position below `n`; one made from given blocks has these as its bits, and a `size()` of the
requested length where the blocks suffice, otherwise all of their bits. -/
theorem C37_new (n : Nat) (v : List Block) :
    ((BitVector.ofLen n).len = n ∧ n ≤ (BitVector.ofLen n).blocks.length * 64 ∧
      (BitVector.ofLen n).blocks.length * 64 < n + 64 ∧
      ∀ pos, pos < n → bitTest (BitVector.ofLen n).blocks pos = .ok false) ∧
    ((BitVector.ofBlocks n v).blocks = v ∧ (BitVector.ofBlocks n v).len ≤ n ∧
      (BitVector.ofBlocks n v).len ≤ v.length * 64 ∧
      (n ≤ v.length * 64 → (BitVector.ofBlocks n v).len = n) ∧
      (v.length * 64 ≤ n → (BitVector.ofBlocks n v).len = v.length * 64) ∧
      ∀ pos, pos < (BitVector.ofBlocks n v).len → bitTest (BitVector.ofBlocks n v).blocks pos = .ok (bitAt v pos)) := by
  simp only [BitVector.ofLen, BitVector.ofBlocks, List.length_replicate, true_and]
  refine ⟨⟨by omega, by omega, fun pos hp => ?_⟩, by omega, by omega, by omega, by omega, fun pos hp => ?_⟩
  · rw [bitTest_ok (by simp; omega)]
    simp [bitAt, List.getD, List.getElem?_replicate]
    split <;> simp
  · exact bitTest_ok (by omega)

/-- 70 bits asked for, one block given. -/
example : (BitVector.ofLen 70).blocks = [0, 0] ∧ (BitVector.ofBlocks 70 [5]).len = 64 ∧
    bitTest (BitVector.ofBlocks 70 [5]).blocks 2 = .ok true := by decide +kernel

/-- **C37**, the content of a vector is `content_blocks()` blocks, the last with `tail_bits()` bits of it
where that is not 0. -/
theorem C37_content (v : BitVector) : v.tailBits < 64 ∧
    v.len = if v.tailBits = 0 then 64 * v.contentBlocks else 64 * (v.contentBlocks - 1) + v.tailBits := by
  unfold BitVector.tailBits BitVector.contentBlocks
  split <;> omega

example : (BitVector.ofLen 70).contentBlocks = 2 ∧ (BitVector.ofLen 70).tailBits = 6 := by decide

end Tsetlini
