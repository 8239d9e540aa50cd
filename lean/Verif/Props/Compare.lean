import Verif.Spec.Compare
import Verif.Props.Bits
/-
C82: matrices compare equal exactly if their shapes and cells are equal.
-/
namespace Tsetlini
open Res Spec

/-! ### Numeric matrices -/

/-- A numeric matrix in shape whose padding items are 0 (an empty one may have any row size). -/
private structure Clean (item rows cols : Nat) (M : NumericMatrix) : Prop where
  ok : M.Ok item rows cols
  pad : ∀ r c, r < rows → cols ≤ c → c < rowItems item cols → M.v[r * rowItems item cols + c]? = some 0

private theorem empty_clean {item : Nat} (hi : item = 1 ∨ item = 2 ∨ item = 4) : Clean item 0 0 ⟨.ofNat 32 item, 0#32, 0#32, []⟩ := by
  refine ⟨⟨hi, by rcases hi with rfl | rfl | rfl <;> rfl, rfl, rfl, by omega, by simp, by simp⟩, fun r c h => by omega⟩

private theorem Clean.item_eq {item rows cols : Nat} {M : NumericMatrix} (h : Clean item rows cols M) : M.itemSize = .ofNat 32 item := by
  apply BitVec.eq_of_toNat_eq
  rw [h.ok.i]
  rcases h.ok.w with rfl | rfl | rfl <;> rfl

private theorem Spec.BuiltNumbers.clean {item rows cols : Nat} {M : NumericMatrix} (h : BuiltNumbers item rows cols M)
    (hi : item = 1 ∨ item = 2 ∨ item = 4) : Clean item rows cols M := by
  induction h with
  | default => exact empty_clean hi
  | @new rows cols h1 h2 h3 =>
    have hk := NumericMatrix.make_ok hi h1 h2 (by rw [← paddedItems_eq hi]; exact h3)
    refine ⟨hk, fun r c hr _ hc => ?_⟩
    have hlt := flat_lt hr hc
    rw [← hk.len] at hlt
    rw [List.getElem?_eq_getElem hlt]
    simp [NumericMatrix.make]
  | @store rows cols r c M M' x _ hr hc e ih =>
    obtain ⟨M2, e2, hok, -⟩ := NumericMatrix.store_load ih.ok hr hc x
    rw [e] at e2
    injection e2 with e2
    subst e2
    refine ⟨hok, fun r' c' hr' hc1 hc2 => ?_⟩
    have hg := rowItems_ge (cols := cols) ih.ok.w
    have hb := rowItems_lt ih.ok.w ih.ok.fit1
    have hlt := flat_lt (w := Tsetlini.rowItems item cols) hr (c := c) (by omega)
    unfold NumericMatrix.store at e
    rw [NumericMatrix.index_eq ih.ok hr (by omega), wr_ok (by rw [ih.ok.len]; exact hlt), ok_bind] at e
    have e := Res.ok.inj e
    subst e
    have hne : r * Tsetlini.rowItems item cols + c ≠ r' * Tsetlini.rowItems item cols + c' := by
      intro hq
      have := flat_inj (by omega) (by omega) hq
      omega
    dsimp only
    rw [List.getElem?_set_ne hne]
    exact ih.pad r' c' hr' hc1 hc2
  | copy _ ih => exact ih
  | move _ ih => exact ih
  | moved _ ih =>
    have := empty_clean hi
    rw [← ih.item_eq] at this
    exact this
  | assign _ _ ih ih' =>
    have : ∀ {a b : BitVec 32}, a = b → ∀ {p q : BitVec 32} {v : List Int} {rows cols : Nat}, Clean item rows cols ⟨a, p, q, v⟩ → Clean item rows cols ⟨b, p, q, v⟩ := by
      rintro a b rfl p q v rows cols h; exact h
    exact this (ih.item_eq.trans ih'.item_eq.symm) ih
  | assignMove _ _ ih ih' =>
    have : ∀ {a b : BitVec 32}, a = b → ∀ {p q : BitVec 32} {v : List Int} {rows cols : Nat}, Clean item rows cols ⟨a, p, q, v⟩ → Clean item rows cols ⟨b, p, q, v⟩ := by
      rintro a b rfl p q v rows cols h; exact h
    exact this (ih.item_eq.trans ih'.item_eq.symm) ih
  | assignMoved _ _ ih _ =>
    have := empty_clean hi
    rw [← ih.item_eq] at this
    exact this

private theorem flat_split {w rows i : Nat} (h : i < w * rows) : ∃ r c, r < rows ∧ c < w ∧ i = r * w + c := by
  have hw : 0 < w := by
    rcases Nat.eq_zero_or_pos w with h0 | h0
    · subst h0; simp at h
    · exact h0
  refine ⟨i / w, i % w, ?_, Nat.mod_lt _ hw, ?_⟩
  · exact Nat.div_lt_of_lt_mul h
  · rw [Nat.mul_comm]; exact (Nat.div_add_mod i w).symm

private theorem Clean.cell {item rows cols : Nat} {M : NumericMatrix} (h : Clean item rows cols M) {r c : Nat} (hr : r < rows) (hc : c < cols) :
    ∃ x, numCell M (r, c) = .ok x ∧ M.v[r * rowItems item cols + c]? = some x := by
  have hg := rowItems_ge (cols := cols) h.ok.w
  have hb := rowItems_lt h.ok.w h.ok.fit1
  have hlt := flat_lt (w := Tsetlini.rowItems item cols) hr (c := c) (by omega)
  rw [← h.ok.len] at hlt
  refine ⟨_, ?_, List.getElem?_eq_getElem hlt⟩
  unfold numCell NumericMatrix.load
  dsimp only
  rw [NumericMatrix.index_eq h.ok hr (by omega), rd_ok hlt]

private theorem Clean.eq {item rows cols rows' cols' : Nat} {M M' : NumericMatrix} (h : Clean item rows cols M) (h' : Clean item rows' cols' M') :
    M.cppEq M' = true ↔ rows = rows' ∧ cols = cols' ∧ ∀ q, InShape rows cols q → numCell M q = numCell M' q := by
  unfold NumericMatrix.cppEq
  simp only [Bool.and_eq_true, beq_iff_eq]
  constructor
  · rintro ⟨⟨e1, e2⟩, e3⟩
    have hr : rows = rows' := by rw [← h.ok.r, ← h'.ok.r, e1]
    have hc : cols = cols' := by rw [← h.ok.c, ← h'.ok.c, e2]
    refine ⟨hr, hc, fun q hq => ?_⟩
    subst hr hc
    obtain ⟨x, a1, a2⟩ := h.cell hq.1 hq.2
    obtain ⟨y, b1, b2⟩ := h'.cell hq.1 hq.2
    rw [e3, b2] at a2
    injection a2 with a2
    exact a1.trans (a2 ▸ b1.symm)
  · rintro ⟨rfl, rfl, hq⟩
    refine ⟨⟨BitVec.eq_of_toNat_eq (h.ok.r.trans h'.ok.r.symm), BitVec.eq_of_toNat_eq (h.ok.c.trans h'.ok.c.symm)⟩, ?_⟩
    apply List.ext_getElem?
    intro i
    by_cases hi : i < rowItems item cols * rows
    · obtain ⟨r, c, hr, hc, rfl⟩ := flat_split hi
      by_cases hcc : c < cols
      · obtain ⟨x, a1, a2⟩ := h.cell hr hcc
        obtain ⟨y, b1, b2⟩ := h'.cell hr hcc
        have := hq (r, c) ⟨hr, hcc⟩
        rw [a1, b1] at this
        rw [a2, b2, Res.ok.inj this]
      · rw [h.pad r c hr (by omega) hc, h'.pad r c hr (by omega) hc]
    · rw [List.getElem?_eq_none (by rw [h.ok.len]; omega), List.getElem?_eq_none (by rw [h'.ok.len]; omega)]

/-- **C82**, numeric matrices of 1, 2 or 4 byte items, however each was built: `==` yields true exactly if the shapes are equal
and every cell reads the same. -/
theorem C82_numbers {item rows cols rows' cols' : Nat} {M M' : NumericMatrix} (hi : item = 1 ∨ item = 2 ∨ item = 4)
    (h : BuiltNumbers item rows cols M) (h' : BuiltNumbers item rows' cols' M') :
    M.cppEq M' = true ↔ rows = rows' ∧ cols = cols' ∧ ∀ q, InShape rows cols q → numCell M q = numCell M' q :=
  (h.clean hi).eq (h'.clean hi)

/-! ### Bit matrices -/

/-- A bit matrix in shape whose padding bits are 0. -/
private structure CleanBits (rows cols : Nat) (M : BitMatrix) : Prop where
  r : M.nrows.toNat = rows
  c : M.ncols.toNat = cols
  ok : 0 < rows → M.Ok rows cols
  nil : rows = 0 → M.v = []
  pad : ∀ r c, r < rows → cols ≤ c → c / 64 < rowBlocks cols → (M.v.getD (r * rowBlocks cols + c / 64) 0#64).getLsbD (c % 64) = false

private theorem bits_op {M M' : BitMatrix} {rows cols r c : Nat} (h : CleanBits rows cols M) (hr : r < rows) (hc : c < cols)
    (op : Block → Block) (new : Bool → Bool)
    (hop : ∀ b : Block, ∀ i, i < 64 → (op b).getLsbD i = if i = c % 64 then new (b.getLsbD i) else b.getLsbD i)
    (e : M.modify (.ofNat 64 r) (.ofNat 64 c) op = .ok M') : CleanBits rows cols M' := by
  have hk := h.ok (by omega)
  have hf := hk.fit1
  obtain ⟨M2, e2, hok, -⟩ := BitMatrix.modify_test hk hr hc op new hop
  rw [e] at e2
  have e2 := Res.ok.inj e2
  subst e2
  refine ⟨hok.r, hok.c, fun _ => hok, fun h0 => by omega, fun r' c' hr' hc1 hc2 => ?_⟩
  have hlt : r * Tsetlini.rowBlocks cols + c / 64 < M.v.length := by
    rw [hk.len]; exact flat_lt hr (rowBlocks_ge hc)
  have hi := BitMatrix.index_eq hk hr (c := c) (by omega)
  unfold BitMatrix.modify at e
  rw [hi, rd_ok hlt] at e
  simp only [ok_bind] at e
  rw [wr_ok hlt] at e
  have e := Res.ok.inj e
  have hv : M'.v = M.v.set (r * Tsetlini.rowBlocks cols + c / 64) (op (M.v[r * Tsetlini.rowBlocks cols + c / 64])) := by rw [← e]
  have hp := h.pad r' c' hr' hc1 hc2
  rw [hv]
  by_cases hq : r' * Tsetlini.rowBlocks cols + c' / 64 = r * Tsetlini.rowBlocks cols + c / 64
  · obtain ⟨rfl, hc3⟩ := flat_inj hc2 (rowBlocks_ge hc) hq
    rw [hq] at hp ⊢
    simp only [List.getD_eq_getElem?_getD, List.getElem?_set_self hlt, Option.getD_some, List.getElem?_eq_getElem hlt] at hp ⊢
    rw [hop _ _ (by omega), if_neg (by omega)]
    exact hp
  · simp only [List.getD_eq_getElem?_getD, List.getElem?_set_ne (Ne.symm hq)] at hp ⊢
    exact hp

private theorem bset (c : Nat) (hc : c < 18446744073709551616) (b : Block) (i : Nat) (hi : i < 64) :
    (b ||| setMask (BitVec.ofNat 64 c).toNat).getLsbD i = if i = c % 64 then true else b.getLsbD i := by
  rw [BitVec.getLsbD_or, setMask_getLsbD _ _ hi, BitVec.toNat_ofNat, Nat.mod_eq_of_lt hc]
  by_cases h : i = c % 64 <;> simp [h]

private theorem bclear (c : Nat) (hc : c < 18446744073709551616) (b : Block) (i : Nat) (hi : i < 64) :
    (b &&& clearMask (BitVec.ofNat 64 c).toNat).getLsbD i = if i = c % 64 then false else b.getLsbD i := by
  rw [BitVec.getLsbD_and, clearMask, BitVec.getLsbD_not, setMask_getLsbD _ _ hi, BitVec.toNat_ofNat, Nat.mod_eq_of_lt hc]
  by_cases h : i = c % 64 <;> simp [h, hi]

private theorem bflip (c : Nat) (hc : c < 18446744073709551616) (b : Block) (i : Nat) (hi : i < 64) :
    (b ^^^ setMask (BitVec.ofNat 64 c).toNat).getLsbD i = if i = c % 64 then !(b.getLsbD i) else b.getLsbD i := by
  rw [BitVec.getLsbD_xor, setMask_getLsbD _ _ hi, BitVec.toNat_ofNat, Nat.mod_eq_of_lt hc]
  by_cases h : i = c % 64 <;> simp [h]

private theorem bits_empty (rb : BitVec 32) : CleanBits 0 0 ⟨0#32, 0#32, rb, []⟩ :=
  ⟨rfl, rfl, fun h => by omega, fun _ => rfl, fun r c h => by omega⟩

private theorem CleanBits.small {rows cols : Nat} {M : BitMatrix} (h : CleanBits rows cols M) : cols < 18446744073709551616 := by
  have := M.ncols.isLt
  rw [← h.c]; omega

private theorem Spec.BuiltBits.clean {rows cols : Nat} {M : BitMatrix} (h : BuiltBits rows cols M) : CleanBits rows cols M := by
  induction h with
  | default => exact bits_empty _
  | @new rows cols h1 h2 h3 =>
    have hk := BitMatrix.make_ok h1 h2 h3
    refine ⟨hk.r, hk.c, fun _ => hk, fun h0 => List.length_eq_zero_iff.1 (by rw [hk.len, h0, Nat.mul_zero]), fun r c hr _ hc => ?_⟩
    simp only [BitMatrix.make, List.getD_eq_getElem?_getD, List.getElem?_replicate]
    split <;> simp
  | set _ hr hc e ih => have := ih.small; exact bits_op ih hr hc _ (fun _ => true) (bset _ (by omega)) e
  | clear _ hr hc e ih => have := ih.small; exact bits_op ih hr hc _ (fun _ => false) (bclear _ (by omega)) e
  | flip _ hr hc e ih => have := ih.small; exact bits_op ih hr hc _ (fun b => !b) (bflip _ (by omega)) e
  | copy _ ih => exact ih
  | move _ ih => exact ih
  | moved _ ih => exact bits_empty _
  | assign _ _ ih ih' => exact ih
  | assignMove _ _ ih ih' => exact ih
  | assignMoved _ _ ih _ => exact bits_empty _

private theorem CleanBits.eq {rows cols rows' cols' : Nat} {M M' : BitMatrix} (h : CleanBits rows cols M) (h' : CleanBits rows' cols' M') :
    M.cppEq M' = true ↔ rows = rows' ∧ cols = cols' ∧ ∀ q, InShape rows cols q → bitCell M q = bitCell M' q := by
  unfold BitMatrix.cppEq
  simp only [Bool.and_eq_true, beq_iff_eq]
  constructor
  · rintro ⟨⟨e1, e2⟩, e3⟩
    have hr : rows = rows' := by rw [← h.r, ← h'.r, e1]
    have hc : cols = cols' := by rw [← h.c, ← h'.c, e2]
    refine ⟨hr, hc, fun q hq => ?_⟩
    subst hr hc
    have h0 : 0 < rows := Nat.lt_of_le_of_lt (Nat.zero_le _) hq.1
    unfold bitCell
    rw [BitMatrix.test_eq (h.ok h0) hq.1 hq.2, BitMatrix.test_eq (h'.ok h0) hq.1 hq.2, e3]
  · rintro ⟨rfl, rfl, hq⟩
    refine ⟨⟨BitVec.eq_of_toNat_eq (h.r.trans h'.r.symm), BitVec.eq_of_toNat_eq (h.c.trans h'.c.symm)⟩, ?_⟩
    rcases Nat.eq_zero_or_pos rows with h0 | h0
    · rw [h.nil h0, h'.nil h0]
    have hk := h.ok h0
    have hk' := h'.ok h0
    apply List.ext_getElem?
    intro i
    by_cases hi : i < rowBlocks cols * rows
    · obtain ⟨r, b, hr, hb, rfl⟩ := flat_split hi
      rw [List.getElem?_eq_getElem (by rw [hk.len]; exact hi), List.getElem?_eq_getElem (by rw [hk'.len]; exact hi)]
      congr 1
      apply BitVec.eq_of_getLsbD_eq
      intro j hj
      have e1 : (b * 64 + j) / 64 = b := by omega
      have e2 : (b * 64 + j) % 64 = j := by omega
      have key : (M.v.getD (r * rowBlocks cols + b) 0#64).getLsbD j = (M'.v.getD (r * rowBlocks cols + b) 0#64).getLsbD j := by
        by_cases hc : b * 64 + j < cols
        · have := hq (r, b * 64 + j) ⟨hr, hc⟩
          unfold bitCell at this
          rw [BitMatrix.test_eq hk hr hc, BitMatrix.test_eq hk' hr hc] at this
          have := Res.ok.inj this
          rw [e1, e2] at this
          exact this
        · have p1 := h.pad r (b * 64 + j) hr (by omega) (by omega)
          have p2 := h'.pad r (b * 64 + j) hr (by omega) (by omega)
          rw [e1, e2] at p1 p2
          rw [p1, p2]
      simp only [List.getD_eq_getElem?_getD] at key
      rw [List.getElem?_eq_getElem (by rw [hk.len]; exact hi), List.getElem?_eq_getElem (by rw [hk'.len]; exact hi)] at key
      exact key
    · rw [List.getElem?_eq_none (by rw [hk.len]; omega), List.getElem?_eq_none (by rw [hk'.len]; omega)]

/-- **C82**, bit matrices, however each was built: `==`, which does not look at the cached row size, yields true exactly if the
shapes are equal and every bit reads the same. -/
theorem C82_bits {rows cols rows' cols' : Nat} {M M' : BitMatrix} (h : BuiltBits rows cols M) (h' : BuiltBits rows' cols' M') :
    M.cppEq M' = true ↔ rows = rows' ∧ cols = cols' ∧ ∀ q, InShape rows cols q → bitCell M q = bitCell M' q :=
  h.clean.eq h'.clean

/-! ### Tables -/

private theorem table_eq {α : Type} {rows cols : Nat} {f g : Nat × Nat → Res α} {T U : List (List α)}
    (hT : HoldsTable rows cols f T) (hU : HoldsTable rows cols g U) :
    (∀ q, InShape rows cols q → f q = g q) ↔ T = U := by
  constructor
  · intro h
    apply List.ext_getElem (hT.1.trans hU.1.symm)
    intro r h1 h2
    have l1 := hT.2.1 _ (List.getElem_mem h1)
    have l2 := hU.2.1 _ (List.getElem_mem h2)
    apply List.ext_getElem (l1.trans l2.symm)
    intro c h3 h4
    have a := hT.2.2 r c _ _ (List.getElem?_eq_getElem h1) (List.getElem?_eq_getElem h3)
    have b := hU.2.2 r c _ _ (List.getElem?_eq_getElem h2) (List.getElem?_eq_getElem h4)
    have := h (r, c) ⟨by rw [← hT.1]; exact h1, by rw [← l1]; exact h3⟩
    rw [a, b] at this
    exact Res.ok.inj this
  · rintro rfl ⟨r, c⟩ ⟨h1, h2⟩
    dsimp only at h1 h2
    rw [← hT.1] at h1
    have l1 := hT.2.1 _ (List.getElem_mem h1)
    rw [← l1] at h2
    exact (hT.2.2 r c _ _ (List.getElem?_eq_getElem h1) (List.getElem?_eq_getElem h2)).trans
      (hU.2.2 r c _ _ (List.getElem?_eq_getElem h1) (List.getElem?_eq_getElem h2)).symm

/-- **C82**, as the comparison of estimators (C40) uses it: matrices of one shape that hold tables of counters are `==` exactly if
the tables are equal, and likewise matrices of polarities. -/
theorem C82_tables {rows cols : Nat} :
    (∀ {item : Nat} {M M' : NumericMatrix} {T T' : List (List Int)}, item = 1 ∨ item = 2 ∨ item = 4 →
      BuiltNumbers item rows cols M → BuiltNumbers item rows cols M' →
      HoldsTable rows cols (numCell M) T → HoldsTable rows cols (numCell M') T' → (M.cppEq M' = true ↔ T = T')) ∧
    ∀ {M M' : BitMatrix} {T T' : List (List Bool)}, BuiltBits rows cols M → BuiltBits rows cols M' →
      HoldsTable rows cols (bitCell M) T → HoldsTable rows cols (bitCell M') T' → (M.cppEq M' = true ↔ T = T') := by
  refine ⟨fun hi h h' hT hT' => ?_, fun h h' hT hT' => ?_⟩
  · rw [C82_numbers hi h h', ← table_eq hT hT']
    simp
  · rw [C82_bits h h', ← table_eq hT hT']
    simp

/-- A matrix of 2 by 2 counters after one write, and its table. -/
example : ∃ M, (NumericMatrix.make 4 2 2).store 1 0 9 = .ok M ∧ BuiltNumbers 4 2 2 M ∧ HoldsTable 2 2 (numCell M) [[0, 0], [9, 0]] := by
  refine ⟨_, rfl, .store (r := 1) (c := 0) (.new (by decide) (by decide) (by decide)) (by decide) (by decide) rfl, rfl, by simp, ?_⟩
  intro r c row x h1 h2
  match r, c with
  | 0, 0 | 0, 1 | 1, 0 | 1, 1 =>
    simp only [List.getElem?_cons_zero, List.getElem?_cons_succ, Option.some.injEq] at h1
    subst h1
    simp only [List.getElem?_cons_zero, List.getElem?_cons_succ, Option.some.injEq] at h2
    subst h2
    decide +kernel
  | 0, c + 2 | 1, c + 2 =>
    simp only [List.getElem?_cons_zero, List.getElem?_cons_succ, Option.some.injEq] at h1
    subst h1
    simp at h2
  | r + 2, c => simp at h1

/-! ### Copies and moves -/

/-- **C82**, copies and moves: a copy, a matrix constructed or assigned by copying or by moving equals what the source was; what
is left of the source of a move equals a default-constructed matrix. -/
theorem C82_copies {item rows cols rows' cols' : Nat} {M N : NumericMatrix} (hi : item = 1 ∨ item = 2 ∨ item = 4)
    (h : BuiltNumbers item rows cols M) (h' : BuiltNumbers item rows' cols' N)
    {P Q : BitMatrix} (hP : BuiltBits rows cols P) (hQ : BuiltBits rows' cols' Q) :
    (∀ K ∈ [M.copy, M.move.1, N.assign M, (N.assignMove M).1], K.cppEq M = true ∧ ∀ q, InShape rows cols q → numCell K q = numCell M q) ∧
    (∀ K ∈ [M.move.2, (N.assignMove M).2], K.cppEq (.empty (.ofNat 32 item)) = true) ∧
    (∀ K ∈ [P.copy, P.move.1, Q.assign P, (Q.assignMove P).1], K.cppEq P = true ∧ ∀ q, InShape rows cols q → bitCell K q = bitCell P q) ∧
    (∀ K ∈ [P.move.2, (Q.assignMove P).2], K.cppEq .empty = true) := by
  have hv : ∀ {K : NumericMatrix}, BuiltNumbers item rows cols K → K.nrows = M.nrows → K.ncols = M.ncols → K.v = M.v →
      K.cppEq M = true ∧ ∀ q, InShape rows cols q → numCell K q = numCell M q := by
    intro K hK e1 e2 e3
    have e : K.cppEq M = true := by simp [NumericMatrix.cppEq, e1, e2, e3]
    exact ⟨e, ((C82_numbers hi hK h).1 e).2.2⟩
  have hb : ∀ {K : BitMatrix}, BuiltBits rows cols K → K.nrows = P.nrows → K.ncols = P.ncols → K.v = P.v →
      K.cppEq P = true ∧ ∀ q, InShape rows cols q → bitCell K q = bitCell P q := by
    intro K hK e1 e2 e3
    have e : K.cppEq P = true := by simp [BitMatrix.cppEq, e1, e2, e3]
    exact ⟨e, ((C82_bits hK hP).1 e).2.2⟩
  refine ⟨fun K hK => ?_, fun K hK => ?_, fun K hK => ?_, fun K hK => ?_⟩ <;>
    simp only [List.mem_cons, List.not_mem_nil, or_false] at hK
  · rcases hK with rfl | rfl | rfl | rfl
    · exact hv (.copy h) rfl rfl rfl
    · exact hv (.move h) rfl rfl rfl
    · exact hv (.assign h h') rfl rfl rfl
    · exact hv (.assignMove h h') rfl rfl rfl
  · rcases hK with rfl | rfl <;> rfl
  · rcases hK with rfl | rfl | rfl | rfl
    · exact hb (.copy hP) rfl rfl rfl
    · exact hb (.move hP) rfl rfl rfl
    · exact hb (.assign hP hQ) rfl rfl rfl
    · exact hb (.assignMove hP hQ) rfl rfl rfl
  · rcases hK with rfl | rfl <;> rfl

/-- Two matrices of 2 by 3 short counters, one written in another order and back; different shapes with the same storage differ; a
bit matrix that was moved from still knows a row size but equals a new empty one. -/
example :
    (match (NumericMatrix.make 2 2 3).store 0 1 5, ((NumericMatrix.make 2 2 3).store 1 2 7).bind (·.store 0 1 5) |>.bind (·.store 1 2 0) with
      | .ok M, .ok N => M.cppEq N && !(M.cppEq (NumericMatrix.make 2 2 3)) && !((NumericMatrix.make 2 2 3).cppEq (NumericMatrix.make 2 2 4))
      | _, _ => false) = true ∧
    (BitMatrix.make 3 600).move.2.rowBlocks = 16#32 ∧ (BitMatrix.make 3 600).move.2.cppEq .empty = true := by decide +kernel

/-- A write past the columns of a row, into its padding, is seen by `==` although no cell of the shape differs. -/
example :
    (match (NumericMatrix.make 4 2 3).store 0 5 1 with
      | .ok M => !(M.cppEq (NumericMatrix.make 4 2 3)) &&
          ((range 0 2).all fun r => (range 0 3).all fun c => numCell M (r, c) == numCell (NumericMatrix.make 4 2 3) (r, c))
      | _ => false) = true := by decide +kernel

end Tsetlini
