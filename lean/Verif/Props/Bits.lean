import Verif.Lemmas.Layout
import Verif.Spec.Storage
import Verif.Props.Validation
/-
Properties of the containers: C25, C37, C38, C39, C49.
-/
namespace Tsetlini
open Res Spec

variable {env : Env}

/-! ### C37: array laws -/

private theorem vec_law {v w : List Block} {pos : Nat} {x : Bool} (hl : w.length = v.length)
    (h : ∀ j, bitAt w j = if j = pos then x else bitAt v j) :
    Writes (· < v.length * 64) (bitTest v) (bitTest w) pos (.ok x) := by
  intro j hj
  have h1 : j / 64 < v.length := by omega
  rw [bitTest_ok (by omega : j / 64 < w.length), bitTest_ok h1, h j]
  split <;> rfl

/-- **C37**, bit vectors: writing a stored bit (in particular one below `size()`) succeeds; then
that bit reads as the new value and every other stored bit (also of the padding) as before. -/
theorem C37_vector (v : List Block) (pos : Nat) (val : Bool) (h : pos < v.length * 64) :
    ∃ old, bitTest v pos = .ok old ∧
    (∃ w, bitSet v pos = .ok w ∧ w.length = v.length ∧ Writes (· < v.length * 64) (bitTest v) (bitTest w) pos (.ok true)) ∧
    (∃ w, bitClear v pos = .ok w ∧ w.length = v.length ∧ Writes (· < v.length * 64) (bitTest v) (bitTest w) pos (.ok false)) ∧
    (∃ w, bitFlip v pos = .ok w ∧ w.length = v.length ∧ Writes (· < v.length * 64) (bitTest v) (bitTest w) pos (.ok (!old))) ∧
    (∃ w, bitAssign v pos val = .ok w ∧ w.length = v.length ∧ Writes (· < v.length * 64) (bitTest v) (bitTest w) pos (.ok val)) ∧
    (∃ w, bitXor v pos val = .ok w ∧ w.length = v.length ∧ Writes (· < v.length * 64) (bitTest v) (bitTest w) pos (.ok (old ^^ val))) := by
  have hq : pos / 64 < v.length := by omega
  refine ⟨_, bitTest_ok hq, ?_, ?_, ?_, ?_, ?_⟩
  · obtain ⟨w, e, hl, hw⟩ := bitSet_ret hq
    exact ⟨w, e, hl, vec_law hl hw⟩
  · obtain ⟨w, e, hl, hw⟩ := bitClear_ret hq
    exact ⟨w, e, hl, vec_law hl hw⟩
  · obtain ⟨w, e, hl, hw⟩ := bitFlip_ret hq
    exact ⟨w, e, hl, vec_law hl hw⟩
  · obtain ⟨w, e, hl, hw⟩ := bitAssign_ret val hq
    exact ⟨w, e, hl, vec_law hl hw⟩
  · obtain ⟨w, e, hl, hw⟩ := bitXor_ret val hq
    exact ⟨w, e, hl, vec_law hl hw⟩

/-- A vector of 70 bits. -/
example : 69 < (BitVector.ofLen 70).blocks.length * 64 ∧
    bitFlip (BitVector.ofLen 70).blocks 69 = .ok [0, 32] := by decide +kernel

private theorem mat_op {M : BitMatrix} {rows cols r c : Nat} (h : M.Ok rows cols) (hr : r < rows) (hc : c < cols)
    (op : Block → Block) (new : Bool → Bool)
    (hop : ∀ b : Block, ∀ i, i < 64 → (op b).getLsbD i = if i = c % 64 then new (b.getLsbD i) else b.getLsbD i)
    {old : Bool} (ho : bitCell M (r, c) = .ok old) :
    ∃ M', M.modify (.ofNat 64 r) (.ofNat 64 c) op = .ok M' ∧ M'.Ok rows cols ∧
      Writes (InShape rows cols) (bitCell M) (bitCell M') (r, c) (.ok (new old)) := by
  obtain ⟨M', e, hok, hw⟩ := BitMatrix.modify_test h hr hc op new hop
  refine ⟨M', e, hok, fun q hq => ?_⟩
  have := hw q.1 q.2 hq.1 hq.2
  show M'.test _ _ = _
  rw [this]
  unfold bitCell at ho
  dsimp only at ho
  by_cases hp : q = (r, c)
  · subst hp; simp [ho]
  · have : ¬ (q.1 = r ∧ q.2 = c) := fun h => hp (Prod.ext h.1 h.2)
    rw [if_neg hp, if_neg this]
    rfl

/-- The bit matrices that can arise: constructed with a shape whose size arithmetic does not
wrap, then written to. -/
inductive Written (rows cols : Nat) : BitMatrix → Prop
  | new : Written rows cols (BitMatrix.make (.ofNat 32 rows) (.ofNat 32 cols))
  | set {M M' r c} : Written rows cols M → r < rows → c < cols → M.set (.ofNat 64 r) (.ofNat 64 c) = .ok M' → Written rows cols M'
  | clear {M M' r c} : Written rows cols M → r < rows → c < cols → M.clear (.ofNat 64 r) (.ofNat 64 c) = .ok M' → Written rows cols M'
  | flip {M M' r c} : Written rows cols M → r < rows → c < cols → M.flip (.ofNat 64 r) (.ofNat 64 c) = .ok M' → Written rows cols M'

private theorem hset (c : Nat) (hc : c < 18446744073709551616) (b : Block) (i : Nat) (hi : i < 64) :
    (b ||| setMask (BitVec.ofNat 64 c).toNat).getLsbD i = if i = c % 64 then true else b.getLsbD i := by
  rw [BitVec.getLsbD_or, setMask_getLsbD _ _ hi, BitVec.toNat_ofNat, Nat.mod_eq_of_lt hc]
  by_cases h : i = c % 64 <;> simp [h]

private theorem hclear (c : Nat) (hc : c < 18446744073709551616) (b : Block) (i : Nat) (hi : i < 64) :
    (b &&& clearMask (BitVec.ofNat 64 c).toNat).getLsbD i = if i = c % 64 then false else b.getLsbD i := by
  rw [BitVec.getLsbD_and, clearMask, BitVec.getLsbD_not, setMask_getLsbD _ _ hi, BitVec.toNat_ofNat, Nat.mod_eq_of_lt hc]
  by_cases h : i = c % 64 <;> simp [h, hi]

private theorem hflip (c : Nat) (hc : c < 18446744073709551616) (b : Block) (i : Nat) (hi : i < 64) :
    (b ^^^ setMask (BitVec.ofNat 64 c).toNat).getLsbD i = if i = c % 64 then !(b.getLsbD i) else b.getLsbD i := by
  rw [BitVec.getLsbD_xor, setMask_getLsbD _ _ hi, BitVec.toNat_ofNat, Nat.mod_eq_of_lt hc]
  by_cases h : i = c % 64 <;> simp [h]

theorem Written.ok {rows cols : Nat} {M : BitMatrix} (h : Written rows cols M) (hr : rows < 4294967296)
    (hf : cols + 511 < 4294967296) (hf2 : paddedBlocks cols * rows < 4294967296) : M.Ok rows cols := by
  have key : ∀ {M M' : BitMatrix} {r c : Nat} {op : Block → Block} {new : Bool → Bool}, M.Ok rows cols → r < rows → c < cols →
      (∀ b : Block, ∀ i, i < 64 → (op b).getLsbD i = if i = c % 64 then new (b.getLsbD i) else b.getLsbD i) →
      M.modify (.ofNat 64 r) (.ofNat 64 c) op = .ok M' → M'.Ok rows cols := by
    intro M M' r c op new ih hr hc hop e
    obtain ⟨M2, e2, hok, -⟩ := mat_op ih hr hc _ _ hop (BitMatrix.test_eq ih hr hc)
    rw [e] at e2
    injection e2 with e2
    subst e2
    exact hok
  induction h with
  | new => exact BitMatrix.make_ok hr hf hf2
  | set _ hr hc e ih => exact key (new := fun _ => true) ih hr hc (hset _ (by omega)) e
  | clear _ hr hc e ih => exact key (new := fun _ => false) ih hr hc (hclear _ (by omega)) e
  | flip _ hr hc e ih => exact key (new := fun b => !b) ih hr hc (hflip _ (by omega)) e

/-- **C37**, bit matrices: every write of a cell within the shape succeeds; then that cell reads as
the new value and every other cell, of the same or another row, as before.  A new matrix
reads as 0 everywhere. -/
theorem C37_matrix {rows cols : Nat} (hr : rows < 4294967296) (hf : cols + 511 < 4294967296)
    (hf2 : paddedBlocks cols * rows < 4294967296) :
    (∀ q, InShape rows cols q → bitCell (BitMatrix.make (.ofNat 32 rows) (.ofNat 32 cols)) q = .ok false) ∧
    ∀ M, Written rows cols M → ∀ r c, r < rows → c < cols →
      ∃ old, bitCell M (r, c) = .ok old ∧
      (∃ M', M.set (.ofNat 64 r) (.ofNat 64 c) = .ok M' ∧ Writes (InShape rows cols) (bitCell M) (bitCell M') (r, c) (.ok true)) ∧
      (∃ M', M.clear (.ofNat 64 r) (.ofNat 64 c) = .ok M' ∧ Writes (InShape rows cols) (bitCell M) (bitCell M') (r, c) (.ok false)) ∧
      (∃ M', M.flip (.ofNat 64 r) (.ofNat 64 c) = .ok M' ∧ Writes (InShape rows cols) (bitCell M) (bitCell M') (r, c) (.ok (!old))) := by
  refine ⟨fun q hq => ?_, fun M hM r c hr' hc => ?_⟩
  · have := BitMatrix.test_eq (BitMatrix.make_ok hr hf hf2) hq.1 hq.2
    unfold bitCell
    rw [this]
    simp only [BitMatrix.make, List.getD_eq_getElem?_getD, List.getElem?_replicate]
    split <;> simp
  · have hM := hM.ok hr hf hf2
    have ht := BitMatrix.test_eq hM hr' hc
    refine ⟨_, ht, ?_, ?_, ?_⟩
    · obtain ⟨M', e, -, hw⟩ := mat_op hM hr' hc _ (fun _ => true) (hset c (by omega)) ht
      exact ⟨M', e, hw⟩
    · obtain ⟨M', e, -, hw⟩ := mat_op hM hr' hc _ (fun _ => false) (hclear c (by omega)) ht
      exact ⟨M', e, hw⟩
    · obtain ⟨M', e, -, hw⟩ := mat_op hM hr' hc _ (fun b => !b) (hflip c (by omega)) ht
      exact ⟨M', e, hw⟩

/-- A matrix of 3 rows of 600 bits, a bit in the middle row. -/
example : paddedBlocks 600 * 3 < 4294967296 ∧
    (match (BitMatrix.make 3 600).set 1 599 with
      | .ok M => (bitCell M (1, 599), bitCell M (1, 598), bitCell M (0, 599), bitCell M (2, 599))
      | _ => (.ub .oob, .ub .oob, .ub .oob, .ub .oob)) = (.ok true, .ok false, .ok false, .ok false) := by
  decide +kernel

/-! ### C39: layout -/

/-- The numeric matrices that can arise from a shape by writing cells. -/
inductive Stored (item rows cols : Nat) : NumericMatrix → Prop
  | new : Stored item rows cols (NumericMatrix.make (.ofNat 32 item) (.ofNat 32 rows) (.ofNat 32 cols))
  | store {M M' r c x} : Stored item rows cols M → r < rows → c < cols →
      M.store (.ofNat 64 r) (.ofNat 64 c) x = .ok M' → Stored item rows cols M'

theorem paddedItems_eq {item cols : Nat} (h : item = 1 ∨ item = 2 ∨ item = 4) : paddedItems item cols = rowItems item cols := by
  unfold paddedItems rowItems
  rcases h with rfl | rfl | rfl <;> omega

theorem Stored.ok {item rows cols : Nat} {M : NumericMatrix} (h : Stored item rows cols M)
    (hi : item = 1 ∨ item = 2 ∨ item = 4) (hr : rows < 4294967296) (hf : cols * item + 63 < 4294967296)
    (hf2 : paddedItems item cols * rows < 4294967296) : M.Ok item rows cols := by
  rw [paddedItems_eq hi] at hf2
  induction h with
  | new => exact NumericMatrix.make_ok hi hr hf hf2
  | store _ hr hc e ih =>
    obtain ⟨M2, e2, hok, -⟩ := NumericMatrix.store_load ih hr hc _
    rw [e] at e2
    injection e2 with e2
    subst e2
    exact hok

/-- **C39**, numeric matrices of 1, 2 or 4 byte items: with `base` the address of the storage, a
multiple of 64, every row starts at a multiple of 64, every cell of the shape lies in the allocation,
cells at different positions have different addresses, and so writing one changes no other.  A new
matrix reads as 0 everywhere. -/
theorem C39_numeric {item rows cols : Nat} (hi : item = 1 ∨ item = 2 ∨ item = 4) (hr : rows < 4294967296)
    (hf : cols * item + 63 < 4294967296) (hf2 : paddedItems item cols * rows < 4294967296) :
    (∀ q, InShape rows cols q → numCell (NumericMatrix.make (.ofNat 32 item) (.ofNat 32 rows) (.ofNat 32 cols)) q = .ok 0) ∧
    ∀ M, Stored item rows cols M →
      (∀ base r, base % 64 = 0 → r < rows → (base + M.index (.ofNat 64 r) 0 * item) % 64 = 0) ∧
      (∀ r c, r < rows → c < cols → M.index (.ofNat 64 r) (.ofNat 64 c) < M.v.length) ∧
      (∀ r c r' c', r < rows → c < cols → r' < rows → c' < cols →
        M.index (.ofNat 64 r) (.ofNat 64 c) = M.index (.ofNat 64 r') (.ofNat 64 c') → r = r' ∧ c = c') ∧
      ∀ r c x, r < rows → c < cols → ∃ M', M.store (.ofNat 64 r) (.ofNat 64 c) x = .ok M' ∧
        Writes (InShape rows cols) (numCell M) (numCell M') (r, c) (.ok x) := by
  have hb : cols < 4294967296 := by rcases hi with rfl | rfl | rfl <;> omega
  have hg := rowItems_ge (cols := cols) hi
  refine ⟨fun q hq => ?_, fun M hM => ?_⟩
  · have hk := NumericMatrix.make_ok hi hr hf (by rw [← paddedItems_eq hi]; exact hf2)
    obtain ⟨h1, h2⟩ := hq
    have hlt := flat_lt h1 (Nat.lt_of_lt_of_le h2 hg)
    unfold numCell NumericMatrix.load
    rw [NumericMatrix.index_eq hk h1 (by omega), rd_ok (by rw [hk.len]; exact hlt)]
    simp [NumericMatrix.make]
  · have hk := hM.ok hi hr hf hf2
    refine ⟨fun base r hbase hr' => ?_, fun r c hr' hc => ?_, fun r c r' c' hr1 hc1 hr2 hc2 he => ?_, fun r c x hr' hc => ?_⟩
    · have e0 := NumericMatrix.index_eq hk hr' (c := 0) (by omega)
      have : M.index (.ofNat 64 r) 0 = r * rowItems item cols := e0
      rw [this, Nat.mul_assoc, Nat.add_mod, Nat.mul_mod, rowItems_align hi, hbase]
      simp
    · rw [NumericMatrix.index_eq hk hr' (by omega), hk.len]
      exact flat_lt hr' (by omega)
    · rw [NumericMatrix.index_eq hk hr1 (by omega), NumericMatrix.index_eq hk hr2 (by omega)] at he
      exact flat_inj (by omega) (by omega) he
    · obtain ⟨M', e, -, hw⟩ := NumericMatrix.store_load hk hr' hc x
      refine ⟨M', e, fun q hq => ?_⟩
      have := hw q.1 q.2 hq.1 hq.2
      unfold numCell
      rw [this]
      by_cases hp : q = (r, c)
      · subst hp; simp
      · have : ¬ (q.1 = r ∧ q.2 = c) := fun h => hp (Prod.ext h.1 h.2)
        rw [if_neg hp, if_neg this]

/-- 8 rows of 130 two-byte counters: rows are 160 items apart. -/
example : 130 * 2 + 63 < 4294967296 ∧ paddedItems 2 130 * 8 < 4294967296 ∧
    (NumericMatrix.make 2 8 130).index 3 0 = 480 ∧ (NumericMatrix.make 2 8 130).v.length = 1280 := by decide +kernel

/-- **C39**, bit matrices: rows start at multiples of 64 bytes and every cell lies in the allocation. -/
theorem C39_bits {rows cols : Nat} (hr : rows < 4294967296) (hf : cols + 511 < 4294967296)
    (hf2 : paddedBlocks cols * rows < 4294967296) {M : BitMatrix} (hM : Written rows cols M) :
    (∀ base r, base % 64 = 0 → r < rows → (base + M.index (.ofNat 64 r) 0 * 8) % 64 = 0) ∧
    (∀ r c, r < rows → c < cols → M.index (.ofNat 64 r) (.ofNat 64 c) < M.v.length) ∧
    (∀ r c r' c', r < rows → c < cols → r' < rows → c' < cols →
      M.index (.ofNat 64 r) (.ofNat 64 c) = M.index (.ofNat 64 r') (.ofNat 64 c') → r = r' ∧ c / 64 = c' / 64) := by
  have hk := hM.ok hr hf hf2
  refine ⟨fun base r hbase hr' => ?_, fun r c hr' hc => ?_, fun r c r' c' hr1 hc1 hr2 hc2 he => ?_⟩
  · have : M.index (.ofNat 64 r) 0 = r * rowBlocks cols := by
      have e0 := BitMatrix.index_eq hk hr' (c := 0) (by omega)
      simpa using e0
    rw [this]
    have : r * rowBlocks cols * 8 = 64 * (r * ((cols + 511) / 512)) := by
      unfold rowBlocks
      rw [Nat.mul_assoc, Nat.mul_assoc, ← Nat.mul_assoc r, Nat.mul_comm _ (8 * 8)]
    omega
  · rw [BitMatrix.index_eq hk hr' (by omega), hk.len]
    exact flat_lt hr' (rowBlocks_ge hc)
  · rw [BitMatrix.index_eq hk hr1 (by omega), BitMatrix.index_eq hk hr2 (by omega)] at he
    exact flat_inj (rowBlocks_ge hc1) (rowBlocks_ge hc2) he

example : Written 3 600 (BitMatrix.make 3 600) ∧ (BitMatrix.make 3 600).index 2 599 = 41 :=
  ⟨.new, by decide +kernel⟩

/-- **C39**, the excluded case is real: a shape whose padded size reaches 2^32 items gets too little
storage, here none at all, and its first cell lies outside. -/
theorem C39_wraps :
    (NumericMatrix.make 4 268435456 16).v = [] ∧ numCell (NumericMatrix.make 4 268435456 16) (0, 0) = .ub .oob ∧
    (BitMatrix.make 536870912 512).v = [] ∧ bitCell (BitMatrix.make 536870912 512) (0, 0) = .ub .oob := by
  refine ⟨?_, ?_, ?_, ?_⟩ <;> decide +kernel

/-! ### C49 -/

/-- **C49** -/
theorem C49_is_power_of_two (x : BitVec 32) : isPowerOfTwo x = true ↔ ∃ k : Nat, x.toNat = 2 ^ k := by
  have h := Nat.ne_zero_and_sub_one_eq_zero_iff_isPowerOfTwo (n := x.toNat)
  unfold Nat.isPowerOfTwo at h
  rw [← h]
  unfold isPowerOfTwo
  rw [Bool.and_eq_true, bne_iff_ne, beq_iff_eq]
  by_cases hx : x = 0#32
  · subst hx; simp
  · have h0 : x.toNat ≠ 0 := fun h => hx (BitVec.eq_of_toNat_eq (by simpa using h))
    have h1 : (x - 1#32).toNat = x.toNat - 1 := by
      have := x.isLt
      rw [BitVec.toNat_sub]
      simp
      omega
    constructor
    · rintro ⟨-, h⟩
      have := congrArg BitVec.toNat h
      rw [BitVec.toNat_and, h1] at this
      exact ⟨h0, by simpa using this⟩
    · rintro ⟨-, h⟩
      refine ⟨hx, BitVec.eq_of_toNat_eq ?_⟩
      rw [BitVec.toNat_and, h1]
      simpa using h

example : isPowerOfTwo 64 = true ∧ isPowerOfTwo 48 = false ∧ isPowerOfTwo 0 = false ∧ isPowerOfTwo 2147483648 = true := by decide

/-! ### C25: padding -/

theorem reports_unique {l : List (Prop × Status)} {s t : Status} (h : Reports l s) (h' : Reports l t) : s = t := by
  induction l with
  | nil => exact h.trans h'.symm
  | cons p l ih =>
    rcases h with ⟨h1, h2⟩ | ⟨h1, h2⟩ <;> rcases h' with ⟨h3, h4⟩ | ⟨h3, h4⟩
    · exact h2.trans h4.symm
    · exact absurd h1 h3
    · exact absurd h3 h1
    · exact ih h2 h4

theorem answers_gives {σ α : Type} {l : List (Prop × Status)} {r : Res (σ × Except Status α)} (h : Answers l r)
    (hl : ∀ p ∈ l, p.2.code ≠ .ok) : (∃ v, Gives r v) ↔ ∀ p ∈ l, ¬ p.1 := by
  obtain ⟨s, hs, h1, h2⟩ := h
  by_cases hc : s.code = .ok
  · have := reports_ok hs hl
    exact ⟨fun _ => this.1 hc, fun _ => h2 hc⟩
  · have := reports_ok hs hl
    refine ⟨fun hv => ?_, fun hp => absurd (this.2 hp) hc⟩
    obtain ⟨v, s1, e1⟩ := hv
    obtain ⟨s2, e2⟩ := h1 hc
    rw [e1] at e2
    cases e2

/-- What **C25** says about one way of asking a bitwise estimator about one sample: if the sample has at
most one surplus block it gives an answer exactly if no bit beyond the length is set; if it has
more, the call is undefined. -/
def PaddingChecked {σ α : Type} (call : BitVector → Res (σ × Except Status α)) (nf : Nat) : Prop :=
  ∀ blocks : List Block, nf ≤ blocks.length * 64 →
    (blocks.length * 64 ≤ nf + 64 →
      ((∃ v, Gives (call (BitVector.ofBlocks nf blocks)) v) ↔
        ∀ f, nf ≤ f → f < blocks.length * 64 → (blocks.getD (f / 64) 0#64).getLsbD (f % 64) = false)) ∧
    (nf + 64 < blocks.length * 64 → call (BitVector.ofBlocks nf blocks) = .ub .shift)

private theorem sampleChecks_iff {nf : Nat} {blocks : List Block} (h1 : nf ≤ blocks.length * 64) :
    (∀ p ∈ sampleChecks Algo.bitwise.view (BitVector.ofBlocks nf blocks) true nf, ¬ p.1) ↔
      ∀ f, nf ≤ f → f < blocks.length * 64 → (blocks.getD (f / 64) 0#64).getLsbD (f % 64) = false := by
  have hlen : (BitVector.ofBlocks nf blocks).len = nf := by simp [BitVector.ofBlocks]; omega
  have e1 : Algo.bitwise.view.size (BitVector.ofBlocks nf blocks) = nf := hlen
  have e2 : Algo.bitwise.view.binary (BitVector.ofBlocks nf blocks) := trivial
  have e3 : Algo.bitwise.view.clear (BitVector.ofBlocks nf blocks) ↔
      ∀ f, nf ≤ f → bitAt blocks f = false := by
    show (∀ f, (BitVector.ofBlocks nf blocks).len ≤ f → _) ↔ _
    rw [hlen]
    rfl
  simp only [sampleChecks, e1, List.mem_cons, List.not_mem_nil, or_false, forall_eq_or_imp, forall_eq, Bool.true_eq_false,
    not_true_eq_false, ne_eq, not_false_eq_true, true_and, Classical.not_not, e2, e3]
  constructor
  · intro h f hf _
    exact h f hf
  · intro h f hf
    by_cases hb : f < blocks.length * 64
    · exact h f hf hb
    · exact bitAt_oob (by omega)

private theorem surplus {nf : Nat} {st : EstState bitwise env} (hf : Fitted .bitwise st)
    (hn : IntParam st.params "number_of_features" nf) {blocks : List Block} (h : nf + 64 < blocks.length * 64) :
    checkForPredict bitwise st.ta st.params (BitVector.ofBlocks nf blocks) = .ub .shift := by
  have hlen : (BitVector.ofBlocks nf blocks).len = nf := by simp [BitVector.ofBlocks]; omega
  have hb : (BitVector.ofBlocks nf blocks).blocks = blocks := rfl
  have hfit : isFitted bitwise st.ta = true := fitted_iff.2 hf
  have e1 : bitwise.size (BitVector.ofBlocks nf blocks) = nf := hlen
  have e2 : bitwise.all01 (BitVector.ofBlocks nf blocks) = true := rfl
  have e3 : bitwise.clearPadding (BitVector.ofBlocks nf blocks) = .ub .shift := by
    show bitClearPadding (BitVector.ofBlocks nf blocks) = _
    unfold bitClearPadding
    rw [hlen, hb, if_pos (by omega), if_pos (by omega)]
  unfold checkForPredict
  rw [hfit, if_neg (by simp), Params.numberOfFeatures, Params.getInt_eq hn]
  simp [e1, e2, e3, Res.bind]

/-- **C25** for bitwise classifiers. -/
theorem C25_classifier {st : EstState Algo.bitwise.backend env} (h : Reached .bitwise .classifier st)
    (hN : StatesOk .bitwise st.params) (hf : Fitted .bitwise st) {nf : Nat}
    (hn : IntParam st.params "number_of_features" nf) (sc : Sched) :
    PaddingChecked (fun x : BitVector => predictClassifier1 Algo.bitwise.backend env sc st x) nf ∧
    PaddingChecked (fun x : BitVector => decision1 Algo.bitwise.backend env sc st x) nf := by
  have hb : ∀ blocks : List Block, nf ≤ blocks.length * 64 → blocks.length * 64 ≤ nf + 64 →
      Algo.bitwise.Built (BitVector.ofBlocks nf blocks) := by
    intro blocks h1 h2
    have hlen : (BitVector.ofBlocks nf blocks).len = nf := by simp [BitVector.ofBlocks]; omega
    show (BitVector.ofBlocks nf blocks).len ≤ blocks.length * 64 ∧ blocks.length * 64 ≤ _ + 64
    omega
  refine ⟨fun blocks h1 => ⟨fun h2 => ?_, fun h2 => ?_⟩, fun blocks h1 => ⟨fun h2 => ?_, fun h2 => ?_⟩⟩
  · have := (C12_predict h hN (b := true) (by simp [hf]) (fun _ => hn) (hb blocks h1 h2) sc).1
    exact (answers_gives this (sampleChecks_codes _ _ _ _)).trans (sampleChecks_iff h1)
  · show (checkForPredict bitwise st.ta st.params (BitVector.ofBlocks nf blocks)).bind _ = _
    rw [surplus hf hn h2]; rfl
  · have := (C12_predict h hN (b := true) (by simp [hf]) (fun _ => hn) (hb blocks h1 h2) sc).2
    exact (answers_gives this (sampleChecks_codes _ _ _ _)).trans (sampleChecks_iff h1)
  · show (checkForPredict bitwise st.ta st.params (BitVector.ofBlocks nf blocks)).bind _ = _
    rw [surplus hf hn h2]; rfl

/-- **C25** for bitwise regressors. -/
theorem C25_regressor {st : EstState Algo.bitwise.backend env} (h : Reached .bitwise .regressor st)
    (hN : StatesOk .bitwise st.params) (hf : Fitted .bitwise st) {nf : Nat}
    (hn : IntParam st.params "number_of_features" nf) (sc : Sched) :
    PaddingChecked (fun x : BitVector => predictRegressor1 Algo.bitwise.backend env sc st x) nf := by
  refine fun blocks h1 => ⟨fun h2 => ?_, fun h2 => ?_⟩
  · have hlen : (BitVector.ofBlocks nf blocks).len = nf := by simp [BitVector.ofBlocks]; omega
    have hb : Algo.bitwise.Built (BitVector.ofBlocks nf blocks) := by
      show (BitVector.ofBlocks nf blocks).len ≤ blocks.length * 64 ∧ blocks.length * 64 ≤ _ + 64
      omega
    have := (C12_predict_regressor h hN (b := true) (by simp [hf]) (fun _ => hn) hb (X := []) (by simp) sc).1
    exact (answers_gives this (sampleChecks_codes _ _ _ _)).trans (sampleChecks_iff h1)
  · show (checkForPredict bitwise st.ta st.params (BitVector.ofBlocks nf blocks)).bind _ = _
    rw [surplus hf hn h2]; rfl

/-- The toy classifier has 3 features; one, two and three blocks. -/
example : (∃ nf : Nat, IntParam Toy.bc.params "number_of_features" nf) ∧
    (match predictClassifier1 bitwise Toy.env Toy.seq Toy.bc (BitVector.ofBlocks 3 [7]) with
      | .ok (_, .ok _) => true | _ => false) = true ∧
    (match predictClassifier1 bitwise Toy.env Toy.seq Toy.bc (BitVector.ofBlocks 3 [15]) with
      | .ok (_, .error s) => s.code | _ => .ok) = .valueError ∧
    (match predictClassifier1 bitwise Toy.env Toy.seq Toy.bc (BitVector.ofBlocks 3 [7, 0]) with
      | .ub .shift => true | _ => false) = true := by
  refine ⟨⟨3, ?_⟩, ?_, ?_, ?_⟩
  · show Params.get? _ _ = _; decide +kernel
  all_goals decide +kernel

/-! ### C38: from_range -/

private theorem fromRangeLoop_ret (bs : List Bool) : ∀ (pos : Nat) (v : List Block), pos + bs.length ≤ v.length * 64 →
    (∀ j, pos ≤ j → bitAt v j = false) →
    (fromRangeLoop bs pos v).Ret fun w => w.length = v.length ∧
      ∀ j, bitAt w j = if j < pos then bitAt v j else bs.getD (j - pos) false := by
  induction bs with
  | nil =>
    intro pos v _ hz
    refine ⟨v, rfl, rfl, fun j => ?_⟩
    split
    · rfl
    · rw [hz j (by omega)]; rfl
  | cons b bs ih =>
    intro pos v hl hz
    simp only [List.length_cons] at hl
    unfold fromRangeLoop
    cases b
    · obtain ⟨w, e, h1, h2⟩ := ih (pos + 1) v (by omega) fun j hj => hz j (by omega)
      refine ⟨w, by simpa using e, h1, fun j => ?_⟩
      rw [h2 j]
      by_cases hj : j < pos
      · rw [if_pos (by omega), if_pos hj]
      · rw [if_neg hj]
        by_cases hjp : j = pos
        · subst hjp; simp [hz j (by omega)]
        · rw [if_neg (by omega), show j - pos = (j - (pos + 1)) + 1 by omega]
          rfl
    · obtain ⟨v', e', hl', hv'⟩ := bitSet_ret (v := v) (pos := pos) (by omega)
      obtain ⟨w, e, h1, h2⟩ := ih (pos + 1) v' (by omega) fun j hj => by
        rw [hv' j, if_neg (by omega)]; exact hz j (by omega)
      refine ⟨w, by simp [e', e], by omega, fun j => ?_⟩
      rw [h2 j]
      by_cases hj : j < pos
      · rw [if_pos (by omega), if_pos hj, hv' j, if_neg (by omega)]
      · rw [if_neg hj]
        by_cases hjp : j = pos
        · subst hjp
          rw [if_pos (by omega), hv' j]
          simp
        · rw [if_neg (by omega), show j - pos = (j - (pos + 1)) + 1 by omega]
          rfl

/-- **C38**: `from_range` succeeds for every range; the result has the length of the range, reads
as the truth values of its elements, has no bit set beyond its length, and no surplus block. -/
theorem C38_from_range (bs : List Bool) :
    ∃ x, fromRange bs = .ok x ∧ x.len = bs.length ∧
      (∀ i b, bs[i]? = some b → bitTest x.blocks i = .ok b) ∧
      (∀ f, x.len ≤ f → f < x.blocks.length * 64 → bitTest x.blocks f = .ok false) ∧
      x.blocks.length = (bs.length + 63) / 64 := by
  have hpos : 0 + bs.length ≤ (List.replicate ((bs.length + 63) / 64) (0#64 : Block)).length * 64 := by
    rw [List.length_replicate]; omega
  obtain ⟨w, e, h1, h2⟩ := fromRangeLoop_ret bs 0 (List.replicate ((bs.length + 63) / 64) 0#64) hpos
    fun j _ => bitAt_replicate_zero _ _
  have h1 : w.length = (bs.length + 63) / 64 := by simpa using h1
  have hmin : min bs.length ((bs.length + 63) / 64 * 64) = bs.length := by omega
  refine ⟨⟨bs.length, w⟩, ?_, rfl, fun i b hb => ?_, fun f hf hf2 => ?_, h1⟩
  · simp only [fromRange, BitVector.ofBlocks, List.length_replicate, hmin]
    rw [e]
    rfl
  · have : i < bs.length := (List.getElem?_eq_some_iff.1 hb).1
    rw [bitTest_ok (by show i / 64 < w.length; omega), h2 i]
    simp [hb]
  · dsimp only at hf hf2 ⊢
    rw [bitTest_ok (by omega), h2 f]
    simp [List.getElem?_eq_none hf]

/-- **C38**: a sample built by `from_range` with the fitted width is never rejected. -/
theorem C38_accepted {st : EstState Algo.bitwise.backend env} (h : Reached .bitwise .classifier st)
    (hN : StatesOk .bitwise st.params) (hf : Fitted .bitwise st) (bs : List Bool)
    (hn : IntParam st.params "number_of_features" bs.length) (sc : Sched) :
    ∃ x : BitVector, fromRange bs = .ok x ∧ (∃ v, Gives (predictClassifier1 Algo.bitwise.backend env sc st x) v) ∧
      ∃ v, Gives (decision1 Algo.bitwise.backend env sc st x) v := by
  obtain ⟨⟨len, blocks⟩, e, h1, h2, h3, h4⟩ := C38_from_range bs
  dsimp only at h1 h2 h3 h4
  subst h1
  have hlen : (⟨bs.length, blocks⟩ : BitVector) = BitVector.ofBlocks bs.length blocks := by
    simp only [BitVector.ofBlocks, BitVector.mk.injEq, and_true]; omega
  have hc := C25_classifier h hN hf hn sc
  have hz : ∀ f, bs.length ≤ f → f < blocks.length * 64 → (blocks.getD (f / 64) 0#64).getLsbD (f % 64) = false := by
    intro f hf1 hf2
    have := h3 f hf1 hf2
    rw [bitTest_ok (by omega)] at this
    exact Res.ok.inj this
  refine ⟨_, e, ?_, ?_⟩
  · rw [hlen]
    exact ((hc.1 blocks (by omega)).1 (by omega)).2 hz
  · rw [hlen]
    exact ((hc.2 blocks (by omega)).1 (by omega)).2 hz

/-- The regressor's side. -/
theorem C38_accepted_regressor {st : EstState Algo.bitwise.backend env} (h : Reached .bitwise .regressor st)
    (hN : StatesOk .bitwise st.params) (hf : Fitted .bitwise st) (bs : List Bool)
    (hn : IntParam st.params "number_of_features" bs.length) (sc : Sched) :
    ∃ x : BitVector, fromRange bs = .ok x ∧ ∃ v, Gives (predictRegressor1 Algo.bitwise.backend env sc st x) v := by
  obtain ⟨⟨len, blocks⟩, e, h1, h2, h3, h4⟩ := C38_from_range bs
  dsimp only at h1 h2 h3 h4
  subst h1
  have hlen : (⟨bs.length, blocks⟩ : BitVector) = BitVector.ofBlocks bs.length blocks := by
    simp only [BitVector.ofBlocks, BitVector.mk.injEq, and_true]; omega
  have hc := C25_regressor h hN hf hn sc
  refine ⟨_, e, ?_⟩
  rw [hlen]
  refine ((hc blocks (by omega)).1 (by omega)).2 fun f hf1 hf2 => ?_
  have := h3 f hf1 hf2
  rw [bitTest_ok (by omega)] at this
  exact Res.ok.inj this

example : fromRange ((List.range 70).map fun i => i % 3 == 0) = .ok ⟨70, [0x9249249249249249, 36]⟩ ∧
    IntParam Toy.bc.params "number_of_features" (([true, false, true] : List Bool).length : Nat) ∧
    IntParam Toy.br.params "number_of_features" (([true, false, true] : List Bool).length : Nat) := by
  refine ⟨by decide +kernel, ?_, ?_⟩
  all_goals show Params.get? _ _ = _; decide +kernel

end Tsetlini
