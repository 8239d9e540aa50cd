import Verif.Model.Aligned
import Verif.Lemmas.Res
/-
C58: aligned storage.
-/
namespace Tsetlini
open Res

/-- **C58**: a request for `n` items of `size` bytes is refused with `std::length_error` exactly if its size in bytes does not fit 64 bits;
otherwise exactly that many bytes are requested (none for no items). -/
theorem C58_allocate (size n : BitVec 64) (hs : 0 < size.toNat) :
    (allocate size n = .lengthError ↔ 2 ^ 64 ≤ n.toNat * size.toNat) ∧
    (n.toNat * size.toNat < 2 ^ 64 → allocate size n = if n = 0#64 then .null else .request (BitVec.ofNat 64 (n.toNat * size.toNat))) ∧
    ∀ b, allocate size n = .request b → b.toNat = n.toNat * size.toNat := by
  have hm : (maxSize size).toNat = (2 ^ 64 - 1) / size.toNat := by
    unfold maxSize
    rw [BitVec.toNat_udiv]
    rfl
  have key : maxSize size < n ↔ 2 ^ 64 ≤ n.toNat * size.toNat := by
    rw [BitVec.lt_def, hm, Nat.div_lt_iff_lt_mul hs]
    omega
  have hmul : n.toNat * size.toNat < 2 ^ 64 → n * size = BitVec.ofNat 64 (n.toNat * size.toNat) := by
    intro h
    apply BitVec.eq_of_toNat_eq
    rw [BitVec.toNat_mul]
    simp
  unfold allocate
  by_cases hn : n = 0#64
  · subst hn; simp
  · simp only [if_neg hn]
    by_cases h : maxSize size < n
    · simp only [if_pos h, true_iff, reduceCtorEq, false_implies, implies_true, and_true]
      have := key.1 h
      exact ⟨this, fun h' => by omega⟩
    · simp only [if_neg h, reduceCtorEq, false_iff, Allocation.request.injEq]
      have hlt : n.toNat * size.toNat < 2 ^ 64 := Nat.lt_of_not_le fun h' => h (key.2 h')
      refine ⟨by omega, hmul, fun b hb => ?_⟩
      subst hb
      rw [BitVec.toNat_mul, Nat.mod_eq_of_lt hlt]

/-- Two to the 61 doubles do not fit, one less does. -/
example : allocate 8#64 (BitVec.ofNat 64 (2 ^ 61)) = .lengthError ∧
    allocate 8#64 (BitVec.ofNat 64 (2 ^ 61 - 1)) = .request (BitVec.ofNat 64 (2 ^ 64 - 8)) := by decide

/-! ### AlignedArray -/

/-- An array of `nelem` elements of `size` bytes, aligned to `2^k` bytes, was constructed at its address, and the end of its storage is an
address. -/
structure AlignedArray.Placed (k nelem size : Nat) (v : AlignedArray) : Prop where
  power : k < 64
  offset : v.offset = alignedOffset (BitVec.ofNat 64 (2 ^ k)) v.addr
  bytes : v.a.length = AlignedArray.bytes (BitVec.ofNat 64 (2 ^ k)) nelem size
  space : v.addr.toNat + v.a.length < 2 ^ 64

variable {k nelem size : Nat} {v w : AlignedArray}

theorem pow_toNat (hk : k < 64) : (BitVec.ofNat 64 (2 ^ k)).toNat = 2 ^ k := by
  rw [BitVec.toNat_ofNat, Nat.mod_eq_of_lt]
  exact Nat.pow_lt_pow_right (by decide) hk

theorem and_not_mask (x : BitVec 64) (hk : k < 64) :
    (x &&& ~~~(BitVec.ofNat 64 (2 ^ k) - 1#64)).toNat = x.toNat / 2 ^ k * 2 ^ k := by
  have e : BitVec.ofNat 64 (2 ^ k) - 1#64 = BitVec.ofNat 64 (2 ^ k - 1) := by
    apply BitVec.eq_of_toNat_eq
    have h1 : 2 ^ k < 2 ^ 64 := Nat.pow_lt_pow_right (by decide) hk
    have h2 : 0 < 2 ^ k := Nat.two_pow_pos k
    rw [BitVec.toNat_sub, BitVec.toNat_ofNat, BitVec.toNat_ofNat, BitVec.toNat_ofNat, Nat.mod_eq_of_lt h1, Nat.mod_eq_of_lt (show 2 ^ k - 1 < 2 ^ 64 by omega)]
    omega
  rw [e]
  apply Nat.eq_of_testBit_eq
  intro i
  have hb : (x &&& ~~~BitVec.ofNat 64 (2 ^ k - 1)).toNat.testBit i = (x &&& ~~~BitVec.ofNat 64 (2 ^ k - 1)).getLsbD i := rfl
  rw [hb, Nat.testBit_mul_two_pow, Nat.testBit_div_two_pow, BitVec.getLsbD_and, BitVec.getLsbD_not, BitVec.getLsbD_ofNat,
    Nat.testBit_two_pow_sub_one]
  have hx : x.getLsbD i = x.toNat.testBit i := rfl
  rw [hx]
  by_cases hi : i < 64
  · by_cases hik : k ≤ i
    · have : ¬ i < k := by omega
      simp [hi, hik, this, show i - k + k = i by omega]
    · have : i < k := by omega
      simp [hi, hik, this]
  · have : x.toNat.testBit i = false := Nat.testBit_lt_two_pow (Nat.lt_of_lt_of_le x.isLt (Nat.pow_le_pow_right (by decide) (by omega)))
    have h2 : k ≤ i := by omega
    simp [this, hi, show i - k + k = i by omega]

/-- **C58**: `data()` is a multiple of the alignment, at most `Alignment - 1` bytes into the array's storage, and all elements lie
in it. -/
theorem C58_data (h : v.Placed k nelem size) :
    v.data.toNat % 2 ^ k = 0 ∧ v.addr.toNat ≤ v.data.toNat ∧ v.data.toNat + nelem * size ≤ v.addr.toNat + v.a.length := by
  obtain ⟨hk, ho, hb, hs⟩ := h
  have h2 : 0 < 2 ^ k := Nat.two_pow_pos k
  have h1 : 2 ^ k < 2 ^ 64 := Nat.pow_lt_pow_right (by decide) hk
  unfold AlignedArray.bytes at hb
  rw [pow_toNat hk] at hb
  have hd : v.data = (v.addr + BitVec.ofNat 64 (2 ^ k) - 1#64) &&& ~~~(BitVec.ofNat 64 (2 ^ k) - 1#64) := by
    unfold AlignedArray.data
    rw [ho]
    unfold alignedOffset
    rw [BitVec.add_comm, BitVec.sub_add_cancel]
  have hsum : (v.addr + BitVec.ofNat 64 (2 ^ k) - 1#64).toNat = v.addr.toNat + (2 ^ k - 1) := by
    rw [BitVec.toNat_sub, BitVec.toNat_add, pow_toNat hk]
    have : (1#64).toNat = 1 := rfl
    rw [this]
    have ha := v.addr.isLt
    by_cases hc : v.addr.toNat + 2 ^ k < 2 ^ 64
    · rw [Nat.mod_eq_of_lt hc]; omega
    · have : v.addr.toNat + 2 ^ k = 2 ^ 64 ∨ 2 ^ 64 < v.addr.toNat + 2 ^ k := by omega
      rcases this with h | h
      · rw [h]; simp; omega
      · omega
  have hdn : v.data.toNat = (v.addr.toNat + (2 ^ k - 1)) / 2 ^ k * 2 ^ k := by
    rw [hd, and_not_mask _ hk, hsum]
  have hdiv := Nat.div_add_mod (v.addr.toNat + (2 ^ k - 1)) (2 ^ k)
  have hmod := Nat.mod_lt (v.addr.toNat + (2 ^ k - 1)) h2
  rw [Nat.mul_comm] at hdiv
  refine ⟨by rw [hdn]; exact Nat.mul_mod_left _ _, by omega, by omega⟩

theorem offset_eq (h : v.Placed k nelem size) : v.offset.toNat + v.addr.toNat = v.data.toNat := by
  obtain ⟨-, h2, h3⟩ := C58_data h
  unfold AlignedArray.data at h2 ⊢
  rw [BitVec.toNat_add] at h2 ⊢
  have h4 := v.addr.isLt
  have h5 := v.offset.isLt
  by_cases hc : v.addr.toNat + v.offset.toNat < 2 ^ 64
  · rw [Nat.mod_eq_of_lt hc]; omega
  · rw [Nat.mod_eq_sub_mod (by omega), Nat.mod_eq_of_lt (by omega)] at h2
    omega

theorem room (h : v.Placed k nelem size) {pos : Nat} (hp : pos < nelem) : v.offset.toNat + pos * size + size ≤ v.a.length := by
  have h1 := offset_eq h
  obtain ⟨-, h2, h3⟩ := C58_data h
  have : (pos + 1) * size ≤ nelem * size := Nat.mul_le_mul_right _ hp
  rw [Nat.add_one_mul] at this
  omega

/-- **C58**: reading and writing elements stays inside the storage and obeys the array laws; a write moves nothing. -/
theorem C58_elements (h : v.Placed k nelem size) {pos : Nat} (hp : pos < nelem) :
    (∃ e, v.get size pos = .ok e ∧ e.length = size) ∧
    ∀ e : List Byte, e.length = size → ∃ v', v.put size pos e = .ok v' ∧ v'.Placed k nelem size ∧ v'.addr = v.addr ∧
      ∀ q, q < nelem → v'.get size q = if q = pos then .ok e else v.get size q := by
  have hr := room h hp
  refine ⟨⟨_, if_pos hr, by simp; omega⟩, fun e he => ?_⟩
  refine ⟨_, if_pos hr, ⟨h.power, h.offset, ?_, ?_⟩, rfl, fun q hq => ?_⟩
  · rw [← h.bytes]; simp; omega
  · have := h.space
    simp
    omega
  · have hq' := room h hq
    have hl : (v.a.take (v.offset.toNat + pos * size) ++ e ++ v.a.drop (v.offset.toNat + pos * size + size)).length = v.a.length := by
      simp; omega
    unfold AlignedArray.get
    dsimp only
    rw [if_pos (by rw [hl]; exact hq')]
    by_cases hqp : q = pos
    · subst hqp
      rw [if_pos rfl]
      congr 1
      rw [List.append_assoc, List.drop_left' (by simp; omega), List.take_left' he]
    · rw [if_neg hqp, if_pos hq']
      congr 1
      apply List.ext_getElem?
      intro i
      simp only [List.getElem?_take, List.getElem?_drop]
      by_cases hi : i < size
      · rw [if_pos hi, if_pos hi]
        have hsep : v.offset.toNat + q * size + i < v.offset.toNat + pos * size ∨
            v.offset.toNat + pos * size + size ≤ v.offset.toNat + q * size + i := by
          rcases Nat.lt_or_gt_of_ne hqp with hlt | hlt
          · have : (q + 1) * size ≤ pos * size := Nat.mul_le_mul_right _ hlt
            rw [Nat.add_one_mul] at this
            omega
          · have : (pos + 1) * size ≤ q * size := Nat.mul_le_mul_right _ hlt
            rw [Nat.add_one_mul] at this
            omega
        rcases hsep with hs | hs
        · rw [List.append_assoc, List.getElem?_append_left (by simp; omega), List.getElem?_take, if_pos hs]
        · rw [List.getElem?_append_right (by simp; omega), List.getElem?_drop]
          congr 1
          simp
          omega
      · rw [if_neg hi, if_neg hi]

/-- **C58**: assignment gives every element the value it has in the other array, wherever the two are; afterwards they compare equal. -/
theorem C58_assign (h : v.Placed k nelem size) (hw : w.Placed k nelem size) :
    ∃ v', v.assign size nelem w = .ok v' ∧ v'.Placed k nelem size ∧ v'.addr = v.addr ∧
      (∀ q, q < nelem → v'.get size q = w.get size q) ∧ v'.eq size nelem w = .ok true := by
  obtain ⟨v', e, h1, h2, h3⟩ := iter_range_ret (σ := AlignedArray)
    (f := fun i v => (AlignedArray.get size w i).bind fun e => AlignedArray.put size v i e)
    (P := fun m u => u.Placed k nelem size ∧ u.addr = v.addr ∧ ∀ q, q < m → q < nelem → u.get size q = w.get size q) nelem v
    ⟨h, rfl, fun q hq => by omega⟩
    (by
      rintro m hm u ⟨g1, g2, g3⟩
      obtain ⟨⟨e, he, hl⟩, -⟩ := C58_elements hw hm
      obtain ⟨-, hput⟩ := C58_elements g1 hm
      obtain ⟨u', e1, e2, e3, e4⟩ := hput e hl
      rw [he, ok_bind]
      refine ⟨u', e1, e2, by rw [e3, g2], fun q hq hqn => ?_⟩
      rw [e4 q hqn]
      by_cases hqm : q = m
      · subst hqm; rw [if_pos rfl, he]
      · rw [if_neg hqm, g3 q (by omega) hqn])
  refine ⟨v', e, h1, h2, fun q hq => h3 q hq hq, ?_⟩
  unfold AlignedArray.eq
  have : ∀ l : List Nat, (∀ q ∈ l, q < nelem) → v'.eqFrom size w l = .ok true := by
    intro l hl
    induction l with
    | nil => rfl
    | cons q l ih =>
      obtain ⟨⟨e, he, -⟩, -⟩ := C58_elements hw (hl q (by simp))
      simp only [AlignedArray.eqFrom]
      rw [h3 q (hl q (by simp)) (hl q (by simp)), he, ok_bind, ok_bind, if_pos rfl]
      exact ih fun r hr => hl r (List.mem_cons_of_mem _ hr)
  exact this _ fun q hq => by rw [mem_range] at hq; omega

/-- **C58**: so does copying to any address, whatever the distances to the next aligned addresses are. -/
theorem C58_copy (hw : w.Placed k nelem size) {addr : BitVec 64} {mem : List Byte}
    (hm : mem.length = AlignedArray.bytes (BitVec.ofNat 64 (2 ^ k)) nelem size) (hs : addr.toNat + mem.length < 2 ^ 64) :
    ∃ v', AlignedArray.copy (BitVec.ofNat 64 (2 ^ k)) size nelem addr mem w = .ok v' ∧ v'.addr = addr ∧ v'.Placed k nelem size ∧
      v'.data.toNat % 2 ^ k = 0 ∧ (∀ q, q < nelem → v'.get size q = w.get size q) ∧ v'.eq size nelem w = .ok true := by
  have hp : (AlignedArray.new (BitVec.ofNat 64 (2 ^ k)) addr mem).Placed k nelem size := ⟨hw.power, rfl, hm, hs⟩
  obtain ⟨v', e, h1, h2, h3, h4⟩ := C58_assign hp hw
  exact ⟨v', e, h2, h1, (C58_data h1).1, h3, h4⟩

/-- **C58**: `==` holds exactly if all elements are equal. -/
theorem C58_eq (h : v.Placed k nelem size) (hw : w.Placed k nelem size) :
    ∃ b, v.eq size nelem w = .ok b ∧ (b = true ↔ ∀ q, q < nelem → v.get size q = w.get size q) := by
  unfold AlignedArray.eq
  have : ∀ l : List Nat, (∀ q ∈ l, q < nelem) → ∃ b, v.eqFrom size w l = .ok b ∧ (b = true ↔ ∀ q ∈ l, v.get size q = w.get size q) := by
    intro l hl
    induction l with
    | nil => exact ⟨true, rfl, by simp⟩
    | cons q l ih =>
      obtain ⟨b, e, hb⟩ := ih fun r hr => hl r (List.mem_cons_of_mem _ hr)
      obtain ⟨⟨x, hx, -⟩, -⟩ := C58_elements h (hl q (by simp))
      obtain ⟨⟨y, hy, -⟩, -⟩ := C58_elements hw (hl q (by simp))
      simp only [AlignedArray.eqFrom]
      rw [hx, hy, ok_bind, ok_bind]
      by_cases hxy : x = y
      · rw [if_pos hxy]
        refine ⟨b, e, ?_⟩
        rw [hb]
        simp [hx, hy, hxy]
      · rw [if_neg hxy]
        refine ⟨false, rfl, ?_⟩
        simp [hx, hy, hxy]
  obtain ⟨b, e, hb⟩ := this (range 0 nelem) fun q hq => by rw [mem_range] at hq; omega
  refine ⟨b, e, hb.trans ⟨fun h q hq => h q (by rw [mem_range]; omega), fun h q hq => h q (by rw [mem_range] at hq; omega)⟩⟩

/-- Three 4-byte elements aligned to 16 bytes: constructed at address 1001, `data()` is 1008. -/
example : (AlignedArray.new 16#64 1001#64 (List.replicate 27 7#8)).Placed 4 3 4 ∧
    (AlignedArray.new 16#64 1001#64 (List.replicate 27 7#8)).data = 1008#64 :=
  ⟨⟨by decide, rfl, by decide, by decide⟩, by decide⟩

end Tsetlini
