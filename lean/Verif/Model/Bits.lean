import Verif.Model.Res
/-
Bit containers: lib/include/basic_bit_vector.hpp, lib/include/basic_bit_vector_companion.hpp,
the `bit_view` of lib/include/basic_bit_matrix.hpp and lib/include/is_power_of_two.hpp,
for `BlockType = uint64_t`.
-/
namespace Tsetlini

/-- `bit_block_type`, lib/include/tsetlini_types.hpp:47-59: 64 bits. -/
abbrev Block := BitVec 64

/-- `set_mask`, lib/include/basic_bit_vector.hpp:69-73, lib/include/basic_bit_matrix.hpp:83-87 -/
def setMask (pos : Nat) : Block := 1#64 <<< (pos % 64)

/-- `clear_mask`, lib/include/basic_bit_vector.hpp:75-79 -/
def clearMask (pos : Nat) : Block := ~~~ setMask pos

/-- `xor_mask`, lib/include/basic_bit_vector.hpp:81-85 -/
def xorMask (pos : Nat) (v : Bool) : Block := (if v then 1#64 else 0#64) <<< (pos % 64)

/-- `operator[]` / `test`, lib/include/basic_bit_vector.hpp:87-92, lib/include/basic_bit_matrix.hpp:77-81:
`!!(m_vector[pos / block_bits] & set_mask(pos))` -/
def bitTest (v : List Block) (pos : Nat) : Res Bool :=
  (rd v (pos / 64)).bind fun b => .ok (b &&& setMask pos != 0#64)

/-- `set`, lib/include/basic_bit_vector.hpp:94-98, lib/include/basic_bit_matrix.hpp:59-63 -/
def bitSet (v : List Block) (pos : Nat) : Res (List Block) :=
  (rd v (pos / 64)).bind fun b => wr v (pos / 64) (b ||| setMask pos)

/-- `clear`, lib/include/basic_bit_vector.hpp:100-104, lib/include/basic_bit_matrix.hpp:65-69 -/
def bitClear (v : List Block) (pos : Nat) : Res (List Block) :=
  (rd v (pos / 64)).bind fun b => wr v (pos / 64) (b &&& clearMask pos)

/-- `flip`, lib/include/basic_bit_vector.hpp:106-110, lib/include/basic_bit_matrix.hpp:71-75 -/
def bitFlip (v : List Block) (pos : Nat) : Res (List Block) :=
  (rd v (pos / 64)).bind fun b => wr v (pos / 64) (b ^^^ setMask pos)

/-- `assign`, lib/include/basic_bit_vector.hpp:112-123 -/
def bitAssign (v : List Block) (pos : Nat) (val : Bool) : Res (List Block) :=
  if val then bitSet v pos else bitClear v pos

/-- `XOR`, lib/include/basic_bit_vector.hpp:126-130 -/
def bitXor (v : List Block) (pos : Nat) (val : Bool) : Res (List Block) :=
  (rd v (pos / 64)).bind fun b => wr v (pos / 64) (b ^^^ xorMask pos val)

/-- `basic_bit_vector<uint64_t>`, lib/include/basic_bit_vector.hpp:146-147 -/
structure BitVector where
  len : Nat
  blocks : List Block
deriving DecidableEq, Repr

/-- `explicit basic_bit_vector(bitlen)`, lib/include/basic_bit_vector.hpp:44-48 -/
def BitVector.ofLen (n : Nat) : BitVector := ⟨n, List.replicate ((n + 63) / 64) 0#64⟩

/-- `basic_bit_vector(bitlen, aligned_vector &&)`, lib/include/basic_bit_vector.hpp:37-42 -/
def BitVector.ofBlocks (n : Nat) (v : List Block) : BitVector := ⟨min n (v.length * 64), v⟩

/-- `content_blocks`, lib/include/basic_bit_vector.hpp:63-67 -/
def BitVector.contentBlocks (v : BitVector) : Nat := (v.len + 63) / 64

/-- `tail_bits`, lib/include/basic_bit_vector.hpp:140-144 -/
def BitVector.tailBits (v : BitVector) : Nat := v.len % 64

/-- The loop of `from_range`, lib/include/basic_bit_vector_companion.hpp:33-39: `pos` counts
the elements already consumed. -/
def fromRangeLoop : List Bool → (pos : Nat) → List Block → Res (List Block)
  | [], _, v => .ok v
  | b :: bs, pos, v =>
    if b then (bitSet v pos).bind (fromRangeLoop bs (pos + 1))
    else fromRangeLoop bs (pos + 1) v

/-- `from_range`, lib/include/basic_bit_vector_companion.hpp:19-42; the elements are given
as the truth values of `*it`. -/
def fromRange (bs : List Bool) : Res BitVector :=
  let rv := BitVector.ofBlocks bs.length (List.replicate ((bs.length + 63) / 64) 0#64)
  (fromRangeLoop bs 0 rv.blocks).bind fun v => .ok { rv with blocks := v }

/-- `check_clear_padding` for bit vectors, lib/src/tsetlini.cpp:68-84.
`vec.block_bits - padding_nbits` is computed in `size_t` and used as a shift
amount: it is out of range exactly when `padding_nbits > 64`.  (No constructor makes a
vector longer than its blocks, so the subtraction `capacity - size` does not wrap.) -/
def bitClearPadding (v : BitVector) : Res Bool :=
  let padding := v.blocks.length * 64 - v.len
  if padding ≠ 0 then
    if padding > 64 then .ub .shift else
    match v.blocks.getLast? with
    | none => .ub .emptyRange
    | some b => .ok (b &&& (BitVec.allOnes 64 <<< (64 - padding)) == 0#64)
  else .ok true

/-- `is_power_of_two`, lib/include/is_power_of_two.hpp:7-11: `x && !(x & (x - 1))` -/
def isPowerOfTwo (x : BitVec 32) : Bool := x != 0#32 && (x &&& (x - 1#32)) == 0#32

end Tsetlini
