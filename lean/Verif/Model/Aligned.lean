import Verif.Model.Classic
/-
Aligned storage: lib/include/aligned_array.hpp (used by the unit tests only) and the size computation of
lib/include/aligned_allocator.hpp.
-/
namespace Tsetlini

/-- What `aligned_allocator::allocate` does: return NULL, throw `std::length_error`, or call `_mm_malloc` for that many bytes
(and throw `std::bad_alloc` if that fails). lib/include/aligned_allocator.hpp:105-135 -/
inductive Allocation where
  | null
  | lengthError
  | request (bytes : BitVec 64)
deriving DecidableEq, Repr

/-- `max_size`, lib/include/aligned_allocator.hpp:52-57, for `sizeof(T) = size` -/
def maxSize (size : BitVec 64) : BitVec 64 := (0#64 - 1#64) / size

/-- `allocate(n)`, lib/include/aligned_allocator.hpp:105-135 -/
def allocate (size n : BitVec 64) : Allocation :=
  if n = 0#64 then .null
  else if maxSize size < n then .lengthError
  else .request (n * size)

/-- `AlignedArray<Tp, Nelem, Alignment>`, lib/include/aligned_array.hpp:14-93: `addr` is the address of `a[0]`, `size` is
`sizeof(Tp)`; the elements are stored as `size` bytes each. -/
structure AlignedArray where
  addr : BitVec 64
  offset : BitVec 64
  a : List Byte
deriving DecidableEq, Repr

/-- The initializer of `offset`, lib/include/aligned_array.hpp:31,36 -/
def alignedOffset (alignment addr : BitVec 64) : BitVec 64 := ((addr + alignment - 1#64) &&& ~~~(alignment - 1#64)) - addr

/-- `AlignedArray()`, lib/include/aligned_array.hpp:30-33, at an address, over whatever the memory there holds (`mem`: as many bytes as
the declaration of `a` in line 92 says). -/
def AlignedArray.new (alignment addr : BitVec 64) (mem : List Byte) : AlignedArray := ⟨addr, alignedOffset alignment addr, mem⟩

/-- The number of bytes of `a`, lib/include/aligned_array.hpp:92 -/
def AlignedArray.bytes (alignment : BitVec 64) (nelem size : Nat) : Nat := alignment.toNat - 1 + nelem * size

/-- The address `data()` returns, lib/include/aligned_array.hpp:50-58 -/
def AlignedArray.data (v : AlignedArray) : BitVec 64 := v.addr + v.offset

/-- Reading `operator[](pos)`, lib/include/aligned_array.hpp:60-68: an element's bytes -/
def AlignedArray.get (size : Nat) (v : AlignedArray) (pos : Nat) : Res (List Byte) :=
  let o := v.offset.toNat + pos * size
  if o + size ≤ v.a.length then .ok ((v.a.drop o).take size) else .ub .oob

/-- Writing `operator[](pos)`, lib/include/aligned_array.hpp:60-63: `e` are the `size` bytes of the new value -/
def AlignedArray.put (size : Nat) (v : AlignedArray) (pos : Nat) (e : List Byte) : Res AlignedArray :=
  let o := v.offset.toNat + pos * size
  if o + size ≤ v.a.length then .ok { v with a := v.a.take o ++ e ++ v.a.drop (o + size) } else .ub .oob

/-- `operator=`, lib/include/aligned_array.hpp:44-48: `std::copy_n` element by element (another object). -/
def AlignedArray.assign (size nelem : Nat) (v other : AlignedArray) : Res AlignedArray :=
  iter (range 0 nelem) (fun i v => (AlignedArray.get size other i).bind fun e => AlignedArray.put size v i e) v

/-- The copy constructor, lib/include/aligned_array.hpp:35-42, at another address. -/
def AlignedArray.copy (alignment : BitVec 64) (size nelem : Nat) (addr : BitVec 64) (mem : List Byte) (other : AlignedArray) :
    Res AlignedArray :=
  AlignedArray.assign size nelem (AlignedArray.new alignment addr mem) other

/-- `operator==`, lib/include/aligned_array.hpp:96-101: `std::equal` stops at the first difference; elements whose `==` compares
bytes (integers). -/
def AlignedArray.eqFrom (size : Nat) (v w : AlignedArray) : List Nat → Res Bool
  | [] => .ok true
  | i :: is =>
    (AlignedArray.get size v i).bind fun x => (AlignedArray.get size w i).bind fun y =>
    if x = y then AlignedArray.eqFrom size v w is else .ok false

/-- `operator==`, lib/include/aligned_array.hpp:96-101 -/
def AlignedArray.eq (size nelem : Nat) (v w : AlignedArray) : Res Bool := AlignedArray.eqFrom size v w (range 0 nelem)

end Tsetlini
