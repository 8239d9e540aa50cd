/- Specification of the generator: the sequence of words by recurrence. Nothing of the model is used. -/
namespace Tsetlini.Spec

/-- MT19937's initialisation, 1812433253 * (w ^ (w >> 30)) + j, for word `j` of a stream. -/
def mtNext (w : BitVec 32) (j : Nat) : BitVec 32 :=
  0x6C078965#32 * (w ^^^ w >>> 30) + BitVec.ofNat 32 j

/-- MT19937's twist of three words, except that of the first word it is bit 27 (not bit 31) that is used, and that
it is added to (not joined with) the low 31 bits of the second. -/
def mtTwisted (a b c : BitVec 32) : BitVec 32 :=
  let y := (if a.getLsbD 27 then 0x08000000#32 else 0#32) + b % 0x80000000#32
  (c ^^^ y / 2#32) ^^^ (if y.getLsbD 0 then 0x9908B0DF#32 else 0#32)

/-- MT19937's tempering. -/
def mtTempered (w : BitVec 32) : BitVec 32 :=
  let w1 := w ^^^ w >>> 11
  let w2 := w1 ^^^ (w1 <<< 7 &&& 0x9D2C5680#32)
  let w3 := w2 ^^^ (w2 <<< 15 &&& 0xEFC60000#32)
  w3 ^^^ w3 >>> 18

/-- Word `n` of the sequence that a seed starts. Words `s, s+8, s+16, …` (`s < 8`) are one stream: its first word
is `seed + s`, 623 more come from the initialisation, and every word after them is the twist of
the words 624 and 623 places and the word 227 places before it in the stream. -/
def mtWord (seed : BitVec 32) (n : Nat) : BitVec 32 :=
  if n < 8 then BitVec.ofNat 32 n + seed
  else if n < 4992 then mtNext (mtWord seed (n - 8)) (n / 8)
  else mtTwisted (mtWord seed (n - 8 * 624)) (mtWord seed (n - 8 * 623)) (mtWord seed (n - 8 * 227))
termination_by n

/-- Draw `n` of a generator made with `seed`: the first 4992 words are not output. -/
def mtDraw (seed : BitVec 32) (n : Nat) : BitVec 32 := mtTempered (mtWord seed (4992 + n))

end Tsetlini.Spec
