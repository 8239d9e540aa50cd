import Verif.Spec.Mt
import Verif.Model.Mt
import Verif.Lemmas.Res
/- The generator computes the recurrence. -/
namespace Tsetlini
open Res Spec

/-- The words during the renewal of block `g`: those before `i` are new. -/
def MtAt (seed : BitVec 32) (g i : Nat) (mt : List (BitVec 32)) : Prop :=
  mt.length = 4992 ∧ ∀ j, j < 4992 → mt[j]? = some (mtWord seed (if j < i then 4992 * (g + 1) + j else 4992 * g + j))

theorem mtGrow_eq (w : BitVec 32) (n : Nat) : mtGrow w n = mtNext w (n / 8) := rfl

theorem mtTemper_eq (w : BitVec 32) : mtTemper w = mtTempered w := rfl

theorem mtTwist_eq (a b c : BitVec 32) : mtTwist a b c = mtTwisted a b c := by
  have e1 : a &&& 0x8000000#32 = if a.getLsbD 27 then 0x08000000#32 else 0#32 := by
    apply BitVec.eq_of_getLsbD_eq
    intro i hi
    rw [BitVec.getLsbD_and, show (0x8000000#32 : BitVec 32) = BitVec.twoPow 32 27 from rfl, BitVec.getLsbD_twoPow]
    by_cases h : a.getLsbD 27
    · rw [if_pos h, BitVec.getLsbD_twoPow]
      by_cases h' : (27 : Nat) = i
      · subst h'; simp [h]
      · simp [h']
    · rw [if_neg h]
      by_cases h' : (27 : Nat) = i
      · subst h'; rw [Bool.not_eq_true] at h; rw [h]; simp
      · simp [h']
  have e2 : b &&& 0x7FFFFFFF#32 = b % 0x80000000#32 := by
    apply BitVec.eq_of_toNat_eq
    rw [BitVec.toNat_and, BitVec.toNat_umod]
    exact Nat.and_two_pow_sub_one_eq_mod b.toNat 31
  unfold mtTwist mtTwisted
  dsimp only
  rw [e1, e2]
  generalize (if a.getLsbD 27 then 0x08000000#32 else 0#32) + b % 0x80000000#32 = y
  have e3 : y >>> 1 = y / 2#32 := by
    apply BitVec.eq_of_toNat_eq
    rw [BitVec.toNat_ushiftRight, BitVec.toNat_udiv]
    exact Nat.shiftRight_eq_div_pow _ 1
  have e4 : (y &&& 1#32 = 1#32) ↔ y.getLsbD 0 = true := by
    rw [show (1#32 : BitVec 32) = BitVec.twoPow 32 0 from rfl]
    constructor
    · intro h
      have := congrArg (fun z => BitVec.getLsbD z 0) h
      simpa [BitVec.getLsbD_and, BitVec.getLsbD_twoPow] using this
    · intro h
      apply BitVec.eq_of_getLsbD_eq
      intro i hi
      rw [BitVec.getLsbD_and, BitVec.getLsbD_twoPow]
      by_cases h' : (0 : Nat) = i
      · subst h'; simp [h]
      · simp [h']
  rw [e3]
  by_cases h : y.getLsbD 0 = true
  · rw [if_pos (e4.2 h), if_pos h]
  · rw [if_neg (fun h' => h (e4.1 h')), if_neg h]

theorem mtWord_twist (seed : BitVec 32) {n : Nat} (h : 4992 ≤ n) :
    mtWord seed n = mtTwist (mtWord seed (n - 4992)) (mtWord seed (n - 4984)) (mtWord seed (n - 1816)) := by
  rw [mtWord, if_neg (by omega), if_neg (by omega), mtTwist_eq]

theorem mtLoop_ret {seed : BitVec 32} {g : Nat} {b c : Nat → Nat} {lo hi : Nat} (hlo : lo ≤ hi) (hhi : hi ≤ 4992)
    (hb : ∀ i, lo ≤ i → i < hi → b i < 4992 ∧
      (if b i < i then 4992 * (g + 1) + b i else 4992 * g + b i) = 4992 * g + i + 8)
    (hc : ∀ i, lo ≤ i → i < hi → c i < 4992 ∧
      (if c i < i then 4992 * (g + 1) + c i else 4992 * g + c i) = 4992 * g + i + 3176)
    {mt : List (BitVec 32)} (h : MtAt seed g lo mt) :
    (mtLoop b c (range lo hi) mt).Ret fun mt' => MtAt seed g hi mt' := by
  unfold mtLoop range
  refine (iter_range'_ret (P := fun i mt => MtAt seed g i mt) (hi - lo) lo mt h ?_).mono fun mt' h' => ?_
  · intro i h1 h2 mt h3
    have hi' : i < 4992 := by omega
    obtain ⟨b1, b2⟩ := hb i h1 (by omega)
    obtain ⟨c1, c2⟩ := hc i h1 (by omega)
    have e1 := h3.2 i hi'
    rw [if_neg (by omega)] at e1
    have e2 := h3.2 (b i) b1
    rw [b2] at e2
    have e3 := h3.2 (c i) c1
    rw [c2] at e3
    rw [rd_of_getElem? e1, ok_bind, rd_of_getElem? e2, ok_bind, rd_of_getElem? e3, ok_bind, wr_ok (by rw [h3.1]; exact hi'),
      ret_ok]
    refine ⟨by rw [List.length_set]; exact h3.1, fun j hj => ?_⟩
    rw [List.getElem?_set]
    by_cases hij : i = j
    · subst hij
      rw [if_pos rfl, if_pos (by rw [h3.1]; exact hi'), if_pos (by omega), mtWord_twist seed (n := 4992 * (g + 1) + i) (by omega)]
      rw [show 4992 * (g + 1) + i - 4992 = 4992 * g + i by omega, show 4992 * (g + 1) + i - 4984 = 4992 * g + i + 8 by omega,
        show 4992 * (g + 1) + i - 1816 = 4992 * g + i + 3176 by omega]
    · rw [if_neg hij, h3.2 j hj]
      by_cases hlt : j < i
      · rw [if_pos hlt, if_pos (by omega)]
      · rw [if_neg hlt, if_neg (by omega)]
  · rw [show lo + (hi - lo) = hi by omega] at h'
    exact h'

/-- A generator that has output `n` words. -/
structure MtOk {V : Type} (post : BitVec 32 → V) (seed : BitVec 32) (n : Nat) (m : Mt V) : Prop where
  index : m.index = n % 4992
  resLen : m.res.length = 4992
  words : MtAt seed ((n + 4991) / 4992) 0 m.mt
  res : n % 4992 ≠ 0 → ∀ j, j < 4992 → m.res[j]? = some (post (mtDraw seed (n / 4992 * 4992 + j)))

theorem init_ret {V : Type} (post : BitVec 32 → V) (zero : V) (m : Mt V) (hr : m.res.length = 4992) (hm : m.mt.length = 4992)
    (seed : BitVec 32) : (m.init zero seed).Ret fun m' => MtOk post seed 0 m' ∧ m'.res = List.replicate 4992 zero := by
  unfold Mt.init
  refine Ret.bind (P := fun mt : List (BitVec 32) => mt.length = 4992 ∧ ∀ j, j < 8 → mt[j]? = some (mtWord seed j)) ?_ ?_
  · unfold range
    refine (iter_range'_ret (P := fun i (mt : List (BitVec 32)) => mt.length = 4992 ∧ ∀ j, j < i → mt[j]? = some (mtWord seed j))
      (8 - 0) 0 m.mt ⟨hm, fun j hj => absurd hj (Nat.not_lt_zero _)⟩ ?_).mono fun mt h => h
    intro i h1 h2 mt h3
    rw [wr_ok (by rw [h3.1]; omega), ret_ok]
    refine ⟨by rw [List.length_set]; exact h3.1, fun j hj => ?_⟩
    rw [List.getElem?_set]
    by_cases hij : i = j
    · subst hij
      rw [if_pos rfl, if_pos (by rw [h3.1]; omega), mtWord, if_pos (by omega)]
    · rw [if_neg hij]
      exact h3.2 j (by omega)
  · rintro mt ⟨l1, e1⟩
    refine Ret.bind (P := fun mt : List (BitVec 32) => mt.length = 4992 ∧ ∀ j, j < 4992 → mt[j]? = some (mtWord seed j)) ?_ ?_
    · unfold range mtLen
      refine (iter_range'_ret (P := fun i (mt : List (BitVec 32)) => mt.length = 4992 ∧ ∀ j, j < i → mt[j]? = some (mtWord seed j))
        (4992 - 8) 8 mt ⟨l1, e1⟩ ?_).mono fun mt h => h
      intro i h1 h2 mt h3
      rw [rd_of_getElem? (h3.2 (i - 8) (by omega)), ok_bind, wr_ok (by rw [h3.1]; omega), ret_ok]
      refine ⟨by rw [List.length_set]; exact h3.1, fun j hj => ?_⟩
      rw [List.getElem?_set]
      by_cases hij : i = j
      · subst hij
        rw [if_pos rfl, if_pos (by rw [h3.1]; omega)]
        conv => rhs; rw [mtWord]
        rw [if_neg (by omega), if_pos (by omega), mtGrow_eq]
      · rw [if_neg hij]
        exact h3.2 j (by omega)
    · rintro mt ⟨l2, e2⟩
      rw [ret_ok, hr]
      refine ⟨⟨rfl, List.length_replicate, ⟨l2, fun j hj => ?_⟩, fun h => absurd rfl h⟩, rfl⟩
      rw [if_neg (Nat.not_lt_zero _), Nat.mul_zero, Nat.zero_add]
      exact e2 j hj

theorem generate_ret {V : Type} (post : BitVec 32 → V) {seed : BitVec 32} {g : Nat} {m : Mt V}
    (hr : m.res.length = 4992) (hm : MtAt seed g 0 m.mt) :
    (m.generate post).Ret fun m' => m'.index = m.index ∧ m'.res.length = 4992 ∧ MtAt seed (g + 1) 0 m'.mt ∧
      ∀ j, j < 4992 → m'.res[j]? = some (post (mtDraw seed (4992 * g + j))) := by
  unfold Mt.generate
  refine Ret.bind (mtLoop_ret (by decide) (by decide) ?_ ?_ hm) ?_
  · intro i h1 h2; rw [if_neg (by omega)]; omega
  · intro i h1 h2; rw [if_neg (by omega)]; omega
  intro mt1 h1
  refine Ret.bind (mtLoop_ret (by decide) (by decide) ?_ ?_ h1) ?_
  · intro i h1 h2; rw [if_neg (by omega)]; omega
  · intro i h1 h2; rw [if_pos (by omega)]; omega
  intro mt2 h2
  refine Ret.bind (mtLoop_ret (by decide) (by decide) ?_ ?_ h2) ?_
  · intro i h1 h2; rw [if_pos (by omega)]; omega
  · intro i h1 h2; rw [if_pos (by omega)]; omega
  intro mt3 h3
  have h4 : MtAt seed (g + 1) 0 mt3 := by
    refine ⟨h3.1, fun j hj => ?_⟩
    rw [h3.2 j hj, if_pos hj, if_neg (Nat.not_lt_zero _)]
  refine Ret.bind (P := fun res : List V => res.length = 4992 ∧
    ∀ j, j < 4992 → res[j]? = some (post (mtDraw seed (4992 * g + j)))) ?_ ?_
  · unfold range mtLen
    refine (iter_range'_ret (P := fun i (res : List V) => res.length = 4992 ∧
      ∀ j, j < i → res[j]? = some (post (mtDraw seed (4992 * g + j)))) (4992 - 0) 0 m.res
      ⟨hr, fun j hj => absurd hj (Nat.not_lt_zero _)⟩ ?_).mono fun res h => h
    intro i a1 a2 res a3
    have e := h4.2 i (by omega)
    rw [if_neg (Nat.not_lt_zero _)] at e
    rw [rd_of_getElem? e, ok_bind, wr_ok (by rw [a3.1]; omega), ret_ok]
    refine ⟨by rw [List.length_set]; exact a3.1, fun j hj => ?_⟩
    rw [List.getElem?_set]
    by_cases hij : i = j
    · subst hij
      rw [if_pos rfl, if_pos (by rw [a3.1]; omega)]
      unfold mtDraw
      rw [show 4992 * (g + 1) + i = 4992 + (4992 * g + i) by omega, mtTemper_eq]
    · rw [if_neg hij]
      exact a3.2 j (by omega)
  · rintro res ⟨r1, r2⟩
    rw [ret_ok]
    exact ⟨rfl, r1, h4, r2⟩

theorem rand_ret {V : Type} (post : BitVec 32 → V) {seed : BitVec 32} {n : Nat} {m : Mt V} (h : MtOk post seed n m) :
    (m.rand post).Ret fun r => r.1 = post (mtDraw seed n) ∧ MtOk post seed (n + 1) r.2 := by
  have hi := h.index
  unfold Mt.rand
  refine Ret.bind (P := fun m' : Mt V => m'.index = n % 4992 ∧ m'.res.length = 4992 ∧ MtAt seed (n / 4992 + 1) 0 m'.mt ∧
    ∀ j, j < 4992 → m'.res[j]? = some (post (mtDraw seed (n / 4992 * 4992 + j)))) ?_ ?_
  · by_cases h0 : m.index = 0
    · rw [if_pos h0]
      have hw := h.words
      rw [show (n + 4991) / 4992 = n / 4992 by omega] at hw
      refine (generate_ret post h.resLen hw).mono ?_
      rintro m' ⟨a1, a2, a3, a4⟩
      exact ⟨a1.trans hi, a2, a3, fun j hj => by rw [a4 j hj, Nat.mul_comm]⟩
    · rw [if_neg h0, ret_ok]
      have hw := h.words
      rw [show (n + 4991) / 4992 = n / 4992 + 1 by omega] at hw
      exact ⟨hi, h.resLen, hw, h.res (by omega)⟩
  · rintro m' ⟨a1, a2, a3, a4⟩
    have hlt : n % 4992 < 4992 := Nat.mod_lt _ (by decide)
    rw [a1, rd_of_getElem? (a4 _ hlt), ok_bind, ret_ok]
    refine ⟨by rw [show n / 4992 * 4992 + n % 4992 = n by omega], ⟨?_, a2, ?_, ?_⟩⟩
    · dsimp only; unfold mtLen; split <;> omega
    · rw [show (n + 1 + 4991) / 4992 = n / 4992 + 1 by omega]; exact a3
    · intro hne j hj
      rw [show (n + 1) / 4992 = n / 4992 by omega]
      exact a4 j hj

theorem rands_ret {V : Type} (post : BitVec 32 → V) {seed : BitVec 32} (k : Nat) {n : Nat} {m : Mt V} (h : MtOk post seed n m) :
    (Mt.rands post k m).Ret fun r => r.1 = (List.range' n k).map (fun i => post (mtDraw seed i)) ∧
      MtOk post seed (n + k) r.2 := by
  induction k generalizing n m with
  | zero => exact ⟨_, rfl, rfl, h⟩
  | succ k ih =>
    unfold Mt.rands
    refine Ret.bind (rand_ret post h) ?_
    rintro ⟨y, m1⟩ ⟨h1, h2⟩
    refine Ret.bind (ih h2) ?_
    rintro ⟨ys, m2⟩ ⟨h3, h4⟩
    rw [ret_ok]
    dsimp only at *
    refine ⟨?_, by rw [show n + (k + 1) = n + 1 + k by omega]; exact h4⟩
    rw [h1, h3, List.range'_succ, List.map_cons]

end Tsetlini
