import Verif.Lemmas.RealEnv
import Verif.Lemmas.TossEnd
/-
C41: the generator.
-/
namespace Tsetlini
open Res Spec

/-! ### C41 -/

/-- **C41**: a generator seeded over memory with any contents and then drawn from any number of times never leaves
its tables, and yields the tempered words of the recurrence. `post` is the conversion of a word to a result. -/
theorem C41_draws {V : Type} (post : BitVec 32 → V) (zero : V) (m : Mt V) (hr : m.res.length = 4992)
    (hm : m.mt.length = 4992) (seed : BitVec 32) (n : Nat) :
    ∃ m0 m', m.init zero seed = .ok m0 ∧
      Mt.rands post n m0 = .ok ((List.range n).map (fun i => post (mtDraw seed i)), m') ∧
      m'.index < 4992 ∧ m'.index = n % 4992 ∧ m'.res.length = 4992 ∧ m'.mt.length = 4992 := by
  obtain ⟨m0, e0, h0, -⟩ := init_ret post zero m hr hm seed
  obtain ⟨⟨ys, m'⟩, e1, h1, h2⟩ := rands_ret post n h0
  dsimp only at h1
  subst h1
  rw [Nat.zero_add] at h2
  refine ⟨m0, m', e0, ?_, ?_, h2.index, h2.resLen, h2.words.1⟩
  · rw [e1, List.range_eq_range']
  · rw [h2.index]; exact Nat.mod_lt _ (by decide)

/-- **C41**: the float generator yields the draws `y` of the integer generator with the same seed, converted
to `(y + 0.5f) * (1.0f / 4294967296)`, every operation rounded. -/
theorem C41_frng (rnd : Rat → Rat) (m : Mt (BitVec 32)) (f : Mt Rat) (h1 : m.res.length = 4992) (h2 : m.mt.length = 4992)
    (h3 : f.res.length = 4992) (h4 : f.mt.length = 4992) (seed : BitVec 32) (n : Nat) :
    ∃ m0 m' f0 f' ys, m.init 0#32 seed = .ok m0 ∧ f.init 0 seed = .ok f0 ∧ Mt.rands irngPost n m0 = .ok (ys, m') ∧
      Mt.rands (frngPost rnd) n f0 = .ok (ys.map (fun y => rnd (rnd (rnd y.toNat + 1 / 2) * (1 / 4294967296))), f') := by
  obtain ⟨m0, m', e1, e2, -⟩ := C41_draws irngPost 0#32 m h1 h2 seed n
  obtain ⟨f0, f', e3, e4, -⟩ := C41_draws (frngPost rnd) 0 f h3 h4 seed n
  refine ⟨m0, m', f0, f', _, e1, e3, e2, ?_⟩
  rw [e4, List.map_map]
  rfl

/-- **C41**: in binary32 arithmetic every draw of the float generator lies in (0, 1]. -/
theorem C41_frng_range (y : BitVec 32) : 0 < frngPost rne32 y ∧ frngPost rne32 y ≤ 1 := by
  have hm : ∀ {x z : Rat}, x ≤ z → rne32 x ≤ rne32 z := fun h => rne_mono (by decide) h
  have hy : (y.toNat : Rat) ≤ 4294967296 := by
    have := y.isLt
    have : y.toNat ≤ 4294967296 := by omega
    exact_mod_cast this
  have h0 : (0 : Rat) ≤ y.toNat := by exact_mod_cast Nat.zero_le _
  have a0 := hm h0
  have a1 := hm hy
  rw [show rne32 0 = 0 by decide +kernel] at a0
  rw [show rne32 4294967296 = 4294967296 by decide +kernel] at a1
  unfold frngPost
  generalize rne32 (y.toNat : Rat) = A at *
  have b0 := hm (show (1 / 2 : Rat) ≤ A + 1 / 2 by grind)
  have b1 := hm (show A + 1 / 2 ≤ (4294967296 + 1 / 2 : Rat) by grind)
  rw [show rne32 (1 / 2) = 1 / 2 by decide +kernel] at b0
  rw [show rne32 (4294967296 + 1 / 2) = 4294967296 by decide +kernel] at b1
  generalize rne32 (A + 1 / 2) = C at *
  have c0 := hm (show (1 / 8589934592 : Rat) ≤ C * (1 / 4294967296) by grind)
  have c1 := hm (show C * (1 / 4294967296) ≤ (1 : Rat) by grind)
  rw [show rne32 (1 / 8589934592) = 1 / 8589934592 by decide +kernel] at c0
  rw [show rne32 1 = 1 by decide +kernel] at c1
  constructor <;> grind

/-- The upper bound is attained, so the draws are not below 1 as those of `std::uniform_real_distribution`. -/
example : frngPost rne32 0xFFFFFFFF#32 = 1 ∧ frngPost rne32 0#32 = 1 / 8589934592 := by
  constructor <;> decide +kernel

/-- **C41**: the environment assumed in the other properties has this generator as an instance: draw `n`
of a generator made with `seed` is draw `n` of the recurrence. -/
theorem C41_env (u : Unspecified) (seed : BitVec 32) (n : Nat) :
    draw (realEnv u) ((realEnv u).seedG seed) n = mtDraw seed n := by
  have key : ∀ (n k : Nat) (g : Irng), MtOk irngPost seed k g.1 → draw (realEnv u) g n = mtDraw seed (k + n) := by
    intro n
    induction n with
    | zero => intro k g h; exact (MtGen.next_eq h).1
    | succ n ih =>
      intro k g h
      have := ih (k + 1) g.next.2 (MtGen.next_eq h).2
      rw [show k + 1 + n = k + (n + 1) by omega] at this
      exact this
  have := key n 0 (MtGen.seed irngPost 0#32 seed) (MtGen.seed_ok 0#32 seed)
  rw [Nat.zero_add] at this
  exact this

/-- The streams of a seed: its first words, and the first draw of seed 1 (as the C++ code computes it). -/
example : mtWord 1#32 0 = 1#32 ∧ mtWord 1#32 7 = 8#32 ∧ mtWord 1#32 8 = 1812433254#32 := by
  refine ⟨?_, ?_, ?_⟩
  · rw [mtWord]; rfl
  · rw [mtWord]; rfl
  · rw [mtWord, mtWord]; rfl

end Tsetlini
