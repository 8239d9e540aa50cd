import Verif.Lemmas.Mt
import Verif.Lemmas.Ieee
/-
The environment with the generator of lib/include/mt.hpp and IEEE arithmetic. What C++ leaves to the
implementation stays a parameter.
-/
namespace Tsetlini
open Res Spec

/-- The value of code that is known to return. -/
def Res.get {α : Type} {P : α → Prop} : (r : Res α) → r.Ret P → { a // P a }
  | .ok a, h => ⟨a, ret_ok.1 h⟩
  | .ub _, h => absurd h (by rintro ⟨_, h, _⟩; cases h)
  | .exn _, h => absurd h (by rintro ⟨_, h, _⟩; cases h)
  | .timeout, h => absurd h (by rintro ⟨_, h, _⟩; cases h)

theorem Res.get_eq {α : Type} {P : α → Prop} (r : Res α) (h : r.Ret P) : r = .ok (r.get h).1 := by
  cases r with
  | ok a => rfl
  | _ => obtain ⟨_, h, _⟩ := h; cases h

/-- Generators a program can get hold of: made with a seed, drawn from some number of times. -/
def MtGen {V : Type} (post : BitVec 32 → V) : Type := { m : Mt V // ∃ seed n, MtOk post seed n m }

section
variable {V : Type} {post : BitVec 32 → V}

/-- A generator before its initialisation. -/
def mtBlank (zero : V) (n : Nat) : Mt V := ⟨0, List.replicate n zero, List.replicate n 0#32⟩

theorem mtBlank_res (zero : V) (n : Nat) : (mtBlank zero n).res.length = n := List.length_replicate
theorem mtBlank_mt (zero : V) (n : Nat) : (mtBlank zero n).mt.length = n := List.length_replicate

theorem seed_ret (post : BitVec 32 → V) (zero : V) (s : BitVec 32) :
    ((mtBlank zero 4992).init zero s).Ret fun m => MtOk post s 0 m :=
  (init_ret post zero (mtBlank zero 4992) (mtBlank_res zero 4992) (mtBlank_mt zero 4992) s).mono fun _ h => h.1

/-- A newly seeded generator. -/
@[irreducible] def seedRes (post : BitVec 32 → V) (zero : V) (s : BitVec 32) : { m // MtOk post s 0 m } :=
  Res.get _ (seed_ret post zero s)

/-- As a generator. -/
def MtGen.of {s : BitVec 32} {n : Nat} (x : { m // MtOk post s n m }) : MtGen post := ⟨x.1, s, n, x.2⟩

theorem MtGen.of_ok {s : BitVec 32} {n : Nat} (x : { m // MtOk post s n m }) : MtOk post s n (MtGen.of x).1 := x.2

def MtGen.seed (post : BitVec 32 → V) (zero : V) (s : BitVec 32) : MtGen post := MtGen.of (seedRes post zero s)

theorem MtGen.seed_ok (zero : V) (s : BitVec 32) : MtOk post s 0 (MtGen.seed post zero s).1 := MtGen.of_ok (seedRes post zero s)

theorem MtGen.rand_ret (g : MtGen post) : (g.1.rand post).Ret fun r => (∃ seed n, MtOk post seed n r.2) ∧ ∃ y, r.1 = post y := by
  obtain ⟨m, seed, n, h⟩ := g
  exact (Tsetlini.rand_ret post h).mono fun r hr => ⟨⟨seed, n + 1, hr.2⟩, _, hr.1⟩

def MtGen.next (g : MtGen post) : V × MtGen post :=
  let r := Res.get _ g.rand_ret
  (r.1.1, ⟨r.1.2, r.2.1⟩)

theorem MtGen.next_post (g : MtGen post) : ∃ y, g.next.1 = post y := (Res.get _ g.rand_ret).2.2

theorem MtGen.next_eq {g : MtGen post} {seed : BitVec 32} {n : Nat} (h : MtOk post seed n g.1) :
    g.next.1 = post (mtDraw seed n) ∧ MtOk post seed (n + 1) g.next.2.1 := by
  obtain ⟨r, hr, h1, h2⟩ := Tsetlini.rand_ret post h
  have e' := Res.ok.inj (hr.symm.trans (Res.get_eq _ g.rand_ret))
  unfold MtGen.next
  dsimp only
  rw [← e']
  exact ⟨h1, h2⟩

end

/-- `IRNG` -/
abbrev Irng : Type := MtGen irngPost

/-- A finite `float`: a number that rounding to binary32 leaves as it is, below the range's end. -/
def F32 : Type := { q : Rat // rne32 q = q ∧ -((2 ^ 128 : Nat) : Rat) < q ∧ q < ((2 ^ 128 : Nat) : Rat) }

theorem frngPost_bounds (y : BitVec 32) : 0 ≤ frngPost rne32 y ∧ frngPost rne32 y ≤ 2 := by
  have mono : ∀ {x z : Rat}, x ≤ z → rne32 x ≤ rne32 z := fun h => rne_mono (by decide) h
  have z : rne32 0 = 0 := by decide +kernel
  have hy0 : (0 : Rat) ≤ (y.toNat : Rat) := by
    have := Rat.natCast_le_natCast.2 (Nat.zero_le y.toNat)
    simpa using this
  have hy1 : (y.toNat : Rat) ≤ 4294967296 := by
    have := Rat.natCast_le_natCast.2 (Nat.le_of_lt y.isLt)
    simpa using this
  have a0 : 0 ≤ rne32 (y.toNat : Rat) := by have := mono hy0; rwa [z] at this
  have a1 : rne32 (y.toNat : Rat) ≤ 4294967296 := by
    have := mono hy1
    rwa [show rne32 4294967296 = 4294967296 by decide +kernel] at this
  have b0 : 0 ≤ rne32 (rne32 (y.toNat : Rat) + 1/2) := by
    have := mono (x := 0) (z := rne32 (y.toNat : Rat) + 1/2) (by grind)
    rwa [z] at this
  have b1 : rne32 (rne32 (y.toNat : Rat) + 1/2) ≤ 8589934592 := by
    have := mono (x := rne32 (y.toNat : Rat) + 1/2) (z := 8589934592) (by grind)
    rwa [show rne32 8589934592 = 8589934592 by decide +kernel] at this
  unfold frngPost
  constructor
  · have := mono (x := 0) (z := rne32 (rne32 (y.toNat : Rat) + 1/2) * (1 / 4294967296)) (by grind)
    rwa [z] at this
  · have := mono (x := rne32 (rne32 (y.toNat : Rat) + 1/2) * (1 / 4294967296)) (z := 2) (by grind)
    rwa [show rne32 2 = 2 by decide +kernel] at this

/-- `FRNG::post_process` -/
def frngPost32 (y : BitVec 32) : F32 :=
  ⟨frngPost rne32 y, rne_idem (by decide) _,
   Rat.not_le.1 fun h => absurd (Rat.le_trans (frngPost_bounds y).1 h) (show ¬ (0 : Rat) ≤ -((2 ^ 128 : Nat) : Rat) by decide +kernel),
   Rat.not_le.1 fun h => absurd (Rat.le_trans h (frngPost_bounds y).2) (show ¬ ((2 ^ 128 : Nat) : Rat) ≤ 2 by decide +kernel)⟩

def F32.zero : F32 := ⟨0, by decide +kernel⟩

/-- `FRNG` -/
abbrev Frng : Type := MtGen frngPost32

/-- `FRNG::next()` -/
def frngNext (g : Frng) : Rat × Frng := (g.next.1.1, g.next.2)

theorem frngNext_post (g : Frng) : ∃ y, (frngNext g).1 = frngPost rne32 y := by
  obtain ⟨y, h⟩ := MtGen.next_post g
  exact ⟨y, congrArg Subtype.val h⟩

/-- What C++ leaves open. -/
structure Unspecified where
  shuffle : Irng → Nat → List Nat × Irng
  shuffle_law : ∀ g n, (shuffle g n).1.Perm (List.range n)
  fuel : Nat
  tossSwap : Bool
  normal : Rat → Rat → BitVec 32 → Option Rat

instance : Inhabited Unspecified :=
  ⟨⟨fun g n => (List.range n, g), fun _ _ => List.Perm.refl _, 1000, false, fun m _ _ => some m⟩⟩

/-- The environment of the library as written. -/
def realEnv (u : Unspecified) : Env where
  G := Irng
  seedG := MtGen.seed irngPost 0#32
  next := MtGen.next
  F := Frng
  seedF := MtGen.seed frngPost32 F32.zero
  fnext := frngNext
  fnext_law := frngNext_post
  shuffle := u.shuffle
  shuffle_law := u.shuffle_law
  fuel := u.fuel
  tossSwap := u.tossSwap
  rnd := rne32
  rnd_mono_law := fun _ _ h => rne_mono (by decide) h
  rnd_exact_law := fun _ _ hm hk => rne_exact (by decide) hm hk
  rnd_exact_up_law := fun _ k hm _ => rne_exact_up (by decide) hm k
  rnd64 := rne64
  rnd64_mono_law := fun _ _ h => rne_mono (by decide) h
  rnd64_exact_law := fun _ _ hm hk => rne_exact (by decide) hm hk
  rnd64_exact_up_law := fun _ k hm _ => rne_exact_up (by decide) hm k
  normal := u.normal

end Tsetlini
