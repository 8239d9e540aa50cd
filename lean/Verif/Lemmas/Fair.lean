import Verif.Spec.Fair
import Verif.Lemmas.Reference
import Verif.Lemmas.Chance
/-
The symmetry of the coin tosser.
-/
namespace Tsetlini
open Res Spec

/-! ### Tapes -/

theorem flatMap_perm_left {α β : Type} (l : List α) {f g : α → List β} (h : ∀ a, (f a).Perm (g a)) : (l.flatMap f).Perm (l.flatMap g) := by
  induction l with
  | nil => exact List.Perm.refl _
  | cons a l ih => rw [List.flatMap_cons, List.flatMap_cons]; exact (h a).append ih

theorem tapes_perm {α : Type} {A : List α} {σ : α → α} (h : (A.map σ).Perm A) (m : Nat) :
    ((tapes A m).map (List.map σ)).Perm (tapes A m) := by
  induction m with
  | zero => exact List.Perm.refl _
  | succ m ih =>
    unfold tapes
    have e : (A.flatMap fun w => (tapes A m).map (w :: ·)).map (List.map σ) =
        (A.map σ).flatMap fun w => ((tapes A m).map (List.map σ)).map (w :: ·) := by
      rw [List.map_flatMap, List.flatMap_map]
      congr 1
      funext w
      rw [List.map_map, List.map_map]
      rfl
    rw [e]
    exact (List.Perm.flatMap_right _ h).trans (flatMap_perm_left A fun w => ih.map _)

theorem tapes_length {α : Type} {A : List α} {m : Nat} {ws : List α} (h : ws ∈ tapes A m) : ws.length = m := by
  induction m generalizing ws with
  | zero => unfold tapes at h; simp at h; subst h; rfl
  | succ m ih =>
    unfold tapes at h
    rw [List.mem_flatMap] at h
    obtain ⟨w, -, h⟩ := h
    obtain ⟨v, h1, h2⟩ := List.mem_map.1 h
    subst h2
    rw [List.length_cons, ih h1]

theorem tapes_mem {α : Type} {A : List α} {m : Nat} {ws : List α} (h : ws ∈ tapes A m) : ∀ w ∈ ws, w ∈ A := by
  induction m generalizing ws with
  | zero => unfold tapes at h; simp at h; subst h; simp
  | succ m ih =>
    unfold tapes at h
    rw [List.mem_flatMap] at h
    obtain ⟨w, hw, h⟩ := h
    obtain ⟨v, h1, h2⟩ := List.mem_map.1 h
    subst h2
    intro x hx
    rcases List.mem_cons.1 hx with rfl | hx
    · exact hw
    · exact ih h1 x hx

/-! ### Exchanging two remainders -/

/-- Exchange `f` and `f'`. -/
def swapped (f f' i : Nat) : Nat := if i = f then f' else if i = f' then f else i

theorem swapped_swapped (f f' i : Nat) : swapped f f' (swapped f f' i) = i := by unfold swapped; grind

theorem swapped_lt {f f' i n : Nat} (h : f < n) (h' : f' < n) (hi : i < n) : swapped f f' i < n := by unfold swapped; grind

/-- ... in the remainder modulo `n`. -/
def swapMod (n f f' x : Nat) : Nat := n * (x / n) + swapped f f' (x % n)

theorem swapMod_mod {n f f' : Nat} (h : f < n) (h' : f' < n) (x : Nat) : swapMod n f f' x % n = swapped f f' (x % n) ∧ swapMod n f f' x / n = x / n := by
  have hl := swapped_lt h h' (Nat.mod_lt x (show 0 < n by omega))
  unfold swapMod
  constructor
  · rw [Nat.mul_add_mod, Nat.mod_eq_of_lt hl]
  · rw [Nat.mul_add_div (by omega), Nat.div_eq_of_lt hl]; rfl

theorem swapMod_swapMod {n f f' : Nat} (h : f < n) (h' : f' < n) (x : Nat) : swapMod n f f' (swapMod n f f' x) = x := by
  have e := swapMod_mod h h' x
  rw [swapMod, e.1, e.2, swapped_swapped]
  exact Nat.div_add_mod x n

theorem swapMod_lt {n f f' q : Nat} (h : f < n) (h' : f' < n) {x : Nat} (hx : x < n * q) : swapMod n f f' x < n * q := by
  have e := (swapMod_mod h h' x).2
  have h1 : x / n < q := (Nat.div_lt_iff_lt_mul (by omega)).2 (by rw [Nat.mul_comm]; exact hx)
  rw [← e] at h1
  have := (Nat.div_lt_iff_lt_mul (show 0 < n by omega)).1 h1
  rw [Nat.mul_comm]; exact this

/-- ... of a word. -/
def swapWord (n f f' : Nat) (w : BitVec 32) : BitVec 32 := BitVec.ofNat 32 (swapMod n f f' w.toNat)

theorem fair_lt {n x : Nat} (h : x < n * (4294967296 / n)) : x < 4294967296 :=
  Nat.lt_of_lt_of_le h (Nat.mul_div_le _ _)

theorem fair_perm {n f f' : Nat} (h : f < n) (h' : f' < n) : ((fairWords n).map (swapWord n f f')).Perm (fairWords n) := by
  unfold fairWords
  have e : ((List.range (n * (4294967296 / n))).map (BitVec.ofNat 32)).map (swapWord n f f') =
      ((List.range (n * (4294967296 / n))).map (swapMod n f f')).map (BitVec.ofNat 32) := by
    rw [List.map_map, List.map_map]
    refine List.map_congr_left fun x hx => ?_
    have hx := fair_lt (List.mem_range.1 hx)
    simp only [Function.comp, swapWord]
    rw [ofNat_toNat hx]
  rw [e]
  refine List.Perm.map _ ?_
  generalize 4294967296 / n = q
  refine (List.perm_ext_iff_of_nodup ?_ List.nodup_range).2 fun x => ?_
  · unfold List.Nodup
    rw [List.pairwise_map]
    refine List.Pairwise.imp ?_ (List.nodup_range (n := n * q))
    intro a b hab hc
    exact hab (by rw [← swapMod_swapMod h h' a, hc, swapMod_swapMod h h' b])
  · rw [List.mem_map, List.mem_range]
    constructor
    · rintro ⟨y, hy, rfl⟩
      exact swapMod_lt h h' (List.mem_range.1 hy)
    · intro hx
      exact ⟨swapMod n f f' x, List.mem_range.2 (swapMod_lt h h' hx), swapMod_swapMod h h' x⟩

theorem swapWord_mod {n f f' : Nat} (h : f < n) (h' : f' < n) {w : BitVec 32} (hw : w ∈ fairWords n) :
    (swapWord n f f' w).toNat % n = swapped f f' (w.toNat % n) := by
  obtain ⟨x, hx, rfl⟩ := List.mem_map.1 hw
  have hx := List.mem_range.1 hx
  unfold swapWord
  rw [ofNat_toNat (fair_lt hx), ofNat_toNat (fair_lt (swapMod_lt h h' hx)), (swapMod_mod h h' x).1]

/-! ### The toss loop -/

variable {env : Env} {load : List (BitVec 32) → env.G}

theorem tossLoop_step {fuel hits it : Nat} {c : List Bool} {g g' : env.G} {w : BitVec 32} (hi : it < hits) (hg : env.next g = (w, g'))
    (hc : c.length ≠ 0) : tossLoop env (fuel + 1) hits it c g =
      (rd c (w.toNat % c.length)).bind fun b => tossLoop env fuel hits (it + (if b then 0 else 1)) (c.set (w.toNat % c.length) true) g' := by
  rw [tossLoop, if_pos hi]
  dsimp only
  rw [if_neg hc]
  show ((rd c ((env.next g).1.toNat % c.length)).bind fun b =>
    tossLoop env fuel hits (it + (if b then 0 else 1)) (c.set ((env.next g).1.toNat % c.length) true) (env.next g).2) = _
  rw [hg]

/-- Exchanging features `f` and `f'` in all words exchanges them in the result. -/
theorem tossLoop_swap (hl : Loads env load) {n f f' : Nat} (h : f < n) (h' : f' < n) (hits : Nat) (ws : List (BitVec 32))
    (hws : ∀ w ∈ ws, w ∈ fairWords n) (it : Nat) {c c' : List Bool} (hc : c.length = n) (hc' : c'.length = n)
    (hcc : ∀ i < n, c'[swapped f f' i]? = c[i]?) :
    (tossLoop env ws.length hits it c (load ws) = .timeout ∧
      tossLoop env ws.length hits it c' (load (ws.map (swapWord n f f'))) = .timeout) ∨
    ∃ l l' g g', tossLoop env ws.length hits it c (load ws) = .ok (l, g) ∧
      tossLoop env ws.length hits it c' (load (ws.map (swapWord n f f'))) = .ok (l', g') ∧
      l.length = n ∧ l'.length = n ∧ ∀ i < n, l'[swapped f f' i]? = l[i]? := by
  induction ws generalizing it c c' with
  | nil =>
    rw [List.map_nil, List.length_nil]
    unfold tossLoop
    by_cases hi : it < hits
    · rw [if_pos hi, if_pos hi]; exact .inl ⟨rfl, rfl⟩
    · rw [if_neg hi, if_neg hi]; exact .inr ⟨_, _, _, _, rfl, rfl, hc, hc', hcc⟩
  | cons w ws ih =>
    rw [List.map_cons, List.length_cons]
    by_cases hi : it < hits
    · rw [tossLoop_step hi (hl _ _) (by omega), tossLoop_step hi (hl _ _) (by omega)]
      have hw := swapWord_mod h h' (hws w (by simp))
      have hm : w.toNat % n < n := Nat.mod_lt _ (by omega)
      rw [hc, hc', hw, rd_ok (by omega),
        rd_ok (by rw [hc']; exact swapped_lt h h' hm), ok_bind, ok_bind]
      have e : c'[swapped f f' (w.toNat % n)]'(by rw [hc']; exact swapped_lt h h' hm) = c[w.toNat % n]'(by omega) := by
        have := hcc _ hm
        rw [List.getElem?_eq_getElem (by rw [hc']; exact swapped_lt h h' hm), List.getElem?_eq_getElem (by omega)] at this
        exact Option.some.inj this
      rw [e]
      refine ih (fun v hv => hws v (by simp [hv])) _ (by rw [List.length_set]; exact hc) (by rw [List.length_set]; exact hc') fun i hin => ?_
      rw [List.getElem?_set, List.getElem?_set]
      by_cases hi' : w.toNat % n = i
      · subst hi'
        rw [if_pos rfl, if_pos rfl, if_pos (by rw [hc']; exact swapped_lt h h' hm), if_pos (by omega)]
      · rw [if_neg hi', if_neg, hcc i hin]
        intro hh
        apply hi'
        rw [← swapped_swapped f f' (w.toNat % n), hh, swapped_swapped]
    · unfold tossLoop
      rw [if_neg hi, if_neg hi]; exact .inr ⟨_, _, _, _, rfl, rfl, hc, hc', hcc⟩

end Tsetlini
