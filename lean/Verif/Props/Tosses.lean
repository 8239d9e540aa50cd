import Verif.Lemmas.TossEnd
import Verif.Lemmas.RealEnv
import Verif.Props.Toy
/-
C32: the random choice of literals.
-/
namespace Tsetlini
open Res Spec

/-! ### C32 -/

/-- **C32**: a tosser made for `n` features and specificity `s` fills a toss vector, whatever it held before,
with `n` entries of which `n/s`, rounded down or up, are marked. (`toss vector` = list of marks; each is 0 or 1.) -/
theorem C32_choice {env : Env} {s : Rat} (hs : 1 ≤ s) {n : Nat} (hn : n ≤ 2147483647) {ct : CoinTosser}
    (hct : CoinTosser.make env (.fin s) n = .ok ct) {old : List Bool} (hold : old.length = n) {g g' : env.G}
    {l : List Bool} (h : tosses env ct old g = .ok (l, g')) : Choice env s n l := by
  have e : ctNums env s n = (ct.hitsFloor, ct.thr) := by unfold ctNums; rw [hct]
  obtain ⟨ct', h1, -, -, -, -, h5⟩ := make_ret env hs (n := n) (by omega)
  rw [hct] at h1
  cases h1
  exact tosses_choice hs hn (by rw [e]) (by rw [e]) (by rw [e]; exact h5) hold h

/-- **C32**: what the vector held before does not matter. -/
theorem C32_history {env : Env} (ct : CoinTosser) {old old' : List Bool} (h : old.length = old'.length) (g : env.G) :
    tosses env ct old g = tosses env ct old' g := tosses_congr env g rfl rfl h

/-- **C32**: for up to 2^24 features no more than all of them are to be marked. -/
theorem C32_at_most {env : Env} {s : Rat} (hs : 1 ≤ s) {n h : Nat} (hn : n ≤ 16777216) (hh : Near env s n h) :
    h ≤ n := near_le hs hn hh

/-- **C32**: where `float` computes `1/s`, `n` and `n/s` exactly, the number is `n/s` rounded down or up. -/
theorem C32_floor {env : Env} {s : Rat} {n h : Nat} (h1 : env.rnd (1 / s) = 1 / s) (h2 : env.rnd n = n)
    (h3 : env.rnd (n / s) = n / s) (hh : Near env s n h) :
    (h : Int) = ((n : Rat) / s).floor ∨ (h : Int) = ((n : Rat) / s).floor + 1 ∧ (n : Rat) / s ≠ ((n : Rat) / s).floor := by
  unfold Near at hh
  dsimp only at hh
  have e : (1 / s) * (n : Rat) = n / s := by rw [Rat.div_def, Rat.div_def, Rat.one_mul, Rat.mul_comm]
  rw [h1, h2, e, h3] at hh
  exact hh

/-- **C32**: the drawing loop ends if, within the bound, the generator yields every feature index
once (`draw 0` decides between rounding down and up). -/
theorem C32_finishes {env : Env} {s : Rat} (hs : 1 ≤ s) {n : Nat} (hn : n ≤ 16777216) {ct : CoinTosser}
    (hct : CoinTosser.make env (.fin s) n = .ok ct) {old : List Bool} (hold : old.length = n) (g : env.G)
    (hcov : ∀ i < n, ∃ j < env.fuel, (draw env g (j + 1)).toNat % n = i) :
    ∃ l g', tosses env ct old g = .ok (l, g') := by
  have e : ctNums env s n = (ct.hitsFloor, ct.thr) := by unfold ctNums; rw [hct]
  have hnear := ctNums_near env hs (nf := n) (by omega) (env.next g).1
  rw [e] at hnear
  have hle := near_le hs hn hnear
  unfold tosses
  dsimp only
  obtain ⟨r, hr⟩ := tossLoop_ends env env.fuel (ct.estimateHits env g).1 0 (List.replicate old.length false)
    (env.next g).2 (by simp [marks, List.count_replicate])
    (by rw [List.length_replicate, hold]; exact hle)
    (by
      intro i hi
      rw [List.length_replicate, hold] at hi ⊢
      obtain ⟨j, hj, e⟩ := hcov i hi
      exact .inr ⟨j, hj, e⟩)
  exact ⟨r.1, r.2, hr⟩

/-- **C32**: if more than all features were to be marked, the loop would never end. -/
theorem C32_never_ends {env : Env} {ct : CoinTosser} {old : List Bool} (hne : old ≠ []) (g : env.G)
    (h : old.length < (ct.estimateHits env g).1) : tosses env ct old g = .timeout := by
  have hp := tosses_post env ct old g (fun h0 => absurd (List.length_eq_zero_iff.1 h0) hne)
  cases hr : tosses env ct old g with
  | ok r =>
    rw [hr] at hp
    obtain ⟨h1, h2⟩ := hp
    have := marks_le r.1
    omega
  | ub u => rw [hr] at hp; exact hp.elim
  | exn u => rw [hr] at hp; exact hp.elim
  | timeout => rfl

/-- **C32**, why 2^24: with 2^24 + 3 features and `s = 1` the count in `float` is 2^24 + 4, and the
library as written draws for ever. -/
theorem C32_hangs (u : Unspecified) : ∃ ct, CoinTosser.make (realEnv u) (.fin 1) 16777219 = .ok ct ∧
    ∀ (old : List Bool) (g : (realEnv u).G), old.length = 16777219 → tosses (realEnv u) ct old g = .timeout := by
  obtain ⟨ct, h1, -, -, h3, -⟩ := make_ret (realEnv u) (q := 1) (n := 16777219) (by decide +kernel) (by decide)
  refine ⟨ct, h1, fun old g ho => C32_never_ends (fun e => by rw [e] at ho; cases ho) g ?_⟩
  have e : (rne32 (rne32 (1 / 1) * rne32 ((16777219 : Nat) : Rat))).floor = 16777220 := by decide +kernel
  have e' : (ct.hitsFloor : Int) = 16777220 := h3.trans e
  have : ct.hitsFloor ≤ (ct.estimateHits (realEnv u) g).1 := Nat.le_add_right _ _
  omega

/-- **C32** in an estimator: its tosser is the one for its features and its specificity. -/
theorem C32_estimator {a : Algo} {k : Kind} {env : Env} {st : EstState a.backend env} (h : Reached a k st)
    (hN : StatesOk a st.params) (hf : Fitted a st) {n : Nat} (hn : IntParam st.params "number_of_features" n) {s : Rat}
    (hs : st.params.get? "s" = some (.real (.fin s))) :
    ∃ ct, CoinTosser.make env (.fin s) n = .ok ct ∧ st.cache.ct.hitsFloor = ct.hitsFloor ∧
      st.cache.ct.thr = ct.thr ∧ st.cache.ct.cache1.length = n ∧ st.cache.ct.cache2.length = n ∧ 1 ≤ s := by
  obtain ⟨cfg, L, nf, ss, h1, hv, h2, hF⟩ := reached_fit h hN hf
  have e1 := hF.featC hn
  have e1 : n = nf := by omega
  subst e1
  have e2 := hF.reads.s
  rw [hs] at e2
  cases e2
  have hb := hF.nfSmall
  obtain ⟨ct, hct, -⟩ := make_ret env hv.s (n := n) (by omega)
  have e : ctNums env cfg.s n = (ct.hitsFloor, ct.thr) := by unfold ctNums; rw [hct]
  have hc := hF.ct
  rw [e] at hc
  exact ⟨ct, hct, hc.hf, hc.thr, hc.l1, hc.l2, hv.s⟩

/-- 7 features, s = 2: three or four are marked; here four, after a vector full of marks. -/
example : ∃ ct, CoinTosser.make Toy.env (.fin 2) 7 = .ok ct ∧
    (match tosses Toy.env ct (List.replicate 7 true) (5 : Nat) with
      | .ok (l, _) => l
      | _ => []) = [true, true, false, false, false, true, true] := by
  refine ⟨⟨3, 2147483648, List.replicate 7 false, List.replicate 7 false⟩, by decide +kernel, by decide +kernel⟩

/-- The toy generator yields every one of 7 indices within the bound. -/
example : ∀ i < 7, ∃ j < Toy.env.fuel, (draw Toy.env (5 : Nat) (j + 1)).toNat % 7 = i := by decide +kernel

end Tsetlini
