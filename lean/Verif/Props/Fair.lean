import Verif.Lemmas.Fair
import Verif.Props.Chance
import Verif.Props.Tosses
/-
C66: no feature is preferred by a toss.
-/
namespace Tsetlini
open Res Spec

variable {env : Env} {load : List (BitVec 32) → env.G}

/-! ### helpers -/

theorem sum_exchange {α : Type} (n : Nat) (p : Nat → α → Bool) (T : List α) :
    ((List.range n).map fun i => T.countP (p i)).sum = (T.map fun t => (List.range n).countP fun i => p i t).sum := by
  induction T with
  | nil =>
    rw [List.map_nil, List.sum_nil]
    induction n with
    | zero => rfl
    | succ n ih => rw [List.range_succ, List.map_append, List.sum_append, ih]; simp
  | cons t T ih =>
    rw [List.map_cons, List.sum_cons, ← ih]
    clear ih
    induction n with
    | zero => rfl
    | succ n ih =>
      rw [List.range_succ, List.map_append, List.map_append, List.sum_append, List.sum_append, ih, List.countP_append, List.map_singleton,
        List.map_singleton, List.sum_singleton, List.sum_singleton, List.countP_cons, List.countP_singleton]
      omega

theorem countP_get_eq_count (l : List Bool) : ((List.range l.length).countP fun i => l[i]? == some true) = l.count true := by
  induction l with
  | nil => rfl
  | cons b l ih =>
    rw [List.length_cons, List.range_succ_eq_map, List.countP_cons, List.countP_map, List.count_cons, ← ih]
    rfl

theorem sum_const_of {α : Type} (T : List α) (v : α → Nat) (p : α → Bool) (h : Nat) (hv : ∀ t ∈ T, v t = if p t then h else 0) :
    (T.map v).sum = h * T.countP p := by
  induction T with
  | nil => rfl
  | cons t T ih =>
    rw [List.map_cons, List.sum_cons, List.countP_cons, ih fun s hs => hv s (by simp [hs]), hv t (by simp), Nat.mul_add]
    split <;> omega

theorem tosses_load (hl : Loads env load) (ct : CoinTosser) (old : List Bool) (r : BitVec 32) {ws : List (BitVec 32)} (hm : env.fuel = ws.length) :
    tosses env ct old (load (r :: ws)) =
      tossLoop env ws.length (ct.hitsFloor + if r.toNat < ct.thr then 1 else 0) 0 (List.replicate old.length false) (load ws) := by
  unfold tosses CoinTosser.estimateHits
  show tossLoop env env.fuel (ct.hitsFloor + if (env.next (load (r :: ws))).1.toNat < ct.thr then 1 else 0) 0 _
    (env.next (load (r :: ws))).2 = _
  rw [hl, hm]

theorem tosses_marks {ct : CoinTosser} {old : List Bool} {g g' : env.G} {l : List Bool} (h : tosses env ct old g = .ok (l, g')) :
    l.length = old.length ∧ l.count true = (ct.estimateHits env g).1 := by
  unfold tosses at h
  dsimp only at h
  have e : List.replicate old.length false = marked env old.length (ct.estimateHits env g).2 0 := by
    apply List.ext_getElem
    · simp [marked]
    · intro i _ _; simp [marked]
  rw [e] at h
  obtain ⟨j, -, k2, k3, -, -⟩ := tossLoop_exact _ _ 0 0 (ct.estimateHits env g).2
    (by rw [← e, List.count_replicate]; rfl) (Nat.zero_le _) h
  exact ⟨by rw [k2, marked_length], k3⟩

/-! ### C66 -/

/-- **C66**: whatever the first word, which decides how many features are marked: among all sequences of `m` further words, as many mark
feature `f` as mark feature `f'`. `m` is the bound on the number of draws. -/
theorem C66_symmetric (hl : Loads env load) (ct : CoinTosser) {old : List Bool} {n : Nat} (ho : old.length = n) (r : BitVec 32)
    {f f' : Nat} (h : f < n) (h' : f' < n) :
    ((tapes (fairWords n) env.fuel).countP fun ws => marksFeature f (tosses env ct old (load (r :: ws)))) =
      (tapes (fairWords n) env.fuel).countP fun ws => marksFeature f' (tosses env ct old (load (r :: ws))) := by
  rw [← (tapes_perm (fair_perm h h') env.fuel).countP_eq (fun ws => marksFeature f' (tosses env ct old (load (r :: ws)))), List.countP_map]
  refine List.countP_congr fun ws hws => ?_
  have hlen := tapes_length hws
  have hmem := tapes_mem hws
  simp only [Function.comp]
  rw [tosses_load hl ct old r hlen.symm, tosses_load hl ct old r (by rw [List.length_map, hlen]), List.length_map]
  have e0 : ∀ i < n, (List.replicate old.length false)[swapped f f' i]? = (List.replicate old.length false)[i]? := by
    intro i hi
    rw [List.getElem?_replicate, List.getElem?_replicate, if_pos (by rw [ho]; exact swapped_lt h h' hi), if_pos (by omega)]
  rcases tossLoop_swap hl h h' (ct.hitsFloor + if r.toNat < ct.thr then 1 else 0) ws hmem 0
    (by rw [List.length_replicate, ho]) (by rw [List.length_replicate, ho]) e0 with ⟨e1, e2⟩ | ⟨l, l', g, g', e1, e2, -, -, e3⟩
  · rw [e1, e2]; rfl
  · rw [e1, e2]
    have := e3 f h
    rw [show swapped f f' f = f' by unfold swapped; rw [if_pos rfl]] at this
    unfold marksFeature
    dsimp only
    rw [this]

/-- **C66**: so each feature is marked with the same probability, that of a random choice of `h` of `n`: `n` times the number of sequences that
mark it is `h` times the number of sequences for which the toss ends. -/
theorem C66_feature (hl : Loads env load) (ct : CoinTosser) {old : List Bool} {n : Nat} (ho : old.length = n) (r : BitVec 32)
    {f : Nat} (h : f < n) :
    n * ((tapes (fairWords n) env.fuel).countP fun ws => marksFeature f (tosses env ct old (load (r :: ws)))) =
      (ct.hitsFloor + if r.toNat < ct.thr then 1 else 0) *
        (tapes (fairWords n) env.fuel).countP fun ws => ended (tosses env ct old (load (r :: ws))) := by
  have h1 := sum_exchange n (fun i ws => marksFeature i (tosses env ct old (load (r :: ws)))) (tapes (fairWords n) env.fuel)
  have h2 : ((List.range n).map fun i => (tapes (fairWords n) env.fuel).countP fun ws => marksFeature i (tosses env ct old (load (r :: ws)))).sum =
      n * ((tapes (fairWords n) env.fuel).countP fun ws => marksFeature f (tosses env ct old (load (r :: ws)))) := by
    have : ((List.range n).map fun i => (tapes (fairWords n) env.fuel).countP fun ws => marksFeature i (tosses env ct old (load (r :: ws)))) =
        (List.range n).map fun _ => (tapes (fairWords n) env.fuel).countP fun ws => marksFeature f (tosses env ct old (load (r :: ws))) :=
      List.map_congr_left fun i hi => C66_symmetric hl ct ho r (List.mem_range.1 hi) h
    rw [this, List.map_const', List.sum_replicate_nat, List.length_range]
  rw [← h2, h1]
  refine sum_const_of _ _ _ _ fun ws hws => ?_
  have hlen := tapes_length hws
  cases hres : tosses env ct old (load (r :: ws)) with
  | ok v =>
    obtain ⟨l, g'⟩ := v
    obtain ⟨k1, k2⟩ := tosses_marks hres
    have k3 : (ct.estimateHits env (load (r :: ws))).1 = ct.hitsFloor + if r.toNat < ct.thr then 1 else 0 := by
      show ct.hitsFloor + (if (env.next (load (r :: ws))).1.toNat < ct.thr then 1 else 0) = _
      rw [hl]
    have := countP_get_eq_count l
    rw [k1, ho] at this
    unfold marksFeature ended
    dsimp only
    rw [this, k2, k3, if_pos rfl]
  | ub u => unfold marksFeature ended; simp
  | exn u => unfold marksFeature ended; simp
  | timeout => unfold marksFeature ended; simp

/-! ### The toss ends almost surely -/

theorem tapes_count (A : List (BitVec 32)) (m : Nat) : (tapes A m).length = A.length ^ m := by
  induction m with
  | zero => rfl
  | succ m ih =>
    unfold tapes
    rw [List.length_flatMap]
    simp only [List.length_map]
    rw [List.map_const', List.sum_replicate_nat, ih, Nat.pow_succ, Nat.mul_comm]

theorem tapes_all (A : List (BitVec 32)) (p : BitVec 32 → Bool) (m : Nat) : ((tapes A m).countP fun ws => ws.all p) = A.countP p ^ m := by
  induction m with
  | zero => rfl
  | succ m ih =>
    unfold tapes
    rw [Nat.pow_succ, ← ih]
    clear ih
    generalize tapes A m = T
    induction A with
    | nil => simp
    | cons w A ihA =>
      rw [List.flatMap_cons, List.countP_append, ihA, List.countP_cons, List.countP_map, Nat.mul_add]
      by_cases hw : p w = true
      · have : ((fun ws : List (BitVec 32) => ws.all p) ∘ fun x => w :: x) = fun ws => ws.all p := by funext ws; simp [hw]
        rw [this, if_pos hw]; omega
      · have : ((fun ws : List (BitVec 32) => ws.all p) ∘ fun x => w :: x) = fun _ => false := by funext ws; simp [hw]
        rw [this, if_neg hw]; simp

theorem fair_avoid {n f : Nat} (h : f < n) : ((fairWords n).countP fun w => w.toNat % n != f) = (n - 1) * (4294967296 / n) := by
  have h1 : ((fairWords n).countP fun w => w.toNat % n == f) = 4294967296 / n := by
    unfold fairWords
    rw [List.countP_map]
    have : (List.range (n * (4294967296 / n))).countP ((fun w : BitVec 32 => w.toNat % n == f) ∘ BitVec.ofNat 32) =
        (List.range (n * (4294967296 / n))).countP fun x => x % n == f := by
      refine List.countP_congr fun x hx => ?_
      simp only [Function.comp]
      rw [ofNat_toNat (fair_lt (List.mem_range.1 hx))]
    rw [this, countP_range_mod n f h, Nat.mul_mod_right, if_neg (by omega), Nat.mul_div_cancel_left _ (by omega)]
    rfl
  have h2 := List.length_eq_countP_add_countP (fun w : BitVec 32 => w.toNat % n == f) (l := fairWords n)
  have h3 : (fairWords n).length = n * (4294967296 / n) := by unfold fairWords; rw [List.length_map, List.length_range]
  have h4 : ((fairWords n).countP fun w => !(w.toNat % n == f)) = (fairWords n).countP fun w => w.toNat % n != f := rfl
  have h5 : ((fairWords n).countP fun w => decide ¬ (w.toNat % n == f) = true) = (fairWords n).countP fun w => w.toNat % n != f := by
    refine List.countP_congr fun w _ => ?_
    simp
  rw [h3, h1, h5] at h2
  rw [Nat.sub_mul, Nat.one_mul]
  omega

theorem countP_exists_le {α : Type} (T : List α) (n : Nat) (p : Nat → α → Bool) (q : α → Bool) (c : Nat) (hq : ∀ t ∈ T, q t = true → ∃ i < n, p i t = true)
    (hp : ∀ i < n, T.countP (p i) = c) : T.countP q ≤ n * c := by
  have h1 := sum_exchange n p T
  have h2 : ((List.range n).map fun i => T.countP (p i)) = (List.range n).map fun _ => c :=
    List.map_congr_left fun i hi => hp i (List.mem_range.1 hi)
  rw [h2, List.map_const', List.sum_replicate_nat, List.length_range] at h1
  rw [h1]
  clear h1 h2 hp
  induction T with
  | nil => exact Nat.zero_le _
  | cons t T ih =>
    rw [List.countP_cons, List.map_cons, List.sum_cons]
    have := ih fun s hs => hq s (by simp [hs])
    by_cases ht : q t = true
    · obtain ⟨i, hi, hpi⟩ := hq t (by simp) ht
      have : 0 < (List.range n).countP fun i => p i t := List.countP_pos_iff.2 ⟨i, List.mem_range.2 hi, hpi⟩
      rw [if_pos ht]; omega
    · rw [if_neg ht]; omega

theorem draw_load (hl : Loads env load) (ws : List (BitVec 32)) (j : Nat) (hj : j < ws.length) : draw env (load ws) j = ws[j] := by
  induction ws generalizing j with
  | nil => cases hj
  | cons w ws ih =>
    cases j with
    | zero => show (env.next (load (w :: ws))).1 = w; rw [hl]
    | succ j =>
      show draw env (env.next (load (w :: ws))).2 j = _
      rw [hl]
      exact ih j (by simpa using hj)

theorem bernoulli (a m : Nat) : a ^ m * (a + m) ≤ (a + 1) ^ m * a := by
  induction m with
  | zero => simp
  | succ m ih =>
    have h1 := Nat.mul_le_mul_right (a + 1) ih
    have e1 : (a + 1) ^ m * a * (a + 1) = (a + 1) ^ (m + 1) * a := by rw [Nat.pow_succ]; grind
    rw [e1] at h1
    refine Nat.le_trans ?_ h1
    rw [Nat.pow_succ]
    have : a ^ m * (a + m) * (a + 1) = a ^ m * ((a + m) * (a + 1)) := by rw [Nat.mul_assoc]
    rw [this, Nat.mul_assoc]
    refine Nat.mul_le_mul_left _ ?_
    rw [Nat.mul_add, Nat.mul_add, Nat.mul_add, Nat.add_mul]
    have := Nat.mul_comm a m
    omega

/-- **C66** (ending): for up to 2^24 features, the sequences of `m` words for which the toss does not end within `m` draws are at most
`n ((n-1)/n)^m` of all. -/
theorem C66_ends (hl : Loads env load) {s : Rat} (hs : 1 ≤ s) {n : Nat} (hn : n ≤ 16777216) {ct : CoinTosser}
    (hct : CoinTosser.make env (.fin s) n = .ok ct) {old : List Bool} (ho : old.length = n) (r : BitVec 32) :
    ((tapes (fairWords n) env.fuel).countP fun ws => !ended (tosses env ct old (load (r :: ws)))) ≤
        n * ((n - 1) * (4294967296 / n)) ^ env.fuel ∧
      (tapes (fairWords n) env.fuel).length = (n * (4294967296 / n)) ^ env.fuel := by
  constructor
  · refine countP_exists_le _ n (fun i ws => ws.all fun w => w.toNat % n != i) _ _ (fun ws hws hq => ?_) fun i hi => ?_
    · have hlen := tapes_length hws
      refine Classical.byContradiction fun hcon => ?_
      obtain ⟨l, g', e⟩ := C32_finishes (env := env) hs hn hct ho (load (r :: ws)) fun i hi => by
        refine Classical.byContradiction fun hno => hcon ⟨i, hi, ?_⟩
        rw [List.all_eq_true]
        intro w hw
        obtain ⟨j, hj, rfl⟩ := List.mem_iff_getElem.1 hw
        simp only [bne_iff_ne]
        intro he
        refine hno ⟨j, by omega, ?_⟩
        show (draw env (env.next (load (r :: ws))).2 j).toNat % n = i
        rw [hl]
        dsimp only
        rw [draw_load hl ws j hj, he]
      rw [e] at hq
      simp [ended] at hq
    · rw [tapes_all, fair_avoid hi]
  · rw [tapes_count]
    unfold fairWords
    rw [List.length_map, List.length_range]

/-- **C66** (ending): so within `k n (n-1)` draws the toss ends with a probability of at least `1 - 1/k`, for every `k`. -/
theorem C66_almost_surely (hl : Loads env load) {s : Rat} (hs : 1 ≤ s) {n : Nat} (hn0 : 2 ≤ n) (hn : n ≤ 16777216) {ct : CoinTosser}
    (hct : CoinTosser.make env (.fin s) n = .ok ct) {old : List Bool} (ho : old.length = n) (r : BitVec 32) {k : Nat}
    (hk : k * n * (n - 1) ≤ env.fuel) :
    k * ((tapes (fairWords n) env.fuel).countP fun ws => !ended (tosses env ct old (load (r :: ws)))) ≤ (tapes (fairWords n) env.fuel).length := by
  obtain ⟨h1, h2⟩ := C66_ends hl hs hn hct ho r
  rw [h2]
  refine Nat.le_trans (Nat.mul_le_mul_left k h1) ?_
  have hb := bernoulli (n - 1) env.fuel
  rw [show n - 1 + 1 = n by omega] at hb
  rw [Nat.mul_pow, Nat.mul_pow, ← Nat.mul_assoc, ← Nat.mul_assoc]
  refine Nat.mul_le_mul_right _ ?_
  have h3 : (n - 1) ^ env.fuel * (k * n * (n - 1)) ≤ n ^ env.fuel * (n - 1) :=
    Nat.le_trans (Nat.mul_le_mul_left _ (by omega)) hb
  rw [← Nat.mul_assoc] at h3
  have := Nat.le_of_mul_le_mul_right h3 (by omega)
  rw [Nat.mul_comm]; exact this

/-! ### Hypotheses and cases -/

/-- C66: an environment whose generator yields the words of a list. -/
def tapeEnv (env : Env) (m : Nat) : Env :=
  { env with
    G := List (BitVec 32)
    seedG := fun _ => []
    next := fun l => (l.headD 0, l.tail)
    shuffle := fun g n => (List.range n, g)
    shuffle_law := fun _ _ => List.Perm.refl _
    fuel := m }

/-- C66: such environments meet the hypotheses. -/
example (env : Env) (m : Nat) : Loads (tapeEnv env m) (fun ws => ws) ∧ (tapeEnv env m).fuel = m := ⟨fun _ _ => rfl, rfl⟩

/-- C66: 2 of 3 features are marked with five further words: the toss ends with the third of them. -/
example : tosses (tapeEnv Toy.env 5) ⟨2, 0, [], []⟩ [true, true, true] [0, 4, 1, 2, 2, 0] = .ok ([false, true, true], [2, 0]) := by
  rfl

end Tsetlini
