import Verif.Spec.Tossers
import Verif.Lemmas.Tossers
import Verif.Props.Toy
/-
C54: the coin tossers that work from a cache.
-/
namespace Tsetlini
open Res Spec

theorem nearestTo_of {x : Rat} (hx : 0 ≤ x) {k : Nat} (h : (k : Int) = roundHalfAway x) : NearestTo x k := by
  unfold roundHalfAway at h
  rw [if_pos hx] at h
  have h1 : ((k : Int) : Rat) ≤ x + 1 / 2 := by rw [← Rat.le_floor_iff]; omega
  have h2 : x + 1 / 2 < (((k : Int) + 1 : Int) : Rat) := by rw [← Rat.floor_lt_iff]; omega
  rw [Rat.intCast_add] at h2
  have e : ((k : Int) : Rat) = (k : Rat) := rfl
  have e1 : ((1 : Int) : Rat) = 1 := rfl
  rw [e] at h1 h2
  rw [e1] at h2
  constructor <;> grind

theorem ones_eq (v : List Block) (n : Nat) : marks (bitsOf v n) = ones v n := by
  unfold marks bitsOf ones
  rw [List.count, List.countP_map]
  congr 1
  funext i
  simp

theorem onesFor_zero {env : Env} {s : Rat} {k : Nat} (h : onesFor env 0 (.fin s) = .ok k) : k = 0 := by
  have h' := onesFor_post h
  have e : env.rnd ((0 : Nat) : Rat) = 0 := rnd_int env (m := 0) (by decide)
  rw [e, Rat.div_def, Rat.zero_mul] at h'
  rw [show env.rnd 0 = 0 from e] at h'
  have : roundHalfAway 0 = 0 := by decide +kernel
  omega

theorem ratio_nonneg (env : Env) (n : Nat) {s : Rat} (hs : 0 < s) : 0 ≤ env.rnd (env.rnd n / s) := by
  apply rnd_nonneg
  have : 0 ≤ env.rnd n := rnd_nonneg env (by exact_mod_cast Nat.zero_le n)
  rw [Rat.div_def]
  exact Rat.mul_nonneg this (Rat.le_of_lt (Rat.inv_pos.2 hs))

/-- **C54**: `populate` keeps the sizes and leaves as many ones in the cache as the (rounded) quotient of
its size and `s` says. -/
theorem C54_populate {env : Env} {s : Rat} (hs : 0 < s) {t t' : TossCache} {g g' : env.G}
    (h : t.populate env (.fin s) g = .ok (t', g')) :
    t'.base = t.base ∧ t'.cache.length = t.cache.length ∧
    NearestTo (env.rnd (env.rnd t.cache.length / s)) (t'.cache.count true) := by
  unfold TossCache.populate at h
  obtain ⟨k, hk, h⟩ := bind_eq_ok.1 h
  obtain ⟨⟨c, g1⟩, hc, h⟩ := bind_eq_ok.1 h
  dsimp only at h
  cases h
  have hp := tossLoop_post env env.fuel k 0 (List.replicate t.cache.length false) g
    (by simp [marks, List.count_replicate]) (Nat.zero_le _) (fun h0 => by
      rw [List.length_replicate] at h0
      rw [h0] at hk
      exact onesFor_zero hk)
  rw [hc, post_ok] at hp
  refine ⟨rfl, by simpa using hp.1, ?_⟩
  have : c.count true = k := hp.2
  rw [this]
  exact nearestTo_of (ratio_nonneg env _ hs) (onesFor_post hk)

/-- **C54**: the bit cache likewise. -/
theorem C54_bitwise_populate {env : Env} {s : Rat} (hs : 0 < s) {t t' : BitTossCache} {g g' : env.G}
    (hb : t.cache.len = t.cache.blocks.length * 64) (h : t.populate env (.fin s) g = .ok (t', g')) :
    t'.base = t.base ∧ t'.cache.len = t.cache.len ∧ t'.cache.blocks.length = t.cache.blocks.length ∧
    NearestTo (env.rnd (env.rnd t.cache.len / s)) (ones t'.cache.blocks t.cache.len) := by
  unfold BitTossCache.populate at h
  obtain ⟨k, hk, h⟩ := bind_eq_ok.1 h
  obtain ⟨⟨v, g1⟩, hc, h⟩ := bind_eq_ok.1 h
  dsimp only at h
  cases h
  obtain ⟨he, hl⟩ := bitTossLoop_eq env t.cache.len env.fuel k 0 (List.replicate t.cache.blocks.length 0#64) g
    (by rw [List.length_replicate]; omega)
  have hl := (hl _ hc).1
  rw [hc, ok_bind, bitsOf_zero] at he
  have hp := tossLoop_post env env.fuel k 0 (List.replicate t.cache.len false) g
    (by simp [marks, List.count_replicate]) (Nat.zero_le _) (fun h0 => by
      rw [List.length_replicate] at h0
      rw [h0] at hk
      exact onesFor_zero hk)
  rw [he, post_ok] at hp
  refine ⟨rfl, rfl, by simpa using hl, ?_⟩
  dsimp only at hp ⊢
  rw [← ones_eq, hp.2]
  exact nearestTo_of (ratio_nonneg env _ hs) (onesFor_post hk)

/-- **C54**: for `s ≥ 1` and up to 2^24 entries, `populate` ends as soon as the generator has hit every position. -/
theorem C54_populate_ends {env : Env} {s : Rat} (hs : 1 ≤ s) (t : TossCache) (hn : t.cache.length ≤ 16777216) (g : env.G)
    (hcov : ∀ i < t.cache.length, ∃ j < env.fuel, (draw env g j).toNat % t.cache.length = i) :
    ∃ r, t.populate env (.fin s) g = .ok r := by
  obtain ⟨k, hk, hle⟩ := onesFor_le env hn hs
  obtain ⟨⟨c, g'⟩, hc⟩ := tossLoop_ends env env.fuel k 0 (List.replicate t.cache.length false) g
    (by simp [marks, List.count_replicate]) (by simpa using hle) (fun i hi => by
      rw [List.length_replicate] at hi ⊢
      obtain ⟨j, h1, h2⟩ := hcov i hi
      exact .inr ⟨j, h1, h2⟩)
  refine ⟨({ t with cache := c }, g'), ?_⟩
  unfold TossCache.populate
  rw [hk, ok_bind, hc, ok_bind]

/-- **C54**: the bit cache likewise. -/
theorem C54_bitwise_populate_ends {env : Env} {s : Rat} (hs : 1 ≤ s) (t : BitTossCache)
    (hb : t.cache.len = t.cache.blocks.length * 64) (hn : t.cache.len ≤ 16777216) (g : env.G)
    (hcov : ∀ i < t.cache.len, ∃ j < env.fuel, (draw env g j).toNat % t.cache.len = i) :
    ∃ r, t.populate env (.fin s) g = .ok r := by
  obtain ⟨k, hk, hle⟩ := onesFor_le env hn hs
  obtain ⟨⟨c, g'⟩, hc⟩ := tossLoop_ends env env.fuel k 0 (List.replicate t.cache.len false) g
    (by simp [marks, List.count_replicate]) (by simpa using hle) (fun i hi => by
      rw [List.length_replicate] at hi ⊢
      obtain ⟨j, h1, h2⟩ := hcov i hi
      exact .inr ⟨j, h1, h2⟩)
  obtain ⟨he, -⟩ := bitTossLoop_eq env t.cache.len env.fuel k 0 (List.replicate t.cache.blocks.length 0#64) g
    (by rw [List.length_replicate]; omega)
  rw [bitsOf_zero, hc] at he
  obtain ⟨r, hr, -⟩ := bind_eq_ok.1 he.symm
  refine ⟨({ t with cache := { t.cache with blocks := r.1 } }, r.2), ?_⟩
  unfold BitTossCache.populate
  rw [hk, ok_bind, hr, ok_bind]

theorem tosses_ret (env : Env) {t : TossCache} (h : TossCache.Roomy t) (g : env.G) :
    ∃ t' off, t.tosses env g = .ok (t', off, (env.next (env.next (env.next g).2).2).2) ∧
      t'.base = t.base ∧ t'.cache.length = t.cache.length ∧ t'.cache.count true = t.cache.count true ∧
      off % 64 = 0 ∧ off + t.base < t.cache.length := by
  obtain ⟨h1, h2⟩ := h
  obtain ⟨t', e1, e2, e3, e4⟩ := mutate_ret env t g (by omega)
  unfold TossCache.tosses
  rw [e1, ok_bind]
  dsimp only
  have er : (BitVec.ofNat 64 t.cache.length - BitVec.ofNat 64 t.base).toNat = t.cache.length - t.base := by
    rw [BitVec.toNat_sub, BitVec.toNat_ofNat, BitVec.toNat_ofNat]; omega
  have hr : BitVec.ofNat 64 t.cache.length - BitVec.ofNat 64 t.base ≠ 0#64 := by
    intro h0; rw [h0] at er; have : (0#64 : BitVec 64).toNat = 0 := rfl; omega
  rw [if_neg hr, and_mask64, BitVec.toNat_umod, er]
  have hm := Nat.mod_lt (BitVec.ofNat 64 (env.next (env.next (env.next g).2).2).1.toNat).toNat
    (show 0 < t.cache.length - t.base by omega)
  generalize (BitVec.ofNat 64 (env.next (env.next (env.next g).2).2).1.toNat).toNat % (t.cache.length - t.base) = x at hm
  rw [if_pos (by rw [e3]; omega)]
  exact ⟨t', _, rfl, e2, e3, e4, by omega, by omega⟩

theorem bitTosses_ret (env : Env) {t : BitTossCache} (h : BitTossCache.Roomy t) (g : env.G) :
    ∃ t' b, t.tosses env g = .ok (t', b, (env.next (env.next (env.next g).2).2).2) ∧
      t'.base = t.base ∧ t'.cache.len = t.cache.len ∧ t'.cache.blocks.length = t.cache.blocks.length ∧
      ones t'.cache.blocks t.cache.len = ones t.cache.blocks t.cache.len ∧ b * 64 + t.base < t.cache.len := by
  obtain ⟨h0, h1, h2, h3⟩ := h
  obtain ⟨t', e1, e2, e3, e4, e5, -⟩ := bitMutate_eq env t g (by omega) (by omega)
  unfold BitTossCache.tosses
  rw [e1, ok_bind]
  dsimp only
  have er : (BitVec.ofNat 64 t.cache.contentBlocks - BitVec.ofNat 64 (t.base / 64)).toNat =
      t.cache.blocks.length - t.base / 64 := by
    unfold BitVector.contentBlocks
    rw [BitVec.toNat_sub, BitVec.toNat_ofNat, BitVec.toNat_ofNat]; omega
  have hr : BitVec.ofNat 64 t.cache.contentBlocks - BitVec.ofNat 64 (t.base / 64) ≠ 0#64 := by
    intro h0; rw [h0] at er; have : (0#64 : BitVec 64).toNat = 0 := rfl; omega
  rw [if_neg hr, BitVec.toNat_umod, er]
  have hm := Nat.mod_lt (BitVec.ofNat 64 (env.next (env.next (env.next g).2).2).1.toNat).toNat
    (show 0 < t.cache.blocks.length - t.base / 64 by omega)
  generalize (BitVec.ofNat 64 (env.next (env.next (env.next g).2).2).1.toNat).toNat %
    (t.cache.blocks.length - t.base / 64) = x at hm
  rw [if_pos (by rw [e4]; omega)]
  rw [ones_eq, ones_eq] at e5
  exact ⟨t', _, rfl, e2, e3, e4, e5, by omega⟩

/-- **C54**: over any number of calls of `tosses`, every returned window of `base` entries lies in the cache and starts at
a multiple of 64, the sizes stay and so does the number of ones; every call takes three numbers from the generator. -/
theorem C54_windows (env : Env) {t : TossCache} (h : TossCache.Roomy t) (k : Nat) (g : env.G) :
    ∃ t' offs g', TossCache.many env k t g = .ok (t', offs, g') ∧ offs.length = k ∧
      (∀ off ∈ offs, off % 64 = 0 ∧ off + t.base ≤ t.cache.length) ∧
      t'.base = t.base ∧ t'.cache.length = t.cache.length ∧ t'.cache.count true = t.cache.count true ∧
      ∀ i, draw env g' i = draw env g (3 * k + i) := by
  induction k generalizing t g with
  | zero => exact ⟨t, [], g, rfl, rfl, by simp, rfl, rfl, rfl, fun i => by rw [Nat.mul_zero, Nat.zero_add]⟩
  | succ k ih =>
    obtain ⟨t1, off, e, b1, l1, c1, d1, d2⟩ := tosses_ret env h g
    obtain ⟨t2, offs, g2, e2, n2, w2, b2, l2, c2, s2⟩ := ih (t := t1) ⟨by rw [b1, l1]; exact h.1, by rw [l1]; exact h.2⟩
      (env.next (env.next (env.next g).2).2).2
    unfold TossCache.many
    rw [e, ok_bind]
    dsimp only
    rw [e2, ok_bind]
    refine ⟨t2, off :: offs, g2, rfl, by simp [n2], ?_, by rw [b2, b1], by rw [l2, l1], by rw [c2, c1], fun i => ?_⟩
    · intro o ho
      rcases List.mem_cons.1 ho with rfl | ho
      · exact ⟨d1, by omega⟩
      · have := w2 o ho
        rwa [b1, l1] at this
    · rw [s2, show 3 * (k + 1) + i = (((3 * k + i) + 1) + 1) + 1 by omega]
      rfl

/-- **C54**: the bit cache likewise; windows start at a block. -/
theorem C54_bitwise_windows (env : Env) {t : BitTossCache} (h : BitTossCache.Roomy t) (k : Nat) (g : env.G) :
    ∃ t' bs g', BitTossCache.many env k t g = .ok (t', bs, g') ∧ bs.length = k ∧
      (∀ b ∈ bs, b * 64 + t.base ≤ t.cache.blocks.length * 64) ∧
      t'.base = t.base ∧ t'.cache.len = t.cache.len ∧ t'.cache.blocks.length = t.cache.blocks.length ∧
      ones t'.cache.blocks t.cache.len = ones t.cache.blocks t.cache.len ∧
      ∀ i, draw env g' i = draw env g (3 * k + i) := by
  induction k generalizing t g with
  | zero => exact ⟨t, [], g, rfl, rfl, by simp, rfl, rfl, rfl, rfl, fun i => by rw [Nat.mul_zero, Nat.zero_add]⟩
  | succ k ih =>
    obtain ⟨t1, b, e, b1, l1, m1, c1, d2⟩ := bitTosses_ret env h g
    obtain ⟨t2, bs, g2, e2, n2, w2, b2, l2, m2, c2, s2⟩ := ih (t := t1)
      ⟨by rw [l1, m1]; exact h.1, by rw [b1]; exact h.2.1, by rw [b1, l1]; exact h.2.2.1, by rw [l1]; exact h.2.2.2⟩
      (env.next (env.next (env.next g).2).2).2
    unfold BitTossCache.many
    rw [e, ok_bind]
    dsimp only
    rw [e2, ok_bind]
    refine ⟨t2, b :: bs, g2, rfl, by simp [n2], ?_, by rw [b2, b1], by rw [l2, l1], by rw [m2, m1],
      by rw [l1] at c2; rw [c2, c1], fun i => ?_⟩
    · intro o ho
      rcases List.mem_cons.1 ho with rfl | ho
      · have := h.1; omega
      · have := w2 o ho
        rwa [b1, m1] at this
    · rw [s2, show 3 * (k + 1) + i = (((3 * k + i) + 1) + 1) + 1 by omega]
      rfl

/-- **C54**: while the cache is at most 64 entries longer than the window, the window never moves. -/
theorem C54_stuck (env : Env) {t : TossCache} (h : TossCache.Roomy t) (hs : t.cache.length ≤ t.base + 64) (g : env.G)
    {t' : TossCache} {off : Nat} {g' : env.G} (ht : t.tosses env g = .ok (t', off, g')) : off = 0 := by
  obtain ⟨t1, o, e, -, -, -, d1, d2⟩ := tosses_ret env h g
  rw [e] at ht
  cases ht
  omega

/-- **C54**: a tosser whose cache is no longer than the window divides by zero at the first toss. -/
theorem C54_no_extra (env : Env) (t : TossCache) (h : t.cache.length = t.base) (g : env.G) :
    t.tosses env g = .ub .divZero := by
  unfold TossCache.tosses
  by_cases h0 : t.cache.length = 0
  · have : t.mutate env g = .ub .divZero := by
      unfold TossCache.mutate
      dsimp only
      rw [if_pos h0]
    rw [this]; rfl
  · obtain ⟨t', e1, -⟩ := mutate_ret env t g h0
    rw [e1, ok_bind]
    dsimp only
    rw [if_pos (by rw [h]; exact BitVec.sub_self _)]

/-- **C54**: the bit cache likewise. -/
theorem C54_bitwise_no_extra (env : Env) (t : BitTossCache) (hb : t.cache.len = t.cache.blocks.length * 64)
    (h : t.cache.len = t.base) (g : env.G) : t.tosses env g = .ub .divZero := by
  unfold BitTossCache.tosses
  by_cases h0 : t.cache.len = 0
  · have : t.mutate env g = .ub .divZero := by
      unfold BitTossCache.mutate
      dsimp only
      rw [if_pos h0]
    rw [this]; rfl
  · obtain ⟨t', e1, -⟩ := bitMutate_eq env t g h0 (by omega)
    rw [e1, ok_bind]
    dsimp only
    have : t.cache.contentBlocks = t.base / 64 := by unfold BitVector.contentBlocks; omega
    rw [if_pos (by rw [this]; exact BitVec.sub_self _)]

/-- **C54**: a tosser made for windows of `base` entries with at least one extra entry, fewer than 2^32 together, has room. -/
theorem C54_make (base extra : BitVec 32) (h : base.toNat + extra.toNat < 4294967296) (he : extra ≠ 0#32) :
    TossCache.Roomy (TossCache.make base extra) ∧ (TossCache.make base extra).base = base.toNat ∧
    (TossCache.make base extra).cache = List.replicate (base.toNat + extra.toNat) false := by
  have e : (base + extra).toNat = base.toNat + extra.toNat := by rw [BitVec.toNat_add]; omega
  have : extra.toNat ≠ 0 := fun h0 => he (BitVec.eq_of_toNat_eq h0)
  unfold TossCache.make TossCache.Roomy
  dsimp only
  rw [e, List.length_replicate]
  exact ⟨⟨by omega, by omega⟩, rfl, rfl⟩

theorem ceil2_toNat {v : BitVec 32} (h : v.toNat + 63 < 4294967296) :
    (ceil2 v 64#32).toNat = (v.toNat + 63) / 64 * 64 := by
  unfold ceil2
  have e1 : (v + 64#32 - 1#32).toNat = v.toNat + 63 := by
    rw [BitVec.toNat_sub, BitVec.toNat_add]
    have : (64#32).toNat = 64 := rfl
    have : (1#32).toNat = 1 := rfl
    omega
  rw [BitVec.toNat_mul, BitVec.toNat_udiv, e1, show (64#32).toNat = 64 from rfl]
  omega

/-- **C54**: the tosser for `n` features, as the caches of the bitwise estimators make it: for three features or more
(as long as `24n` is an `int`) there is room for a window of `n` bits, in whole blocks. -/
theorem C54_features {n : Nat} (h3 : 3 ≤ n) (hn : 24 * n ≤ 2147483647) :
    ∃ t, BitTossCache.forFeatures n = .ok t ∧ BitTossCache.Roomy t ∧ t.base = (n + 63) / 64 * 64 ∧
      t.cache.len = (25 * n + 63) / 64 * 64 ∧ ones t.cache.blocks t.cache.len = 0 := by
  have e1 : (BitVec.ofNat 32 n).toNat = n := by rw [BitVec.toNat_ofNat]; omega
  have e2 : (BitVec.ofNat 32 n + BitVec.ofNat 32 (3 * 8 * n)).toNat = 25 * n := by
    rw [BitVec.toNat_add, BitVec.toNat_ofNat, BitVec.toNat_ofNat]; omega
  have a1 : (ceil2 (BitVec.ofNat 32 n) 64#32).toNat = (n + 63) / 64 * 64 := by rw [ceil2_toNat (by rw [e1]; omega), e1]
  have a2 : (ceil2 (BitVec.ofNat 32 n + BitVec.ofNat 32 (3 * 8 * n)) 64#32).toNat = (25 * n + 63) / 64 * 64 := by
    rw [ceil2_toNat (by rw [e2]; omega), e2]
  refine ⟨_, by unfold BitTossCache.forFeatures; rw [if_neg (by omega)], ?_, a1, a2, ?_⟩
  · unfold BitTossCache.Roomy BitTossCache.make BitVector.ofLen
    dsimp only
    rw [a1, a2, List.length_replicate]
    omega
  · unfold BitTossCache.make BitVector.ofLen
    dsimp only
    rw [← ones_eq, bitsOf_zero]
    simp [marks, List.count_replicate]

/-- **C54**: for one or two features there is no room, and every toss divides by zero. -/
theorem C54_few_features {n : Nat} (hn : n ≤ 2) :
    ∃ t, BitTossCache.forFeatures n = .ok t ∧ ∀ (env : Env) (v : List Block) (g : env.G),
      v.length = t.cache.blocks.length → BitTossCache.tosses env ⟨t.base, ⟨t.cache.len, v⟩⟩ g = .ub .divZero := by
  have h : n = 0 ∨ n = 1 ∨ n = 2 := by omega
  rcases h with rfl | rfl | rfl
  · exact ⟨⟨0, ⟨0, []⟩⟩, by decide, fun env v g hv => C54_bitwise_no_extra env _ (by dsimp only at hv ⊢; rw [hv]; rfl) rfl g⟩
  · exact ⟨⟨64, ⟨64, [0#64]⟩⟩, by decide, fun env v g hv => C54_bitwise_no_extra env _ (by dsimp only at hv ⊢; rw [hv]; rfl) rfl g⟩
  · exact ⟨⟨64, ⟨64, [0#64]⟩⟩, by decide, fun env v g hv => C54_bitwise_no_extra env _ (by dsimp only at hv ⊢; rw [hv]; rfl) rfl g⟩

/-- A cache of 200 entries for windows of 10, and the bit cache for 9 features, both populated with `s = 4`: five tosses. -/
example : TossCache.Roomy (TossCache.make 10#32 190#32) ∧
    (((TossCache.make 10#32 190#32).populate Toy.env (.fin 4) (Toy.env.seedG 7#32)).bind fun (t, g) =>
      (TossCache.many Toy.env 5 t g).bind fun (t, o, _) => .ok (o, t.cache.count true)) =
      .ok ([64, 64, 0, 128, 0], 50) := by
  refine ⟨(C54_make _ _ (by decide) (by decide)).1, by decide +kernel⟩

example : ((BitTossCache.forFeatures 9).bind fun t => (t.populate Toy.env (.fin 4) (Toy.env.seedG 7#32)).bind fun (t, g) =>
      (BitTossCache.many Toy.env 5 t g).bind fun (t, o, _) => .ok (o, ones t.cache.blocks t.cache.len)) =
      .ok ([0, 2, 1, 1, 2], 64) := by
  decide +kernel

end Tsetlini
