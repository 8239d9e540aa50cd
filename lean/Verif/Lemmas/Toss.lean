import Verif.Model.CoinTosser
import Verif.Lemmas.Res
/- Coin tosser lemmas. -/
namespace Tsetlini
open Res

/-- Number of marked entries. -/
def marks (l : List Bool) : Nat := l.count true

theorem marks_set {l : List Bool} {i : Nat} (h : i < l.length) :
    marks (l.set i true) = marks l + (if l[i] then 0 else 1) := by
  induction l generalizing i with
  | nil => simp at h
  | cons b l ih =>
    cases i with
    | zero => cases b <;> simp [marks]
    | succ i =>
      have := ih (by simpa using h)
      simp only [marks, List.set_cons_succ, List.count_cons, List.getElem_cons_succ] at this ⊢
      rw [this]; omega

/-- The rejection loop: if it finishes, exactly `hits` entries are marked. -/
theorem tossLoop_post (env : Env) (fuel hits it : Nat) (cache : List Bool) (g : env.G)
    (hit : it = marks cache) (hle : it ≤ hits) (hne : cache.length = 0 → hits = 0) :
    (tossLoop env fuel hits it cache g).Post fun r =>
      r.1.length = cache.length ∧ marks r.1 = hits := by
  induction fuel generalizing it cache g with
  | zero =>
    unfold tossLoop
    by_cases h : it < hits
    · simp [h, Post]
    · rw [if_neg h, post_ok]; exact ⟨rfl, by dsimp only; omega⟩
  | succ fuel ih =>
    unfold tossLoop
    by_cases h : it < hits
    · have hl : cache.length ≠ 0 := fun h0 => by have := hne h0; omega
      rw [if_pos h]
      dsimp only
      rw [if_neg hl]
      have hix : (env.next g).1.toNat % cache.length < cache.length := Nat.mod_lt _ (by omega)
      rw [rd_ok hix, ok_bind]
      have hm := marks_set hix
      refine (ih _ (cache.set _ true) _ ?_ ?_ ?_).mono ?_
      · rw [hm, hit]
      · split <;> omega
      · intro h0; rw [List.length_set] at h0; exact absurd h0 hl
      · rintro r ⟨h1, h2⟩
        exact ⟨by rw [h1, List.length_set], h2⟩
    · rw [if_neg h, post_ok]; exact ⟨rfl, by dsimp only; omega⟩

theorem tosses_post (env : Env) (ct : CoinTosser) (cache : List Bool) (g : env.G)
    (hne : cache.length = 0 → ct.hitsFloor = 0 ∧ ct.thr = 0) :
    (tosses env ct cache g).Post fun r =>
      r.1.length = cache.length ∧ marks r.1 = (ct.estimateHits env g).1 := by
  unfold tosses
  dsimp only
  refine (tossLoop_post env env.fuel _ 0 _ _ ?_ (Nat.zero_le _) ?_).mono ?_
  · simp [marks, List.count_replicate]
  · intro h
    rw [List.length_replicate] at h
    obtain ⟨h1, h2⟩ := hne h
    simp [CoinTosser.estimateHits, h1, h2]
  · rintro r ⟨h1, h2⟩
    exact ⟨by simpa using h1, h2⟩

/-- The part of the coin tosser that matters between calls. -/
structure CtOk (nf hf thr : Nat) (ct : CoinTosser) : Prop where
  hf : ct.hitsFloor = hf
  thr : ct.thr = thr
  l1 : ct.cache1.length = nf
  l2 : ct.cache2.length = nf

/-- Two toss vectors and the generator after them, independent of any earlier content;
`timeout` if the drawing loop runs out of fuel. -/
def tossSpec (env : Env) (nf hf thr : Nat) (g : env.G) : Res (List Bool × List Bool × env.G) :=
  (tossBoth env ⟨hf, thr, List.replicate nf false, List.replicate nf false⟩ g).bind fun (ct, g) =>
  .ok (ct.cache1, ct.cache2, g)

theorem tosses_congr (env : Env) {ct ct' : CoinTosser} {cache cache' : List Bool} (g : env.G)
    (h1 : ct.hitsFloor = ct'.hitsFloor) (h2 : ct.thr = ct'.thr) (h3 : cache.length = cache'.length) :
    tosses env ct cache g = tosses env ct' cache' g := by
  simp [tosses, CoinTosser.estimateHits, h1, h2, h3]

theorem tossBoth_congr (env : Env) {ct ct' : CoinTosser} (g : env.G)
    (h1 : ct.hitsFloor = ct'.hitsFloor) (h2 : ct.thr = ct'.thr)
    (h3 : ct.cache1.length = ct'.cache1.length) (h4 : ct.cache2.length = ct'.cache2.length) :
    tossBoth env ct g = tossBoth env ct' g := by
  unfold tossBoth
  split
  · rw [tosses_congr env g h1 h2 h4]
    congr 1; funext ⟨c2, g⟩
    dsimp only
    rw [tosses_congr env g h1 h2 h3]
    congr 1; funext ⟨c1, g⟩
    simp [h1, h2]
  · rw [tosses_congr env g h1 h2 h3]
    congr 1; funext ⟨c2, g⟩
    dsimp only
    rw [tosses_congr env g h1 h2 h4]
    congr 1; funext ⟨c1, g⟩
    simp [h1, h2]

theorem tossBoth_post (env : Env) (ct : CoinTosser) {nf hf thr : Nat} (h : CtOk nf hf thr ct)
    (hz : nf = 0 → hf = 0 ∧ thr = 0) (g : env.G) :
    (tossBoth env ct g).Post fun r => CtOk nf hf thr r.1 := by
  have t1 : ∀ g, (tosses env ct ct.cache1 g).Post fun r => r.1.length = nf := fun g =>
    (tosses_post env ct ct.cache1 g (by rw [h.l1, h.hf, h.thr]; exact hz)).mono
      fun r hr => by rw [hr.1, h.l1]
  have t2 : ∀ g, (tosses env ct ct.cache2 g).Post fun r => r.1.length = nf := fun g =>
    (tosses_post env ct ct.cache2 g (by rw [h.l2, h.hf, h.thr]; exact hz)).mono
      fun r hr => by rw [hr.1, h.l2]
  unfold tossBoth
  split
  · exact Post.bind (t2 g) fun a ha => Post.bind (t1 a.2) fun b hb => ⟨h.hf, h.thr, hb, ha⟩
  · exact Post.bind (t1 g) fun a ha => Post.bind (t2 a.2) fun b hb => ⟨h.hf, h.thr, ha, hb⟩

theorem tossBoth_refines (env : Env) {ct : CoinTosser} {nf hf thr : Nat} (h : CtOk nf hf thr ct)
    (hz : nf = 0 → hf = 0 ∧ thr = 0) (g : env.G) :
    (tossBoth env ct g).Refines (fun r s => CtOk nf hf thr r.1 ∧ r.1.cache1 = s.1 ∧
      r.1.cache2 = s.2.1 ∧ r.2 = s.2.2) (tossSpec env nf hf thr g) := by
  have hp := tossBoth_post env ct h hz g
  unfold tossSpec
  rw [← tossBoth_congr env (ct := ct)
    (ct' := ⟨hf, thr, List.replicate nf false, List.replicate nf false⟩) g h.hf h.thr
    (by simp [h.l1]) (by simp [h.l2])]
  cases hr : tossBoth env ct g with
  | ok r => rw [hr] at hp; exact ⟨hp, rfl, rfl, rfl⟩
  | ub u => rw [hr] at hp; exact hp.elim
  | exn u => rw [hr] at hp; exact hp.elim
  | timeout => trivial

theorem tossSpec_length {env : Env} {nf hf thr : Nat} (hz : nf = 0 → hf = 0 ∧ thr = 0) {g : env.G}
    {a b : List Bool} {g' : env.G} (h : tossSpec env nf hf thr g = .ok (a, b, g')) :
    a.length = nf ∧ b.length = nf := by
  have := tossBoth_refines env (ct := ⟨hf, thr, List.replicate nf false, List.replicate nf false⟩)
    ⟨rfl, rfl, by simp, by simp⟩ hz g
  rw [h] at this
  obtain ⟨r, hr, h1, h2, h3, _⟩ := this.ok_right
  dsimp only at h2 h3
  exact ⟨by rw [← h2]; exact h1.l1, by rw [← h3]; exact h1.l2⟩

end Tsetlini
