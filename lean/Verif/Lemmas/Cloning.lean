import Verif.Lemmas.Mixed
/- Clones made while read-only calls are in flight. -/
namespace Tsetlini
open Res Spec

/-- What a scratch memory holds: sizes, and the values each location may have. -/
structure Content where
  no : Nat
  ns : Nat
  So : Nat → Bool → Prop
  Ss : Nat → Int → Prop

/-- The memory has such content. -/
structure Content.Has (R : Content) (m : Scratch) : Prop where
  no : m.out.length = R.no
  ns : m.sums.length = R.ns
  So : ∀ (o : Nat) v, m.out[o]? = some v → R.So o v
  Ss : ∀ (l : Nat) v, m.sums[l]? = some v → R.Ss l v

/-- Code that only reads such a memory, `n` times, and whose result is then as `P` says. -/
inductive Loader {α : Type} (R : Content) (P : α → Prop) : Nat → CallCode α → Prop
  | ret {a} : P a → Loader R P 0 (.ret a)
  | loadOut {n o k} : o < R.no → (∀ v, R.So o v → Loader R P n (k v)) → Loader R P (n + 1) (.loadOut o k)
  | loadSum {n l k} : l < R.ns → (∀ v, R.Ss l v → Loader R P n (k v)) → Loader R P (n + 1) (.loadSum l k)

variable {α β : Type} {R : Content}

theorem Loader.act {P : α → Prop} {n : Nat} {code : CallCode α} (h : Loader R P n code) {m : Scratch} (hm : R.Has m) :
    (n = 0 ∧ ∃ a, code = .ret a ∧ P a) ∨ ∃ p code', n = p + 1 ∧ code.act m = some (.ok (code', m)) ∧ Loader R P p code' := by
  cases h with
  | ret h => exact .inl ⟨rfl, _, rfl, h⟩
  | @loadOut n o k e hk =>
    have e1 : m.out[o]? = some (m.out[o]'(by rw [hm.no]; exact e)) := List.getElem?_eq_getElem _
    exact .inr ⟨_, _, rfl, by rw [CallCode.act, rd_of_getElem? e1, ok_bind], hk _ (hm.So _ _ e1)⟩
  | @loadSum n o k e hk =>
    have e1 : m.sums[o]? = some (m.sums[o]'(by rw [hm.ns]; exact e)) := List.getElem?_eq_getElem _
    exact .inr ⟨_, _, rfl, by rw [CallCode.act, rd_of_getElem? e1, ok_bind], hk _ (hm.Ss _ _ e1)⟩

theorem Loader.bind {P : α → Prop} {Q : β → Prop} {n q : Nat} {code : CallCode α} {f : α → CallCode β} (h : Loader R P n code)
    (hf : ∀ a, P a → Loader R Q q (f a)) : Loader R Q (n + q) (code.bind f) := by
  induction h with
  | ret h => rw [Nat.zero_add]; exact hf _ h
  | loadOut e _ ih => rw [Nat.add_right_comm]; exact .loadOut e ih
  | loadSum e _ ih => rw [Nat.add_right_comm]; exact .loadSum e ih

/-- A copying loop. -/
theorem loader_copy {V : Type} {mk : Nat → (V → CallCode (List V)) → CallCode (List V)} {S : Nat → V → Prop} {size : Nat}
    (hmk : ∀ {P : List V → Prop} {n o k}, o < size → (∀ v, S o v → Loader R P n (k v)) → Loader R P (n + 1) (mk o k)) (n : Nat) :
    ∀ (a : Nat) (l : List V), a + n ≤ size → l.length = a → (∀ (i : Nat) v, l[i]? = some v → S i v) →
      Loader R (fun l' : List V => l'.length = a + n ∧ ∀ (i : Nat) v, l'[i]? = some v → S i v) n
        (CallCode.iter (List.range' a n) (fun i l => mk i fun v => .ret (l ++ [v])) l) := by
  induction n with
  | zero => intro a l _ hl hS; exact .ret ⟨by omega, hS⟩
  | succ n ih =>
    intro a l hs hl hS
    rw [List.range'_succ]
    unfold CallCode.iter
    have h1 : Loader R (fun l' : List V => l'.length = a + 1 ∧ ∀ (i : Nat) v, l'[i]? = some v → S i v) (0 + 1)
        (mk a fun v => .ret (l ++ [v])) := by
      refine hmk (by omega) fun v hv => .ret ⟨by simp; omega, fun i w hw => ?_⟩
      rw [List.getElem?_append] at hw
      split at hw
      · exact hS i w hw
      · rename_i hi
        have : i = a := by
          have := (List.getElem?_eq_some_iff.1 hw).1
          simp at this; omega
        subst this
        rw [hl, Nat.sub_self] at hw
        cases hw
        exact hv
    have := h1.bind (q := n) (f := CallCode.iter (List.range' (a + 1) n) (fun i l => mk i fun v => .ret (l ++ [v])))
      (Q := fun l' : List V => l'.length = a + (n + 1) ∧ ∀ (i : Nat) v, l'[i]? = some v → S i v)
      fun l' h => by
        have := ih (a + 1) l' (by omega) h.1 h.2
        rw [show a + 1 + n = a + (n + 1) by omega] at this
        exact this
    rw [show 0 + 1 + n = n + 1 by omega] at this
    exact this

theorem loader_clone (R : Content) : Loader R R.Has (R.no + R.ns) (cloneCode R.no R.ns) := by
  unfold cloneCode copyCode
  have h1 := loader_copy (R := R) (mk := CallCode.loadOut) (S := R.So) (size := R.no) (fun e h => .loadOut e h) R.no 0 [] (by omega) rfl
    (by simp)
  have h2 := loader_copy (R := R) (mk := CallCode.loadSum) (S := R.Ss) (size := R.ns) (fun e h => .loadSum e h) R.ns 0 [] (by omega) rfl
    (by simp)
  rw [Nat.zero_add] at h1 h2
  refine h1.bind (q := R.ns) fun out ho => ?_
  have := h2.bind (q := 0) (Q := R.Has) (f := fun sums => .ret ⟨out, sums⟩) fun sums hs => .ret ⟨ho.1, hs.1, ho.2, hs.2⟩
  exact this

/-- The clones in progress obey the content of the memories they read. -/
def Clones (Rs : Nat → Content) (ts : List Nat) (costs : List Nat) (clones : List (Nat × CallCode Scratch)) : Prop :=
  costs.length = clones.length ∧ ∀ (j : Nat) t code n, clones[j]? = some (t, code) → costs[j]? = some n → ts[j]? = some t ∧ Loader (Rs t) (Rs t).Has n code

section
variable {W₀ : Program} {Rs : Nat → Content} {ts : List Nat}
  (hmem : ∀ n P, Interleaving n W₀ P → ∀ t ∈ ts, ∃ m, P.mems[t]? = some m ∧ (Rs t).Has m)
include hmem

theorem Clones.next {n : Nat} {W : Cloning} (hi : Interleaving n W₀ W.prog) {costs : List Nat} (h : Clones Rs ts costs W.clones) {j t : Nat}
    {code : CallCode Scratch} {q : Nat} (hj : W.clones[j]? = some (t, code)) (hq : costs[j]? = some q) :
    ∃ m, W.prog.mems[t]? = some m ∧ ((q = 0 ∧ ∃ a, code = .ret a ∧ (Rs t).Has a) ∨
      ∃ p code', q = p + 1 ∧ code.act m = some (.ok (code', m)) ∧ Clones Rs ts (costs.set j p) (W.clones.set j (t, code'))) := by
  obtain ⟨ht, hl⟩ := h.2 j t code q hj hq
  obtain ⟨m, hm, hh⟩ := hmem n _ hi t (List.mem_of_getElem? ht)
  refine ⟨m, hm, ?_⟩
  rcases hl.act hh with h1 | ⟨p, code', rfl, h1, h2⟩
  · exact .inl h1
  · refine .inr ⟨p, code', rfl, h1, by simpa using h.1, fun i t' code'' n' hi' hn' => ?_⟩
    rw [List.getElem?_set] at hi' hn'
    by_cases e : j = i
    · subst e
      have hjl : j < W.clones.length := (List.getElem?_eq_some_iff.1 hj).1
      have := h.1
      rw [if_pos rfl, if_pos hjl] at hi'
      rw [if_pos rfl, if_pos (by omega)] at hn'
      cases hi'; cases hn'
      exact ⟨ht, h2⟩
    · rw [if_neg e] at hi' hn'
      exact h.2 i t' code'' n' hi' hn'

omit hmem in
theorem Clones.cost {costs : List Nat} {clones : List (Nat × CallCode Scratch)} (h : Clones Rs ts costs clones) {j : Nat} {c : Nat × CallCode Scratch}
    (hj : clones[j]? = some c) : ∃ n, costs[j]? = some n := by
  have hjl : j < clones.length := (List.getElem?_eq_some_iff.1 hj).1
  have := h.1
  exact ⟨costs[j], List.getElem?_eq_getElem (by omega)⟩

theorem Clones.reach {V : Cloning} (hV : V.prog = W₀) {costs : List Nat} (h : Clones Rs ts costs V.clones) {n : Nat} {W : Cloning}
    (hi : CloneInterleaving n V W) :
    ∃ n1 costs', Interleaving n1 W₀ W.prog ∧ Clones Rs ts costs' W.clones ∧ n + costs'.sum = n1 + costs.sum := by
  induction hi with
  | refl => exact ⟨0, costs, by rw [hV]; exact .refl _, h, by omega⟩
  | @step n V W W' hi hs ih =>
    obtain ⟨n1, c1, h1, h2, h3⟩ := ih hV h
    rcases hs with ⟨P, hs, rfl⟩ | ⟨i, t, code, m, code', m', e1, e2, e3, rfl⟩
    · exact ⟨n1 + 1, c1, h1.step hs, h2, by omega⟩
    · obtain ⟨q, hq⟩ := h2.cost e1
      obtain ⟨m2, e4, h4⟩ := h2.next hmem h1 e1 hq
      rw [e2] at e4
      cases e4
      rcases h4 with ⟨-, a, rfl, -⟩ | ⟨p, code'', rfl, e5, h5⟩
      · cases e3
      · rw [e3] at e5
        cases e5
        have hset : W.prog.mems.set t m = W.prog.mems := by
          apply List.ext_getElem?
          intro i
          rw [List.getElem?_set]
          split
          · rename_i e; subst e
            rw [if_pos (List.getElem?_eq_some_iff.1 e2).1, e2]
          · rfl
        refine ⟨n1, _, ?_, h5, by have := sum_set _ _ _ hq; omega⟩
        show Interleaving n1 W₀ ⟨W.prog.mems.set t m, W.prog.calls⟩
        rw [hset]
        exact h1

theorem Clones.done {n : Nat} {W : Cloning} (hi : Interleaving n W₀ W.prog) {costs : List Nat} (h : Clones Rs ts costs W.clones) :
    (∀ t code, (t, code) ∈ W.clones → ∃ m, code = .ret m) ↔ costs.sum = 0 := by
  constructor
  · intro hr
    suffices hz : ∀ n ∈ costs, n = 0 by
      clear h hi hr
      induction costs with
      | nil => rfl
      | cons a l ih => rw [List.sum_cons, hz a (by simp), ih (fun n hn => hz n (by simp [hn]))]
    intro q hq
    obtain ⟨j, hj⟩ := List.mem_iff_getElem?.1 hq
    have hl := h.1
    have hj' : j < costs.length := (List.getElem?_eq_some_iff.1 hj).1
    have hc : W.clones[j]? = some ((W.clones[j]'(by omega)).1, (W.clones[j]'(by omega)).2) := List.getElem?_eq_getElem (by omega)
    obtain ⟨m, e, h4⟩ := h.next hmem hi hc hj
    obtain ⟨o, ho⟩ := hr _ _ (List.mem_of_getElem? hc)
    rcases h4 with ⟨h4, -⟩ | ⟨p, code1, -, e2, -⟩
    · exact h4
    · rw [ho] at e2; cases e2
  · intro h0 t code hc
    obtain ⟨j, hj⟩ := List.mem_iff_getElem?.1 hc
    obtain ⟨q, hn⟩ := h.cost hj
    obtain ⟨m, e, h4⟩ := h.next hmem hi hj hn
    rcases h4 with ⟨-, a, h4, -⟩ | ⟨p, code1, rfl, e2, -⟩
    · exact ⟨a, h4⟩
    · have := sum_set _ _ _ hn; omega

theorem clones_always (ha : AlwaysReturn W₀) {V : Cloning} (hV : V.prog = W₀) {costs : List Nat} (h : Clones Rs ts costs V.clones) :
    AlwaysCloned V := by
  obtain ⟨total, -, ha⟩ := ha
  have hprog : ∀ n W, CloneInterleaving n V W → ¬ AllCloned W → ∃ W', W.Step W' := by
    intro n W hi hn
    obtain ⟨n1, c1, h1, h2, h3⟩ := h.reach hmem hV hi
    by_cases hr : AllReturned W.prog
    · have : ¬ ∀ t code, (t, code) ∈ W.clones → ∃ m, code = .ret m := fun h => hn ⟨hr, h⟩
      simp only [Classical.not_forall, not_exists] at this
      obtain ⟨t, code, hc, hne⟩ := this
      obtain ⟨j, hj⟩ := List.mem_iff_getElem?.1 hc
      obtain ⟨q, hq⟩ := h2.cost hj
      obtain ⟨m, e, h4⟩ := h2.next hmem h1 hj hq
      rcases h4 with ⟨-, a, h4, -⟩ | ⟨p, code1, rfl, e2, -⟩
      · exact absurd h4 (hne a)
      · exact ⟨_, .inr ⟨j, t, code, m, code1, m, hj, e, e2, rfl⟩⟩
    · obtain ⟨P, hP⟩ := (ha n1 _ h1).2.2.2 hr
      exact ⟨_, .inl ⟨P, hP, rfl⟩⟩
  have hall : ∀ n W, CloneInterleaving n V W → n ≤ total + costs.sum ∧ (AllCloned W ↔ n = total + costs.sum) := by
    intro n W hi
    obtain ⟨n1, c1, h1, h2, h3⟩ := h.reach hmem hV hi
    have h4 := ha n1 _ h1
    refine ⟨by omega, ?_⟩
    unfold AllCloned
    rw [h4.2.2.1, h2.done hmem h1]
    omega
  refine ⟨total + costs.sum, ?_, fun n W hi => ⟨?_, (hall n W hi).1, (hall n W hi).2, hprog n W hi⟩⟩
  · have key : ∀ t, t ≤ total + costs.sum → ∃ W', CloneInterleaving t V W' := by
      intro t
      induction t with
      | zero => exact fun _ => ⟨V, .refl V⟩
      | succ t ih =>
        intro ht
        obtain ⟨W1, h1⟩ := ih (by omega)
        obtain ⟨W2, h4⟩ := hprog t W1 h1 (by rw [(hall t W1 h1).2]; omega)
        exact ⟨W2, h1.step h4⟩
    exact key _ (Nat.le_refl _)
  · obtain ⟨n1, c1, h1, h2, h3⟩ := h.reach hmem hV hi
    rintro (hb | ⟨t, code, hc, hm⟩)
    · exact (ha n1 _ h1).1 hb
    · obtain ⟨j, hj⟩ := List.mem_iff_getElem?.1 hc
      obtain ⟨q, hq⟩ := h2.cost hj
      obtain ⟨m, e, h4⟩ := h2.next hmem h1 hj hq
      rcases hm with ⟨m2, e2, r, e3, hr⟩ | hm
      · rw [e] at e2
        cases e2
        rcases h4 with ⟨-, o, h4, -⟩ | ⟨p, code1, -, e4, -⟩
        · rw [h4] at e3; cases e3
        · rw [e4] at e3; cases e3; exact hr _ rfl
      · rw [hm] at e; cases e

theorem clones_made {V : Cloning} (hV : V.prog = W₀) {costs : List Nat} (h : Clones Rs ts costs V.clones) {n : Nat} {W : Cloning}
    (hi : CloneInterleaving n V W) {j t : Nat} {m : Scratch} (hc : Cloned W j t m) : ts[j]? = some t ∧ (Rs t).Has m := by
  obtain ⟨n1, c1, h1, h2, h3⟩ := h.reach hmem hV hi
  obtain ⟨q, hq⟩ := h2.cost hc
  obtain ⟨e, hl⟩ := h2.2 j t _ q hc hq
  cases hl with
  | ret h => exact ⟨e, h⟩

end

/-- The clones begin. -/
theorem clones_start {B : Backend} {env : Env} {k : Kind} {ests : List (EstState B env)} {calls : List (Nat × Call B.Sample k)} {ts : List Nat}
    {scs : Nat → Sched} {Rs : Nat → Content} (h : ∀ t ∈ ts, ∃ st, ests[t]? = some st ∧ (Rs t).no = st.cache.clauseOutput.length ∧ (Rs t).ns = st.cache.labelSum.length) :
    ∃ costs, Clones Rs ts costs (Cloning.start scs ests calls ts).clones := by
  refine ⟨ts.map fun t => (Rs t).no + (Rs t).ns, by simp [Cloning.start], fun j t code n hj hn => ?_⟩
  simp only [Cloning.start, List.getElem?_map, Option.map_eq_some_iff, Prod.mk.injEq] at hj hn
  obtain ⟨t', ht, rfl, rfl⟩ := hj
  obtain ⟨t'', ht', rfl⟩ := hn
  rw [ht] at ht'
  cases ht'
  obtain ⟨st, e, h1, h2⟩ := h t' (List.mem_of_getElem? ht)
  refine ⟨ht, ?_⟩
  rw [e]
  dsimp only
  rw [← h1, ← h2]
  exact loader_clone _

end Tsetlini
