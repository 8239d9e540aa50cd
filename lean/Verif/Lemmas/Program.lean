import Verif.Lemmas.Shared
/- Interleavings of calls in flight. -/
namespace Tsetlini
open Res Spec

theorem sum_set (l : List Nat) (j p : Nat) (h : l[j]? = some (p + 1)) : (l.set j p).sum + 1 = l.sum := by
  induction l generalizing j with
  | nil => simp at h
  | cons a l ih =>
    cases j with
    | zero => simp at h; subst h; simp; omega
    | succ j =>
      have := ih j (by simpa using h)
      simp only [List.set_cons_succ, List.sum_cons]; omega

/-- A property of programs that says what every call does next, and how many actions it has left. -/
structure Steady (Inv : List Nat → Program → Prop) : Prop where
  len : ∀ {costs W}, Inv costs W → costs.length = W.calls.length
  next : ∀ {costs W}, Inv costs W → ∀ {j : Nat} {c : InFlight} {n : Nat}, W.calls[j]? = some c → costs[j]? = some n →
    ∃ m, W.mems[c.target]? = some m ∧ ((n = 0 ∧ ∃ o, c.code = .ret o) ∨
      ∃ p code1 m1, n = p + 1 ∧ c.code.act m = some (.ok (code1, m1)) ∧
        Inv (costs.set j p) ⟨W.mems.set c.target m1, W.calls.set j ⟨c.target, code1⟩⟩)

section
variable {Inv : List Nat → Program → Prop} (hS : Steady Inv)
include hS

theorem Steady.cost {costs : List Nat} {W : Program} (h : Inv costs W) {j : Nat} {c : InFlight} (hc : W.calls[j]? = some c) :
    ∃ n, costs[j]? = some n := by
  have := hS.len h
  have hj : j < W.calls.length := by
    rw [List.getElem?_eq_some_iff] at hc; exact hc.1
  exact ⟨costs[j], List.getElem?_eq_getElem (by omega)⟩

theorem Steady.step {costs : List Nat} {W W' : Program} (h : Inv costs W) (hs : W.Step W') :
    ∃ costs', Inv costs' W' ∧ costs'.sum + 1 = costs.sum := by
  obtain ⟨j, c, m, code', m', h1, h2, h3, rfl⟩ := hs
  obtain ⟨n, hn⟩ := hS.cost h h1
  obtain ⟨m2, e, h4⟩ := hS.next h h1 hn
  rw [h2] at e
  cases e
  rcases h4 with ⟨-, o, e⟩ | ⟨p, code1, m1, rfl, e, h5⟩
  · rw [e] at h3; cases h3
  · rw [h3] at e
    cases e
    exact ⟨_, h5, sum_set _ _ _ hn⟩

theorem Steady.reach {costs : List Nat} {W₀ : Program} (h : Inv costs W₀) {n : Nat} {W : Program} (hi : Interleaving n W₀ W) :
    ∃ costs', Inv costs' W ∧ n + costs'.sum = costs.sum := by
  induction hi with
  | refl => exact ⟨costs, h, by omega⟩
  | step _ hs ih =>
    obtain ⟨c1, h1, h2⟩ := ih h
    obtain ⟨c2, h3, h4⟩ := hS.step h1 hs
    exact ⟨c2, h3, by omega⟩

theorem Steady.progress {costs : List Nat} {W : Program} (h : Inv costs W) (hn : ¬ AllReturned W) : ∃ W', W.Step W' := by
  unfold AllReturned at hn
  rw [Classical.not_forall] at hn
  obtain ⟨c, hn⟩ := hn
  rw [Classical.not_imp] at hn
  obtain ⟨hc, hn⟩ := hn
  obtain ⟨j, hj⟩ := List.mem_iff_getElem?.1 hc
  obtain ⟨n, hc⟩ := hS.cost h hj
  obtain ⟨m, e, h4⟩ := hS.next h hj hc
  rcases h4 with ⟨-, h4⟩ | ⟨p, code1, m1, rfl, e2, -⟩
  · exact absurd h4 hn
  · exact ⟨_, j, c, m, code1, m1, hj, e, e2, rfl⟩

theorem Steady.returned {costs : List Nat} {W : Program} (h : Inv costs W) : AllReturned W ↔ costs.sum = 0 := by
  constructor
  · intro hr
    suffices hz : ∀ n ∈ costs, n = 0 by
      clear hS h
      induction costs with
      | nil => rfl
      | cons a l ih => rw [List.sum_cons, hz a (by simp), ih (fun n hn => hz n (by simp [hn]))]
    intro n hn
    obtain ⟨j, hj⟩ := List.mem_iff_getElem?.1 hn
    have hl := hS.len h
    have hj' : j < costs.length := by rw [List.getElem?_eq_some_iff] at hj; exact hj.1
    have hc : W.calls[j]? = some (W.calls[j]'(by omega)) := List.getElem?_eq_getElem (by omega)
    obtain ⟨m, e, h4⟩ := hS.next h hc hj
    obtain ⟨o, ho⟩ := hr _ (List.mem_of_getElem? hc)
    rcases h4 with ⟨h4, -⟩ | ⟨p, code1, m1, -, e2, -⟩
    · exact h4
    · rw [ho] at e2; cases e2
  · intro h0 c hc
    obtain ⟨j, hj⟩ := List.mem_iff_getElem?.1 hc
    obtain ⟨n, hn⟩ := hS.cost h hj
    obtain ⟨m, e, h4⟩ := hS.next h hj hn
    rcases h4 with ⟨-, h4⟩ | ⟨p, code1, m1, rfl, e2, -⟩
    · exact h4
    · have := sum_set _ _ _ hn; omega

theorem Steady.exists {costs : List Nat} {W : Program} (h : Inv costs W) : ∃ W', Interleaving costs.sum W W' := by
  generalize hs : costs.sum = s
  have key : ∀ t, t ≤ s → ∃ W', Interleaving t W W' := by
    intro t
    induction t with
    | zero => exact fun _ => ⟨W, .refl W⟩
    | succ t ih =>
      intro ht
      obtain ⟨W1, h1⟩ := ih (by omega)
      obtain ⟨c1, h2, h3⟩ := hS.reach h h1
      obtain ⟨W2, h4⟩ := hS.progress h2 (by rw [hS.returned h2]; omega)
      exact ⟨W2, h1.step h4⟩
  exact key s (Nat.le_refl _)

theorem Steady.always {costs : List Nat} {W₀ : Program} (h : Inv costs W₀) : AlwaysReturn W₀ := by
  refine ⟨costs.sum, hS.exists h, fun n W hi => ?_⟩
  obtain ⟨c1, h1, h2⟩ := hS.reach h hi
  refine ⟨?_, by omega, ?_, hS.progress h1⟩
  · rintro ⟨c, hc, hm⟩
    obtain ⟨j, hj⟩ := List.mem_iff_getElem?.1 hc
    obtain ⟨k, hk⟩ := hS.cost h1 hj
    obtain ⟨m, e, h4⟩ := hS.next h1 hj hk
    rcases hm with ⟨m2, e2, r, e3, hr⟩ | hm
    · rw [e] at e2
      cases e2
      rcases h4 with ⟨-, o, h4⟩ | ⟨p, code1, m1, -, e4, -⟩
      · rw [h4] at e3; cases e3
      · rw [e4] at e3; cases e3; exact hr _ rfl
    · rw [hm] at e; cases e
  · rw [hS.returned h1]; omega

end

/-! ### One call per estimator -/

/-- Calls on different estimators; call `j` will return `outs j`. -/
def Apartness (outs : Nat → Out) (costs : List Nat) (W : Program) : Prop :=
  costs.length = W.calls.length ∧ (W.calls.map (·.target)).Nodup ∧
  ∀ j c n, W.calls[j]? = some c → costs[j]? = some n →
    ∃ m m', W.mems[c.target]? = some m ∧ Runs n c.code m (outs j) m'

theorem nodup_target {W : Program} (h : (W.calls.map (·.target)).Nodup) {i j : Nat} {c d : InFlight}
    (hi : W.calls[i]? = some c) (hj : W.calls[j]? = some d) (e : c.target = d.target) : i = j := by
  have h1 : (W.calls.map (·.target))[i]? = some c.target := by rw [List.getElem?_map, hi]; rfl
  have h2 : (W.calls.map (·.target))[j]? = some c.target := by rw [List.getElem?_map, hj, e]; rfl
  rw [List.getElem?_eq_some_iff] at h1 h2
  obtain ⟨l1, h1⟩ := h1
  obtain ⟨l2, h2⟩ := h2
  exact (List.getElem_inj h).1 (h1.trans h2.symm)

theorem targets_set {W : Program} {j : Nat} {c : InFlight} (hj : W.calls[j]? = some c) (code : CallCode Out) :
    (W.calls.set j ⟨c.target, code⟩).map (·.target) = W.calls.map (·.target) := by
  apply List.ext_getElem?
  intro i
  rw [List.getElem?_map, List.getElem?_map, List.getElem?_set]
  split
  · subst i
    have : j < W.calls.length := by rw [List.getElem?_eq_some_iff] at hj; exact hj.1
    rw [if_pos this, hj]; rfl
  · rfl

theorem steady_apart (outs : Nat → Out) : Steady (Apartness outs) := by
  refine ⟨fun h => h.1, fun {costs W} h {j c n} hc hn => ?_⟩
  obtain ⟨hl, hnd, h⟩ := h
  obtain ⟨m, m', e, hr⟩ := h j c n hc hn
  refine ⟨m, e, ?_⟩
  rcases hr.act with ⟨rfl, h1, -⟩ | ⟨p, code1, m1, rfl, h1, h2⟩
  · exact .inl ⟨rfl, _, h1⟩
  · refine .inr ⟨p, code1, m1, rfl, h1, by simpa using hl, by rw [targets_set hc]; exact hnd, ?_⟩
    intro i d q hd hq
    rw [List.getElem?_set] at hd hq
    by_cases hij : j = i
    · subst hij
      have hjl : j < W.calls.length := by rw [List.getElem?_eq_some_iff] at hc; exact hc.1
      rw [if_pos rfl, if_pos hjl] at hd
      rw [if_pos rfl, if_pos (by omega)] at hq
      cases hd; cases hq
      have htl : c.target < W.mems.length := by rw [List.getElem?_eq_some_iff] at e; exact e.1
      exact ⟨m1, m', by rw [List.getElem?_set_self htl], h2⟩
    · rw [if_neg hij] at hd hq
      obtain ⟨md, md', e1, e2⟩ := h i d q hd hq
      have hne : c.target ≠ d.target := fun e => hij (nodup_target hnd hc hd e)
      exact ⟨md, md', by rw [List.getElem?_set_ne hne]; exact e1, e2⟩

end Tsetlini
