import Verif.Lemmas.ProtoCall
import Verif.Lemmas.Same
/- Interleavings of calls that share scratch memories. -/
namespace Tsetlini
open Res Spec

variable {α β : Type}

/-- Known locations hold proper values. -/
structure Proper (R : Rules) (D : Known) (m : Scratch) : Prop where
  out : ∀ o, D (.out o) → ∀ v, m.out[o]? = some v → R.So o v
  sum : ∀ l, D (.sum l) → ∀ v, m.sums[l]? = some v → R.Ss l v

theorem Proper.storeOut {R : Rules} {D : Known} {m : Scratch} (h : Proper R D m) {o : Nat} {v : Bool} (hs : R.So o v) :
    Proper R (fun l => l = .out o ∨ D l) { m with out := m.out.set o v } := by
  refine ⟨fun i hi w hw => ?_, fun l hl w hw => ?_⟩
  · dsimp only at hw
    rw [List.getElem?_set] at hw
    split at hw
    · rename_i e; subst e
      split at hw
      · cases hw; exact hs
      · cases hw
    · rename_i hne
      rcases hi with hi | hi
      · cases hi; exact absurd rfl hne
      · exact h.out i hi w hw
  · rcases hl with hl | hl
    · cases hl
    · exact h.sum l hl w hw

theorem Proper.storeSum {R : Rules} {D : Known} {m : Scratch} (h : Proper R D m) {t : Nat} {v : Int} (hs : R.Ss t v) :
    Proper R (fun l => l = .sum t ∨ D l) { m with sums := m.sums.set t v } := by
  refine ⟨fun l hl w hw => ?_, fun i hi w hw => ?_⟩
  · rcases hl with hl | hl
    · cases hl
    · exact h.out l hl w hw
  · dsimp only at hw
    rw [List.getElem?_set] at hw
    split at hw
    · rename_i e; subst e
      split at hw
      · cases hw; exact hs
      · cases hw
    · rename_i hne
      rcases hi with hi | hi
      · cases hi; exact absurd rfl hne
      · exact h.sum i hi w hw

theorem Proper.less {R : Rules} {D D' : Known} {m : Scratch} (h : Proper R D' m) (hd : ∀ l, D l → D' l) : Proper R D m :=
  ⟨fun o ho => h.out o (hd _ ho), fun l hl => h.sum l (hd _ hl)⟩

/-- One action of a call that shares its memory. -/
theorem Proto.act {R : Rules} {P : Known → α → Prop} {D : Known} {n : Nat} {code : CallCode α} (h : Proto R P D n code) {m : Scratch}
    (hm : Proper R D m) (ho : m.out.length = R.no) (hs : m.sums.length = R.ns) :
    (n = 0 ∧ ∃ a, code = .ret a ∧ P D a) ∨
      ∃ p code1 m1 D1, n = p + 1 ∧ code.act m = some (.ok (code1, m1)) ∧ Proto R P D1 p code1 ∧ Proper R D1 m1 ∧
        m1.out.length = R.no ∧ m1.sums.length = R.ns ∧ (∀ D', Proper R D' m → Proper R D' m1) ∧
        (∀ i v, m1.sums[i]? = some v → m.sums[i]? = some v ∨ R.Ss i v) := by
  cases h with
  | ret h => exact .inl ⟨rfl, _, rfl, h⟩
  | @loadOut D n o k e d hk =>
    have e1 : m.out[o]? = some (m.out[o]'(by omega)) := List.getElem?_eq_getElem (by omega)
    exact .inr ⟨_, _, m, D, rfl, by rw [CallCode.act, rd_of_getElem? e1, ok_bind], hk _ (hm.out _ d _ e1), hm, ho, hs,
      fun _ h => h, fun _ _ h => .inl h⟩
  | @loadSum D n o k e d hk =>
    have e1 : m.sums[o]? = some (m.sums[o]'(by omega)) := List.getElem?_eq_getElem (by omega)
    exact .inr ⟨_, _, m, D, rfl, by rw [CallCode.act, rd_of_getElem? e1, ok_bind], hk _ (hm.sum _ d _ e1), hm, ho, hs,
      fun _ h => h, fun _ _ h => .inl h⟩
  | @storeOut D n o v k e h1 hk =>
    exact .inr ⟨_, _, _, _, rfl, by rw [CallCode.act, wr_ok (by omega), ok_bind], hk, hm.storeOut h1, by simpa using ho, hs,
      fun D' h => (h.storeOut h1).less fun l hl => .inr hl, fun _ _ h => .inl h⟩
  | @storeSum D n t v k e h1 hk =>
    refine .inr ⟨_, _, _, _, rfl, by rw [CallCode.act, wr_ok (by omega), ok_bind], hk, hm.storeSum h1, ho, by simpa using hs,
      fun D' h => (h.storeSum h1).less fun l hl => .inr hl, fun i w hw => ?_⟩
    dsimp only at hw
    rw [List.getElem?_set] at hw
    split at hw
    · rename_i e; subst e
      split at hw
      · cases hw; exact .inr h1
      · cases hw
    · exact .inl hw

/-- With rules that leave no choice there is only one result. -/
theorem Proto.det {R : Rules} {P : Known → α → Prop} {D : Known} {n : Nat} {code : CallCode α} (h : Proto R P D n code) [Nonempty α]
    (ho : ∀ o v w, R.So o v → R.So o w → v = w) (hs : ∀ l v w, R.Ss l v → R.Ss l w → v = w) :
    ∃ a, Proto R (fun _ b => b = a) D n code := by
  induction h with
  | @ret D a _ => exact ⟨a, .ret rfl⟩
  | @loadOut D n o k e d _ ih =>
    by_cases hex : ∃ v, R.So o v
    · obtain ⟨v, hv⟩ := hex
      obtain ⟨a, ha⟩ := ih v hv
      exact ⟨a, .loadOut e d fun w hw => by rw [ho o w v hw hv]; exact ha⟩
    · exact ⟨Classical.choice inferInstance, .loadOut e d fun w hw => absurd ⟨w, hw⟩ hex⟩
  | @loadSum D n o k e d _ ih =>
    by_cases hex : ∃ v, R.Ss o v
    · obtain ⟨v, hv⟩ := hex
      obtain ⟨a, ha⟩ := ih v hv
      exact ⟨a, .loadSum e d fun w hw => by rw [hs o w v hw hv]; exact ha⟩
    · exact ⟨Classical.choice inferInstance, .loadSum e d fun w hw => absurd ⟨w, hw⟩ hex⟩
  | storeOut e h1 _ ih => obtain ⟨a, ha⟩ := ih; exact ⟨a, .storeOut e h1 ha⟩
  | storeSum e h1 _ ih => obtain ⟨a, ha⟩ := ih; exact ⟨a, .storeSum e h1 ha⟩

/-- What a call returns when made alone is among the results. -/
theorem Proto.runs {R : Rules} {P : Known → α → Prop} {D : Known} {n p : Nat} {code : CallCode α} {m m' : Scratch} {a : α}
    (h : Proto R P D n code) (hm : Proper R D m) (hr : Runs p code m a m') : ∃ D', P D' a := by
  induction hr generalizing D n with
  | ret => cases h with | ret h => exact ⟨_, h⟩
  | loadOut e _ ih => cases h with | loadOut _ d hk => exact ih (hk _ (hm.out _ d _ e)) hm
  | loadSum e _ ih => cases h with | loadSum _ d hk => exact ih (hk _ (hm.sum _ d _ e)) hm
  | storeOut e _ ih => cases h with | storeOut _ hs hk => exact ih hk (hm.storeOut hs)
  | storeSum e _ ih => cases h with | storeSum _ hs hk => exact ih hk (hm.storeSum hs)

/-- Memory `t` has the sizes of its rules, and its label sums satisfy `K t`. -/
def MemOk (Rs : Nat → Rules) (K : Nat → Int → Prop) (t : Nat) (m : Scratch) : Prop :=
  m.out.length = (Rs t).no ∧ m.sums.length = (Rs t).ns ∧ ∀ (i : Nat) v, m.sums[i]? = some v → K t v

/-- Calls that obey the rules of the memories they share. -/
def Sharing (Rs : Nat → Rules) (K : Nat → Int → Prop) (P : Nat → Out → Prop) (costs : List Nat) (W : Program) : Prop :=
  costs.length = W.calls.length ∧ (∀ t m, W.mems[t]? = some m → MemOk Rs K t m) ∧
  ∀ j c n, W.calls[j]? = some c → costs[j]? = some n →
    ∃ m, W.mems[c.target]? = some m ∧ ∃ D, Proper (Rs c.target) D m ∧ Proto (Rs c.target) (fun _ o => P j o) D n c.code

theorem steady_sharing {Rs : Nat → Rules} {K : Nat → Int → Prop} (P : Nat → Out → Prop) (hK : ∀ t l v, (Rs t).Ss l v → K t v) :
    Steady (Sharing Rs K P) := by
  refine ⟨fun h => h.1, fun {costs W} h {j c n} hc hn => ?_⟩
  obtain ⟨hl, hm, h⟩ := h
  obtain ⟨m, e, D, hD, hp⟩ := h j c n hc hn
  obtain ⟨m1', m2', m3'⟩ := hm _ _ e
  refine ⟨m, e, ?_⟩
  rcases hp.act hD m1' m2' with ⟨rfl, o, h1, -⟩ | ⟨p, code1, m1, D1, rfl, h1, h2, h3, h4, h5, h6, h7⟩
  · exact .inl ⟨rfl, o, h1⟩
  · refine .inr ⟨p, code1, m1, rfl, h1, by simpa using hl, fun t mt ht => ?_, ?_⟩
    · dsimp only at ht
      rw [List.getElem?_set] at ht
      split at ht
      · rename_i e1; subst e1
        split at ht
        · cases ht
          refine ⟨h4, h5, fun i v hv => ?_⟩
          rcases h7 i v hv with h8 | h8
          · exact m3' i v h8
          · exact hK _ _ _ h8
        · cases ht
      · exact hm _ _ ht
    · intro i d q hd hq
      have htl : c.target < W.mems.length := by rw [List.getElem?_eq_some_iff] at e; exact e.1
      rw [List.getElem?_set] at hd hq
      by_cases hij : j = i
      · subst hij
        have hjl : j < W.calls.length := by rw [List.getElem?_eq_some_iff] at hc; exact hc.1
        rw [if_pos rfl, if_pos hjl] at hd
        rw [if_pos rfl, if_pos (by omega)] at hq
        cases hd; cases hq
        exact ⟨m1, by rw [List.getElem?_set_self htl], D1, h3, h2⟩
      · rw [if_neg hij] at hd hq
        obtain ⟨md, e1, Dd, e2, e3⟩ := h i d q hd hq
        by_cases hne : c.target = d.target
        · rw [← hne] at e1 e2 e3 ⊢
          rw [e] at e1
          cases e1
          exact ⟨m1, by rw [List.getElem?_set_self htl], Dd, h6 _ e2, e3⟩
        · exact ⟨md, by rw [List.getElem?_set_ne hne]; exact e1, Dd, e2, e3⟩

theorem Sharing.returned {Rs : Nat → Rules} {K : Nat → Int → Prop} {P : Nat → Out → Prop} {costs : List Nat} {W : Program}
    (h : Sharing Rs K P costs W) {j : Nat} {o : Out} (hr : Returns W j o) : P j o := by
  obtain ⟨c, hc, e⟩ := hr
  obtain ⟨hl, -, h⟩ := h
  have hj : j < W.calls.length := by rw [List.getElem?_eq_some_iff] at hc; exact hc.1
  obtain ⟨n, hn⟩ : ∃ n, costs[j]? = some n := ⟨_, List.getElem?_eq_getElem (by omega)⟩
  obtain ⟨m, -, D, -, hp⟩ := h j c n hc hn
  rw [e] at hp
  cases hp with
  | ret h => exact h

theorem proper_nothing (R : Rules) (m : Scratch) : Proper R (fun _ => False) m := ⟨fun _ h => h.elim, fun _ h => h.elim⟩

/-- The calls begin. -/
theorem sharing_start {B : Backend} {env : Env} {k : Kind} {ests : List (EstState B env)} {calls : List (Nat × Call B.Sample k)}
    {scs : Nat → Sched} {Rs : Nat → Rules} {K : Nat → Int → Prop} {P : Nat → Out → Prop}
    (hm : ∀ t st, ests[t]? = some st → MemOk Rs K t st.scratch)
    (hc : ∀ j t c, calls[j]? = some (t, c) → ∃ st, ests[t]? = some st ∧ ∃ n,
      Proto (Rs t) (fun _ o => P j o) (fun _ => False) n (callCode (scs j) st c)) :
    ∃ costs, Sharing Rs K P costs (Program.start scs ests calls) := by
  have hcost : ∀ j, ∃ n, ∀ t c, calls[j]? = some (t, c) → ∃ st, ests[t]? = some st ∧
      Proto (Rs t) (fun _ o => P j o) (fun _ => False) n (callCode (scs j) st c) := by
    intro j
    cases h : calls[j]? with
    | none => exact ⟨0, fun _ _ h => by cases h⟩
    | some tc =>
      obtain ⟨t, c⟩ := tc
      obtain ⟨st, h1, n, h2⟩ := hc j t c h
      exact ⟨n, fun t' c' h' => by cases h'; exact ⟨st, h1, h2⟩⟩
  refine ⟨(List.range calls.length).map fun j => Classical.choose (hcost j), by simp [Program.start], ?_, ?_⟩
  · intro t m h
    simp only [Program.start, List.getElem?_map, Option.map_eq_some_iff] at h
    obtain ⟨st, h, rfl⟩ := h
    exact hm t st h
  · intro j c n hj hn
    simp only [Program.start, List.getElem?_map, List.getElem?_mapIdx, Option.map_eq_some_iff] at hj hn ⊢
    obtain ⟨⟨t, c⟩, hj, rfl⟩ := hj
    obtain ⟨j', hn, rfl⟩ := hn
    have : j' = j := by
      rw [List.getElem?_eq_some_iff] at hn
      obtain ⟨_, hn⟩ := hn
      rw [List.getElem_range] at hn
      exact hn.symm
    subst this
    obtain ⟨st, h1, h2⟩ := Classical.choose_spec (hcost j') t c hj
    refine ⟨_, ⟨st, h1, rfl⟩, _, proper_nothing _ _, ?_⟩
    simp only [h1]
    exact h2

end Tsetlini
