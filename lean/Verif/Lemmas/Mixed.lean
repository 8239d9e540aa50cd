import Verif.Lemmas.Sharing
import Verif.Lemmas.Make
/- Read-only calls in flight on reached estimators. -/
namespace Tsetlini
open Res Spec

variable {α β : Type} {a : Algo} {k : Kind} {env : Env}

/-! ### Estimators with other scratch memories -/

theorem sim_withScratch {B : Backend} {L : Lawful B} {cfg : Cfg} {st : EstState B env} {ss : SState env} (h : Sim L cfg st ss) {m : Scratch}
    (h1 : m.out.length = st.cache.clauseOutput.length) (h2 : m.sums.length = st.cache.labelSum.length)
    (h3 : ∀ s ∈ m.sums, -cfg.T ≤ s ∧ s ≤ cfg.T) : Sim L cfg (st.withScratch m) ss := by
  rcases h with h | ⟨labels, nf, h⟩
  · left
    refine { h with ls := ?_ }
    rw [h.ls] at h2
    exact List.length_eq_zero_iff.1 h2
  · exact .inr ⟨labels, nf, h.withCache ⟨h1.trans h.coLen, fun hk => h2.trans (h.lsLen hk), h3, rfl, rfl⟩⟩

theorem sim_lsRange {B : Backend} {L : Lawful B} {cfg : Cfg} {st : EstState B env} {ss : SState env} (h : Sim L cfg st ss) :
    ∀ s ∈ st.cache.labelSum, -cfg.T ≤ s ∧ s ≤ cfg.T := by
  rcases h with h | ⟨labels, nf, h⟩
  · rw [h.ls]; simp
  · exact h.lsRange

theorem callCode_withScratch {B : Backend} {st : EstState B env} {m : Scratch} (h1 : m.out.length = st.cache.clauseOutput.length)
    (h2 : m.sums.length = st.cache.labelSum.length) (sc : Sched) (c : Call B.Sample k) : callCode sc (st.withScratch m) c = callCode sc st c := by
  cases c <;> simp only [callCode, predictClassifier1Code, predictClassifierCode, decision1Code, decisionCode, evaluateCode,
    predictRegressor1Code, predictRegressorCode, EstState.withScratch, h1, h2]

theorem run_one {B : Backend} {sc : Sched} {c : Call B.Sample k} {st : EstState B env} {e : EstState B env} {outs : List Out} :
    run B env sc [c] st = .ok (e, outs) ↔ ∃ o, step B env sc c st = .ok (e, o) ∧ outs = [o] := by
  simp only [run, bind_eq_ok]
  constructor
  · rintro ⟨⟨s, o⟩, h1, ⟨_, _⟩, h2, h3⟩
    cases h2; cases h3
    exact ⟨o, h1, rfl⟩
  · rintro ⟨o, h, rfl⟩
    exact ⟨_, h, _, rfl, rfl⟩

/-- Indistinguishable estimators answer a call alike. -/
theorem indist_call {st st' : EstState a.backend env} (h : Indistinguishable a k st st') {sc : Sched} (sc' : Sched)
    {c : Call a.Sample k} (ht : WellTyped a c) {e : EstState a.backend env} {o : Out} (hs : step a.backend env sc c st = .ok (e, o)) :
    ∃ e', step a.backend env sc' c st' = .ok (e', o) := by
  obtain ⟨e', h1, -⟩ := (h sc sc' [c] (by simpa using ht)).1 e [o] (run_one.2 ⟨o, hs, rfl⟩)
  rw [run_one] at h1
  obtain ⟨o', h1, h2⟩ := h1
  cases h2
  exact ⟨e', h1⟩

theorem alone_sched {st : EstState a.backend env} (h : Reached a k st) (hN : StatesOk a st.params) {c : Call a.Sample k}
    (ht : WellTyped a c) {o : Out} (ha : Alone a st c o) (sc' : Sched) : ∃ e, step a.backend env sc' c st = .ok (e, o) := by
  obtain ⟨sc, st', hs⟩ := ha
  have : Indistinguishable a k st st := same_indist h h hN (fun _ _ => rfl) ⟨rfl, rfl, rfl⟩
  exact indist_call this _ ht hs

/-! ### Undisturbed runs of one of the calls -/

theorem interleaving_trans {n p : Nat} {A B C : Program} (h1 : Interleaving n A B) (h2 : Interleaving p B C) : Interleaving (n + p) A C := by
  induction h2 with
  | refl => exact h1
  | step _ hs ih => exact .step (ih h1) hs

theorem runs_interleave {n : Nat} {pre : CallCode α} {m m' : Scratch} {x : α} (h : Runs n pre m x m') {W : Program} {j t : Nat}
    {f : α → CallCode Out} (hj : W.calls[j]? = some ⟨t, pre.bind f⟩) (hm : W.mems[t]? = some m) :
    Interleaving n W ⟨W.mems.set t m', W.calls.set j ⟨t, f x⟩⟩ := by
  induction n generalizing pre m W with
  | zero =>
    rcases h.act with ⟨-, rfl, rfl⟩ | ⟨p, _, _, h0, -⟩
    · have e1 : W.mems.set t m = W.mems := by
        apply List.ext_getElem?
        intro i
        rw [List.getElem?_set]
        split
        · subst i; rw [hm]
          rw [List.getElem?_eq_some_iff] at hm
          rw [if_pos hm.1]
        · rfl
      have e2 : W.calls.set j ⟨t, f x⟩ = W.calls := by
        apply List.ext_getElem?
        intro i
        rw [List.getElem?_set]
        split
        · subst i; rw [hj]
          rw [List.getElem?_eq_some_iff] at hj
          rw [if_pos hj.1]; rfl
        · rfl
      rw [e1, e2]; exact .refl W
    · omega
  | succ n ih =>
    have hjl : j < W.calls.length := by rw [List.getElem?_eq_some_iff] at hj; exact hj.1
    have htl : t < W.mems.length := by rw [List.getElem?_eq_some_iff] at hm; exact hm.1
    have key : ∀ pre1 m1, pre.act m = some (.ok (pre1, m1)) → Runs n pre1 m1 x m' →
        (pre.bind f).act m = some (.ok (pre1.bind f, m1)) → Interleaving (n + 1) W ⟨W.mems.set t m', W.calls.set j ⟨t, f x⟩⟩ := by
      intro pre1 m1 _ h2 h3
      have s1 : Program.Step W ⟨W.mems.set t m1, W.calls.set j ⟨t, pre1.bind f⟩⟩ := ⟨j, _, m, _, m1, hj, hm, h3, rfl⟩
      have := ih h2 (W := ⟨W.mems.set t m1, W.calls.set j ⟨t, pre1.bind f⟩⟩) (by rw [List.getElem?_set_self hjl])
        (by rw [List.getElem?_set_self htl])
      simp only [List.set_set] at this
      rw [Nat.add_comm]
      exact interleaving_trans (.step (.refl W) s1) this
    cases h with
    | loadOut e h => exact key _ _ (by rw [CallCode.act, rd_of_getElem? e, ok_bind]) h (by rw [CallCode.bind, CallCode.act, rd_of_getElem? e, ok_bind])
    | loadSum e h => exact key _ _ (by rw [CallCode.act, rd_of_getElem? e, ok_bind]) h (by rw [CallCode.bind, CallCode.act, rd_of_getElem? e, ok_bind])
    | storeOut e h => exact key _ _ (by rw [CallCode.act, wr_ok e, ok_bind]) h (by rw [CallCode.bind, CallCode.act, wr_ok e, ok_bind])
    | storeSum e h => exact key _ _ (by rw [CallCode.act, wr_ok e, ok_bind]) h (by rw [CallCode.bind, CallCode.act, wr_ok e, ok_bind])

theorem CallCode.bind_ret (code : CallCode α) : code.bind .ret = code := by
  induction code with
  | ret => rfl
  | stop => rfl
  | loadOut o k ih => rw [CallCode.bind]; congr; funext v; exact ih v
  | storeOut o v k ih => rw [CallCode.bind, ih]
  | loadSum l k ih => rw [CallCode.bind]; congr; funext v; exact ih v
  | storeSum l v k ih => rw [CallCode.bind, ih]

theorem CallCode.bind_assoc {γ : Type} (code : CallCode α) (f : α → CallCode β) (g : β → CallCode γ) :
    (code.bind f).bind g = code.bind fun x => (f x).bind g := by
  induction code with
  | ret => rfl
  | stop => rfl
  | loadOut o k ih => simp only [CallCode.bind]; congr; funext v; exact ih v
  | storeOut o v k ih => simp only [CallCode.bind]; rw [ih]
  | loadSum l k ih => simp only [CallCode.bind]; congr; funext v; exact ih v
  | storeSum l v k ih => simp only [CallCode.bind]; rw [ih]

end Tsetlini
