import Verif.Lemmas.Twin
import Verif.Lemmas.Observe
/- Histories on two estimators that simulate the same abstract one. -/
namespace Tsetlini
open Res Spec

section
variable {a : Algo} {env : Env}

theorem evalLoop_ylen {B : Backend} {sc : Sched} {ta : TA B} {i : InferCfg} {X : List B.Sample} {y : List Int}
    {l : List Nat} {s r : Cache × Nat} (h : evalLoop B sc ta i X y l s = .ok r) : ∀ j ∈ l, j < y.length := by
  induction l generalizing s with
  | nil => simp
  | cons j l ih =>
    unfold evalLoop at h
    simp only [bind_eq_ok] at h
    obtain ⟨x, -, d, -, yi, h3, h4⟩ := h
    intro q hq
    rcases List.mem_cons.1 hq with rfl | hq
    · rw [rd_eq_ok] at h3
      exact (List.getElem?_eq_some_iff.1 h3).1
    · exact ih h4 q hq

theorem evaluate_unfit {B : Backend} {L : Lawful B} {cfg : Cfg} {st : EstState B env} {ss : SState env} {sc : Sched}
    (h : Unfit L cfg st ss) (X : List B.Sample) (y : List Int) {r : EstState B env × Except Status Fl} :
    evaluate B env sc st X y ≠ .ok r := by
  intro hr
  unfold evaluate inferCfg Params.numberOfLabels Params.getInt Params.at' at hr
  have hl := h.labelsP
  cases hg : st.params.get? "number_of_labels" with
  | none => rw [hg] at hr; cases hr
  | some v =>
    rw [hg] at hl hr
    cases v with
    | int i => exact absurd rfl (hl i)
    | _ => cases hr

theorem evalSafe_of {cfg : Cfg} (hv : Valid cfg) {k : Kind} (hk : cfg.kind = k) {st : EstState a.backend env}
    {ss : SState env} {sc : Sched} (h : Sim a.lawful cfg st ss) (c : Call a.Sample k) (ht : WellTyped a c)
    (he : ProperEval a st c) {r : EstState a.backend env × Out} (hr : step a.backend env sc c st = .ok r) :
    c.EvalSafe a.lawful ss.shape := by
  cases c with
  | evaluate X y =>
    unfold step tagged at hr
    rw [bind_eq_ok] at hr
    obtain ⟨q, hq, -⟩ := hr
    rcases h with h | ⟨l, n, h⟩
    · exact absurd hq (evaluate_unfit h X y)
    · refine ⟨l, n, h.shape, fun x hx => ?_, ?_⟩
      · obtain ⟨h1, h2⟩ := he x hx
        have := h.featC h2
        exact sok_of (ht.1 x hx) h1 (by omega)
      · unfold evaluate at hq
        simp only [bind_eq_ok] at hq
        obtain ⟨i, -, s, hs, -⟩ := hq
        have := evalLoop_ylen hs
        rcases Nat.lt_or_ge y.length X.length with hlt | hge
        · exact absurd (this y.length (List.mem_range.2 hlt)) (Nat.lt_irrefl _)
        · exact hge
  | _ => trivial

theorem isFitted_sim {B : Backend} {L : Lawful B} {cfg : Cfg} (hv : Valid cfg) {st : EstState B env} {ss : SState env}
    (h : Sim L cfg st ss) : isFitted B st.ta = ss.shape.isSome := by
  rcases h with h | ⟨l, n, h⟩
  · rw [h.fitted, h.shape]; rfl
  · rw [h.fitted hv, h.shape]; rfl

/-- Twins stay twins under every history and return the same. -/
theorem run_twin {sc sc' : Sched} {cfg cfg' : Cfg} (hv : Valid cfg) (hN : a.lawful.minStates ≤ cfg.states)
    (h : cfg.core = cfg'.core) (hct : cfg'.ct = cfg.ct) {k : Kind} (hk : cfg.kind = k)
    {R : Params → Params → Prop}
    (hR : ∀ (c : Call a.Sample k) f o p p', R p p' → R (c.record a.backend f o p) (c.record a.backend f o p'))
    (cs : List (Call a.Sample k)) (ht : ∀ c ∈ cs, WellTyped a c)
    {st st' : EstState a.backend env} {ss : SState env} (h1 : Sim a.lawful cfg st ss) (h2 : Sim a.lawful cfg' st' ss)
    (hp : R st.params st'.params) (he : cfg'.tile = cfg.tile ∨ ProperEvals a sc cs st)
    {r : EstState a.backend env × List Out} (hr : run a.backend env sc cs st = .ok r) :
    ∃ r', run a.backend env sc' cs st' = .ok r' ∧ r'.2 = r.2 ∧ R r.1.params r'.1.params ∧
      ∃ ss', Sim a.lawful cfg r.1 ss' ∧ Sim a.lawful cfg' r'.1 ss' := by
  induction cs generalizing st st' ss r with
  | nil => cases hr; exact ⟨_, rfl, rfl, hp, ss, h1, h2⟩
  | cons c cs ih =>
    unfold run at hr ⊢
    simp only [bind_eq_ok] at hr
    obtain ⟨r1, e1, r2, e2, e3⟩ := hr
    cases e3
    have htc := ht c (by simp)
    have he1 : cfg'.tile = cfg.tile ∨ c.EvalSafe a.lawful ss.shape :=
      he.imp id fun he => evalSafe_of hv hk h1 c htc he.1 e1
    obtain ⟨q1, g1, g2, ss1, g3, g4⟩ := step_twin (sc' := sc') hv hN h hct h1 h2 hk c (WellTyped.typed htc) he1 e1
    have p1 : R r1.1.params q1.1.params := by
      have a1 := ifOk_iff.1 (step_record c st) _ e1
      have a2 := ifOk_iff.1 (step_record c st') _ g1
      rw [a1, a2, g2, isFitted_sim hv h1, isFitted_sim (hv.of_core h) h2]
      exact hR _ _ _ _ _ hp
    obtain ⟨q2, k1, k2, k3, k4⟩ := ih (fun c hc => ht c (by simp [hc])) g3 g4 p1
      (he.imp id fun he => he.2 _ _ e1) e2
    rw [g1, ok_bind, k1, ok_bind]
    exact ⟨_, rfl, by rw [k2, g2], k3, k4⟩

/-- The same without equal counter widths, if both histories return. -/
theorem run_twin_both {sc sc' : Sched} {cfg cfg' : Cfg} (hv : Valid cfg) (hN : a.lawful.minStates ≤ cfg.states)
    (h : cfg.core = cfg'.core) {k : Kind} (hk : cfg.kind = k)
    {R : Params → Params → Prop}
    (hR : ∀ (c : Call a.Sample k) f o p p', R p p' → R (c.record a.backend f o p) (c.record a.backend f o p'))
    (cs : List (Call a.Sample k)) (ht : ∀ c ∈ cs, WellTyped a c)
    {st st' : EstState a.backend env} {ss : SState env} (h1 : Sim a.lawful cfg st ss) (h2 : Sim a.lawful cfg' st' ss)
    (hp : R st.params st'.params) (he : ProperEvals a sc cs st)
    {r r' : EstState a.backend env × List Out} (hr : run a.backend env sc cs st = .ok r)
    (hr' : run a.backend env sc' cs st' = .ok r') :
    r'.2 = r.2 ∧ R r.1.params r'.1.params ∧ ∃ ss', Sim a.lawful cfg r.1 ss' ∧ Sim a.lawful cfg' r'.1 ss' := by
  induction cs generalizing st st' ss r r' with
  | nil => cases hr; cases hr'; exact ⟨rfl, hp, ss, h1, h2⟩
  | cons c cs ih =>
    unfold run at hr hr'
    simp only [bind_eq_ok] at hr hr'
    obtain ⟨r1, e1, r2, e2, e3⟩ := hr
    cases e3
    obtain ⟨q1, g1, q2, k1, e3⟩ := hr'
    cases e3
    have htc := ht c (by simp)
    obtain ⟨g2, ss1, g3, g4⟩ := step_twin_both hv hN h h1 h2 hk c (WellTyped.typed htc)
      (evalSafe_of hv hk h1 c htc he.1 e1) e1 g1
    have p1 : R r1.1.params q1.1.params := by
      have a1 := ifOk_iff.1 (step_record c st) _ e1
      have a2 := ifOk_iff.1 (step_record c st') _ g1
      rw [a1, a2, g2, isFitted_sim hv h1, isFitted_sim (hv.of_core h) h2]
      exact hR _ _ _ _ _ hp
    obtain ⟨k2, k3, k4⟩ := ih (fun c hc => ht c (by simp [hc])) g3 g4 p1 (he.2 _ _ e1) e2 k1
    exact ⟨by rw [k2, g2], k3, k4⟩

end
end Tsetlini
