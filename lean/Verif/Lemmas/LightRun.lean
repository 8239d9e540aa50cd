import Verif.Lemmas.Light
/- Histories on two estimators that differ at most in weights that are all 1. -/
namespace Tsetlini
open Res Spec

theorem Valid.of_bare {c c' : Cfg} (h : c.bare = c'.bare) (hm : 1 ≤ c'.maxWeight ∧ c'.maxWeight ≤ 2147483647) (hv : Valid c) : Valid c' := by
  rw [bare_eq h]
  exact ⟨hv.1, hv.2, hv.3, hv.4, hv.5, hv.6, hv.7, hm.1, hm.2, hv.10, hv.11⟩

section
variable {B : Backend} {L : Lawful B} {env : Env} {cfg cfg' : Cfg}

theorem Call.Safe.light {k : Kind} (h : cfg.bare = cfg'.bare) {c : Call B.Sample k} {sh : Option (Nat × Nat)}
    (hs : c.Safe L cfg sh) : c.Safe L cfg' sh := by
  have e := bare_eq h
  have hct : cfg'.ct = cfg.ct := by rw [e]; rfl
  have sz : ∀ {X y ml ep}, Sized L cfg X y ml ep → Sized L cfg' X y ml ep := by
    intro X y ml ep h
    refine ⟨h.ymax, ?_, ?_, ?_⟩
    · rw [e]; exact h.size
    · rw [hct, e]; exact h.alloc
    · rw [e]; exact h.train
  cases c with
  | fit X y ml ep => exact ⟨hs.1, fun h1 h2 => sz (hs.2 h1 h2)⟩
  | partialFit X y ml ep =>
    have hT : cfg'.T = cfg.T := by rw [e]
    have hs : PSized L cfg sh X y ml ep := hs
    show PSized L cfg' sh X y ml ep
    cases sh with
    | some q => unfold PSized at hs ⊢; dsimp only at hs ⊢; rw [hT]; exact hs
    | none => exact ⟨hs.1, fun h1 h2 => sz (hs.2 h1 h2)⟩
  | fitR X y ep =>
    unfold Call.Safe at hs ⊢
    dsimp only at hs ⊢
    rw [hct, e]; exact hs
  | partialFitR X y ep =>
    unfold Call.Safe PSizedR at hs ⊢
    dsimp only at hs ⊢
    rw [hct, e]; exact hs
  | evaluate X y => exact hs
  | predict1 x => trivial
  | predict X => trivial
  | decision1 x => trivial
  | decision X => trivial
  | predictR1 x => trivial
  | predictR X => trivial

theorem Fit.mat_eq (h : cfg.bare = cfg'.bare) {st st' : EstState B env} {s t : SState env} (hs : SameBut cfg cfg' s t)
    {l l' n n' : Nat} (h1 : Fit L cfg l n st s) (h2 : Fit L cfg' l' n' st' t) : st'.ta.mat = st.ta.mat := by
  have e := h1.shape.symm.trans (hs.shape.trans h2.shape)
  cases e
  have e := bare_eq h
  have a1 := h1.abs
  have a2 := h2.abs
  rw [show cfg'.ct = cfg.ct by rw [e]; rfl, show cfg'.states = cfg.states by rw [e], ← hs.clauses] at a2
  exact L.abs_inj a2 a1

theorem Sim.mat_eq (h : cfg.bare = cfg'.bare) {st st' : EstState B env} {s t : SState env} (hs : SameBut cfg cfg' s t)
    (h1 : Sim L cfg st s) (h2 : Sim L cfg' st' t) : st'.ta.mat = st.ta.mat := by
  rcases h1 with h1 | ⟨l, n, h1⟩ <;> rcases h2 with h2 | ⟨l', n', h2⟩
  · exact h2.mat.trans h1.mat.symm
  · have := h1.shape.symm.trans (hs.shape.trans h2.shape); cases this
  · have := h1.shape.symm.trans (hs.shape.trans h2.shape); cases this
  · exact h1.mat_eq h hs h2

theorem Sim.gens {st st' : EstState B env} {s t : SState env} (hs : SameBut cfg cfg' s t)
    (h1 : Sim L cfg st s) (h2 : Sim L cfg' st' t) : st'.igen = st.igen ∧ st'.fgen = st.fgen := by
  have f : ∀ {cfg : Cfg} {st : EstState B env} {ss : SState env}, Sim L cfg st ss → st.igen = ss.igen ∧ st.fgen = ss.fgen := by
    rintro cfg st ss (h | ⟨l, n, h⟩)
    · exact ⟨h.igen, h.fgen⟩
    · exact ⟨h.igen, h.fgen⟩
  rw [(f h1).1, (f h1).2, (f h2).1, (f h2).2, hs.igen, hs.fgen]
  exact ⟨rfl, rfl⟩

theorem evalLoop_light {sc sc' : Sched} {labels : Nat} (hv : Valid cfg) (hk : cfg.kind = .classifier)
    {ta ta' : TA B} (hm : ta'.mat = ta.mat) (hw : WOk (labels * cfg.k) ta.weights) (hw' : WOk (labels * cfg.k) ta'.weights)
    (hz : ∀ w ∈ ta.weights, w = 0) (hz' : ∀ w ∈ ta'.weights, w = 0) (hsm : labels * cfg.k ≤ 1073741823) (X : List B.Sample)
    (y : List Int) (l : List Nat) {c0 c c0' c' : Cache} (e : Nat) (hc : CacheOk cfg labels c0 c)
    (hc' : CacheOk cfg labels c0' c') {r : Cache × Nat}
    (h : Tsetlini.evalLoop B sc ta (cfg.infer labels) X y l (c, e) = .ok r) :
    (Tsetlini.evalLoop B sc' ta' (cfg.infer labels) X y l (c', e)).Ret fun r' =>
      r'.2 = r.2 ∧ CacheOk cfg labels c0' r'.1 := by
  induction l generalizing c c' e with
  | nil => cases h; exact ⟨_, rfl, rfl, hc'⟩
  | cons i l ih =>
    unfold Tsetlini.evalLoop at h ⊢
    simp only [bind_eq_ok] at h
    obtain ⟨x, h1, d, h2, yi, h3, h4⟩ := h
    rw [h1, ok_bind]
    have hcl := scores_clauses h2
    obtain ⟨d1, e1, q1, q2⟩ := scores_vals sc hv hk hw hsm hc hcl
    rw [h2] at e1
    cases e1
    refine Ret.bind (scores_vals sc' hv hk hw' hsm hc' (by rw [hm]; exact hcl)) ?_
    rintro d' ⟨q3, q4⟩
    rw [h3, ok_bind]
    refine ih _ q1 q3 ?_
    rw [q4, hm, light_score hz' hz, ← q2]
    exact h4

theorem evaluate_light {sc sc' : Sched} (hv : Valid cfg) (hv' : Valid cfg') (hk : cfg.kind = .classifier)
    (h : cfg.bare = cfg'.bare) {st st' : EstState B env} {s t : SState env} (hs : SameBut cfg cfg' s t)
    (h1 : Sim L cfg st s) (h2 : Sim L cfg' st' t)
    (X : List B.Sample) (y : List Int) {r : EstState B env × Except Status Fl} (hr : evaluate B env sc st X y = .ok r) :
    (evaluate B env sc' st' X y).Ret fun r' => r'.2 = r.2 ∧ Sim L cfg r.1 s ∧ Sim L cfg' r'.1 t := by
  have hta := h1.mat_eq h hs h2
  have ha := evaluate_ifOk sc hv hk h1 X y
  rw [hr] at ha
  rcases h1 with h1 | ⟨l, n, h1⟩
  · exact absurd hr (evaluate_unfit h1 X y)
  rcases h2 with h2 | ⟨l', n', h2⟩
  · have := h1.shape.symm.trans (hs.shape.trans h2.shape); cases this
  have e := h1.shape.symm.trans (hs.shape.trans h2.shape)
  cases e
  have hE := bare_eq h
  have hk' : cfg'.kind = .classifier := by rw [hE]; exact hk
  have hkk : cfg'.k = cfg.k := by rw [hE]; rfl
  have hT : cfg'.T = cfg.T := by rw [hE]
  have hK : cfg'.kind = cfg.kind := by rw [hE]
  have hi : cfg'.infer l = cfg.infer l := by
    have htile : cfg'.tile = cfg.tile := by rw [hE]
    unfold Cfg.infer
    rw [hkk, htile, hT]
  have hcv : ∀ {c}, CacheOk cfg' l st'.cache c ↔ CacheOk cfg l st'.cache c := by
    intro c
    constructor
    · rintro ⟨a, b, d, e, f⟩
      rw [hkk] at a; rw [hT] at d; rw [hK] at b
      exact ⟨a, b, d, e, f⟩
    · rintro ⟨a, b, d, e, f⟩
      rw [← hkk] at a; rw [← hT] at d; rw [← hK] at b
      exact ⟨a, b, d, e, f⟩
  unfold evaluate at hr ⊢
  rw [h1.inferCfg hv hk, ok_bind, bind_eq_ok] at hr
  obtain ⟨⟨d, er⟩, hd, hr⟩ := hr
  cases hr
  rw [h2.inferCfg hv' hk', ok_bind, hi]
  have w1 : WOk (l * cfg.k) st.ta.weights := by rw [h1.w]; exact h1.wok hv
  have w2 : WOk (l * cfg.k) st'.ta.weights := by rw [h2.w, ← hkk]; exact h2.wok hv'
  refine Ret.bind (evalLoop_light hv hk hta w1 w2 (by rw [h1.w]; exact hs.left.1) (by rw [h2.w]; exact hs.right.1) (h1.small' hv) X y _ 0
    h1.cacheOk (hcv.1 h2.cacheOk) hd) ?_
  rintro ⟨d', er'⟩ ⟨q1, q2⟩
  dsimp only at q1
  subst q1
  rw [ret_ok]
  exact ⟨rfl, ha.1, .inr ⟨l, n, h2.withCache (hcv.2 q2)⟩⟩

/-- One call. -/
theorem step_light {sc sc' : Sched} (hv : Valid cfg) (hv' : Valid cfg') (hN : L.minStates ≤ cfg.states)
    (h : cfg.bare = cfg'.bare) (hl : cfg.Light) (hl' : cfg'.Light) {st st' : EstState B env} {s t : SState env}
    (hs : SameBut cfg cfg' s t) (h1 : Sim L cfg st s) (h2 : Sim L cfg' st' t) {k : Kind} (hk : cfg.kind = k) (c : Call B.Sample k) (ht : c.Typed L)
    {r : EstState B env × Out} (hr : step B env sc c st = .ok r) :
    (step B env sc' c st').Ret fun r' => r'.2 = r.2 ∧ ∃ s' t', SameBut cfg cfg' s' t' ∧ Sim L cfg r.1 s' ∧ Sim L cfg' r'.1 t' := by
  subst hk
  have hE := bare_eq h
  have hk' : cfg'.kind = cfg.kind := by rw [hE]
  have hN' : L.minStates ≤ cfg'.states := by rw [hE]; exact hN
  have main : c.EvalSafe L s.shape →
      (step B env sc' c st').Ret fun r' => r'.2 = r.2 ∧ ∃ s' t', SameBut cfg cfg' s' t' ∧ Sim L cfg r.1 s' ∧ Sim L cfg' r'.1 t' := by
    intro hes
    have hsf := step_safe hv h1 c ht hes hr
    have hs' : c.Safe L cfg' t.shape := by rw [← hs.shape]; exact hsf.light h
    have a1 := step_ref sc hv hN h1 c ht hsf
    have a2 : (step B env sc' c st').Refines (fun r s => Sim L cfg' r.1 s.1 ∧ r.2 = s.2) (stepS L env cfg' c t) :=
      step_ref' sc' hv' hN' h2 hk' c ht hs'
    have a3 := stepS_light (L := L) h hl hl' c hs
    rw [hr] at a1
    obtain ⟨b, hb, b1, b2⟩ := a1.ok_left
    rw [hb] at a3
    rcases a2.cases with ⟨q, b', e1, e2, q1, q2⟩ | ⟨-, e⟩ | ⟨-, e⟩
    · rw [e2] at a3
      obtain ⟨a3, a4⟩ := a3
      exact ⟨q, e1, by rw [q2, b2, a4], _, _, a3, b1, q1⟩
    · rw [e] at a3; exact a3.elim
    · rw [e] at a3; exact a3.elim
  generalize hkk : cfg.kind = kk at c
  cases c with
  | evaluate X y =>
    unfold step tagged at hr ⊢
    rw [bind_eq_ok] at hr
    obtain ⟨q, hq, hr⟩ := hr
    cases hr
    refine Ret.bind (evaluate_light hv hv' hkk h hs h1 h2 X y hq) ?_
    rintro q' ⟨e1, e2, e3⟩
    rw [ret_ok]
    exact ⟨by rw [e1], s, t, hs, e2, e3⟩
  | _ => exact main trivial

end

/-- A history. -/
theorem run_light {a : Algo} {env : Env} {cfg cfg' : Cfg} {sc sc' : Sched} (hv : Valid cfg) (hv' : Valid cfg') (hN : a.lawful.minStates ≤ cfg.states)
    (h : cfg.bare = cfg'.bare) (hl : cfg.Light) (hl' : cfg'.Light) {k : Kind} (hk : cfg.kind = k)
    {R : Params → Params → Prop}
    (hR : ∀ (c : Call a.Sample k) f o p p', R p p' → R (c.record a.backend f o p) (c.record a.backend f o p'))
    (cs : List (Call a.Sample k)) (ht : ∀ c ∈ cs, WellTyped a c)
    {st st' : EstState a.backend env} {s t : SState env} (hs : SameBut cfg cfg' s t) (h1 : Sim a.lawful cfg st s) (h2 : Sim a.lawful cfg' st' t)
    (hp : R st.params st'.params) {r : EstState a.backend env × List Out} (hr : run a.backend env sc cs st = .ok r) :
    ∃ r', run a.backend env sc' cs st' = .ok r' ∧ r'.2 = r.2 ∧ R r.1.params r'.1.params ∧
      ∃ s' t', SameBut cfg cfg' s' t' ∧ Sim a.lawful cfg r.1 s' ∧ Sim a.lawful cfg' r'.1 t' := by
  induction cs generalizing st st' s t r with
  | nil => cases hr; exact ⟨_, rfl, rfl, hp, s, t, hs, h1, h2⟩
  | cons c cs ih =>
    unfold run at hr ⊢
    simp only [bind_eq_ok] at hr
    obtain ⟨r1, e1, r2, e2, e3⟩ := hr
    cases e3
    have htc := ht c (by simp)
    obtain ⟨q1, g1, g2, s1, t1, g0, g3, g4⟩ := step_light (sc' := sc') hv hv' hN h hl hl' hs h1 h2 hk c (WellTyped.typed htc) e1
    have p1 : R r1.1.params q1.1.params := by
      have a1 := ifOk_iff.1 (step_record c st) _ e1
      have a2 := ifOk_iff.1 (step_record c st') _ g1
      rw [a1, a2, g2, isFitted_sim hv h1, isFitted_sim hv' h2, hs.shape]
      exact hR _ _ _ _ _ hp
    obtain ⟨q2, k1, k2, k3, k4⟩ := ih (fun c hc => ht c (by simp [hc])) g0 g3 g4 p1 e2
    rw [g1, ok_bind, k1, ok_bind]
    exact ⟨_, rfl, by rw [k2, g2], k3, k4⟩

/-! ### Parameters that differ in how clauses are weighted -/

theorem Reads.mixW {p q : Params} {cfg cfg' : Cfg} (h : Reads p cfg) (h' : Reads q cfg')
    (hp : AgreeBut ["weighted", "max_weight"] p q) :
    Reads q { cfg with weighted := cfg'.weighted, maxWeight := cfg'.maxWeight } := by
  have e : ∀ key, key ∉ ["weighted", "max_weight"] → q.get? key = p.get? key := hp
  constructor
  · rw [e]
    · exact h.clauses
    · unfold Cfg.clauseKey; dsimp only; split <;> decide
  · rw [e _ (by decide)]; exact h.T
  · rw [e _ (by decide)]; exact h.states
  · exact h'.maxWeight
  · rw [e _ (by decide)]; exact h.s
  · rw [e _ (by decide)]; exact h.boost
  · exact h'.weighted
  · rw [e _ (by decide)]; exact h.seed
  · rw [e _ (by decide)]; exact h.ctype
  · rw [e _ (by decide)]; exact h.tile
  · rw [e _ (by decide)]; exact h.nJobs
  · rw [e _ (by decide)]; exact h.verbose
  · intro hk; rw [e _ (by decide)]; exact h.loss hk
  · intro hk; rw [e _ (by decide)]; exact h.C1 hk
  · intro hk; rw [e _ (by decide)]; exact h.boxMuller hk

end Tsetlini
