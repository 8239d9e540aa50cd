import Verif.Lemmas.History
import Verif.Lemmas.Direct
import Verif.Spec.Twin
/- Two estimators that simulate the same abstract one. -/
namespace Tsetlini
open Res Spec

/-- A configuration without the parameters that must not be observable. -/
def Cfg.core (c : Cfg) : Cfg := { c with ctype := "", tile := 0, nJobs := 0, verbose := false }

theorem Cfg.eq_of_core {c c' : Cfg} (h : c.core = c'.core) :
    c' = { c with ctype := c'.ctype, tile := c'.tile, nJobs := c'.nJobs, verbose := c'.verbose } := by
  cases c; cases c'
  simp only [Cfg.core, Cfg.mk.injEq] at h ⊢
  simp [h]

theorem Valid.of_core {c c' : Cfg} (h : c.core = c'.core) (hv : Valid c) : Valid c' := by
  rw [Cfg.eq_of_core h]
  exact ⟨hv.1, hv.2, hv.3, hv.4, hv.5, hv.6, hv.7, hv.8, hv.9, hv.10, hv.11⟩

section
variable {B : Backend} {L : Lawful B} {env : Env}

theorem stepS_core {k : Kind} (cfg : Cfg) (c : Call B.Sample k) (ss : SState env) :
    stepS L env cfg.core c ss = stepS L env cfg c ss := by
  cases c <;> rfl

theorem stepS_twin {k : Kind} {cfg cfg' : Cfg} (h : cfg.core = cfg'.core) (c : Call B.Sample k) (ss : SState env) :
    stepS L env cfg c ss = stepS L env cfg' c ss := by
  rw [← stepS_core cfg, h, stepS_core]

/-- `evaluate` arguments it can cope with. -/
def Call.EvalSafe (L : Lawful B) (sh : Option (Nat × Nat)) {k : Kind} : Call B.Sample k → Prop
  | .evaluate X y => EvalOk L sh X y
  | _ => True

theorem Call.Safe.twin {k : Kind} {cfg cfg' : Cfg} (h : cfg.core = cfg'.core) (hct : cfg'.ct = cfg.ct)
    {c : Call B.Sample k} {sh : Option (Nat × Nat)} (hs : c.Safe L cfg sh) : c.Safe L cfg' sh := by
  have e := Cfg.eq_of_core h
  have sz : ∀ {X y ml ep}, Sized L cfg X y ml ep → Sized L cfg' X y ml ep := by
    intro X y ml ep h
    refine ⟨h.ymax, ?_, ?_, ?_⟩
    · rw [e]; exact h.size
    · rw [hct, e]; exact h.alloc
    · rw [e]; exact h.train
  cases c with
  | fit X y ml ep => exact ⟨hs.1, fun h1 h2 => sz (hs.2 h1 h2)⟩
  | partialFit X y ml ep =>
    have hT : cfg'.T = cfg.T := by rw [e]
    have hs : PSized L cfg sh X y ml ep := hs
    show PSized L cfg' sh X y ml ep
    cases sh with
    | some q => unfold PSized at hs ⊢; dsimp only at hs ⊢; rw [hT]; exact hs
    | none => exact ⟨hs.1, fun h1 h2 => sz (hs.2 h1 h2)⟩
  | fitR X y ep =>
    unfold Call.Safe at hs ⊢
    dsimp only at hs ⊢
    rw [hct, e]; exact hs
  | partialFitR X y ep =>
    unfold Call.Safe PSizedR at hs ⊢
    dsimp only at hs ⊢
    rw [hct, e]; exact hs
  | evaluate X y => exact hs
  | predict1 x => trivial
  | predict X => trivial
  | decision1 x => trivial
  | decision X => trivial
  | predictR1 x => trivial
  | predictR X => trivial

/-- A call that returned was safe. -/
theorem step_safe {sc : Sched} {cfg : Cfg} (hv : Valid cfg) {st : EstState B env}
    {ss : SState env} (h : Sim L cfg st ss) (c : Call B.Sample cfg.kind) (ht : c.Typed L)
    (he : c.EvalSafe L ss.shape) {r : EstState B env × Out} (hr : step B env sc c st = .ok r) :
    c.Safe L cfg ss.shape := by
  generalize hk : cfg.kind = k at c
  cases c with
  | fit X y ml ep =>
    unfold step tagged at hr
    rw [bind_eq_ok] at hr
    obtain ⟨q, hq, -⟩ := hr
    exact fitClassifier_sized L hv hk ht h hq
  | partialFit X y ml ep =>
    unfold step tagged at hr
    rw [bind_eq_ok] at hr
    obtain ⟨q, hq, -⟩ := hr
    exact partialFitClassifier_sized L hv hk ht h hq
  | fitR X y ep =>
    unfold step tagged at hr
    rw [bind_eq_ok] at hr
    obtain ⟨q, hq, -⟩ := hr
    exact fitRegressor_sized L hv hk ht h hq
  | partialFitR X y ep =>
    unfold step tagged at hr
    rw [bind_eq_ok] at hr
    obtain ⟨q, hq, -⟩ := hr
    exact partialFitRegressor_sized L hv hk ht h hq
  | evaluate X y => exact he
  | predict1 x => trivial
  | predict X => trivial
  | decision1 x => trivial
  | decision X => trivial
  | predictR1 x => trivial
  | predictR X => trivial

theorem step_ref' (sc : Sched) {cfg : Cfg} (hv : Valid cfg) (hN : L.minStates ≤ cfg.states) {st : EstState B env}
    {ss : SState env} (h : Sim L cfg st ss) {k : Kind} (hk : cfg.kind = k) (c : Call B.Sample k) (ht : c.Typed L)
    (hs : c.Safe L cfg ss.shape) :
    (step B env sc c st).Refines (fun r s => Sim L cfg r.1 s.1 ∧ r.2 = s.2) (stepS L env cfg c ss) := by
  subst hk; exact step_ref sc hv hN h c ht hs

theorem step_safe' {sc : Sched} {cfg : Cfg} (hv : Valid cfg) {st : EstState B env}
    {ss : SState env} (h : Sim L cfg st ss) {k : Kind} (hk : cfg.kind = k) (c : Call B.Sample k) (ht : c.Typed L)
    (he : c.EvalSafe L ss.shape) {r : EstState B env × Out} (hr : step B env sc c st = .ok r) :
    c.Safe L cfg ss.shape := by
  subst hk; exact step_safe hv h c ht he hr

theorem Fit.ta_eq {cfg cfg' : Cfg} (h : cfg.core = cfg'.core) (hct : cfg'.ct = cfg.ct) {st st' : EstState B env}
    {ss : SState env} {l l' n n' : Nat} (h1 : Fit L cfg l n st ss) (h2 : Fit L cfg' l' n' st' ss) : st'.ta = st.ta := by
  have e := h1.shape.symm.trans h2.shape
  cases e
  have hs : cfg'.states = cfg.states := by rw [Cfg.eq_of_core h]
  have a1 := h1.abs
  have a2 := h2.abs
  rw [hct, hs] at a2
  have := L.abs_inj a1 a2
  have hw := h1.w.trans h2.w.symm
  cases h3 : st.ta; cases h4 : st'.ta
  simp_all

theorem Sim.ta_eq {cfg cfg' : Cfg} (h : cfg.core = cfg'.core) (hct : cfg'.ct = cfg.ct) {st st' : EstState B env}
    {ss : SState env} (h1 : Sim L cfg st ss) (h2 : Sim L cfg' st' ss) : st'.ta = st.ta := by
  rcases h1 with h1 | ⟨l, n, h1⟩ <;> rcases h2 with h2 | ⟨l', n', h2⟩
  · have e1 := h1.mat.trans h2.mat.symm
    have hw := h1.w.trans h2.w.symm
    cases h3 : st.ta; cases h4 : st'.ta
    simp_all
  · have := h1.shape.symm.trans h2.shape; cases this
  · have := h1.shape.symm.trans h2.shape; cases this
  · exact h1.ta_eq h hct h2

theorem Sim.igen_eq {cfg cfg' : Cfg} {st st' : EstState B env}
    {ss : SState env} (h1 : Sim L cfg st ss) (h2 : Sim L cfg' st' ss) : st'.igen = st.igen ∧ st'.fgen = st.fgen := by
  have f : ∀ {cfg : Cfg} {st : EstState B env}, Sim L cfg st ss → st.igen = ss.igen ∧ st.fgen = ss.fgen := by
    rintro cfg st (h | ⟨l, n, h⟩)
    · exact ⟨h.igen, h.fgen⟩
    · exact ⟨h.igen, h.fgen⟩
  rw [(f h1).1, (f h1).2, (f h2).1, (f h2).2]
  exact ⟨rfl, rfl⟩

/-! ### `evaluate` with arbitrary arguments, same automata -/

theorem iter_all_ok {α σ : Type} {l : List α} {f : α → σ → Res σ} {P : α → Prop} {s t : σ}
    (h : iter l f s = .ok t) (hf : ∀ a s t, f a s = .ok t → P a) : ∀ a ∈ l, P a := by
  induction l generalizing s with
  | nil => simp
  | cons a l ih =>
    rw [iter_cons, bind_eq_ok] at h
    obtain ⟨s1, h1, h2⟩ := h
    intro b hb
    rcases List.mem_cons.1 hb with rfl | hb
    · exact hf _ _ _ h1
    · exact ih h2 b hb

/-- The value of a computation. -/
def boolOf : Res Bool → Bool
  | .ok b => b
  | _ => false

theorem outputsLoop_vals {sc : Sched} {clause : Nat → Res Bool} {a b : Nat} {c d : Cache}
    (h : outputsLoop sc clause a b c = .ok d) : ∀ o, a ≤ o → o < b → clause o = .ok (boolOf (clause o)) := by
  unfold outputsLoop at h
  rw [bind_eq_ok] at h
  obtain ⟨out, h1, -⟩ := h
  intro o ho hb
  have := iter_all_ok (P := fun o => clause o = .ok (boolOf (clause o))) h1 (by
    intro a s t h
    rw [bind_eq_ok] at h
    obtain ⟨v, h, -⟩ := h
    rw [h]; rfl) o (by rw [(sc.order_law c.tick a b).mem_iff, mem_range]; exact ⟨ho, hb⟩)
  exact this

theorem scores_vals (sc : Sched) {cfg : Cfg} {labels : Nat} (hv : Valid cfg) (hk : cfg.kind = .classifier) {ta : TA B}
    (hw : WOk (labels * cfg.k) ta.weights) (hsm : labels * cfg.k ≤ 1073741823) {x : B.Sample} {c0 c : Cache}
    (hc : CacheOk cfg labels c0 c)
    (hcl : ∀ o, o < labels * cfg.k → B.clauseOutPruned (tileOf cfg.tile) ta.mat o x =
      .ok (boolOf (B.clauseOutPruned (tileOf cfg.tile) ta.mat o x))) :
    (Tsetlini.scores B sc ta (cfg.infer labels) x c).Ret fun d => CacheOk cfg labels c0 d ∧
      d.labelSum = (List.range labels).map
        (score (fun o => boolOf (B.clauseOutPruned (tileOf cfg.tile) ta.mat o x)) ta.weights cfg.k cfg.T) := by
  have hT := hv.T
  unfold Tsetlini.scores scoresInto
  simp only [Cfg.infer, Int.toNat_natCast]
  refine Ret.bind (outputsLoop_ret sc (v := fun o => boolOf (B.clauseOutPruned (tileOf cfg.tile) ta.mat o x))
    (fun o _ ho => hcl o ho) (by rw [hc.co]; omega)) ?_
  rintro c1 ⟨out, rfl, l1, e1⟩
  dsimp only
  rw [hc.co] at l1 e1
  rw [sumUpAllLabelVotes_eq hw (Nat.le_refl _) (by omega) (by omega)
    (v := fun o => boolOf (B.clauseOutPruned (tileOf cfg.tile) ta.mat o x))
    (fun i hi => by rw [e1 i hi, if_pos ⟨Nat.zero_le _, hi⟩]) (hc.ls hk), ok_bind, ret_ok]
  refine ⟨⟨l1, fun _ => by simp, ?_, hc.fb, hc.ct⟩, rfl⟩
  intro s hs
  obtain ⟨l, -, rfl⟩ := List.mem_map.1 hs
  exact score_range hT

theorem scores_clauses {sc : Sched} {cfg : Cfg} {labels : Nat} {ta : TA B} {x : B.Sample} {c d : Cache}
    (h : Tsetlini.scores B sc ta (cfg.infer labels) x c = .ok d) (o : Nat) (ho : o < labels * cfg.k) :
    B.clauseOutPruned (tileOf cfg.tile) ta.mat o x = .ok (boolOf (B.clauseOutPruned (tileOf cfg.tile) ta.mat o x)) := by
  unfold Tsetlini.scores scoresInto at h
  rw [bind_eq_ok] at h
  obtain ⟨c1, h1, -⟩ := h
  simp only [Cfg.infer, Int.toNat_natCast] at h1
  exact outputsLoop_vals h1 o (Nat.zero_le _) ho

theorem evalLoop_agree {sc sc' : Sched} {cfg : Cfg} {labels : Nat} (hv : Valid cfg) (hk : cfg.kind = .classifier)
    {ta : TA B} (hw : WOk (labels * cfg.k) ta.weights) (hsm : labels * cfg.k ≤ 1073741823) (X : List B.Sample)
    (y : List Int) (l : List Nat) {c0 c c0' c' : Cache} (e : Nat) (hc : CacheOk cfg labels c0 c)
    (hc' : CacheOk cfg labels c0' c') {r : Cache × Nat}
    (h : Tsetlini.evalLoop B sc ta (cfg.infer labels) X y l (c, e) = .ok r) :
    (Tsetlini.evalLoop B sc' ta (cfg.infer labels) X y l (c', e)).Ret fun r' =>
      r'.2 = r.2 ∧ CacheOk cfg labels c0' r'.1 := by
  induction l generalizing c c' e with
  | nil => cases h; exact ⟨_, rfl, rfl, hc'⟩
  | cons i l ih =>
    unfold Tsetlini.evalLoop at h ⊢
    simp only [bind_eq_ok] at h
    obtain ⟨x, h1, d, h2, yi, h3, h4⟩ := h
    rw [h1, ok_bind]
    have hcl := scores_clauses h2
    obtain ⟨d1, e1, q1, q2⟩ := scores_vals sc hv hk hw hsm hc hcl
    rw [h2] at e1
    cases e1
    refine Ret.bind (scores_vals sc' hv hk hw hsm hc' hcl) ?_
    rintro d' ⟨q3, q4⟩
    rw [h3, ok_bind]
    refine ih _ q1 q3 ?_
    rw [q4, ← q2]
    exact h4

theorem evaluate_agree {sc sc' : Sched} {cfg cfg' : Cfg} (hv : Valid cfg) (hk : cfg.kind = .classifier)
    (h : cfg.core = cfg'.core) (hct : cfg'.ct = cfg.ct) (htile : cfg'.tile = cfg.tile)
    {st st' : EstState B env} {ss : SState env} (h1 : Sim L cfg st ss) (h2 : Sim L cfg' st' ss)
    (X : List B.Sample) (y : List Int) {r : EstState B env × Except Status Fl}
    (hr : evaluate B env sc st X y = .ok r) :
    (evaluate B env sc' st' X y).Ret fun r' => r'.2 = r.2 ∧ Sim L cfg r.1 ss ∧ Sim L cfg' r'.1 ss := by
  have hta := h1.ta_eq h hct h2
  have ha := evaluate_ifOk sc hv hk h1 X y
  rw [hr] at ha
  rcases h1 with h1 | ⟨l, n, h1⟩
  · unfold evaluate inferCfg Params.numberOfLabels Params.getInt Params.at' at hr
    have hl := h1.labelsP
    cases hg : st.params.get? "number_of_labels" with
    | none => rw [hg] at hr; cases hr
    | some v =>
      rw [hg] at hl hr
      cases v with
      | int i => exact absurd rfl (hl i)
      | _ => cases hr
  rcases h2 with h2 | ⟨l', n', h2⟩
  · have := h1.shape.symm.trans h2.shape; cases this
  have e := h1.shape.symm.trans h2.shape
  cases e
  have hv' := hv.of_core h
  have hE := Cfg.eq_of_core h
  have hk' : cfg'.kind = .classifier := by rw [hE]; exact hk
  have hi : cfg'.infer l = cfg.infer l := by
    have : cfg'.k = cfg.k := by rw [hE]; rfl
    have hT : cfg'.T = cfg.T := by rw [hE]
    unfold Cfg.infer
    rw [this, htile, hT]
  have hcv : ∀ {c}, CacheOk cfg' l st'.cache c ↔ CacheOk cfg l st'.cache c := by
    intro c
    have : cfg'.k = cfg.k := by rw [hE]; rfl
    have hT : cfg'.T = cfg.T := by rw [hE]
    have hK : cfg'.kind = cfg.kind := by rw [hE]
    constructor
    · rintro ⟨a, b, d, e, f⟩
      rw [this] at a; rw [hT] at d; rw [hK] at b
      exact ⟨a, b, d, e, f⟩
    · rintro ⟨a, b, d, e, f⟩
      rw [← this] at a; rw [← hT] at d; rw [← hK] at b
      exact ⟨a, b, d, e, f⟩
  unfold evaluate at hr ⊢
  rw [h1.inferCfg hv hk, ok_bind, bind_eq_ok] at hr
  obtain ⟨⟨d, er⟩, hd, hr⟩ := hr
  cases hr
  rw [h2.inferCfg hv' hk', ok_bind, hi]
  have hd' := hd
  rw [← hta] at hd'
  have hw : WOk (l * cfg.k) st'.ta.weights := by rw [hta, h1.w]; exact h1.wok hv
  refine Ret.bind (evalLoop_agree hv hk hw (h1.small' hv) X y _ 0 h1.cacheOk (hcv.1 h2.cacheOk) hd') ?_
  rintro ⟨d', er'⟩ ⟨q1, q2⟩
  dsimp only at q1
  subst q1
  rw [ret_ok]
  exact ⟨rfl, ha.1, .inr ⟨l, n, h2.withCache (hcv.2 q2)⟩⟩

/-! ### One call on twins -/

theorem step_twin {sc sc' : Sched} {cfg cfg' : Cfg} (hv : Valid cfg) (hN : L.minStates ≤ cfg.states)
    (h : cfg.core = cfg'.core) (hct : cfg'.ct = cfg.ct) {st st' : EstState B env} {ss : SState env}
    (h1 : Sim L cfg st ss) (h2 : Sim L cfg' st' ss) {k : Kind} (hk : cfg.kind = k) (c : Call B.Sample k) (ht : c.Typed L)
    (he : cfg'.tile = cfg.tile ∨ c.EvalSafe L ss.shape) {r : EstState B env × Out} (hr : step B env sc c st = .ok r) :
    (step B env sc' c st').Ret fun r' => r'.2 = r.2 ∧ ∃ ss', Sim L cfg r.1 ss' ∧ Sim L cfg' r'.1 ss' := by
  subst hk
  have hv' := hv.of_core h
  have hE := Cfg.eq_of_core h
  have hk' : cfg'.kind = cfg.kind := by rw [hE]
  have hN' : L.minStates ≤ cfg'.states := by rw [hE]; exact hN
  have main : c.EvalSafe L ss.shape →
      (step B env sc' c st').Ret fun r' => r'.2 = r.2 ∧ ∃ ss', Sim L cfg r.1 ss' ∧ Sim L cfg' r'.1 ss' := by
    intro hes
    have hs := step_safe hv h1 c ht hes hr
    have hs' := hs.twin h hct
    have a1 := step_ref sc hv hN h1 c ht hs
    have a2 : (step B env sc' c st').Refines (fun r s => Sim L cfg' r.1 s.1 ∧ r.2 = s.2) (stepS L env cfg' c ss) := by
      exact step_ref' sc' hv' hN' h2 hk' c ht hs'
    rw [hr] at a1
    obtain ⟨b, hb, b1, b2⟩ := a1.ok_left
    rw [← stepS_twin h, hb] at a2
    rcases a2.cases with ⟨q, b', e1, e2, q1, q2⟩ | ⟨-, e⟩ | ⟨-, e⟩
    · cases e2
      exact ⟨q, e1, by rw [q2, b2], _, b1, q1⟩
    · cases e
    · cases e
  rcases he with he | he
  · generalize hkk : cfg.kind = kk at c
    cases c with
    | evaluate X y =>
      unfold step tagged at hr ⊢
      rw [bind_eq_ok] at hr
      obtain ⟨q, hq, hr⟩ := hr
      cases hr
      refine Ret.bind (evaluate_agree hv hkk h hct he h1 h2 X y hq) ?_
      rintro q' ⟨e1, e2, e3⟩
      rw [ret_ok]
      exact ⟨by rw [e1], ss, e2, e3⟩
    | _ => exact main trivial
  · exact main he

/-- Two estimators that may differ in counter width: if both calls return, they agree. -/
theorem step_twin_both {sc sc' : Sched} {cfg cfg' : Cfg} (hv : Valid cfg) (hN : L.minStates ≤ cfg.states)
    (h : cfg.core = cfg'.core) {st st' : EstState B env} {ss : SState env}
    (h1 : Sim L cfg st ss) (h2 : Sim L cfg' st' ss) {k : Kind} (hk : cfg.kind = k) (c : Call B.Sample k) (ht : c.Typed L)
    (he : c.EvalSafe L ss.shape) {r r' : EstState B env × Out} (hr : step B env sc c st = .ok r)
    (hr' : step B env sc' c st' = .ok r') :
    r'.2 = r.2 ∧ ∃ ss', Sim L cfg r.1 ss' ∧ Sim L cfg' r'.1 ss' := by
  subst hk
  have hv' := hv.of_core h
  have hE := Cfg.eq_of_core h
  have hk' : cfg'.kind = cfg.kind := by rw [hE]
  have hN' : L.minStates ≤ cfg'.states := by rw [hE]; exact hN
  have a1 := step_ref sc hv hN h1 c ht (step_safe hv h1 c ht he hr)
  have a2 : (step B env sc' c st').Refines (fun r s => Sim L cfg' r.1 s.1 ∧ r.2 = s.2) (stepS L env cfg' c ss) := by
    exact step_ref' sc' hv' hN' h2 hk' c ht (step_safe' hv' h2 hk' c ht he hr')
  rw [hr] at a1
  rw [hr', ← stepS_twin h] at a2
  obtain ⟨b, hb, b1, b2⟩ := a1.ok_left
  obtain ⟨b', hb', b1', b2'⟩ := a2.ok_left
  rw [hb] at hb'
  cases hb'
  exact ⟨by rw [b2, b2'], _, b1, b1'⟩

/-! ### Parameters after a call -/

/-- The number of labels a successful `fit` records. -/
def labelsOf (y : List Int) (ml : Int) : Int :=
  match maxElem y with
  | .ok hi => max (hi + 1) ml
  | _ => 0

def featsOf (B : Backend) (X : List B.Sample) : Int :=
  match X with
  | x :: _ => B.size x
  | [] => 0

def recordC (B : Backend) (X : List B.Sample) (y : List Int) (ml : Int) (s : Status) (p : Params) : Params :=
  if s.code = .ok then (p.set "number_of_labels" (.int (labelsOf y ml))).set "number_of_features" (.int (featsOf B X)) else p

def recordR (B : Backend) (X : List B.Sample) (s : Status) (p : Params) : Params :=
  if s.code = .ok then p.set "number_of_features" (.int (featsOf B X)) else p

/-- The parameters after a call. -/
def Call.record (B : Backend) {k : Kind} (fitted : Bool) : Call B.Sample k → Out → Params → Params
  | .fit X y ml _, .status s, p => recordC B X y ml s p
  | .partialFit X y ml _, .status s, p => if fitted then p else recordC B X y ml s p
  | .fitR X _ _, .status s, p => recordR B X s p
  | .partialFitR X _ _, .status s, p => if fitted then p else recordR B X s p
  | _, _, p => p

variable {sc : Sched}

theorem fitClassifier_record (st : EstState B env) (X : List B.Sample) (y : List Int) (ml : Int) (ep : Nat) :
    (fitClassifier B env sc st X y ml ep).IfOk fun r => r.1.params = recordC B X y ml r.2 st.params := by
  unfold fitClassifier recordC
  refine ifOk_bind_any fun sm => ?_
  split
  · next h => rw [ifOk_iff]; intro a e; cases e; simp [h]
  refine ifOk_iff.2 fun r hr => ?_
  simp only [bind_eq_ok] at hr
  obtain ⟨hi, h1, hi1, h2, sm, h3, hr⟩ := hr
  split at hr
  · next h => cases hr; simp [h]
  split at hr
  · cases hr
  · rw [bind_eq_ok] at hr
    obtain ⟨st1, h5, h6⟩ := hr
    have e1 := ifOk_iff.1 (initializeState_params _) _ h5
    obtain ⟨e2, e3⟩ := ifOk_iff.1 (fitClassifierOnline_params _ _ _ _) _ h6
    rw [e2, e1, e3, if_pos (show Status.sOk.code = .ok from rfl)]
    unfold labelsOf featsOf
    rw [h1]
    unfold i32 at h2
    split at h2
    · cases h2; rfl
    · cases h2

theorem fitRegressor_record (st : EstState B env) (X : List B.Sample) (y : List Int) (ep : Nat) :
    (fitRegressor B env sc st X y ep).IfOk fun r => r.1.params = recordR B X r.2 st.params := by
  unfold fitRegressor recordR
  refine ifOk_bind_any fun sm => ?_
  split
  · next h => rw [ifOk_iff]; intro a e; cases e; simp [h]
  refine ifOk_bind_any fun _ => ?_
  dsimp only
  split
  · next h => rw [ifOk_iff]; intro a e; cases e; simp [h]
  split
  · trivial
  · refine ifOk_iff.2 fun a ha => ?_
    rw [bind_eq_ok] at ha
    obtain ⟨st1, h1, h2⟩ := ha
    have e1 := ifOk_iff.1 (initializeState_params _) _ h1
    obtain ⟨e2, e3⟩ := ifOk_iff.1 (fitRegressorOnline_params _ _ _ _) _ h2
    rw [e2, e1, e3, if_pos (show Status.sOk.code = .ok from rfl)]
    rfl

theorem tagged_rec {α : Type} {f : α → Out} {r : Res (EstState B env × α)} {P : EstState B env → Out → Prop}
    (h : r.IfOk fun r => P r.1 (f r.2)) : (tagged f r).IfOk fun r => P r.1 r.2 := by
  unfold tagged
  exact h.bind fun _ ha => ha

theorem step_record {k : Kind} (c : Call B.Sample k) (st : EstState B env) :
    (step B env sc c st).IfOk fun r => r.1.params = c.record B (isFitted B st.ta) r.2 st.params := by
  have ro : ∀ {α : Type} {f : α → Out} {r : Res (EstState B env × α)},
      (∀ o p, c.record B (isFitted B st.ta) (f o) p = p) → (r.IfOk fun r => Frozen st r.1) →
      (tagged f r).IfOk fun r => r.1.params = c.record B (isFitted B st.ta) r.2 st.params := by
    intro α f r hc h
    exact tagged_rec (P := fun s o => s.params = c.record B (isFitted B st.ta) o st.params)
      (ifOk_iff.2 fun a ha => by rw [hc]; exact (ifOk_iff.1 h a ha).params)
  have tr : ∀ {r : Res (EstState B env × Status)},
      (r.IfOk fun r => r.1.params = c.record B (isFitted B st.ta) (.status r.2) st.params) →
      (tagged Out.status r).IfOk fun r => r.1.params = c.record B (isFitted B st.ta) r.2 st.params := fun h =>
    tagged_rec (P := fun s o => s.params = c.record B (isFitted B st.ta) o st.params) h
  cases c with
  | fit X y ml ep => exact tr (fitClassifier_record _ _ _ _ _)
  | partialFit X y ml ep =>
    refine tr ?_
    show (partialFitClassifier B env sc st X y ml ep).IfOk fun r =>
      r.1.params = if isFitted B st.ta then st.params else recordC B X y ml r.2 st.params
    unfold partialFitClassifier
    by_cases hf : isFitted B st.ta = true
    · rw [if_pos hf]
      refine ifOk_iff.2 fun a ha => ?_
      rw [(ifOk_iff.1 (fitClassifierOnlineChecked_effect _ _ _ _) _ ha).2, if_pos hf]
    · simp only [if_neg hf]
      exact fitClassifier_record _ _ _ _ _
  | predict1 x => exact ro (fun _ _ => rfl) (predictClassifier1_frozen _ _)
  | predict X => exact ro (fun _ _ => rfl) (predictClassifier_frozen _ _)
  | decision1 x => exact ro (fun _ _ => rfl) (decision1_frozen _ _)
  | decision X => exact ro (fun _ _ => rfl) (decision_frozen _ _)
  | evaluate X y => exact ro (fun _ _ => rfl) (evaluate_frozen _ _ _)
  | fitR X y ep => exact tr (fitRegressor_record _ _ _ _)
  | partialFitR X y ep =>
    refine tr ?_
    show (partialFitRegressor B env sc st X y ep).IfOk fun r =>
      r.1.params = if isFitted B st.ta then st.params else recordR B X r.2 st.params
    unfold partialFitRegressor
    by_cases hf : isFitted B st.ta = true
    · rw [if_pos hf]
      refine ifOk_iff.2 fun a ha => ?_
      rw [(ifOk_iff.1 (fitRegressorOnlineChecked_effect _ _ _ _) _ ha).2, if_pos hf]
    · simp only [if_neg hf]
      exact fitRegressor_record _ _ _ _
  | predictR1 x => exact ro (fun _ _ => rfl) (predictRegressor1_frozen _ _)
  | predictR X => exact ro (fun _ _ => rfl) (predictRegressor_frozen _ _)

theorem _root_.Tsetlini.Spec.AgreeBut.set {K : List String} {p p' : Params} (h : AgreeBut K p p') (key : String) (v : PVal) :
    AgreeBut K (p.set key v) (p'.set key v) := by
  intro q hq
  by_cases e : q = key
  · subst e; rw [Params.get?_set_self, Params.get?_set_self]
  · rw [Params.get?_set_ne _ e, Params.get?_set_ne _ e]; exact h q hq

theorem Call.record_agree {K : List String} {k : Kind} {p p' : Params} (h : AgreeBut K p p') (f : Bool)
    (c : Call B.Sample k) (o : Out) : AgreeBut K (c.record B f o p) (c.record B f o p') := by
  unfold Call.record
  split
  · unfold recordC; split
    · exact (h.set _ _).set _ _
    · exact h
  · split
    · exact h
    · unfold recordC; split
      · exact (h.set _ _).set _ _
      · exact h
  · unfold recordR; split
    · exact h.set _ _
    · exact h
  · split
    · exact h
    · unfold recordR; split
      · exact h.set _ _
      · exact h
  · exact h

end
end Tsetlini
