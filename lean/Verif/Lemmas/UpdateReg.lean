import Verif.Lemmas.Update
/- Regressor training: refinement. -/
namespace Tsetlini
open Res Spec

def Cfg.loss (c : Cfg) : Loss := match lossOf c.lossName with | .ok l => l | _ => .abs

theorem Valid.lossOf {c : Cfg} (h : Valid c) (hk : c.kind = .regressor) :
    Tsetlini.lossOf c.lossName = .ok c.loss := by
  have := h.loss hk
  unfold Cfg.loss
  simp only [List.mem_cons, List.not_mem_nil, or_false] at this
  rcases this with h | h | h | h | h | h <;> rw [h] <;> decide

theorem toUnsigned_self (x : Rat) : (toUnsigned x).Refines Eq (toUnsigned x) := by
  unfold toUnsigned
  split <;> simp [Refines]

theorem feedbackHits_self (env : Env) (bm : Bool) (n : Nat) (p : Fl) (g : env.G) :
    (feedbackHits env bm n p g).Refines Eq (feedbackHits env bm n p g) := by
  unfold feedbackHits binomial
  dsimp only
  cases bm with
  | true =>
    simp only [if_true]
    split
    · split
      · refine Refines.bind (toUnsigned_self _) ?_
        rintro a b rfl; rfl
      · simp [Refines]
    · simp [Refines]
  | false =>
    simp only [Bool.false_eq_true, if_false]
    split
    · split
      · refine Refines.bind (toUnsigned_self _) ?_
        rintro a b rfl; rfl
      · rfl
    · simp [Refines]
    · rfl

/-- Regressor training on one sample. -/
def regUpdateS {B : Backend} (L : Lawful B) (env : Env) (cfg : Cfg) (nf : Nat) (x : List Bool)
    (target : Int) (ss : SState env) : Res (SState env) :=
  let n := ss.clauses.length
  let v := outAt ss.clauses x
  let err := response v ss.weights n cfg.T - target
  (feedbackHits env cfg.boxMuller n
    (lossVal env cfg.loss cfg.C1 (env.rnd (env.rnd err / env.rnd cfg.T))) ss.igen).bind fun r =>
  iter (List.range r.1) (fun _ (ss : SState env) =>
    let (d, g) := env.next ss.igen
    if err < 0 then stepI L env cfg nf x (d.toNat % n) (v (d.toNat % n)) { ss with igen := g }
    else if err > 0 then stepII x (d.toNat % n) (v (d.toNat % n)) { ss with igen := g }
    else .ok { ss with igen := g }) { ss with igen := r.2 }

def Cfg.regCfg (c : Cfg) : RegCfg :=
  ⟨c.k, c.T, c.hyper, tileOf c.tile, c.loss, c.C1, c.boxMuller⟩

theorem TRel.withGen {B : Backend} {L : Lawful B} {env : Env} {cfg : Cfg} {n nf : Nat}
    {sh : Option (Nat × Nat)} {fg : env.F} {s : TrainSt B env} {ss : SState env}
    (h : TRel L env cfg n nf sh fg s ss) (g : env.G) :
    TRel L env cfg n nf sh fg { s with g := g } { ss with igen := g } :=
  { h with g := rfl }

theorem regressorUpdate_ref {B : Backend} (L : Lawful B) {env : Env} (sc : Sched) {cfg : Cfg}
    (hv : Valid cfg) (hkind : cfg.kind = .regressor) (hN : L.minStates ≤ cfg.states)
    {nf : Nat} {x : B.Sample} (hx : SOk L nf x) {y : Int} (hy : 0 ≤ y ∧ y ≤ cfg.T)
    {st : EstState B env} {ss : SState env} (h : Fit L cfg 1 nf st ss) :
    (regressorUpdate B env sc cfg.regCfg x y st).Refines
      (Fit L cfg 1 nf) (regUpdateS L env cfg nf (L.bits x) y ss) := by
  have hsm := h.small' hv
  have hlen := h.len
  have hcol := h.coLen
  rw [Nat.one_mul] at hsm hlen hcol
  have hkp := hv.k_pos
  have hT1 := hv.T
  have hT2 := hv.TMax
  have hco : ∀ i, i < cfg.k → B.clauseOut (tileOf cfg.tile) st.ta.mat i x =
      .ok (outAt ss.clauses (L.bits x) i) := by
    intro i hi
    have hi' : i < ss.clauses.length := by rw [hlen]; exact hi
    rw [outAt_eq hi']
    exact L.out_eq _ h.abs hi' hx.inv hx.bin hx.size
  unfold regressorUpdate
  simp only [Cfg.regCfg, Int.toNat_natCast]
  refine Refines.ret_bind (outputsLoop_ret sc (v := outAt ss.clauses (L.bits x))
    (fun i _ hi => hco i hi) (by rw [hcol]; omega)) ?_
  rintro c1 ⟨out1, rfl, l1, e1⟩
  dsimp only
  rw [hcol] at l1 e1
  have f1 : ∀ i, i < cfg.k → out1[i]? = some (outAt ss.clauses (L.bits x) i) := by
    intro i a
    rw [e1 i a, if_pos ⟨Nat.zero_le _, a⟩]
  have hw := h.wok hv
  rw [Nat.one_mul] at hw
  rw [h.w, sumUpRegressorVotes_eq hw l1 (by omega) (by omega) f1, ok_bind]
  have hR : 0 ≤ response (outAt ss.clauses (L.bits x)) ss.weights cfg.k cfg.T ∧
      response (outAt ss.clauses (L.bits x)) ss.weights cfg.k cfg.T ≤ cfg.T :=
    clampTo_range _ (by omega)
  rw [i32_ok (by omega) (by omega), ok_bind]
  unfold regUpdateS trainRegressor
  dsimp only
  rw [hlen]
  rw [if_neg (by omega), h.igen]
  generalize response (outAt ss.clauses (L.bits x)) ss.weights cfg.k cfg.T - y = err
  rw [Res.bind_assoc]
  refine Refines.bind (feedbackHits_self env cfg.boxMuller cfg.k _ ss.igen) ?_
  rintro ⟨hits, g⟩ _ rfl
  dsimp only
  have ht0 : TRel L env cfg cfg.k nf (some (1, nf)) ss.fgen ⟨st.ta, g, st.cache.ct⟩
      { ss with igen := g } :=
    ⟨h.abs, h.w, rfl, h.ct, hlen, by simpa using h.wlen, h.wmax, h.shape, rfl⟩
  have key := iter_refines (R := TRel L env cfg cfg.k nf (some (1, nf)) ss.fgen)
    (f := fun _ (s : TrainSt B env) =>
      let (r, g) := env.next s.g
      if cfg.k = 0 then .ub .divZero else
      let i := r.toNat % cfg.k
      let s := { s with g := g }
      if err < 0 then (rd out1 i).bind fun o => applyTypeI B env cfg.hyper x i o s
      else if err > 0 then (rd out1 i).bind fun o => applyTypeII B env x i o s
      else .ok s)
    (g := fun _ (ss' : SState env) =>
      let (d, g) := env.next ss'.igen
      if err < 0 then stepI L env cfg nf (L.bits x) (d.toNat % cfg.k)
        (outAt ss.clauses (L.bits x) (d.toNat % cfg.k)) { ss' with igen := g }
      else if err > 0 then stepII (L.bits x) (d.toNat % cfg.k)
        (outAt ss.clauses (L.bits x) (d.toNat % cfg.k)) { ss' with igen := g }
      else .ok { ss' with igen := g })
    (List.range hits) _ _ ht0 (by
      intro _ _ s ss' hs
      dsimp only
      rw [hs.g, if_neg (by omega)]
      have hi : (env.next ss'.igen).1.toNat % cfg.k < cfg.k := Nat.mod_lt _ hkp
      split
      · rw [rd_of_getElem? (f1 _ hi), ok_bind]
        exact applyTypeI_ref L hv hN hx hi _ (hs.withGen _)
      · split
        · rw [rd_of_getElem? (f1 _ hi), ok_bind]
          exact applyTypeII_ref L hN hx hi _ (hs.withGen _)
        · exact hs.withGen _)
  generalize hI : (iter (List.range hits) _ ({ ss with igen := g } : SState env)) = I at key ⊢
  have hb : I = I.bind .ok := by cases I <;> rfl
  rw [hb]
  refine Refines.bind key fun s2 ss2 hs2 => ?_
  rw [refines_ok_ok]
  exact {
    reads := h.reads, labelsP := h.labelsP, featP := h.featP, reg1 := h.reg1, pos := h.pos
    abs := hs2.abs, len := by rw [hs2.len, Nat.one_mul], w := hs2.w
    wlen := by rw [hs2.wlen, Nat.one_mul]
    wmax := hs2.wmax
    coLen := by show out1.length = _; rw [l1, Nat.one_mul]
    lsLen := h.lsLen, fbLen := h.fbLen, fbRange := h.fbRange, lsRange := h.lsRange
    ct := hs2.ct, igen := hs2.g
    fgen := by show st.fgen = _; rw [hs2.fgen]; exact h.fgen
    shape := hs2.shape, small := h.small, nfSmall := h.nfSmall, alloc := h.alloc }

/-- One epoch of a regressor. -/
def regEpochS {B : Backend} (L : Lawful B) (env : Env) (cfg : Cfg) (nf : Nat) (X : List B.Sample)
    (y : List Int) (ss : SState env) : Res (SState env) :=
  iter (env.shuffle ss.igen X.length).1 (fun i ss =>
    (rd X i).bind fun x => (rd y i).bind fun yi => regUpdateS L env cfg nf (L.bits x) yi ss)
    { ss with igen := (env.shuffle ss.igen X.length).2 }

structure RegDataOk {B : Backend} (L : Lawful B) (T : Int) (nf : Nat) (X : List B.Sample) (y : List Int) : Prop where
  len : y.length = X.length
  xs : ∀ x ∈ X, SOk L nf x
  ys : ∀ v ∈ y, 0 ≤ v ∧ v ≤ T

theorem regressorEpoch_ref {B : Backend} (L : Lawful B) {env : Env} (sc : Sched) {cfg : Cfg}
    (hv : Valid cfg) (hkind : cfg.kind = .regressor) (hN : L.minStates ≤ cfg.states)
    {nf : Nat} {X : List B.Sample} {y : List Int}
    (hd : RegDataOk L cfg.T nf X y) {st : EstState B env} {ss : SState env}
    (h : Fit L cfg 1 nf st ss) :
    (regressorEpoch B env sc cfg.regCfg X y st).Refines
      (Fit L cfg 1 nf) (regEpochS L env cfg nf X y ss) := by
  unfold regressorEpoch regEpochS
  dsimp only
  rw [h.igen]
  refine iter_refines _ _ _ (h.withGen _) ?_
  intro i hi s ss hs
  rw [(env.shuffle_law _ X.length).mem_iff, List.mem_range] at hi
  have hiy : i < y.length := by rw [hd.len]; exact hi
  rw [rd_ok hi, ok_bind, rd_ok hiy, ok_bind, ok_bind, ok_bind]
  exact regressorUpdate_ref L sc hv hkind hN (hd.xs _ (List.getElem_mem hi))
    (hd.ys _ (List.getElem_mem hiy)) hs

end Tsetlini
