import Verif.Spec.Safety
import Verif.Lemmas.Loss
import Verif.Lemmas.Calls
/-
Calls without undefined behaviour.
-/
namespace Tsetlini
open Res Spec

/-! ### No failing conversion -/

def NoConv {α : Type} (r : Res α) : Prop := r ≠ .ub .floatConv

theorem NoConv.bind {α β : Type} {r : Res α} {f : α → Res β} (h : NoConv r) (hf : ∀ a, r = .ok a → NoConv (f a)) :
    NoConv (r.bind f) := by
  cases r with
  | ok a => exact hf a rfl
  | ub u => exact fun e => h (by cases e; rfl)
  | exn e => exact fun e => by cases e
  | timeout => exact fun e => by cases e

theorem NoConv.ret {α : Type} {P : α → Prop} {r : Res α} (h : r.Ret P) : NoConv r := by
  obtain ⟨a, rfl, -⟩ := h
  exact fun e => by cases e

theorem noConv_ok {α : Type} (a : α) : NoConv (.ok a) := fun e => by cases e

theorem noConv_rd {α : Type} (l : List α) (i : Nat) : NoConv (rd l i) := by
  unfold rd; split <;> exact fun e => by cases e

theorem noConv_wr {α : Type} (l : List α) (i : Nat) (a : α) : NoConv (wr l i a) := by
  unfold wr; split <;> exact fun e => by cases e

theorem noConv_i32 (x : Int) : NoConv (i32 x) := by
  unfold i32; split <;> exact fun e => by cases e

theorem noConv_iter {ι σ : Type} {P : σ → Prop} {f : ι → σ → Res σ} {l : List ι}
    (h : ∀ i ∈ l, ∀ s, P s → NoConv (f i s) ∧ ∀ s', f i s = .ok s' → P s') {s : σ} (hs : P s) : NoConv (iter l f s) := by
  induction l generalizing s with
  | nil => exact noConv_ok _
  | cons i l ih =>
    rw [iter_cons]
    obtain ⟨h1, h2⟩ := h i (by simp) s hs
    exact h1.bind fun s' e => ih (fun j hj => h j (by simp [hj])) (h2 s' e)

theorem noConv_iter' {ι σ : Type} {f : ι → σ → Res σ} {l : List ι} (h : ∀ i s, NoConv (f i s)) (s : σ) : NoConv (iter l f s) :=
  noConv_iter (P := fun _ => True) (fun i _ s _ => ⟨h i s, fun _ _ => trivial⟩) trivial

variable {env : Env}

theorem noConv_tossLoop (fuel : Nat) : ∀ (hits it : Nat) (cache : List Bool) (g : env.G), NoConv (tossLoop env fuel hits it cache g) := by
  induction fuel with
  | zero =>
    intro hits it cache g
    unfold tossLoop
    split
    · exact fun e => by cases e
    · exact noConv_ok _
  | succ n ih =>
    intro hits it cache g
    unfold tossLoop
    split
    · dsimp only
      split
      · exact fun e => by cases e
      · exact (noConv_rd _ _).bind fun c _ => ih _ _ _ _
    · exact noConv_ok _

theorem noConv_tossSpec (nf hf thr : Nat) (g : env.G) : NoConv (tossSpec env nf hf thr g) := by
  unfold tossSpec tossBoth
  refine NoConv.bind ?_ fun _ _ => noConv_ok _
  split
  · exact (noConv_tossLoop _ _ _ _ _).bind fun _ _ => (noConv_tossLoop _ _ _ _ _).bind fun _ _ => noConv_ok _
  · exact (noConv_tossLoop _ _ _ _ _).bind fun _ _ => (noConv_tossLoop _ _ _ _ _).bind fun _ _ => noConv_ok _

theorem noConv_specINeg (a : Algo) (N : Int) (nf hf thr : Nat) (c : Clause) (g : env.G) :
    NoConv (a.lawful.specINeg env N nf hf thr c g) := by
  cases a with
  | classic => exact (noConv_tossSpec _ _ _ _).bind fun _ _ => noConv_ok _
  | bitwise => exact noConv_ok _

variable {a : Algo} {cfg : Cfg} {nf : Nat}

theorem noConv_stepI (x : List Bool) (i : Nat) (out : Bool) (s : SState env) : NoConv (stepI a.lawful env cfg nf x i out s) := by
  unfold stepI
  refine (noConv_rd _ _).bind fun c _ => ?_
  dsimp only
  split
  · exact (noConv_specINeg a _ _ _ _ _ _).bind fun _ _ => noConv_ok _
  · exact (noConv_tossSpec _ _ _ _).bind fun _ _ => noConv_ok _

theorem noConv_stepII (x : List Bool) (i : Nat) (out : Bool) (s : SState env) : NoConv (stepII x i out s) := by
  unfold stepII
  refine (noConv_rd _ _).bind fun c _ => ?_
  split <;> exact noConv_ok _

theorem noConv_trainS (x : List Bool) (fb : List Int) (out : Nat → Bool) (p q : Nat) (s : SState env) :
    NoConv (trainS a.lawful env cfg nf x fb out p q s) := by
  unfold trainS
  refine noConv_iter' (fun i s => (noConv_rd _ _).bind fun f _ => ?_) s
  split
  · exact noConv_stepI _ _ _ _
  · split
    · exact noConv_stepII _ _ _ _
    · exact noConv_ok _

theorem noConv_feedbackLoop (thr : Rat) (p q : Int) (l : List Nat) (s : List Int × env.F) : NoConv (feedbackLoop env thr p q l s) := by
  unfold feedbackLoop
  refine noConv_iter' (fun i s => ?_) s
  dsimp only
  split
  · exact noConv_ok _
  · exact (noConv_wr _ _ _).bind fun _ _ => noConv_ok _

theorem noConv_labelRange (l k : Int) : NoConv (labelRange l k) := by
  unfold labelRange
  repeat' first
    | exact noConv_ok _
    | exact (fun e => by cases e)
    | exact noConv_i32 _
    | split
    | refine (noConv_i32 _).bind fun _ _ => ?_

theorem noConv_classifierFeedback (fb : List Int) (t o tv ov k T : Int) (g : env.F) :
    NoConv (classifierFeedback env fb t o tv ov k T g) := by
  unfold classifierFeedback
  refine (noConv_i32 _).bind fun t2 _ => ?_
  split
  · exact fun e => by cases e
  refine (noConv_i32 _).bind fun dp _ => (noConv_i32 _).bind fun dn _ => (noConv_labelRange _ _).bind fun r _ => ?_
  exact (noConv_feedbackLoop _ _ _ _ _).bind fun s _ => (noConv_labelRange _ _).bind fun r _ => noConv_feedbackLoop _ _ _ _ _

theorem noConv_updateS (x : List Bool) (t o : Nat) (s : SState env) : NoConv (updateS a.lawful env cfg nf x t o s) := by
  unfold updateS
  exact (noConv_classifierFeedback _ _ _ _ _ _ _ _).bind fun r _ => (noConv_trainS _ _ _ _ _ _).bind fun _ _ => noConv_trainS _ _ _ _ _ _

theorem noConv_opposite (n : Int) (y : List Int) (g : env.G) : NoConv (generateOppositeY env n y g) := by
  induction y generalizing g with
  | nil => exact noConv_ok _
  | cons v y ih =>
    unfold generateOppositeY oppositeLabel
    refine NoConv.bind ((noConv_i32 _).bind fun y1 _ => ?_) fun r _ => (ih _).bind fun _ _ => noConv_ok _
    dsimp only
    split
    · exact fun e => by cases e
    · exact noConv_ok _

theorem noConv_epochS (labels : Nat) (X : List a.Sample) (y : List Int) (s : SState env) :
    NoConv (epochS a.lawful env cfg labels nf X y s) := by
  unfold epochS
  refine (noConv_opposite _ _ _).bind fun r _ => noConv_iter' (fun i s => ?_) _
  exact (noConv_rd _ _).bind fun _ _ => (noConv_rd _ _).bind fun _ _ => (noConv_rd _ _).bind fun _ _ => noConv_updateS _ _ _ _

/-! ### Feedback hits of regressors -/

/-- The loss lets the number of hits be converted. -/
def Mild (p : Fl) : Prop := p ≠ .inf false ∧ ∀ v, p = .fin v → v ≤ 2

theorem noConv_feedbackHits {n : Nat} (hn : n ≤ 1073741824) {p : Fl} (hp : Mild p) (g : env.G) :
    NoConv (feedbackHits env false n p g) := by
  unfold feedbackHits
  rw [if_neg (by simp)]
  cases p with
  | nan => exact noConv_ok _
  | inf b =>
    cases b with
    | true => exact noConv_ok _
    | false => exact absurd rfl hp.1
  | fin v =>
    dsimp only
    split
    · rename_i h1
      have hv := hp.2 v rfl
      have n0 : 0 ≤ env.rnd n := rnd_nonneg env (by exact_mod_cast Nat.zero_le n)
      have n1 : env.rnd n ≤ ((2 ^ 30 : Nat) : Rat) := by
        have : ((n : Nat) : Rat) ≤ ((2 ^ 30 : Nat) : Rat) := by exact_mod_cast hn
        have := env.rnd_mono_law _ _ this
        rwa [rnd_pow env 30 (by decide)] at this
      have h2 : env.rnd n * v ≤ ((2 ^ 31 : Nat) : Rat) := by
        have a1 := Rat.mul_le_mul_of_nonneg_left hv n0
        have e : ((2 ^ 31 : Nat) : Rat) = ((2 ^ 30 : Nat) : Rat) * 2 := by decide +kernel
        grind
      have h3 : env.rnd (env.rnd n * v) ≤ ((2147483648 : Int) : Rat) := by
        have := env.rnd_mono_law _ _ h2
        rwa [rnd_pow env 31 (by decide)] at this
      have h4 : 0 ≤ env.rnd (env.rnd n * v) := by grind
      obtain ⟨k1, k2⟩ := roundHalfAway_range h4 h3
      rw [toUnsigned_ok k1 (by omega)]
      exact noConv_ok _
    · exact noConv_ok _

theorem error_range {T e : Int} (hT : 1 ≤ T) (hs : T ≤ 16777216 ∨ Symmetric env) (h1 : -T ≤ e) (h2 : e ≤ T) :
    -1 ≤ env.rnd (env.rnd e / env.rnd T) ∧ env.rnd (env.rnd e / env.rnd T) ≤ 1 := by
  have hT1 : 1 ≤ env.rnd T := by
    have : ((1 : Int) : Rat) ≤ (T : Rat) := Rat.intCast_le_intCast.2 hT
    have := env.rnd_mono_law _ _ this
    have e1 : env.rnd ((1 : Int) : Rat) = 1 := rnd_one env
    rwa [e1] at this
  have hneg : env.rnd ((-T : Int) : Rat) = - env.rnd T := by
    rcases hs with hs | hs
    · rw [rnd_int env (m := -T) (by omega), rnd_int env (m := T) (by omega), Rat.intCast_neg]
    · rw [Rat.intCast_neg, hs]
  have a1 : env.rnd e ≤ env.rnd T := env.rnd_mono_law _ _ (Rat.intCast_le_intCast.2 h2)
  have a2 : - env.rnd T ≤ env.rnd e := by
    rw [← hneg]; exact env.rnd_mono_law _ _ (Rat.intCast_le_intCast.2 h1)
  generalize env.rnd T = t at *
  generalize env.rnd e = u at *
  have t0 : 0 < t := by grind
  have b1 := div_le_div' a1 t0
  have b2 := div_le_div' a2 t0
  have e1 : t / t = 1 := by have := mul_div' (x := 1) t0; rwa [Rat.one_mul] at this
  have e2 : -t / t = -1 := by
    have := mul_div' (x := -1) t0; rwa [show -1 * t = -t by grind] at this
  rw [e1] at b1
  rw [e2] at b2
  constructor
  · exact rnd_ge_int env (m := -1) (by decide) b2
  · exact rnd_le_one env b1

/-- The constant of the loss is sensible. -/
def LossOk (env : Env) (l : Loss) (C1 : Fl) : Prop :=
  ∀ c, C1 = .fin c → (l = .berHu → -1 ≤ c ∨ env.rnd (-c) = -c) ∧ (l = .l1p2 → 0 ≤ c ∧ c ≤ 1)

theorem loss_mild {l : Loss} {C1 : Fl} (h : LossOk env l C1) {x : Rat} (h0 : -1 ≤ x) (h1 : x ≤ 1) : Mild (lossVal env l C1 x) := by
  have ha : ratAbs x ≤ 1 := ratAbs_le.2 ⟨h0, h1⟩
  have hq := mul_self_range h0 h1
  have fin : ∀ {v : Rat}, v ≤ 2 → Mild (.fin v) := fun h => ⟨by simp, fun w e => by cases e; exact h⟩
  have nan : Mild .nan := ⟨by simp, fun w e => by cases e⟩
  have q1 : env.rnd (x * x) ≤ 1 := rnd_le_one env hq.2
  cases l with
  | abs => exact fin (by grind)
  | sq => exact fin (by grind)
  | berHu =>
    unfold lossVal
    cases C1 with
    | nan => exact nan
    | inf b =>
      cases b with
      | true => exact nan
      | false => exact fin (by grind)
    | fin c =>
      have hc := (h c rfl).1 rfl
      dsimp only
      split
      · exact fin (by grind)
      · have k1 : -1 ≤ env.rnd (env.rnd (c * c) + c) := by
          have n2 : 0 ≤ env.rnd (c * c) := rnd_nonneg env (by
            rcases Rat.le_total (a := 0) (b := c) with h | h
            · exact Rat.mul_nonneg h h
            · have := Rat.mul_nonneg (a := -c) (b := -c) (by grind) (by grind)
              grind)
          rcases hc with hc | hc
          · exact rnd_ge_int env (m := -1) (by decide) (by show ((-1 : Int) : Rat) ≤ _; grind)
          · rcases Rat.le_total (a := -1) (b := c) with h | h
            · exact rnd_ge_int env (m := -1) (by decide) (by show ((-1 : Int) : Rat) ≤ _; grind)
            · have q1 : -c ≤ c * c := by
                have := Rat.mul_nonneg (a := -1 - c) (b := -c) (by grind) (by grind)
                grind
              have q2 := env.rnd_mono_law _ _ q1
              rw [hc] at q2
              have := rnd_nonneg env (x := env.rnd (c * c) + c) (by grind)
              grind
        have := env.rnd_mono_law (env.rnd (x * x) - env.rnd (env.rnd (c * c) + c)) ((2 : Int) : Rat) (by
          show _ ≤ (2 : Rat); grind)
        rw [rnd_int env (m := 2) (by decide)] at this
        exact fin this
  | l1p2 =>
    unfold lossVal
    cases C1 with
    | nan => exact nan
    | inf b => exact nan
    | fin c =>
      obtain ⟨c0, c1⟩ := (h c rfl).2 rfl
      exact fin (l1p2_le_two env c0 c1 h0 h1).2

theorem noConv_regUpdateS (hv : Valid cfg) (hbm : cfg.boxMuller = false) (hs : cfg.T ≤ 16777216 ∨ Symmetric env)
    (hl : LossOk env cfg.loss cfg.C1) {x : List Bool} {y : Int} (hy : 0 ≤ y ∧ y ≤ cfg.T) {s : SState env}
    (hlen : s.clauses.length = cfg.k) : NoConv (regUpdateS a.lawful env cfg nf x y s) := by
  have hr : 0 ≤ response (outAt s.clauses x) s.weights s.clauses.length cfg.T ∧
      response (outAt s.clauses x) s.weights s.clauses.length cfg.T ≤ cfg.T := clampTo_range _ (by have := hv.T; omega)
  have hk : s.clauses.length ≤ 1073741824 := by
    have := hv.two_k; have := hv.clausesMax; omega
  unfold regUpdateS
  dsimp only
  rw [hbm]
  obtain ⟨e1, e2⟩ := error_range (env := env) hv.T hs (e := response (outAt s.clauses x) s.weights s.clauses.length cfg.T - y)
    (by omega) (by omega)
  refine (noConv_feedbackHits hk (loss_mild hl e1 e2) _).bind fun r _ => noConv_iter' (fun i s => ?_) _
  split
  · exact noConv_stepI _ _ _ _
  · split
    · exact noConv_stepII _ _ _ _
    · exact noConv_ok _

theorem noConv_regEpochS (hv : Valid cfg) (hn : nf ≤ 2147483647) (hbm : cfg.boxMuller = false) (hs : cfg.T ≤ 16777216 ∨ Symmetric env)
    (hl : LossOk env cfg.loss cfg.C1) {X : List a.Sample} {y : List Int} (hd : RegDataOk a.lawful cfg.T nf X y)
    {s : SState env} (hlen : s.clauses.length = cfg.k) : NoConv (regEpochS a.lawful env cfg nf X y s) := by
  unfold regEpochS
  refine noConv_iter (P := fun s : SState env => s.clauses.length = cfg.k) (fun i hi s hs' => ?_) hlen
  rw [(env.shuffle_law _ X.length).mem_iff, List.mem_range] at hi
  have hiy : i < y.length := by rw [hd.len]; exact hi
  rw [rd_ok hi, ok_bind, rd_ok hiy, ok_bind]
  exact ⟨noConv_regUpdateS hv hbm hs hl (hd.ys _ (List.getElem_mem hiy)) hs',
    fun s' e => (regUpdateS_spec hv hn hs' e).1⟩

theorem noConv_regEpochs (hv : Valid cfg) (hn : nf ≤ 2147483647) (hbm : cfg.boxMuller = false) (hs : cfg.T ≤ 16777216 ∨ Symmetric env)
    (hl : LossOk env cfg.loss cfg.C1) {X : List a.Sample} {y : List Int} (hd : RegDataOk a.lawful cfg.T nf X y) (ep : Nat)
    {s : SState env} (hlen : s.clauses.length = cfg.k) :
    NoConv (iter (List.range ep) (fun _ ss => regEpochS a.lawful env cfg nf X y ss) s) := by
  refine noConv_iter (P := fun s : SState env => s.clauses.length = cfg.k) (fun i hi s hs' => ?_) hlen
  exact ⟨noConv_regEpochS hv hn hbm hs hl hd hs', fun s' e => (regEpochS_spec hv hn hd hs' e).1⟩

end Tsetlini
