import Verif.Lemmas.Overflow
import Verif.Props.Loss
/-
C67: floats that overflow. See properties.jsonl.
-/
namespace Tsetlini
open Spec Fl

variable {env : Env} {t : BmTables}

theorem floatLoss {env : Env} (he : env.rnd = rne32) (l : Loss) (C1 : Fl) {x : Rat} (hx : rne32 x = x) : FloatLoss (lossVal env l C1 x) := by
  have ha : rne32 (ratAbs x) = ratAbs x := by
    unfold ratAbs
    split
    · exact (rne_neg (p := 24) (q := 149) x).trans (congrArg _ hx)
    · exact hx
  intro v hv
  unfold lossVal at hv
  rw [he] at hv
  cases l with
  | abs => cases hv; exact ha
  | sq => cases hv; exact rne32_idem _
  | berHu =>
    cases C1 with
    | nan => cases hv
    | inf s => cases s <;> cases hv; exact ha
    | fin c =>
      dsimp only at hv
      split at hv
      · cases hv; exact ha
      · cases hv; exact rne32_idem _
  | l1p2 =>
    cases C1 with
    | nan => cases hv
    | inf s => cases hv
    | fin c => cases hv; exact rne32_idem _

/-- The error in float arithmetic. -/
theorem error_same (hm : IeeeMachine env t) {err T : Int} (hT : 1 ≤ T) (hT' : T ≤ 2147483647) (h0 : -T ≤ err) (h1 : err ≤ T) :
    div f32 (floatOf err) (floatOf T) = .fin (rne32 (rne32 err / rne32 T)) ∧
      -1 ≤ rne32 (rne32 err / rne32 T) ∧ rne32 (rne32 err / rne32 T) ≤ 1 := by
  have hr := error_range (env := env) hT (.inr (fun x => by rw [hm.rnd]; exact rne_neg x)) h0 h1
  rw [hm.rnd] at hr
  refine ⟨?_, hr⟩
  rw [floatOf_fin (by omega) (by omega), floatOf_fin (by omega) (by omega)]
  have tpos : 1 ≤ rne32 T := by
    have : ((1 : Int) : Rat) ≤ (T : Rat) := Rat.intCast_le_intCast.2 hT
    have := rne32_mono this
    rwa [show rne32 ((1 : Int) : Rat) = 1 by decide +kernel] at this
  show (if rne32 T = 0 then _ else f32 (rne32 err / rne32 T)) = _
  rw [if_neg (by grind)]
  have := max_lt
  have := one_le_max
  exact f32_mid (by grind) (by grind)

/-- **C67**, losses: with infinities and NaN computed as IEEE 754 says, every loss of an error in [-1, 1] is what rounded arithmetic without a
bound on the exponents gives, for every float C1; only berHu may be -infinity instead of less than -2^126. -/
theorem C67_loss (hm : IeeeMachine env t) (l : Loss) {C1 : Fl} (hC : IsFloat C1) {x : Rat} (h0 : -1 ≤ x) (h1 : x ≤ 1) :
    lossIeee l C1 (.fin x) = lossVal env l C1 x ∨
      (l = .berHu ∧ lossIeee l C1 (.fin x) = .inf true ∧ ∃ v, lossVal env l C1 x = .fin v ∧ v ≤ -((2 ^ 126 : Nat) : Rat)) := by
  have h := loss_same hm.rnd l hC h0 h1
  by_cases hl : l = .berHu
  · rcases h.1 with h' | ⟨e, v, e', hv⟩
    · exact .inl h'
    · exact .inr ⟨hl, e, v, e', hv⟩
  · exact .inl (h.2 hl)

/-- **C67**, regressors: training with one sample is the same, whatever the loss and C1 and with or without box_muller. -/
theorem C67_regressor (B : Backend) (hm : IeeeMachine env t) (hy : Hyper) (l : Loss) {C1 : Fl} (hC : IsFloat C1) (bm : Bool) (X : B.Sample)
    (out : List Bool) {n : Nat} (hn : 1 ≤ n) (hn' : n ≤ 2147483647) {err T : Int} (hT : 1 ≤ T) (hT' : T ≤ 2147483647) (h0 : -T ≤ err)
    (h1 : err ≤ T) (s : TrainSt B env) :
    trainRegressorIeee B env t hy l C1 bm X out n err T s = trainRegressor B env hy l C1 bm X out n err T s := by
  obtain ⟨e, r0, r1⟩ := error_same hm hT hT' h0 h1
  unfold trainRegressorIeee trainRegressor
  rw [if_neg (by omega)]
  dsimp only
  rw [e, hits_same hm hn (by omega) (loss_same hm.rnd l hC r0 r1).1 (floatLoss hm.rnd l C1 (rne32_idem _)), hm.rnd]

/-- **C67**, the float generator: no word of the generator makes its conversion overflow. -/
theorem C67_generator (y : BitVec 32) : frngIeee y = .fin (frngPost rne32 y) := by
  have hy : y.toNat ≤ 4294967296 := Nat.le_of_lt y.isLt
  unfold frngIeee frngPost
  rw [floatOf_fin (by omega) (by omega)]
  have a0 : (0 : Rat) ≤ ((y.toNat : Int) : Rat) := by exact_mod_cast Nat.zero_le _
  have a1 : ((y.toNat : Int) : Rat) ≤ 4294967296 := Rat.le_trans (Rat.intCast_le_intCast.2 (show (y.toNat : Int) ≤ 4294967296 by omega)) (by decide +kernel)
  have b0 := rne32_nonneg a0
  have b1 := rne32_mono a1
  rw [show rne32 4294967296 = 4294967296 by decide +kernel] at b1
  have big : (4294967296 : Rat) * 8 ≤ maxFloat := by decide +kernel
  have e1 : add f32 (.fin (rne32 ((y.toNat : Int) : Rat))) (.fin (1/2)) = .fin (rne32 (rne32 (y.toNat : Rat) + 1/2)) :=
    InRange.f32 ⟨by grind, by grind⟩
  rw [e1]
  have e2 : div f32 (.fin 1) (.fin 4294967296) = .fin (1 / 4294967296) := by
    show (if (4294967296 : Rat) = 0 then (if (1 : Rat) = 0 then Fl.nan else .inf (decide ((1 : Rat) < 0))) else f32 (1 / 4294967296)) = _
    rw [if_neg (by decide +kernel), f32_small (by decide +kernel) (by decide +kernel)]
    decide +kernel
  rw [e2]
  refine InRange.f32 (InRange.mul (InRange.rnd ⟨?_, ?_⟩) (by decide +kernel) (by decide +kernel))
  · show -maxFloat ≤ rne32 ((y.toNat : Int) : Rat) + 1/2
    grind
  · show rne32 ((y.toNat : Int) : Rat) + 1/2 ≤ maxFloat
    grind

theorem i32_bounds {x y : Int} (h : i32 x = .ok y) : y = x ∧ -2147483648 ≤ x ∧ x ≤ 2147483647 := by
  unfold i32 at h
  split at h
  · cases h; exact ⟨rfl, by omega, by omega⟩
  · cases h

theorem feedbackLoop_same (thr : Rat) (even odd : Int) (fs : List Nat) (s : List Int × env.F) :
    feedbackLoopIeee env (.fin thr) even odd fs s = feedbackLoop env thr even odd fs s := by
  unfold feedbackLoopIeee feedbackLoop
  congr 1
  funext f s
  dsimp only
  have : (Fl.lt (.fin thr) (.fin (env.fnext s.2).1) = true) = ((env.fnext s.2).1 > thr) := by
    show (decide _ = true) = _
    rw [decide_eq_true_eq]
  by_cases h : (env.fnext s.2).1 > thr
  · exact (if_pos (this.mpr h)).trans (if_pos h).symm
  · exact (if_neg (fun q => h (this.mp q))).trans (if_neg h).symm

/-- **C67**, classifiers: the choice of the clauses to be given feedback is the same. -/
theorem C67_classifier (hm : IeeeMachine env t) (fb : List Int) (target opposite targetVotes oppositeVotes k : Int) {T : Int} (hT : 1 ≤ T) (fgen : env.F) :
    classifierFeedbackIeee env fb target opposite targetVotes oppositeVotes k T fgen =
      classifierFeedback env fb target opposite targetVotes oppositeVotes k T fgen := by
  unfold classifierFeedbackIeee classifierFeedback
  cases h2 : i32 (T * 2) with
  | ok t2 =>
    obtain ⟨rfl, l2, u2⟩ := i32_bounds h2
    have tpos : 1 ≤ rne32 ((T * 2 : Int) : Rat) := by
      have : ((1 : Int) : Rat) ≤ ((T * 2 : Int) : Rat) := Rat.intCast_le_intCast.2 (by omega)
      have := rne32_mono this
      rwa [show rne32 ((1 : Int) : Rat) = 1 by decide +kernel] at this
    have einv : div f32 (.fin 1) (floatOf (T * 2)) = .fin (rne32 (1 / rne32 ((T * 2 : Int) : Rat))) := by
      rw [floatOf_fin (by omega) (by omega)]
      show (if rne32 ((T * 2 : Int) : Rat) = 0 then _ else f32 (1 / rne32 ((T * 2 : Int) : Rat))) = _
      rw [if_neg (by grind)]
      have := rat_div_le tpos
      exact f32_small (by grind) this.2
    have i0 : 0 ≤ rne32 (1 / rne32 ((T * 2 : Int) : Rat)) := rne32_nonneg (rat_div_le tpos).1
    have i1 : rne32 (1 / rne32 ((T * 2 : Int) : Rat)) ≤ 1 := rne32_le_one (rat_div_le tpos).2
    have ethr : ∀ d : Int, -2147483648 ≤ d → d ≤ 2147483647 → mul f32 (.fin (rne32 (1 / rne32 ((T * 2 : Int) : Rat)))) (floatOf d) =
        .fin (rne32 (rne32 (1 / rne32 ((T * 2 : Int) : Rat)) * rne32 d)) := by
      intro d d0 d1
      rw [floatOf_fin (by omega) (by omega)]
      have : InRange (rne32 (d : Rat) * rne32 (1 / rne32 ((T * 2 : Int) : Rat))) :=
        (inRange_int (i := d) (by omega) (by omega)).rnd.mul (by grind) i1
      rw [Rat.mul_comm] at this
      exact this.f32
    simp only [Res.ok_bind]
    rw [if_neg (by omega), einv]
    cases h3 : i32 (T - targetVotes) with
    | ok dp =>
      obtain ⟨rfl, l3, u3⟩ := i32_bounds h3
      simp only [Res.ok_bind]
      cases h4 : i32 (T + oppositeVotes) with
      | ok dn =>
        obtain ⟨rfl, l4, u4⟩ := i32_bounds h4
        simp only [Res.ok_bind]
        rw [ethr _ l3 u3, ethr _ l4 u4, hm.rnd]
        simp only [feedbackLoop_same]
      | _ => rfl
    | _ => rfl
  | _ => rfl

/-- **C67**, coin tosses: the constants of the coin tosser are the same, for every specificity the factories accept. -/
theorem C67_coin_tosser (hm : IeeeMachine env t) {s : Fl} (hs : s.badS = false) {size : Nat} (hn : size ≤ 4294967296) :
    coinTosserIeee s size = CoinTosser.make env s size := by
  cases s with
  | nan => cases hs
  | inf s => cases hs
  | fin q =>
    have hq : 1 ≤ q := by
      have : ¬ q < 1 := fun h => by rw [show (Fl.fin q).badS = decide (q < 1) from rfl, decide_eq_true h] at hs; cases hs
      grind
    have hr := rat_div_le hq
    have e1 : div f32 (.fin 1) (.fin q) = .fin (rne32 (1 / q)) := by
      show (if q = 0 then _ else f32 (1 / q)) = _
      rw [if_neg (by grind)]
      exact f32_small (by grind) hr.2
    unfold coinTosserIeee CoinTosser.make
    dsimp only
    rw [if_neg (show ¬ q = 0 by grind), e1, floatOf_fin (by omega) (by omega), hm.rnd, hm.rnd64]
    have i0 : 0 ≤ rne32 (1 / q) := rne32_nonneg hr.1
    have i1 : rne32 (1 / q) ≤ 1 := rne32_le_one hr.2
    have c : ((size : Int) : Rat) = (size : Rat) := rfl
    rw [c]
    generalize rne32 (1 / q) = si at i0 i1
    have n0 : (0 : Rat) ≤ (size : Rat) := by exact_mod_cast Nat.zero_le size
    have n1 : (size : Rat) ≤ 4294967296 := Rat.le_trans (Rat.natCast_le_natCast.2 (show size ≤ 4294967296 by omega)) (by decide +kernel)
    have m0 := rne32_nonneg n0
    have m1 := rne32_mono n1
    rw [show rne32 4294967296 = 4294967296 by decide +kernel] at m1
    generalize rne32 (size : Rat) = sz at m0 m1
    have p0 : 0 ≤ si * sz := Rat.mul_nonneg i0 m0
    have p1 : si * sz ≤ 4294967296 := by
      have := Rat.mul_le_mul_of_nonneg_right i1 m0; grind
    have big : (4294967296 : Rat) * 8 ≤ maxFloat := by decide +kernel
    have e2 : mul f32 (.fin si) (.fin sz) = .fin (rne32 (si * sz)) := InRange.f32 ⟨by grind, by grind⟩
    have e3 : mul f32 (.fin sz) (.fin si) = .fin (rne32 (si * sz)) := by
      rw [← e2]; show f32 _ = f32 _; rw [Rat.mul_comm]
    rw [e2, e3]
    generalize rne32 (si * sz) = pr
    show (Tsetlini.toUnsigned (pr.floor : Rat)).bind _ = (Tsetlini.toUnsigned (pr.floor : Rat)).bind _
    have f0 := floor_le' pr
    have f1 := lt_floor' pr
    have e4 : sub f32 (.fin pr) (Fl.floor (.fin pr)) = .fin (rne32 (pr - pr.floor)) := by
      show f32 (pr + -(pr.floor : Rat)) = _
      rw [← Rat.sub_eq_add_neg]
      exact f32_small (by grind) (by grind)
    rw [e4]
    dsimp only [Fl.widen]
    have g0 : 0 ≤ rne32 (pr - pr.floor) := rne32_nonneg (by grind)
    have g1 : rne32 (pr - pr.floor) ≤ 1 := rne32_le_one (by grind)
    have e5 : mul f64 (.fin (rne32 (pr - pr.floor))) (.fin 4294967295) = .fin (rne64 (rne32 (pr - pr.floor) * 4294967295)) := by
      have : (4294967296 : Rat) ≤ ((2 ^ 512 : Nat) : Rat) := by decide +kernel
      exact f64_mid (by grind) (by grind)
    rw [e5]
    rfl

/-- **C67**, accuracy: the fraction `evaluate` returns is the same, NaN for no samples. -/
theorem C67_accuracy (hm : IeeeMachine env t) {errors examples : Nat} (he : errors ≤ examples) (hn : examples ≤ 4294967296) :
    accuracyIeee errors examples = if examples = 0 then .nan else .fin (env.rnd (1 - env.rnd (env.rnd errors / env.rnd examples))) := by
  unfold accuracyIeee
  rw [floatOf_fin (by omega) (by omega), floatOf_fin (by omega) (by omega), hm.rnd]
  have c : ∀ n : Nat, ((n : Int) : Rat) = (n : Rat) := fun _ => rfl
  rw [c, c]
  have e0 : (0 : Rat) ≤ (errors : Rat) := by exact_mod_cast Nat.zero_le _
  have e1 : (errors : Rat) ≤ (examples : Rat) := Rat.natCast_le_natCast.2 he
  have r0 := rne32_nonneg e0
  have r1 := rne32_mono e1
  have em : mul f32 (.fin 1) (.fin (rne32 (errors : Rat))) = .fin (rne32 (errors : Rat)) := by
    have : InRange (rne32 (errors : Rat)) := (inRange_nat (by omega)).rnd
    show f32 (1 * rne32 (errors : Rat)) = _
    rw [Rat.one_mul, this.f32, rne32_idem]
  rw [em]
  by_cases h : examples = 0
  · subst h
    obtain rfl : errors = 0 := by omega
    rw [if_pos rfl]
    have : rne32 ((0 : Nat) : Rat) = 0 := by decide +kernel
    rw [this]; rfl
  · rw [if_neg h]
    have p1 : 1 ≤ rne32 (examples : Rat) := by
      have : ((1 : Nat) : Rat) ≤ (examples : Rat) := Rat.natCast_le_natCast.2 (by omega)
      have := rne32_mono this
      rwa [show rne32 ((1 : Nat) : Rat) = 1 by decide +kernel] at this
    have q0 : 0 ≤ rne32 (errors : Rat) / rne32 (examples : Rat) := div_nonneg' r0 (by grind)
    have q1 : rne32 (errors : Rat) / rne32 (examples : Rat) ≤ 1 := by
      have := div_le_div' r1 (c := rne32 (examples : Rat)) (by grind)
      rwa [Rat.div_def (rne32 (examples : Rat)), Rat.mul_inv_cancel _ (by grind)] at this
    have ed : div f32 (.fin (rne32 (errors : Rat))) (.fin (rne32 (examples : Rat))) = .fin (rne32 (rne32 (errors : Rat) / rne32 (examples : Rat))) := by
      show (if rne32 (examples : Rat) = 0 then _ else f32 (rne32 (errors : Rat) / rne32 (examples : Rat))) = _
      rw [if_neg (by grind)]
      exact f32_small (by grind) q1
    rw [ed]
    have d0 := rne32_nonneg q0
    have d1 := rne32_le_one q1
    show f32 (1 + -_) = _
    rw [← Rat.sub_eq_add_neg]
    exact f32_small (by grind) (by grind)

/-- Tables with which a machine is as assumed; the square root here is that of 0, of 1 and of numbers in between, roughly. -/
def Toy.tables : BmTables := ⟨fun i => if i = 0 then 3 else 1/8, fun i => if i = 127 then -1 else 1/2, fun v => if v ≤ 1 then v else 1⟩

/-- The library's own generator and IEEE arithmetic. -/
def Toy.ieeeEnv : Env := realEnv { (default : Unspecified) with normal := bmNormal rne32 Toy.tables }

theorem Toy.ieee : IeeeMachine Toy.ieeeEnv Toy.tables where
  rnd := rfl
  rnd64 := rfl
  normal := rfl
  radius i := by
    show 0 ≤ (if i = 0 then (3 : Rat) else 1/8) ∧ (if i = 0 then (3 : Rat) else 1/8) ≤ 4
    split <;> exact ⟨by decide +kernel, by decide +kernel⟩
  angle i := by
    show -1 ≤ (if i = 127 then (-1 : Rat) else 1/2) ∧ (if i = 127 then (-1 : Rat) else 1/2) ≤ 1
    split <;> exact ⟨by decide +kernel, by decide +kernel⟩
  sqrt v hv := by
    show 0 ≤ (if v ≤ 1 then v else 1) ∧ ((if v ≤ 1 then v else 1) ≤ 1 ∨ (if v ≤ 1 then v else 1) ≤ v)
    split
    · exact ⟨hv, .inl (by grind)⟩
    · exact ⟨by decide +kernel, .inl (by decide +kernel)⟩

/-- Overflow does happen: the square of the least float is infinite, and so is the loss berHu of an error of 1/2, which is a number without
a bound on exponents. There are no hits either way. -/
example : IsFloat (.fin (-maxFloat)) ∧ lossIeee .berHu (.fin (-maxFloat)) (.fin (1/2)) = .inf true ∧
    lossVal Toy.ieeeEnv .berHu (.fin (-maxFloat)) (1/2) ≠ .inf true ∧
    ∀ g, (feedbackHitsIeee Toy.ieeeEnv Toy.tables false 10 (.inf true) g) = .ok (0, (Toy.ieeeEnv.next g).2) := by
  refine ⟨⟨rne32_nmax, Rat.le_refl, by decide +kernel⟩, by decide +kernel, fun h => ?_, fun g =>
    (hits_same Toy.ieee (n := 10) (by decide) (by decide) (.inl rfl) (fun _ h => Fl.noConfusion h) g).trans rfl⟩
  unfold lossVal at h
  dsimp only at h
  split at h <;> cases h

/-- Infinite and NaN results of single operations. -/
example : f32 (2 * maxFloat) = .inf false ∧ f32 (maxFloat + 1) = .fin maxFloat ∧ sub f32 (.inf false) (.inf false) = .nan ∧
    mul f32 (.inf true) (.fin (-2)) = .inf false ∧ mul f32 (.fin 0) (.inf true) = .nan ∧ div f32 (.fin 1) (.fin 0) = .inf false ∧
    Fl.le .nan .nan = false ∧ f64 (2 * maxFloat) = .fin (2 * maxFloat) := by
  refine ⟨by decide +kernel, by decide +kernel, rfl, by decide +kernel, by decide +kernel, by decide +kernel, rfl, by decide +kernel⟩

/-- Theorem C67_regressor applies to the loss berHu with the least float as C1, with box_muller. -/
example (X : (Algo.classic.backend).Sample) (s : TrainSt Algo.classic.backend Toy.ieeeEnv) (hy : Hyper) :
    trainRegressorIeee Algo.classic.backend Toy.ieeeEnv Toy.tables hy .berHu (.fin (-maxFloat)) true X [true, false] 2 3 15 s =
      trainRegressor Algo.classic.backend Toy.ieeeEnv hy .berHu (.fin (-maxFloat)) true X [true, false] 2 3 15 s :=
  C67_regressor _ Toy.ieee hy .berHu (C1 := .fin (-maxFloat)) ⟨rne32_nmax, Rat.le_refl, by decide +kernel⟩ true X _ (by decide) (by decide) (by decide) (by decide) (by decide)
    (by decide) s

end Tsetlini
