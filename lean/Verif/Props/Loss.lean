import Verif.Lemmas.Defined
import Verif.Lemmas.RealEnv
import Verif.Props.Toy
/-
C45: the loss functions a regressor applies to its error (response - target) / threshold.
-/
namespace Tsetlini
open Res Spec

variable {env : Env}

/-- `make_loss_fn(name, C1)(x)` is `v`. -/
def LossIs (env : Env) (name : String) (C1 : Fl) (x : Rat) (v : Fl) : Prop :=
  ∃ l, lossOf name = .ok l ∧ lossVal env l C1 x = v

/-- The names of the three families that vanish with the error and grow with it. -/
def plainNames : List String := ["MAE", "L1", "MSE", "L2", "L1+2"]

/-- The constant is one between 0 and 1; only L1+2 looks at it. -/
def UnitC1 (name : String) (C1 : Fl) : Prop := name = "L1+2" → ∃ c, C1 = .fin c ∧ 0 ≤ c ∧ c ≤ 1

/-! ### C45 -/

/-- **C45**: the errors that occur: for a response and a target within [0, threshold] the error computed in float
arithmetic lies in [-1, 1]. -/
theorem C45_attainable_errors {T r y : Int} (hT : 1 ≤ T) (hs : T ≤ 2^24 ∨ Symmetric env) (hr : 0 ≤ r ∧ r ≤ T) (hy : 0 ≤ y ∧ y ≤ T) :
    -1 ≤ env.rnd (env.rnd (r - y : Int) / env.rnd T) ∧ env.rnd (env.rnd (r - y : Int) / env.rnd T) ≤ 1 :=
  error_range hT hs (by omega) (by omega)

theorem plain_cases {name : String} (h : name ∈ plainNames) {C1 : Fl} (hc : UnitC1 name C1) :
    lossOf name = .ok .abs ∨ lossOf name = .ok .sq ∨
      ∃ c, lossOf name = .ok .l1p2 ∧ C1 = .fin c ∧ 0 ≤ c ∧ c ≤ 1 := by
  simp only [plainNames, List.mem_cons, List.not_mem_nil, or_false] at h
  rcases h with rfl | rfl | rfl | rfl | rfl
  · exact .inl (by decide)
  · exact .inl (by decide)
  · exact .inr (.inl (by decide))
  · exact .inr (.inl (by decide))
  · obtain ⟨c, h1, h2⟩ := hc rfl
    exact .inr (.inr ⟨c, by decide, h1, h2⟩)

/-- **C45**, range: in the arithmetic of the library (binary32, round to nearest even, C1 a float) the losses of errors in
[-1, 1] lie in [0, 1]. -/
theorem C45_range (he : env.rnd = rne32) {name : String} (hn : name ∈ plainNames) {C1 : Fl} (hc : UnitC1 name C1)
    (hf : ∀ c, C1 = .fin c → rne32 c = c) {x : Rat} (h0 : -1 ≤ x) (h1 : x ≤ 1) :
    ∃ v, LossIs env name C1 x (.fin v) ∧ 0 ≤ v ∧ v ≤ 1 := by
  have hq := mul_self_range h0 h1
  rcases plain_cases hn hc with h | h | ⟨c, h, rfl, c0, c1⟩
  · exact ⟨_, ⟨_, h, rfl⟩, ratAbs_nonneg x, ratAbs_le.2 ⟨h0, h1⟩⟩
  · exact ⟨_, ⟨_, h, rfl⟩, rnd_nonneg env hq.1, rnd_le_one env hq.2⟩
  · exact ⟨_, ⟨_, h, rfl⟩, (l1p2_le_two env c0 c1 h0 h1).1, l1p2_le_one he (hf c rfl) c0 c1 h0 h1⟩

/-- **C45**, range: whatever the rounding, the losses lie in [0, 2], and in [0, 1] but for L1+2. -/
theorem C45_range_any_rounding {name : String} (hn : name ∈ plainNames) {C1 : Fl} (hc : UnitC1 name C1) {x : Rat} (h0 : -1 ≤ x)
    (h1 : x ≤ 1) : ∃ v, LossIs env name C1 x (.fin v) ∧ 0 ≤ v ∧ v ≤ 2 ∧ (name ≠ "L1+2" → v ≤ 1) := by
  have hq := mul_self_range h0 h1
  have ha : ratAbs x ≤ 1 := ratAbs_le.2 ⟨h0, h1⟩
  have hr := rnd_le_one env hq.2
  rcases plain_cases hn hc with h | h | ⟨c, h, rfl, c0, c1⟩
  · exact ⟨_, ⟨_, h, rfl⟩, ratAbs_nonneg x, by grind, fun _ => ha⟩
  · exact ⟨_, ⟨_, h, rfl⟩, rnd_nonneg env hq.1, by grind, fun _ => hr⟩
  · obtain ⟨k1, k2⟩ := l1p2_le_two env c0 c1 h0 h1
    refine ⟨_, ⟨_, h, rfl⟩, k1, k2, fun hne => absurd ?_ hne⟩
    simp only [plainNames, List.mem_cons, List.not_mem_nil, or_false] at hn
    rcases hn with rfl | rfl | rfl | rfl | rfl <;> first | rfl | exact absurd h (by decide)

/-- **C45**: every loss vanishes where the response is the target. -/
theorem C45_zero {name : String} (hn : name ∈ plainNames ∨ name = "berHu") {C1 : Fl} (hc : UnitC1 name C1)
    (hb : name = "berHu" → ∃ c, C1 = .fin c ∧ 0 ≤ c) : LossIs env name C1 0 (.fin 0) := by
  have z0 : ratAbs 0 = 0 := by decide +kernel
  rcases hn with hn | rfl
  · rcases plain_cases hn hc with h | h | ⟨c, h, rfl, c0, c1⟩
    · exact ⟨_, h, by unfold lossVal; rw [z0]⟩
    · exact ⟨_, h, by unfold lossVal; dsimp only; rw [Rat.zero_mul, rnd_zero]⟩
    · refine ⟨_, h, ?_⟩
      unfold lossVal
      dsimp only
      rw [z0, Rat.mul_zero, Rat.mul_zero, rnd_zero, Rat.add_zero, rnd_zero]
  · obtain ⟨c, rfl, c0⟩ := hb rfl
    refine ⟨.berHu, by decide, ?_⟩
    unfold lossVal
    dsimp only
    rw [z0, if_pos c0]

/-- **C45**: the losses are even, for every constant. -/
theorem C45_even (hs : Symmetric env) {name : String} {C1 v : Fl} {x : Rat} (h : LossIs env name C1 x v) :
    LossIs env name C1 (-x) v := by
  obtain ⟨l, h1, rfl⟩ := h
  refine ⟨l, h1, ?_⟩
  have e : -x * -x = x * x := by grind
  cases l with
  | abs => unfold lossVal; rw [ratAbs_neg]
  | sq => unfold lossVal; dsimp only; rw [e]
  | berHu => unfold lossVal; dsimp only; rw [e, ratAbs_neg]
  | l1p2 =>
    unfold lossVal
    cases C1 with
    | nan => rfl
    | inf b => rfl
    | fin c =>
      dsimp only
      have e2 : env.rnd (1 - c) * -x = -(env.rnd (1 - c) * x) := by grind
      rw [ratAbs_neg, e2, hs, show ∀ u : Rat, -u * -x = u * x by intro u; grind]

/-- Larger errors have larger losses. -/
theorem lossVal_mono (hs : Symmetric env) {l : Loss} {C1 : Fl} (hb : l ≠ .berHu)
    (hc : l = .l1p2 → ∃ c, C1 = .fin c ∧ 0 ≤ c ∧ c ≤ 1) {x y : Rat} (h : ratAbs x ≤ ratAbs y) :
    ∃ v w, lossVal env l C1 x = .fin v ∧ lossVal env l C1 y = .fin w ∧ v ≤ w := by
  have a0 := ratAbs_nonneg x
  have sq : ∀ z : Rat, z * z = ratAbs z * ratAbs z := fun z => by unfold ratAbs; split <;> grind
  have mm : ∀ {p q r s : Rat}, 0 ≤ p → 0 ≤ r → p ≤ q → r ≤ s → p * r ≤ q * s := fun hp hr h1 h2 =>
    Rat.le_trans (Rat.mul_le_mul_of_nonneg_right h1 hr) (Rat.mul_le_mul_of_nonneg_left h2 (by grind))
  cases l with
  | abs => exact ⟨_, _, rfl, rfl, h⟩
  | sq => exact ⟨_, _, rfl, rfl, env.rnd_mono_law _ _ (by rw [sq x, sq y]; exact mm a0 a0 h h)⟩
  | berHu => exact absurd rfl hb
  | l1p2 =>
    obtain ⟨c, rfl, c0, c1⟩ := hc rfl
    refine ⟨_, _, rfl, rfl, env.rnd_mono_law _ _ ?_⟩
    have k1 := env.rnd_mono_law _ _ (Rat.mul_le_mul_of_nonneg_left h c0)
    have d0 : 0 ≤ env.rnd (1 - c) := rnd_nonneg env (by grind)
    have abs_form : ∀ z : Rat, env.rnd (env.rnd (1 - c) * z) * z = env.rnd (env.rnd (1 - c) * ratAbs z) * ratAbs z := by
      intro z
      unfold ratAbs
      split
      · rw [show env.rnd (1 - c) * -z = -(env.rnd (1 - c) * z) by grind, hs]; grind
      · rfl
    have k2 : env.rnd (env.rnd (env.rnd (1 - c) * x) * x) ≤ env.rnd (env.rnd (env.rnd (1 - c) * y) * y) := by
      rw [abs_form x, abs_form y]
      refine env.rnd_mono_law _ _ (mm ?_ a0 (env.rnd_mono_law _ _ (Rat.mul_le_mul_of_nonneg_left h d0)) h)
      exact rnd_nonneg env (Rat.mul_nonneg d0 a0)
    grind

/-- **C45**: the losses other than berHu do not decrease with the size of the error. -/
theorem C45_monotone (hs : Symmetric env) {name : String} (hn : name ∈ plainNames) {C1 : Fl} (hc : UnitC1 name C1) {x y : Rat}
    (h : ratAbs x ≤ ratAbs y) : ∃ v w, LossIs env name C1 x (.fin v) ∧ LossIs env name C1 y (.fin w) ∧ v ≤ w := by
  rcases plain_cases hn hc with e | e | ⟨c, e, h'⟩
  · obtain ⟨v, w, h1, h2, h3⟩ := lossVal_mono hs (l := .abs) (C1 := C1) (by decide) (fun e => by cases e) h
    exact ⟨v, w, ⟨_, e, h1⟩, ⟨_, e, h2⟩, h3⟩
  · obtain ⟨v, w, h1, h2, h3⟩ := lossVal_mono hs (l := .sq) (C1 := C1) (by decide) (fun e => by cases e) h
    exact ⟨v, w, ⟨_, e, h1⟩, ⟨_, e, h2⟩, h3⟩
  · obtain ⟨v, w, h1, h2, h3⟩ := lossVal_mono hs (l := .l1p2) (C1 := C1) (by decide) (fun _ => ⟨c, h'⟩) h
    exact ⟨v, w, ⟨_, e, h1⟩, ⟨_, e, h2⟩, h3⟩

/-- **C45**, berHu: in the arithmetic of the library it is not monotone and becomes negative: with C1 = 1/2 the loss of 1/2 is 1/2, that of 3/4
is -3/16 and that of 1 is 1/4. -/
theorem C45_berHu_negative (u : Unspecified) :
    LossIs (realEnv u) "berHu" (.fin (1/2)) (1/2) (.fin (1/2)) ∧
    LossIs (realEnv u) "berHu" (.fin (1/2)) (3/4) (.fin (-3/16)) ∧
    LossIs (realEnv u) "berHu" (.fin (1/2)) 1 (.fin (1/4)) := by
  have e : ∀ x, lossVal (realEnv u) .berHu (.fin (1/2)) x =
    (if ratAbs x ≤ 1/2 then .fin (ratAbs x) else .fin (rne32 (rne32 (x * x) - rne32 (rne32 ((1/2) * (1/2)) + 1/2)))) := fun x => rfl
  refine ⟨⟨.berHu, by decide, ?_⟩, ⟨.berHu, by decide, ?_⟩, ⟨.berHu, by decide, ?_⟩⟩
  · rw [e]; decide +kernel
  · rw [e]; decide +kernel
  · rw [e]; decide +kernel

/-- The hypotheses are met by the library's arithmetic, a constant 1/4 and an error of -3/4. -/
example (u : Unspecified) : (realEnv u).rnd = rne32 ∧ Symmetric (realEnv u) ∧ UnitC1 "L1+2" (.fin (1/4)) ∧ rne32 (1/4) = 1/4 ∧
    LossIs (realEnv u) "L1+2" (.fin (1/4)) (-3/4) (.fin (39/64)) := by
  refine ⟨rfl, fun x => rne_neg x, fun _ => ⟨_, rfl, by decide +kernel, by decide +kernel⟩, by decide +kernel, .l1p2, by decide, ?_⟩
  have : lossVal (realEnv u) .l1p2 (.fin (1/4)) (-3/4) =
    .fin (rne32 (rne32 ((1/4) * ratAbs (-3/4)) + rne32 (rne32 (rne32 (1 - 1/4) * (-3/4)) * (-3/4)))) := rfl
  rw [this]
  decide +kernel

end Tsetlini
