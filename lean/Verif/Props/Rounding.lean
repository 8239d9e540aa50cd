import Verif.Lemmas.Rounding
import Verif.Lemmas.RealEnv
import Verif.Lemmas.JsonTotal
import Verif.Props.ConfigText
/-
C76: real numbers are rounded as IEEE 754 prescribes, in the arithmetic of the library and in the numbers it reads.
-/
namespace Tsetlini
open Res Spec

/-- **C76**: for every number there is exactly one rounded to nearest, ties to even. -/
theorem C76_exists_unique {p q : Nat} (hp : 2 ≤ p) (x : Rat) : ∃ y, Rounds p q x y ∧ ∀ z, Rounds p q x z → z = y :=
  ⟨rne p q x, rounds_rne hp x, fun _ hz => rounds_unique (by omega) hz (rounds_rne hp x)⟩

/-- **C76**: the arithmetic of the library, whose results are in `float` and `double`, rounds so. -/
theorem C76_arithmetic (u : Unspecified) (x : Rat) : Rounds 24 149 x ((realEnv u).rnd x) ∧ Rounds 53 1074 x ((realEnv u).rnd64 x) :=
  ⟨rounds_rne (by decide) x, rounds_rne (by decide) x⟩

theorem overflow_at {B T D : Rat} {p q e : Nat} (hp : 2 ≤ p) (hB : ((2 ^ e : Nat) : Rat) = B) (hT : rne p q T = B) (hD : InFormat p q D) (h1 : B - T = T - D) (h2 : D < T) (h0 : 0 < D) (x : Rat) :
    overflowAt e (rne p q) x = if T ≤ x then .inf false else if x ≤ -T then .inf true else .fin (rne p q x) := by
  have key : ∀ x, B ≤ rne p q x ↔ T ≤ x := by
    intro x
    constructor
    · intro h
      refine Rat.not_lt.1 fun hlt => ?_
      have := (rounds_rne (q := q) hp x).nearest D hD
      generalize rne p q x = y at *
      unfold Rat.abs at this
      split at this <;> split at this <;> grind
    · intro h
      rw [← hT]
      exact rne_mono (by omega) h
  have key' : rne p q x ≤ -B ↔ x ≤ -T := by
    have := key (-x)
    rw [rne_neg] at this
    constructor
    · intro h
      have := this.1 (by grind)
      grind
    · intro h
      have := this.2 (by grind)
      grind
  unfold overflowAt
  rw [hB]
  by_cases h : T ≤ x
  · rw [if_pos ((key x).2 h), if_pos h]
  rw [if_neg (fun h' => h ((key x).1 h')), if_neg h]
  by_cases h : x ≤ -T
  · rw [if_pos (key'.2 h), if_pos h]
  · rw [if_neg (fun h' => h (key'.1 h')), if_neg h]

/-- **C76**: a real result as a `double`: infinite from `2^1024 - 2^970` on (half a unit in the last place above the greatest `double`), else the rounded number. -/
theorem C76_double (x : Rat) : (∀ y, f64 x = .fin y ↔ RoundsDouble x y) ∧ (f64 x = .inf false ↔ ((2 ^ 1024 - 2 ^ 970 : Nat) : Rat) ≤ x) ∧
    (f64 x = .inf true ↔ x ≤ -((2 ^ 1024 - 2 ^ 970 : Nat) : Rat)) ∧ f64 x ≠ .nan := by
  refine ⟨fun y => f64_iff, ?_⟩
  have h := overflow_at (p := 53) (q := 1074) (e := 1024) (B := ((2 ^ 1024 : Nat) : Rat)) (T := ((2 ^ 1024 - 2 ^ 970 : Nat) : Rat)) (D := (((2 ^ 53 - 1) * 2 ^ 971 : Nat) : Rat))
    (by decide) rfl (by decide +kernel) ⟨(2 ^ 53 - 1 : Nat), 2045, by decide, by decide +kernel⟩ (by decide +kernel) (by decide +kernel) (by decide +kernel) x
  have hT : (0 : Rat) < ((2 ^ 1024 - 2 ^ 970 : Nat) : Rat) := by decide +kernel
  unfold f64 rne64
  rw [h]
  generalize ((2 ^ 1024 - 2 ^ 970 : Nat) : Rat) = T at *
  by_cases h1 : T ≤ x
  · rw [if_pos h1]; simp only [true_iff, reduceCtorEq, Fl.inf.injEq, Bool.false_eq_true, false_iff]; exact ⟨h1, by grind, fun h => Fl.noConfusion h⟩
  rw [if_neg h1]
  by_cases h2 : x ≤ -T
  · rw [if_pos h2]; simp only [true_iff, Fl.inf.injEq, false_iff, Bool.true_eq_false]; exact ⟨by grind, h2, fun h => Fl.noConfusion h⟩
  rw [if_neg h2]
  exact ⟨⟨fun h => Fl.noConfusion h, fun h => absurd h h1⟩, ⟨fun h => Fl.noConfusion h, fun h => absurd h h2⟩, fun h => Fl.noConfusion h⟩

/-- **C76**: a real result as a `float`: infinite from `2^128 - 2^103` on, else the rounded number. -/
theorem C76_float (x : Rat) : (∀ y, f32 x = .fin y ↔ RoundsFloat x y) ∧ (f32 x = .inf false ↔ ((2 ^ 128 - 2 ^ 103 : Nat) : Rat) ≤ x) ∧
    (f32 x = .inf true ↔ x ≤ -((2 ^ 128 - 2 ^ 103 : Nat) : Rat)) ∧ f32 x ≠ .nan := by
  refine ⟨fun y => f32_iff, ?_⟩
  have h := overflow_at (p := 24) (q := 149) (e := 128) (B := ((2 ^ 128 : Nat) : Rat)) (T := ((2 ^ 128 - 2 ^ 103 : Nat) : Rat)) (D := (((2 ^ 24 - 1) * 2 ^ 104 : Nat) : Rat))
    (by decide) rfl (by decide +kernel) ⟨(2 ^ 24 - 1 : Nat), 253, by decide, by decide +kernel⟩ (by decide +kernel) (by decide +kernel) (by decide +kernel) x
  have hT : (0 : Rat) < ((2 ^ 128 - 2 ^ 103 : Nat) : Rat) := by decide +kernel
  unfold f32 rne32
  rw [h]
  generalize ((2 ^ 128 - 2 ^ 103 : Nat) : Rat) = T at *
  by_cases h1 : T ≤ x
  · rw [if_pos h1]; simp only [true_iff, reduceCtorEq, Fl.inf.injEq, Bool.false_eq_true, false_iff]; exact ⟨h1, by grind, fun h => Fl.noConfusion h⟩
  rw [if_neg h1]
  by_cases h2 : x ≤ -T
  · rw [if_pos h2]; simp only [true_iff, Fl.inf.injEq, false_iff, Bool.true_eq_false]; exact ⟨by grind, h2, fun h => Fl.noConfusion h⟩
  rw [if_neg h2]
  exact ⟨⟨fun h => Fl.noConfusion h, fun h => absurd h h1⟩, ⟨fun h => Fl.noConfusion h, fun h => absurd h h2⟩, fun h => Fl.noConfusion h⟩

theorem abs_lt_pow {m : Int} {k p Q E : Nat} {q : Rat} (h1 : m.natAbs < 2 ^ p) (h3 : q * (2 ^ Q : Nat) = m * (2 ^ k : Nat)) (hk : p + k ≤ E + Q) :
    q.abs < ((2 ^ E : Nat) : Rat) := by
  have hq := pow_pos_rat Q
  refine Rat.not_le.1 fun h => ?_
  have h := Rat.mul_le_mul_of_nonneg_right h (Rat.le_of_lt hq)
  rw [← abs_mul_pos hq, h3, ← Rat.natCast_mul, ← Nat.pow_add] at h
  have h4 : ((m : Rat) * ((2 ^ k : Nat) : Rat)).abs = ((m.natAbs * 2 ^ k : Nat) : Rat) := by
    rw [abs_mul_pos (pow_pos_rat k), Rat.natCast_mul]
    congr 1
    unfold Rat.abs
    split
    · rename_i h
      have := Rat.intCast_nonneg.1 h
      rw [← Rat.intCast_natCast, Int.natAbs_of_nonneg this]
    · rename_i h
      have : ¬ 0 ≤ m := fun h' => h (Rat.intCast_nonneg.2 h')
      rw [← Rat.intCast_natCast, ← Rat.intCast_neg, Int.ofNat_natAbs_of_nonpos (by omega)]
  rw [h4] at h
  have h5 := Rat.natCast_le_natCast.1 h
  have h6 : m.natAbs * 2 ^ k < 2 ^ p * 2 ^ k := Nat.mul_lt_mul_of_pos_right h1 (Nat.pow_pos (by decide))
  have h7 : 2 ^ p * 2 ^ k ≤ 2 ^ (E + Q) := by rw [← Nat.pow_add]; exact Nat.pow_le_pow_right (by decide) hk
  omega

/-- **C76**: a `double` is itself; every `double` comes from rounding. -/
theorem C76_same {q : Rat} : f64 q = .fin q ↔ Double q := by
  constructor
  · exact f64_double
  · rintro ⟨m, k, h1, h2, h3⟩
    refine f64_iff.2 ⟨⟨⟨m, k, h1, h3⟩, fun d _ => ?_, fun d _ hne ht => ?_⟩, ?_⟩
    · rw [show q - q = 0 by grind]
      simp only [Rat.abs_zero]
      exact Rat.abs_nonneg
    · rw [show q - q = 0 by grind, Rat.abs_zero] at ht
      unfold Rat.abs at ht
      split at ht <;> exact absurd (show d = q by grind) hne
    · exact abs_lt_pow (Q := 1074) (E := 1024) (p := 53) h1 h3 (by omega)

theorem json_members_ok {k : Kind} {m : Machine} {io : RealIO} {l : List (String × JVal)} {p : Params} (hp : make m io (Request.json k (.ok (.obj l))) = .ok (.ok p)) :
    ∀ e ∈ l, MemberOk e.1 e.2 := by
  rcases members_cases l with hok | ⟨pre, kk, j, f, post, hl, h1, h2⟩
  · exact hok
  · subst hl
    rw [C27_first_fault k m io h1 h2] at hp
    cases f <;> cases hp

/-- **C76**: an estimator made from a JSON text with a member "s": the member is a number, and the parameter s is the `float` nearest to it, at least 1.  (A number with a
fraction was first rounded to the nearest `double`, C75: two roundings.) -/
theorem C76_parameter {m : Machine} {io : RealIO} (hio : ∀ x, io.toReal x = f32 x) {k : Kind} {t : Bytes} {p : Params} {l : List (Bytes × TVal)} {v : TVal}
    (ht : ReadText t (.obj l)) (hs : (bytesOf "s", v) ∈ l) (hp : makeFromText m io k t = .ok (.ok p)) :
    ∃ x y, numberOf v.value = some x ∧ RoundsFloat x y ∧ 1 ≤ y ∧ p.get? "s" = some (.real (.fin y)) := by
  obtain ⟨h1, h2⟩ := C74_value m io k ht
  rw [h1] at hp
  have e : (TVal.obj l).value = .obj (valueMembers l) := rfl
  rw [e] at hp h2
  have hok := json_members_ok hp
  have hr := C27_faultless_requests k io hok
  have ha := (C26_accepts_exactly hr h2 m).1 ⟨p, hp⟩
  have hg := C28_values hr h2 hp ("s", .real (requestedJson io k (valueMembers l)).s) (by cases k <;> simp [ParamSet.entries, ParamSet.concrete])
  have hn : ((valueMembers l).map Prod.fst).Nodup := by
    rcases parse_total t with e | ⟨v', e, hv⟩
    · rw [parse_iff.2 ht] at e; cases e
    · rw [parse_iff.2 ht] at e
      have := Res.ok.inj e
      subst this
      exact read_keys hv.wide hv.encoded
  have hm : ("s", v.value) ∈ valueMembers l := by
    rw [valueMembers_map]
    exact List.mem_map.2 ⟨_, hs, by rw [stringOf_bytesOf]⟩
  have hl : (valueMembers l).lookup "s" = some v.value := lookup_of_mem hn hm
  obtain ⟨q, hq, h1q⟩ := ha.s
  have hgr : (requestedJson io k (valueMembers l)).s = givenReal io (valueMembers l) "s" (defaults k).s := rfl
  have hnum : ∃ x, numberOf v.value = some x := by
    have hn : Numeric v.value := Classical.byContradiction fun h => hok _ hm _ (.realTy (by simp) h)
    generalize v.value = j at hn
    cases j <;> first | exact ⟨_, rfl⟩ | exact hn.elim
  obtain ⟨x, hx⟩ := hnum
  have hgv : givenReal io (valueMembers l) "s" (defaults k).s = f32 x := by
    unfold givenReal
    rw [hl]
    simp only [Option.bind_some, hx, hio]
  rw [hgr, hgv] at hq hg
  rw [hq] at hg
  exact ⟨x, q, hx, f32_iff.1 hq, h1q, hg⟩

/-- **C76**: likewise the member "loss_fn_C1" of a regressor's text: the parameter is the `float` nearest to the number read, or infinite if that is too great. -/
theorem C76_parameter_C1 {m : Machine} {io : RealIO} (hio : ∀ x, io.toReal x = f32 x) {t : Bytes} {p : Params} {l : List (Bytes × TVal)} {v : TVal}
    (ht : ReadText t (.obj l)) (hs : (bytesOf "loss_fn_C1", v) ∈ l) (hp : makeFromText m io .regressor t = .ok (.ok p)) :
    ∃ x c, numberOf v.value = some x ∧ p.get? "loss_fn_C1" = some (.real c) ∧ (∀ y, c = .fin y ↔ RoundsFloat x y) ∧
      (c = .inf false ↔ ((2 ^ 128 - 2 ^ 103 : Nat) : Rat) ≤ x) ∧ (c = .inf true ↔ x ≤ -((2 ^ 128 - 2 ^ 103 : Nat) : Rat)) ∧ c ≠ .nan := by
  obtain ⟨h1, h2⟩ := C74_value m io .regressor ht
  rw [h1] at hp
  have e : (TVal.obj l).value = .obj (valueMembers l) := rfl
  rw [e] at hp h2
  have hok := json_members_ok hp
  have hr := C27_faultless_requests .regressor io hok
  have hg := C28_values hr h2 hp ("loss_fn_C1", .real (requestedJson io .regressor (valueMembers l)).lossC1) (by simp [ParamSet.entries, ParamSet.concrete])
  have hn : ((valueMembers l).map Prod.fst).Nodup := by
    rcases parse_total t with e | ⟨v', e, hv⟩
    · rw [parse_iff.2 ht] at e; cases e
    · rw [parse_iff.2 ht] at e
      have := Res.ok.inj e
      subst this
      exact read_keys hv.wide hv.encoded
  have hm : ("loss_fn_C1", v.value) ∈ valueMembers l := by
    rw [valueMembers_map]
    exact List.mem_map.2 ⟨_, hs, by rw [stringOf_bytesOf]⟩
  have hl : (valueMembers l).lookup "loss_fn_C1" = some v.value := lookup_of_mem hn hm
  have hgr : (requestedJson io .regressor (valueMembers l)).lossC1 = givenReal io (valueMembers l) "loss_fn_C1" (defaults .regressor).lossC1 := rfl
  have hnum : ∃ x, numberOf v.value = some x := by
    have hn : Numeric v.value := Classical.byContradiction fun h => hok _ hm _ (.realTy (by simp) h)
    generalize v.value = j at hn
    cases j <;> first | exact ⟨_, rfl⟩ | exact hn.elim
  obtain ⟨x, hx⟩ := hnum
  have hgv : givenReal io (valueMembers l) "loss_fn_C1" (defaults .regressor).lossC1 = f32 x := by
    unfold givenReal
    rw [hl]
    simp only [Option.bind_some, hx, hio]
  rw [hgr, hgv] at hg
  obtain ⟨a, b, c, d⟩ := C76_float x
  exact ⟨x, f32 x, hx, hg, a, b, c, d⟩

/-! ### Cases -/

/-- A machine that converts `double` to `float` as IEEE 754 prescribes. -/
def Toy.ieeeIO : RealIO := { Toy.io with toReal := f32 }

/-- `{"s":3.9}`: the nearest `double`, then the nearest `float`. -/
example : ∃ p, makeFromText Toy.machine Toy.ieeeIO .classifier (bytesOf "{\"s\":3.9}") = .ok (.ok p) ∧ p.get? "s" = some (.real (f32 (39/10))) := by
  have h : (match makeFromText Toy.machine Toy.ieeeIO .classifier (bytesOf "{\"s\":3.9}") with
      | .ok (.ok p) => decide (p.get? "s" = some (.real (f32 (39/10)))) | _ => false) = true := by decide +kernel
  revert h
  generalize makeFromText Toy.machine Toy.ieeeIO .classifier (bytesOf "{\"s\":3.9}") = r
  intro h
  split at h
  · exact ⟨_, rfl, by simpa using h⟩
  · cases h

/-- `{"loss_fn_C1":1e39}`: too great for a `float`. -/
example : ∃ p, makeFromText Toy.machine Toy.ieeeIO .regressor (bytesOf "{\"loss_fn_C1\":1e39}") = .ok (.ok p) ∧ p.get? "loss_fn_C1" = some (.real (.inf false)) := by
  have h : (match makeFromText Toy.machine Toy.ieeeIO .regressor (bytesOf "{\"loss_fn_C1\":1e39}") with
      | .ok (.ok p) => decide (p.get? "loss_fn_C1" = some (.real (.inf false))) | _ => false) = true := by decide +kernel
  revert h
  generalize makeFromText Toy.machine Toy.ieeeIO .regressor (bytesOf "{\"loss_fn_C1\":1e39}") = r
  intro h
  split at h
  · exact ⟨_, rfl, by simpa using h⟩
  · cases h

/-- Two roundings: 1.000000178813934326171874999 lies nearer to the `float` 1 + 2^-23, but the parameter becomes 1 + 2^-22. -/
example : f32 (1000000178813934326171874999 / 1000000000000000000000000000) = .fin (1 + 1 / 8388608) ∧
    (match makeFromText Toy.machine Toy.ieeeIO .classifier (bytesOf "{\"s\":1.000000178813934326171874999}") with
      | .ok (.ok p) => decide (p.get? "s" = some (.real (.fin (1 + 1 / 4194304)))) | _ => false) = true := by decide +kernel

/-- The format has neighbours at different distances, and ties go to the even one: 2^53 + 1 is rounded down, 2^53 + 3 up. -/
example : RoundsDouble 9007199254740993 9007199254740992 ∧ RoundsDouble 9007199254740995 9007199254740996 :=
  ⟨f64_iff.1 (by decide +kernel), f64_iff.1 (by decide +kernel)⟩

/-- The least positive `double` and half of it. -/
example : RoundsDouble (1 / (2 ^ 1074 : Nat)) (1 / (2 ^ 1074 : Nat)) ∧ RoundsDouble (1 / (2 ^ 1075 : Nat)) 0 :=
  ⟨f64_iff.1 (by decide +kernel), f64_iff.1 (by decide +kernel)⟩

end Tsetlini
