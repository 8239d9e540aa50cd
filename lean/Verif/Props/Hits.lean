import Verif.Spec.Hits
import Verif.Props.Loss
import Verif.Props.Training
/-
C48: the number of clauses that get feedback in a step of a regressor.
-/
namespace Tsetlini
open Res Spec

variable {a : Algo} {env : Env}

/-! ### C48 -/

/-- The rounding in the statements below and in those of C65 is `std::round`. -/
theorem C48_rounding (q : Rat) (n : Int) : roundHalfAway q = n ↔ Nearest q n := by
  unfold roundHalfAway Nearest
  split
  · rw [floor_eq_iff]; constructor <;> rintro ⟨h1, h2⟩ <;> constructor <;> grind
  · rw [show (-(-q + 1/2).floor = n) ↔ ((-q + 1/2).floor = -n) by omega, floor_eq_iff]
    push_cast
    constructor <;> rintro ⟨h1, h2⟩ <;> constructor <;> grind

/-- Nearest below, nearest above, and ties on both sides of zero. -/
example : Nearest (9/4) 2 ∧ Nearest (11/4) 3 ∧ Nearest (5/2) 3 ∧ Nearest (-5/2) (-3) := by
  unfold Nearest; decide +kernel

theorem toUnsigned_iff (z : Int) : (IsUnsigned z ∧ toUnsigned z = .ok z.toNat) ∨ (¬ IsUnsigned z ∧ toUnsigned z = .ub .floatConv) := by
  by_cases h : IsUnsigned z
  · exact .inl ⟨h, toUnsigned_ok h.1 h.2⟩
  · refine .inr ⟨h, ?_⟩
    unfold toUnsigned
    rw [if_neg]
    rintro ⟨h1, h2⟩
    have h1' : ((-1 : Int) : Rat) < (z : Rat) := h1
    have h2' : (z : Rat) < ((4294967296 : Int) : Rat) := h2
    have := Rat.intCast_lt_intCast.1 h1'
    have := Rat.intCast_lt_intCast.1 h2'
    exact h ⟨by omega, by omega⟩

theorem roundHalfAway_half {x : Rat} (h : 1/2 ≤ x) : 0 ≤ roundHalfAway x := by
  unfold roundHalfAway
  rw [if_pos (by grind)]
  exact Rat.le_floor_iff.2 (by show (0 : Rat) ≤ _; grind)

/-- **C48**: the number of hits is undefined exactly as specified, otherwise it is as specified. -/
theorem C48_hits (env : Env) (bm : Bool) (n : Nat) (p : Fl) (g : env.G) :
    (feedbackHits env bm n p g = .ub .floatConv ∧ NoHits env bm n p (env.next g).1) ∨
    (¬ NoHits env bm n p (env.next g).1 ∧
      ∃ hits g', feedbackHits env bm n p g = .ok (hits, g') ∧ Hits env bm n p hits) := by
  have mn : ∀ (z : Int), IsUnsigned z → ((min z.toNat n : Nat) : Int) = min z n := fun z hz => by have := hz.1; omega
  unfold feedbackHits NoHits Hits binomial
  cases bm with
  | true =>
    rw [if_pos rfl, if_pos rfl]
    simp only [if_true]
    cases p with
    | nan => exact .inl ⟨rfl, fun v z h => by cases h⟩
    | inf b => exact .inl ⟨rfl, fun v z h => by cases h⟩
    | fin v =>
      dsimp only
      cases hn : env.normal (env.rnd (env.rnd n * v)) (env.rnd (env.rnd (env.rnd n * v) * env.rnd (1 - v))) (env.next g).1 with
      | none => exact .inl ⟨rfl, fun v' z h h' => by cases h; rw [hn] at h'; cases h'⟩
      | some z =>
        dsimp only
        rcases toUnsigned_iff (roundHalfAway z) with ⟨h1, h2⟩ | ⟨h1, h2⟩
        · rw [h2, ok_bind]
          refine .inr ⟨fun h => h v z rfl hn h1, _, _, rfl, v, _, z, rfl, hn, h1, mn _ h1⟩
        · rw [h2]
          exact .inl ⟨rfl, fun v' z' h h' => by cases h; rw [hn] at h'; cases h'; exact h1⟩
  | false =>
    rw [if_neg (by decide), if_neg (by decide)]
    simp only [Bool.false_eq_true, if_false]
    cases p with
    | nan => exact .inr ⟨(by rintro (h | ⟨v, h, -⟩) <;> simp at h), 0, _, rfl, rfl⟩
    | inf b =>
      cases b with
      | false => exact .inl ⟨rfl, .inl rfl⟩
      | true => exact .inr ⟨(by rintro (h | ⟨v, h, -⟩) <;> simp at h), 0, _, rfl, rfl⟩
    | fin v =>
      dsimp only
      generalize hnp : env.rnd (env.rnd n * v) = np
      split
      · rename_i hge
        have h0 := roundHalfAway_half hge
        rcases toUnsigned_iff (roundHalfAway np) with ⟨h1, h2⟩ | ⟨h1, h2⟩
        · rw [h2, ok_bind]
          refine .inr ⟨?_, _, _, rfl, fun _ => mn _ h1, fun h => absurd h (by grind), fun h => absurd h (by grind)⟩
          rintro (h | ⟨v', h, h'⟩)
          · cases h
          · cases h; rw [hnp] at h'; have := h1.2; omega
        · rw [h2]
          refine .inl ⟨rfl, .inr ⟨v, rfl, ?_⟩⟩
          rw [hnp]
          unfold IsUnsigned at h1
          omega
      · rename_i hlt
        refine .inr ⟨?_, _, _, rfl, fun h => absurd h hlt, fun _ => ⟨?_, Nat.min_le_right _ _⟩, fun h => ?_⟩
        · rintro (h | ⟨v', h, h'⟩)
          · cases h
          · cases h
            rw [hnp] at h'
            have : roundHalfAway np ≤ 0 := by
              unfold roundHalfAway
              split
              · have : (np + 1/2).floor < 1 := Rat.floor_lt_iff.2 (by show _ < (1 : Rat); grind)
                omega
              · have : 0 ≤ (-np + 1/2).floor := Rat.le_floor_iff.2 (by show (0 : Rat) ≤ _; grind)
                omega
            omega
        · split <;> omega
        · have h64 : env.rnd64 (np * 4294967295) ≤ 0 := by
            have e : np * 4294967295 ≤ 0 := by grind
            have z : env.rnd64 0 = 0 := rnd64_int env (m := 0) (by decide)
            have := env.rnd64_mono_law _ _ e
            rwa [z] at this
          rw [if_neg]
          · simp
          · have : (0 : Rat) ≤ ((env.next g).1.toNat : Rat) := by exact_mod_cast Nat.zero_le _
            grind

/-- **C48**: the number of hits is at most the number of clauses. -/
theorem C48_hits_bounded {bm : Bool} {n : Nat} {p : Fl} {hits : Nat} (h : Hits env bm n p hits) : hits ≤ n := by
  unfold Hits at h
  cases bm with
  | true =>
    rw [if_pos rfl] at h
    obtain ⟨v, d, z, -, -, -, h⟩ := h
    omega
  | false =>
    rw [if_neg (by decide)] at h
    cases p with
    | nan => dsimp only at h; omega
    | inf b => dsimp only at h; omega
    | fin v =>
      dsimp only at h
      obtain ⟨h1, h2, -⟩ := h
      by_cases hh : 1/2 ≤ env.rnd (env.rnd n * v)
      · have := h1 hh; omega
      · exact (h2 (by grind)).2

/-- **C48** (API): training a fitted regressor with one sample: as many clauses are picked (one may be picked again) as the loss of the error gives
hits; clauses that are not picked stay as they are, with their weights. -/
theorem C48_step {st st' : EstState a.backend env} {s : Status} {sc : Sched} {H : Settings} {x : a.Sample} {y : Int}
    (h : Reached a .regressor st) (hN : StatesOk a st.params) (hf : Fitted a st)
    (hx : a.Built x) (hy : IsInt y) (hH : HasSettings .regressor st.params H) {bm : Bool} {name : String} {C1 : Fl}
    (hbm : st.params.get? "box_muller" = some (.bool bm)) (hname : st.params.get? "loss_fn" = some (.str name))
    (hC1 : st.params.get? "loss_fn_C1" = some (.real C1))
    (hr : partialFitRegressor a.backend env sc st [x] [y] 1 = .ok (st', s)) (hc : s.code = .ok) :
    ∃ (loss : Fl) (picks : List Nat),
      LossIs env name C1 (env.rnd (env.rnd (response (outAt (a.clauses st) (a.bits x)) st.ta.weights H.k H.threshold - y : Int) /
        env.rnd H.threshold)) loss ∧
      Hits env bm H.k loss picks.length ∧ (∀ i ∈ picks, i < H.k) ∧
      ∀ i, i ∉ picks → (a.clauses st')[i]? = (a.clauses st)[i]? ∧ st'.ta.weights[i]? = st.ta.weights[i]? := by
  obtain ⟨cfg, L, nf, ss, h1, hv, h2, hF⟩ := reached_fit h hN hf
  have e3 := hF.reg1 h1
  subst e3
  have e := hF.settingsEq h1 hH
  subst e
  have ebm : bm = cfg.boxMuller := by rw [hF.reads.boxMuller h1] at hbm; simpa using hbm.symm
  have ename : name = cfg.lossName := by rw [hF.reads.loss h1] at hname; simpa using hname.symm
  have eC1 : C1 = cfg.C1 := by rw [hF.reads.C1 h1] at hC1; simpa using hC1.symm
  subst ebm ename eC1
  have ht : DataTyped a [x] [y] := ⟨by simpa using hx, by simpa using hy⟩
  obtain ⟨ss', hF', -, hd, -, hi⟩ := refitR_call hv h1 h2 ht.typed hF hr hc
  rw [show List.range 1 = [0] from rfl, iter_cons, bind_eq_ok] at hi
  obtain ⟨s2, hi, hi2⟩ := hi
  cases hi2
  unfold regEpochS at hi
  have hp : (env.shuffle ss.igen ([x] : List a.Sample).length).1 = [0] :=
    List.perm_singleton.1 (env.shuffle_law ss.igen 1)
  rw [hp, iter_cons, bind_eq_ok] at hi
  obtain ⟨s3, hi, hi2⟩ := hi
  cases hi2
  rw [show rd ([x] : List a.Sample) 0 = .ok x from rfl, ok_bind, show rd [y] 0 = .ok y from rfl, ok_bind] at hi
  have hlen : ss.clauses.length = cfg.k := by rw [hF.len, Nat.one_mul]
  obtain ⟨g', picks, p1, p2, p3⟩ := regUpdateS_picks hv hF.nfSmall (by exact hlen) hi
  dsimp only at p1 p3
  have hlr := hF.learnedEq
  have hlr' := hF'.learnedEq
  have ec : a.clauses st = ss.clauses := congrArg Learned.clauses hlr
  have ew : st.ta.weights = ss.weights := congrArg Learned.weights hlr
  have ec' : a.clauses st' = ss'.clauses := congrArg Learned.clauses hlr'
  have ew' : st'.ta.weights = ss'.weights := congrArg Learned.weights hlr'
  rw [ec, ew, ec', ew', ← lawful_bits]
  refine ⟨_, picks, ⟨cfg.loss, hv.lossOf h1, rfl⟩, ?_, p2, ?_⟩
  · rcases C48_hits env cfg.boxMuller cfg.k (lossVal env cfg.loss cfg.C1 (env.rnd
      (env.rnd (response (outAt ss.clauses (a.lawful.bits x)) ss.weights cfg.k cfg.T - y : Int) / env.rnd cfg.T)))
      (env.shuffle ss.igen ([x] : List a.Sample).length).2 with ⟨q, -⟩ | ⟨-, hits, g'', q, q'⟩
    · rw [q] at p1; cases p1
    · rw [q] at p1
      have : hits = picks.length := congrArg (fun r : Res (Nat × env.G) => match r with | .ok r => r.1 | _ => 0) p1
      rw [← this]; exact q'
  · intro i hi
    have hch : ∀ {R : Nat → Learned → Learned → Prop} {ps : List Nat} {m m' : Learned},
        (∀ i m m', R i m m' → ∀ j, j ≠ i → m'.at j = m.at j) → Chain R ps m m' → i ∉ ps → m'.at i = m.at i := by
      intro R ps m m' hR hc
      induction hc with
      | nil => exact fun _ => rfl
      | cons hr _ ih =>
        intro hni
        rw [List.mem_cons, not_or] at hni
        rw [ih hni.2, hR _ _ _ hr _ hni.1]
    have := hch (fun i m m' h => h.1) p3 hi
    unfold Learned.at at this
    simp only [Prod.mk.injEq] at this
    exact this

/-- The toy regressor with a target of 3: the response is 1, so the loss MSE is rnd (rnd (-2/3)^2) = 4/9 and of two clauses one is hit. -/
example : Toy.br.params.get? "box_muller" = some (.bool false) ∧ Toy.br.params.get? "loss_fn" = some (.str "MSE") ∧
    Toy.br.params.get? "loss_fn_C1" = some (.real (.fin 0)) ∧
    response (outAt (Algo.bitwise.clauses Toy.br) (Algo.bitwise.bits Toy.xb)) Toy.br.ta.weights 2 3 = 1 ∧
    LossIs Toy.env "MSE" (.fin 0) (-2/3) (.fin (4/9)) ∧ Hits Toy.env false 2 (.fin (4/9)) 1 := by
  refine ⟨by decide +kernel, by decide +kernel, by decide +kernel, by decide +kernel, ⟨.sq, by decide, by decide +kernel⟩, ?_⟩
  show (_ ∧ _ ∧ _)
  refine ⟨fun _ => by decide +kernel, fun h => absurd h (by decide +kernel), fun h => absurd h (by decide +kernel)⟩

end Tsetlini
