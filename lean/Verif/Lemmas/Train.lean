import Verif.Lemmas.SpecState
import Verif.Lemmas.Float
/- Training steps refine the abstract estimator's. -/
namespace Tsetlini
open Res Spec

/-! ### Classifier feedback -/

theorem feedbackLoop_ret (env : Env) (thr : Rat) (even odd : Int) (fs : List Nat) (fb : List Int)
    (g : env.F) (h : ∀ f ∈ fs, f < fb.length) :
    (feedbackLoop env thr even odd fs (fb, g)).Ret fun r => r.1.length = fb.length ∧
      ∀ i v, r.1[i]? = some v →
        fb[i]? = some v ∨ (i ∈ fs ∧ v = (if i % 2 = 0 then even else odd) ∧
          ∃ g', (env.fnext g').1 ≤ thr) := by
  induction fs generalizing fb g with
  | nil => exact ⟨(fb, g), rfl, rfl, fun i v hv => .inl hv⟩
  | cons f fs ih =>
    have hf := h f (by simp)
    unfold feedbackLoop
    rw [iter_cons]
    dsimp only
    by_cases hc : (env.fnext g).1 > thr
    · rw [if_pos hc, ok_bind]
      refine (ih fb (env.fnext g).2 (fun p hp => h p (by simp [hp]))).mono ?_
      rintro r ⟨h1, h2⟩
      refine ⟨h1, fun i v hv => ?_⟩
      rcases h2 i v hv with h3 | ⟨h3, h4⟩
      · exact .inl h3
      · exact .inr ⟨by simp [h3], h4⟩
    · rw [if_neg hc, wr_ok hf, ok_bind, ok_bind]
      refine (ih (fb.set f _) (env.fnext g).2 (fun p hp => by simpa using h p (by simp [hp]))).mono ?_
      rintro r ⟨h1, h2⟩
      refine ⟨by simpa using h1, fun i v hv => ?_⟩
      rcases h2 i v hv with h3 | ⟨h3, h4⟩
      · by_cases hi : i = f
        · subst hi
          rw [List.getElem?_set_self hf] at h3
          cases h3
          exact .inr ⟨by simp, rfl, g, Rat.not_lt.1 hc⟩
        · rw [List.getElem?_set_ne (by omega)] at h3
          exact .inl h3
      · exact .inr ⟨by simp [h3], h4⟩

/-- The thresholds the feedback draws are compared with: about `(T - v) / 2T`. -/
def fbThr (env : Env) (T d : Int) : Rat :=
  env.rnd (env.rnd (1 / env.rnd (((T * 2 : Int)) : Rat)) * env.rnd (d : Rat))

/-- What `classifierFeedback` returns: who got feedback, of which sign, and under which
condition at all. -/
theorem classifierFeedback_ret (env : Env) {fb : List Int} {t o k : Nat} {tv ov T : Int} (g : env.F)
    (h1 : t * k + k ≤ fb.length) (h2 : o * k + k ≤ fb.length) (hn : fb.length ≤ 2147483647)
    (hT : 1 ≤ T) (hT2 : T * 2 ≤ 2147483647) (htv : -T ≤ tv ∧ tv ≤ T) (hov : -T ≤ ov ∧ ov ≤ T) :
    (classifierFeedback env fb (t : Int) (o : Int) tv ov (k : Int) T g).Ret fun r =>
      r.1.length = fb.length ∧
      ∀ i v, r.1[i]? = some v → v = 0 ∨
        (t * k ≤ i ∧ i < t * k + k ∧ v = (if i % 2 = 0 then 1 else -1) ∧
          ∃ g', (env.fnext g').1 ≤ fbThr env T (T - tv)) ∨
        (o * k ≤ i ∧ i < o * k + k ∧ v = (if i % 2 = 0 then -1 else 1) ∧
          ∃ g', (env.fnext g').1 ≤ fbThr env T (T + ov)) := by
  unfold classifierFeedback
  rw [i32_ok (by omega) (by omega), ok_bind, if_neg (by omega)]
  dsimp only
  rw [i32_ok (by omega) (by omega), ok_bind, i32_ok (by omega) (by omega), ok_bind,
    labelRange_ok (by omega), ok_bind]
  dsimp only
  refine Ret.bind (feedbackLoop_ret env _ 1 (-1) _ _ g (by
    intro f hf; rw [mem_range] at hf; rw [List.length_replicate]; omega)) ?_
  rintro ⟨fb1, g1⟩ ⟨a1, a2⟩
  dsimp only at a1 a2
  rw [List.length_replicate] at a1
  rw [labelRange_ok (by omega), ok_bind]
  dsimp only
  refine (feedbackLoop_ret env _ (-1) 1 _ fb1 g1 (by
    intro f hf; rw [mem_range] at hf; omega)).mono ?_
  rintro ⟨fb2, g2⟩ ⟨b1, b2⟩
  dsimp only at b1 b2 ⊢
  refine ⟨by omega, fun i v hv => ?_⟩
  rcases b2 i v hv with h | ⟨h, h', h''⟩
  · rcases a2 i v h with h | ⟨h, h', h''⟩
    · left
      rw [List.getElem?_replicate] at h
      split at h <;> simp_all
    · right; left
      rw [mem_range] at h
      exact ⟨h.1, h.2, h', h''⟩
  · right; right
    rw [mem_range] at h
    exact ⟨h.1, h.2, h', h''⟩

theorem classifierFeedback_congr (env : Env) {fb fb' : List Int} (h : fb.length = fb'.length)
    (t o tv ov k T : Int) (g : env.F) :
    classifierFeedback env fb t o tv ov k T g = classifierFeedback env fb' t o tv ov k T g := by
  unfold classifierFeedback; rw [h]

/-! ### Weights -/

def incW (maxW : Int) (ws : List Nat) (i : Nat) : List Nat :=
  ws.modify i fun w => w + (if ((w : Int) + 1) < maxW then 1 else 0)

def decW (ws : List Nat) (i : Nat) : List Nat := ws.modify i fun w => w - (if w ≠ 0 then 1 else 0)

theorem mem_modify {α : Type} {P : α → Prop} {l : List α} {i : Nat} {f : α → α} (h : ∀ a ∈ l, P a)
    (hf : ∀ a, P a → P (f a)) : ∀ a ∈ l.modify i f, P a := by
  intro a ha
  obtain ⟨j, hj, rfl⟩ := List.mem_iff_getElem.1 ha
  rw [List.getElem_modify]
  rw [List.length_modify] at hj
  split
  · exact hf _ (h _ (List.getElem_mem hj))
  · exact h _ (List.getElem_mem hj)

theorem modify_eq_set' {l : List Nat} {i : Nat} {f : Nat → Nat} (h : i < l.length) :
    l.modify i f = l.set i (f l[i]) := by
  rw [List.modify_eq_set, List.getElem?_eq_getElem h]; rfl

/-! ### Abstract training -/

/-- Type I feedback to clause `i` with output `out`. -/
def stepI {B : Backend} (L : Lawful B) (env : Env) (cfg : Cfg) (nf : Nat) (x : List Bool) (i : Nat)
    (out : Bool) (s : SState env) : Res (SState env) :=
  (rd s.clauses i).bind fun c =>
  let ct := ctNums env cfg.s nf
  if out = false then
    (L.specINeg env cfg.states nf ct.1 ct.2 c s.igen).bind fun r =>
    .ok { s with clauses := s.clauses.set i r.1, igen := r.2 }
  else
    (tossSpec env nf ct.1 ct.2 s.igen).bind fun r =>
    .ok { s with clauses := s.clauses.set i (c.strengthen cfg.states (cfg.boost != 0) x r.1 r.2.1),
                 weights := incW cfg.maxWeight s.weights i, igen := r.2.2 }

/-- Type II feedback to clause `i` with output `out`. -/
def stepII {env : Env} (x : List Bool) (i : Nat) (out : Bool) (s : SState env) : Res (SState env) :=
  (rd s.clauses i).bind fun c =>
  if out then .ok { s with clauses := s.clauses.set i (c.contradict x), weights := decW s.weights i }
  else .ok s

/-- One pass over the clauses of one label. -/
def trainS {B : Backend} (L : Lawful B) (env : Env) (cfg : Cfg) (nf : Nat) (x : List Bool)
    (fb : List Int) (out : Nat → Bool) (a b : Nat) (s : SState env) : Res (SState env) :=
  iter (range a b) (fun i s =>
    (rd fb i).bind fun f =>
    if f ≥ 1 then stepI L env cfg nf x i (out i) s
    else if f ≤ -1 then stepII x i (out i) s
    else .ok s) s

/-- The parts of a training loop's state, related. -/
structure TRel {B : Backend} (L : Lawful B) (env : Env) (cfg : Cfg) (n nf : Nat)
    (sh : Option (Nat × Nat)) (fg : env.F) (s : TrainSt B env) (ss : SState env) : Prop where
  abs : L.Abs cfg.ct cfg.states nf s.ta.mat ss.clauses
  w : s.ta.weights = ss.weights
  g : s.g = ss.igen
  ct : CtOk nf (ctNums env cfg.s nf).1 (ctNums env cfg.s nf).2 s.ct
  len : ss.clauses.length = n
  wlen : ss.weights.length = if cfg.weighted then n else 0
  wmax : ∀ w ∈ ss.weights, (w : Int) + 1 ≤ cfg.maxWeight
  shape : ss.shape = sh
  fgen : ss.fgen = fg

/-- A sample the training code accepts. -/
structure SOk {B : Backend} (L : Lawful B) (nf : Nat) (x : B.Sample) : Prop where
  inv : L.SInv x
  bin : L.Bin x
  size : B.size x = nf

def Cfg.hyper (c : Cfg) : Hyper := ⟨c.states, c.maxWeight, c.boost != 0⟩

theorem ctNums_zero (env : Env) {cfg : Cfg} (hv : Valid cfg) (nf : Nat) :
    nf = 0 → (ctNums env cfg.s nf).1 = 0 ∧ (ctNums env cfg.s nf).2 = 0 := by
  rintro rfl
  obtain ⟨ct, h1, _, _, _, _, h2⟩ := make_ret env hv.s (n := 0) (by omega)
  unfold ctNums
  rw [h1]
  exact h2 rfl

theorem applyTypeI_ref {B : Backend} (L : Lawful B) {env : Env} {cfg : Cfg} (hv : Valid cfg)
    (hN : L.minStates ≤ cfg.states) {n nf : Nat} {sh : Option (Nat × Nat)} {fg : env.F} {x : B.Sample}
    (hx : SOk L nf x) {i : Nat} (hi : i < n) (out : Bool) {s : TrainSt B env} {ss : SState env}
    (h : TRel L env cfg n nf sh fg s ss) :
    (applyTypeI B env cfg.hyper x i out s).Refines (TRel L env cfg n nf sh fg)
      (stepI L env cfg nf (L.bits x) i out ss) := by
  have hic : i < ss.clauses.length := by rw [h.len]; exact hi
  have hz := ctNums_zero env hv nf
  unfold applyTypeI stepI
  rw [rd_ok hic, ok_bind]
  dsimp only
  cases out with
  | false =>
    rw [if_pos rfl, if_pos rfl]
    rw [h.g]
    refine Refines.bind (L.typeINeg_ref (hy := cfg.hyper) hN h.abs hic hx.inv hx.bin hx.size h.ct hz) ?_
    rintro ⟨m, g, ct⟩ ⟨c, g'⟩ ⟨k1, k2, k3⟩
    exact ⟨k1, h.w, k2, k3, by rw [List.length_set]; exact h.len, h.wlen, h.wmax, h.shape, h.fgen⟩
  | true =>
    rw [if_neg (show ¬ true = false by simp), if_neg (show ¬ true = false by simp)]
    rw [h.g]
    have href := L.typeIPos_ref (hy := cfg.hyper) hN h.abs hic hx.inv hx.bin hx.size h.ct hz (g := ss.igen)
    have e : ((tossSpec env nf (ctNums env cfg.s nf).1 (ctNums env cfg.s nf).2 ss.igen).bind fun r =>
        Res.ok { ss with
          clauses := ss.clauses.set i (ss.clauses[i].strengthen cfg.states (cfg.boost != 0) (L.bits x) r.1 r.2.1),
          weights := incW cfg.maxWeight ss.weights i, igen := r.2.2 }) =
        ((tossSpec env nf (ctNums env cfg.s nf).1 (ctNums env cfg.s nf).2 ss.igen).bind fun s =>
          Res.ok (ss.clauses[i].strengthen cfg.hyper.states cfg.hyper.boost (L.bits x) s.1 s.2.1, s.2.2)).bind
        fun r => Res.ok { ss with
          clauses := ss.clauses.set i r.1, weights := incW cfg.maxWeight ss.weights i, igen := r.2 } := by
      rw [Res.bind_assoc]; rfl
    rw [e]
    refine Refines.bind href ?_
    rintro ⟨m, g, ct⟩ ⟨c, g'⟩ ⟨k1, k2, k3⟩
    dsimp only at k1 k2 k3 ⊢
    have hw : ((if s.ta.weights.length ≠ 0 then
      (rd s.ta.weights i).bind fun w =>
      wr s.ta.weights i (w + (if ((w : Int) + 1) < cfg.hyper.maxWeight then 1 else 0))
      else .ok s.ta.weights)) = Res.ok (incW cfg.maxWeight ss.weights i) := by
      have hl := h.wlen
      rw [h.w]
      by_cases hwt : cfg.weighted
      · rw [if_pos hwt] at hl
        rw [if_pos (by omega), rd_ok (by omega), ok_bind, wr_ok (by omega)]
        unfold incW
        rw [modify_eq_set' (by omega)]
        rfl
      · rw [if_neg hwt] at hl
        have : ss.weights = [] := List.length_eq_zero_iff.1 hl
        rw [this, if_neg (by simp)]; simp [incW]
    rw [hw, ok_bind, refines_ok_ok]
    refine ⟨k1, rfl, k2, k3, by rw [List.length_set]; exact h.len, ?_, ?_, h.shape, h.fgen⟩
    · show (incW _ _ _).length = _
      unfold incW; rw [List.length_modify]; exact h.wlen
    · refine mem_modify h.wmax fun w hw => ?_
      split <;> omega

theorem applyTypeII_ref {B : Backend} (L : Lawful B) {env : Env} {cfg : Cfg}
    (hN : L.minStates ≤ cfg.states) {n nf : Nat} {sh : Option (Nat × Nat)} {fg : env.F} {x : B.Sample}
    (hx : SOk L nf x) {i : Nat} (hi : i < n) (out : Bool) {s : TrainSt B env} {ss : SState env}
    (h : TRel L env cfg n nf sh fg s ss) :
    (applyTypeII B env x i out s).Refines (TRel L env cfg n nf sh fg)
      (stepII (L.bits x) i out ss) := by
  have hic : i < ss.clauses.length := by rw [h.len]; exact hi
  unfold applyTypeII stepII
  rw [rd_ok hic, ok_bind]
  cases out with
  | false => exact h
  | true =>
    rw [if_pos rfl, if_pos rfl]
    refine Refines.ret_bind (L.typeII_eq hN h.abs hic hx.inv hx.bin hx.size) fun m k1 => ?_
    have hw : ((if s.ta.weights.length ≠ 0 then
      (rd s.ta.weights i).bind fun w => wr s.ta.weights i (w - (if w ≠ 0 then 1 else 0))
      else .ok s.ta.weights)) = Res.ok (decW ss.weights i) := by
      have hl := h.wlen
      rw [h.w]
      by_cases hwt : cfg.weighted
      · rw [if_pos hwt] at hl
        rw [if_pos (by omega), rd_ok (by omega), ok_bind, wr_ok (by omega)]
        unfold decW
        rw [modify_eq_set' (by omega)]
      · rw [if_neg hwt] at hl
        have : ss.weights = [] := List.length_eq_zero_iff.1 hl
        rw [this, if_neg (by simp)]; simp [decW]
    rw [hw, ok_bind, refines_ok_ok]
    refine ⟨k1, rfl, h.g, h.ct, by rw [List.length_set]; exact h.len, ?_, ?_, h.shape, h.fgen⟩
    · show (decW _ _).length = _
      unfold decW; rw [List.length_modify]; exact h.wlen
    · refine mem_modify h.wmax fun w hw => ?_
      split <;> omega

theorem trainClassifier_ref {B : Backend} (L : Lawful B) {env : Env} {cfg : Cfg} (hv : Valid cfg)
    (hN : L.minStates ≤ cfg.states) {n nf : Nat} {sh : Option (Nat × Nat)} {fg : env.F} {x : B.Sample}
    (hx : SOk L nf x) {a b : Nat} (hb : b ≤ n) {fb : List Int} (hfb : fb.length = n)
    {out : List Bool} {v : Nat → Bool} (ho : ∀ i, a ≤ i → i < b → out[i]? = some (v i))
    {s : TrainSt B env} {ss : SState env} (h : TRel L env cfg n nf sh fg s ss) :
    (trainClassifier B env cfg.hyper x fb out a b s).Refines (TRel L env cfg n nf sh fg)
      (trainS L env cfg nf (L.bits x) fb v a b ss) := by
  unfold trainClassifier trainS
  refine iter_refines _ s ss h ?_
  intro i hi s ss h
  rw [mem_range] at hi
  rw [rd_ok (by omega), ok_bind, ok_bind]
  split
  · rw [rd_of_getElem? (ho i hi.1 hi.2), ok_bind]
    exact applyTypeI_ref L hv hN hx (by omega) _ h
  · split
    · rw [rd_of_getElem? (ho i hi.1 hi.2), ok_bind]
      exact applyTypeII_ref L hN hx (by omega) _ h
    · exact h

end Tsetlini
