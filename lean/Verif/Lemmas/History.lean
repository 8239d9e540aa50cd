import Verif.Lemmas.Predict
/- Histories refine the abstract estimator. -/
namespace Tsetlini
open Res Spec

/-- Arguments of the declared C++ types. -/
def Call.Typed {B : Backend} (L : Lawful B) {k : Kind} : Call B.Sample k → Prop
  | .fit X y _ _ | .partialFit X y _ _ | .evaluate X y | .fitR X y _ | .partialFitR X y _ => Tsetlini.Typed L X y
  | .predict1 x | .decision1 x | .predictR1 x => L.SInv x
  | .predict X | .decision X | .predictR X => ∀ x ∈ X, L.SInv x

/-- One abstract call. -/
def stepS {B : Backend} (L : Lawful B) (env : Env) (cfg : Cfg) {k : Kind} (c : Call B.Sample k)
    (ss : SState env) : Res (SState env × Out) :=
  match c with
  | .fit X y ml ep => (fitS L env cfg ss X y ml ep).bind fun r => .ok (r.1, .status r.2)
  | .partialFit X y ml ep => (partialFitS L env cfg ss X y ml ep).bind fun r => .ok (r.1, .status r.2)
  | .predict1 x => (predict1S L cfg ss x).bind fun r => .ok (ss, .label r)
  | .predict X => (predictS L cfg ss X).bind fun r => .ok (ss, .labels r)
  | .decision1 x => (decision1S L cfg ss x).bind fun r => .ok (ss, .scores r)
  | .decision X => (decisionS L cfg ss X).bind fun r => .ok (ss, .scoreRows r)
  | .evaluate X y => (evaluateS L cfg ss X y).bind fun r => .ok (ss, .accuracy r)
  | .fitR X y ep => (fitRS L env cfg ss X y ep).bind fun r => .ok (r.1, .status r.2)
  | .partialFitR X y ep => (partialFitRS L env cfg ss X y ep).bind fun r => .ok (r.1, .status r.2)
  | .predictR1 x => (predictR1S L cfg ss x).bind fun r => .ok (ss, .label r)
  | .predictR X => (predictRS L cfg ss X).bind fun r => .ok (ss, .labels r)

/-- What a call needs beyond well-typed arguments to be free of undefined behaviour, in a state
of the given shape. -/
def Call.Safe {B : Backend} (L : Lawful B) (cfg : Cfg) (sh : Option (Nat × Nat)) {k : Kind} :
    Call B.Sample k → Prop
  | .fit X y ml ep => (XyOk L X y → ∀ v ∈ y, v < 2147483647) ∧
      (XyOk L X y → (∀ v ∈ y, 0 ≤ v) → Sized L cfg X y ml ep)
  | .partialFit X y ml ep => PSized L cfg sh X y ml ep
  | .evaluate X y => EvalOk L sh X y
  | .fitR X y _ => XyOk L X y → (∀ v ∈ y, 0 ≤ v ∧ v ≤ cfg.T) → L.Alloc cfg.ct (2 * cfg.k) (width B X)
  | .partialFitR X y _ => PSizedR L cfg sh X y
  | _ => True

section
variable {B : Backend} {L : Lawful B} {env : Env} {cfg : Cfg}

theorem tagged_ref {α : Type} {r : Res (EstState B env × α)} {s : Res (SState env × α)} (f : α → Out)
    (h : r.Refines (fun r s => Sim L cfg r.1 s.1 ∧ r.2 = s.2) s) :
    (tagged f r).Refines (fun r s => Sim L cfg r.1 s.1 ∧ r.2 = s.2) (s.bind fun p => .ok (p.1, f p.2)) := by
  unfold tagged
  refine h.bind ?_
  rintro ⟨a, a'⟩ ⟨b, b'⟩ ⟨h1, h2⟩
  dsimp only at h1 h2
  exact ⟨h1, by rw [h2]⟩

theorem tagged_ro {α : Type} {st : EstState B env} {ss : SState env} {r : Res (EstState B env × α)} {s : Res α}
    (f : α → Out) (h : r.Ret fun r => Sim L cfg r.1 ss ∧ Frozen st r.1 ∧ s = .ok r.2) :
    (tagged f r).Refines (fun r s => Sim L cfg r.1 s.1 ∧ r.2 = s.2) (s.bind fun p => .ok (ss, f p)) := by
  obtain ⟨⟨a, b⟩, rfl, h1, h2, rfl⟩ := h
  exact ⟨h1, rfl⟩

theorem step_ref (sc : Sched) (hv : Valid cfg) (hN : L.minStates ≤ cfg.states) {st : EstState B env}
    {ss : SState env} (h : Sim L cfg st ss) (c : Call B.Sample cfg.kind) (ht : c.Typed L)
    (hs : c.Safe L cfg ss.shape) :
    (step B env sc c st).Refines (fun r s => Sim L cfg r.1 s.1 ∧ r.2 = s.2) (stepS L env cfg c ss) := by
  generalize hk : cfg.kind = k at c
  cases c with
  | fit X y ml ep => exact tagged_ref _ (fitClassifier_ref L sc hv hk hN ht hs.1 hs.2 h)
  | partialFit X y ml ep => exact tagged_ref _ (partialFitClassifier_ref L sc hv hk hN ht hs h)
  | predict1 x => exact tagged_ro _ (predict1_ref sc hv hk h ht)
  | predict X => exact tagged_ro _ (predict_ref sc hv hk h ht)
  | decision1 x => exact tagged_ro _ (decision1_ref sc hv hk h ht)
  | decision X => exact tagged_ro _ (decision_ref sc hv hk h ht)
  | evaluate X y => exact tagged_ro _ (evaluate_ref sc hv hk h hs)
  | fitR X y ep => exact tagged_ref _ (fitRegressor_ref L sc hv hk hN ht hs h)
  | partialFitR X y ep => exact tagged_ref _ (partialFitRegressor_ref L sc hv hk hN ht hs h)
  | predictR1 x => exact tagged_ro _ (predictR1_ref sc hv hk h ht)
  | predictR X => exact tagged_ro _ (predictR_ref sc hv hk h ht)

/-- A call that returned normally keeps the simulation, whatever its arguments. -/
theorem step_inv {sc : Sched} (hv : Valid cfg) (hN : L.minStates ≤ cfg.states) {st : EstState B env}
    {ss : SState env} (h : Sim L cfg st ss) (c : Call B.Sample cfg.kind) (ht : c.Typed L)
    {r : EstState B env × Out} (hr : step B env sc c st = .ok r) :
    ∃ ss', Sim L cfg r.1 ss' := by
  generalize hk : cfg.kind = k at c
  have fin : ∀ {q : Res (EstState B env × Out)} {s : Res (SState env × Out)}, q = .ok r →
      q.Refines (fun r s => Sim L cfg r.1 s.1 ∧ r.2 = s.2) s → ∃ ss', Sim L cfg r.1 ss' := by
    rintro q s rfl hq
    obtain ⟨b, -, hb, -⟩ := hq.ok_left
    exact ⟨_, hb⟩
  cases c with
  | fit X y ml ep =>
    have hr' := hr
    unfold step tagged at hr'
    rw [bind_eq_ok] at hr'
    obtain ⟨q, hq, -⟩ := hr'
    have hs := fitClassifier_sized L hv hk ht h hq
    exact fin hr (tagged_ref _ (fitClassifier_ref L sc hv hk hN ht hs.1 hs.2 h))
  | partialFit X y ml ep =>
    have hr' := hr
    unfold step tagged at hr'
    rw [bind_eq_ok] at hr'
    obtain ⟨q, hq, -⟩ := hr'
    have hs := partialFitClassifier_sized L hv hk ht h hq
    exact fin hr (tagged_ref _ (partialFitClassifier_ref L sc hv hk hN ht hs h))
  | predict1 x => exact fin hr (tagged_ro _ (predict1_ref sc hv hk h ht))
  | predict X => exact fin hr (tagged_ro _ (predict_ref sc hv hk h ht))
  | decision1 x => exact fin hr (tagged_ro _ (decision1_ref sc hv hk h ht))
  | decision X => exact fin hr (tagged_ro _ (decision_ref sc hv hk h ht))
  | evaluate X y =>
    unfold step tagged at hr
    rw [bind_eq_ok] at hr
    obtain ⟨q, hq, hr⟩ := hr
    have := evaluate_ifOk sc hv hk h X y
    rw [hq] at this
    cases hr
    exact ⟨ss, this.1⟩
  | fitR X y ep =>
    have hr' := hr
    unfold step tagged at hr'
    rw [bind_eq_ok] at hr'
    obtain ⟨q, hq, -⟩ := hr'
    exact fin hr (tagged_ref _ (fitRegressor_ref L sc hv hk hN ht (fitRegressor_sized L hv hk ht h hq) h))
  | partialFitR X y ep =>
    have hr' := hr
    unfold step tagged at hr'
    rw [bind_eq_ok] at hr'
    obtain ⟨q, hq, -⟩ := hr'
    exact fin hr (tagged_ref _ (partialFitRegressor_ref L sc hv hk hN ht (partialFitRegressor_sized L hv hk ht h hq) h))
  | predictR1 x => exact fin hr (tagged_ro _ (predictR1_ref sc hv hk h ht))
  | predictR X => exact fin hr (tagged_ro _ (predictR_ref sc hv hk h ht))

theorem run_inv {sc : Sched} (hv : Valid cfg) (hN : L.minStates ≤ cfg.states)
    (cs : List (Call B.Sample cfg.kind)) (ht : ∀ c ∈ cs, c.Typed L) {st : EstState B env}
    {ss : SState env} (h : Sim L cfg st ss) {r : EstState B env × List Out}
    (hr : run B env sc cs st = .ok r) : ∃ ss', Sim L cfg r.1 ss' := by
  induction cs generalizing st ss r with
  | nil => cases hr; exact ⟨ss, h⟩
  | cons c cs ih =>
    unfold run at hr
    simp only [bind_eq_ok] at hr
    obtain ⟨r1, h1, r2, h2, h3⟩ := hr
    cases h3
    obtain ⟨ss1, hs1⟩ := step_inv hv hN h c (ht c (by simp)) h1
    obtain ⟨ss', h⟩ := ih (r := r2) (fun c hc => ht c (by simp [hc])) hs1 h2
    exact ⟨ss', h⟩

/-- A history all of whose calls are safe (each judged in the abstract state it meets). -/
def RunSafe (L : Lawful B) (env : Env) (cfg : Cfg) {k : Kind} : List (Call B.Sample k) → SState env → Prop
  | [], _ => True
  | c :: cs, ss => c.Safe L cfg ss.shape ∧ ∀ r, stepS L env cfg c ss = .ok r → RunSafe L env cfg cs r.1

def runS (L : Lawful B) (env : Env) (cfg : Cfg) {k : Kind} :
    List (Call B.Sample k) → SState env → Res (SState env × List Out)
  | [], ss => .ok (ss, [])
  | c :: cs, ss =>
    (stepS L env cfg c ss).bind fun r =>
    (runS L env cfg cs r.1).bind fun r' => .ok (r'.1, r.2 :: r'.2)

theorem run_ref (sc : Sched) (hv : Valid cfg) (hN : L.minStates ≤ cfg.states)
    (cs : List (Call B.Sample cfg.kind)) (ht : ∀ c ∈ cs, c.Typed L) {st : EstState B env}
    {ss : SState env} (h : Sim L cfg st ss) (hs : RunSafe L env cfg cs ss) :
    (run B env sc cs st).Refines (fun r s => Sim L cfg r.1 s.1 ∧ r.2 = s.2) (runS L env cfg cs ss) := by
  induction cs generalizing st ss with
  | nil => exact ⟨h, rfl⟩
  | cons c cs ih =>
    unfold run runS
    obtain ⟨hs1, hs2⟩ := hs
    rcases (step_ref sc hv hN h c (ht c (by simp)) hs1).cases with
      ⟨a, b, e1, e2, h1, h2⟩ | ⟨e1, e2⟩ | ⟨e1, e2⟩
    · rw [e1, e2, ok_bind, ok_bind]
      refine Refines.bind (ih (fun c hc => ht c (by simp [hc])) h1 (hs2 b e2)) ?_
      rintro ⟨a', o⟩ ⟨b', o'⟩ ⟨h3, h4⟩
      dsimp only at h3 h4
      exact ⟨h3, by rw [h2, h4]⟩
    · rw [e1, e2]; trivial
    · rw [e1, e2]; trivial

/-- The abstract fresh estimator. -/
def SState.fresh (env : Env) : SState env := ⟨none, [], [], env.seedG 1#32, env.seedF 1#32⟩

theorem Sim.fresh {p : Params} (hr : Reads p cfg) (h1 : NoSizes p) : Sim L cfg (EstState.fresh B env p) (SState.fresh env) :=
  .inl ⟨hr, h1 _ (.inl rfl), h1 _ (.inr rfl), rfl, L.empty_rows, L.empty_cnt, rfl, rfl, rfl, rfl, rfl, rfl, rfl, rfl⟩

end
end Tsetlini
