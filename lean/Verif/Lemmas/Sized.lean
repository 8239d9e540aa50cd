import Verif.Lemmas.Fit
/- A call that returned normally had sizes it can cope with. -/
namespace Tsetlini
open Res Spec

theorem classifierEpoch_ok {B : Backend} {env : Env} {sc : Sched} {cfg : TrainCfg} {X : List B.Sample}
    {y : List Int} {st st' : EstState B env} (hX : X ≠ []) (hy : y ≠ [])
    (h : classifierEpoch B env sc cfg X y st = .ok st') :
    2 ≤ cfg.labels ∧ cfg.T * 2 ≤ 2147483647 := by
  unfold classifierEpoch at h
  rw [bind_eq_ok] at h
  obtain ⟨⟨opp, g⟩, h1, h2⟩ := h
  constructor
  · cases y with
    | nil => simp at hy
    | cons v vs =>
      unfold generateOppositeY at h1
      rw [bind_eq_ok] at h1
      obtain ⟨⟨o, g'⟩, h1, -⟩ := h1
      unfold oppositeLabel at h1
      rw [bind_eq_ok] at h1
      obtain ⟨y1, -, h1⟩ := h1
      dsimp only at h1
      split at h1
      · cases h1
      · omega
  · dsimp only at h2
    have hp := env.shuffle_law g X.length
    have hl : (env.shuffle g X.length).1.length = X.length := by rw [hp.length_eq]; simp
    have hXl : 0 < X.length := List.length_pos_iff.2 hX
    cases hs : (env.shuffle g X.length).1 with
    | nil => rw [hs] at hl; simp at hl; omega
    | cons i is =>
      rw [hs, iter_cons, bind_eq_ok] at h2
      obtain ⟨s1, h2, -⟩ := h2
      simp only [bind_eq_ok] at h2
      obtain ⟨x, -, yi, -, oi, -, h2⟩ := h2
      unfold classifierUpdate at h2
      simp only [bind_eq_ok] at h2
      obtain ⟨_, -, _, -, _, -, _, -, _, -, _, -, _, -, _, -, r, h2, -⟩ := h2
      unfold classifierFeedback at h2
      rw [bind_eq_ok] at h2
      obtain ⟨t2, h2, -⟩ := h2
      rw [i32_eq_ok] at h2
      omega

theorem fitClassifierOnline_ok {B : Backend} {env : Env} {sc : Sched} {cfg : Cfg} (_hkind : cfg.kind = .classifier)
    {st : EstState B env} (hr : Reads st.params cfg) {labels : Nat}
    (hl : st.params.get? "number_of_labels" = some (.int labels)) {X : List B.Sample}
    {y : List Int} {ep : Nat} {r : EstState B env × Status} (hX : X ≠ []) (hy : y ≠ [])
    (h : fitClassifierOnline B env sc st X y ep = .ok r) :
    ep = 0 ∨ (2 ≤ labels ∧ cfg.T * 2 ≤ 2147483647) := by
  cases ep with
  | zero => exact .inl rfl
  | succ ep =>
    right
    have hlab : st.params.numberOfLabels = .ok (labels : Int) := Params.getInt_eq hl
    unfold fitClassifierOnline at h
    rw [hlab, ok_bind, bind_eq_ok] at h
    obtain ⟨k, -, h⟩ := h
    rw [hr.p_T, ok_bind] at h
    simp only [bind_eq_ok] at h
    obtain ⟨_, -, _, -, _, -, _, -, _, -, _, -, _, -, s, h, -⟩ := h
    rw [List.range_succ_eq_map, iter_cons, bind_eq_ok] at h
    obtain ⟨s1, h, -⟩ := h
    have := classifierEpoch_ok hX hy h
    dsimp only at this
    omega

theorem initializeState_ok {B : Backend} (L : Lawful B) {env : Env} {cfg : Cfg} (hv : Valid cfg)
    {st st' : EstState B env} {labels nf : Nat} (hr : Reads st.params cfg)
    (hl : cfg.kind = .classifier → st.params.get? "number_of_labels" = some (.int labels))
    (hf : st.params.get? "number_of_features" = some (.int nf))
    (hreg : cfg.kind = .regressor → labels = 1)
    (h : initializeState B env cfg.kind st = .ok st') :
    (labels : Int) * cfg.clauses ≤ 2147483647 ∧ L.Alloc cfg.ct (2 * (labels * cfg.k)) nf ∧
      st'.params = st.params := by
  have h2 := hv.two_k
  have hlk : (labels : Int) * cfg.clauses = ((2 * (labels * cfg.k) : Nat) : Int) := by
    rw [← h2]; push_cast; rw [← Int.mul_assoc, Int.mul_comm (labels : Int) 2, Int.mul_assoc]
  have hfeat : st.params.numberOfFeatures = .ok (nf : Int) := Params.getInt_eq hf
  unfold initializeState at h
  rw [hr.p_verbose, ok_bind, hr.p_seed, ok_bind, bind_eq_ok] at h
  obtain ⟨_, -, h⟩ := h
  rw [hr.p_states, ok_bind, bind_eq_ok] at h
  obtain ⟨c, hc, h⟩ := h
  rw [bind_eq_ok] at h
  obtain ⟨o, ho, h⟩ := h
  rw [hfeat, ok_bind, hr.p_ctype, ok_bind, hr.p_weighted, ok_bind, bind_eq_ok] at h
  obtain ⟨⟨m, g⟩, hm, h⟩ := h
  rw [bind_eq_ok] at h
  obtain ⟨ca, hca, h⟩ := h
  have hcc : c = ((2 * (labels * cfg.k) : Nat) : Int) ∧ (labels : Int) * cfg.clauses ≤ 2147483647 := by
    cases hk : cfg.kind with
    | classifier =>
      rw [hk] at hc
      have hc : st.params.physicalClassifierClauses = .ok c := hc
      have hlab : st.params.numberOfLabels = .ok (labels : Int) := Params.getInt_eq (hl hk)
      unfold Params.physicalClassifierClauses at hc
      rw [hlab, ok_bind, hr.p_clausesC hk, ok_bind, i32_eq_ok] at hc
      exact ⟨by rw [← hlk]; exact hc.2.symm, hc.1.2⟩
    | regressor =>
      rw [hk] at hc
      have hc : st.params.physicalRegressorClauses = .ok c := hc
      rw [hr.p_clausesR hk] at hc
      cases hc
      have := hv.clausesMax
      rw [← hlk, hreg hk]
      exact ⟨by simp, by omega⟩
  refine ⟨hcc.2, ?_, by cases h; rfl⟩
  rw [hcc.1, Int.toNat_natCast, Int.toNat_natCast] at hm
  apply Classical.byContradiction
  intro hna
  exact L.init_alloc hna _ hm

theorem fitClassifier_sized {B : Backend} (L : Lawful B) {env : Env} {sc : Sched} {cfg : Cfg} (hv : Valid cfg)
    (hkind : cfg.kind = .classifier) {X : List B.Sample} {y : List Int} {ml : Int} {ep : Nat} (ht : Typed L X y)
    {st : EstState B env} {ss : SState env} (hsim : Sim L cfg st ss) {r : EstState B env × Status}
    (h : fitClassifier B env sc st X y ml ep = .ok r) :
    (XyOk L X y → ∀ v ∈ y, v < 2147483647) ∧
      (XyOk L X y → (∀ v ∈ y, 0 ≤ v) → Sized L cfg X y ml ep) := by
  unfold fitClassifier at h
  obtain ⟨s1, e1, k1⟩ := checkXy_ok L X y ht.xs
  rw [e1, ok_bind] at h
  have hym : XyOk L X y → ∀ v ∈ y, v < 2147483647 := by
    intro hxy v hv'
    rw [if_neg (by simpa using k1.2 hxy)] at h
    obtain ⟨m, em, m1, m2, m3⟩ := maxElem_ret hxy.yne
    rw [em, ok_bind, bind_eq_ok] at h
    obtain ⟨h1, h2, h3⟩ := h
    rw [i32_eq_ok] at h2
    have := m2 v hv'
    omega
  refine ⟨hym, fun hxy hy0 => ?_⟩
  rw [if_neg (by simpa using k1.2 hxy)] at h
  obtain ⟨m, em, m1, m2, m3⟩ := maxElem_ret hxy.yne
  obtain ⟨s2, e2, k2⟩ := checkLabels_ok hxy.yne
  have hm1 := ht.ys m m1
  have hm2 := hym hxy m m1
  rw [em, ok_bind, i32_ok (by omega) (by omega), ok_bind] at h
  dsimp only at h
  rw [e2, ok_bind, if_neg (by simpa using k2.2 hy0)] at h
  obtain ⟨n1, n2, n3⟩ := numLabels_spec hxy.yne hy0 ml
  have hmax : max (m + 1) ml = (numLabels y ml : Int) := by rw [n1, m3]
  rw [hmax] at h
  cases hXe : X with
  | nil => exact absurd hXe hxy.ne
  | cons x0 rest =>
    rw [hXe] at h
    dsimp only at h
    rw [← hXe] at h ⊢
    have hw : width B X = B.size x0 := by rw [hXe]; rfl
    rw [← hw] at h
    generalize hp' : (st.params.set "number_of_labels" (.int (numLabels y ml : Int))).set
        "number_of_features" (.int (width B X)) = p' at h
    have hr := ((hsim.reads.set (.int (numLabels y ml : Int)) (.inl rfl)).set (.int (width B X : Int)) (.inr rfl))
    rw [hp'] at hr
    have hl : p'.get? "number_of_labels" = some (.int (numLabels y ml : Int)) := by
      rw [← hp', Params.get?_set_ne _ (by decide), Params.get?_set_self]
    have hf : p'.get? "number_of_features" = some (.int (width B X : Int)) := by
      rw [← hp']; exact Params.get?_set_self _ _ _
    rw [bind_eq_ok] at h
    obtain ⟨st1, h1, h2⟩ := h
    rw [← hkind] at h1
    obtain ⟨q1, q2, q3⟩ := initializeState_ok L hv (st := { st with params := p' })
      (labels := numLabels y ml) (nf := width B X) hr (fun _ => hl) hf
      (fun hk => by rw [hkind] at hk; cases hk) h1
    exact ⟨hym hxy, q1, q2, fitClassifierOnline_ok hkind (by rw [q3]; exact hr) (by rw [q3]; exact hl)
      hxy.ne hxy.yne h2⟩

theorem partialFitClassifier_sized {B : Backend} (L : Lawful B) {env : Env} {sc : Sched} {cfg : Cfg}
    (hv : Valid cfg) (hkind : cfg.kind = .classifier) {X : List B.Sample} {y : List Int} {ml : Int} {ep : Nat}
    (ht : Typed L X y) {st : EstState B env} {ss : SState env} (hsim : Sim L cfg st ss)
    {r : EstState B env × Status} (h : partialFitClassifier B env sc st X y ml ep = .ok r) :
    PSized L cfg ss.shape X y ml ep := by
  unfold partialFitClassifier at h
  rcases hsim with hs | ⟨labels, nf, hs⟩
  · rw [if_neg (by simp [hs.fitted])] at h
    rw [hs.shape]
    exact fitClassifier_sized L hv hkind ht (.inl hs) h
  · rw [if_pos (hs.fitted hv)] at h
    rw [hs.shape]
    intro hxy hw hy
    unfold fitClassifierOnlineChecked at h
    obtain ⟨s1, e1, k1⟩ := checkXy_ok L X y ht.xs
    rw [e1, ok_bind, if_neg (by simpa using k1.2 hxy)] at h
    have hfeat : st.params.numberOfFeatures = .ok (nf : Int) := Params.getInt_eq hs.featP
    have hlab : st.params.numberOfLabels = .ok (labels : Int) := Params.getInt_eq (hs.labelsP hkind)
    obtain ⟨s2, e2, k2⟩ := checkX_ok L hxy (nf := nf)
    obtain ⟨s3, e3, k3⟩ := checkLabelsMax_ok hxy.yne labels
    have hls := hs.labels_small hv
    rw [hfeat, ok_bind, e2, ok_bind, if_neg (by simpa using k2.2 hw), hlab, ok_bind,
      i32_ok (by omega) (by omega), ok_bind, e3, ok_bind, if_neg (by simpa using k3.2 hy)] at h
    exact fitClassifierOnline_ok hkind hs.reads (hs.labelsP hkind) hxy.ne hxy.yne h

theorem fitRegressor_sized {B : Backend} (L : Lawful B) {env : Env} {sc : Sched} {cfg : Cfg} (hv : Valid cfg)
    (hkind : cfg.kind = .regressor) {X : List B.Sample} {y : List Int} {ep : Nat} (ht : Typed L X y)
    {st : EstState B env} {ss : SState env} (hsim : Sim L cfg st ss) {r : EstState B env × Status}
    (h : fitRegressor B env sc st X y ep = .ok r) :
    XyOk L X y → (∀ v ∈ y, 0 ≤ v ∧ v ≤ cfg.T) → L.Alloc cfg.ct (2 * cfg.k) (width B X) := by
  intro hxy hy
  unfold fitRegressor at h
  obtain ⟨s1, e1, k1⟩ := checkXy_ok L X y ht.xs
  rw [e1, ok_bind, if_neg (by simpa using k1.2 hxy), hsim.reads.p_T, ok_bind] at h
  dsimp only at h
  rw [if_neg (by simpa using (checkResponseY_ok _ _).2 hy)] at h
  cases hXe : X with
  | nil => exact absurd hXe hxy.ne
  | cons x0 rest =>
    rw [hXe] at h
    dsimp only at h
    rw [← hXe] at h ⊢
    have hw : width B X = B.size x0 := by rw [hXe]; rfl
    rw [← hw, bind_eq_ok] at h
    obtain ⟨st1, h1, h2⟩ := h
    rw [← hkind] at h1
    have hr := (hsim.reads.set (.int (width B X : Int)) (.inr rfl))
    obtain ⟨q1, q2, q3⟩ := initializeState_ok L hv
      (labels := 1) (nf := width B X) hr (fun hk => by rw [hkind] at hk; cases hk)
      (Params.get?_set_self _ _ _) (fun _ => rfl) h1
    rw [Nat.one_mul] at q2
    exact q2

theorem partialFitRegressor_sized {B : Backend} (L : Lawful B) {env : Env} {sc : Sched} {cfg : Cfg} (hv : Valid cfg)
    (hkind : cfg.kind = .regressor) {X : List B.Sample} {y : List Int} {ep : Nat} (ht : Typed L X y)
    {st : EstState B env} {ss : SState env} (hsim : Sim L cfg st ss) {r : EstState B env × Status}
    (h : partialFitRegressor B env sc st X y ep = .ok r) : PSizedR L cfg ss.shape X y := by
  intro hsh
  unfold partialFitRegressor at h
  rcases hsim with hs | ⟨labels, nf, hs⟩
  · rw [if_neg (by simp [hs.fitted])] at h
    exact fitRegressor_sized L hv hkind ht (.inl hs) h
  · rw [hs.shape] at hsh; cases hsh

end Tsetlini
