import Verif.Lemmas.Step
/- Epochs of the abstract estimator do what the specification says. -/
namespace Tsetlini
open Res Spec

theorem filterMap_range {α : Type} (l : List α) : (List.range l.length).filterMap (fun i => l[i]?) = l := by
  induction l with
  | nil => rfl
  | cons a l ih =>
    rw [List.length_cons, List.range_succ_eq_map, List.filterMap_cons]
    simp only [List.getElem?_cons_zero, List.filterMap_map]
    congr 1

theorem filterMap_perm {α : Type} {l : List α} {ix : List Nat} {n : Nat} (h : ix.Perm (List.range n)) (hn : l.length = n) :
    (ix.filterMap fun i => l[i]?).Perm l := by
  subst hn
  have := h.filterMap (fun i => l[i]?)
  rwa [filterMap_range] at this

/-- A loop as a chain of steps. -/
theorem iter_chain {ι κ σ τ : Type} {f : ι → σ → Res σ} {obs : σ → τ} {P : σ → Prop} {R : κ → τ → τ → Prop} {key : ι → Option κ}
    {l : List ι} (hf : ∀ i ∈ l, ∀ s s', P s → f i s = .ok s' → P s' ∧ ∃ p, key i = some p ∧ R p (obs s) (obs s'))
    {s s' : σ} (hs : P s) (h : iter l f s = .ok s') : P s' ∧ Chain R (l.filterMap key) (obs s) (obs s') := by
  induction l generalizing s with
  | nil => cases h; exact ⟨hs, .nil⟩
  | cons i l ih =>
    rw [iter_cons, bind_eq_ok] at h
    obtain ⟨s1, h1, h2⟩ := h
    obtain ⟨p1, p, hp, hr⟩ := hf i (by simp) _ _ hs h1
    obtain ⟨q1, q2⟩ := ih (fun i hi => hf i (by simp [hi])) p1 h2
    refine ⟨q1, ?_⟩
    rw [List.filterMap_cons, hp]
    exact .cons hr q2

theorem Chain.mono {ι σ : Type} {R R' : ι → σ → σ → Prop} (h : ∀ i s s', R i s s' → R' i s s') {l : List ι} {s s' : σ}
    (hc : Chain R l s s') : Chain R' l s s' := by
  induction hc with
  | nil => exact .nil
  | cons hr _ ih => exact .cons (h _ _ _ hr) ih

variable {a : Algo} {env : Env} {cfg : Cfg} {labels nf : Nat}

theorem epochS_spec (hv : Valid cfg) (hT2 : cfg.T * 2 ≤ 2147483647) (hl2 : 2 ≤ labels) (hn : nf ≤ 2147483647)
    (hsm : labels * cfg.k ≤ 1073741823) {X : List a.Sample} {y : List Int} (hd : DataOk a.lawful labels nf X y)
    {s s' : SState env} (hlen : s.clauses.length = labels * cfg.k)
    (h : epochS a.lawful env cfg labels nf X y s = .ok s') :
    s'.clauses.length = labels * cfg.k ∧ Epoch a env cfg.settings nf labels X y s.learned s'.learned := by
  have hlab : labels ≤ 2147483647 := by
    have := Nat.le_mul_of_pos_right labels hv.k_pos
    omega
  unfold epochS at h
  rw [bind_eq_ok] at h
  obtain ⟨r, h1, h2⟩ := h
  obtain ⟨r', e1, e2⟩ := generateOppositeY_ret env hl2 hlab y hd.ys s.igen
  rw [h1] at e1
  have e1 := (Res.ok.inj e1).symm
  subst e1
  have hperm := env.shuffle_law r'.2 X.length
  obtain ⟨g1, g2⟩ := iter_chain (obs := SState.learned) (P := fun s : SState env => s.clauses.length = labels * cfg.k)
    (key := fun i => (X.zip y)[i]?)
    (R := fun p m m' => ∃ t o : Nat, p.2 = (t : Int) ∧ t < labels ∧ o < labels ∧ o ≠ t ∧ Step a env cfg.settings nf (a.bits p.1) t o m m')
    (by
      intro i hi s s' hs hf
      rw [hperm.mem_iff, List.mem_range] at hi
      have hiy : i < y.length := by rw [hd.len]; exact hi
      have hio : i < r'.1.length := by rw [e2.1]; exact hiy
      rw [rd_ok hi, ok_bind, rd_ok hiy, ok_bind, rd_ok hio, ok_bind] at hf
      obtain ⟨t, o, et, eo, ht, ho, hto⟩ := e2.2 i _ _ (List.getElem?_eq_getElem hiy) (List.getElem?_eq_getElem hio)
      rw [et, eo, Int.toNat_natCast, Int.toNat_natCast, lawful_bits] at hf
      have := updateS_spec hv hT2 hn ht ho hto hs hsm hf
      refine ⟨this.sizes.1.trans hs, (X[i], y[i]), ?_, t, o, et, ht, ho, hto, this⟩
      rw [List.getElem?_eq_getElem (by rw [List.length_zip]; omega), List.getElem_zip]) (by exact hlen) h2
  exact ⟨g1, _, filterMap_perm hperm (by rw [List.length_zip, hd.len, Nat.min_self]), g2⟩

/-! ### Regressor -/

theorem feedbackHits_le {bm : Bool} {n : Nat} {p : Fl} {g : env.G} {r} (h : feedbackHits env bm n p g = .ok r) :
    r.1 ≤ n := by
  unfold feedbackHits binomial at h
  dsimp only at h
  split at h
  · split at h
    · split at h
      · rw [bind_eq_ok] at h
        obtain ⟨q, -, h⟩ := h
        cases h; exact Nat.min_le_right _ _
      · cases h
    · cases h
  · split at h
    · split at h
      · rw [bind_eq_ok] at h
        obtain ⟨q, -, h⟩ := h
        cases h; exact Nat.min_le_right _ _
      · cases h; exact Nat.min_le_right _ _
    · cases h
    · cases h; exact Nat.zero_le _

theorem regUpdateS_picks (hv : Valid cfg) (hn : nf ≤ 2147483647) {x : List Bool} {y : Int} {s s' : SState env}
    (hlen : s.clauses.length = cfg.k) (h : regUpdateS a.lawful env cfg nf x y s = .ok s') :
    let r := response (outAt s.clauses x) s.weights cfg.k cfg.T
    ∃ g' picks, feedbackHits env cfg.boxMuller cfg.k (lossVal env cfg.loss cfg.C1 (env.rnd (env.rnd (r - y : Int) / env.rnd cfg.T)))
        s.igen = .ok (picks.length, g') ∧ (∀ i ∈ picks, i < cfg.k) ∧
      Chain (fun i m m' => (∀ j, j ≠ i → m'.at j = m.at j) ∧
          (m'.clauses.length = m.clauses.length ∧ m'.weights.length = m.weights.length) ∧
          (r < y → TypeI a env cfg.settings nf x (outAt s.clauses x i) (m.at i) (m'.at i)) ∧
          (y < r → TypeII x (outAt s.clauses x i) (m.at i) (m'.at i)) ∧ (r = y → m' = m)) picks s.learned s'.learned := by
  unfold regUpdateS at h
  dsimp only at h
  rw [hlen, bind_eq_ok] at h
  obtain ⟨⟨hits, g⟩, h1, h2⟩ := h
  dsimp only at h2 ⊢
  generalize he : response (outAt s.clauses x) s.weights cfg.k cfg.T = r at h1 h2 ⊢
  have key : ∀ (n : Nat) (l : List Nat) (s0 s1 : SState env), l.length = n →
      iter l (fun _ (ss : SState env) =>
        let (d, g) := env.next ss.igen
        if r - y < 0 then stepI a.lawful env cfg nf x (d.toNat % cfg.k) (outAt s.clauses x (d.toNat % cfg.k)) { ss with igen := g }
        else if r - y > 0 then stepII x (d.toNat % cfg.k) (outAt s.clauses x (d.toNat % cfg.k)) { ss with igen := g }
        else .ok { ss with igen := g }) s0 = .ok s1 →
      ∃ picks : List Nat, picks.length = n ∧ (∀ i ∈ picks, i < cfg.k) ∧
        Chain (fun i m m' => (∀ j, j ≠ i → m'.at j = m.at j) ∧
          (m'.clauses.length = m.clauses.length ∧ m'.weights.length = m.weights.length) ∧
          (r < y → TypeI a env cfg.settings nf x (outAt s.clauses x i) (m.at i) (m'.at i)) ∧
          (y < r → TypeII x (outAt s.clauses x i) (m.at i) (m'.at i)) ∧ (r = y → m' = m)) picks s0.learned s1.learned := by
    intro n
    induction n with
    | zero =>
      intro l s0 s1 hl h
      obtain rfl := List.length_eq_zero_iff.1 hl
      cases h
      exact ⟨[], rfl, by simp, .nil⟩
    | succ n ih =>
      intro l s0 s1 hl h
      cases l with
      | nil => cases hl
      | cons j l =>
        rw [iter_cons, bind_eq_ok] at h
        obtain ⟨s2, h1, h2⟩ := h
        obtain ⟨ps, p1, p2, p3⟩ := ih l s2 s1 (by simpa using hl) h2
        refine ⟨((env.next s0.igen).1.toNat % cfg.k) :: ps, by simp [p1], ?_, .cons ?_ p3⟩
        · intro i hi
          rcases List.mem_cons.1 hi with rfl | hi
          · exact Nat.mod_lt _ hv.k_pos
          · exact p2 i hi
        · dsimp only at h1
          split at h1
          · rename_i hlt
            obtain ⟨k1, k2, -⟩ := stepI_spec hv hn h1
            exact ⟨k1.rest, k1.sizes, fun _ => k2, fun h => absurd h (by omega), fun h => absurd h (by omega)⟩
          · split at h1
            · rename_i hlt hgt
              obtain ⟨k1, k2, -⟩ := stepII_spec h1
              exact ⟨k1.rest, k1.sizes, fun h => absurd h (by omega), fun _ => k2, fun h => absurd h (by omega)⟩
            · rename_i hlt hgt
              cases h1
              exact ⟨fun _ _ => rfl, ⟨rfl, rfl⟩, fun h => absurd h (by omega), fun h => absurd h (by omega), fun _ => rfl⟩
  obtain ⟨ps, p1, p2, p3⟩ := key hits _ _ _ (List.length_range (n := hits)) h2
  exact ⟨g, ps, by rw [p1]; exact h1, p2, p3⟩

theorem regUpdateS_spec (hv : Valid cfg) (hn : nf ≤ 2147483647) {x : List Bool} {y : Int} {s s' : SState env}
    (hlen : s.clauses.length = cfg.k) (h : regUpdateS a.lawful env cfg nf x y s = .ok s') :
    s'.clauses.length = cfg.k ∧ StepR a env cfg.settings nf x y s.learned s'.learned := by
  obtain ⟨g', ps, p1, p2, p3⟩ := regUpdateS_picks hv hn hlen h
  have hle := feedbackHits_le p1
  dsimp only at hle p3
  generalize he : response (outAt s.clauses x) s.weights cfg.k cfg.T = r at p3
  have hsz : ∀ {ps : List Nat} {m m' : Learned}, Chain (fun i m m' => (∀ j, j ≠ i → m'.at j = m.at j) ∧
          (m'.clauses.length = m.clauses.length ∧ m'.weights.length = m.weights.length) ∧
          (r < y → TypeI a env cfg.settings nf x (outAt s.clauses x i) (m.at i) (m'.at i)) ∧
          (y < r → TypeII x (outAt s.clauses x i) (m.at i) (m'.at i)) ∧ (r = y → m' = m)) ps m m' →
      m'.clauses.length = m.clauses.length ∧ (r = y → m' = m) := by
    intro ps m m' hc
    induction hc with
    | nil => exact ⟨rfl, fun _ => rfl⟩
    | cons hr _ ih => exact ⟨ih.1.trans hr.2.1.1, fun h => (ih.2 h).trans (hr.2.2.2.2 h)⟩
  have hs := hsz p3
  refine ⟨hs.1.trans hlen, ?_⟩
  unfold StepR
  dsimp only
  rw [show cfg.settings.k = cfg.k from rfl, show cfg.settings.threshold = cfg.T from rfl,
    show s.learned.clauses = s.clauses from rfl, show s.learned.weights = s.weights from rfl, he]
  exact ⟨hs.2, ps, by omega, p2, p3⟩

theorem regEpochS_spec (hv : Valid cfg) (hn : nf ≤ 2147483647)
    {X : List a.Sample} {y : List Int} (hd : RegDataOk a.lawful cfg.T nf X y)
    {s s' : SState env} (hlen : s.clauses.length = cfg.k) (h : regEpochS a.lawful env cfg nf X y s = .ok s') :
    s'.clauses.length = cfg.k ∧ EpochR a env cfg.settings nf X y s.learned s'.learned := by
  unfold regEpochS at h
  have hperm := env.shuffle_law s.igen X.length
  obtain ⟨g1, g2⟩ := iter_chain (obs := SState.learned) (P := fun s : SState env => s.clauses.length = cfg.k)
    (key := fun i => (X.zip y)[i]?)
    (R := fun p m m' => StepR a env cfg.settings nf (a.bits p.1) p.2 m m')
    (by
      intro i hi s s' hs hf
      rw [hperm.mem_iff, List.mem_range] at hi
      have hiy : i < y.length := by rw [hd.len]; exact hi
      rw [rd_ok hi, ok_bind, rd_ok hiy, ok_bind, lawful_bits] at hf
      obtain ⟨k1, k2⟩ := regUpdateS_spec hv hn hs hf
      refine ⟨k1, (X[i], y[i]), ?_, k2⟩
      rw [List.getElem?_eq_getElem (by rw [List.length_zip]; omega), List.getElem_zip]) (by exact hlen) h
  exact ⟨g1, _, filterMap_perm hperm (by rw [List.length_zip, hd.len, Nat.min_self]), g2⟩

/-! ### Shapes -/

theorem trainS_shape (hv : Valid cfg) (hn : nf ≤ 2147483647) {x : List Bool} {fb : List Int} {out : Nat → Bool} {p q : Nat} {s s' : SState env}
    (h : trainS a.lawful env cfg nf x fb out p q s = .ok s') : s'.shape = s.shape := by
  unfold trainS at h
  refine iter_frame SState.shape (fun i hi s s' hs => ?_) h
  rw [bind_eq_ok] at hs
  obtain ⟨f, hf, hs⟩ := hs
  split at hs
  · exact (stepI_spec hv hn hs).2.2.1
  · split at hs
    · exact (stepII_spec hs).2.2.1
    · cases hs; rfl

theorem epochS_shape (hv : Valid cfg) (hn : nf ≤ 2147483647) {X : List a.Sample} {y : List Int} {s s' : SState env}
    (h : epochS a.lawful env cfg labels nf X y s = .ok s') : s'.shape = s.shape := by
  unfold epochS at h
  rw [bind_eq_ok] at h
  obtain ⟨r, h1, h2⟩ := h
  refine (iter_frame SState.shape (fun i hi s s' hs => ?_) h2).trans rfl
  simp only [bind_eq_ok] at hs
  obtain ⟨x, -, yi, -, oi, -, hs⟩ := hs
  unfold updateS at hs
  simp only [bind_eq_ok] at hs
  obtain ⟨fb, -, s1, e1, e2⟩ := hs
  rw [trainS_shape hv hn e2, trainS_shape hv hn e1]

theorem regEpochS_shape (hv : Valid cfg) (hn : nf ≤ 2147483647) {X : List a.Sample} {y : List Int} {s s' : SState env}
    (h : regEpochS a.lawful env cfg nf X y s = .ok s') : s'.shape = s.shape := by
  unfold regEpochS at h
  refine (iter_frame SState.shape (fun i hi s s' hs => ?_) h).trans rfl
  simp only [bind_eq_ok] at hs
  obtain ⟨x, -, yi, -, hs⟩ := hs
  unfold regUpdateS at hs
  dsimp only at hs
  rw [bind_eq_ok] at hs
  obtain ⟨r, -, hs⟩ := hs
  refine (iter_frame SState.shape (fun i hi s s' hs => ?_) hs).trans rfl
  split at hs
  · exact (stepI_spec hv hn hs).2.2.1
  · split at hs
    · exact (stepII_spec hs).2.2.1
    · cases hs; rfl

/-! ### Calls -/

theorem epochs_spec (hv : Valid cfg) {ep : Nat} (hn : nf ≤ 2147483647)
    (htr : ep = 0 ∨ (2 ≤ labels ∧ cfg.T * 2 ≤ 2147483647))
    (hsm : labels * cfg.k ≤ 1073741823) {X : List a.Sample} {y : List Int} (hd : DataOk a.lawful labels nf X y)
    {s s' : SState env} (hlen : s.clauses.length = labels * cfg.k)
    (h : iter (List.range ep) (fun _ ss => epochS a.lawful env cfg labels nf X y ss) s = .ok s') :
    s'.shape = s.shape ∧ Chain (fun (_ : Nat) => Epoch a env cfg.settings nf labels X y) (List.range ep) s.learned s'.learned := by
  refine ⟨iter_frame SState.shape (fun i hi s s' hs => epochS_shape hv hn hs) h, ?_⟩
  have := (iter_chain (obs := SState.learned) (P := fun s : SState env => s.clauses.length = labels * cfg.k) (key := some)
    (R := fun (_ : Nat) => Epoch a env cfg.settings nf labels X y) (by
      intro i hi s s' hs hf
      have hep : 2 ≤ labels ∧ cfg.T * 2 ≤ 2147483647 := by
        rcases htr with rfl | h
        · simp at hi
        · exact h
      obtain ⟨k1, k2⟩ := epochS_spec hv hep.2 hep.1 hn hsm hd hs hf
      exact ⟨k1, i, rfl, k2⟩) hlen h).2
  rwa [List.filterMap_some] at this

theorem regEpochs_spec (hv : Valid cfg) {ep : Nat} (hn : nf ≤ 2147483647)
    {X : List a.Sample} {y : List Int} (hd : RegDataOk a.lawful cfg.T nf X y)
    {s s' : SState env} (hlen : s.clauses.length = cfg.k)
    (h : iter (List.range ep) (fun _ ss => regEpochS a.lawful env cfg nf X y ss) s = .ok s') :
    s'.shape = s.shape ∧ Chain (fun (_ : Nat) => EpochR a env cfg.settings nf X y) (List.range ep) s.learned s'.learned := by
  refine ⟨iter_frame SState.shape (fun i hi s s' hs => regEpochS_shape hv hn hs) h, ?_⟩
  have := (iter_chain (obs := SState.learned) (P := fun s : SState env => s.clauses.length = cfg.k) (key := some)
    (R := fun (_ : Nat) => EpochR a env cfg.settings nf X y) (by
      intro i hi s s' hs hf
      obtain ⟨k1, k2⟩ := regEpochS_spec hv hn hd hs hf
      exact ⟨k1, i, rfl, k2⟩) hlen h).2
  rwa [List.filterMap_some] at this

theorem initClauses_untrained (env : Env) (nf n : Nat) (g : env.G) (ws : List Nat) :
    Untrained n nf ⟨(initClauses env nf n g).1, ws⟩ := by
  refine ⟨initClauses_length env nf n g, ?_⟩
  intro c hc
  have := initClauses_wf env (N := 1) (by omega) nf n g c hc
  refine ⟨this.posLen, this.negLen, fun v hv => ?_⟩
  rcases hv with hv | hv
  · have := this.posRange v hv; omega
  · have := this.negRange v hv; omega

end Tsetlini
