import Verif.Spec.Training
import Verif.Lemmas.Observe
/- Training steps of the abstract estimator do what the specification says. -/
namespace Tsetlini
open Res Spec

/-! ### How many literals are chosen -/

theorem make_thr {env : Env} {q : Rat} {n : Nat} {ct : CoinTosser} (h : CoinTosser.make env (.fin q) n = .ok ct)
    (ht : ct.thr ≠ 0) :
    env.rnd (env.rnd (1 / q) * env.rnd n) ≠ (env.rnd (env.rnd (1 / q) * env.rnd n)).floor := by
  unfold CoinTosser.make at h
  dsimp only at h
  split at h
  · cases h
  · intro e
    simp only [bind_eq_ok] at h
    obtain ⟨hf, -, thr, h2, h3⟩ := h
    cases h3
    apply ht
    have z : env.rnd (env.rnd (1 / q) * env.rnd n) - ((env.rnd (env.rnd (1 / q) * env.rnd n)).floor : Rat) = 0 := by
      grind
    rw [z, rnd_zero, Rat.zero_mul, show env.rnd64 0 = 0 from rnd64_int env (m := 0) (by decide)] at h2
    have : toUnsigned ((roundHalfAway 0 : Int) : Rat) = .ok 0 := by decide +kernel
    rw [this] at h2
    cases h2; rfl

theorem ctNums_near (env : Env) {s : Rat} (hs : 1 ≤ s) {nf : Nat} (hn : nf ≤ 2147483647) (r : BitVec 32) :
    Near env s nf ((ctNums env s nf).1 + if r.toNat < (ctNums env s nf).2 then 1 else 0) := by
  obtain ⟨ct, h1, -, -, h3, -⟩ := make_ret env hs (n := nf) (by omega)
  have e : ctNums env s nf = (ct.hitsFloor, ct.thr) := by unfold ctNums; rw [h1]
  rw [e]
  unfold Near
  dsimp only
  split
  · refine .inr ⟨by push_cast; omega, make_thr h1 (by omega)⟩
  · exact .inl (by push_cast; omega)

theorem tosses_choice {env : Env} {s : Rat} (hs : 1 ≤ s) {nf : Nat} (hn : nf ≤ 2147483647) {ct : CoinTosser}
    (h1 : ct.hitsFloor = (ctNums env s nf).1) (h2 : ct.thr = (ctNums env s nf).2) (hz : nf = 0 → (ctNums env s nf).1 = 0 ∧ (ctNums env s nf).2 = 0)
    {cache : List Bool} (hc : cache.length = nf) {g : env.G} {r} (h : tosses env ct cache g = .ok r) :
    Choice env s nf r.1 := by
  have := tosses_post env ct cache g (by rw [hc, h1, h2]; exact hz)
  rw [h] at this
  obtain ⟨a, b⟩ := this
  refine ⟨a.trans hc, ?_⟩
  have hn := ctNums_near env hs hn (env.next g).1
  unfold marks CoinTosser.estimateHits at b
  rw [b]
  dsimp only
  rw [h1, h2]
  exact hn

theorem tossSpec_choice {env : Env} {s : Rat} (hs : 1 ≤ s) {nf : Nat} (hn : nf ≤ 2147483647)
    (hz : nf = 0 → (ctNums env s nf).1 = 0 ∧ (ctNums env s nf).2 = 0) {g : env.G} {r}
    (h : tossSpec env nf (ctNums env s nf).1 (ctNums env s nf).2 g = .ok r) :
    Choice env s nf r.1 ∧ Choice env s nf r.2.1 := by
  unfold tossSpec tossBoth at h
  split at h
  · simp only [bind_eq_ok] at h
    obtain ⟨⟨ct, g'⟩, ⟨⟨c2, g2⟩, e1, ⟨c1, g1⟩, e2, e3⟩, e4⟩ := h
    cases e3; cases e4
    have k1 := tosses_choice hs hn rfl rfl hz List.length_replicate e1
    have k2 := tosses_choice hs hn rfl rfl hz List.length_replicate e2
    exact ⟨k2, k1⟩
  · simp only [bind_eq_ok] at h
    obtain ⟨⟨ct, g'⟩, ⟨⟨c2, g2⟩, e1, ⟨c1, g1⟩, e2, e3⟩, e4⟩ := h
    cases e3; cases e4
    have k1 := tosses_choice hs hn rfl rfl hz List.length_replicate e1
    have k2 := tosses_choice hs hn rfl rfl hz List.length_replicate e2
    exact ⟨k1, k2⟩

/-! ### One clause -/

/-- The settings of a configuration. -/
def Cfg.settings (c : Cfg) : Settings := ⟨c.states, c.maxWeight, c.T, c.boost != 0, c.s, c.k⟩

theorem sparseSpec_picks (env : Env) {N : Int} {nf : Nat} (hits : Nat) (hz : nf = 0 → hits = 0) (c : Clause) (g : env.G) :
    ∃ picks : List (Nat × Nat), picks.length = hits ∧ (∀ p ∈ picks, p.1 < nf ∧ p.2 < nf) ∧
      (sparseSpec env N nf hits c g).1 = picks.foldl (fun c p => c.weakenAt N p.1 p.2) c := by
  induction hits generalizing c g with
  | zero => exact ⟨[], rfl, by simp, rfl⟩
  | succ h ih =>
    have hp : 0 < nf := by
      rcases Nat.eq_zero_or_pos nf with h0 | h0
      · exact absurd (hz h0) (by omega)
      · exact h0
    obtain ⟨ps, p1, p2, p3⟩ := ih (fun h0 => by omega)
      (c.weakenAt N ((env.next g).1.toNat % nf) ((env.next (env.next g).2).1.toNat % nf)) (env.next (env.next g).2).2
    refine ⟨((env.next g).1.toNat % nf, (env.next (env.next g).2).1.toNat % nf) :: ps, by simp [p1], ?_, ?_⟩
    · intro p hp'
      rcases List.mem_cons.1 hp' with rfl | h'
      · exact ⟨Nat.mod_lt _ hp, Nat.mod_lt _ hp⟩
      · exact p2 p h'
    · unfold sparseSpec
      exact p3

theorem weakened_of {a : Algo} {env : Env} {cfg : Cfg} (hv : Valid cfg) {nf : Nat} (hn : nf ≤ 2147483647)
    {c : Clause} {g : env.G} {r}
    (h : a.lawful.specINeg env cfg.states nf (ctNums env cfg.s nf).1 (ctNums env cfg.s nf).2 c g = .ok r) :
    Weakened a env cfg.settings nf c r.1 := by
  have hz := ctNums_zero env hv nf
  cases a with
  | classic =>
    have h : (tossSpec env nf (ctNums env cfg.s nf).1 (ctNums env cfg.s nf).2 g).bind
      (fun s => .ok (c.weaken cfg.states s.1 s.2.1, s.2.2)) = .ok r := h
    rw [bind_eq_ok] at h
    obtain ⟨s, h1, h2⟩ := h
    cases h2
    obtain ⟨k1, k2⟩ := tossSpec_choice hv.s hn hz h1
    exact ⟨_, _, k1, k2, rfl⟩
  | bitwise =>
    have h : Res.ok (sparseSpec env cfg.states nf ((ctNums env cfg.s nf).1 +
      (if (env.next g).1.toNat < (ctNums env cfg.s nf).2 then 1 else 0)) c (env.next g).2) = .ok r := h
    have h := Res.ok.inj h
    subst h
    obtain ⟨ps, p1, p2, p3⟩ := sparseSpec_picks env (N := cfg.states) (nf := nf)
      ((ctNums env cfg.s nf).1 + (if (env.next g).1.toNat < (ctNums env cfg.s nf).2 then 1 else 0))
      (fun h0 => by obtain ⟨z1, z2⟩ := hz h0; simp [z1, z2]) c (env.next g).2
    refine ⟨ps, ?_, p2, p3⟩
    rw [p1]
    exact ctNums_near env hv.s hn _

/-- The clauses and weights of the abstract estimator. -/
def SState.learned {env : Env} (ss : SState env) : Learned := ⟨ss.clauses, ss.weights⟩

theorem at_eq {m m' : Learned} {i : Nat} (h1 : m'.clauses[i]? = m.clauses[i]?) (h2 : m'.weights[i]? = m.weights[i]?) :
    m'.at i = m.at i := by unfold Learned.at; rw [h1, h2]

/-- Sizes stay and only clause `i` may change. -/
structure OnlyAt (i : Nat) (m m' : Learned) : Prop where
  sizes : m'.clauses.length = m.clauses.length ∧ m'.weights.length = m.weights.length
  rest : ∀ j, j ≠ i → m'.at j = m.at j

theorem incW_at (M : Int) (ws : List Nat) (i : Nat) : (incW M ws i)[i]? = ws[i]?.map (raise M) := by
  unfold incW raise
  rw [List.getElem?_modify]
  show Option.map _ _ = _
  congr 1
  funext w
  rw [if_pos rfl]
  split <;> rfl

theorem decW_at (ws : List Nat) (i : Nat) : (decW ws i)[i]? = ws[i]?.map (· - 1) := by
  unfold decW
  rw [List.getElem?_modify]
  show Option.map _ _ = _
  congr 1
  funext w
  rw [if_pos rfl]
  split <;> omega

theorem stepI_spec {a : Algo} {env : Env} {cfg : Cfg} (hv : Valid cfg) {nf : Nat} (hn : nf ≤ 2147483647)
    {x : List Bool} {i : Nat} {out : Bool} {s s' : SState env} (h : stepI a.lawful env cfg nf x i out s = .ok s') :
    OnlyAt i s.learned s'.learned ∧ TypeI a env cfg.settings nf x out (s.learned.at i) (s'.learned.at i) ∧
      s'.shape = s.shape ∧ s'.fgen = s.fgen := by
  unfold stepI at h
  rw [bind_eq_ok] at h
  obtain ⟨c, hc, h⟩ := h
  rw [rd_eq_ok] at hc
  have hi := (List.getElem?_eq_some_iff.1 hc).1
  dsimp only at h
  cases out with
  | false =>
    rw [if_pos rfl, bind_eq_ok] at h
    obtain ⟨r, h1, h2⟩ := h
    cases h2
    refine ⟨⟨⟨by simp [SState.learned], rfl⟩, fun j hj => at_eq ?_ rfl⟩, ⟨c, r.1, hc, ?_, ?_⟩, rfl, rfl⟩
    · exact List.getElem?_set_ne (Ne.symm hj)
    · exact List.getElem?_set_self hi
    · rw [if_neg (by simp)]
      exact ⟨weakened_of hv hn h1, rfl⟩
  | true =>
    rw [if_neg (by simp), bind_eq_ok] at h
    obtain ⟨r, h1, h2⟩ := h
    cases h2
    obtain ⟨k1, k2⟩ := tossSpec_choice hv.s hn (ctNums_zero env hv nf) h1
    refine ⟨⟨⟨by simp [SState.learned], by simp [SState.learned, incW]⟩, fun j hj => at_eq ?_ ?_⟩, ⟨c, _, hc, List.getElem?_set_self hi, ?_⟩, rfl, rfl⟩
    · exact List.getElem?_set_ne (Ne.symm hj)
    · exact List.getElem?_modify_ne _ _ (Ne.symm hj)
    · rw [if_pos rfl]
      exact ⟨⟨_, _, k1, k2, rfl⟩, incW_at _ _ _⟩

theorem stepII_spec {env : Env} {x : List Bool} {i : Nat} {out : Bool} {s s' : SState env} (h : stepII x i out s = .ok s') :
    OnlyAt i s.learned s'.learned ∧ TypeII x out (s.learned.at i) (s'.learned.at i) ∧
      s'.shape = s.shape ∧ s'.fgen = s.fgen := by
  unfold stepII at h
  rw [bind_eq_ok] at h
  obtain ⟨c, hc, h⟩ := h
  rw [rd_eq_ok] at hc
  have hi := (List.getElem?_eq_some_iff.1 hc).1
  cases out with
  | false =>
    cases h
    exact ⟨⟨⟨rfl, rfl⟩, fun _ _ => rfl⟩, ⟨c, hc, rfl⟩, rfl, rfl⟩
  | true =>
    cases h
    refine ⟨⟨⟨by simp [SState.learned], by simp [SState.learned, decW]⟩, fun j hj => at_eq ?_ ?_⟩, ⟨c, hc, ?_⟩, rfl, rfl⟩
    · exact List.getElem?_set_ne (Ne.symm hj)
    · exact List.getElem?_modify_ne _ _ (Ne.symm hj)
    · rw [if_pos rfl]
      exact ⟨List.getElem?_set_self hi, decW_at _ _⟩

/-! ### One sample, classifier -/

/-- A loop whose iterations each touch only their own clause. -/
theorem iter_local {σ : Type} {obs : σ → Learned} {R : Nat → Option Clause × Option Nat → Option Clause × Option Nat → Prop}
    {f : Nat → σ → Res σ} {l : List Nat} (hl : l.Nodup)
    (hf : ∀ i ∈ l, ∀ s s', f i s = .ok s' → OnlyAt i (obs s) (obs s') ∧ R i ((obs s).at i) ((obs s').at i))
    {s s' : σ} (h : iter l f s = .ok s') :
    ((obs s').clauses.length = (obs s).clauses.length ∧ (obs s').weights.length = (obs s).weights.length) ∧
    (∀ i, i ∉ l → (obs s').at i = (obs s).at i) ∧ ∀ i ∈ l, R i ((obs s).at i) ((obs s').at i) := by
  induction l generalizing s with
  | nil => cases h; exact ⟨⟨rfl, rfl⟩, fun _ _ => rfl, by simp⟩
  | cons j l ih =>
    rw [iter_cons, bind_eq_ok] at h
    obtain ⟨s1, h1, h2⟩ := h
    rw [List.nodup_cons] at hl
    obtain ⟨a1, a2⟩ := hf j (by simp) _ _ h1
    obtain ⟨b1, b2, b3⟩ := ih hl.2 (fun i hi => hf i (by simp [hi])) h2
    refine ⟨⟨b1.1.trans a1.sizes.1, b1.2.trans a1.sizes.2⟩, fun i hi => ?_, fun i hi => ?_⟩
    · rw [List.mem_cons, not_or] at hi
      rw [b2 i hi.2, a1.rest i hi.1]
    · rcases List.mem_cons.1 hi with rfl | hi
      · rw [b2 i hl.1]; exact a2
      · have hne : i ≠ j := fun e => hl.1 (e ▸ hi)
        have := b3 i hi
        rw [a1.rest i hne] at this
        exact this

/-- Feedback `f` to a clause. -/
def Fed (a : Algo) (env : Env) (H : Settings) (n : Nat) (x : List Bool) (out : Bool) (f : Int)
    (u u' : Option Clause × Option Nat) : Prop :=
  if f ≥ 1 then TypeI a env H n x out u u' else if f ≤ -1 then TypeII x out u u' else u' = u

theorem iter_frame {ι σ α : Type} {f : ι → σ → Res σ} (obs : σ → α) {l : List ι} (hf : ∀ i ∈ l, ∀ s s', f i s = .ok s' → obs s' = obs s)
    {s s' : σ} (h : iter l f s = .ok s') : obs s' = obs s := by
  induction l generalizing s with
  | nil => cases h; rfl
  | cons j l ih =>
    rw [iter_cons, bind_eq_ok] at h
    obtain ⟨s1, h1, h2⟩ := h
    rw [ih (fun i hi => hf i (by simp [hi])) h2, hf j (by simp) _ _ h1]

theorem trainS_spec {a : Algo} {env : Env} {cfg : Cfg} (hv : Valid cfg) {nf : Nat} (hn : nf ≤ 2147483647)
    {x : List Bool} {fb : List Int} {out : Nat → Bool} {p q : Nat} {s s' : SState env}
    (h : trainS a.lawful env cfg nf x fb out p q s = .ok s') :
    (s'.clauses.length = s.clauses.length ∧ s'.weights.length = s.weights.length) ∧
    (∀ i, ¬ (p ≤ i ∧ i < q) → s'.learned.at i = s.learned.at i) ∧
    ∀ i, p ≤ i → i < q → ∃ f, fb[i]? = some f ∧ Fed a env cfg.settings nf x (out i) f (s.learned.at i) (s'.learned.at i) := by
  unfold trainS at h
  obtain ⟨h1, h2, h3⟩ := iter_local (obs := SState.learned)
    (R := fun i u u' => ∃ f, fb[i]? = some f ∧ Fed a env cfg.settings nf x (out i) f u u') (range_nodup p q) (by
      intro i hi s s' hs
      rw [bind_eq_ok] at hs
      obtain ⟨f, hf, hs⟩ := hs
      rw [rd_eq_ok] at hf
      split at hs
      · rename_i hf1
        obtain ⟨k1, k2, -⟩ := stepI_spec hv hn hs
        exact ⟨k1, f, hf, by unfold Fed; rw [if_pos hf1]; exact k2⟩
      · rename_i hf1
        split at hs
        · rename_i hf2
          obtain ⟨k1, k2, -⟩ := stepII_spec hs
          exact ⟨k1, f, hf, by unfold Fed; rw [if_neg hf1, if_pos hf2]; exact k2⟩
        · rename_i hf2
          cases hs
          exact ⟨⟨⟨rfl, rfl⟩, fun _ _ => rfl⟩, f, hf, by unfold Fed; rw [if_neg hf1, if_neg hf2]⟩) h
  exact ⟨h1, fun i hi => h2 i (by rw [mem_range]; exact hi), fun i a b => h3 i (by rw [mem_range]; exact ⟨a, b⟩)⟩

theorem fnext_pos (env : Env) (g : env.F) : 0 < (env.fnext g).1 := by
  obtain ⟨y, hy⟩ := env.fnext_law g
  rw [hy]
  unfold frngPost
  have h0 : 0 ≤ env.rnd ((y.toNat : Nat) : Rat) := rnd_nonneg env (by exact_mod_cast Nat.zero_le _)
  have hh : env.rnd (1 / 2) = 1 / 2 := by
    have := env.rnd_exact_law 1 1 (by decide) (by decide)
    simpa using this
  have h1 : 1 / 2 ≤ env.rnd (env.rnd ((y.toNat : Nat) : Rat) + 1 / 2) := by
    have := env.rnd_mono_law (1 / 2) (env.rnd ((y.toNat : Nat) : Rat) + 1 / 2) (by grind)
    rwa [hh] at this
  have he : env.rnd (1 / 8589934592) = 1 / 8589934592 := by
    have := env.rnd_exact_law 1 33 (by decide) (by decide)
    simpa using this
  have h2 := env.rnd_mono_law (1 / 8589934592) (env.rnd (env.rnd ((y.toNat : Nat) : Rat) + 1 / 2) * (1 / 4294967296)) (by grind)
  rw [he] at h2
  grind

theorem fbThr_zero (env : Env) (T : Int) : fbThr env T 0 = 0 := by
  unfold fbThr
  rw [show ((0 : Int) : Rat) = 0 from rfl, rnd_zero, Rat.mul_zero, rnd_zero]

theorem updateS_spec {a : Algo} {env : Env} {cfg : Cfg} (hv : Valid cfg) (hT2 : cfg.T * 2 ≤ 2147483647) {labels nf : Nat} (hn : nf ≤ 2147483647)
    {x : List Bool} {t o : Nat} (ht : t < labels) (ho : o < labels) (hto : o ≠ t) {s s' : SState env}
    (hlen : s.clauses.length = labels * cfg.k) (hsm : labels * cfg.k ≤ 1073741823)
    (h : updateS a.lawful env cfg nf x t o s = .ok s') :
    Step a env cfg.settings nf x t o s.learned s'.learned := by
  have htk := label_le (k := cfg.k) ht
  have hok := label_le (k := cfg.k) ho
  have hT1 := hv.T
  unfold updateS at h
  dsimp only at h
  rw [bind_eq_ok] at h
  obtain ⟨⟨fb, fg⟩, h1, h2⟩ := h
  rw [bind_eq_ok] at h2
  obtain ⟨s1, h2, h3⟩ := h2
  dsimp only at h2 h3
  have hS : ∀ l, -cfg.T ≤ score (outAt s.clauses x) s.weights cfg.k cfg.T l ∧ score (outAt s.clauses x) s.weights cfg.k cfg.T l ≤ cfg.T :=
    fun l => clampTo_range _ (by omega)
  obtain ⟨r, q1, q2, q3⟩ := classifierFeedback_ret env (fb := List.replicate s.clauses.length 0)
    (t := t) (o := o) (k := cfg.k) (tv := score (outAt s.clauses x) s.weights cfg.k cfg.T t)
    (ov := score (outAt s.clauses x) s.weights cfg.k cfg.T o) s.fgen
    (by rw [List.length_replicate, hlen]; exact htk) (by rw [List.length_replicate, hlen]; exact hok)
    (by rw [List.length_replicate, hlen]; omega) hv.T hT2 (hS t) (hS o)
  rw [h1] at q1
  have q1 := (Res.ok.inj q1).symm
  subst q1
  dsimp only at q2 q3
  obtain ⟨a1, a2, a3⟩ := trainS_spec hv hn h2
  obtain ⟨b1, b2, b3⟩ := trainS_spec hv hn h3
  have e0 : ∀ i, ({ s with fgen := fg } : SState env).learned.at i = s.learned.at i := fun _ => rfl
  simp only [e0] at a2 a3
  have disj : ∀ i, Owns cfg.k t i → ¬ Owns cfg.k o i := by
    rintro i ⟨u1, u2⟩ ⟨v1, v2⟩
    rw [← Nat.succ_mul] at u2 v2
    have w1 := Nat.lt_of_mul_lt_mul_right (Nat.lt_of_le_of_lt u1 v2)
    have w2 := Nat.lt_of_mul_lt_mul_right (Nat.lt_of_le_of_lt v1 u2)
    omega
  have nofb : ∀ {d : Int}, d = 0 → ¬ ∃ g', (env.fnext g').1 ≤ fbThr env cfg.T d := by
    rintro d rfl ⟨g', hg⟩
    rw [fbThr_zero] at hg
    have := fnext_pos env g'
    grind
  -- what happens to the clauses of the target
  have T1 : ∀ i, Owns cfg.k t i → s'.learned.at i = s.learned.at i ∨
      ((if i % 2 = 0 then TypeI a env cfg.settings nf x (outAt s.clauses x i) (s.learned.at i) (s'.learned.at i)
        else TypeII x (outAt s.clauses x i) (s.learned.at i) (s'.learned.at i)) ∧
        ∃ g', (env.fnext g').1 ≤ fbThr env cfg.T (cfg.T - score (outAt s.clauses x) s.weights cfg.k cfg.T t)) := by
    intro i hi
    obtain ⟨f, f1, f2⟩ := a3 i hi.1 hi.2
    rw [← b2 i (disj i hi)] at f2
    rcases q3 i f f1 with rfl | ⟨c1, c2, c3, c4⟩ | ⟨c1, c2, -, -⟩
    · left; exact f2
    · right
      refine ⟨?_, c4⟩
      unfold Fed at f2
      split
      · rename_i he; rw [if_pos he] at c3; subst c3
        simpa using f2
      · rename_i he; rw [if_neg he] at c3; subst c3
        simpa using f2
    · exact absurd ⟨c1, c2⟩ (disj i hi)
  have O1 : ∀ i, Owns cfg.k o i → s'.learned.at i = s.learned.at i ∨
      ((if i % 2 = 0 then TypeII x (outAt s.clauses x i) (s.learned.at i) (s'.learned.at i)
        else TypeI a env cfg.settings nf x (outAt s.clauses x i) (s.learned.at i) (s'.learned.at i)) ∧
        ∃ g', (env.fnext g').1 ≤ fbThr env cfg.T (cfg.T + score (outAt s.clauses x) s.weights cfg.k cfg.T o)) := by
    intro i hi
    obtain ⟨f, f1, f2⟩ := b3 i hi.1 hi.2
    have hnt : ¬ Owns cfg.k t i := fun hc => disj i hc hi
    rw [a2 i hnt] at f2
    rcases q3 i f f1 with rfl | ⟨c1, c2, -, -⟩ | ⟨c1, c2, c3, c4⟩
    · left; exact f2
    · exact absurd ⟨c1, c2⟩ hnt
    · right
      refine ⟨?_, c4⟩
      unfold Fed at f2
      split
      · rename_i he; rw [if_pos he] at c3; subst c3
        simpa using f2
      · rename_i he; rw [if_neg he] at c3; subst c3
        simpa using f2
  exact {
    sizes := ⟨b1.1.trans a1.1, b1.2.trans a1.2⟩
    others := fun i h1 h2 => by rw [b2 i h2, a2 i h1]
    target := fun i hi => (T1 i hi).imp id fun h => h.1
    opposite := fun i hi => (O1 i hi).imp id fun h => h.1
    targetFull := fun hs i hi => (T1 i hi).resolve_right fun h => by
      have hs : score (outAt s.clauses x) s.weights cfg.k cfg.T t = cfg.T := hs
      exact nofb (by omega) h.2
    oppositeFull := fun hs i hi => (O1 i hi).resolve_right fun h => by
      have hs : score (outAt s.clauses x) s.weights cfg.k cfg.T o = -cfg.T := hs
      exact nofb (by omega) h.2 }

end Tsetlini
