import Verif.Props.Loaded
import Verif.Props.Twins
/- Changed settings of trained estimators: C81. -/
namespace Tsetlini
open Res Spec

variable {a : Algo} {k : Kind} {env : Env}

/-- Parameters with one value replaced. -/
def Params.replace (p : Params) (key : String) (v : PVal) : Params := p.map fun m => if m.1 = key then (key, v) else m

theorem get?_replace (p : Params) (key : String) (v : PVal) (x : String) :
    (p.replace key v).get? x = if x = key then (p.get? key).map fun _ => v else p.get? x := by
  induction p with
  | nil => unfold Params.replace Params.get?; split <;> rfl
  | cons m p ih =>
    unfold Params.replace Params.get? at ih ⊢
    rw [List.map_cons, List.lookup_cons, List.lookup_cons, List.lookup_cons]
    by_cases hm : m.1 = key
    · subst hm
      simp only [↓reduceIte, beq_self_eq_true, Option.map_some]
      by_cases hx : x = m.1
      · subst hx; simp
      · have : (x == m.1) = false := by simpa using hx
        rw [this]
        simp only [if_neg hx] at ih ⊢
        exact ih
    · simp only [if_neg hm]
      have h1 : (key == m.1) = false := by simpa using fun h => hm h.symm
      rw [h1]
      by_cases hx : x = m.1
      · subst hx; simp [hm]
      · have h2 : (x == m.1) = false := by simpa using hx
        rw [h2]
        exact ih

theorem save_replace (gio : GenIO env) (st : EstState a.backend env) (key : String) (v : PVal) :
    save a k gio { st with params := st.params.replace key v } = withSetting key v.toJson (save a k gio st) := by
  unfold save saveState withSetting
  simp (decide := true) only [List.map_cons, List.map_nil, ↓reduceIte, Params.toJson, Params.replace, List.map_map]
  congr 6
  congr 1
  congr 1
  congr 1
  funext m
  simp only [Function.comp]
  split <;> rfl

theorem Spec.Setting.json {st : EstState a.backend env} {key : String} {j : JVal} {v : PVal} (h : Setting a k st key j v) : v.toJson = j := by
  cases h <;> first | rfl | (simp only [PVal.toJson, JVal.ofInt]; rw [if_pos (by omega)]; simp)

theorem Spec.Setting.configured {st : EstState a.backend env} {key : String} {j : JVal} {v : PVal} (h : Setting a k st key j v) {p q : Params} (hp : Configured k p)
    (hq : q.get? key = some v) (hpq : ∀ x, x ≠ key → q.get? x = p.get? x) : Configured k q := by
  obtain ⟨r, ha, hi, hj, hs, hr⟩ := hp
  have fin : ∀ r' : ParamSet, Acceptable k r' → r'.IntSized → r'.nJobs ≠ -1 → r'.seed ≠ none →
      (∀ e ∈ r'.entries k, e = (key, v) ∨ e ∈ r.entries k ∧ e.1 ≠ key) → Configured k q := by
    intro r' h1 h2 h3 h4 h5
    refine ⟨r', h1, h2, h3, h4, fun e he => ?_⟩
    rcases h5 e he with rfl | ⟨h6, h7⟩
    · exact hq
    · rw [hpq _ h7, hr e h6]
  have tile : ∀ {n : Nat}, n ∈ [16, 32, 64, 128] → ((n : Nat) : Int) ∈ ([16, 32, 64, 128] : List Int) := fun h => by
    simp only [List.mem_cons, List.not_mem_nil, or_false] at h ⊢; omega
  have tile' : ∀ {n : Nat}, n ∈ [16, 32, 64, 128] → n ≤ 128 := fun h => by
    simp only [List.mem_cons, List.not_mem_nil, or_false] at h; omega
  cases h with
  | @threshold n h1 h2 =>
    refine fin { r with threshold := n } { ha with threshold := (by show (1 : Int) ≤ n; omega) } ?_ hj hs ?_
    · intro v hv
      simp only [List.mem_cons, List.not_mem_nil, or_false] at hv
      rcases hv with rfl | rfl | rfl | rfl | rfl | rfl <;> first | omega | exact hi _ (by simp)
    · cases k <;> simp (decide := true) [ParamSet.entries, clausesKey, seedVal]
  | @s q h1 h2 =>
    refine fin { r with s := .fin q } { ha with s := ⟨q, rfl, h1⟩ } ?_ hj hs ?_
    · intro v hv
      simp only [List.mem_cons, List.not_mem_nil, or_false] at hv
      rcases hv with rfl | rfl | rfl | rfl | rfl | rfl <;> first | omega | exact hi _ (by simp)
    · cases k <;> simp (decide := true) [ParamSet.entries, clausesKey, seedVal]
  | @boost n h1 =>
    refine fin { r with boost := n } { ha with boost := (by show (n : Int) = 0 ∨ (n : Int) = 1; omega) } ?_ hj hs ?_
    · intro v hv
      simp only [List.mem_cons, List.not_mem_nil, or_false] at hv
      rcases hv with rfl | rfl | rfl | rfl | rfl | rfl <;> first | omega | exact hi _ (by simp)
    · cases k <;> simp (decide := true) [ParamSet.entries, clausesKey, seedVal]
  | @nJobs n h1 h2 =>
    refine fin { r with nJobs := n } { ha with nJobs := (by show (n : Int) = -1 ∨ 1 ≤ (n : Int); omega) } ?_ (by show (n : Int) ≠ -1; omega) hs ?_
    · intro v hv
      simp only [List.mem_cons, List.not_mem_nil, or_false] at hv
      rcases hv with rfl | rfl | rfl | rfl | rfl | rfl <;> first | omega | exact hi _ (by simp)
    · cases k <;> simp (decide := true) [ParamSet.entries, clausesKey, seedVal]
  | @verbose b =>
    refine fin { r with verbose := b } { ha with } ?_ hj hs ?_
    · intro v hv
      simp only [List.mem_cons, List.not_mem_nil, or_false] at hv
      rcases hv with rfl | rfl | rfl | rfl | rfl | rfl <;> first | omega | exact hi _ (by simp)
    · cases k <;> simp (decide := true) [ParamSet.entries, clausesKey, seedVal]
  | @tileSize n h1 =>
    refine fin { r with tileSize := n } { ha with tileSize := tile h1 } ?_ hj hs ?_
    · have := tile' h1; intro v hv
      simp only [List.mem_cons, List.not_mem_nil, or_false] at hv
      rcases hv with rfl | rfl | rfl | rfl | rfl | rfl <;> first | omega | exact hi _ (by simp)
    · cases k <;> simp (decide := true) [ParamSet.entries, clausesKey, seedVal]
  | @seed v =>
    refine fin { r with seed := some v } { ha with } ?_ hj (fun h => by cases h) ?_
    · intro v hv
      simp only [List.mem_cons, List.not_mem_nil, or_false] at hv
      rcases hv with rfl | rfl | rfl | rfl | rfl | rfl <;> first | omega | exact hi _ (by simp)
    · cases k <;> simp (decide := true) [ParamSet.entries, clausesKey, seedVal]
  | @lossFn v h1 h2 =>
    refine fin { r with lossFn := v } { ha with lossFn := fun _ => h2 } ?_ hj hs ?_
    · intro v hv
      simp only [List.mem_cons, List.not_mem_nil, or_false] at hv
      rcases hv with rfl | rfl | rfl | rfl | rfl | rfl <;> first | omega | exact hi _ (by simp)
    · cases k <;> simp (decide := true) [ParamSet.entries, clausesKey, seedVal]
  | @lossC1 q h1 h2 =>
    refine fin { r with lossC1 := .fin q } { ha with } ?_ hj hs ?_
    · intro v hv
      simp only [List.mem_cons, List.not_mem_nil, or_false] at hv
      rcases hv with rfl | rfl | rfl | rfl | rfl | rfl <;> first | omega | exact hi _ (by simp)
    · cases k <;> simp (decide := true) [ParamSet.entries, clausesKey, seedVal]
  | @boxMuller b h1 =>
    refine fin { r with boxMuller := b } { ha with } ?_ hj hs ?_
    · intro v hv
      simp only [List.mem_cons, List.not_mem_nil, or_false] at hv
      rcases hv with rfl | rfl | rfl | rfl | rfl | rfl <;> first | omega | exact hi _ (by simp)
    · cases k <;> simp (decide := true) [ParamSet.entries, clausesKey, seedVal]
  | @maxWeight n h1 h2 h3 =>
    refine fin { r with maxWeight := n } { ha with maxWeight := (by show (1 : Int) ≤ n; omega) } ?_ hj hs ?_
    · intro v hv
      simp only [List.mem_cons, List.not_mem_nil, or_false] at hv
      rcases hv with rfl | rfl | rfl | rfl | rfl | rfl <;> first | omega | exact hi _ (by simp)
    · cases k <;> simp (decide := true) [ParamSet.entries, clausesKey, seedVal]
  | @states n h1 h2 h3 h4 =>
    refine fin { r with states := n } { ha with states := (by show (1 : Int) ≤ n; omega) } ?_ hj hs ?_
    · intro v hv
      simp only [List.mem_cons, List.not_mem_nil, or_false] at hv
      rcases hv with rfl | rfl | rfl | rfl | rfl | rfl <;> first | omega | exact hi _ (by simp)
    · cases k <;> simp (decide := true) [ParamSet.entries, clausesKey, seedVal]

theorem Spec.Setting.there {st : EstState a.backend env} {key : String} {j : JVal} {v : PVal} (h : Setting a k st key j v) {p : Params} (hp : Configured k p) :
    ∃ w, p.get? key = some w := by
  obtain ⟨r, -, -, -, -, hr⟩ := hp
  have key' : ∀ w, (key, w) ∈ r.entries k → ∃ w, p.get? key = some w := fun w hw => ⟨w, hr _ hw⟩
  cases h
  · exact key' (.int r.threshold) (by cases k <;> simp [ParamSet.entries])
  · exact key' (.real r.s) (by cases k <;> simp [ParamSet.entries])
  · exact key' (.int r.boost) (by cases k <;> simp [ParamSet.entries])
  · exact key' (.int r.nJobs) (by cases k <;> simp [ParamSet.entries])
  · exact key' (.bool r.verbose) (by cases k <;> simp [ParamSet.entries])
  · exact key' (.int r.tileSize) (by cases k <;> simp [ParamSet.entries])
  · exact key' (seedVal r.seed) (by cases k <;> simp [ParamSet.entries])
  · rename_i hk _; subst hk; exact key' (.str r.lossFn) (by simp [ParamSet.entries])
  · rename_i hk _; subst hk; exact key' (.real r.lossC1) (by simp [ParamSet.entries])
  · rename_i hk; subst hk; exact key' (.bool r.boxMuller) (by simp [ParamSet.entries])
  · exact key' (.int r.maxWeight) (by cases k <;> simp [ParamSet.entries])
  · exact key' (.int r.states) (by cases k <;> simp [ParamSet.entries])

theorem Spec.Setting.keys {st : EstState a.backend env} {key : String} {j : JVal} {v : PVal} (h : Setting a k st key j v) :
    key ≠ "number_of_labels" ∧ key ≠ "number_of_features" ∧ key ≠ "weighted" ∧ key ≠ "counting_type" ∧ key ≠ clauseParam k := by
  cases h <;> cases k <;> decide

theorem Spec.Setting.fits {st : EstState a.backend env} {key : String} {j : JVal} {v : PVal} (hs : Setting a k st key j v) {labels n clauses : Nat} {N M : Int} {w : Bool} {ct : String}
    (h : FitsTogether a k st labels n clauses N M w ct) {q : Params} (hq : q.get? key = some v) (hpq : ∀ x, x ≠ key → q.get? x = st.params.get? x) (c : Cache) :
    ∃ N' M', FitsTogether a k (⟨q, st.ta, c, st.igen, st.fgen⟩ : EstState a.backend env) labels n clauses N' M' w ct := by
  obtain ⟨k1, k2, k3, k4, k5⟩ := hs.keys
  have base : ∀ N' M', IntParam q "number_of_states" N' → IntParam q "max_weight" M' → (∀ row ∈ a.counters st, ∀ c ∈ row, -N' ≤ c ∧ c ≤ N' - 1) →
      counterWidth ct N' = counterWidth ct N → (∀ w ∈ st.ta.weights, (w : Int) + 1 ≤ M') →
      FitsTogether a k (⟨q, st.ta, c, st.igen, st.fgen⟩ : EstState a.backend env) labels n clauses N' M' w ct := by
    intro N' M' h1 h2 h3 h4 h5
    exact {
      params := hs.configured h.params hq hpq
      noLabels := fun hk i hi => h.noLabels hk i (by
        have hi : q.get? "number_of_labels" = some (.int i) := hi
        rw [hpq _ k1.symm] at hi
        exact hi)
      labelsParam := fun hk => (hpq _ k1.symm).trans (h.labelsParam hk)
      oneLabel := h.oneLabel
      someLabel := h.someLabel
      featuresParam := (hpq _ k2.symm).trans h.featuresParam
      clausesParam := (hpq _ k5.symm).trans h.clausesParam
      statesParam := h1
      maxWeightParam := h2
      weightedParam := (hpq _ k3.symm).trans h.weightedParam
      ctypeParam := (hpq _ k4.symm).trans h.ctypeParam
      rows := h.rows
      columns := h.columns
      range := h3
      width := by rw [h4]; cases a <;> exact h.width
      mirror := by cases a <;> exact h.mirror
      weights := h.weights
      weightRange := h5
      small := h.small }
  have other : key ≠ "number_of_states" → key ≠ "max_weight" → ∃ N' M', FitsTogether a k (⟨q, st.ta, c, st.igen, st.fgen⟩ : EstState a.backend env) labels n clauses N' M' w ct :=
    fun e2 e1 => ⟨N, M, base _ _ ((hpq _ fun h => e2 h.symm).trans h.statesParam) ((hpq _ fun h => e1 h.symm).trans h.maxWeightParam) h.range rfl h.weightRange⟩
  cases hs with
  | maxWeight m1 m2 m3 =>
    refine ⟨N, _, base _ _ ((hpq _ (by decide)).trans h.statesParam) hq h.range rfl fun w hw => ?_⟩
    have := m3 w hw
    omega
  | states m1 m2 m3 m4 => exact ⟨_, M, base _ _ hq ((hpq _ (by decide)).trans h.maxWeightParam) m3 (m4 _ _ h.ctypeParam h.statesParam) h.weightRange⟩
  | _ => exact other (by decide) (by decide)

theorem Spec.Setting.typed {st : EstState a.backend env} {key : String} {j : JVal} {v : PVal} (h : Setting a k st key j v) : TypedAt k key v := by
  have b : ∀ {n : Nat}, n ≤ 2147483647 → IsInt n := fun h => by unfold IsInt; omega
  have t : ∀ {n : Nat}, n ∈ [16, 32, 64, 128] → n ≤ 128 := fun h => by
    simp only [List.mem_cons, List.not_mem_nil, or_false] at h; omega
  have c : ∀ {x : String} {n : Nat}, x ≠ "random_state" → x ≠ "number_of_labels" → n ≤ 2147483647 → TypedAt k x (.int n) :=
    fun h1 h2 h3 => ⟨h1, fun h => absurd h h2, fun _ _ => b h3⟩
  cases h with
  | threshold h1 h2 => exact c (by decide) (by decide) h2
  | boost h1 => exact c (by decide) (by decide) (by omega)
  | nJobs h1 h2 => exact c (by decide) (by decide) h2
  | tileSize h1 => exact c (by decide) (by decide) (by have := t h1; omega)
  | maxWeight h1 h2 => exact c (by decide) (by decide) h2
  | states h1 h2 => exact c (by decide) (by decide) h2
  | seed => exact (rfl : "random_state" = "random_state")
  | s => trivial
  | verbose => trivial
  | lossFn => trivial
  | lossC1 => trivial
  | boxMuller => trivial

theorem Fit.table {cfg : Cfg} {labels nf : Nat} {st : EstState a.backend env} {ss : SState env} (h : Fit a.lawful cfg labels nf st ss) :
    allocOk (a.base st.ta).ctype.bytes (a.base st.ta).rows.length (a.base st.ta).cols = true ∧ ∀ r ∈ (a.base st.ta).rows, r.length = (a.base st.ta).cols := by
  have key : ∀ {m : Matrix}, ClassicAbs cfg.ct cfg.states nf m ss.clauses → allocOk cfg.ct.bytes (2 * (labels * cfg.k)) nf = true →
      allocOk m.ctype.bytes m.rows.length m.cols = true ∧ ∀ r ∈ m.rows, r.length = m.cols := by
    intro m hm hal
    rw [hm.ctype, hm.cols, hm.rows, toRows_length, h.len]
    refine ⟨hal, fun r hr => ?_⟩
    obtain ⟨c, hc, e⟩ := mem_toRows hr
    rcases e with rfl | rfl
    · exact (hm.wf c hc).posLen
    · exact (hm.wf c hc).negLen
  cases a with
  | classic => exact key h.abs h.alloc
  | bitwise => exact key (BitAbs.base (show BitAbs _ _ _ _ _ from h.abs)) h.alloc.1

/-- **C81**: the settings of a trained estimator may be changed in its text.  The text still loads, into an estimator that has the same automata, weights and generators, the new
value and otherwise the same parameters, and on which all other properties hold. -/
theorem C81_changed {gio : GenIO env} (hg : Faithful gio) {st : EstState a.backend env} (h : Reached a k st) (hN : StatesOk a st.params) (hf : Fitted a st)
    (hfl : FloatsOk env.rnd st.params) {key : String} {j : JVal} {v : PVal} (hs : Setting a k st key j v) (old : EstState a.backend env) :
    ∃ st', load a k gio old (withSetting key j (save a k gio st)) = .ok st' ∧ Reached a k st' ∧ Fitted a st' ∧ SameLearned st st' ∧
      st'.params.get? key = some v ∧ AgreeBut [key] st.params st'.params := by
  obtain ⟨cfg, labels, nf, ss, hk, hv, hm, hF⟩ := reached_fit h hN hf
  have hT := hF.together hk hv (reached_params h)
  let q := st.params.replace key v
  obtain ⟨w0, hw0⟩ := hs.there hT.params
  have hq : q.get? key = some v := by
    show (st.params.replace key v).get? key = _
    rw [get?_replace, if_pos rfl, hw0]; rfl
  have hpq : ∀ x, x ≠ key → q.get? x = st.params.get? x := fun x hx => by
    show (st.params.replace key v).get? x = _
    rw [get?_replace, if_neg hx]
  obtain ⟨al1, al2⟩ := hF.table
  obtain ⟨cfg', hk', hr', hv'⟩ := Configured.cfg (hs.configured hT.params hq hpq)
  obtain ⟨N0, M0, hT0⟩ := hs.fits hT hq hpq st.cache
  have ek : cfg'.k = cfg.k := by
    have h1 := hT0.clausesParam
    unfold IntParam at h1
    have e : clauseParam k = cfg'.clauseKey := by subst hk'; unfold clauseParam Cfg.clauseKey; rfl
    rw [e] at h1
    have h2 := h1.symm.trans hr'.clauses
    have h3 := hv'.two_k
    simp only [Option.some.injEq, PVal.int.injEq] at h2
    omega
  have hsm : labels * cfg'.k ≤ 1073741823 := by
    have := hT.small
    rw [show labels * (2 * cfg.k) = 2 * (labels * cfg.k) by rw [Nat.mul_left_comm]] at this
    rw [ek]
    omega
  obtain ⟨c, hc, -⟩ := resetCache_fit (env := env) a.lawful hv' hr' (fun e => hT0.labelsParam (hk'.symm.trans e)) (fun e => hT0.oneLabel (hk'.symm.trans e))
    hT0.featuresParam hsm hF.nfSmall 0
  obtain ⟨N1, M1, hT1⟩ := hs.fits hT hq hpq c
  rw [hk'] at hc
  obtain ⟨cfg1, hk1, hv1, -, hF1⟩ := hT1.fit al1 al2 hc
  have typed : ∀ x u, q.get? x = some u → TypedAt k x u := by
    intro x u hu
    by_cases hx : x = key
    · subst hx
      rw [hq] at hu
      cases hu
      exact hs.typed
    · rw [hpq x hx] at hu
      exact Reached.typedAt h hu
  have floats : FloatsOk env.rnd q := by
    intro x u hu
    by_cases hx : x = key
    · subst hx
      rw [hq] at hu
      cases hu
      cases hs
      · rename_i h2; exact ⟨_, rfl, h2⟩
      · rename_i h2; exact ⟨_, rfl, h2⟩
    · rw [hpq x hx] at hu
      exact hfl x u hu
  have ints : ∀ x i, x = "number_of_labels" ∨ x = "number_of_features" → q.get? x = some (.int i) → IsInt i := by
    intro x i hx hi
    obtain ⟨k1, k2, -⟩ := hs.keys
    rw [hpq x (by rcases hx with rfl | rfl; exact k1.symm; exact k2.symm)] at hi
    exact Fit.ints hk hv h hF x i hx hi
  obtain ⟨st', l1, l2, l3, l4⟩ := loaded (old := old) hg hv1 hk1 hF1 (reload_same (rnd := env.rnd) typed floats ints)
  have hag : ∀ x, st'.params.get? x = q.get? x := fun x => l2 x (by simp)
  have hset : Setup k st'.params := Setup.agree ⟨hT1.params, hT1.noLabels⟩ fun x _ => hag x
  refine ⟨st', ?_, reached_of_load l1 ⟨_, _, _, _, _, _, _, l4.together hk1 hv1 hset⟩, l4.fittedP hv1, ⟨l3.ta, l3.igen, l3.fgen⟩, ?_, fun x hx => ?_⟩
  · rw [← hs.json, ← save_replace]
    exact l1
  · rw [hag]; exact hq
  · rw [hag]; exact hpq x (by simpa using hx)

/-! ### Settings that cannot be observed -/

theorem Spec.SameLearned.numbers {st st' : EstState a.backend env} (h : SameLearned st st') : SameNumbers a st st' :=
  ⟨by unfold Algo.counters; rw [h.ta], by rw [h.ta], h.igen, h.fgen⟩

/-- Only the cache, unobservable parameters and the type of the counters may differ. -/
theorem Sim.swapQuiet {cfg cfg' : Cfg} (hv : Valid cfg) (hv' : Valid cfg') (hk : cfg'.kind = cfg.kind)
    {st st' : EstState a.backend env} {ss ss' : SState env} (h1 : Sim a.lawful cfg st ss) (h2 : Sim a.lawful cfg' st' ss')
    {K : List String} (hK : ∀ key ∈ K, key ∈ quietKeys) (hp : AgreeBut K st.params st'.params) (hl : SameNumbers a st st') :
    Sim a.lawful { cfg with ctype := cfg'.ctype, tile := cfg'.tile, nJobs := cfg'.nJobs, verbose := cfg'.verbose } st' ss := by
  have e : ∀ key, key ∉ quietKeys → st'.params.get? key = st.params.get? key := fun key h => hp key fun h' => h (hK key h')
  rcases h1 with h1 | ⟨l, n, h1⟩
  · rcases h2 with h2 | ⟨l', n', h2⟩
    · exact .inl ⟨h1.reads.mix h2.reads hK hp, h2.labelsP, h2.featP, h2.mat, h2.rows, h2.cnt, h2.w, h1.sw, h1.cl, h2.fb, h2.ls, hl.igen.trans h1.igen, hl.fgen.trans h1.fgen, h1.shape⟩
    · exact absurd (hl.counters.trans h1.cnt) (h2.fittedP hv')
  · rcases h2 with h2 | ⟨l', n', h2⟩
    · exact absurd (hl.counters.symm.trans h2.cnt) (h1.fittedP hv)
    · have r1 := h1.reads.mix h2.reads hK hp
      have r2 := h2.reads
      have eT : cfg'.T = cfg.T := by have := r1.T.symm.trans r2.T; simpa using this.symm
      have es : cfg'.s = cfg.s := by have := r1.s.symm.trans r2.s; simpa using this.symm
      have eN : cfg'.states = cfg.states := by have := r1.states.symm.trans r2.states; simpa using this.symm
      have ec : cfg'.clauses = cfg.clauses := by
        have h := r1.clauses
        have h' := r2.clauses
        unfold Cfg.clauseKey at h h'
        rw [hk] at h'
        have := h.symm.trans h'; simpa using this.symm
      have ek : cfg'.k = cfg.k := by unfold Cfg.k; rw [ec]
      have en : n' = n := by
        have := h1.featP.symm.trans ((e _ (by decide)).symm.trans h2.featP)
        simp only [Option.some.injEq, PVal.int.injEq] at this; omega
      have el : l' = l := by
        cases hkk : cfg.kind with
        | regressor => rw [h1.reg1 hkk, h2.reg1 (hk.trans hkk)]
        | classifier =>
          have := (h1.labelsP hkk).symm.trans ((e _ (by decide)).symm.trans (h2.labelsP (hk.trans hkk)))
          simp only [Option.some.injEq, PVal.int.injEq] at this; omega
      subst en el
      have hcl : ss'.clauses = ss.clauses := by
        rw [h1.clausesEq, h2.clausesEq]
        unfold Algo.clauses
        rw [hl.counters]
      have hct : Cfg.ct { cfg with ctype := cfg'.ctype, tile := cfg'.tile, nJobs := cfg'.nJobs, verbose := cfg'.verbose } = cfg'.ct := by
        unfold Cfg.ct
        rw [eN]
      exact .inr ⟨l', n', {
        reads := r1
        labelsP := fun h => h2.labelsP (hk.trans h)
        featP := h2.featP
        reg1 := h1.reg1
        pos := h1.pos
        abs := by rw [hct, ← hcl]; show a.lawful.Abs _ cfg.states _ _ _; rw [← eN]; exact h2.abs
        len := h1.len
        w := hl.weights.trans h1.w
        wlen := h1.wlen
        wmax := h1.wmax
        coLen := by show _ = _ * cfg.k; rw [← ek]; exact h2.coLen
        lsLen := fun h => h2.lsLen (hk.trans h)
        fbLen := fun h => by show _ = _ * cfg.k; rw [← ek]; exact h2.fbLen (hk.trans h)
        fbRange := h2.fbRange
        lsRange := by dsimp only; rw [← eT]; exact h2.lsRange
        ct := by dsimp only; rw [← es]; exact h2.ct
        igen := hl.igen.trans h1.igen
        fgen := hl.fgen.trans h1.fgen
        shape := h1.shape
        small := h1.small
        nfSmall := h1.nfSmall
        alloc := by rw [hct]; show a.lawful.Alloc _ (2 * (_ * cfg.k)) _; rw [← ek]; exact h2.alloc }⟩

theorem Sim.read {cfg : Cfg} {st : EstState a.backend env} {ss : SState env} (h : Sim a.lawful cfg st ss) : Reads st.params cfg := by
  rcases h with h | ⟨_, _, h⟩
  · exact h.reads
  · exact h.reads

theorem quiet_states {K : List String} (hK : ∀ key ∈ K, key ∈ quietKeys) {p q : Params} (hp : AgreeBut K p q) (hN : StatesOk a p) : StatesOk a q := fun N h => hN N (by
  unfold IntParam at h ⊢
  rw [← hp _ (fun h => absurd (hK _ h) (by decide))]; exact h)

/-- **C81**: estimators with equal automata, weights and generators, whatever brought them about, that differ at most in n_jobs, clause_output_tile_size and verbose return the same for every
history of calls and learn the same.  (If they differ in clause_output_tile_size, `evaluate` must get samples `predict` would accept: see C05.) -/
theorem C81_quiet {st st' : EstState a.backend env} (h : Reached a k st) (h' : Reached a k st') (hN : StatesOk a st.params) {K : List String}
    (hK : ∀ key ∈ K, key ∈ ["n_jobs", "clause_output_tile_size", "verbose"]) (hp : AgreeBut K st.params st'.params) (hl : SameLearned st st')
    (sc sc' : Sched) (cs : List (Call a.Sample k)) (ht : ∀ c ∈ cs, WellTyped a c) (he : "clause_output_tile_size" ∉ K ∨ ProperEvals a sc cs st)
    {e : EstState a.backend env} {outs : List Out} (hr : run a.backend env sc cs st = .ok (e, outs)) :
    ∃ e', run a.backend env sc' cs st' = .ok (e', outs) ∧ AgreeBut K e.params e'.params ∧ SameLearned e e' := by
  have hK' : ∀ key ∈ K, key ∈ quietKeys := fun key hkey => by
    have := hK key hkey
    simp only [quietKeys, List.mem_cons, List.not_mem_nil, or_false] at this ⊢
    rcases this with h | h | h <;> simp [h]
  obtain ⟨cfg, ss, rfl, hv, hm, hs⟩ := Reached.sim h hN
  obtain ⟨cfg', ss', hk, hv', hm', hs'⟩ := Reached.sim h' (quiet_states hK' hp hN)
  have hs2 := hs.swapQuiet hv hv' hk hs' hK' hp hl.numbers
  have ec : cfg'.ctype = cfg.ctype := by
    have h := hs'.read.ctype
    rw [hp _ (fun h => absurd (hK _ h) (by decide)), hs.read.ctype] at h
    simpa using h.symm
  have htile : cfg'.tile = cfg.tile ∨ ProperEvals a sc cs st := by
    rcases he with he | he
    · left
      have h := hs'.read.tile
      rw [hp _ he, hs.read.tile] at h
      simpa using h.symm
    · exact .inr he
  have hct : Cfg.ct { cfg with ctype := cfg'.ctype, tile := cfg'.tile, nJobs := cfg'.nJobs, verbose := cfg'.verbose } = cfg.ct := by
    unfold Cfg.ct
    rw [ec]
  obtain ⟨cfg2, he2⟩ : ∃ c : Cfg, c = { cfg with ctype := cfg'.ctype, tile := cfg'.tile, nJobs := cfg'.nJobs, verbose := cfg'.verbose } := ⟨_, rfl⟩
  have hcore : cfg.core = cfg2.core := by rw [he2]; rfl
  replace htile : cfg2.tile = cfg.tile ∨ ProperEvals a sc cs st := by rw [he2]; exact htile
  rw [← he2] at hs2 hct
  obtain ⟨r', h3, h4, h5, t, h6, h7⟩ := run_twin (sc' := sc') hv hm hcore hct rfl
    (R := AgreeBut K) (fun c f o p p' h => Call.record_agree h f c o) cs ht hs hs2 hp htile hr
  refine ⟨r'.1, ?_, h5, ⟨Sim.ta_eq hcore hct h6 h7, (h6.igen_eq h7).1, (h6.igen_eq h7).2⟩⟩
  rw [h3]; dsimp only at h4; rw [← h4]

/-- **C81**: the same for estimators that differ in counting_type too, and have equal counters, weights and generators: what both survive returns the same.  (See C02.) -/
theorem C81_counting_type {st st' : EstState a.backend env} (h : Reached a k st) (h' : Reached a k st') (hN : StatesOk a st.params) {K : List String}
    (hK : ∀ key ∈ K, key ∈ ["n_jobs", "clause_output_tile_size", "counting_type", "verbose"]) (hp : AgreeBut K st.params st'.params) (hl : SameNumbers a st st')
    (sc sc' : Sched) (cs : List (Call a.Sample k)) (ht : ∀ c ∈ cs, WellTyped a c) (he : ProperEvals a sc cs st)
    {e e' : EstState a.backend env} {outs outs' : List Out} (hr : run a.backend env sc cs st = .ok (e, outs)) (hr' : run a.backend env sc' cs st' = .ok (e', outs')) :
    outs' = outs ∧ AgreeBut K e.params e'.params ∧ SameNumbers a e e' := by
  obtain ⟨cfg, ss, rfl, hv, hm, hs⟩ := Reached.sim h hN
  obtain ⟨cfg', ss', hk, hv', hm', hs'⟩ := Reached.sim h' (quiet_states hK hp hN)
  have hs2 := hs.swapQuiet hv hv' hk hs' hK hp hl
  obtain ⟨cfg2, he2⟩ : ∃ c : Cfg, c = { cfg with ctype := cfg'.ctype, tile := cfg'.tile, nJobs := cfg'.nJobs, verbose := cfg'.verbose } := ⟨_, rfl⟩
  have hcore : cfg.core = cfg2.core := by rw [he2]; rfl
  rw [← he2] at hs2
  obtain ⟨h4, h5, t, h6, h7⟩ := run_twin_both (sc' := sc') hv hm hcore rfl
    (R := AgreeBut K) (fun c f o p p' h => Call.record_agree h f c o) cs ht hs hs2 hp he hr hr'
  refine ⟨h4, h5, ?_, ?_, (h6.igen_eq h7).1, (h6.igen_eq h7).2⟩
  · rcases h6 with h6 | ⟨l, n, h6⟩ <;> rcases h7 with h7 | ⟨l', n', h7⟩
    · exact h7.cnt.trans h6.cnt.symm
    · have := h6.shape.symm.trans h7.shape; cases this
    · have := h6.shape.symm.trans h7.shape; cases this
    · rw [h6.countersEq, h7.countersEq, ← h6.clausesEq, ← h7.clausesEq]
  · rcases h6 with h6 | ⟨l, n, h6⟩ <;> rcases h7 with h7 | ⟨l', n', h7⟩
    · exact h7.w.trans h6.w.symm
    · have := h6.shape.symm.trans h7.shape; cases this
    · have := h6.shape.symm.trans h7.shape; cases this
    · exact h7.w.trans h6.w.symm

/-! ### Predictions -/

/-- What a read-only call gives depends on the clauses, the weights, the threshold and the shape alone. -/
theorem stepS_reads {B : Backend} {L : Lawful B} {cfg cfg' : Cfg} {ss ss' : SState env} (hT : cfg'.T = cfg.T) (hk : cfg'.k = cfg.k) (hc : ss'.clauses = ss.clauses)
    (hw : ss'.weights = ss.weights) (hs : ss'.shape = ss.shape) {k : Kind} (c : Call B.Sample k) (hr : c.Reads) {o : SState env × Out} (h : stepS L env cfg c ss = .ok o) :
    o.1 = ss ∧ stepS L env cfg' c ss' = .ok (ss', o.2) := by
  have e1 : ∀ labels x, scoresS cfg' labels ss' x = scoresS cfg labels ss x := fun labels x => by unfold scoresS; rw [hT, hk, hc, hw]
  have e2 : ∀ x, responseS cfg' ss' x = responseS cfg ss x := fun x => by unfold responseS; rw [hT, hc, hw]
  have go : ∀ {α : Type} {q q' : Res α} {f : α → Out}, q' = q → (q.bind fun r => .ok (ss, f r)) = .ok o → o.1 = ss ∧ (q'.bind fun r => .ok (ss', f r)) = .ok (ss', o.2) := by
    intro α q q' f hq h
    rw [bind_eq_ok] at h
    obtain ⟨r, h1, h2⟩ := h
    cases h2
    exact ⟨rfl, by rw [hq, h1]; rfl⟩
  unfold stepS at h ⊢
  cases c with
  | predict1 x => exact go (by unfold predict1S withShape; simp only [e1, hs]) h
  | predict X => exact go (by unfold predictS withShape; simp only [e1, hs]) h
  | decision1 x => exact go (by unfold decision1S withShape; simp only [e1, hs]) h
  | decision X => exact go (by unfold decisionS withShape; simp only [e1, hs]) h
  | evaluate X y => exact go (by unfold evaluateS errorsS; simp only [e1, hs]) h
  | predictR1 x => exact go (by unfold predictR1S withShape; simp only [e2, hs]) h
  | predictR X => exact go (by unfold predictRS withShape; simp only [e2, hs]) h
  | fit _ _ _ _ => exact hr.elim
  | partialFit _ _ _ _ => exact hr.elim
  | fitR _ _ _ => exact hr.elim
  | partialFitR _ _ _ => exact hr.elim

theorem run_reads {cfg cfg' : Cfg} (hv : Valid cfg) (hv' : Valid cfg') (hN : a.lawful.minStates ≤ cfg.states) (hN' : a.lawful.minStates ≤ cfg'.states) (hk : cfg.kind = k)
    (hk' : cfg'.kind = k) {ss ss' : SState env} (hT : cfg'.T = cfg.T) (hkk : cfg'.k = cfg.k) (hc : ss'.clauses = ss.clauses) (hw : ss'.weights = ss.weights)
    (hs : ss'.shape = ss.shape) (sc sc' : Sched) (cs : List (Call a.Sample k)) (ht : ∀ c ∈ cs, WellTyped a c) (hr : ∀ c ∈ cs, c.Reads) {st st' : EstState a.backend env}
    (h1 : Sim a.lawful cfg st ss) (h2 : Sim a.lawful cfg' st' ss') (he : ProperEvals a sc cs st) {e : EstState a.backend env} {outs : List Out}
    (h : run a.backend env sc cs st = .ok (e, outs)) : ∃ e', run a.backend env sc' cs st' = .ok (e', outs) := by
  induction cs generalizing st st' e outs with
  | nil => cases h; exact ⟨_, rfl⟩
  | cons c cs ih =>
    unfold run at h ⊢
    simp only [bind_eq_ok] at h
    obtain ⟨r1, g1, r2, g2, g3⟩ := h
    cases g3
    have htc := ht c (by simp)
    have hsafe := step_safe' hv h1 hk c (WellTyped.typed htc) (evalSafe_of hv hk h1 c htc he.1 g1) g1
    have hsafe' : c.Safe a.lawful cfg' ss'.shape := by
      have hrc := hr c (by simp)
      rw [hs]
      cases c <;> first | exact hrc.elim | exact hsafe
    have a1 := step_ref' sc hv hN h1 hk c (WellTyped.typed htc) hsafe
    have a2 := step_ref' sc' hv' hN' h2 hk' c (WellTyped.typed htc) hsafe'
    rw [g1] at a1
    obtain ⟨b, hb, b1, b2⟩ := a1.ok_left
    obtain ⟨b3, b4⟩ := stepS_reads (L := a.lawful) hT hkk hc hw hs c (hr c (by simp)) hb
    rw [b4] at a2
    rcases a2.cases with ⟨q, b', e1, e2, q1, q2⟩ | ⟨-, e⟩ | ⟨-, e⟩
    · cases e2
      rw [b3] at b1
      obtain ⟨e', he'⟩ := ih (fun c hc => ht c (by simp [hc])) (fun c hc => hr c (by simp [hc])) b1 q1 (he.2 _ _ g1) g2
      refine ⟨e', ?_⟩
      rw [e1, ok_bind, he', ok_bind, q2, ← b2]
    · cases e
    · cases e

/-- **C81**: what read-only calls return depends on the counters, the weights, the threshold and the numbers of clauses, labels and features alone: two trained estimators that agree in these,
however else they differ (the other parameters, the generators, the type of the counters), return the same. -/
theorem C81_predictions {st st' : EstState a.backend env} (h : Reached a k st) (h' : Reached a k st') (hN : StatesOk a st.params) (hN' : StatesOk a st'.params) (hf : Fitted a st)
    (hc : a.counters st' = a.counters st) (hw : st'.ta.weights = st.ta.weights)
    (hp : ∀ key ∈ ["threshold", "number_of_labels", "number_of_features", clauseParam k], st'.params.get? key = st.params.get? key)
    (sc sc' : Sched) (cs : List (Call a.Sample k)) (ht : ∀ c ∈ cs, WellTyped a c) (hr : ∀ c ∈ cs, c.Reads) (he : ProperEvals a sc cs st)
    {e : EstState a.backend env} {outs : List Out} (hrun : run a.backend env sc cs st = .ok (e, outs)) :
    ∃ e', run a.backend env sc' cs st' = .ok (e', outs) := by
  obtain ⟨cfg, labels, nf, ss, hk, hv, hm, hF⟩ := reached_fit h hN hf
  obtain ⟨cfg', labels', nf', ss', hk', hv', hm', hF'⟩ := reached_fit h' hN' (by unfold Fitted at hf ⊢; rw [hc]; exact hf)
  subst hk
  have eT : cfg'.T = cfg.T := by
    have h := hF'.reads.T
    rw [hp _ (by simp), hF.reads.T] at h
    simpa using h.symm
  have ec : cfg'.clauses = cfg.clauses := by
    have h := hF'.reads.clauses
    have h0 := hF.reads.clauses
    have e1 : cfg'.clauseKey = cfg.clauseKey := by unfold Cfg.clauseKey; rw [hk']
    have e2 : cfg.clauseKey = clauseParam cfg.kind := by unfold Cfg.clauseKey clauseParam; rfl
    rw [e1, hp _ (by rw [e2]; simp), h0] at h
    simpa using h.symm
  have en : nf' = nf := by
    have h := hF'.featP
    rw [hp _ (by simp), hF.featP] at h
    simp only [Option.some.injEq, PVal.int.injEq] at h; omega
  have el : labels' = labels := by
    cases hkk : cfg.kind with
    | regressor => rw [hF.reg1 hkk, hF'.reg1 (hk'.trans hkk)]
    | classifier =>
      have h := hF'.labelsP (hk'.trans hkk)
      rw [hp _ (by simp), hF.labelsP hkk] at h
      simp only [Option.some.injEq, PVal.int.injEq] at h; omega
  refine run_reads hv hv' hm hm' rfl hk' eT (by unfold Cfg.k; rw [ec]) ?_ ?_ ?_ sc sc' cs ht hr (.inr ⟨_, _, hF⟩) (.inr ⟨_, _, hF'⟩) he hrun
  · rw [hF.clausesEq, hF'.clausesEq]
    unfold Algo.clauses
    rw [hc]
  · rw [← hF.w, ← hF'.w, hw]
  · rw [hF.shape, hF'.shape, en, el]

/-- **C81**: so a trained estimator whose settings were changed in its text, other than the threshold, still predicts what it predicted. -/
theorem C81_changed_predicts {gio : GenIO env} (hg : Faithful gio) {st : EstState a.backend env} (h : Reached a k st) (hN : StatesOk a st.params) (hf : Fitted a st)
    (hfl : FloatsOk env.rnd st.params) {key : String} {j : JVal} {v : PVal} (hs : Setting a k st key j v) (hkey : key ≠ "threshold")
    {old st' : EstState a.backend env} (hl : load a k gio old (withSetting key j (save a k gio st)) = .ok st') (hN' : StatesOk a st'.params)
    (sc sc' : Sched) (cs : List (Call a.Sample k)) (ht : ∀ c ∈ cs, WellTyped a c) (hr : ∀ c ∈ cs, c.Reads) (he : ProperEvals a sc cs st)
    {e : EstState a.backend env} {outs : List Out} (hrun : run a.backend env sc cs st = .ok (e, outs)) :
    ∃ e', run a.backend env sc' cs st' = .ok (e', outs) := by
  obtain ⟨t, h1, h2, h3, h4, h5, h6⟩ := C81_changed hg h hN hf hfl hs old
  rw [hl] at h1
  cases h1
  obtain ⟨k1, k2, -, -, k5⟩ := hs.keys
  refine C81_predictions h h2 hN hN' hf h4.numbers.counters h4.numbers.weights (fun x hx => h6 x ?_) sc sc' cs ht hr he hrun
  simp only [List.mem_cons, List.not_mem_nil, or_false] at hx ⊢
  rcases hx with rfl | rfl | rfl | rfl
  · exact hkey.symm
  · exact k1.symm
  · exact k2.symm
  · exact k5.symm

/-- **C81**: and if n_jobs or verbose was changed, or clause_output_tile_size, it cannot be told from what it was at all, except by its settings. -/
theorem C81_changed_quietly {gio : GenIO env} (hg : Faithful gio) {st : EstState a.backend env} (h : Reached a k st) (hN : StatesOk a st.params) (hf : Fitted a st)
    (hfl : FloatsOk env.rnd st.params) {key : String} {j : JVal} {v : PVal} (hs : Setting a k st key j v) (hkey : key ∈ ["n_jobs", "clause_output_tile_size", "verbose"])
    {old st' : EstState a.backend env} (hl : load a k gio old (withSetting key j (save a k gio st)) = .ok st')
    (sc sc' : Sched) (cs : List (Call a.Sample k)) (ht : ∀ c ∈ cs, WellTyped a c) (he : key ≠ "clause_output_tile_size" ∨ ProperEvals a sc cs st)
    {e : EstState a.backend env} {outs : List Out} (hrun : run a.backend env sc cs st = .ok (e, outs)) :
    ∃ e', run a.backend env sc' cs st' = .ok (e', outs) ∧ AgreeBut [key] e.params e'.params ∧ SameLearned e e' := by
  obtain ⟨t, h1, h2, h3, h4, h5, h6⟩ := C81_changed hg h hN hf hfl hs old
  rw [hl] at h1
  cases h1
  refine C81_quiet h h2 hN (K := [key]) (fun x hx => ?_) h6 h4 sc sc' cs ht (he.imp (fun h h' => ?_) id) hrun
  · rw [List.mem_singleton.1 hx]; exact hkey
  · exact h (List.mem_singleton.1 h').symm

/-- The call returned `v`, as a test. -/
def Toy.returns {σ α : Type} [DecidableEq α] (r : Res (σ × Except Status α)) (v : α) : Bool :=
  match r with
  | .ok (_, .ok w) => decide (w = v)
  | _ => false

theorem Toy.returns_of {σ α : Type} [DecidableEq α] {r : Res (σ × Except Status α)} {v : α} (h : Toy.returns r v = true) : Gives r v := by
  unfold Toy.returns at h
  split at h
  · exact ⟨_, by rw [of_decide_eq_true h]⟩
  · cases h

/-- **C81**, the threshold is the exception: with another threshold the same automata may give other scores, and other predictions. -/
theorem C81_threshold :
    (∃ (st st' : EstState classic Toy.env) (x : ClassicSample) (T T' : Nat) (d d' : List Int), Reached .classic .classifier st ∧ Fitted .classic st ∧
      IntParam st.params "threshold" T ∧ Setting .classic .classifier st "threshold" (.unsigned T') (.int T') ∧
      load .classic .classifier Toy.gio st (withSetting "threshold" (.unsigned T') (save .classic .classifier Toy.gio st)) = .ok st' ∧
      Gives (decision1 classic Toy.env Toy.seq st x) d ∧ Gives (decision1 classic Toy.env Toy.seq st' x) d' ∧ d ≠ d') ∧
    ∃ (st st' : EstState classic Toy.env) (x : ClassicSample) (T T' : Nat) (v v' : Int), Reached .classic .regressor st ∧ Fitted .classic st ∧
      IntParam st.params "threshold" T ∧ Setting .classic .regressor st "threshold" (.unsigned T') (.int T') ∧
      load .classic .regressor Toy.gio st (withSetting "threshold" (.unsigned T') (save .classic .regressor Toy.gio st)) = .ok st' ∧
      Gives (predictRegressor1 classic Toy.env Toy.seq st x) v ∧ Gives (predictRegressor1 classic Toy.env Toy.seq st' x) v' ∧ v ≠ v' := by
  constructor
  · have h : (match load .classic .classifier Toy.gio Toy.cc (withSetting "threshold" (.unsigned 1) (save .classic .classifier Toy.gio Toy.cc)) with
      | .ok st => Toy.returns (decision1 classic Toy.env Toy.seq st ([0, 0, 1] : ClassicSample)) [-1, 1, 1]
      | _ => false) = true := by decide +kernel
    split at h
    · rename_i st hst
      exact ⟨Toy.cc, st, ([0, 0, 1] : ClassicSample), 2, 1, [-2, 2, 1], [-1, 1, 1], Toy.cc_reached, Toy.cc_fitted, by unfold IntParam; decide +kernel,
        .threshold (by decide) (by decide), hst, Toy.returns_of (by decide +kernel), Toy.returns_of h, by decide⟩
    · cases h
  · have h : (match load .classic .regressor Toy.gio Toy.cr (withSetting "threshold" (.unsigned 1) (save .classic .regressor Toy.gio Toy.cr)) with
      | .ok st => Toy.returns (predictRegressor1 classic Toy.env Toy.seq st ([0, 0, 1] : ClassicSample)) 1
      | _ => false) = true := by decide +kernel
    split at h
    · rename_i st hst
      exact ⟨Toy.cr, st, ([0, 0, 1] : ClassicSample), 3, 1, 2, 1, Toy.cr_reached, Toy.cr_fitted, by unfold IntParam; decide +kernel,
        .threshold (by decide) (by decide), hst, Toy.returns_of (by decide +kernel), Toy.returns_of h, by decide⟩
    · cases h

/-- The case of the theorems: a trained classifier given another threshold, more room for its weights, more states (with the same counters), another tile size. -/
example : Reached .classic .classifier Toy.cc ∧ StatesOk .classic Toy.cc.params ∧ Fitted .classic Toy.cc ∧ FloatsOk Toy.env.rnd Toy.cc.params ∧ Faithful Toy.gio ∧
    Params.get? Toy.cc.params "threshold" ≠ some (.int 1000) ∧ Setting .classic .classifier Toy.cc "threshold" (.unsigned 1000) (.int 1000) ∧
    Params.get? Toy.cc.params "max_weight" = some (.int 3) ∧ Setting .classic .classifier Toy.cc "max_weight" (.unsigned 50) (.int 50) ∧
    Params.get? Toy.cc.params "number_of_states" = some (.int 3) ∧ Setting .classic .classifier Toy.cc "number_of_states" (.unsigned 100) (.int 100) ∧
    Params.get? Toy.cc.params "clause_output_tile_size" = some (.int 16) ∧ Setting .classic .classifier Toy.cc "clause_output_tile_size" (.unsigned 64) (.int 64) := by
  refine ⟨Toy.cc_reached, Toy.cc_states, Toy.cc_fitted, Toy.floats_of (by decide +kernel), Toy.gio_faithful, by decide +kernel, .threshold (by decide) (by decide), by decide +kernel,
    .maxWeight (by decide) (by decide) (by decide +kernel), by decide +kernel, .states (by decide) (by decide) (by decide +kernel) ?_, by decide +kernel, .tileSize (by decide)⟩
  intro ct N h1 h2
  have e1 : Params.get? Toy.cc.params "counting_type" = some (.str "auto") := by decide +kernel
  have e2 : Params.get? Toy.cc.params "number_of_states" = some (.int 3) := by decide +kernel
  unfold IntParam at h2
  rw [e1] at h1
  rw [e2] at h2
  cases h1
  cases h2
  decide

end Tsetlini
