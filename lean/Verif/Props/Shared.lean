import Verif.Lemmas.Mixed
import Verif.Props.Toy
/-
C60: read-only calls in flight at the same time.
-/
namespace Tsetlini
open Res Spec

variable {a : Algo} {k : Kind} {env : Env} {ests : List (EstState a.backend env)} {calls : List (Nat × Call a.Sample k)} {scs : Nat → Sched}

/-- What is known about the estimators of a program. -/
def ProgramFacts (a : Algo) (k : Kind) {env : Env} (ests : List (EstState a.backend env)) (cfg : Nat → Cfg) : Prop :=
  ∀ (t : Nat) (st : EstState a.backend env), ests[t]? = some st →
    ∃ ss, (cfg t).kind = k ∧ Valid (cfg t) ∧ a.lawful.minStates ≤ (cfg t).states ∧ Sim a.lawful (cfg t) st ss

theorem program_facts (h : ReadOnlyProgram a k ests calls) : ∃ cfg : Nat → Cfg, ProgramFacts a k ests cfg := by
  have : ∀ t : Nat, ∃ cfg : Cfg, ∀ st : EstState a.backend env, ests[t]? = some st →
      ∃ ss, cfg.kind = k ∧ Valid cfg ∧ a.lawful.minStates ≤ cfg.states ∧ Sim a.lawful cfg st ss := by
    intro t
    cases he : ests[t]? with
    | none => exact ⟨⟨k, 0, 0, 0, 0, 0, 0, false, 0, "", 0, 0, false, "", .nan, false⟩, fun st h => by cases h⟩
    | some st =>
      obtain ⟨h1, h2⟩ := h.1 st (List.mem_of_getElem? he)
      obtain ⟨cfg, ss, h3⟩ := Reached.sim h1 h2
      exact ⟨cfg, fun st' h => by cases h; exact ⟨ss, h3⟩⟩
  exact ⟨fun t => Classical.choose (this t), fun t => Classical.choose_spec (this t)⟩

/-- The rules of the memories of a program. -/
def programRules (ests : List (EstState a.backend env)) (cfg : Nat → Cfg) (So : Nat → Nat → Bool → Prop) (t : Nat) : Rules :=
  match ests[t]? with
  | some st => rulesOf st (cfg t) (So t)
  | none => ⟨0, 0, fun _ _ => False, fun _ _ => False⟩

theorem programRules_at {cfg : Nat → Cfg} {So : Nat → Nat → Bool → Prop} {t : Nat} {st : EstState a.backend env} (h : ests[t]? = some st) :
    programRules ests cfg So t = rulesOf st (cfg t) (So t) := by
  unfold programRules; rw [h]

/-- Label sums within the threshold. -/
def programSums (cfg : Nat → Cfg) (t : Nat) (v : Int) : Prop := -(cfg t).T ≤ v ∧ v ≤ (cfg t).T

theorem programRules_sums {cfg : Nat → Cfg} (hF : ProgramFacts a k ests cfg) (So : Nat → Nat → Bool → Prop) (t l : Nat) (v : Int)
    (h : (programRules ests cfg So t).Ss l v) : programSums cfg t v := by
  unfold programRules at h
  split at h
  · rename_i st e
    obtain ⟨w, -, rfl⟩ := h
    obtain ⟨ss, -, hv, -⟩ := hF t st e
    exact score_range hv.T
  · exact h.elim

theorem program_mems {cfg : Nat → Cfg} (hF : ProgramFacts a k ests cfg) (So : Nat → Nat → Bool → Prop) (t : Nat) (st : EstState a.backend env)
    (h : ests[t]? = some st) : MemOk (programRules ests cfg So) (programSums cfg) t st.scratch := by
  unfold MemOk
  rw [programRules_at h]
  obtain ⟨ss, -, hv, -, hs⟩ := hF t st h
  exact ⟨rfl, rfl, fun i v hv => sim_lsRange hs v (List.mem_of_getElem? hv)⟩

theorem program_call (h : ReadOnlyProgram a k ests calls) {cfg : Nat → Cfg} (hF : ProgramFacts a k ests cfg)
    {So : Nat → Nat → Bool → Prop} {j t : Nat} {c : Call a.Sample k} (hj : calls[j]? = some (t, c))
    (hSo : ∀ st, ests[t]? = some st → ∀ x ∈ c.samples, ValuesOk st (cfg t) (So t) x) :
    ∃ st, ests[t]? = some st ∧ ∃ n, Proto (programRules ests cfg So t) (fun _ o => PlausibleFor st (cfg t) k o) (fun _ => False) n (callCode (scs j) st c) := by
  obtain ⟨h1, h2, st, h3, o, h4⟩ := h.2 t c (List.mem_of_getElem? hj)
  obtain ⟨h5, h6⟩ := h.1 st (List.mem_of_getElem? h3)
  obtain ⟨e, h7⟩ := alone_sched h5 h6 h2 h4 (scs j)
  obtain ⟨ss, hk, hv, -, hs⟩ := hF t st h3
  rw [programRules_at h3]
  exact ⟨st, h3, proto_call hv hk hs h1 (hSo st h3) h7⟩

theorem program_sharing (h : ReadOnlyProgram a k ests calls) {cfg : Nat → Cfg} (hF : ProgramFacts a k ests cfg) :
    ∃ costs, Sharing (programRules ests cfg fun _ _ _ => True) (programSums cfg)
      (fun j o => ∀ (t : Nat) c st, calls[j]? = some (t, c) → ests[t]? = some st → PlausibleFor st (cfg t) k o) costs (Program.start scs ests calls) :=
  sharing_start (B := a.backend) (P := fun j o => ∀ (t : Nat) c st, calls[j]? = some (t, c) → ests[t]? = some st →
      PlausibleFor st (cfg t) k o) (program_mems hF _) (fun j t c hj => by
    obtain ⟨st, h1, n, h2⟩ := program_call h hF hj (So := fun _ _ _ => True) fun _ _ _ _ _ _ _ => trivial
    refine ⟨st, h1, n, h2.mono fun _ o ho t' c' st' hj' he' => ?_⟩
    rw [hj] at hj'
    cases hj'
    rw [h1] at he'
    cases he'
    exact ho)

/-- At any moment the scratch memory of each estimator has its sizes and sums within the threshold. -/
theorem program_memory (h : ReadOnlyProgram a k ests calls) {cfg : Nat → Cfg} (hF : ProgramFacts a k ests cfg) {n : Nat} {W : Program}
    (hi : Interleaving n (Program.start scs ests calls) W) {t : Nat} {st : EstState a.backend env} (he : ests[t]? = some st) :
    ∃ m, W.mems[t]? = some m ∧ m.out.length = st.cache.clauseOutput.length ∧ m.sums.length = st.cache.labelSum.length ∧
      ∀ s ∈ m.sums, -(cfg t).T ≤ s ∧ s ≤ (cfg t).T := by
  have hS := steady_sharing (Rs := programRules ests cfg fun _ _ _ => True) (K := programSums cfg)
    (fun j o => ∀ (t : Nat) c st, calls[j]? = some (t, c) → ests[t]? = some st → PlausibleFor st (cfg t) k o)
    (programRules_sums hF _)
  obtain ⟨costs, h0⟩ := program_sharing h hF
  obtain ⟨costs', h1, -⟩ := hS.reach h0 hi
  have hlen : W.mems.length = ests.length := by
    clear h1 he hS h0 hF
    generalize hW : Program.start scs ests calls = W₀ at hi
    have : W₀.mems.length = ests.length := by rw [← hW]; simp [Program.start]
    clear hW
    induction hi with
    | refl => exact this
    | step _ hst ih =>
      obtain ⟨_, _, _, _, _, _, _, _, rfl⟩ := hst
      rw [List.length_set]; exact ih this
  have htl : t < W.mems.length := by
    rw [List.getElem?_eq_some_iff] at he; rw [hlen]; exact he.1
  obtain ⟨m1, m2, m3⟩ := h1.2.1 t _ (List.getElem?_eq_getElem htl)
  rw [programRules_at he] at m1 m2
  refine ⟨_, List.getElem?_eq_getElem htl, m1, m2, fun s hs => ?_⟩
  obtain ⟨i, hi⟩ := List.mem_iff_getElem?.1 hs
  exact m3 i s hi

/-- **C60** Any number of read-only calls — predict, decision_function, evaluate, on single samples or batches — may be in
flight at the same time, on the same or on different estimators, if each of them would return when made alone; each may use any number
of threads, which store the clause outputs in any order (`scs`).
Whatever the interleaving of their accesses to the estimators' memory: no access is out of bounds and nothing else
undefined happens, apart from the accesses being unsynchronized (`C60_race`); no call blocks; all return, after a number of
accesses that does not depend on the interleaving; what they return has the right form (labels are below the number of labels,
scores within the threshold, responses between 0 and the threshold); and at any moment each estimator has
learned what it had learned: whatever is then left in its scratch memory, it answers and learns from all further calls as if
the calls had not been made. -/
theorem C60_safe (h : ReadOnlyProgram a k ests calls) :
    AlwaysReturn (Program.start scs ests calls) ∧
    ∀ n W, Interleaving n (Program.start scs ests calls) W →
      (∀ (j : Nat) o, Returns W j o → ∀ (t : Nat) c st, calls[j]? = some (t, c) → ests[t]? = some st →
        ∀ T labels : Int, IntParam st.params "threshold" T →
          (k = .classifier → IntParam st.params "number_of_labels" labels) → Plausible labels T k o) ∧
      ∀ (t : Nat) st, ests[t]? = some st → ∃ m, W.mems[t]? = some m ∧ Indistinguishable a k st (st.withScratch m) := by
  obtain ⟨cfg, hF⟩ := program_facts h
  have hS := steady_sharing (Rs := programRules ests cfg fun _ _ _ => True) (K := programSums cfg)
    (fun j o => ∀ (t : Nat) c st, calls[j]? = some (t, c) → ests[t]? = some st → PlausibleFor st (cfg t) k o)
    (programRules_sums hF _)
  obtain ⟨costs, h0⟩ := program_sharing h hF
  refine ⟨hS.always h0, fun n W hi => ?_⟩
  obtain ⟨costs', h1, -⟩ := hS.reach h0 hi
  refine ⟨fun j o hr t c st hj he T labels hT hl => ?_, fun t st he => ?_⟩
  · obtain ⟨ss, -, -, -, hs⟩ := hF t st he
    have := hs.reads.T
    have e : T = (cfg t).T := by
      unfold IntParam at hT; rw [this] at hT; simpa using hT.symm
    subst e
    exact Sharing.returned h1 hr t c st hj he labels hl
  · obtain ⟨ss, hk, hv, hN, hs⟩ := hF t st he
    obtain ⟨m, e, m1, m2, m3⟩ := program_memory h hF hi he
    exact ⟨m, e, sims_indist hv hN hk hs (sim_withScratch hs m1 m2 m3) fun _ _ => rfl⟩

theorem score_det {v w : Nat → Bool} {ws : List Nat} {k l : Nat} {T : Int} (h : ∀ o, l * k ≤ o → o < l * k + k → v o = w o) :
    score v ws k T l = score w ws k T l := by
  unfold score
  congr 2
  refine List.map_congr_left fun o ho => ?_
  rw [List.mem_range'_1] at ho
  rw [h o ho.1 ho.2]

/-- **C60** If all calls in flight on an estimator are about one and the same sample, they do not disturb each other: whatever
the interleaving, each returns what it returns when made alone. -/
theorem C60_same (h : ReadOnlyProgram a k ests calls) {xs : Nat → a.Sample} (hx : ∀ t c, (t, c) ∈ calls → OnlySample (xs t) c)
    {n : Nat} {W : Program} (hi : Interleaving n (Program.start scs ests calls) W) {j : Nat} {o : Out} (hr : Returns W j o)
    {t : Nat} {c : Call a.Sample k} {st : EstState a.backend env} (hj : calls[j]? = some (t, c)) (he : ests[t]? = some st) :
    Alone a st c o := by
  obtain ⟨cfg, hF⟩ := program_facts h
  let So : Nat → Nat → Bool → Prop := fun t o v => ∃ st, ests[t]? = some st ∧
    a.backend.clauseOutPruned (tileOf (cfg t).tile) st.ta.mat o (xs t) = .ok v
  have hdet : ∀ t o v w, So t o v → So t o w → v = w := by
    rintro t o v w ⟨st, e1, h1⟩ ⟨st', e2, h2⟩
    rw [e1] at e2
    cases e2
    rw [h1] at h2
    cases h2
    rfl
  have hS := steady_sharing (Rs := programRules ests cfg So) (K := programSums cfg)
    (fun j o => ∀ (t : Nat) c st, calls[j]? = some (t, c) → ests[t]? = some st → Alone a st c o)
    (programRules_sums hF _)
  obtain ⟨costs, h0⟩ := sharing_start (B := a.backend) (P := fun j o => ∀ (t : Nat) c st, calls[j]? = some (t, c) → ests[t]? = some st →
      Alone a st c o) (program_mems hF So) (fun j t c hj => by
    have hm := List.mem_of_getElem? hj
    obtain ⟨st, h1, n, h2⟩ := program_call h hF hj (So := So) fun st hst x hxs o v hv => ⟨st, hst, by rw [← hx t c hm x hxs]; exact hv⟩
    refine ⟨st, h1, n, ?_⟩
    obtain ⟨g1, g2, st', g3, o, g4⟩ := h.2 t c hm
    rw [h1] at g3
    cases g3
    obtain ⟨g5, g6⟩ := h.1 st (List.mem_of_getElem? h1)
    obtain ⟨e, g7⟩ := alone_sched g5 g6 g2 g4 (scs j)
    obtain ⟨q, g8⟩ := goes_call g1 g7
    have : Nonempty Out := ⟨o⟩
    rw [programRules_at h1] at h2 ⊢
    obtain ⟨o', g9⟩ := h2.det (hdet t) (by
      rintro l v w ⟨f, f1, rfl⟩ ⟨g, g1, rfl⟩
      exact score_det fun o h3 h4 => hdet t o _ _ (f1 o h3 h4) (g1 o h3 h4))
    obtain ⟨-, rfl⟩ := g9.runs (proper_nothing _ _) g8
    refine g9.mono fun _ b hb t' c' st' hj' he' => ?_
    rw [hj] at hj'
    cases hj'
    rw [h1] at he'
    cases he'
    subst hb
    exact g4)
  obtain ⟨costs', h1, -⟩ := hS.reach h0 hi
  exact Sharing.returned h1 hr t c st hj he

theorem start_targets : (Program.start scs ests calls).calls.map InFlight.target = calls.map Prod.fst := by
  unfold Program.start
  apply List.ext_getElem?
  intro i
  rw [List.getElem?_map, List.getElem?_mapIdx, List.getElem?_map]
  cases calls[i]? <;> rfl

/-- **C60** Estimators do not share scratch memory: calls in flight on different estimators never access the same location, and each
returns what it returns when made alone. -/
theorem C60_separate (h : ReadOnlyProgram a k ests calls) (hd : (calls.map Prod.fst).Nodup)
    {n : Nat} {W : Program} (hi : Interleaving n (Program.start scs ests calls) W) :
    ¬ ScratchRace W ∧ ∀ (j : Nat) o, Returns W j o → ∀ (t : Nat) c st, calls[j]? = some (t, c) → ests[t]? = some st → Alone a st c o := by
  have hout : ∀ j : Nat, ∃ q : Nat × Out, ∀ (t : Nat) c, calls[j]? = some (t, c) → ∃ st, ests[t]? = some st ∧ Alone a st c q.2 ∧
      ∃ m', Runs q.1 (callCode (scs j) st c) st.scratch q.2 m' := by
    intro j
    cases hj : calls[j]? with
    | none => exact ⟨⟨0, .status .sOk⟩, fun t c h => by cases h⟩
    | some tc =>
      obtain ⟨t, c⟩ := tc
      obtain ⟨g1, g2, st, g3, o, g4⟩ := h.2 t c (List.mem_of_getElem? hj)
      obtain ⟨g5, g6⟩ := h.1 st (List.mem_of_getElem? g3)
      obtain ⟨e, g7⟩ := alone_sched g5 g6 g2 g4 (scs j)
      obtain ⟨q, g8⟩ := goes_call g1 g7
      exact ⟨⟨q, o⟩, fun t' c' h' => by cases h'; exact ⟨st, g3, g4, _, g8⟩⟩
  have hS := steady_apart fun j => (Classical.choose (hout j)).2
  have h0 : Apartness (fun j => (Classical.choose (hout j)).2) ((List.range calls.length).map fun j => (Classical.choose (hout j)).1)
      (Program.start scs ests calls) := by
    refine ⟨by simp [Program.start], by rw [start_targets]; exact hd, fun j c n hj hn => ?_⟩
    simp only [Program.start, List.getElem?_map, List.getElem?_mapIdx, Option.map_eq_some_iff] at hj hn ⊢
    obtain ⟨⟨t, c⟩, hj, rfl⟩ := hj
    obtain ⟨j', hn, rfl⟩ := hn
    have : j' = j := by
      rw [List.getElem?_eq_some_iff] at hn
      obtain ⟨_, hn⟩ := hn
      rw [List.getElem_range] at hn
      exact hn.symm
    subst this
    obtain ⟨st, h1, -, m', h2⟩ := Classical.choose_spec (hout j') t c hj
    refine ⟨_, m', ⟨st, h1, rfl⟩, ?_⟩
    simp only [h1]
    exact h2
  obtain ⟨costs, h1, -⟩ := hS.reach h0 hi
  refine ⟨?_, ?_⟩
  · rintro ⟨i, j, c, d, -, -, -, hij, hi, hj, e, -⟩
    exact hij (nodup_target h1.2.1 hi hj e)
  · rintro j o ⟨d, hd, e⟩ t c st hj he
    obtain ⟨st', g1, g2, -⟩ := Classical.choose_spec (hout j) t c hj
    rw [he] at g1
    cases g1
    have hjl : j < W.calls.length := by rw [List.getElem?_eq_some_iff] at hd; exact hd.1
    have hl := h1.1
    obtain ⟨n, hn⟩ : ∃ n, costs[j]? = some n := ⟨_, List.getElem?_eq_getElem (by omega)⟩
    obtain ⟨m, m', -, h3⟩ := h1.2.2 j d n hd hn
    rw [e] at h3
    cases h3
    exact g2

/-! ### What goes wrong -/

/-- The first call does `pre`, then the second runs, then the first does the rest. -/
theorem mixed_of {st : EstState a.backend env} (h : Reached a k st) (hN : StatesOk a st.params) {cx cy : Call a.Sample k}
    (hrx : cx.Reads) (hry : cy.Reads) (htx : WellTyped a cx) (hty : WellTyped a cy) {ox oy o : Out} (hax : Alone a st cx ox)
    (hay : Alone a st cy oy) {pre : CallCode Unit} {rest : CallCode Out} (hcx : callCode (scs 0) st cx = pre.bind fun _ => rest) {m1 : Scratch}
    (hpre : Goes pre st.scratch () m1)
    (hrest : ∀ st2, step a.backend env (scs 1) cy (st.withScratch m1) = .ok (st2, oy) → ∃ m3, Goes rest st2.scratch o m3) :
    ∃ n W, Interleaving n (Program.start scs [st] [(0, cx), (0, cy)]) W ∧ Returns W 0 o ∧ Returns W 1 oy := by
  obtain ⟨n1, hpre⟩ := hpre
  have hp : ReadOnlyProgram a k [st] [(0, cx), (0, cy)] := by
    refine ⟨fun st' hs => by rw [List.mem_singleton.1 hs]; exact ⟨h, hN⟩, fun t c hc => ?_⟩
    simp only [List.mem_cons, Prod.mk.injEq, List.not_mem_nil, or_false] at hc
    rcases hc with ⟨rfl, rfl⟩ | ⟨rfl, rfl⟩
    · exact ⟨hrx, htx, st, rfl, ox, hax⟩
    · exact ⟨hry, hty, st, rfl, oy, hay⟩
  have i1 := runs_interleave hpre (W := Program.start scs [st] [(0, cx), (0, cy)]) (j := 0) (t := 0) (f := fun _ => rest)
    (by rw [← hcx]; rfl) rfl
  obtain ⟨m, e, hind⟩ := (C60_safe hp).2 _ _ i1 |>.2 0 st rfl
  cases e
  obtain ⟨sc, e1, hay⟩ := hay
  obtain ⟨st2, h2⟩ := indist_call hind (scs 1) hty hay
  obtain ⟨n2, g2⟩ := goes_call hry h2
  have hl : m1.out.length = st.cache.clauseOutput.length ∧ m1.sums.length = st.cache.labelSum.length := by
    clear hcx hrest hind i1 h2 g2
    have : ∀ {n : Nat} {p : CallCode Unit} {m : Scratch}, Runs n p m () m1 → m1.out.length = m.out.length ∧ m1.sums.length = m.sums.length := by
      intro n p m hr
      generalize hu : () = u at hr
      induction hr with
      | ret => exact ⟨rfl, rfl⟩
      | loadOut _ _ ih => exact ih hpre hu
      | loadSum _ _ ih => exact ih hpre hu
      | storeOut _ _ ih => have := ih hpre hu; simpa using this
      | storeSum _ _ ih => have := ih hpre hu; simpa using this
    exact this hpre
  rw [callCode_withScratch hl.1 hl.2] at g2
  have i2 := runs_interleave g2 (W := ⟨[m1], [⟨0, rest⟩, ⟨0, callCode (scs 1) st cy⟩]⟩) (j := 1) (t := 0) (f := .ret) (by rw [CallCode.bind_ret]; rfl) rfl
  obtain ⟨m3, n3, g3⟩ := hrest st2 h2
  have i3 := runs_interleave g3 (W := ⟨[st2.scratch], [⟨0, rest⟩, ⟨0, .ret oy⟩]⟩) (j := 0) (t := 0) (f := .ret) (by rw [CallCode.bind_ret]; rfl) rfl
  exact ⟨_, _, interleaving_trans (interleaving_trans i1 i2) i3, ⟨_, rfl, rfl⟩, ⟨_, rfl, rfl⟩⟩

/-- **C60** Two calls on the same estimator with different samples do disturb each other.  For any two samples an estimator
accepts however their threads share the loops, there is an interleaving in which `predict` of the first returns the label of the second. -/
theorem C60_mixed_predict {st : EstState a.backend env} (h : Reached a .classifier st) (hN : StatesOk a st.params)
    {x y : a.Sample} (htx : a.Built x) (hty : a.Built y) {u v : Int} (hx : Alone a st (k := .classifier) (.predict1 x) (.label (.ok u)))
    (hy : Alone a st (k := .classifier) (.predict1 y) (.label (.ok v))) :
    ∃ n W, Interleaving n (Program.start (k := .classifier) scs [st] [(0, .predict1 x), (0, .predict1 y)]) W ∧
      Returns W 0 (.label (.ok v)) ∧ Returns W 1 (.label (.ok v)) := by
  obtain ⟨e, hs⟩ := alone_sched (c := .predict1 x) h hN htx hx (scs 0)
  simp only [step, tagged, predictClassifier1] at hs
  rw [bind_eq_ok] at hs
  obtain ⟨⟨s, r⟩, hs, h'⟩ := hs
  cases h'
  rw [bind_eq_ok] at hs
  obtain ⟨sm, h0, hs⟩ := hs
  split at hs
  · cases hs
  · rename_i hok
    rw [bind_eq_ok] at hs
    obtain ⟨i, h1, hs⟩ := hs
    rw [bind_eq_ok] at hs
    obtain ⟨c, h2, hs⟩ := hs
    obtain ⟨g1, e1, e2, -⟩ := goes_scores h2
    refine mixed_of (cx := .predict1 x) (cy := .predict1 y) h hN trivial trivial htx hty hx hy (pre := scoresCode a.backend (scs 0) st.cache.tick st.ta i x)
      (rest := (argmaxCode st.cache.labelSum.length).bind fun m => .ret (.label (.ok (m : Int)))) ?_ g1 ?_
    · simp only [callCode, predictClassifier1Code]
      rw [h0, CallCode.ofRes_ok_bind, if_neg hok, h1, CallCode.ofRes_ok_bind, CallCode.bind_assoc]
      congr; funext _
      rw [CallCode.bind_assoc]
      rfl
    · intro st2 hs2
      simp only [step, tagged, predictClassifier1] at hs2
      rw [bind_eq_ok] at hs2
      obtain ⟨⟨s, r⟩, hs2, h'⟩ := hs2
      cases h'
      rw [bind_eq_ok] at hs2
      obtain ⟨sm, h0, hs2⟩ := hs2
      split at hs2
      · cases hs2
      · rw [bind_eq_ok] at hs2
        obtain ⟨i, h1, hs2⟩ := hs2
        rw [bind_eq_ok] at hs2
        obtain ⟨c2, h2, hs2⟩ := hs2
        cases hs2
        obtain ⟨-, e3, -, -⟩ := goes_scores h2
        have ga := goes_argmax c2.clauseOutput c2.labelSum
        rw [show c2.labelSum.length = st.cache.labelSum.length from e3.trans e1] at ga
        exact ⟨_, ga.bind (.ret _ _)⟩

/-- **C60** In the same way `decision_function` of one sample may return the scores of another, -/
theorem C60_mixed_decision {st : EstState a.backend env} (h : Reached a .classifier st) (hN : StatesOk a st.params)
    {x y : a.Sample} (htx : a.Built x) (hty : a.Built y) {u v : List Int}
    (hx : Alone a st (k := .classifier) (.decision1 x) (.scores (.ok u)))
    (hy : Alone a st (k := .classifier) (.decision1 y) (.scores (.ok v))) :
    ∃ n W, Interleaving n (Program.start (k := .classifier) scs [st] [(0, .decision1 x), (0, .decision1 y)]) W ∧
      Returns W 0 (.scores (.ok v)) ∧ Returns W 1 (.scores (.ok v)) := by
  obtain ⟨e, hs⟩ := alone_sched (c := .decision1 x) h hN htx hx (scs 0)
  simp only [step, tagged, decision1] at hs
  rw [bind_eq_ok] at hs
  obtain ⟨⟨s, r⟩, hs, h'⟩ := hs
  cases h'
  rw [bind_eq_ok] at hs
  obtain ⟨sm, h0, hs⟩ := hs
  split at hs
  · cases hs
  · rename_i hok
    rw [bind_eq_ok] at hs
    obtain ⟨i, h1, hs⟩ := hs
    rw [bind_eq_ok] at hs
    obtain ⟨c, h2, hs⟩ := hs
    obtain ⟨g1, e1, e2, -⟩ := goes_scores h2
    refine mixed_of (cx := .decision1 x) (cy := .decision1 y) h hN trivial trivial htx hty hx hy (pre := scoresCode a.backend (scs 0) st.cache.tick st.ta i x)
      (rest := (copyCode st.cache.labelSum.length).bind fun l => .ret (.scores (.ok l))) ?_ g1 ?_
    · simp only [callCode, decision1Code]
      rw [h0, CallCode.ofRes_ok_bind, if_neg hok, h1, CallCode.ofRes_ok_bind, CallCode.bind_assoc]
      congr; funext _
      rw [CallCode.bind_assoc]
      rfl
    · intro st2 hs2
      simp only [step, tagged, decision1] at hs2
      rw [bind_eq_ok] at hs2
      obtain ⟨⟨s, r⟩, hs2, h'⟩ := hs2
      cases h'
      rw [bind_eq_ok] at hs2
      obtain ⟨sm, h0, hs2⟩ := hs2
      split at hs2
      · cases hs2
      · rw [bind_eq_ok] at hs2
        obtain ⟨i, h1, hs2⟩ := hs2
        rw [bind_eq_ok] at hs2
        obtain ⟨c2, h2, hs2⟩ := hs2
        cases hs2
        obtain ⟨-, e3, -, -⟩ := goes_scores h2
        have ga := goes_copy c2.clauseOutput c2.labelSum
        rw [show c2.labelSum.length = st.cache.labelSum.length from e3.trans e1] at ga
        exact ⟨_, ga.bind (.ret _ _)⟩

/-- **C60** and `predict` of a regressor the response to another sample. -/
theorem C60_mixed_response {st : EstState a.backend env} (h : Reached a .regressor st) (hN : StatesOk a st.params)
    {x y : a.Sample} (htx : a.Built x) (hty : a.Built y) {u v : Int} (hx : Alone a st (k := .regressor) (.predictR1 x) (.label (.ok u)))
    (hy : Alone a st (k := .regressor) (.predictR1 y) (.label (.ok v))) :
    ∃ n W, Interleaving n (Program.start (k := .regressor) scs [st] [(0, .predictR1 x), (0, .predictR1 y)]) W ∧
      Returns W 0 (.label (.ok v)) ∧ Returns W 1 (.label (.ok v)) := by
  obtain ⟨e, hs⟩ := alone_sched (c := .predictR1 x) h hN htx hx (scs 0)
  simp only [step, tagged, predictRegressor1] at hs
  rw [bind_eq_ok] at hs
  obtain ⟨⟨s, r⟩, hs, h'⟩ := hs
  cases h'
  rw [bind_eq_ok] at hs
  obtain ⟨sm, h0, hs⟩ := hs
  split at hs
  · cases hs
  · rename_i hok
    simp only [bind_eq_ok] at hs
    obtain ⟨nj, h1, tile, h2, outputs, h3, T, h4, ⟨c1, v1⟩, h5, hs⟩ := hs
    unfold responseInto at h5
    rw [bind_eq_ok] at h5
    obtain ⟨c, h5, -⟩ := h5
    obtain ⟨g1, e1, e2, -⟩ := goes_outputs h5 st.cache.labelSum
    refine mixed_of (cx := .predictR1 x) (cy := .predictR1 y) h hN trivial trivial htx hty hx hy
      (pre := outputsCode (scs 0) st.cache.tick (fun o => a.backend.clauseOutPruned (tileOf tile) st.ta.mat o x) outputs.toNat)
      (rest := (regressorVotesCode st.ta.weights st.cache.clauseOutput.length T).bind fun v => .ret (.label (.ok v))) ?_ g1 ?_
    · simp only [callCode, predictRegressor1Code]
      rw [h0, CallCode.ofRes_ok_bind, if_neg hok, h1, h2, h3, h4]
      simp only [CallCode.ofRes_ok_bind, responseCode, CallCode.bind_assoc]
      rfl
    · intro st2 hs2
      simp only [step, tagged, predictRegressor1] at hs2
      rw [bind_eq_ok] at hs2
      obtain ⟨⟨s, r⟩, hs2, h'⟩ := hs2
      cases h'
      rw [bind_eq_ok] at hs2
      obtain ⟨sm, h0, hs2⟩ := hs2
      split at hs2
      · cases hs2
      · simp only [bind_eq_ok] at hs2
        obtain ⟨nj, h1, tile', h2, outputs', h3, T', h4', ⟨c2, v2⟩, h5, hs2⟩ := hs2
        have : T' = T := by
          have : st.params.threshold = .ok T' := h4'
          rw [h4] at this; cases this; rfl
        subst this
        cases hs2
        unfold responseInto at h5
        rw [bind_eq_ok] at h5
        obtain ⟨c3, h5, h6⟩ := h5
        rw [bind_eq_ok] at h6
        obtain ⟨v, h6, h7⟩ := h6
        cases h7
        obtain ⟨-, -, e4, -⟩ := goes_outputs h5 st.cache.labelSum
        have ga := goes_regressorVotes h6 c2.labelSum
        rw [show c2.clauseOutput.length = st.cache.clauseOutput.length from e4.trans e2] at ga
        exact ⟨_, ga.bind (.ret _ _)⟩

/-- A call that stores the first clause's output, and before that, if anything, other clauses' outputs. -/
inductive Heads {α : Type} : CallCode α → Prop
  | here {v : Bool} {k : CallCode α} : Heads (.storeOut 0 v k)
  | later {o : Nat} {v : Bool} {k : CallCode α} : Heads k → Heads (.storeOut o v k)

theorem Heads.bind {α β : Type} {code : CallCode α} (h : Heads code) (f : α → CallCode β) : Heads (code.bind f) := by
  induction h with
  | here => exact .here
  | later _ ih => exact .later ih

theorem outputsCode_head {sc : Sched} {tick : Nat} {clause : Nat → Res Bool} {n : Nat} (hn : 0 < n) (h : ∀ o, o < n → ∃ v, clause o = .ok v) :
    Heads (outputsCode sc tick clause n) := by
  have hm : ∀ o, o ∈ sc.order tick 0 n ↔ o < n := fun o => by rw [(sc.order_law tick 0 n).mem_iff, mem_range]; omega
  have key : ∀ l : List Nat, (∀ o ∈ l, ∃ v, clause o = .ok v) → 0 ∈ l →
      Heads (CallCode.iter l (fun o (_ : Unit) => (CallCode.ofRes (clause o)).bind fun v => CallCode.storeOut o v (.ret ())) ()) := by
    intro l
    induction l with
    | nil => intro _ h; cases h
    | cons o l ih =>
      intro h1 h2
      obtain ⟨v, e⟩ := h1 o List.mem_cons_self
      simp only [CallCode.iter]
      rw [e, CallCode.ofRes_ok_bind]
      rcases List.mem_cons.1 h2 with h2 | h2
      · subst h2; exact .here
      · exact .later (ih (fun o ho => h1 o (List.mem_cons_of_mem _ ho)) h2)
  exact key _ (fun o ho => h o ((hm o).1 ho)) ((hm 0).2 hn)

/-- A call may go on until it is about to store the first clause's output. -/
theorem heads_reach {W₀ : Program} (hs : ∀ n W, Interleaving n W₀ W → ¬ Misbehaves W) {code : CallCode Out} (h : Heads code) {n : Nat} {W : Program}
    (hi : Interleaving n W₀ W) {j t : Nat} (hj : W.calls[j]? = some ⟨t, code⟩) :
    ∃ n' W', Interleaving n' W₀ W' ∧ (∃ v k, W'.calls[j]? = some ⟨t, .storeOut 0 v k⟩) ∧ ∀ i, i ≠ j → W'.calls[i]? = W.calls[i]? := by
  induction h generalizing n W with
  | here => exact ⟨n, W, hi, ⟨_, _, hj⟩, fun _ _ => rfl⟩
  | @later o v c _ ih =>
    cases hm : W.mems[t]? with
    | none => exact absurd ⟨_, List.mem_of_getElem? hj, .inr hm⟩ (hs n W hi)
    | some m =>
      cases ha : wr m.out o v with
      | ok l =>
        have hst : Program.Step W ⟨W.mems.set t { m with out := l }, W.calls.set j ⟨t, c⟩⟩ :=
          ⟨j, _, m, c, { m with out := l }, hj, hm, by simp only [CallCode.act, ha]; rfl, rfl⟩
        have hl : j < W.calls.length := by rw [List.getElem?_eq_some_iff] at hj; exact hj.1
        obtain ⟨n', W', h1, h2, h3⟩ := ih (.step hi hst) (by dsimp only; rw [List.getElem?_set_self hl])
        refine ⟨n', W', h1, h2, fun i hij => ?_⟩
        rw [h3 i hij]
        dsimp only
        rw [List.getElem?_set_ne (Ne.symm hij)]
      | _ => exact absurd ⟨_, List.mem_of_getElem? hj, .inl ⟨m, hm, _, by simp only [CallCode.act, ha]; rfl, fun p hp => by cases hp⟩⟩ (hs n W hi)

theorem heads_scores {sc sc' : Sched} {tick : Nat} {B : Backend} {ta : TA B} {i : InferCfg} {x : B.Sample} {c c' : Cache} (hi : 0 < i.outputs.toNat)
    (h : scores B sc' ta i x c = .ok c') : Heads (scoresCode B sc tick ta i x) := by
  unfold scores scoresInto at h
  rw [bind_eq_ok] at h
  obtain ⟨c1, h, -⟩ := h
  exact (outputsCode_head hi (outputs_all_ok h)).bind _

theorem heads_response {sc sc' : Sched} {tick : Nat} {B : Backend} {ta : TA B} {t : Tile} {outputs T : Int} {n : Nat} {x : B.Sample} {c : Cache} {r : Cache × Int}
    (hi : 0 < outputs.toNat) (h : responseInto B sc' ta t outputs T x c = .ok r) : Heads (responseCode B sc tick ta t outputs T n x) := by
  unfold responseInto at h
  rw [bind_eq_ok] at h
  obtain ⟨c1, h, -⟩ := h
  exact (outputsCode_head hi (outputs_all_ok h)).bind _

theorem heads_iter {ι σ : Type} {l : List ι} {f : ι → σ → CallCode σ} {s : σ} (hl : l ≠ []) (h : ∀ i ∈ l, ∀ s, Heads (f i s)) :
    Heads (CallCode.iter l f s) := by
  cases l with
  | nil => exact absurd rfl hl
  | cons i l => exact (h i (by simp) s).bind _

/-- A read-only call that is not rejected begins by storing the clauses' outputs, the first clause's among them. -/
theorem heads_call {sc sc' : Sched} {st : EstState a.backend env} {cfg : Cfg} {ss : SState env} (hv : Valid cfg) (hk : cfg.kind = k)
    (h : Sim a.lawful cfg st ss) {c : Call a.Sample k} (hc : c.Reads) {st' : EstState a.backend env} {o : Out}
    (hs : step a.backend env sc' c st = .ok (st', o)) (ho : Accepted o) (hx : c.samples ≠ []) : Heads (callCode sc st c) := by
  have hkp := hv.k_pos
  have hpos : ∀ {labels nf : Nat}, Fit a.lawful cfg labels nf st ss → 0 < (cfg.infer labels).outputs.toNat := by
    intro labels nf hf
    have := hf.pos
    show 0 < (((labels * cfg.k : Nat) : Int)).toNat
    rw [Int.toNat_natCast]
    exact Nat.mul_pos (by omega) (by omega)
  cases c with
  | fit => exact hc.elim
  | partialFit => exact hc.elim
  | fitR => exact hc.elim
  | partialFitR => exact hc.elim
  | predict1 x =>
    simp only [step, tagged, predictClassifier1] at hs
    rw [bind_eq_ok] at hs
    obtain ⟨⟨s, r⟩, hs, h'⟩ := hs
    cases h'
    rw [bind_eq_ok] at hs
    obtain ⟨sm, h0, hs⟩ := hs
    simp only [callCode, predictClassifier1Code]
    rw [h0, CallCode.ofRes_ok_bind]
    split at hs
    · cases hs; exact ho.elim
    · rename_i h1
      rcases h.codeStart hv h0 with h2 | ⟨labels, nf, hf⟩
      · exact absurd h2 h1
      · rw [if_neg h1]
        rw [hf.inferCfg hv hk, ok_bind] at hs
        rw [bind_eq_ok] at hs
        obtain ⟨c, h2, -⟩ := hs
        rw [hf.inferCfg hv hk, CallCode.ofRes_ok_bind]
        exact ((heads_scores (hpos hf) h2).bind _).bind _
  | decision1 x =>
    simp only [step, tagged, decision1] at hs
    rw [bind_eq_ok] at hs
    obtain ⟨⟨s, r⟩, hs, h'⟩ := hs
    cases h'
    rw [bind_eq_ok] at hs
    obtain ⟨sm, h0, hs⟩ := hs
    simp only [callCode, decision1Code]
    rw [h0, CallCode.ofRes_ok_bind]
    split at hs
    · cases hs; exact ho.elim
    · rename_i h1
      rcases h.codeStart hv h0 with h2 | ⟨labels, nf, hf⟩
      · exact absurd h2 h1
      · rw [if_neg h1]
        rw [hf.inferCfg hv hk, ok_bind] at hs
        rw [bind_eq_ok] at hs
        obtain ⟨c, h2, -⟩ := hs
        rw [hf.inferCfg hv hk, CallCode.ofRes_ok_bind]
        exact ((heads_scores (hpos hf) h2).bind _).bind _
  | predict X =>
    simp only [step, tagged, predictClassifier] at hs
    rw [bind_eq_ok] at hs
    obtain ⟨⟨s, r⟩, hs, h'⟩ := hs
    cases h'
    rw [bind_eq_ok] at hs
    obtain ⟨sm, h0, hs⟩ := hs
    simp only [callCode, predictClassifierCode]
    rw [h0, CallCode.ofRes_ok_bind]
    split at hs
    · cases hs; exact ho.elim
    · rename_i h1
      rcases h.codeStartBatch hv h0 with h2 | ⟨labels, nf, hf⟩
      · exact absurd h2 h1
      · rw [if_neg h1]
        rw [hf.inferCfg hv hk, ok_bind] at hs
        rw [bind_eq_ok] at hs
        obtain ⟨c, h2, -⟩ := hs
        rw [hf.inferCfg hv hk, CallCode.ofRes_ok_bind]
        refine ((heads_iter hx fun x hxX s => ?_).bind _).bind _
        obtain ⟨c1, c2, h3⟩ := batchC_all_ok h2 x hxX
        exact (heads_scores (hpos hf) h3).bind _
  | decision X =>
    simp only [step, tagged, decision] at hs
    rw [bind_eq_ok] at hs
    obtain ⟨⟨s, r⟩, hs, h'⟩ := hs
    cases h'
    rw [bind_eq_ok] at hs
    obtain ⟨sm, h0, hs⟩ := hs
    simp only [callCode, decisionCode]
    rw [h0, CallCode.ofRes_ok_bind]
    split at hs
    · cases hs; exact ho.elim
    · rename_i h1
      rcases h.codeStartBatch hv h0 with h2 | ⟨labels, nf, hf⟩
      · exact absurd h2 h1
      · rw [if_neg h1]
        rw [hf.inferCfg hv hk, ok_bind] at hs
        rw [bind_eq_ok] at hs
        obtain ⟨c, h2, -⟩ := hs
        rw [hf.inferCfg hv hk, CallCode.ofRes_ok_bind]
        refine ((heads_iter hx fun x hxX s => ?_).bind _).bind _
        obtain ⟨c1, c2, h3⟩ := batchC_all_ok h2 x hxX
        exact (heads_scores (hpos hf) h3).bind _
  | evaluate X y =>
    simp only [step, tagged] at hs
    rw [bind_eq_ok] at hs
    obtain ⟨⟨s, r⟩, hs, -⟩ := hs
    rcases h with h | ⟨labels, nf, hf⟩
    · exact absurd hs (evaluate_unfit h X y)
    · unfold evaluate at hs
      simp only [callCode, evaluateCode]
      rw [hf.inferCfg hv hk, ok_bind] at hs
      rw [bind_eq_ok] at hs
      obtain ⟨⟨c, rs⟩, h2, -⟩ := hs
      rw [hf.inferCfg hv hk, CallCode.ofRes_ok_bind]
      refine ((heads_iter ?_ fun it hit s => ?_).bind _).bind _
      · intro e
        have := congrArg List.length e
        rw [List.length_range] at this
        exact hx (List.length_eq_zero_iff.1 this)
      · obtain ⟨x, yi, h3, h4, c1, c2, h5⟩ := eval_all_ok h2 it hit
        rw [h3, CallCode.ofRes_ok_bind]
        exact (heads_scores (hpos hf) h5).bind _
  | predictR1 x =>
    simp only [step, tagged, predictRegressor1] at hs
    rw [bind_eq_ok] at hs
    obtain ⟨⟨s, r⟩, hs, h'⟩ := hs
    cases h'
    rw [bind_eq_ok] at hs
    obtain ⟨sm, h0, hs⟩ := hs
    simp only [callCode, predictRegressor1Code]
    rw [h0, CallCode.ofRes_ok_bind]
    split at hs
    · cases hs; exact ho.elim
    · rename_i h1
      rcases h.codeStart hv h0 with h2 | ⟨labels, nf, hf⟩
      · exact absurd h2 h1
      · rw [if_neg h1]
        have hr := hf.reads
        rw [hr.p_nJobs, ok_bind, hr.p_tile, ok_bind, hr.p_outR hv hk, ok_bind, hr.p_T, ok_bind, bind_eq_ok] at hs
        obtain ⟨c, h2, -⟩ := hs
        rw [hr.p_nJobs, hr.p_tile, hr.p_outR hv hk, hr.p_T]
        simp only [CallCode.ofRes_ok_bind]
        exact ((heads_response (by rw [Int.toNat_natCast]; omega) h2).bind _).bind _
  | predictR X =>
    simp only [step, tagged, predictRegressor] at hs
    rw [bind_eq_ok] at hs
    obtain ⟨⟨s, r⟩, hs, h'⟩ := hs
    cases h'
    rw [bind_eq_ok] at hs
    obtain ⟨sm, h0, hs⟩ := hs
    simp only [callCode, predictRegressorCode]
    rw [h0, CallCode.ofRes_ok_bind]
    split at hs
    · cases hs; exact ho.elim
    · rename_i h1
      rcases h.codeStartBatch hv h0 with h2 | ⟨labels, nf, hf⟩
      · exact absurd h2 h1
      · rw [if_neg h1]
        have hr := hf.reads
        rw [hr.p_T, ok_bind, hr.p_outR hv hk, ok_bind, hr.p_nJobs, ok_bind, hr.p_tile, ok_bind, bind_eq_ok] at hs
        obtain ⟨c, h2, -⟩ := hs
        rw [hr.p_nJobs, hr.p_tile, hr.p_outR hv hk, hr.p_T]
        simp only [CallCode.ofRes_ok_bind]
        refine ((heads_iter hx fun x hxX s => ?_).bind _).bind _
        obtain ⟨c1, c2, h3⟩ := batchR_all_ok h2 x hxX
        exact (heads_response (by rw [Int.toNat_natCast]; omega) h3).bind _

/-- **C60** Although they are `const`, no two of these calls may be in flight on one estimator at the same time in a C++ program:
if neither is rejected and both have a sample to look at, they race, whatever their samples and however many threads they use. -/
theorem C60_race {st : EstState a.backend env} (h : Reached a k st) (hN : StatesOk a st.params) {c d : Call a.Sample k}
    (hc : c.Reads) (hd : d.Reads) (htc : WellTyped a c) (htd : WellTyped a d) (hxc : c.samples ≠ []) (hxd : d.samples ≠ [])
    {o o' : Out} (hac : Alone a st c o) (had : Alone a st d o') (ho : Accepted o) (ho' : Accepted o') :
    ∃ n W, Interleaving n (Program.start scs [st] [(0, c), (0, d)]) W ∧ ScratchRace W := by
  obtain ⟨cfg, ss, hk, hv, -, hs⟩ := Reached.sim h hN
  obtain ⟨e, h1⟩ := alone_sched h hN htc hac inOrder
  obtain ⟨e', h2⟩ := alone_sched h hN htd had inOrder
  have hp : ReadOnlyProgram a k [st] [(0, c), (0, d)] := by
    refine ⟨fun st' hs => by rw [List.mem_singleton.1 hs]; exact ⟨h, hN⟩, fun t c' hc' => ?_⟩
    simp only [List.mem_cons, Prod.mk.injEq, List.not_mem_nil, or_false] at hc'
    rcases hc' with ⟨rfl, rfl⟩ | ⟨rfl, rfl⟩
    · exact ⟨hc, htc, st, rfl, o, hac⟩
    · exact ⟨hd, htd, st, rfl, o', had⟩
  obtain ⟨⟨total, -, hsafe⟩, -⟩ := C60_safe (scs := scs) hp
  have hsafe' := fun n W hi => (hsafe n W hi).1
  obtain ⟨n1, W1, i1, ⟨v, p, g1⟩, f1⟩ := heads_reach hsafe' (heads_call (sc := scs 0) hv hk hs hc h1 ho hxc) (.refl _) (j := 0) (t := 0) rfl
  obtain ⟨n2, W2, i2, ⟨w, q, g2⟩, f2⟩ := heads_reach hsafe' (heads_call (sc := scs 1) hv hk hs hd h2 ho' hxd) i1 (j := 1) (t := 0)
    (by rw [f1 1 (by decide)]; rfl)
  exact ⟨n2, W2, i2, 0, 1, ⟨0, .storeOut 0 v p⟩, ⟨0, .storeOut 0 w q⟩, .out 0, true, true, by decide, by rw [f2 0 (by decide)]; exact g1, g2, rfl, rfl, rfl, .inl rfl⟩

/-! ### Programs such as these -/

deriving instance DecidableEq for Except
deriving instance DecidableEq for Out

namespace Toy

theorem alone_of {st : EstState a.backend Toy.env} {c : Call a.Sample k} {o : Out}
    (h : ((step a.backend Toy.env Toy.seq c st).bind fun r => .ok r.2) = .ok o) : Alone a st c o := by
  rw [bind_eq_ok] at h
  obtain ⟨⟨s, o'⟩, h, e⟩ := h
  cases e
  exact ⟨_, _, h⟩

/-- The program in which the calls numbered in the list act in turn. -/
def exec (W : Program) : List Nat → Option Program
  | [] => some W
  | j :: js =>
    match W.calls[j]? with
    | none => none
    | some c =>
      match W.mems[c.target]? with
      | none => none
      | some m =>
        match c.code.act m with
        | some (.ok (code, m')) => exec ⟨W.mems.set c.target m', W.calls.set j ⟨c.target, code⟩⟩ js
        | _ => none

theorem exec_interleaving {W W' : Program} {js : List Nat} (h : exec W js = some W') : ∃ n, Interleaving n W W' := by
  induction js generalizing W with
  | nil => cases h; exact ⟨0, .refl _⟩
  | cons j js ih =>
    unfold exec at h
    split at h
    · cases h
    · rename_i c hc
      split at h
      · cases h
      · rename_i m hm
        split at h
        · rename_i code m' ha
          obtain ⟨n, h1⟩ := ih h
          exact ⟨_, interleaving_trans (.step (.refl W) ⟨j, c, m, code, m', hc, hm, ha, rfl⟩) h1⟩
        · cases h

/-- What call `j` has returned. -/
def returned (W : Program) (j : Nat) : Option Out :=
  match W.calls[j]? with
  | some ⟨_, .ret o⟩ => some o
  | _ => none

theorem returned_returns {W : Program} {j : Nat} {o : Out} (h : returned W j = some o) : Returns W j o := by
  unfold returned at h
  split at h
  · rename_i t o' e
    cases h
    exact ⟨_, e, rfl⟩
  · cases h

end Toy

/-- **C60** Nor need the answer be that of either sample: a trained classifier predicts label 1 for two samples, but with both
calls in flight the answer for one of them is label 2. -/
theorem C60_neither : ∃ (st : EstState Algo.classic.backend Toy.env) (x y : ClassicSample), Reached .classic .classifier st ∧
    StatesOk .classic st.params ∧ Alone .classic st (k := .classifier) (.predict1 x) (.label (.ok 1)) ∧
    Alone .classic st (k := .classifier) (.predict1 y) (.label (.ok 1)) ∧
    ∃ n W, Interleaving n (Program.start (B := Algo.classic.backend) (k := .classifier) (fun _ => inOrder) [st] [(0, .predict1 x), (0, .predict1 y)]) W ∧
      Returns W 1 (.label (.ok 2)) := by
  refine ⟨Toy.cc, [0, 0, 0], [0, 0, 1], Toy.cc_reached, Toy.cc_states, Toy.alone_of (by decide +kernel), Toy.alone_of (by decide +kernel), ?_⟩
  have h : ((Toy.exec (Program.start (B := Algo.classic.backend) (k := .classifier) (fun _ => inOrder) [Toy.cc] [(0, .predict1 [0, 0, 0]), (0, .predict1 [0, 0, 1])])
      (List.replicate 15 1 ++ List.replicate 12 0 ++ List.replicate 4 1)).bind fun W => Toy.returned W 1) = some (.label (.ok 2)) := by
    decide +kernel
  rw [Option.bind_eq_some_iff] at h
  obtain ⟨W, h1, h2⟩ := h
  obtain ⟨n, h3⟩ := Toy.exec_interleaving h1
  exact ⟨n, W, h3, Toy.returned_returns h2⟩

/-- Two calls with several threads each, which store the clause outputs in other orders than the sequential one; the second call acts first. -/
example : ∃ n W, Interleaving n (Program.start (B := Algo.classic.backend) (k := .classifier) (fun j => if j = 0 then Toy.rev else inOrder) [Toy.cc]
      [(0, .predict1 [1, 0, 1]), (0, .predict1 [1, 1, 0])]) W ∧ Returns W 0 (.label (.ok 1)) ∧ Returns W 1 (.label (.ok 0)) := by
  have h : ((Toy.exec (Program.start (B := Algo.classic.backend) (k := .classifier) (fun j => if j = 0 then Toy.rev else inOrder) [Toy.cc]
      [(0, .predict1 [1, 0, 1]), (0, .predict1 [1, 1, 0])]) (List.replicate 19 1 ++ List.replicate 19 0)).bind fun W =>
        (Toy.returned W 0).bind fun o => (Toy.returned W 1).bind fun p => some (o, p)) = some (.label (.ok 1), .label (.ok 0)) := by
    decide +kernel
  rw [Option.bind_eq_some_iff] at h
  obtain ⟨W, h1, h2⟩ := h
  rw [Option.bind_eq_some_iff] at h2
  obtain ⟨o, h2, h3⟩ := h2
  rw [Option.bind_eq_some_iff] at h3
  obtain ⟨p, h3, h4⟩ := h3
  cases h4
  obtain ⟨n, h5⟩ := Toy.exec_interleaving h1
  exact ⟨n, W, h5, Toy.returned_returns h2, Toy.returned_returns h3⟩

/-- Two trained classifiers, three calls on the one and one on the other. -/
example : ReadOnlyProgram .classic .classifier [Toy.cc, Toy.cc]
    [(0, .predict1 [1, 0, 1]), (0, .decision [[1, 1, 0], [0, 0, 0]]), (1, .evaluate Toy.X [1, 0, 0, 1]), (0, .predict [[1, 1, 2]])] := by
  refine ⟨fun st hs => ?_, fun t c hc => ?_⟩
  · have : st = Toy.cc := by simpa using hs
    subst this; exact ⟨Toy.cc_reached, Toy.cc_states⟩
  · simp only [List.mem_cons, Prod.mk.injEq, List.not_mem_nil, or_false] at hc
    rcases hc with ⟨rfl, rfl⟩ | ⟨rfl, rfl⟩ | ⟨rfl, rfl⟩ | ⟨rfl, rfl⟩
    · exact ⟨trivial, trivial, _, rfl, .label (.ok 1), Toy.alone_of (by decide +kernel)⟩
    · exact ⟨trivial, fun _ _ => trivial, _, rfl, .scoreRows (.ok [[1, -1, 0], [-2, 0, 0]]), Toy.alone_of (by decide +kernel)⟩
    · refine ⟨trivial, ⟨fun _ _ => trivial, by decide⟩, _, rfl, .accuracy (.ok (.fin 1)), Toy.alone_of (by decide +kernel)⟩
    · exact ⟨trivial, fun _ _ => trivial, _, rfl, _, Toy.alone_of (o := .labels (.error
        ⟨.valueError, "Only values of 0 and 1 can be used in X"⟩)) (by decide +kernel)⟩

/-- Calls for one sample; calls on different estimators. -/
example : OnlySample ([1, 0, 1] : ClassicSample) (.predict1 [1, 0, 1] : Call ClassicSample .classifier) ∧
    OnlySample ([1, 0, 1] : ClassicSample) (.evaluate [[1, 0, 1], [1, 0, 1]] [0, 1] : Call ClassicSample .classifier) ∧
    (([(1, .predict1 [1, 0, 1]), (0, .predict1 [1, 1, 0])] : List (Nat × Call ClassicSample .classifier)).map Prod.fst).Nodup := by
  refine ⟨?_, ?_, by decide⟩
  · intro x hx; simpa [Call.samples] using hx
  · intro x hx; simpa [Call.samples] using hx

/-- Samples with different labels, scores and responses. -/
example : Alone .classic Toy.cc (k := .classifier) (.predict1 [1, 0, 1]) (.label (.ok 1)) ∧
    Alone .classic Toy.cc (k := .classifier) (.predict1 [1, 1, 0]) (.label (.ok 0)) ∧
    Alone .classic Toy.cc (k := .classifier) (.decision1 [1, 0, 1]) (.scores (.ok [0, 1, 1])) ∧
    Alone .classic Toy.cc (k := .classifier) (.decision1 [1, 1, 0]) (.scores (.ok [1, -1, 0])) ∧
    Alone .classic Toy.cr (k := .regressor) (.predictR1 [1, 0, 1]) (.label (.ok 2)) ∧
    Alone .classic Toy.cr (k := .regressor) (.predictR1 [1, 1, 0]) (.label (.ok 1)) :=
  ⟨Toy.alone_of (by decide +kernel), Toy.alone_of (by decide +kernel), Toy.alone_of (by decide +kernel), Toy.alone_of (by decide +kernel),
    Toy.alone_of (by decide +kernel), Toy.alone_of (by decide +kernel)⟩

end Tsetlini
