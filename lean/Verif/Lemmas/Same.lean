import Verif.Lemmas.Runs
import Verif.Model.StateEq
/- Estimators with equal parameters, automata, weights and generators. -/
namespace Tsetlini
open Res Spec

theorem AgreeBut.symm {K : List String} {p q : Params} (h : AgreeBut K p q) : AgreeBut K q p :=
  fun key hk => (h key hk).symm

theorem Reads.agree {p q : Params} {cfg : Cfg} (h : Reads p cfg) (hp : AgreeBut [] p q) : Reads q cfg := by
  have e : ∀ key, q.get? key = p.get? key := fun key => hp key (by simp)
  constructor
  all_goals intros; rw [e]
  · exact h.clauses
  · exact h.T
  · exact h.states
  · exact h.maxWeight
  · exact h.s
  · exact h.boost
  · exact h.weighted
  · exact h.seed
  · exact h.ctype
  · exact h.tile
  · exact h.nJobs
  · exact h.verbose
  · exact h.loss ‹_›
  · exact h.C1 ‹_›
  · exact h.boxMuller ‹_›

section
variable {a : Algo} {k : Kind} {env : Env}

/-- Only the cache may differ. -/
theorem Sim.swap {B : Backend} {L : Lawful B} {cfg cfg' : Cfg} (hv : Valid cfg) (hv' : Valid cfg') (hk : cfg'.kind = cfg.kind)
    {st st' : EstState B env} {ss ss' : SState env} (h1 : Sim L cfg st ss) (h2 : Sim L cfg' st' ss')
    (hp : AgreeBut [] st.params st'.params) (hl : SameLearned st st') : Sim L cfg st' ss := by
  have e : ∀ key, st'.params.get? key = st.params.get? key := fun key => hp key (by simp)
  have hf : isFitted B st'.ta = isFitted B st.ta := by rw [hl.ta]
  rw [isFitted_sim hv h1, isFitted_sim hv' h2] at hf
  rcases h1 with h1 | ⟨l, n, h1⟩
  · rcases h2 with h2 | ⟨l', n', h2⟩
    · exact .inl ⟨h1.reads.agree hp, fun i => by rw [e]; exact h1.labelsP i, fun i => by rw [e]; exact h1.featP i, by rw [hl.ta]; exact h1.mat,
        h2.rows, h2.cnt, h2.w, h1.sw, h1.cl, h2.fb, h2.ls, hl.igen.trans h1.igen, hl.fgen.trans h1.fgen, h1.shape⟩
    · rw [h1.shape, h2.shape] at hf; cases hf
  · rcases h2 with h2 | ⟨l', n', h2⟩
    · rw [h1.shape, h2.shape] at hf; cases hf
    · have r1 := h1.reads.agree hp
      have r2 := h2.reads
      have eT : cfg'.T = cfg.T := by have := r1.T.symm.trans r2.T; simpa using this.symm
      have es : cfg'.s = cfg.s := by have := r1.s.symm.trans r2.s; simpa using this.symm
      have ec : cfg'.clauses = cfg.clauses := by
        have h := r1.clauses
        have h' := r2.clauses
        unfold Cfg.clauseKey at h h'
        rw [hk] at h'
        have := h.symm.trans h'; simpa using this.symm
      have ek : cfg'.k = cfg.k := by unfold Cfg.k; rw [ec]
      have en : n' = n := by
        have := h1.featP.symm.trans ((e _).symm.trans h2.featP)
        simp only [Option.some.injEq, PVal.int.injEq] at this; omega
      have el : l' = l := by
        cases hkk : cfg.kind with
        | regressor => rw [h1.reg1 hkk, h2.reg1 (hk.trans hkk)]
        | classifier =>
          have := (h1.labelsP hkk).symm.trans ((e _).symm.trans (h2.labelsP (hk.trans hkk)))
          simp only [Option.some.injEq, PVal.int.injEq] at this; omega
      subst en el
      refine .inr ⟨l', n', ⟨r1, fun h => by rw [e]; exact h1.labelsP h, by rw [e]; exact h1.featP, h1.reg1, h1.pos,
        by rw [hl.ta]; exact h1.abs, h1.len, by rw [hl.ta]; exact h1.w, h1.wlen, h1.wmax, by rw [← ek]; exact h2.coLen,
        fun h => h2.lsLen (hk.trans h), fun h => by rw [← ek]; exact h2.fbLen (hk.trans h), h2.fbRange,
        by rw [← eT]; exact h2.lsRange, by rw [← es]; exact h2.ct, hl.igen.trans h1.igen, hl.fgen.trans h1.fgen,
        h1.shape, h1.small, h1.nfSmall, h1.alloc⟩⟩

theorem SameLearned.symm {B : Backend} {st st' : EstState B env} (h : SameLearned st st') : SameLearned st' st :=
  ⟨h.ta.symm, h.igen.symm, h.fgen.symm⟩

theorem sims_indist {cfg : Cfg} (hv : Valid cfg) (hN : a.lawful.minStates ≤ cfg.states) (hk : cfg.kind = k)
    {st st' : EstState a.backend env} {ss : SState env} (h1 : Sim a.lawful cfg st ss) (h2 : Sim a.lawful cfg st' ss)
    (hp : AgreeBut [] st.params st'.params) : Indistinguishable a k st st' := by
  intro sc sc' cs ht
  constructor
  · intro e outs hr
    obtain ⟨r', h3, h4, h5, ss', h6, h7⟩ := run_twin (sc' := sc') hv hN rfl rfl hk (R := AgreeBut [])
      (fun c f o p p' h => Call.record_agree h f c o) cs ht h1 h2 hp (.inl rfl) hr
    refine ⟨r'.1, ?_, h5, ⟨h6.ta_eq rfl rfl h7, (h6.igen_eq h7).1, (h6.igen_eq h7).2⟩⟩
    rw [h3]; dsimp only at h4; rw [← h4]
  · intro e outs hr
    obtain ⟨r', h3, h4, h5, ss', h6, h7⟩ := run_twin (sc' := sc) hv hN rfl rfl hk (R := AgreeBut [])
      (fun c f o p p' h => Call.record_agree h f c o) cs ht h2 h1 (AgreeBut.symm hp) (.inl rfl) hr
    refine ⟨r'.1, ?_, AgreeBut.symm h5, ⟨h7.ta_eq rfl rfl h6, (h7.igen_eq h6).1, (h7.igen_eq h6).2⟩⟩
    rw [h3]; dsimp only at h4; rw [← h4]

theorem same_indist {st st' : EstState a.backend env} (h1 : Reached a k st) (h2 : Reached a k st')
    (hN : StatesOk a st.params) (hp : AgreeBut [] st.params st'.params) (hl : SameLearned st st') :
    Indistinguishable a k st st' := by
  have hN' : StatesOk a st'.params := fun N h => hN N (by unfold IntParam at h ⊢; rw [← hp _ (by simp)]; exact h)
  obtain ⟨cfg, ss, rfl, hv, hm, hs⟩ := Reached.sim h1 hN
  obtain ⟨cfg', ss', hk, hv', hm', hs'⟩ := Reached.sim h2 hN'
  exact sims_indist hv hm rfl hs (hs.swap hv hv' hk hs' hp hl) hp

/-! ### Parameters that differ in unobservable keys -/

/-- The parameters that must not be observable. -/
def quietKeys : List String := ["n_jobs", "clause_output_tile_size", "counting_type", "verbose"]

theorem Reads.mix {p q : Params} {cfg cfg' : Cfg} (h : Reads p cfg) (h' : Reads q cfg')
    {K : List String} (hK : ∀ key ∈ K, key ∈ quietKeys) (hp : AgreeBut K p q) :
    Reads q { cfg with ctype := cfg'.ctype, tile := cfg'.tile, nJobs := cfg'.nJobs, verbose := cfg'.verbose } := by
  have e : ∀ key, key ∉ quietKeys → q.get? key = p.get? key := fun key hk => hp key fun h => hk (hK key h)
  constructor
  · rw [e]
    · exact h.clauses
    · unfold Cfg.clauseKey; dsimp only; split <;> decide
  · rw [e _ (by decide)]; exact h.T
  · rw [e _ (by decide)]; exact h.states
  · rw [e _ (by decide)]; exact h.maxWeight
  · rw [e _ (by decide)]; exact h.s
  · rw [e _ (by decide)]; exact h.boost
  · rw [e _ (by decide)]; exact h.weighted
  · rw [e _ (by decide)]; exact h.seed
  · exact h'.ctype
  · exact h'.tile
  · exact h'.nJobs
  · exact h'.verbose
  · intro hk; rw [e _ (by decide)]; exact h.loss hk
  · intro hk; rw [e _ (by decide)]; exact h.C1 hk
  · intro hk; rw [e _ (by decide)]; exact h.boxMuller hk

/-- The twin configurations of two factory-made parameter maps. -/
theorem made_twins {p p' : Params} (hm : Made k p) (hm' : Made k p') {K : List String}
    (hK : ∀ key ∈ K, key ∈ quietKeys) (hp : AgreeBut K p p') (hN : StatesOk a p) :
    ∃ cfg cfg', cfg.kind = k ∧ Valid cfg ∧ a.lawful.minStates ≤ cfg.states ∧ cfg.core = cfg'.core ∧
      Reads p cfg ∧ Reads p' cfg' ∧ NoSizes p ∧ NoSizes p' := by
  obtain ⟨cfg, rfl, hr, hv, hl⟩ := Made.cfg hm
  obtain ⟨cfg', hk, hr', hv', hl'⟩ := Made.cfg hm'
  refine ⟨cfg, _, rfl, hv, ?_, ?_, hr, hr.mix hr' hK hp, hl, hl'⟩
  · rw [lawful_minStates]; exact hN _ hr.states
  · rfl

end
end Tsetlini
