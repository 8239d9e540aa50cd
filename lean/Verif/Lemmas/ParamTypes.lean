import Verif.Lemmas.Make
import Verif.Lemmas.Runs
/- Which types the values of the parameters have, throughout the life of an estimator. -/
namespace Tsetlini
open Res Spec

/-- What the alternative a parameter holds says about its name. -/
def TypedAt (k : Kind) (key : String) : PVal → Prop
  | .int i => key ≠ "random_state" ∧ (key = "number_of_labels" → k = .classifier) ∧
      (key ≠ "number_of_labels" → key ≠ "number_of_features" → IsInt i)
  | .seed _ => key = "random_state"
  | _ => True

theorem getInt_isInt {j : JVal} {v : Int} (h : j.getInt = .ok v) : IsInt v := by
  rcases getInt_cases j with ⟨_, e⟩ | ⟨_, _, e⟩ | ⟨_, _, i, e, h1, h2⟩
  · rw [e] at h; cases h
  · rw [e] at h; cases h
  · rw [e] at h; cases h; exact ⟨h1, h2⟩

theorem typedAt_key {k : Kind} {key : String} (h : key ∈ intKeys) {i : Int} (hi : IsInt i) : TypedAt k key (.int i) := by
  refine ⟨?_, ?_, fun _ _ => hi⟩
  · rintro rfl; revert h; decide
  · rintro rfl; exact absurd h (by decide)

theorem memberVal_typed (k : Kind) (io : RealIO) {key : String} {j : JVal} {v : PVal}
    (h : memberVal io key j = .ok (.ok (some v))) : TypedAt k key v := by
  unfold memberVal at h
  split at h
  · next hk =>
    rw [bind_eq_ok] at h
    obtain ⟨i, hi, h⟩ := h
    cases h
    exact typedAt_key hk (getInt_isInt hi)
  split at h
  · next hk =>
    subst hk
    split at h
    · cases h
    · rw [bind_eq_ok] at h
      obtain ⟨i, hi, h⟩ := h
      cases h
      rfl
  split at h
  · rw [bind_eq_ok] at h
    obtain ⟨i, hi, h⟩ := h
    cases h
    trivial
  split at h
  · rw [bind_eq_ok] at h
    obtain ⟨i, hi, h⟩ := h
    cases h
    trivial
  split at h
  · rw [bind_eq_ok] at h
    obtain ⟨i, hi, h⟩ := h
    cases h
    trivial
  · cases h

theorem mem_of_lookup' {α : Type} {l : List (String × α)} {key : String} {v : α} (h : l.lookup key = some v) : (key, v) ∈ l := by
  induction l with
  | nil => cases h
  | cons e l ih =>
    obtain ⟨k, w⟩ := e
    rw [List.lookup_cons] at h
    split at h
    · next hk => cases h; rw [eq_of_beq hk]; exact List.mem_cons_self
    · exact List.mem_cons_of_mem _ (ih h)

theorem merged_typed {k : Kind} {io : RealIO} {d u : Params} {l : List (String × JVal)}
    (hd : ∀ e ∈ d, TypedAt k e.1 e.2) (hu : ∀ key, u.get? key = (l.lookup key).bind (memberOpt io key)) {key : String}
    {v : PVal} (h : (mergeParams d u).get? key = some v) : TypedAt k key v := by
  rw [get?_merge] at h
  cases hg : u.get? key with
  | none => rw [hg] at h; exact hd _ (mem_of_lookup' h)
  | some w =>
    rw [hg] at h
    cases h
    rw [hu] at hg
    cases hl : l.lookup key with
    | none => rw [hl] at hg; cases hg
    | some j =>
      rw [hl, Option.bind_some] at hg
      unfold memberOpt at hg
      split at hg
      · next o ho => subst hg; exact memberVal_typed k io ho
      · cases hg

theorem entries_typed {k : Kind} {r : ParamSet} (hi : r.IntSized) (hb : r.boost = 0 ∨ r.boost = 1) :
    ∀ e ∈ r.entries k, TypedAt k e.1 e.2 := by
  have b : IsInt r.boost := by unfold IsInt; omega
  have f : ∀ v ∈ [r.clauses, r.states, r.threshold, r.maxWeight, r.nJobs, r.tileSize], IsInt v := hi
  simp only [List.mem_cons, List.not_mem_nil, or_false, forall_eq_or_imp, forall_eq] at f
  obtain ⟨f1, f2, f3, f4, f5, f6⟩ := f
  intro e he
  unfold ParamSet.entries at he
  rw [List.mem_append, List.mem_append] at he
  simp only [List.mem_cons, List.not_mem_nil, or_false] at he
  rcases he with (he | he) | he
  · rcases he with rfl | rfl | rfl | rfl | rfl | rfl | rfl | rfl | rfl | rfl | rfl
    · exact typedAt_key (by cases k <;> dsimp only [clausesKey] <;> decide) f1
    · exact typedAt_key (by dsimp only; decide) f2
    · trivial
    · exact typedAt_key (by dsimp only; decide) f3
    · trivial
    · exact typedAt_key (by dsimp only; decide) f4
    · exact typedAt_key (by dsimp only; decide) b
    · exact typedAt_key (by dsimp only; decide) f5
    · trivial
    · trivial
    · exact typedAt_key (by dsimp only; decide) f6
  · cases k with
    | classifier => simp at he
    | regressor =>
      simp only [List.mem_cons, List.not_mem_nil, or_false] at he
      rcases he with rfl | rfl | rfl <;> trivial
  · subst he
    unfold seedVal
    split <;> trivial

theorem normP_typed {k : Kind} (m : Machine) (r : ParamSet) {p : Params}
    (h : ∀ key v, p.get? key = some v → TypedAt k key v) (key : String) (v : PVal) (hv : (normP m r p).get? key = some v) :
    TypedAt k key v := by
  have nj : IsInt (max 1 (m.hwThreads : Int)) := by have := m.hwThreads_law; unfold IsInt; omega
  have st : ∀ {p : Params} {key' : String} {w : PVal}, (∀ key v, p.get? key = some v → TypedAt k key v) → TypedAt k key' w →
      ∀ key v, (p.set key' w).get? key = some v → TypedAt k key v := by
    intro p key' w hp hw key v hv
    by_cases e : key = key'
    · subst e
      rw [Params.get?_set_self] at hv
      cases hv
      exact hw
    · rw [Params.get?_set_ne _ e] at hv
      exact hp _ _ hv
  unfold normP at hv
  dsimp only at hv
  split at hv <;> split at hv
  · exact st (st h (typedAt_key (key := "n_jobs") (by decide) nj)) (show TypedAt k "random_state" (.seed _) from rfl) _ _ hv
  · exact st h (show TypedAt k "random_state" (.seed _) from rfl) _ _ hv
  · exact st h (typedAt_key (key := "n_jobs") (by decide) nj) _ _ hv
  · exact h _ _ hv

theorem Made.typedAt {k : Kind} {p : Params} (h : Made k p) {key : String} {v : PVal} (hv : p.get? key = some v) :
    TypedAt k key v := by
  obtain ⟨m, io, req, ht, h⟩ := h
  obtain ⟨r, hr⟩ := make_ok_asks h
  have fin : ∀ {p0 : Params}, Tsetlini.make m io req = finish m io k p0 → Holds p0 k r →
      (Acceptable k r → ∀ key v, p0.get? key = some v → TypedAt k key v) → TypedAt k key v := by
    intro p0 h1 h2 h3
    obtain ⟨s, -, h5, h6⟩ := finish_spec m io h2
    rw [h1] at h
    by_cases ha : Acceptable k r
    · rw [(h5 ha).2] at h
      cases h
      exact normP_typed m r (h3 ha) _ _ hv
    · rw [(h6 ha).2] at h
      cases h
  cases hr with
  | @argsC args =>
    obtain ⟨p0, h1, h2, h3⟩ := fromArgsC io (classifierArgs args)
    refine fin (h1 m) h2 fun ha key v hv => ?_
    rw [h3] at hv
    exact entries_typed (requestedBy_sized ht.2 (requestedC args)) ha.boost _ (mem_of_lookup' hv)
  | @argsR args =>
    obtain ⟨p0, h1, h2, h3⟩ := fromArgsR io (regressorArgs args)
    refine fin (h1 m) h2 fun ha key v hv => ?_
    rw [h3] at hv
    exact entries_typed (requestedBy_sized ht.2 (requestedR args)) ha.boost _ (mem_of_lookup' hv)
  | @jsonC l hok =>
    obtain ⟨u, h1, h2⟩ := jsonToParams_ok io l [] hok (ht l rfl)
    have h2' : ∀ k, u.get? k = (l.lookup k).bind (memberOpt io k) := fun k => by rw [h2]; simp [Params.get?]
    refine fin (p0 := mergeParams defaultClassifierParams u) ?_ (merged_holds (kind := .classifier) hok h2') fun _ key v hv => ?_
    · show flatMapR (jsonToParams io l []) _ = _
      rw [h1]; rfl
    · refine merged_typed ?_ h2' hv
      intro e he
      simp only [defaultClassifierParams, List.mem_cons, List.not_mem_nil, or_false] at he
      rcases he with rfl | rfl | rfl | rfl | rfl | rfl | rfl | rfl | rfl | rfl | rfl | rfl | rfl | rfl <;>
        first | trivial | exact typedAt_key (by decide) (by unfold IsInt; decide)
  | @jsonR l hok =>
    obtain ⟨u, h1, h2⟩ := jsonToParams_ok io l [] hok (ht l rfl)
    have h2' : ∀ k, u.get? k = (l.lookup k).bind (memberOpt io k) := fun k => by rw [h2]; simp [Params.get?]
    refine fin (p0 := mergeParams defaultRegressorParams u) ?_ (merged_holds (kind := .regressor) hok h2') fun _ key v hv => ?_
    · show flatMapR (jsonToParams io l []) _ = _
      rw [h1]; rfl
    · refine merged_typed ?_ h2' hv
      intro e he
      simp only [defaultRegressorParams, List.mem_cons, List.not_mem_nil, or_false] at he
      rcases he with rfl | rfl | rfl | rfl | rfl | rfl | rfl | rfl | rfl | rfl | rfl | rfl | rfl | rfl | rfl | rfl <;>
        first | trivial | exact typedAt_key (by decide) (by unfold IsInt; decide)

theorem set_typed {k : Kind} {p : Params} {key' : String} {w : PVal} (hp : ∀ key v, p.get? key = some v → TypedAt k key v)
    (hw : TypedAt k key' w) (key : String) (v : PVal) (hv : (p.set key' w).get? key = some v) : TypedAt k key v := by
  by_cases e : key = key'
  · subst e
    rw [Params.get?_set_self] at hv
    cases hv
    exact hw
  · rw [Params.get?_set_ne _ e] at hv
    exact hp _ _ hv

theorem record_typed {B : Backend} {k : Kind} (c : Call B.Sample k) (f : Bool) (o : Out) {p : Params}
    (hp : ∀ key v, p.get? key = some v → TypedAt k key v) (key : String) (v : PVal) (hv : (c.record B f o p).get? key = some v) :
    TypedAt k key v := by
  have lab : ∀ i, TypedAt .classifier "number_of_labels" (.int i) := fun i => ⟨by decide, fun _ => rfl, fun h => absurd rfl h⟩
  have feat : ∀ k i, TypedAt k "number_of_features" (.int i) := fun k i =>
    ⟨by decide, fun h => absurd h (by decide), fun _ h => absurd rfl h⟩
  have rc : ∀ {p : Params} X y ml s, (∀ key v, p.get? key = some v → TypedAt .classifier key v) →
      ∀ key v, (recordC B X y ml s p).get? key = some v → TypedAt .classifier key v := by
    intro p X y ml s hp key v hv
    unfold recordC at hv
    split at hv
    · exact set_typed (set_typed hp (lab _)) (feat _ _) _ _ hv
    · exact hp _ _ hv
  have rr : ∀ {p : Params} X s, (∀ key v, p.get? key = some v → TypedAt .regressor key v) →
      ∀ key v, (recordR B X s p).get? key = some v → TypedAt .regressor key v := by
    intro p X s hp key v hv
    unfold recordR at hv
    split at hv
    · exact set_typed hp (feat _ _) _ _ hv
    · exact hp _ _ hv
  unfold Call.record at hv
  split at hv
  · exact rc _ _ _ _ hp _ _ hv
  · split at hv
    · exact hp _ _ hv
    · exact rc _ _ _ _ hp _ _ hv
  · exact rr _ _ hp _ _ hv
  · split at hv
    · exact hp _ _ hv
    · exact rr _ _ hp _ _ hv
  · exact hp _ _ hv

theorem run_typed {B : Backend} {env : Env} {sc : Sched} {k : Kind} (cs : List (Call B.Sample k)) {st st' : EstState B env}
    {outs : List Out} (hp : ∀ key v, st.params.get? key = some v → TypedAt k key v) (h : run B env sc cs st = .ok (st', outs)) :
    ∀ key v, st'.params.get? key = some v → TypedAt k key v := by
  induction cs generalizing st outs with
  | nil => cases h; exact hp
  | cons c cs ih =>
    unfold run at h
    simp only [bind_eq_ok] at h
    obtain ⟨r, h1, q, h2, h3⟩ := h
    cases h3
    refine ih ?_ h2
    have e := ifOk_iff.1 (step_record c st) _ h1
    intro key v hv
    rw [e] at hv
    exact record_typed c _ _ hp _ _ hv

theorem ofJson_typed {rnd : Rat → Rat} {j : JVal} {p : Params} (h : Params.ofJson rnd j = .ok p) {key : String} {v : PVal} (hv : p.get? key = some v) :
    (∀ i, v = .int i → IsInt i) ∧ ∀ s, v = .seed s → key = "random_state" := by
  unfold Params.ofJson at h
  split at h
  · rename_i l
    have key : ∀ (l : List (String × JVal)) (p : Params), l.foldr (fun e r => (PVal.ofJson rnd e.2).bind fun v => r.bind fun vs => .ok ((e.1, recast e.1 v) :: vs)) (.ok []) = .ok p →
        ∀ key v, p.get? key = some v → (∀ i, v = .int i → IsInt i) ∧ ∀ s, v = .seed s → key = "random_state" := by
      intro l
      induction l with
      | nil => intro p h key v hv; cases h; cases hv
      | cons e l ih =>
        intro p h key v hv
        rw [List.foldr_cons] at h
        simp only [bind_eq_ok] at h
        obtain ⟨w, h1, q, h2, h3⟩ := h
        cases h3
        unfold Params.get? at hv
        rw [List.lookup_cons] at hv
        split at hv
        · rename_i hkey
          cases hv
          have hkey : key = e.1 := by simpa using hkey
          subst hkey
          unfold PVal.ofJson at h1
          have big : ∀ b : BitVec 32, IsInt b.toInt := fun b => by
            have h1 := BitVec.toInt_lt (x := b)
            have h2 := BitVec.le_toInt (x := b)
            unfold IsInt
            omega
          split at h1
          · cases h1; exact ⟨(fun _ h => by cases h), (fun _ h => by cases h)⟩
          · simp only [bind_eq_ok] at h1
            obtain ⟨b, -, h1⟩ := h1
            cases h1
            unfold recast
            dsimp only
            split
            · exact ⟨(fun _ h => by cases h; exact big b), (fun _ h => by cases h)⟩
            · rename_i hne
              exact ⟨(fun _ h => by cases h), (fun _ _ => Classical.not_not.1 hne)⟩
          · cases h1; exact ⟨(fun _ h => by cases h), (fun _ h => by cases h)⟩
          · simp only [bind_eq_ok] at h1
            obtain ⟨i, hi, h1⟩ := h1
            cases h1
            exact ⟨(fun _ h => by cases h; exact getInt_isInt hi), (fun _ h => by cases h)⟩
          · cases h1; exact ⟨(fun _ h => by cases h), (fun _ h => by cases h)⟩
          · cases h1; exact ⟨(fun _ h => by cases h), (fun _ h => by cases h)⟩
          · cases h1; exact ⟨(fun _ h => by cases h; exact ⟨by decide, by decide⟩), (fun _ h => by cases h)⟩
        · exact ih q h2 key v hv
    exact key l p h _ _ hv
  · cases h

theorem load_params {a : Algo} {k : Kind} {env : Env} {gio : GenIO env} {old st : EstState a.backend env} {js : JVal} (h : load a k gio old js = .ok st) :
    ∃ j, Params.ofJson env.rnd j = .ok st.params := by
  unfold load loadState at h
  obtain ⟨_, -, h⟩ := bind_eq_ok.1 h
  obtain ⟨_, -, h⟩ := bind_eq_ok.1 h
  obtain ⟨_, -, h⟩ := bind_eq_ok.1 h
  obtain ⟨_, -, h⟩ := bind_eq_ok.1 h
  obtain ⟨x, -, h⟩ := bind_eq_ok.1 h
  obtain ⟨ta, h1, h⟩ := bind_eq_ok.1 h
  obtain ⟨j, -, h⟩ := bind_eq_ok.1 h
  obtain ⟨p, h3, h⟩ := bind_eq_ok.1 h
  obtain ⟨c, h2, e⟩ := bind_eq_ok.1 h
  cases e
  exact ⟨j, h3⟩

theorem Reached.typedAt {a : Algo} {k : Kind} {env : Env} {st : EstState a.backend env} (h : Reached a k st) {key : String}
    {v : PVal} (hv : st.params.get? key = some v) : TypedAt k key v := by
  obtain ⟨st0, sc, cs, outs, h0, -, hr⟩ := h
  refine run_typed cs (fun key v hv => ?_) hr key v hv
  cases h0 with
  | made p hm e => subst e; exact Made.typedAt hm hv
  | loaded gio old js hl hc =>
    obtain ⟨labels, n, clauses, N, M, w, ct, h⟩ := hc
    obtain ⟨j, hj⟩ := load_params hl
    obtain ⟨t1, t2⟩ := ofJson_typed hj hv
    cases v with
    | int i =>
      refine ⟨?_, ?_, fun _ _ => t1 i rfl⟩
      · rintro rfl
        obtain ⟨cfg, -, hr, -⟩ := Configured.cfg h.params
        rw [hr.seed] at hv
        cases hv
      · rintro rfl
        cases k with
        | classifier => rfl
        | regressor => exact absurd hv (h.noLabels rfl i)
    | seed s => exact t2 s rfl
    | _ => trivial

end Tsetlini
