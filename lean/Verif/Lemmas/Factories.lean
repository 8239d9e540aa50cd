import Verif.Lemmas.JsonParams
import Verif.Lemmas.History
import Verif.Lemmas.Direct
import Verif.Spec.Api
import Verif.Spec.Twin
/- Factories and reachable estimators. -/
namespace Tsetlini
open Res Spec

theorem members_cases (ms : List (String × JVal)) :
    (∀ e ∈ ms, MemberOk e.1 e.2) ∨
    ∃ pre k j f post, ms = pre ++ (k, j) :: post ∧ (∀ e ∈ pre, MemberOk e.1 e.2) ∧ MemberFault k j f := by
  induction ms with
  | nil => exact .inl (by simp)
  | cons e ms ih =>
    obtain ⟨k, j⟩ := e
    by_cases h : MemberOk k j
    · rcases ih with ih | ⟨pre, k', j', f, post, rfl, h1, h2⟩
      · left
        intro e he
        rcases List.mem_cons.1 he with rfl | he
        · exact h
        · exact ih e he
      · refine .inr ⟨(k, j) :: pre, k', j', f, post, rfl, ?_, h2⟩
        intro e he
        rcases List.mem_cons.1 he with rfl | he
        · exact h
        · exact h1 e he
    · obtain ⟨f, hf⟩ := Classical.not_forall.1 h
      exact .inr ⟨[], k, j, f, ms, rfl, by simp, Classical.not_not.1 hf⟩

theorem given_sized {args : List Arg} (ha : ∀ x ∈ args, ArgTyped x) {mk : Int → Arg} {d x : Int}
    (hmk : ∀ v, ArgTyped (mk v) → IsInt v) (hd : IsInt d) (h : Given args mk d x) : IsInt x := by
  rcases h with h | ⟨-, rfl⟩
  · exact hmk _ (ha _ h)
  · exact hd

theorem requestedBy_sized {k : Kind} {args : List Arg} (ha : ∀ x ∈ args, ArgTyped x) {r : ParamSet}
    (h : RequestedBy k args r) : r.IntSized := by
  intro v hv
  simp only [List.mem_cons, List.not_mem_nil, or_false] at hv
  rcases hv with rfl | rfl | rfl | rfl | rfl | rfl
  · refine given_sized ha ?_ ?_ h.clauses <;> cases k <;> first | exact fun _ h => h | (unfold IsInt; decide)
  · refine given_sized ha ?_ ?_ h.states <;> cases k <;> first | exact fun _ h => h | (unfold IsInt; decide)
  · refine given_sized ha ?_ ?_ h.threshold <;> cases k <;> first | exact fun _ h => h | (unfold IsInt; decide)
  · refine given_sized ha ?_ ?_ h.maxWeight <;> cases k <;> first | exact fun _ h => h | (unfold IsInt; decide)
  · refine given_sized ha ?_ ?_ h.nJobs <;> cases k <;> first | exact fun _ h => h | (unfold IsInt; decide)
  · refine given_sized ha ?_ ?_ h.tileSize <;> cases k <;> first | exact fun _ h => h | (unfold IsInt; decide)

/-- The requested parameter set of a request, if it has one. -/
inductive Asks (io : RealIO) : {k : Kind} → Request k → ParamSet → Prop
  | argsC {args} : Asks io (.classifierArgs args) (setOfC (classifierArgs args))
  | argsR {args} : Asks io (.regressorArgs args) (setOfR (regressorArgs args))
  | jsonC {l} : (∀ e ∈ l, MemberOk e.1 e.2) → Asks io (.classifierJson (.ok (.obj l))) (requestedJson io .classifier l)
  | jsonR {l} : (∀ e ∈ l, MemberOk e.1 e.2) → Asks io (.regressorJson (.ok (.obj l))) (requestedJson io .regressor l)

/-- Once a parameter set is asked for, the factory is its final part. -/
theorem Asks.make {io : RealIO} {k : Kind} {req : Request k} {r : ParamSet} (h : Asks io req r)
    (ht : ReqTyped req) :
    ∃ p, (∀ m : Machine, Tsetlini.make m io req = finish m io k p) ∧ Holds p k r ∧ r.IntSized ∧
      NoSizes p := by
  cases h with
  | @argsC args =>
    obtain ⟨p, h1, h2, h3⟩ := fromArgsC io (classifierArgs args)
    refine ⟨p, h1, h2, requestedBy_sized ht.2 (requestedC args), ?_⟩
    rintro key (rfl | rfl) i <;> rw [h3] <;> exact fun h => by cases h
  | @argsR args =>
    obtain ⟨p, h1, h2, h3⟩ := fromArgsR io (regressorArgs args)
    refine ⟨p, h1, h2, requestedBy_sized ht.2 (requestedR args), ?_⟩
    rintro key (rfl | rfl) i <;> rw [h3] <;> exact fun h => by cases h
  | @jsonC l hok =>
    obtain ⟨u, h1, h2⟩ := jsonToParams_ok io l [] hok (ht l rfl)
    have h2' : ∀ k, u.get? k = (l.lookup k).bind (memberOpt io k) := fun k => by rw [h2]; simp [Params.get?]
    refine ⟨mergeParams defaultClassifierParams u, ?_, merged_holds (kind := .classifier) hok h2', requestedJson_sized hok _, ?_⟩
    · intro m
      show flatMapR (jsonToParams io l []) _ = _
      rw [h1]; rfl
    · rintro key (rfl | rfl) i <;> rw [get?_merge, h2']
      · cases hl : l.lookup "number_of_labels" with
        | none => exact fun h => by cases h
        | some j => exact absurd (.unknown (by decide) (by decide)) (lookup_memberOk hok hl .unknownKey)
      · cases hl : l.lookup "number_of_features" with
        | none => exact fun h => by cases h
        | some j => exact absurd (.unknown (by decide) (by decide)) (lookup_memberOk hok hl .unknownKey)
  | @jsonR l hok =>
    obtain ⟨u, h1, h2⟩ := jsonToParams_ok io l [] hok (ht l rfl)
    have h2' : ∀ k, u.get? k = (l.lookup k).bind (memberOpt io k) := fun k => by rw [h2]; simp [Params.get?]
    refine ⟨mergeParams defaultRegressorParams u, ?_, merged_holds (kind := .regressor) hok h2', requestedJson_sized hok _, ?_⟩
    · intro m
      show flatMapR (jsonToParams io l []) _ = _
      rw [h1]; rfl
    · rintro key (rfl | rfl) i <;> rw [get?_merge, h2']
      · cases hl : l.lookup "number_of_labels" with
        | none => exact fun h => by cases h
        | some j => exact absurd (.unknown (by decide) (by decide)) (lookup_memberOk hok hl .unknownKey)
      · cases hl : l.lookup "number_of_features" with
        | none => exact fun h => by cases h
        | some j => exact absurd (.unknown (by decide) (by decide)) (lookup_memberOk hok hl .unknownKey)

/-- Requests that fail before a parameter set is known. -/
theorem make_json_fault (m : Machine) (io : RealIO) (l : List (String × JVal)) {k : Kind} {req : Request k}
    (hreq : (∃ h : k = .classifier, req = h ▸ .classifierJson (.ok (.obj l))) ∨
      (∃ h : k = .regressor, req = h ▸ .regressorJson (.ok (.obj l))))
    {pre : List (String × JVal)} {key : String} {j : JVal} {f : Fault} {post : List (String × JVal)}
    (hl : l = pre ++ (key, j) :: post) (hok : ∀ e ∈ pre, MemberOk e.1 e.2) (hf : MemberFault key j f) :
    make m io req = match f with
      | .unknownKey => .ok (.error (badJson ("Unknown key [" ++ key ++ "] in config\n")))
      | .illTyped => .exn .jsonError
      | .outOfRange => .ub .floatConv := by
  have e := jsonToParams_fault io pre post [] hok hf
  rw [← hl] at e
  rcases hreq with ⟨rfl, rfl⟩ | ⟨rfl, rfl⟩
  · show flatMapR (jsonToParams io l []) _ = _
    rw [e]; cases f <;> rfl
  · show flatMapR (jsonToParams io l []) _ = _
    rw [e]; cases f <;> rfl

theorem make_ok_asks {m : Machine} {io : RealIO} {k : Kind} {req : Request k} {p : Params}
    (h : make m io req = .ok (.ok p)) : ∃ r, Asks io req r := by
  cases req with
  | classifierArgs args => exact ⟨_, .argsC⟩
  | regressorArgs args => exact ⟨_, .argsR⟩
  | classifierJson doc =>
    rcases doc with e | doc
    · cases h
    · cases doc with
      | obj l =>
        rcases members_cases l with hok | ⟨pre, key, j, f, post, hl, h1, h2⟩
        · exact ⟨_, .jsonC hok⟩
        · rw [make_json_fault m io l (.inl ⟨rfl, rfl⟩) hl h1 h2] at h
          cases f <;> cases h
      | null => cases h
      | bool _ => cases h
      | unsigned _ => cases h
      | integer _ => cases h
      | float _ => cases h
      | str _ => cases h
      | arr _ => cases h
  | regressorJson doc =>
    rcases doc with e | doc
    · cases h
    · cases doc with
      | obj l =>
        rcases members_cases l with hok | ⟨pre, key, j, f, post, hl, h1, h2⟩
        · exact ⟨_, .jsonR hok⟩
        · rw [make_json_fault m io l (.inr ⟨rfl, rfl⟩) hl h1 h2] at h
          cases f <;> cases h
      | null => cases h
      | bool _ => cases h
      | unsigned _ => cases h
      | integer _ => cases h
      | float _ => cases h
      | str _ => cases h
      | arr _ => cases h

/-- An estimator's parameters come from an acceptable set. -/
theorem make_ok {m : Machine} {io : RealIO} {k : Kind} {req : Request k} {p : Params} (ht : ReqTyped req)
    (h : make m io req = .ok (.ok p)) :
    ∃ r, Asks io req r ∧ Acceptable k r ∧ r.IntSized ∧ Holds p k (r.concrete m) ∧
      NoSizes p := by
  obtain ⟨r, hr⟩ := make_ok_asks h
  obtain ⟨p0, h1, h2, h3, h4⟩ := hr.make ht
  obtain ⟨s, -, h5, h6⟩ := finish_spec m io h2
  rw [h1 m] at h
  by_cases ha : Acceptable k r
  · obtain ⟨-, e⟩ := h5 ha
    rw [e] at h
    cases h
    refine ⟨r, hr, ha, h3, normP_holds m h2, ?_⟩
    intro key hkey i
    rw [normP_get?_ne m r p0 (by rcases hkey with rfl | rfl <;> decide) (by rcases hkey with rfl | rfl <;> decide)]
    exact h4 key hkey i
  · rw [(h6 ha).2] at h
    cases h

/-- Two machines asked for the same. -/
theorem make_two {m m' : Machine} {io : RealIO} {k : Kind} {req : Request k} {p p' : Params} (ht : ReqTyped req)
    (h : make m io req = .ok (.ok p)) (h' : make m' io req = .ok (.ok p')) :
    AgreeBut ["n_jobs", "random_state"] p p' := by
  obtain ⟨r, hr⟩ := make_ok_asks h
  obtain ⟨p0, h1, h2, h3, h4⟩ := hr.make ht
  obtain ⟨s, -, h5, h6⟩ := finish_spec m io h2
  obtain ⟨s', -, h5', h6'⟩ := finish_spec m' io h2
  rw [h1] at h h'
  by_cases ha : Acceptable k r
  · rw [(h5 ha).2] at h
    rw [(h5' ha).2] at h'
    cases h; cases h'
    intro key hk
    simp only [List.mem_cons, List.not_mem_nil, or_false, not_or] at hk
    rw [normP_get?_ne _ _ _ hk.1 hk.2, normP_get?_ne _ _ _ hk.1 hk.2]
  · rw [(h6 ha).2] at h
    cases h

theorem Spec.Configured.cfg {k : Kind} {p : Params} (h : Configured k p) : ∃ cfg, cfg.kind = k ∧ Reads p cfg ∧ Valid cfg := by
  obtain ⟨r, ha, hi, -, hs, hp⟩ := h
  obtain ⟨q, hq, -⟩ := ha.s
  cases hsd : r.seed with
  | none => exact absurd hsd hs
  | some sd => exact ⟨cfgOf k r q sd, rfl, Holds.reads hp hq hsd, Acceptable.valid ha hi hq⟩

theorem Made.configured {k : Kind} {p : Params} (h : Made k p) : Configured k p ∧ NoSizes p := by
  obtain ⟨m, io, req, ht, h⟩ := h
  obtain ⟨r, -, ha, hi, hp, hl⟩ := make_ok ht h
  refine ⟨⟨r.concrete m, ?_, ?_, ?_, by simp [ParamSet.concrete], hp⟩, hl⟩
  · exact { ha with
      nJobs := by
        show (if r.nJobs = -1 then max 1 m.hwThreads else r.nJobs : Int) = -1 ∨ 1 ≤ (if r.nJobs = -1 then max 1 m.hwThreads else r.nJobs : Int)
        have := ha.nJobs
        split <;> omega }
  · intro v hv
    simp only [ParamSet.concrete, List.mem_cons, List.not_mem_nil, or_false] at hv
    have := m.hwThreads_law
    rcases hv with rfl | rfl | rfl | rfl | rfl | rfl
    · exact hi _ (by simp)
    · exact hi _ (by simp)
    · exact hi _ (by simp)
    · exact hi _ (by simp)
    · have := hi r.nJobs (by simp)
      split <;> omega
    · exact hi _ (by simp)
  · show (if r.nJobs = -1 then max 1 m.hwThreads else r.nJobs : Int) ≠ -1
    split <;> omega

theorem Made.cfg {k : Kind} {p : Params} (h : Made k p) :
    ∃ cfg, cfg.kind = k ∧ Reads p cfg ∧ Valid cfg ∧ NoSizes p := by
  obtain ⟨h1, h2⟩ := Made.configured h
  obtain ⟨cfg, h3, h4, h5⟩ := h1.cfg
  exact ⟨cfg, h3, h4, h5, h2⟩

/-- The laws of each family. -/
def _root_.Tsetlini.Spec.Algo.lawful : (a : Algo) → Lawful a.backend
  | .classic => classicLawful
  | .bitwise => bitwiseLawful

theorem lawful_minStates (a : Algo) : a.lawful.minStates = a.minStates := by cases a <;> rfl
theorem lawful_bits (a : Algo) : a.lawful.bits = a.bits := by cases a <;> rfl
theorem lawful_bin01 (a : Algo) : a.lawful.Bin01 = a.Binary := by cases a <;> rfl
theorem lawful_pad (a : Algo) : a.lawful.Pad = a.Clear := by cases a <;> rfl
theorem lawful_view (a : Algo) : a.lawful.view = a.view := by cases a <;> rfl
theorem lawful_sinv (a : Algo) (x : a.Sample) : a.lawful.SInv x ↔ a.Built x := by
  cases a with
  | classic => exact Iff.rfl
  | bitwise => exact ⟨fun h => ⟨h.1, h.2⟩, fun h => ⟨h.1, h.2⟩⟩
theorem lawful_bin (a : Algo) (x : a.Sample) : a.lawful.Bin x ↔ a.Good x := by
  rw [a.lawful.bin_iff, lawful_bin01, lawful_pad]; rfl

theorem WellTyped.typed {a : Algo} {k : Kind} {c : Call a.Sample k} (h : WellTyped a c) : c.Typed a.lawful := by
  cases c with
  | fit X y ml ep => exact ⟨fun x hx => (lawful_sinv a x).2 (h.1 x hx), h.2⟩
  | partialFit X y ml ep => exact ⟨fun x hx => (lawful_sinv a x).2 (h.1 x hx), h.2⟩
  | evaluate X y => exact ⟨fun x hx => (lawful_sinv a x).2 (h.1 x hx), h.2⟩
  | fitR X y ep => exact ⟨fun x hx => (lawful_sinv a x).2 (h.1 x hx), h.2⟩
  | partialFitR X y ep => exact ⟨fun x hx => (lawful_sinv a x).2 (h.1 x hx), h.2⟩
  | predict1 x => exact (lawful_sinv a x).2 h
  | decision1 x => exact (lawful_sinv a x).2 h
  | predictR1 x => exact (lawful_sinv a x).2 h
  | predict X => exact fun x hx => (lawful_sinv a x).2 (h x hx)
  | decision X => exact fun x hx => (lawful_sinv a x).2 (h x hx)
  | predictR X => exact fun x hx => (lawful_sinv a x).2 (h x hx)

/-- The parameters a run can change are the two sizes. -/
theorem Reads.states_eq {p : Params} {cfg : Cfg} (h : Reads p cfg) {N : Int} (hN : IntParam p "number_of_states" N) :
    N = cfg.states := by
  have := hN.symm.trans h.states
  cases this; rfl

end Tsetlini
