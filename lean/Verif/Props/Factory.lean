import Verif.Lemmas.Make
import Verif.Props.Toy
/-
Properties of the factories: C26, C27, C28, C29, C46, C47.
-/
namespace Tsetlini
open Res Spec

variable {k : Kind} {io : RealIO}

/-! ### helpers -/

theorem requestedBy_entriesC {args : List Arg} {r : ParamSet} (hn : (args.map Arg.ty).Nodup)
    (h : RequestedBy .classifier args r) : r.entries .classifier = (setOfC (classifierArgs args)).entries .classifier := by
  have q := requestedC args
  have e1 := Given.unique .clausesPerLabel (fun _ => rfl) (fun _ _ h => by cases h; rfl) hn h.clauses q.clauses
  have e2 := Given.unique .states (fun _ => rfl) (fun _ _ h => by cases h; rfl) hn h.states q.states
  have e3 := Given.unique .specificity (fun _ => rfl) (fun _ _ h => by cases h; rfl) hn h.s q.s
  have e4 := Given.unique .threshold (fun _ => rfl) (fun _ _ h => by cases h; rfl) hn h.threshold q.threshold
  have e5 := Given.unique .weighted (fun _ => rfl) (fun _ _ h => by cases h; rfl) hn h.weighted q.weighted
  have e6 := Given.unique .maxWeight (fun _ => rfl) (fun _ _ h => by cases h; rfl) hn h.maxWeight q.maxWeight
  have e8 := Given.unique .nJobs (fun _ => rfl) (fun _ _ h => by cases h; rfl) hn h.nJobs q.nJobs
  have e9 := Given.unique .verbose (fun _ => rfl) (fun _ _ h => by cases h; rfl) hn h.verbose q.verbose
  have e10 := Given.unique .countingType (fun _ => rfl) (fun _ _ h => by cases h; rfl) hn h.countingType q.countingType
  have e11 := Given.unique .tileSize (fun _ => rfl) (fun _ _ h => by cases h; rfl) hn h.tileSize q.tileSize
  obtain ⟨b, b1, b2⟩ := h.boost
  obtain ⟨c, c1, c2⟩ := q.boost
  have e7 := Given.unique .boost (fun _ => rfl) (fun _ _ h => by cases h; rfl) hn b1 c1
  have e12 : r.seed = (setOfC (classifierArgs args)).seed := by
    rcases h.seed with ⟨v, v1, v2⟩ | ⟨v1, v2⟩ <;> rcases q.seed with ⟨w, w1, w2⟩ | ⟨w1, w2⟩
    · have := Given.unique.nodup_map_inj hn v1 w1 rfl
      cases this
      rw [v2, w2]
    · exact absurd v1 (w1 v)
    · exact absurd w1 (v1 w)
    · rw [v2, w2]
  unfold ParamSet.entries
  rw [e1, e2, e3, e4, e5, e6, e8, e9, e10, e11, e12, b2, c2, e7]

theorem requestedBy_entriesR {args : List Arg} {r : ParamSet} (hn : (args.map Arg.ty).Nodup)
    (h : RequestedBy .regressor args r) : r.entries .regressor = (setOfR (regressorArgs args)).entries .regressor := by
  have q := requestedR args
  have e1 := Given.unique .regressorClauses (fun _ => rfl) (fun _ _ h => by cases h; rfl) hn h.clauses q.clauses
  have e2 := Given.unique .states (fun _ => rfl) (fun _ _ h => by cases h; rfl) hn h.states q.states
  have e3 := Given.unique .specificity (fun _ => rfl) (fun _ _ h => by cases h; rfl) hn h.s q.s
  have e4 := Given.unique .threshold (fun _ => rfl) (fun _ _ h => by cases h; rfl) hn h.threshold q.threshold
  have e5 := Given.unique .weighted (fun _ => rfl) (fun _ _ h => by cases h; rfl) hn h.weighted q.weighted
  have e6 := Given.unique .maxWeight (fun _ => rfl) (fun _ _ h => by cases h; rfl) hn h.maxWeight q.maxWeight
  have e8 := Given.unique .nJobs (fun _ => rfl) (fun _ _ h => by cases h; rfl) hn h.nJobs q.nJobs
  have e9 := Given.unique .verbose (fun _ => rfl) (fun _ _ h => by cases h; rfl) hn h.verbose q.verbose
  have e10 := Given.unique .countingType (fun _ => rfl) (fun _ _ h => by cases h; rfl) hn h.countingType q.countingType
  have e11 := Given.unique .tileSize (fun _ => rfl) (fun _ _ h => by cases h; rfl) hn h.tileSize q.tileSize
  have e13 := Given.unique .lossFn (fun _ => rfl) (fun _ _ h => by cases h; rfl) hn (h.lossFn rfl) (q.lossFn rfl)
  have e14 := Given.unique .lossC1 (fun _ => rfl) (fun _ _ h => by cases h; rfl) hn (h.lossC1 rfl) (q.lossC1 rfl)
  have e15 := Given.unique .boxMuller (fun _ => rfl) (fun _ _ h => by cases h; rfl) hn (h.boxMuller rfl) (q.boxMuller rfl)
  obtain ⟨b, b1, b2⟩ := h.boost
  obtain ⟨c, c1, c2⟩ := q.boost
  have e7 := Given.unique .boost (fun _ => rfl) (fun _ _ h => by cases h; rfl) hn b1 c1
  have e12 : r.seed = (setOfR (regressorArgs args)).seed := by
    rcases h.seed with ⟨v, v1, v2⟩ | ⟨v1, v2⟩ <;> rcases q.seed with ⟨w, w1, w2⟩ | ⟨w1, w2⟩
    · have := Given.unique.nodup_map_inj hn v1 w1 rfl
      cases this
      rw [v2, w2]
    · exact absurd v1 (w1 v)
    · exact absurd w1 (v1 w)
    · rw [v2, w2]
  unfold ParamSet.entries
  rw [e1, e2, e3, e4, e5, e6, e8, e9, e10, e11, e12, e13, e14, e15, b2, c2, e7]

theorem Requests.holds {req : Request k} {r : ParamSet} (h : Requests io req r) (ht : ReqTyped req) :
    ∃ p, (∀ m : Machine, make m io req = finish m io k p) ∧ Holds p k r := by
  cases h with
  | @classifierArgs args _ h =>
    obtain ⟨p, h1, h2, -⟩ := fromArgsC io (Tsetlini.classifierArgs args)
    exact ⟨p, h1, fun e he => h2 e (by rw [← requestedBy_entriesC ht.1.2 h]; exact he)⟩
  | @regressorArgs args _ h =>
    obtain ⟨p, h1, h2, -⟩ := fromArgsR io (Tsetlini.regressorArgs args)
    exact ⟨p, h1, fun e he => h2 e (by rw [← requestedBy_entriesR ht.1.2 h]; exact he)⟩
  | classifierJson hok =>
    obtain ⟨p, h1, h2, -⟩ := (Asks.jsonC (io := io) hok).make ht
    exact ⟨p, h1, h2⟩
  | regressorJson hok =>
    obtain ⟨p, h1, h2, -⟩ := (Asks.jsonR (io := io) hok).make ht
    exact ⟨p, h1, h2⟩

theorem memberOk_int {key : String} {j : JVal} (hk : key ∈ intParams) (h1 : Numeric j)
    (h2 : FracFits (-2147483648) 2147483647 j) : MemberOk key j := by
  intro f hf
  cases hf with
  | intTy _ h => exact h h1
  | intRange _ _ h => exact h h2
  | seedTy _ _ => revert hk; decide
  | seedRange _ _ => revert hk; decide
  | realTy h _ => revert hk h; simp only [intParams, List.mem_cons, List.not_mem_nil, or_false]; grind
  | boolTy h _ => revert hk h; simp only [intParams, List.mem_cons, List.not_mem_nil, or_false]; grind
  | strTy h _ => revert hk h; simp only [intParams, List.mem_cons, List.not_mem_nil, or_false]; grind
  | unknown h _ => exact h hk

theorem memberOk_str {key : String} {j : JVal} (hk : key ∈ ["counting_type", "loss_fn"]) (h1 : IsStr j) :
    MemberOk key j := by
  intro f hf
  cases hf with
  | intTy h _ => revert hk h; simp only [intParams, List.mem_cons, List.not_mem_nil, or_false]; grind
  | intRange h _ _ => revert hk h; simp only [intParams, List.mem_cons, List.not_mem_nil, or_false]; grind
  | seedTy _ _ => revert hk; decide
  | seedRange _ _ => revert hk; decide
  | realTy h _ => revert hk h; simp only [List.mem_cons, List.not_mem_nil, or_false]; grind
  | boolTy h _ => revert hk h; simp only [List.mem_cons, List.not_mem_nil, or_false]; grind
  | strTy _ h => exact h h1
  | unknown _ h => revert hk h; simp only [List.mem_cons, List.not_mem_nil, or_false]; grind

/-! ### C47 -/

/-- **C47**: a factory reports the first violated check, in the documented order, and makes an estimator
if there is none. -/
theorem C47_first_failure {req : Request k} {r : ParamSet} (h : Requests io req r) (ht : ReqTyped req)
    (m : Machine) :
    ∃ s, Reports (paramChecks io k r) s ∧ (s.code ≠ .ok → make m io req = .ok (.error s)) ∧
      (s.code = .ok → ∃ p, make m io req = .ok (.ok p)) := by
  obtain ⟨p, h1, h2⟩ := Requests.holds h ht
  obtain ⟨s, h3, h4, h5⟩ := finish_spec m io h2
  rw [h1]
  refine ⟨s, h3, fun hs => ?_, fun hs => ?_⟩
  · by_cases ha : Acceptable k r
    · obtain ⟨rfl, -⟩ := h4 ha
      exact absurd rfl hs
    · exact (h5 ha).2
  · by_cases ha : Acceptable k r
    · exact ⟨_, (h4 ha).2⟩
    · rw [(h5 ha).1] at hs; cases hs

/-- Two things wrong (number_of_states and threshold): the first is reported. -/
example : (match make Toy.machine Toy.io (.classifierArgs [.threshold 0, .states (-4)]) with
    | .ok (.error s) => s.msg
    | _ => "") = "Param 'number_of_states' got value -4, instead of a natural integer.\n" := by decide +kernel

/-! ### C26 -/

/-- **C26**: a factory makes an estimator exactly if the requested parameter set, completed by the
defaults, is acceptable. -/
theorem C26_accepts_exactly {req : Request k} {r : ParamSet} (h : Requests io req r) (ht : ReqTyped req)
    (m : Machine) : (∃ p, make m io req = .ok (.ok p)) ↔ Acceptable k r := by
  obtain ⟨p, h1, h2⟩ := Requests.holds h ht
  obtain ⟨s, h3, h4, h5⟩ := finish_spec m io h2
  rw [h1]
  constructor
  · rintro ⟨q, hq⟩
    by_cases ha : Acceptable k r
    · exact ha
    · rw [(h5 ha).2] at hq; cases hq
  · exact fun ha => ⟨_, (h4 ha).2⟩

/-- **C26**: otherwise it returns S_BAD_JSON. -/
theorem C26_rejects {req : Request k} {r : ParamSet} (h : Requests io req r) (ht : ReqTyped req)
    (m : Machine) (ha : ¬ Acceptable k r) : ∃ s, make m io req = .ok (.error s) ∧ s.code = .badJson := by
  obtain ⟨p, h1, h2⟩ := Requests.holds h ht
  obtain ⟨s, h3, h4, h5⟩ := finish_spec m io h2
  rw [h1]
  exact ⟨s, (h5 ha).2, (h5 ha).1⟩

/-- Every factory call with named arguments asks for something, so the two theorems above cover all of
them; for JSON texts see C27. -/
theorem C26_args_always_request (k : Kind) (args : List Arg) : ∃ r, Requests io (Request.args k args) r := by
  cases k with
  | classifier => exact ⟨_, .classifierArgs (requestedC args)⟩
  | regressor => exact ⟨_, .regressorArgs (requestedR args)⟩

/-- A classifier from three arguments and a regressor from a JSON text. -/
example : (∃ r, Requests Toy.io (.classifierArgs [.seed 7#32, .clausesPerLabel 8, .specificity (.fin (5/2))]) r ∧
      Acceptable .classifier r) ∧
    Acceptable .regressor (requestedJson Toy.io .regressor [("loss_fn", .str "berHu"), ("threshold", .unsigned 20)]) ∧
    (∀ e ∈ [("loss_fn", JVal.str "berHu"), ("threshold", .unsigned 20)], MemberOk e.1 e.2) := by
  have hj : ∀ e ∈ [("loss_fn", JVal.str "berHu"), ("threshold", .unsigned 20)], MemberOk e.1 e.2 := by
    intro e he
    simp only [List.mem_cons, List.not_mem_nil, or_false] at he
    rcases he with rfl | rfl
    · exact memberOk_str (by decide) trivial
    · exact memberOk_int (by decide) trivial trivial
  refine ⟨⟨_, .classifierArgs (requestedC _), ?_⟩, ?_, hj⟩
  · refine (C26_accepts_exactly (io := Toy.io) (.classifierArgs (requestedC _)) ?_ Toy.machine).1 (Toy.make_of (by decide +kernel))
    constructor <;> decide +kernel
  · refine (C26_accepts_exactly (io := Toy.io) (.regressorJson hj) ?_ Toy.machine).1 (Toy.make_of (by decide +kernel))
    intro l hl
    cases hl
    decide

/-! ### C28 -/

/-- **C28**: after a successful factory call every parameter has the given value or else its default,
n_jobs and random_state being made concrete. -/
theorem C28_values {req : Request k} {r : ParamSet} (h : Requests io req r) (ht : ReqTyped req)
    {m : Machine} {p : Params} (hp : make m io req = .ok (.ok p)) :
    ∀ e ∈ (r.concrete m).entries k, p.get? e.1 = some e.2 := by
  obtain ⟨p0, h1, h2⟩ := Requests.holds h ht
  obtain ⟨s, h3, h4, h5⟩ := finish_spec m io h2
  rw [h1] at hp
  by_cases ha : Acceptable k r
  · rw [(h4 ha).2] at hp
    cases hp
    exact normP_holds m h2
  · rw [(h5 ha).2] at hp; cases hp

/-- **C28** (named arguments): and the estimator has no other parameter. -/
theorem C28_args_nothing_else {args : List Arg} {m : Machine} {p : Params}
    (hp : make m io (Request.args k args) = .ok (.ok p)) {key : String}
    (hk : key ∉ ((defaults k).entries k).map Prod.fst) : p.get? key = none := by
  have notin : ∀ r : ParamSet, key ∉ (r.entries k).map Prod.fst := by
    intro r; cases k <;> exact hk
  have hnj : key ≠ "n_jobs" ∧ key ≠ "random_state" := by
    constructor <;> (rintro rfl; revert hk; cases k <;> decide)
  have look : ∀ r : ParamSet, (r.entries k).lookup key = none := by
    intro r
    rw [List.lookup_eq_none_iff]
    intro e he
    have : key ≠ e.1 := fun h => notin r (h ▸ List.mem_map_of_mem he)
    simpa using this
  cases k with
  | classifier =>
    obtain ⟨p0, h1, h2, h3⟩ := fromArgsC io (classifierArgs args)
    have hp' : makeClassifierParamsFromArgs m io (classifierArgs args) = .ok (.ok p) := hp
    obtain ⟨s, -, h4, h5⟩ := finish_spec m io h2
    rw [h1] at hp'
    by_cases ha : Acceptable .classifier (setOfC (classifierArgs args))
    · rw [(h4 ha).2] at hp'
      cases hp'
      rw [normP_get?_ne _ _ _ hnj.1 hnj.2, h3]
      exact look _
    · rw [(h5 ha).2] at hp'; cases hp'
  | regressor =>
    obtain ⟨p0, h1, h2, h3⟩ := fromArgsR io (regressorArgs args)
    have hp' : makeRegressorParamsFromArgs m io (regressorArgs args) = .ok (.ok p) := hp
    obtain ⟨s, -, h4, h5⟩ := finish_spec m io h2
    rw [h1] at hp'
    by_cases ha : Acceptable .regressor (setOfR (regressorArgs args))
    · rw [(h4 ha).2] at hp'
      cases hp'
      rw [normP_get?_ne _ _ _ hnj.1 hnj.2, h3]
      exact look _
    · rw [(h5 ha).2] at hp'; cases hp'

/-- The two parameters a fit sets; present without a value in estimators made from JSON. -/
def fitKeys : Kind → List String
  | .classifier => ["number_of_labels", "number_of_features"]
  | .regressor => ["number_of_features"]

/-- **C28** (JSON): a parameter that is neither documented for the kind nor a member of the configuration
is absent, except for the two a fit sets, which are present without a value.  (A member documented only
for the other kind, such as loss_fn in a classifier's configuration, is accepted and kept.) -/
theorem C28_json_nothing_else {l : List (String × JVal)} (hn : (l.map Prod.fst).Nodup) {m : Machine} {p : Params}
    (hp : make m io (Request.json k (.ok (.obj l))) = .ok (.ok p)) {key : String}
    (hk : key ∉ ((defaults k).entries k).map Prod.fst) (hl : key ∉ l.map Prod.fst) :
    p.get? key = if key ∈ fitKeys k then some .none else none := by
  have hnj : key ≠ "n_jobs" ∧ key ≠ "random_state" := by
    constructor <;> (rintro rfl; revert hk; cases k <;> decide)
  have hll : l.lookup key = none := by
    rw [List.lookup_eq_none_iff]
    intro e he
    have : key ≠ e.1 := fun h => hl (h ▸ List.mem_map_of_mem he)
    simpa using this
  have hok : ∀ e ∈ l, MemberOk e.1 e.2 := by
    rcases members_cases l with hok | ⟨pre, kk, j, f, post, hl, h1, h2⟩
    · exact hok
    · cases k with
      | classifier =>
        have e := make_json_fault m io l (.inl ⟨rfl, rfl⟩) hl h1 h2
        have e' := e.symm.trans hp
        cases f <;> cases e'
      | regressor =>
        have e := make_json_fault m io l (.inr ⟨rfl, rfl⟩) hl h1 h2
        have e' := e.symm.trans hp
        cases f <;> cases e'
  obtain ⟨u, h1, h2⟩ := jsonToParams_ok io l [] hok hn
  have h2' : ∀ k, u.get? k = (l.lookup k).bind (memberOpt io k) := fun k => by rw [h2]; simp [Params.get?]
  have hfin : make m io (Request.json k (.ok (.obj l))) = finish m io k (mergeParams (defaultParams k) u) := by
    cases k with
    | classifier =>
      show flatMapR (jsonToParams io l []) _ = _
      rw [h1]; rfl
    | regressor =>
      show flatMapR (jsonToParams io l []) _ = _
      rw [h1]; rfl
  obtain ⟨s, -, h4, h5⟩ := finish_spec m io (merged_holds hok h2' k)
  rw [hfin] at hp
  by_cases ha : Acceptable k (requestedJson io k l)
  · rw [(h4 ha).2] at hp
    cases hp
    rw [normP_get?_ne _ _ _ hnj.1 hnj.2, get?_merge, h2', hll]
    show (defaultParams k).lookup key = _
    cases k with
    | classifier =>
      simp [ParamSet.entries, clausesKey] at hk
      by_cases h1 : key = "number_of_labels"
      · subst h1; rfl
      by_cases h2 : key = "number_of_features"
      · subst h2; rfl
      rw [if_neg (by simp [fitKeys, h1, h2]), List.lookup_eq_none_iff]
      simp [defaultParams, defaultClassifierParams, h1, h2, hk]
    | regressor =>
      simp [ParamSet.entries, clausesKey] at hk
      by_cases h2 : key = "number_of_features"
      · subst h2; rfl
      rw [if_neg (by simp [fitKeys, h2]), List.lookup_eq_none_iff]
      simp [defaultParams, defaultRegressorParams, h2, hk]
  · rw [(h5 ha).2] at hp; cases hp

/-- A value given, a default, and a key that is absent. -/
example : Params.get? Toy.cParams "threshold" = some (.int 2) ∧ Params.get? Toy.cParams "counting_type" = some (.str "auto") ∧
    Params.get? Toy.cParams "loss_fn" = none ∧ "loss_fn" ∉ ((defaults .classifier).entries .classifier).map Prod.fst := by
  decide +kernel

/-! ### C29 -/

/-- **C29**: the estimator's n_jobs is at least 1 and its random_state is a seed: the requested one, if
there is one. -/
theorem C29_concrete {req : Request k} {r : ParamSet} (h : Requests io req r) (ht : ReqTyped req)
    {m : Machine} {p : Params} (hp : make m io req = .ok (.ok p)) :
    (∃ n, p.get? "n_jobs" = some (.int n) ∧ 1 ≤ n ∧ (r.nJobs ≠ -1 → n = r.nJobs)) ∧
    ∃ s, p.get? "random_state" = some (.seed s) ∧ ∀ s', r.seed = some s' → s = s' := by
  have hv := C28_values h ht hp
  have ha := (C26_accepts_exactly h ht m).1 ⟨p, hp⟩
  constructor
  · refine ⟨(r.concrete m).nJobs, hv ("n_jobs", .int (r.concrete m).nJobs) ?_, ?_, ?_⟩
    · cases k <;> simp [ParamSet.entries]
    · show 1 ≤ (if r.nJobs = -1 then max 1 (m.hwThreads : Int) else r.nJobs)
      rcases ha.nJobs with h | h <;> split <;> omega
    · intro hne
      exact if_neg hne
  · refine ⟨r.seed.getD m.randomDevice, hv ("random_state", .seed (r.seed.getD m.randomDevice)) ?_, ?_⟩
    · cases k <;> simp [ParamSet.entries, ParamSet.concrete, seedVal]
    · intro s' hs
      rw [hs]; rfl

/-- n_jobs left open on an eight-thread machine, seed given. -/
example : Params.get? Toy.cParams "n_jobs" = some (.int 8) ∧ Params.get? Toy.cParams "random_state" = some (.seed 5#32) := by
  decide +kernel

/-! ### C27 -/

/-- **C27**: a configuration that does not parse or is not an object is rejected with S_BAD_JSON. -/
theorem C27_not_an_object (k : Kind) (m : Machine) (io : RealIO) {doc : Except String JVal}
    (hd : ∀ l, doc ≠ .ok (.obj l)) : ∃ s, make m io (Request.json k doc) = .ok (.error s) ∧ s.code = .badJson := by
  cases k <;> rcases doc with e | doc
  · exact ⟨_, rfl, rfl⟩
  · cases doc <;> first | exact ⟨_, rfl, rfl⟩ | exact absurd rfl (hd _)
  · exact ⟨_, rfl, rfl⟩
  · cases doc <;> first | exact ⟨_, rfl, rfl⟩ | exact absurd rfl (hd _)

/-- **C27**: otherwise the first faulty member, in the order of the keys, decides: an unknown key is
rejected with S_BAD_JSON, an ill-typed value throws, and a fractional number too large for the
parameter's type is undefined behaviour. -/
theorem C27_first_fault (k : Kind) (m : Machine) (io : RealIO) {pre post : List (String × JVal)} {key : String} {j : JVal}
    {f : Fault} (hok : ∀ e ∈ pre, MemberOk e.1 e.2) (hf : MemberFault key j f) :
    make m io (Request.json k (.ok (.obj (pre ++ (key, j) :: post)))) = match f with
      | .unknownKey => .ok (.error ⟨.badJson, "Unknown key [" ++ key ++ "] in config\n"⟩)
      | .illTyped => .exn .jsonError
      | .outOfRange => .ub .floatConv := by
  cases k with
  | classifier => exact make_json_fault m io _ (.inl ⟨rfl, rfl⟩) rfl hok hf
  | regressor => exact make_json_fault m io _ (.inr ⟨rfl, rfl⟩) rfl hok hf

/-- **C27**: so a configuration with any faulty member never yields an estimator. -/
theorem C27_never_an_estimator (k : Kind) (m : Machine) (io : RealIO) {l : List (String × JVal)} {key : String} {j : JVal}
    {f : Fault} (hm : (key, j) ∈ l) (hf : MemberFault key j f) (p : Params) :
    make m io (Request.json k (.ok (.obj l))) ≠ .ok (.ok p) := by
  rcases members_cases l with hok | ⟨pre, kk, j, f, post, rfl, h1, h2⟩
  · exact absurd hf (hok _ hm f)
  · rw [C27_first_fault k m io h1 h2]
    cases f <;> exact fun h => by cases h

/-- A faultless configuration asks for a parameter set, to which C26, C28, C29 and C47 apply. -/
theorem C27_faultless_requests (k : Kind) (io : RealIO) {l : List (String × JVal)} (hok : ∀ e ∈ l, MemberOk e.1 e.2) :
    Requests io (Request.json k (.ok (.obj l))) (requestedJson io k l) := by
  cases k with
  | classifier => exact .classifierJson hok
  | regressor => exact .regressorJson hok

/-- An unknown key, an ill-typed value and an oversized number. -/
theorem Toy.faults : MemberFault "number_of_clauses" (.unsigned 4) .unknownKey ∧ MemberFault "threshold" (.str "15") .illTyped ∧
    MemberFault "threshold" (.float 10000000000) .outOfRange := by
  refine ⟨.unknown (by decide) (by decide), .intTy (by decide) id, .intRange (by decide) trivial ?_⟩
  rintro ⟨t, h1, h2, h3⟩
  rw [if_pos (by decide +kernel)] at h3
  have h4 : ((t + 1 : Int) : Rat) ≤ ((2147483648 : Int) : Rat) := Rat.intCast_le_intCast.2 (by omega)
  rw [Rat.intCast_add] at h4
  have h5 := h3.2
  have e1 : ((1 : Int) : Rat) = 1 := rfl
  have e2 : ((2147483648 : Int) : Rat) = 2147483648 := rfl
  rw [e1, e2] at h4
  grind

/-! ### C46 -/

/-- **C46**: the order of the named arguments of a factory is immaterial. -/
theorem C46_factory_order (k : Kind) (m : Machine) (io : RealIO) {args args' : List Arg} (hp : args.Perm args')
    (ht : ReqTyped (Request.args k args)) : make m io (Request.args k args) = make m io (Request.args k args') := by
  cases k with
  | classifier =>
    show makeClassifierParamsFromArgs m io (classifierArgs args) = makeClassifierParamsFromArgs m io (classifierArgs args')
    rw [classifierArgs_perm hp ht.1.2]
  | regressor =>
    show makeRegressorParamsFromArgs m io (regressorArgs args) = makeRegressorParamsFromArgs m io (regressorArgs args')
    rw [regressorArgs_perm hp ht.1.2]

/-- **C46**: and so is that of fit and partial_fit, whose number_of_epochs defaults to 100. -/
theorem C46_fit_order {args args' : List Arg} (hp : args.Perm args') (hc : Compiles fitArgTys args) :
    fitArgs args = fitArgs args' := fitArgs_perm hp hc.2

/-- **C46**: the values that arrive are the given ones, the default for a missing number_of_epochs;
max_number_of_labels must be given. -/
theorem C46_fit_values {args : List Arg} (hc : Compiles fitArgTys args) (ml : Int) (ep : Nat) :
    fitArgs args = some (ml, ep) ↔ Arg.maxLabels ml ∈ args ∧ Given args Arg.epochs 100 ep := by
  have hg := given_extractOr args Arg.epochs (fun | .epochs v => some v | _ => none) 100 (fun _ => rfl)
    (by rintro (_ | _) v h <;> cases h <;> rfl)
  have hm : ∀ v, maybeExtract (fun | .maxLabels v => some v | _ => none) args = some v ↔ Arg.maxLabels v ∈ args := by
    intro v
    unfold maybeExtract
    constructor
    · intro h
      obtain ⟨x, hx, hv⟩ := List.exists_of_findSome?_eq_some h
      cases x <;> cases hv
      exact hx
    · intro h
      cases hf : args.findSome? (fun | .maxLabels v => some v | _ => none) with
      | none => exact absurd (List.findSome?_eq_none_iff.1 hf _ h) (by simp)
      | some w =>
        obtain ⟨x, hx, hv⟩ := List.exists_of_findSome?_eq_some hf
        cases x <;> cases hv
        have := Given.unique.nodup_map_inj hc.2 hx h rfl
        cases this; rfl
  unfold fitArgs
  rw [Option.map_eq_some_iff]
  constructor
  · rintro ⟨v, hv, e⟩
    cases e
    exact ⟨(hm _).1 hv, hg⟩
  · rintro ⟨h1, h2⟩
    refine ⟨ml, (hm _).2 h1, ?_⟩
    have e := Given.unique .epochs (fun _ => rfl) (fun _ _ h => by cases h; rfl) hc.2 h2 hg
    exact congrArg (Prod.mk ml) e.symm

example : fitArgs [.epochs 5, .maxLabels 3] = some (3, 5) ∧ fitArgs [.maxLabels 3, .epochs 5] = some (3, 5) ∧
    fitArgs [.maxLabels 3] = some (3, 100) ∧ fitArgs [.epochs 5] = none := by decide +kernel

end Tsetlini
