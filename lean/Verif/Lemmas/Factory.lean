import Verif.Lemmas.ParamsMake
/- What the factories make. -/
namespace Tsetlini
open Res Spec

/-- The configuration of an accepted parameter set. -/
def cfgOf (kind : Kind) (r : ParamSet) (q : Rat) (sd : BitVec 32) : Cfg where
  kind := kind
  clauses := r.clauses
  T := r.threshold
  states := r.states
  maxWeight := r.maxWeight
  s := q
  boost := r.boost
  weighted := r.weighted
  seed := sd
  ctype := r.countingType
  tile := r.tileSize
  nJobs := r.nJobs
  verbose := r.verbose
  lossName := r.lossFn
  C1 := r.lossC1
  boxMuller := r.boxMuller

section
variable {p : Params} {kind : Kind} {r : ParamSet}

theorem Holds.reads (h : Holds p kind r) {q : Rat} {sd : BitVec 32} (hq : r.s = .fin q) (hs : r.seed = some sd) :
    Reads p (cfgOf kind r q sd) where
  clauses := by
    have : (cfgOf kind r q sd).clauseKey = clausesKey kind := by cases kind <;> rfl
    rw [this]; exact h.clauses
  T := h.T
  states := h.states
  maxWeight := h.maxWeight
  s := by rw [h.s, hq]; rfl
  boost := h.boost
  weighted := h.weighted
  seed := by rw [h.seed, hs]; rfl
  ctype := h.ctype
  tile := h.tile
  nJobs := h.nJobs
  verbose := h.verbose
  loss hk := by cases (show kind = .regressor from hk); exact h.loss
  C1 hk := by cases (show kind = .regressor from hk); exact h.C1
  boxMuller hk := by cases (show kind = .regressor from hk); exact h.boxMuller

theorem Acceptable.valid (ha : Acceptable kind r) (hi : r.IntSized) {q : Rat} {sd : BitVec 32} (hq : r.s = .fin q) :
    Valid (cfgOf kind r q sd) where
  clauses := ha.clauses
  div := by
    have := ha.divisible
    cases kind <;> exact Int.emod_eq_zero_of_dvd this
  clausesMax := (hi r.clauses (by simp)).2
  T := ha.threshold
  TMax := (hi r.threshold (by simp)).2
  states := ha.states
  statesMax := (hi r.states (by simp)).2
  maxWeight := ha.maxWeight
  maxWeightMax := (hi r.maxWeight (by simp)).2
  s := by
    obtain ⟨q', h1, h2⟩ := ha.s
    rw [hq] at h1; cases h1; exact h2
  loss hk := by
    have := ha.lossFn hk
    show r.lossFn ∈ _
    simp only [List.mem_cons, List.not_mem_nil, or_false] at this ⊢
    grind

end

/-! ### from arguments -/

/-- The parameter set behind argument records. -/
def setOfC (a : ClassifierArgs) : ParamSet :=
  ⟨a.clauses, a.states, a.s, a.threshold, a.weighted, a.maxWeight, if a.boost then 1 else 0, a.nJobs, a.verbose,
   a.countingType, a.tileSize, a.seed, "", .nan, false⟩

def setOfR (a : RegressorArgs) : ParamSet :=
  ⟨a.clauses, a.states, a.s, a.threshold, a.weighted, a.maxWeight, if a.boost then 1 else 0, a.nJobs, a.verbose,
   a.countingType, a.tileSize, a.seed, a.lossFn, a.lossC1, a.boxMuller⟩

/-- A map built by one assignment per key. -/
def buildP (es : List (String × PVal)) (p : Params) : Params := es.foldl (fun p e => Params.set p e.1 e.2) p

theorem get?_buildP (k : String) (es : List (String × PVal)) (p : Params) (hn : (es.map Prod.fst).Nodup) :
    (buildP es p).get? k = (es.lookup k).or (p.get? k) := by
  induction es generalizing p with
  | nil => simp [buildP]
  | cons e es ih =>
    obtain ⟨a, v⟩ := e
    simp only [List.map_cons, List.nodup_cons] at hn
    show (buildP es (Params.set p a v)).get? k = _
    rw [ih _ hn.2, List.lookup]
    by_cases h : k = a
    · subst h
      have : es.lookup k = none := by
        rw [List.lookup_eq_none_iff]
        intro q hq
        simp only [List.mem_map, not_exists, not_and] at hn
        have := hn.1 q hq
        simp [Ne.symm this]
      simp [this, Params.get?_set_self]
    · have hb : (k == a) = false := by simp [h]
      rw [hb, Params.get?_set_ne _ h]

theorem get?_build (es : List (String × PVal)) (hn : (es.map Prod.fst).Nodup) (k : String) :
    (buildP es []).get? k = es.lookup k := by
  rw [get?_buildP k es [] hn]
  simp [Params.get?]

theorem entries_nodup (r : ParamSet) (kind : Kind) : ((r.entries kind).map Prod.fst).Nodup := by
  cases kind <;> simp [ParamSet.entries, clausesKey]

theorem lookup_of_mem {α : Type} {es : List (String × α)} (hn : (es.map Prod.fst).Nodup) {e : String × α} (he : e ∈ es) :
    es.lookup e.1 = some e.2 := by
  induction es with
  | nil => simp at he
  | cons f es ih =>
    simp only [List.map_cons, List.nodup_cons] at hn
    rw [List.lookup]
    rcases List.mem_cons.1 he with rfl | he
    · simp
    · have : (e.1 == f.1) = false := by
        have : e.1 ≠ f.1 := fun h => hn.1 (by rw [← h]; exact List.mem_map_of_mem he)
        simp [this]
      rw [this]; exact ih hn.2 he

/-- The map built from arguments holds exactly the requested entries. -/
theorem fromArgsC (io : RealIO) (a : ClassifierArgs) :
    ∃ p, (∀ m : Machine, makeClassifierParamsFromArgs m io a = finish m io .classifier p) ∧ Holds p .classifier (setOfC a) ∧
      ∀ k, p.get? k = ((setOfC a).entries .classifier).lookup k := by
  refine ⟨buildP ((setOfC a).entries .classifier) [], ?_, ?_, get?_build _ (entries_nodup _ _)⟩
  · obtain ⟨a1, a2, a3, a4, a5, a6, a7, a8, a9, a10, a11, sd⟩ := a
    cases sd <;> exact fun _ => rfl
  · intro e he
    rw [get?_build _ (entries_nodup _ _)]
    exact lookup_of_mem (entries_nodup _ _) he

theorem fromArgsR (io : RealIO) (a : RegressorArgs) :
    ∃ p, (∀ m : Machine, makeRegressorParamsFromArgs m io a = finish m io .regressor p) ∧ Holds p .regressor (setOfR a) ∧
      ∀ k, p.get? k = ((setOfR a).entries .regressor).lookup k := by
  refine ⟨buildP ((setOfR a).entries .regressor) [], ?_, ?_, get?_build _ (entries_nodup _ _)⟩
  · obtain ⟨⟨a1, a2, a3, a4, a5, a6, a7, a8, a9, a10, a11, sd⟩, b1, b2, b3⟩ := a
    cases sd <;> exact fun _ => rfl
  · intro e he
    rw [get?_build _ (entries_nodup _ _)]
    exact lookup_of_mem (entries_nodup _ _) he

theorem given_extractOr {α : Type} (args : List Arg) (mk : α → Arg) (pick : Arg → Option α) (d : α)
    (h1 : ∀ v, pick (mk v) = some v) (h2 : ∀ a v, pick a = some v → a = mk v) :
    Given args mk d (extractOr pick d args) := by
  unfold extractOr maybeExtract
  cases h : args.findSome? pick with
  | none =>
    rw [List.findSome?_eq_none_iff] at h
    right
    refine ⟨fun v hv => ?_, rfl⟩
    have := h _ hv
    rw [h1] at this; cases this
  | some v =>
    left
    obtain ⟨a, ha, hv⟩ := List.exists_of_findSome?_eq_some h
    show mk v ∈ args
    rw [← h2 a v hv]; exact ha

/-- With no type given twice, the value is determined. -/
theorem Given.unique {α : Type} {args : List Arg} {mk : α → Arg} {d x y : α} (ty : ArgTy)
    (hty : ∀ v, (mk v).ty = ty) (hinj : ∀ v w, mk v = mk w → v = w)
    (hn : (args.map Arg.ty).Nodup) (hx : Given args mk d x) (hy : Given args mk d y) : x = y := by
  rcases hx with hx | ⟨hx, rfl⟩
  · rcases hy with hy | ⟨hy, rfl⟩
    · apply hinj
      exact nodup_map_inj hn hx hy (by rw [hty, hty])
    · exact absurd hx (hy x)
  · rcases hy with hy | ⟨hy, rfl⟩
    · exact absurd hy (hx y)
    · rfl
where
  nodup_map_inj {l : List Arg} (hn : (l.map Arg.ty).Nodup) {a b : Arg} (ha : a ∈ l) (hb : b ∈ l)
      (h : a.ty = b.ty) : a = b := by
    induction l with
    | nil => simp at ha
    | cons c l ih =>
      simp only [List.map_cons, List.nodup_cons, List.mem_map, not_exists, not_and] at hn
      rcases List.mem_cons.1 ha with h1 | h1 <;> rcases List.mem_cons.1 hb with h2 | h2
      · rw [h1, h2]
      · exact absurd (by rw [← h, h1]) (hn.1 b h2)
      · exact absurd (by rw [h, h2]) (hn.1 a h1)
      · exact ih hn.2 h1 h2

theorem seed_given (args : List Arg) :
    (∃ v, Arg.seed v ∈ args ∧ maybeExtract (fun | .seed v => some v | _ => none) args = some v) ∨
      (∀ v, Arg.seed v ∉ args) ∧
        maybeExtract (α := BitVec 32) (fun | .seed v => some v | _ => none) args = none := by
  cases h : maybeExtract (fun | .seed v => some v | _ => none) args with
  | none =>
    right
    refine ⟨fun v hv => ?_, rfl⟩
    unfold maybeExtract at h
    rw [List.findSome?_eq_none_iff] at h
    cases h _ hv
  | some v =>
    left
    obtain ⟨a, ha, hv⟩ := List.exists_of_findSome?_eq_some h
    refine ⟨v, ?_, rfl⟩
    have : a = .seed v := by revert hv; rcases a with (_ | _) <;> intro hv <;> cases hv <;> rfl
    rw [← this]; exact ha

theorem requestedC (args : List Arg) : RequestedBy .classifier args (setOfC (classifierArgs args)) where
  clauses := given_extractOr args _ _ _ (fun _ => rfl) (by rintro (_ | _) v h <;> cases h <;> rfl)
  states := given_extractOr args _ _ _ (fun _ => rfl) (by rintro (_ | _) v h <;> cases h <;> rfl)
  s := given_extractOr args _ _ _ (fun _ => rfl) (by rintro (_ | _) v h <;> cases h <;> rfl)
  threshold := given_extractOr args _ _ _ (fun _ => rfl) (by rintro (_ | _) v h <;> cases h <;> rfl)
  weighted := given_extractOr args _ _ _ (fun _ => rfl) (by rintro (_ | _) v h <;> cases h <;> rfl)
  maxWeight := given_extractOr args _ _ _ (fun _ => rfl) (by rintro (_ | _) v h <;> cases h <;> rfl)
  boost := ⟨_, given_extractOr args _ _ _ (fun _ => rfl) (by rintro (_ | _) v h <;> cases h <;> rfl), rfl⟩
  nJobs := given_extractOr args _ _ _ (fun _ => rfl) (by rintro (_ | _) v h <;> cases h <;> rfl)
  verbose := given_extractOr args _ _ _ (fun _ => rfl) (by rintro (_ | _) v h <;> cases h <;> rfl)
  countingType := given_extractOr args _ _ _ (fun _ => rfl) (by rintro (_ | _) v h <;> cases h <;> rfl)
  tileSize := given_extractOr args _ _ _ (fun _ => rfl) (by rintro (_ | _) v h <;> cases h <;> rfl)
  seed := seed_given args
  lossFn := nofun
  lossC1 := nofun
  boxMuller := nofun

theorem requestedR (args : List Arg) : RequestedBy .regressor args (setOfR (regressorArgs args)) where
  clauses := given_extractOr args _ _ _ (fun _ => rfl) (by rintro (_ | _) v h <;> cases h <;> rfl)
  states := given_extractOr args _ _ _ (fun _ => rfl) (by rintro (_ | _) v h <;> cases h <;> rfl)
  s := given_extractOr args _ _ _ (fun _ => rfl) (by rintro (_ | _) v h <;> cases h <;> rfl)
  threshold := given_extractOr args _ _ _ (fun _ => rfl) (by rintro (_ | _) v h <;> cases h <;> rfl)
  weighted := given_extractOr args _ _ _ (fun _ => rfl) (by rintro (_ | _) v h <;> cases h <;> rfl)
  maxWeight := given_extractOr args _ _ _ (fun _ => rfl) (by rintro (_ | _) v h <;> cases h <;> rfl)
  boost := ⟨_, given_extractOr args _ _ _ (fun _ => rfl) (by rintro (_ | _) v h <;> cases h <;> rfl), rfl⟩
  nJobs := given_extractOr args _ _ _ (fun _ => rfl) (by rintro (_ | _) v h <;> cases h <;> rfl)
  verbose := given_extractOr args _ _ _ (fun _ => rfl) (by rintro (_ | _) v h <;> cases h <;> rfl)
  countingType := given_extractOr args _ _ _ (fun _ => rfl) (by rintro (_ | _) v h <;> cases h <;> rfl)
  tileSize := given_extractOr args _ _ _ (fun _ => rfl) (by rintro (_ | _) v h <;> cases h <;> rfl)
  seed := seed_given args
  lossFn := fun _ => given_extractOr args _ _ _ (fun _ => rfl) (by rintro (_ | _) v h <;> cases h <;> rfl)
  lossC1 := fun _ => given_extractOr args _ _ _ (fun _ => rfl) (by rintro (_ | _) v h <;> cases h <;> rfl)
  boxMuller := fun _ => given_extractOr args _ _ _ (fun _ => rfl) (by rintro (_ | _) v h <;> cases h <;> rfl)


theorem extractOr_perm {α : Type} {args args' : List Arg} (hp : args.Perm args') (hn : (args.map Arg.ty).Nodup)
    (mk : α → Arg) (ty : ArgTy) (pick : Arg → Option α) (d : α) (hty : ∀ v, (mk v).ty = ty)
    (h1 : ∀ v, pick (mk v) = some v) (h2 : ∀ a v, pick a = some v → a = mk v) :
    extractOr pick d args = extractOr pick d args' := by
  have hg := given_extractOr args' mk pick d h1 h2
  have hg' : Given args mk d (extractOr pick d args') := by
    rcases hg with hg | ⟨hg, he⟩
    · exact .inl (hp.mem_iff.2 hg)
    · exact .inr ⟨fun v hv => hg v (hp.mem_iff.1 hv), he⟩
  refine Given.unique ty hty (fun v w h => ?_) hn (given_extractOr args mk pick d h1 h2) hg'
  have := h1 v
  rw [h, h1] at this
  cases this; rfl

theorem maybeExtract_perm {α : Type} {args args' : List Arg} (hp : args.Perm args') (hn : (args.map Arg.ty).Nodup)
    (mk : α → Arg) (ty : ArgTy) (pick : Arg → Option α) (hty : ∀ v, (mk v).ty = ty)
    (h1 : ∀ v, pick (mk v) = some v) (h2 : ∀ a v, pick a = some v → a = mk v) :
    maybeExtract pick args = maybeExtract pick args' := by
  unfold maybeExtract
  cases h : args.findSome? pick with
  | none =>
    rw [List.findSome?_eq_none_iff] at h
    symm
    rw [List.findSome?_eq_none_iff]
    exact fun a ha => h a (hp.mem_iff.2 ha)
  | some v =>
    obtain ⟨a, ha, hv⟩ := List.exists_of_findSome?_eq_some h
    cases h' : args'.findSome? pick with
    | none =>
      rw [List.findSome?_eq_none_iff] at h'
      rw [h' a (hp.mem_iff.1 ha)] at hv; cases hv
    | some w =>
      obtain ⟨b, hb, hw⟩ := List.exists_of_findSome?_eq_some h'
      have e1 := h2 a v hv
      have e2 := h2 b w hw
      have := Given.unique.nodup_map_inj hn ha (hp.mem_iff.2 hb) (by rw [e1, e2, hty, hty])
      rw [this, hw] at hv
      exact hv.symm

theorem classifierArgs_perm {args args' : List Arg} (hp : args.Perm args') (hn : (args.map Arg.ty).Nodup) :
    classifierArgs args = classifierArgs args' := by
  unfold classifierArgs
  congr 1
  · exact extractOr_perm hp hn .clausesPerLabel .clausesPerLabel _ _ (fun _ => rfl) (fun _ => rfl) (by rintro (_ | _) v h <;> cases h <;> rfl)
  · exact extractOr_perm hp hn .states .states _ _ (fun _ => rfl) (fun _ => rfl) (by rintro (_ | _) v h <;> cases h <;> rfl)
  · exact extractOr_perm hp hn .specificity .specificity _ _ (fun _ => rfl) (fun _ => rfl) (by rintro (_ | _) v h <;> cases h <;> rfl)
  · exact extractOr_perm hp hn .threshold .threshold _ _ (fun _ => rfl) (fun _ => rfl) (by rintro (_ | _) v h <;> cases h <;> rfl)
  · exact extractOr_perm hp hn .weighted .weighted _ _ (fun _ => rfl) (fun _ => rfl) (by rintro (_ | _) v h <;> cases h <;> rfl)
  · exact extractOr_perm hp hn .maxWeight .maxWeight _ _ (fun _ => rfl) (fun _ => rfl) (by rintro (_ | _) v h <;> cases h <;> rfl)
  · exact extractOr_perm hp hn .boost .boost _ _ (fun _ => rfl) (fun _ => rfl) (by rintro (_ | _) v h <;> cases h <;> rfl)
  · exact extractOr_perm hp hn .nJobs .nJobs _ _ (fun _ => rfl) (fun _ => rfl) (by rintro (_ | _) v h <;> cases h <;> rfl)
  · exact extractOr_perm hp hn .verbose .verbose _ _ (fun _ => rfl) (fun _ => rfl) (by rintro (_ | _) v h <;> cases h <;> rfl)
  · exact extractOr_perm hp hn .countingType .countingType _ _ (fun _ => rfl) (fun _ => rfl) (by rintro (_ | _) v h <;> cases h <;> rfl)
  · exact extractOr_perm hp hn .tileSize .tileSize _ _ (fun _ => rfl) (fun _ => rfl) (by rintro (_ | _) v h <;> cases h <;> rfl)
  · exact maybeExtract_perm hp hn .seed .seed _ (fun _ => rfl) (fun _ => rfl) (by rintro (_ | _) v h <;> cases h <;> rfl)

theorem regressorArgs_perm {args args' : List Arg} (hp : args.Perm args') (hn : (args.map Arg.ty).Nodup) :
    regressorArgs args = regressorArgs args' := by
  unfold regressorArgs
  congr 1
  · congr 1
    · exact extractOr_perm hp hn .regressorClauses .regressorClauses _ _ (fun _ => rfl) (fun _ => rfl) (by rintro (_ | _) v h <;> cases h <;> rfl)
    · exact extractOr_perm hp hn .states .states _ _ (fun _ => rfl) (fun _ => rfl) (by rintro (_ | _) v h <;> cases h <;> rfl)
    · exact extractOr_perm hp hn .specificity .specificity _ _ (fun _ => rfl) (fun _ => rfl) (by rintro (_ | _) v h <;> cases h <;> rfl)
    · exact extractOr_perm hp hn .threshold .threshold _ _ (fun _ => rfl) (fun _ => rfl) (by rintro (_ | _) v h <;> cases h <;> rfl)
    · exact extractOr_perm hp hn .weighted .weighted _ _ (fun _ => rfl) (fun _ => rfl) (by rintro (_ | _) v h <;> cases h <;> rfl)
    · exact extractOr_perm hp hn .maxWeight .maxWeight _ _ (fun _ => rfl) (fun _ => rfl) (by rintro (_ | _) v h <;> cases h <;> rfl)
    · exact extractOr_perm hp hn .boost .boost _ _ (fun _ => rfl) (fun _ => rfl) (by rintro (_ | _) v h <;> cases h <;> rfl)
    · exact extractOr_perm hp hn .nJobs .nJobs _ _ (fun _ => rfl) (fun _ => rfl) (by rintro (_ | _) v h <;> cases h <;> rfl)
    · exact extractOr_perm hp hn .verbose .verbose _ _ (fun _ => rfl) (fun _ => rfl) (by rintro (_ | _) v h <;> cases h <;> rfl)
    · exact extractOr_perm hp hn .countingType .countingType _ _ (fun _ => rfl) (fun _ => rfl) (by rintro (_ | _) v h <;> cases h <;> rfl)
    · exact extractOr_perm hp hn .tileSize .tileSize _ _ (fun _ => rfl) (fun _ => rfl) (by rintro (_ | _) v h <;> cases h <;> rfl)
    · exact maybeExtract_perm hp hn .seed .seed _ (fun _ => rfl) (fun _ => rfl) (by rintro (_ | _) v h <;> cases h <;> rfl)
  · exact extractOr_perm hp hn .lossFn .lossFn _ _ (fun _ => rfl) (fun _ => rfl) (by rintro (_ | _) v h <;> cases h <;> rfl)
  · exact extractOr_perm hp hn .lossC1 .lossC1 _ _ (fun _ => rfl) (fun _ => rfl) (by rintro (_ | _) v h <;> cases h <;> rfl)
  · exact extractOr_perm hp hn .boxMuller .boxMuller _ _ (fun _ => rfl) (fun _ => rfl) (by rintro (_ | _) v h <;> cases h <;> rfl)

theorem fitArgs_perm {args args' : List Arg} (hp : args.Perm args') (hn : (args.map Arg.ty).Nodup) :
    fitArgs args = fitArgs args' := by
  unfold fitArgs
  rw [maybeExtract_perm hp hn .maxLabels .maxLabels _ (fun _ => rfl) (fun _ => rfl) (by rintro (_ | _) v h <;> cases h <;> rfl),
    extractOr_perm hp hn .epochs .epochs _ _ (fun _ => rfl) (fun _ => rfl) (by rintro (_ | _) v h <;> cases h <;> rfl)]

end Tsetlini
