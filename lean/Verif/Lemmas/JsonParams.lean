import Verif.Lemmas.Factory
/- JSON configurations. -/
namespace Tsetlini
open Res Spec

/-- One member of the configuration: unknown key, nothing to store, or a value. -/
def memberVal (io : RealIO) (k : String) (j : JVal) : Res (Except Status (Option PVal)) :=
  if k ∈ intKeys then j.getInt.bind fun v => .ok (.ok (some (.int v)))
  else if k = "random_state" then
    match j with
    | .null => .ok (.ok none)
    | _ => j.getSeed.bind fun v => .ok (.ok (some (.seed v)))
  else if k ∈ realKeys then (j.getReal io).bind fun v => .ok (.ok (some (.real v)))
  else if k ∈ boolKeys then j.getBool.bind fun v => .ok (.ok (some (.bool v)))
  else if k ∈ strKeys then j.getStr.bind fun v => .ok (.ok (some (.str v)))
  else .ok (.error (badJson ("Unknown key [" ++ k ++ "] in config\n")))

def storeMember (k : String) (rv : Params) : Option PVal → Params
  | some v => rv.set k v
  | none => rv

theorem jsonToParams_cons (io : RealIO) (k : String) (j : JVal) (rest : List (String × JVal)) (rv : Params) :
    jsonToParams io ((k, j) :: rest) rv =
      (memberVal io k j).bind fun e => match e with
        | .error s => .ok (.error s)
        | .ok v => jsonToParams io rest (storeMember k rv v) := by
  conv => lhs; unfold jsonToParams
  unfold memberVal
  split
  · cases j.getInt <;> rfl
  split
  · cases j with
    | null => rfl
    | bool b => cases (JVal.bool b).getSeed <;> rfl
    | unsigned b => cases (JVal.unsigned b).getSeed <;> rfl
    | integer b => cases (JVal.integer b).getSeed <;> rfl
    | float b => dsimp only; cases (JVal.float b).getSeed <;> rfl
    | str b => cases (JVal.str b).getSeed <;> rfl
    | arr b => cases (JVal.arr b).getSeed <;> rfl
    | obj b => cases (JVal.obj b).getSeed <;> rfl
  split
  · cases j.getReal io <;> rfl
  split
  · cases j.getBool <;> rfl
  split
  · cases j.getStr <;> rfl
  · rfl

theorem floor_eq_iff {a : Rat} {n : Int} : a.floor = n ↔ (n : Rat) ≤ a ∧ a < n + 1 := by
  have h1 := Rat.le_floor_iff (x := n) (a := a)
  have h2 := Rat.floor_lt_iff (x := n + 1) (a := a)
  push_cast at h2
  rw [← h1, ← h2]
  omega

theorem trunc_fits {q : Rat} {lo hi : Int} :
    FracFits lo hi (.float q) ↔
      lo ≤ (if 0 ≤ q then q.floor else -((-q).floor)) ∧ (if 0 ≤ q then q.floor else -((-q).floor)) ≤ hi := by
  unfold FracFits
  by_cases hq : 0 ≤ q
  · simp only [if_pos hq]
    constructor
    · rintro ⟨t, h1, h2, h3, h4⟩
      have : q.floor = t := floor_eq_iff.2 ⟨h3, h4⟩
      rw [this]; exact ⟨h1, h2⟩
    · rintro ⟨h1, h2⟩
      have := (floor_eq_iff (a := q) (n := q.floor)).1 rfl
      exact ⟨q.floor, h1, h2, this.1, this.2⟩
  · simp only [if_neg hq]
    constructor
    · rintro ⟨t, h1, h2, h3, h4⟩
      have : (-q).floor = -t := floor_eq_iff.2 ⟨by push_cast; grind, by push_cast; grind⟩
      rw [this]; omega
    · rintro ⟨h1, h2⟩
      have := (floor_eq_iff (a := -q) (n := (-q).floor)).1 rfl
      refine ⟨-(-q).floor, h1, h2, ?_, ?_⟩
      · push_cast; grind
      · push_cast; grind

theorem mem_intKeys {k : String} : k ∈ intKeys ↔ k ∈ intParams := by
  simp only [intKeys, intParams, List.mem_cons, List.not_mem_nil, or_false]
  constructor <;> (intro h; rcases h with h | h | h | h | h | h | h | h <;> simp [h])

theorem getInt_cases (j : JVal) :
    (¬ Numeric j ∧ j.getInt = .exn .jsonError) ∨
    (Numeric j ∧ ¬ FracFits (-2147483648) 2147483647 j ∧ j.getInt = .ub .floatConv) ∨
    (Numeric j ∧ FracFits (-2147483648) 2147483647 j ∧
      ∃ i, j.getInt = .ok i ∧ -2147483648 ≤ i ∧ i ≤ 2147483647) := by
  cases j with
  | float q =>
    right
    unfold JVal.getInt
    dsimp only
    by_cases h : FracFits (-2147483648) 2147483647 (.float q)
    · have h' := trunc_fits.1 h
      rw [if_pos h']
      exact .inr ⟨trivial, h, _, rfl, h'⟩
    · rw [if_neg fun h' => h (trunc_fits.2 h')]
      exact .inl ⟨trivial, h, rfl⟩
  | unsigned n =>
    have h1 := Int.le_bmod (x := n) (m := 4294967296) (by decide)
    have h2 := Int.bmod_lt (x := n) (m := 4294967296) (by decide)
    exact .inr (.inr ⟨trivial, trivial, _, rfl, by omega, by omega⟩)
  | integer n =>
    have h1 := Int.le_bmod (x := n) (m := 4294967296) (by decide)
    have h2 := Int.bmod_lt (x := n) (m := 4294967296) (by decide)
    exact .inr (.inr ⟨trivial, trivial, _, rfl, by omega, by omega⟩)
  | bool b => exact .inr (.inr ⟨trivial, trivial, _, rfl, by cases b <;> decide⟩)
  | null => exact .inl ⟨id, rfl⟩
  | str _ => exact .inl ⟨id, rfl⟩
  | arr _ => exact .inl ⟨id, rfl⟩
  | obj _ => exact .inl ⟨id, rfl⟩

theorem getSeed_cases (j : JVal) :
    (¬ Numeric j ∧ j.getSeed = .exn .jsonError) ∨
    (Numeric j ∧ ¬ FracFits 0 4294967295 j ∧ j.getSeed = .ub .floatConv) ∨
    (Numeric j ∧ FracFits 0 4294967295 j ∧ ∃ i, j.getSeed = .ok i) := by
  cases j with
  | float q =>
    right
    unfold JVal.getSeed
    dsimp only
    by_cases h : FracFits 0 4294967295 (.float q)
    · have h' := trunc_fits.1 h
      rw [if_pos h']
      exact .inr ⟨trivial, h, _, rfl⟩
    · rw [if_neg fun h' => h (trunc_fits.2 h')]
      exact .inl ⟨trivial, h, rfl⟩
  | unsigned n => exact .inr (.inr ⟨trivial, trivial, _, rfl⟩)
  | integer n => exact .inr (.inr ⟨trivial, trivial, _, rfl⟩)
  | bool b => exact .inr (.inr ⟨trivial, trivial, _, rfl⟩)
  | null => exact .inl ⟨id, rfl⟩
  | str _ => exact .inl ⟨id, rfl⟩
  | arr _ => exact .inl ⟨id, rfl⟩
  | obj _ => exact .inl ⟨id, rfl⟩

theorem getReal_cases (io : RealIO) (j : JVal) :
    (¬ Numeric j ∧ j.getReal io = .exn .jsonError) ∨ (Numeric j ∧ ∃ i, j.getReal io = .ok i) := by
  cases j <;> first | exact .inl ⟨id, rfl⟩ | exact .inr ⟨trivial, _, rfl⟩

theorem getBool_cases (j : JVal) :
    (¬ IsBool j ∧ j.getBool = .exn .jsonError) ∨ (IsBool j ∧ ∃ b, j = .bool b ∧ j.getBool = .ok b) := by
  cases j <;> first | exact .inl ⟨id, rfl⟩ | exact .inr ⟨trivial, _, rfl, rfl⟩

theorem getStr_cases (j : JVal) :
    (¬ IsStr j ∧ j.getStr = .exn .jsonError) ∨ (IsStr j ∧ ∃ b, j = .str b ∧ j.getStr = .ok b) := by
  cases j <;> first | exact .inl ⟨id, rfl⟩ | exact .inr ⟨trivial, _, rfl, rfl⟩

theorem memberVal_int (io : RealIO) {k : String} (hk : k ∈ intParams) (j : JVal) :
    memberVal io k j = j.getInt.bind fun v => .ok (.ok (some (.int v))) := by
  unfold memberVal
  rw [if_pos (mem_intKeys.2 hk)]

theorem memberVal_seed (io : RealIO) {j : JVal} (hj : j ≠ .null) :
    memberVal io "random_state" j = j.getSeed.bind fun v => .ok (.ok (some (.seed v))) := by
  unfold memberVal
  rw [if_neg (by decide), if_pos rfl]
  cases j <;> first | exact absurd rfl hj | rfl

theorem memberVal_null (io : RealIO) : memberVal io "random_state" .null = .ok (.ok none) := by
  unfold memberVal
  rw [if_neg (by decide), if_pos rfl]

theorem memberVal_real (io : RealIO) {k : String} (hk : k ∈ ["s", "loss_fn_C1"]) (j : JVal) :
    memberVal io k j = (j.getReal io).bind fun v => .ok (.ok (some (.real v))) := by
  simp only [List.mem_cons, List.not_mem_nil, or_false] at hk
  unfold memberVal
  rcases hk with rfl | rfl
  · rw [if_neg (by decide), if_neg (by decide), if_pos (by decide)]
  · rw [if_neg (by decide), if_neg (by decide), if_pos (by decide)]

theorem memberVal_bool (io : RealIO) {k : String} (hk : k ∈ ["verbose", "weighted", "box_muller"]) (j : JVal) :
    memberVal io k j = j.getBool.bind fun v => .ok (.ok (some (.bool v))) := by
  simp only [List.mem_cons, List.not_mem_nil, or_false] at hk
  unfold memberVal
  rcases hk with rfl | rfl | rfl <;>
  rw [if_neg (by decide), if_neg (by decide), if_neg (by decide), if_pos (by decide)]

theorem memberVal_str (io : RealIO) {k : String} (hk : k ∈ ["counting_type", "loss_fn"]) (j : JVal) :
    memberVal io k j = j.getStr.bind fun v => .ok (.ok (some (.str v))) := by
  simp only [List.mem_cons, List.not_mem_nil, or_false] at hk
  unfold memberVal
  rcases hk with rfl | rfl <;>
  rw [if_neg (by decide), if_neg (by decide), if_neg (by decide), if_neg (by decide), if_pos (by decide)]

theorem memberVal_unknown (io : RealIO) {k : String} (h1 : k ∉ intParams)
    (h2 : k ∉ ["random_state", "s", "loss_fn_C1", "verbose", "weighted", "box_muller", "counting_type", "loss_fn"])
    (j : JVal) : memberVal io k j = .ok (.error (badJson ("Unknown key [" ++ k ++ "] in config\n"))) := by
  simp only [List.mem_cons, List.not_mem_nil, or_false, not_or] at h2
  obtain ⟨a, b, c, d, e, f, g, h⟩ := h2
  unfold memberVal
  rw [if_neg (fun h => h1 (mem_intKeys.1 h)), if_neg a, if_neg (by simp [realKeys, b, c]),
    if_neg (by simp [boolKeys, d, e, f]), if_neg (by simp [strKeys, g, h])]

/-- What a member's fault leads to. -/
def faultRes (k : String) : Fault → Res (Except Status (Option PVal))
  | .unknownKey => .ok (.error (badJson ("Unknown key [" ++ k ++ "] in config\n")))
  | .illTyped => .exn .jsonError
  | .outOfRange => .ub .floatConv

theorem memberVal_fault (io : RealIO) {k : String} {j : JVal} {f : Fault} (h : MemberFault k j f) :
    memberVal io k j = faultRes k f := by
  cases h with
  | intTy hk hj =>
    rw [memberVal_int io hk]
    rcases getInt_cases j with ⟨_, h⟩ | ⟨h, _⟩ | ⟨h, _⟩
    · rw [h]; rfl
    · exact absurd h hj
    · exact absurd h hj
  | intRange hk hj hf =>
    rw [memberVal_int io hk]
    rcases getInt_cases j with ⟨h, _⟩ | ⟨_, _, h⟩ | ⟨_, h, _⟩
    · exact absurd hj h
    · rw [h]; rfl
    · exact absurd h hf
  | seedTy h0 hj =>
    rw [memberVal_seed io h0]
    rcases getSeed_cases j with ⟨_, h⟩ | ⟨h, _⟩ | ⟨h, _⟩
    · rw [h]; rfl
    · exact absurd h hj
    · exact absurd h hj
  | seedRange hj hf =>
    rw [memberVal_seed io (by rintro rfl; exact hj)]
    rcases getSeed_cases j with ⟨h, _⟩ | ⟨_, _, h⟩ | ⟨_, h, _⟩
    · exact absurd hj h
    · rw [h]; rfl
    · exact absurd h hf
  | realTy hk hj =>
    rw [memberVal_real io hk]
    rcases getReal_cases io j with ⟨_, h⟩ | ⟨h, _⟩
    · rw [h]; rfl
    · exact absurd h hj
  | boolTy hk hj =>
    rw [memberVal_bool io hk]
    rcases getBool_cases j with ⟨_, h⟩ | ⟨h, _⟩
    · rw [h]; rfl
    · exact absurd h hj
  | strTy hk hj =>
    rw [memberVal_str io hk]
    rcases getStr_cases j with ⟨_, h⟩ | ⟨h, _⟩
    · rw [h]; rfl
    · exact absurd h hj
  | unknown h1 h2 => exact memberVal_unknown io h1 h2 j

/-- The value a member stores. -/
def memberOpt (io : RealIO) (k : String) (j : JVal) : Option PVal :=
  match memberVal io k j with
  | .ok (.ok o) => o
  | _ => none

theorem ok_int {k : String} {j : JVal} (hk : k ∈ intParams) (h : MemberOk k j) :
    ∃ i, j.getInt = .ok i ∧ -2147483648 ≤ i ∧ i ≤ 2147483647 := by
  rcases getInt_cases j with ⟨a, _⟩ | ⟨a, b, _⟩ | ⟨_, _, h⟩
  · exact absurd (.intTy hk a) (h _)
  · exact absurd (.intRange hk a b) (h _)
  · exact h

theorem ok_seed {j : JVal} (h : MemberOk "random_state" j) : j = .null ∨ j ≠ .null ∧ ∃ i, j.getSeed = .ok i := by
  by_cases h0 : j = .null
  · exact .inl h0
  rcases getSeed_cases j with ⟨a, _⟩ | ⟨a, b, _⟩ | ⟨_, _, h⟩
  · exact absurd (.seedTy h0 a) (h _)
  · exact absurd (.seedRange a b) (h _)
  · exact .inr ⟨h0, h⟩

theorem ok_real (io : RealIO) {k : String} {j : JVal} (hk : k ∈ ["s", "loss_fn_C1"]) (h : MemberOk k j) :
    ∃ i, j.getReal io = .ok i := by
  rcases getReal_cases io j with ⟨a, _⟩ | ⟨_, h⟩
  · exact absurd (.realTy hk a) (h _)
  · exact h

theorem ok_bool {k : String} {j : JVal} (hk : k ∈ ["verbose", "weighted", "box_muller"]) (h : MemberOk k j) :
    ∃ b, j = .bool b ∧ j.getBool = .ok b := by
  rcases getBool_cases j with ⟨a, _⟩ | ⟨_, h⟩
  · exact absurd (.boolTy hk a) (h _)
  · exact h

theorem ok_str {k : String} {j : JVal} (hk : k ∈ ["counting_type", "loss_fn"]) (h : MemberOk k j) :
    ∃ b, j = .str b ∧ j.getStr = .ok b := by
  rcases getStr_cases j with ⟨a, _⟩ | ⟨_, h⟩
  · exact absurd (.strTy hk a) (h _)
  · exact h

/-- A faultless member is stored. -/
theorem memberVal_ok (io : RealIO) {k : String} {j : JVal} (h : MemberOk k j) :
    memberVal io k j = .ok (.ok (memberOpt io k j)) := by
  have key : ∃ o, memberVal io k j = .ok (.ok o) := by
    by_cases h1 : k ∈ intParams
    · obtain ⟨i, hi, -⟩ := ok_int h1 h
      exact ⟨_, by rw [memberVal_int io h1, hi]; rfl⟩
    by_cases h2 : k = "random_state"
    · subst h2
      rcases ok_seed h with rfl | ⟨h0, i, hi⟩
      · exact ⟨_, memberVal_null io⟩
      · exact ⟨_, by rw [memberVal_seed io h0, hi]; rfl⟩
    by_cases h3 : k ∈ ["s", "loss_fn_C1"]
    · obtain ⟨i, hi⟩ := ok_real io h3 h
      exact ⟨_, by rw [memberVal_real io h3, hi]; rfl⟩
    by_cases h4 : k ∈ ["verbose", "weighted", "box_muller"]
    · obtain ⟨i, -, hi⟩ := ok_bool h4 h
      exact ⟨_, by rw [memberVal_bool io h4, hi]; rfl⟩
    by_cases h5 : k ∈ ["counting_type", "loss_fn"]
    · obtain ⟨i, -, hi⟩ := ok_str h5 h
      exact ⟨_, by rw [memberVal_str io h5, hi]; rfl⟩
    · refine absurd (.unknown h1 ?_) (h .unknownKey)
      simp only [List.mem_cons, List.not_mem_nil, or_false, not_or] at h2 h3 h4 h5 ⊢
      exact ⟨h2, h3.1, h3.2, h4.1, h4.2.1, h4.2.2, h5.1, h5.2⟩
  obtain ⟨o, ho⟩ := key
  unfold memberOpt
  rw [ho]

theorem get?_storeMember_self (k : String) (rv : Params) (o : Option PVal) :
    Params.get? (storeMember k rv o) k = o.or (Params.get? rv k) := by
  cases o with
  | none => rfl
  | some v => exact Params.get?_set_self ..

theorem get?_storeMember_ne {k k' : String} (rv : Params) (o : Option PVal) (h : k' ≠ k) :
    Params.get? (storeMember k rv o) k' = Params.get? rv k' := by
  cases o with
  | none => rfl
  | some v => exact Params.get?_set_ne _ h _

theorem jsonToParams_ok (io : RealIO) (ms : List (String × JVal)) (rv : Params)
    (hok : ∀ e ∈ ms, MemberOk e.1 e.2) (hn : (ms.map Prod.fst).Nodup) :
    ∃ u, jsonToParams io ms rv = .ok (.ok u) ∧
      ∀ k, u.get? k = ((ms.lookup k).bind (memberOpt io k)).or (rv.get? k) := by
  induction ms generalizing rv with
  | nil => exact ⟨rv, rfl, fun k => rfl⟩
  | cons e ms ih =>
    obtain ⟨k0, j0⟩ := e
    rw [List.map_cons, List.nodup_cons] at hn
    obtain ⟨u, hu, hk⟩ := ih (storeMember k0 rv (memberOpt io k0 j0)) (fun e he => hok e (by simp [he])) hn.2
    refine ⟨u, ?_, fun k => ?_⟩
    · rw [jsonToParams_cons, memberVal_ok io (hok (k0, j0) (by simp)), ok_bind]
      exact hu
    · rw [hk]
      by_cases hkk : k = k0
      · subst hkk
        have : ms.lookup k = none := by
          rw [List.lookup_eq_none_iff]
          intro p hp
          simp only [bne_iff_ne, ne_eq]
          intro h
          exact hn.1 (List.mem_map.2 ⟨p, hp, h.symm⟩)
        rw [this, get?_storeMember_self]
        simp
      · rw [get?_storeMember_ne rv _ hkk, List.lookup_cons]
        have : (k == k0) = false := by simpa using hkk
        rw [this]

/-- The first faulty member decides. -/
theorem jsonToParams_fault (io : RealIO) (pre : List (String × JVal)) {k : String} {j : JVal} {f : Fault}
    (post : List (String × JVal)) (rv : Params)
    (hok : ∀ e ∈ pre, MemberOk e.1 e.2) (hf : MemberFault k j f) :
    jsonToParams io (pre ++ (k, j) :: post) rv = (faultRes k f).bind fun e => match e with
      | .error s => .ok (.error s)
      | .ok _ => .ok (.ok []) := by
  induction pre generalizing rv with
  | nil =>
    rw [List.nil_append, jsonToParams_cons, memberVal_fault io hf]
    cases f <;> rfl
  | cons e pre ih =>
    obtain ⟨k0, j0⟩ := e
    rw [List.cons_append, jsonToParams_cons, memberVal_ok io (hok (k0, j0) (by simp)), ok_bind]
    exact ih _ fun e he => hok e (by simp [he])

theorem lookup_filter_none (lhs rhs : Params) (k : String) (h : rhs.get? k = none) :
    (lhs.filter fun e => (rhs.get? e.1).isNone).lookup k = lhs.lookup k := by
  induction lhs with
  | nil => rfl
  | cons e lhs ih =>
    obtain ⟨k0, v⟩ := e
    rw [List.filter_cons]
    by_cases hk : k = k0
    · subst hk
      rw [h]
      simp
    · have : (k == k0) = false := by simpa using hk
      split
      · rw [List.lookup_cons, this, List.lookup_cons, this]; exact ih
      · rw [List.lookup_cons, this]; exact ih

theorem get?_merge (lhs rhs : Params) (k : String) :
    (mergeParams lhs rhs).get? k = (rhs.get? k).or (lhs.get? k) := by
  unfold mergeParams Params.get?
  rw [List.lookup_append]
  cases h : rhs.lookup k with
  | some v => rfl
  | none => rw [Option.or, Option.or]; exact lookup_filter_none lhs rhs k h

def defaultParams : Kind → Params
  | .classifier => defaultClassifierParams
  | .regressor => defaultRegressorParams

theorem lookup_memberOk {ms : List (String × JVal)} (hok : ∀ e ∈ ms, MemberOk e.1 e.2) {k : String} {j : JVal}
    (h : ms.lookup k = some j) : MemberOk k j := by
  have : (k, j) ∈ ms := by
    clear hok
    induction ms with
    | nil => cases h
    | cons e ms ih =>
      obtain ⟨k0, j0⟩ := e
      rw [List.lookup_cons] at h
      split at h
      · rename_i hk
        cases h
        have : k = k0 := by simpa using hk
        subst this; simp
      · exact List.mem_cons_of_mem _ (ih h)
  exact hok _ this

section
variable {io : RealIO} {ms : List (String × JVal)} (hok : ∀ e ∈ ms, MemberOk e.1 e.2)
include hok

omit hok in
theorem wholePart_int (i : Int) : wholePart i = i := by
  unfold wholePart
  split
  · exact Rat.floor_intCast i
  · rw [← Rat.intCast_neg, Rat.floor_intCast]; omega

omit hok in
theorem getInt_number {j : JVal} {i : Int} (h : j.getInt = .ok i) :
    ∃ q, numberOf j = some q ∧ (wholePart q).bmod (2^32) = i := by
  cases j with
  | unsigned n =>
    have h : (n : Int).bmod 4294967296 = i := Res.ok.inj h
    exact ⟨_, rfl, by rw [show ((n : Nat) : Rat) = ((n : Int) : Rat) from (Rat.intCast_natCast n).symm, wholePart_int]; exact h⟩
  | integer n => cases h; exact ⟨_, rfl, by rw [wholePart_int]⟩
  | float q =>
    have h : (if -2147483648 ≤ wholePart q ∧ wholePart q ≤ 2147483647 then Res.ok (wholePart q) else .ub .floatConv) = .ok i := h
    by_cases hf : -2147483648 ≤ wholePart q ∧ wholePart q ≤ 2147483647
    · rw [if_pos hf] at h
      cases h
      exact ⟨_, rfl, by rw [Int.bmod_eq_of_le] <;> omega⟩
    · rw [if_neg hf] at h; cases h
  | bool b => cases h; exact ⟨_, rfl, by cases b <;> decide +kernel⟩
  | null => cases h
  | str _ => cases h
  | arr _ => cases h
  | obj _ => cases h

omit hok in
theorem getSeed_number {j : JVal} {i : BitVec 32} (h : j.getSeed = .ok i) :
    ∃ q, numberOf j = some q ∧ BitVec.ofInt 32 (wholePart q) = i := by
  cases j with
  | unsigned n => cases h; exact ⟨_, rfl, by rw [show ((n : Nat) : Rat) = ((n : Int) : Rat) from (Rat.intCast_natCast n).symm, wholePart_int]; exact BitVec.ofInt_natCast ..⟩
  | integer n => cases h; exact ⟨_, rfl, by rw [wholePart_int]⟩
  | float q =>
    have h : (if 0 ≤ wholePart q ∧ wholePart q ≤ 4294967295 then Res.ok (BitVec.ofInt 32 (wholePart q)) else .ub .floatConv) = .ok i := h
    by_cases hf : 0 ≤ wholePart q ∧ wholePart q ≤ 4294967295
    · rw [if_pos hf] at h
      cases h
      exact ⟨_, rfl, rfl⟩
    · rw [if_neg hf] at h; cases h
  | bool b => cases h; exact ⟨_, rfl, by cases b <;> decide +kernel⟩
  | null => cases h
  | str _ => cases h
  | arr _ => cases h
  | obj _ => cases h

omit hok in
theorem getReal_number {j : JVal} {i : Fl} (h : j.getReal io = .ok i) : ∃ q, numberOf j = some q ∧ io.toReal q = i := by
  cases j with
  | unsigned n => cases h; exact ⟨_, rfl, rfl⟩
  | integer n => cases h; exact ⟨_, rfl, rfl⟩
  | float q => cases h; exact ⟨_, rfl, rfl⟩
  | bool b => cases h; exact ⟨_, rfl, by cases b <;> rfl⟩
  | null => cases h
  | str _ => cases h
  | arr _ => cases h
  | obj _ => cases h

theorem given_int {k : String} (hk : k ∈ intParams) (d : Int) :
    ((ms.lookup k).bind (memberOpt io k)).or (some (.int d)) = some (.int (givenInt ms k d)) := by
  unfold givenInt
  cases h : ms.lookup k with
  | none => rfl
  | some j =>
    obtain ⟨i, hi, -⟩ := ok_int hk (lookup_memberOk hok h)
    obtain ⟨q, hq, he⟩ := getInt_number hi
    rw [Option.bind_some, Option.bind_some, hq]
    dsimp only
    unfold memberOpt
    rw [memberVal_int io hk, hi, he]
    rfl

theorem given_int_sized {k : String} (hk : k ∈ intParams) (d : Int) (hd : -2147483648 ≤ d ∧ d ≤ 2147483647) :
    -2147483648 ≤ givenInt ms k d ∧ givenInt ms k d ≤ 2147483647 := by
  unfold givenInt
  cases h : ms.lookup k with
  | none => exact hd
  | some j =>
    obtain ⟨i, hi, h⟩ := ok_int hk (lookup_memberOk hok h)
    obtain ⟨q, hq, he⟩ := getInt_number hi
    rw [Option.bind_some, hq]
    dsimp only
    rw [he]
    exact h

theorem given_real {k : String} (hk : k ∈ ["s", "loss_fn_C1"]) (d : Fl) :
    ((ms.lookup k).bind (memberOpt io k)).or (some (.real d)) = some (.real (givenReal io ms k d)) := by
  unfold givenReal
  cases h : ms.lookup k with
  | none => rfl
  | some j =>
    obtain ⟨i, hi⟩ := ok_real io hk (lookup_memberOk hok h)
    obtain ⟨q, hq, he⟩ := getReal_number hi
    rw [Option.bind_some, Option.bind_some, hq]
    dsimp only
    unfold memberOpt
    rw [memberVal_real io hk, hi, he]
    rfl

theorem given_bool {k : String} (hk : k ∈ ["verbose", "weighted", "box_muller"]) (d : Bool) :
    ((ms.lookup k).bind (memberOpt io k)).or (some (.bool d)) = some (.bool (givenBool ms k d)) := by
  unfold givenBool
  cases h : ms.lookup k with
  | none => rfl
  | some j =>
    obtain ⟨i, rfl, hi⟩ := ok_bool hk (lookup_memberOk hok h)
    rw [Option.bind_some]
    unfold memberOpt
    rw [memberVal_bool io hk, hi]
    rfl

theorem given_str {k : String} (hk : k ∈ ["counting_type", "loss_fn"]) (d : String) :
    ((ms.lookup k).bind (memberOpt io k)).or (some (.str d)) = some (.str (givenStr ms k d)) := by
  unfold givenStr
  cases h : ms.lookup k with
  | none => rfl
  | some j =>
    obtain ⟨i, rfl, hi⟩ := ok_str hk (lookup_memberOk hok h)
    rw [Option.bind_some]
    unfold memberOpt
    rw [memberVal_str io hk, hi]
    rfl

theorem given_seed :
    ((ms.lookup "random_state").bind (memberOpt io "random_state")).or (some .none) = some (seedVal (givenSeed ms)) := by
  unfold givenSeed
  cases h : ms.lookup "random_state" with
  | none => rfl
  | some j =>
    rcases ok_seed (lookup_memberOk hok h) with rfl | ⟨h0, i, hi⟩
    · rw [Option.bind_some]
      unfold memberOpt
      rw [memberVal_null]
      rfl
    · rw [Option.bind_some]
      unfold memberOpt
      obtain ⟨q, hq, he⟩ := getSeed_number hi
      rw [memberVal_seed io h0, hi, Option.bind_some, hq, Option.map_some, he]
      rfl

theorem merged_holds {u : Params} (hu : ∀ k, u.get? k = (ms.lookup k).bind (memberOpt io k)) (kind : Kind) :
    Holds (mergeParams (defaultParams kind) u) kind (requestedJson io kind ms) := by
  intro e he
  rw [get?_merge, hu]
  cases kind with
  | classifier =>
    simp only [ParamSet.entries, List.append_nil, List.cons_append, List.nil_append, List.mem_cons,
      List.not_mem_nil, or_false] at he
    rcases he with rfl | rfl | rfl | rfl | rfl | rfl | rfl | rfl | rfl | rfl | rfl | rfl
    · exact given_int hok (by simp [intParams, clausesKey]) _
    · exact given_int hok (by simp [intParams, clausesKey]) _
    · exact given_real hok (by simp [intParams, clausesKey]) _
    · exact given_int hok (by simp [intParams, clausesKey]) _
    · exact given_bool hok (by simp [intParams, clausesKey]) _
    · exact given_int hok (by simp [intParams, clausesKey]) _
    · exact given_int hok (by simp [intParams, clausesKey]) _
    · exact given_int hok (by simp [intParams, clausesKey]) _
    · exact given_bool hok (by simp [intParams, clausesKey]) _
    · exact given_str hok (by simp [intParams, clausesKey]) _
    · exact given_int hok (by simp [intParams, clausesKey]) _
    · exact given_seed hok
  | regressor =>
    simp only [ParamSet.entries, List.append_nil, List.cons_append, List.nil_append, List.mem_cons,
      List.not_mem_nil, or_false] at he
    rcases he with rfl | rfl | rfl | rfl | rfl | rfl | rfl | rfl | rfl | rfl | rfl | rfl | rfl | rfl | rfl
    · exact given_int hok (by simp [intParams, clausesKey]) _
    · exact given_int hok (by simp [intParams, clausesKey]) _
    · exact given_real hok (by simp [intParams, clausesKey]) _
    · exact given_int hok (by simp [intParams, clausesKey]) _
    · exact given_bool hok (by simp [intParams, clausesKey]) _
    · exact given_int hok (by simp [intParams, clausesKey]) _
    · exact given_int hok (by simp [intParams, clausesKey]) _
    · exact given_int hok (by simp [intParams, clausesKey]) _
    · exact given_bool hok (by simp [intParams, clausesKey]) _
    · exact given_str hok (by simp [intParams, clausesKey]) _
    · exact given_int hok (by simp [intParams, clausesKey]) _
    · exact given_str hok (by simp [intParams, clausesKey]) _
    · exact given_real hok (by simp [intParams, clausesKey]) _
    · exact given_bool hok (by simp [intParams, clausesKey]) _
    · exact given_seed hok

theorem requestedJson_sized (kind : Kind) : (requestedJson io kind ms).IntSized := by
  intro v hv
  simp only [requestedJson, List.mem_cons, List.not_mem_nil, or_false] at hv
  rcases hv with rfl | rfl | rfl | rfl | rfl | rfl <;>
  exact given_int_sized hok (by cases kind <;> decide) _ (by cases kind <;> decide)

end

end Tsetlini
