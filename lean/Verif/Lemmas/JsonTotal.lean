import Verif.Lemmas.JsonValues
namespace Tsetlini
open Spec

/-! ### Doubles -/

theorem shape_double {n j B K : Nat} (hB : B = 53 + K) (hn : n ≤ 2 ^ 53) (h : n * 2 ^ j < 2 ^ B) :
    ∃ m k : Nat, m < 2 ^ 53 ∧ k ≤ K ∧ m * 2 ^ k = n * 2 ^ j := by
  have main : ∀ n j : Nat, n < 2 ^ 53 → n * 2 ^ j < 2 ^ B → ∃ m k : Nat, m < 2 ^ 53 ∧ k ≤ K ∧ m * 2 ^ k = n * 2 ^ j := by
    intro n j hn h
    by_cases hj : j ≤ K
    · exact ⟨n, j, hn, hj, rfl⟩
    · refine ⟨n * 2 ^ (j - K), K, ?_, Nat.le_refl _, ?_⟩
      · rw [hB, show j = (j - K) + K by omega, Nat.pow_add, ← Nat.mul_assoc, Nat.pow_add] at h
        exact Nat.lt_of_mul_lt_mul_right h
      · rw [Nat.mul_assoc, ← Nat.pow_add]
        congr 2
        omega
  by_cases hn' : n < 2 ^ 53
  · exact main n j hn' h
  · have e : n * 2 ^ j = 2 ^ 52 * 2 ^ (j + 1) := by
      have : n = 2 ^ 52 * 2 := by omega
      rw [this, show 2 ^ (j + 1) = 2 ^ j * 2 from rfl, Nat.mul_assoc, Nat.mul_comm 2 (2 ^ j)]
    rw [e] at h ⊢
    exact main _ _ (by omega) h

theorem rnePos_double {x : Rat} (hx : 0 ≤ x) (h : rnePos 53 1074 x < ((2 ^ 1024 : Nat) : Rat)) : Double (rnePos 53 1074 x) := by
  obtain ⟨n, j, hn, e⟩ := rnePos_shape (p := 53) (q := 1074) (by decide) hx
  have hlt : n * 2 ^ j < 2 ^ 2098 := by
    refine Rat.natCast_lt_natCast.1 ?_
    rw [← e]
    have := Rat.mul_lt_mul_of_pos_right h (pow_pos_rat 1074)
    rw [← Rat.natCast_mul, ← Nat.pow_add] at this
    exact this
  obtain ⟨m, k, h1, h2, h3⟩ := shape_double (B := 2098) (K := 2045) rfl hn hlt
  refine ⟨m, k, by simpa using h1, h2, ?_⟩
  rw [e, ← h3, Rat.natCast_mul, Rat.intCast_natCast]

theorem f64_double {x q : Rat} (h : f64 x = .fin q) : Double q := by
  unfold f64 overflowAt at h
  by_cases h1 : ((2 ^ 1024 : Nat) : Rat) ≤ rne64 x
  · rw [if_pos h1] at h; exact Fl.noConfusion h
  rw [if_neg h1] at h
  by_cases h2 : rne64 x ≤ -((2 ^ 1024 : Nat) : Rat)
  · rw [if_pos h2] at h; exact Fl.noConfusion h
  rw [if_neg h2] at h
  have hq := Fl.fin.inj h
  rw [← hq]
  by_cases hx : 0 ≤ x
  · have e : rne64 x = rnePos 53 1074 x := by unfold rne64 rne; rw [if_pos hx]
    rw [e] at h1 ⊢
    exact rnePos_double hx (by grind)
  · have e : rne64 x = - rnePos 53 1074 (-x) := by unfold rne64 rne; rw [if_neg hx]
    rw [e] at h2 ⊢
    exact Double.neg (rnePos_double (by grind) (by grind))

theorem strtod_double {t : Bytes} {q : Rat} (h : strtod t = .fin q) : Double q := by
  unfold strtod at h
  split at h
  · exact f64_double h
  · exact f64_double h

/-! ### Tokens -/

/-- What holds of the value of a token. -/
def TokOk : Tok → Prop
  | .str s => Utf8 s
  | .unsigned n => n < 2 ^ 64
  | .integer i => -2 ^ 63 ≤ i ∧ i ≤ 0
  | .float (.fin q) => Double q
  | _ => True

/-- Not the end and not an error. -/
def Tok.more : Tok → Prop
  | .parseError => False
  | .endOfInput => False
  | _ => True

/-- A token and the rest of `n` bytes. -/
structure Scanned (n : Nat) (tok : Tok) (rest : Bytes) : Prop where
  ok : TokOk tok
  le : rest.length ≤ n
  lt : tok.more → rest.length < n

theorem numLoop_length : ∀ (t : Bytes) (st : NumState) (ty : NumType) (acc : Bytes) {ty' : NumType} {u rest : Bytes},
    numLoop st ty acc t = some (ty', u, rest) → rest.length ≤ t.length := by
  intro t
  induction t with
  | nil =>
    intro st ty acc ty' u rest h
    unfold numLoop at h
    split at h
    · simp at h; simp [h.2.2.symm]
    · cases h
  | cons c t ih =>
    intro st ty acc ty' u rest h
    unfold numLoop at h
    split at h
    · have := ih _ _ _ h; simp; omega
    · simp at h; simp [h.2.2.symm]
    · cases h

theorem numberToken_ok (ty : NumType) (t : Bytes) : TokOk (numberToken ty t) := by
  have hf : TokOk (.float (strtod t)) := by
    match h : strtod t with
    | .fin q => exact strtod_double h
    | .inf _ => trivial
    | .nan => trivial
  unfold numberToken
  cases ty with
  | unsigned =>
    dsimp only
    split
    · simp only [TokOk]; omega
    · exact hf
  | integer =>
    dsimp only
    split
    · simp only [TokOk]; omega
    · exact hf
  | float => exact hf

theorem scanNumber_ok (c : Nat) (t : Bytes) : Scanned (t.length + 1) (scanNumber c t).1 (scanNumber c t).2 := by
  unfold scanNumber
  dsimp only
  generalize (if c = 45 then NumState.minus else if c = 48 then .zero else .any1) = st
  generalize (if c = 45 then NumType.integer else .unsigned) = ty
  match h : numLoop st ty [c] t with
  | none => exact ⟨trivial, by simp, fun h => h.elim⟩
  | some (ty', u, rest) =>
    have := numLoop_length _ _ _ _ h
    exact ⟨numberToken_ok _ _, by dsimp only; omega, fun _ => by dsimp only; omega⟩

theorem scanLiteral_ok {tok : Tok} (h : TokOk tok) : ∀ (l t : Bytes), Scanned (t.length + 1) (scanLiteral tok l t).1 (scanLiteral tok l t).2 := by
  intro l
  induction l with
  | nil => intro t; exact ⟨h, by simp [scanLiteral], fun _ => by simp [scanLiteral]⟩
  | cons c l ih =>
    intro t
    cases t with
    | nil => exact ⟨trivial, by simp [scanLiteral], fun h => h.elim⟩
    | cons d t =>
      unfold scanLiteral
      by_cases hd : d = c
      · rw [if_pos hd]
        have := ih t
        exact ⟨this.ok, by have := this.le; simp; omega, fun hm => by have := this.lt hm; simp; omega⟩
      · rw [if_neg hd]
        exact ⟨trivial, by simp; omega, fun h => h.elim⟩

theorem skipWhitespace_length : ∀ (t : Bytes), (skipWhitespace t).length ≤ t.length
  | [] => Nat.le_refl _
  | c :: t => by
    unfold skipWhitespace
    split
    · have := skipWhitespace_length t; simp; omega
    · exact Nat.le_refl _

/-- A token was found. -/
def ScanOk (n : Nat) (r : Res (Tok × Bytes)) : Prop := ∃ tok rest, r = .ok (tok, rest) ∧ Scanned n tok rest

theorem scanToken_ok' (t : Bytes) : ScanOk t.length (scanToken t) := by
  have pair : ∀ (x : Tok × Bytes) (n : Nat), Scanned n x.1 x.2 → ScanOk n (.ok x) := fun x n h => ⟨x.1, x.2, rfl, h⟩
  cases t with
  | nil => exact ⟨.endOfInput, [], rfl, trivial, Nat.le_refl _, fun h => h.elim⟩
  | cons c t =>
    have one : ∀ (tok : Tok), TokOk tok → ScanOk (c :: t).length (.ok (tok, t)) := fun tok h => pair _ _ ⟨h, by simp, fun _ => by simp⟩
    have lit : ∀ (tok : Tok) (l : Bytes), TokOk tok → ScanOk (c :: t).length (.ok (scanLiteral tok l t)) :=
      fun tok l h => pair _ _ (scanLiteral_ok h l t)
    have str : ScanOk (c :: t).length (scanString (t.length + 1) [] t) := by
      rcases scanString_spec (t.length + 1) [] t (Nat.le_refl _) ⟨[], by simp, rfl⟩ with ⟨s, r, h1, h2, h3⟩ | ⟨r, h1, h2⟩
      · exact ⟨_, _, h1, h2, by simp; omega, fun _ => by simp; omega⟩
      · exact ⟨_, _, h1, trivial, by simp; omega, fun h => h.elim⟩
    unfold scanToken
    dsimp only
    have ite : ∀ (p : Prop) [Decidable p] (a b : Res (Tok × Bytes)), ScanOk (c :: t).length a → ScanOk (c :: t).length b →
        ScanOk (c :: t).length (if p then a else b) := fun p _ a b ha hb => by split <;> assumption
    repeat' apply ite
    all_goals first
      | exact one _ trivial
      | exact lit _ _ trivial
      | exact pair _ _ (scanNumber_ok c t)
      | exact str

theorem scanToken_ok (t : Bytes) : ∃ tok rest, scanToken t = .ok (tok, rest) ∧ Scanned t.length tok rest := scanToken_ok' t

theorem scan_ok (t : Bytes) : ∃ tok rest, scan t = .ok (tok, rest) ∧ Scanned t.length tok rest := by
  obtain ⟨tok, rest, h1, h2⟩ := scanToken_ok (skipWhitespace t)
  have hl := skipWhitespace_length t
  exact ⟨tok, rest, h1, h2.ok, by have := h2.le; omega, fun hm => by have := h2.lt hm; omega⟩

theorem scanFirst_ok (t : Bytes) : ∃ tok rest, scanFirst t = .ok (tok, rest) ∧ Scanned t.length tok rest := by
  unfold scanFirst
  split
  · rename_i u
    split
    · rename_i w
      obtain ⟨tok, rest, h1, h2⟩ := scan_ok w
      exact ⟨tok, rest, h1, h2.ok, by have := h2.le; simp; omega, fun hm => by have := h2.lt hm; simp; omega⟩
    · exact ⟨_, _, rfl, trivial, by simp, fun h => h.elim⟩
  · exact scan_ok t

/-! ### Keys -/

theorem bytesLt_total : ∀ {s t : Bytes}, bytesLt s t = false → s ≠ t → bytesLt t s = true
  | [], [], _, h => absurd rfl h
  | [], _ :: _, h, _ => by simp [bytesLt] at h
  | _ :: _, [], _, _ => rfl
  | a :: s, b :: t, h, hne => by
    simp only [bytesLt, Bool.or_eq_false_iff, decide_eq_false_iff_not, Bool.and_eq_false_imp, decide_eq_true_eq] at h
    simp only [bytesLt, Bool.or_eq_true, decide_eq_true_eq, Bool.and_eq_true]
    by_cases e : a = b
    · subst e
      exact .inr ⟨rfl, bytesLt_total (h.2 rfl) fun h => hne (by rw [h])⟩
    · exact .inl (by omega)

theorem bytesLt_trans : ∀ {s t u : Bytes}, bytesLt s t = true → bytesLt t u = true → bytesLt s u = true
  | [], [], _, h, _ => by simp [bytesLt] at h
  | [], _ :: _, [], _, h => by simp [bytesLt] at h
  | [], _ :: _, _ :: _, _, _ => rfl
  | _ :: _, [], _, h, _ => by simp [bytesLt] at h
  | _ :: _, _ :: _, [], _, h => by simp [bytesLt] at h
  | a :: s, b :: t, c :: u, h, h' => by
    simp only [bytesLt, Bool.or_eq_true, decide_eq_true_eq, Bool.and_eq_true] at h h' ⊢
    rcases h with h | ⟨h1, h2⟩
    · rcases h' with h' | ⟨h1', h2'⟩
      · exact .inl (by omega)
      · exact .inl (by omega)
    · rcases h' with h' | ⟨h1', h2'⟩
      · exact .inl (by omega)
      · exact .inr ⟨by omega, bytesLt_trans h2 h2'⟩

theorem setMember_mem {k : Bytes} {v : TVal} : ∀ {l : List (Bytes × TVal)} {m : Bytes × TVal}, m ∈ setMember k v l → m = (k, v) ∨ m ∈ l
  | [], m, h => .inl (by simpa [setMember] using h)
  | a :: l, m, h => by
    unfold setMember at h
    split at h
    · rcases List.mem_cons.1 h with h | h
      · exact .inl h
      · exact .inr h
    split at h
    · rcases List.mem_cons.1 h with h | h
      · exact .inl h
      · exact .inr (List.mem_cons_of_mem _ h)
    · rcases List.mem_cons.1 h with h | h
      · exact .inr (h ▸ List.mem_cons_self)
      · rcases setMember_mem h with h | h
        · exact .inl h
        · exact .inr (List.mem_cons_of_mem _ h)

/-- The keys in order. -/
abbrev Sorted (l : List (Bytes × TVal)) : Prop := (l.map (·.1)).Pairwise (fun s t => bytesLt s t = true)

theorem setMember_sorted {k : Bytes} {v : TVal} : ∀ {l : List (Bytes × TVal)}, Sorted l → Sorted (setMember k v l)
  | [], _ => by simp [setMember, Sorted]
  | a :: l, h => by
    have h' := h
    rw [Sorted, List.map_cons, List.pairwise_cons] at h'
    obtain ⟨h1, h2⟩ := h'
    unfold setMember
    split
    · rename_i hlt
      rw [Sorted, List.map_cons, List.pairwise_cons]
      refine ⟨fun s hs => ?_, h⟩
      rw [List.map_cons] at hs
      rcases List.mem_cons.1 hs with rfl | hs
      · exact hlt
      · exact bytesLt_trans hlt (h1 s hs)
    rename_i hlt
    split
    · rename_i heq
      rw [Sorted, List.map_cons, List.pairwise_cons]
      exact ⟨fun s hs => by dsimp only; rw [heq]; exact h1 s hs, h2⟩
    · rename_i hne
      rw [Sorted, List.map_cons, List.pairwise_cons]
      refine ⟨fun s hs => ?_, setMember_sorted h2⟩
      obtain ⟨m, hm, rfl⟩ := List.mem_map.1 hs
      rcases setMember_mem hm with rfl | hm
      · exact bytesLt_total (by simpa using hlt) hne
      · exact h1 m.1 (List.mem_map_of_mem hm)

/-! ### Values -/

/-- A value that a text writes. -/
structure Fine (v : TVal) : Prop where
  wide : Wide v
  encoded : Encoded v
  written : Written v

theorem Fine.arr {l : List TVal} (h : ∀ v ∈ l, Fine v) : Fine (.arr l) :=
  ⟨.arr fun v hv => (h v hv).wide, .arr fun v hv => (h v hv).encoded, .arr fun v hv => (h v hv).written⟩

theorem Fine.obj {l : List (Bytes × TVal)} (h : ∀ m ∈ l, Utf8 m.1 ∧ Fine m.2) (hs : Sorted l) : Fine (.obj l) :=
  ⟨.obj (fun m hm => (h m hm).2.wide) (fun m hm => Utf8.bytes (h m hm).1) (hs.imp fun h => bytesLt_iff.1 h), .obj (fun m hm => (h m hm).2.encoded) fun m hm => (h m hm).1,
   .obj fun m hm => (h m hm).2.written⟩

/-- A container that is being read. -/
def FrameOk : Frame → Prop
  | .arr l => ∀ v ∈ l, Fine v
  | .obj l k => (∀ m ∈ l, Utf8 m.1 ∧ Fine m.2) ∧ Sorted l ∧ Utf8 k

/-- Where the parser goes on after `n` bytes remained. -/
def NextOk (n : Nat) : Next → Prop
  | .done v _ => Fine v
  | .go tok rest fs => TokOk tok ∧ (∀ f ∈ fs, FrameOk f) ∧ (tok.more → rest.length < n)

/-- A step of the parser goes on or throws. -/
def StepOk (n : Nat) (r : Res Next) : Prop := r = .exn .jsonError ∨ ∃ x, r = .ok x ∧ NextOk n x

theorem StepOk.mono {n m : Nat} {r : Res Next} (h : StepOk n r) (hm : n ≤ m) : StepOk m r := by
  rcases h with h | ⟨x, h, hx⟩
  · exact .inl h
  · refine .inr ⟨x, h, ?_⟩
    cases x with
    | done v rest => exact hx
    | go tok rest fs => exact ⟨hx.1, hx.2.1, fun hm' => Nat.lt_of_lt_of_le (hx.2.2 hm') hm⟩

theorem parseKey_ok {tok : Tok} {rest : Bytes} {l : List (Bytes × TVal)} {fs : List Frame} (ht : TokOk tok) (hl : ∀ m ∈ l, Utf8 m.1 ∧ Fine m.2)
    (hs : Sorted l) (hf : ∀ f ∈ fs, FrameOk f) : StepOk rest.length (parseKey tok rest l fs) := by
  unfold parseKey
  split
  · rename_i k
    obtain ⟨t1, r1, h1, g1⟩ := scan_ok rest
    rw [h1, Res.ok_bind]
    split
    · rename_i heq
      cases heq
      obtain ⟨t2, r2, h2, g2⟩ := scan_ok r1
      rw [h2, Res.ok_bind]
      refine .inr ⟨_, rfl, g2.ok, ?_, fun hm => ?_⟩
      · intro f hf'
        rcases List.mem_cons.1 hf' with rfl | hf'
        · exact ⟨hl, hs, ht⟩
        · exact hf f hf'
      · have := g2.lt hm; have := g1.le; omega
    · exact .inl rfl
  · exact .inl rfl

theorem afterValue_ok : ∀ (fs : List Frame) {v : TVal} {rest : Bytes}, Fine v → (∀ f ∈ fs, FrameOk f) → StepOk rest.length (afterValue fs v rest) := by
  intro fs
  induction fs with
  | nil => intro v rest hv _; exact .inr ⟨_, rfl, hv⟩
  | cons f fs ih =>
    intro v rest hv hfs
    have hf := hfs f List.mem_cons_self
    have hfs' := fun g hg => hfs g (List.mem_cons_of_mem _ hg)
    obtain ⟨t1, r1, h1, g1⟩ := scan_ok rest
    have hle := g1.le
    cases f with
    | arr l =>
      have hl : ∀ w ∈ l ++ [v], Fine w := by
        intro w hw
        rcases List.mem_append.1 hw with h | h
        · exact hf w h
        · simp at h; subst h; exact hv
      unfold afterValue
      rw [h1, Res.ok_bind]
      split
      · rename_i heq; cases heq
        obtain ⟨t2, r2, h2, g2⟩ := scan_ok r1
        rw [h2, Res.ok_bind]
        refine .inr ⟨_, rfl, g2.ok, ?_, fun hm => by have := g2.lt hm; omega⟩
        intro g hg
        rcases List.mem_cons.1 hg with rfl | hg
        · exact hl
        · exact hfs' g hg
      · rename_i heq; cases heq
        exact (ih (Fine.arr hl) hfs').mono hle
      · exact .inl rfl
    | obj l k =>
      have hl : ∀ m ∈ setMember k v l, Utf8 m.1 ∧ Fine m.2 := by
        intro m hm
        rcases setMember_mem hm with rfl | h
        · exact ⟨hf.2.2, hv⟩
        · exact hf.1 m h
      have hs := setMember_sorted (k := k) (v := v) hf.2.1
      unfold afterValue
      rw [h1, Res.ok_bind]
      split
      · rename_i heq; cases heq
        obtain ⟨t2, r2, h2, g2⟩ := scan_ok r1
        rw [h2, Res.ok_bind]
        have := g2.le
        exact (parseKey_ok g2.ok hl hs hfs').mono (by omega)
      · rename_i heq; cases heq
        exact (ih (Fine.obj hl hs) hfs').mono hle
      · exact .inl rfl

theorem parseValue_ok {tok : Tok} {rest : Bytes} {fs : List Frame} (ht : TokOk tok) (hf : ∀ f ∈ fs, FrameOk f) :
    StepOk rest.length (parseValue tok rest fs) := by
  have sorted_nil : Sorted [] := List.Pairwise.nil
  unfold parseValue
  split
  · obtain ⟨t1, r1, h1, g1⟩ := scan_ok rest
    rw [h1, Res.ok_bind]
    split
    · rename_i heq; cases heq
      exact (afterValue_ok fs (Fine.obj (by simp) sorted_nil) hf).mono g1.le
    · rename_i heq; cases heq
      exact (parseKey_ok g1.ok (by simp) sorted_nil hf).mono g1.le
  · obtain ⟨t1, r1, h1, g1⟩ := scan_ok rest
    rw [h1, Res.ok_bind]
    split
    · rename_i heq; cases heq
      exact (afterValue_ok fs (Fine.arr (by simp)) hf).mono g1.le
    · rename_i heq; cases heq
      refine .inr ⟨_, rfl, g1.ok, ?_, g1.lt⟩
      intro g hg
      rcases List.mem_cons.1 hg with rfl | hg
      · exact fun v hv => by simp at hv
      · exact hf g hg
  · exact afterValue_ok fs ⟨.finite ht, .float _, .finite _⟩ hf
  · exact .inl rfl
  · exact afterValue_ok fs ⟨.bool _, .bool _, .bool _⟩ hf
  · exact afterValue_ok fs ⟨.null, .null, .null⟩ hf
  · exact afterValue_ok fs ⟨.bool _, .bool _, .bool _⟩ hf
  · exact afterValue_ok fs ⟨.integer ht.1 (by have := ht.2; omega), .integer _, .integer ht.2⟩ hf
  · exact afterValue_ok fs ⟨.str (Utf8.bytes ht), .str ht, .str _⟩ hf
  · exact afterValue_ok fs ⟨.unsigned ht, .unsigned _, .unsigned _⟩ hf
  · exact .inl rfl

theorem parseValue_bad {tok : Tok} {rest : Bytes} {fs : List Frame} (h : ¬ tok.more) : parseValue tok rest fs = .exn .jsonError := by
  cases tok <;> first | rfl | exact absurd trivial h

theorem parseLoop_ok : ∀ (fuel : Nat) {tok : Tok} {rest : Bytes} {fs : List Frame}, TokOk tok → (∀ f ∈ fs, FrameOk f) → 1 ≤ fuel →
    (tok.more → rest.length + 2 ≤ fuel) →
    parseLoop fuel (.go tok rest fs) = .exn .jsonError ∨ ∃ v r, parseLoop fuel (.go tok rest fs) = .ok (v, r) ∧ Fine v := by
  intro fuel
  induction fuel with
  | zero => intro tok rest fs _ _ h; omega
  | succ fuel ih =>
    intro tok rest fs ht hf _ hfuel
    unfold parseLoop
    by_cases hm : tok.more
    · have := hfuel hm
      rcases parseValue_ok (rest := rest) ht hf with h | ⟨x, h, hx⟩
      · rw [h]; exact .inl rfl
      · rw [h, Res.ok_bind]
        cases x with
        | done v r =>
          refine .inr ⟨v, r, ?_, hx⟩
          cases fuel <;> rfl
        | go tok' rest' fs' => exact ih hx.1 hx.2.1 (by omega) fun hm' => by have := hx.2.2 hm'; omega
    · rw [parseValue_bad hm]
      exact .inl rfl

/-- Every text is read or refused. -/
theorem parse_total (t : Bytes) : parse t = .exn .jsonError ∨ ∃ v, parse t = .ok v ∧ Fine v := by
  unfold parse
  obtain ⟨tok, rest, h1, g1⟩ := scanFirst_ok t
  rw [h1, Res.ok_bind]
  dsimp only
  rcases parseLoop_ok (t.length + 1) (rest := rest) (fs := []) g1.ok (by simp) (by omega) (fun hm => by have := g1.lt hm; omega) with h | ⟨v, r, h, hv⟩
  · rw [h]; exact .inl rfl
  · rw [h, Res.ok_bind]
    dsimp only
    obtain ⟨t2, r2, h2, -⟩ := scan_ok r
    rw [h2, Res.ok_bind]
    split
    · exact .inr ⟨v, rfl, hv⟩
    · exact .inl rfl

end Tsetlini
