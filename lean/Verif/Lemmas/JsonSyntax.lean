import Verif.Lemmas.JsonNum
import Verif.Lemmas.JsonTotal
namespace Tsetlini
open Spec

/-! ### White space -/

theorem blank_nil : Blank [] := by intro c h; simp at h

theorem skip_blank : ∀ {w : Bytes}, Blank w → ∀ t, skipWhitespace (w ++ t) = skipWhitespace t
  | [], _, _ => rfl
  | c :: w, h, t => by
    rw [List.cons_append, skipWhitespace, if_pos (h c List.mem_cons_self)]
    exact skip_blank (fun d hd => h d (List.mem_cons_of_mem _ hd)) t

theorem scan_blank {w : Bytes} (h : Blank w) (t : Bytes) : scan (w ++ t) = scan t := by
  unfold scan
  rw [skip_blank h]

theorem skip_split : ∀ (t : Bytes), ∃ w, Blank w ∧ t = w ++ skipWhitespace t
  | [] => ⟨[], blank_nil, rfl⟩
  | c :: t => by
    unfold skipWhitespace
    split
    · rename_i hc
      obtain ⟨w, h1, h2⟩ := skip_split t
      refine ⟨c :: w, fun d hd => ?_, by rw [List.cons_append, ← h2]⟩
      rcases List.mem_cons.1 hd with rfl | hd
      · exact hc
      · exact h1 d hd
    · exact ⟨[], blank_nil, rfl⟩

theorem ends_blank {w rest : Bytes} (h : Blank w) (hr : Ends rest) : Ends (w ++ rest) := by
  cases w with
  | nil => exact hr
  | cons c w =>
    intro d hd
    simp at hd
    subst hd
    rcases h c List.mem_cons_self with rfl | rfl | rfl | rfl <;> decide

/-! ### Tokens -/

/-- The text of a token. -/
def TokIs (u : Bytes) : Tok → Prop
  | .literalTrue => u = [116, 114, 117, 101]
  | .literalFalse => u = [102, 97, 108, 115, 101]
  | .literalNull => u = [110, 117, 108, 108]
  | .str s => ∃ t, u = [34] ++ t ++ [34] ∧ StringText t s
  | .unsigned n => NumberText u (.unsigned n)
  | .integer i => NumberText u (.integer i)
  | .float x => NumberText u (.float x)
  | .beginArray => u = [91]
  | .beginObject => u = [123]
  | .endArray => u = [93]
  | .endObject => u = [125]
  | .nameSeparator => u = [58]
  | .valueSeparator => u = [44]
  | .parseError => False
  | .endOfInput => False

/-- A token of the grammar. -/
def Tok.good : Tok → Prop
  | .parseError => False
  | .endOfInput => False
  | .float (.inf _) => False
  | .float .nan => False
  | _ => True

/-- What a token says of the text. -/
structure ScanSound (t : Bytes) (tok : Tok) (rest : Bytes) : Prop where
  good : tok.good → ∃ w u, t = w ++ u ++ rest ∧ Blank w ∧ TokIs u tok
  eoi : tok = .endOfInput → ∃ w u, t = w ++ u ∧ Blank w ∧ (u = [] ∨ u.head? = some 0)

theorem ScanSound.error (t rest : Bytes) : ScanSound t .parseError rest := ⟨fun h => h.elim, fun h => by cases h⟩

theorem scanLiteral_sound {tok : Tok} : ∀ (l t : Bytes) {tok' : Tok} {rest : Bytes}, scanLiteral tok l t = (tok', rest) →
    tok' = .parseError ∨ (tok' = tok ∧ t = l ++ rest) := by
  intro l
  induction l with
  | nil => intro t tok' rest h; cases h; exact .inr ⟨rfl, rfl⟩
  | cons c l ih =>
    intro t tok' rest h
    cases t with
    | nil => cases h; exact .inl rfl
    | cons d t =>
      unfold scanLiteral at h
      by_cases hd : d = c
      · rw [if_pos hd] at h
        rcases ih t h with h | ⟨h1, h2⟩
        · exact .inl h
        · exact .inr ⟨h1, by rw [hd, h2]; rfl⟩
      · rw [if_neg hd] at h
        cases h
        exact .inl rfl

theorem scanString_tok : ∀ (fuel : Nat) (acc t : Bytes) {tok : Tok} {rest : Bytes}, scanString fuel acc t = .ok (tok, rest) →
    tok = .parseError ∨ ∃ s, tok = .str s := by
  intro fuel
  induction fuel with
  | zero => intro acc t tok rest h; cases h
  | succ fuel ih =>
    intro acc t tok rest h
    unfold scanString at h
    split at h
    · cases h; exact .inr ⟨_, rfl⟩
    · exact ih _ _ h
    · cases h; exact .inl rfl

theorem numberTok_is {u : Bytes} {v : TVal} (h : NumberText u v) : TokIs u (numberTok v) := by
  cases h with
  | nat h1 h2 => exact .nat h1 h2
  | neg h1 h2 => exact .neg h1 h2
  | real h1 h2 h3 h4 h5 => exact .real h1 h2 h3 h4 h5
  | negReal h1 h2 h3 h4 h5 => exact .negReal h1 h2 h3 h4 h5

theorem tokIs_eoi {u : Bytes} {tok : Tok} (h : TokIs u tok) : tok ≠ .endOfInput := by
  intro e
  subst e
  exact h

/-- The token of a text without blanks before it. -/
theorem scanToken_sound {t : Bytes} {tok : Tok} {rest : Bytes} (h : scanToken t = .ok (tok, rest)) : ScanSound t tok rest := by
  have word : ∀ {u : Bytes}, t = u ++ rest → TokIs u tok → ScanSound t tok rest := fun {u} e hu =>
    ⟨fun _ => ⟨[], u, by simpa using e, blank_nil, hu⟩, fun e => absurd e (tokIs_eoi hu)⟩
  have lit : ∀ {c : Nat} {l r : Bytes} {tok0 : Tok}, t = c :: r → TokIs (c :: l) tok0 → Res.ok (scanLiteral tok0 l r) = .ok (tok, rest) → ScanSound t tok rest := by
    intro c l r tok0 e htok h
    rcases scanLiteral_sound l r (Res.ok.inj h) with h | ⟨h1, h2⟩
    · subst h; exact .error _ _
    · subst h1
      exact word (by rw [e, h2]; rfl) htok
  cases t with
  | nil =>
    cases h
    exact ⟨fun h => h.elim, fun _ => ⟨[], [], rfl, blank_nil, .inl rfl⟩⟩
  | cons c t =>
    unfold scanToken at h
    dsimp only at h
    by_cases h1 : c = 91
    · rw [if_pos h1] at h; cases h; subst h1; exact word (u := [91]) rfl rfl
    rw [if_neg h1] at h
    by_cases h1 : c = 93
    · rw [if_pos h1] at h; cases h; subst h1; exact word (u := [93]) rfl rfl
    rw [if_neg h1] at h
    by_cases h1 : c = 123
    · rw [if_pos h1] at h; cases h; subst h1; exact word (u := [123]) rfl rfl
    rw [if_neg h1] at h
    by_cases h1 : c = 125
    · rw [if_pos h1] at h; cases h; subst h1; exact word (u := [125]) rfl rfl
    rw [if_neg h1] at h
    by_cases h1 : c = 58
    · rw [if_pos h1] at h; cases h; subst h1; exact word (u := [58]) rfl rfl
    rw [if_neg h1] at h
    by_cases h1 : c = 44
    · rw [if_pos h1] at h; cases h; subst h1; exact word (u := [44]) rfl rfl
    rw [if_neg h1] at h
    by_cases h1 : c = 116
    · rw [if_pos h1] at h; subst h1; refine lit rfl ?_ h; unfold TokIs; decide
    rw [if_neg h1] at h
    by_cases h1 : c = 102
    · rw [if_pos h1] at h; subst h1; refine lit rfl ?_ h; unfold TokIs; decide
    rw [if_neg h1] at h
    by_cases h1 : c = 110
    · rw [if_pos h1] at h; subst h1; refine lit rfl ?_ h; unfold TokIs; decide
    rw [if_neg h1] at h
    by_cases h1 : c = 34
    · rw [if_pos h1] at h
      subst h1
      rcases scanString_tok _ _ _ h with e | ⟨s, e⟩
      · subst e; exact .error _ _
      · subst e
        obtain ⟨u, x, e1, e2, e3⟩ := scanString_sound _ _ _ h
        rw [List.nil_append] at e3
        subst e3
        refine word (u := [34] ++ u ++ [34]) ?_ ⟨u, rfl, e2⟩
        rw [e1]
        simp
    rw [if_neg h1] at h
    by_cases h1 : c = 45 ∨ isDigit c = true
    · rw [if_pos h1] at h
      have hc : c = 45 ∨ 48 ≤ c ∧ c ≤ 57 := by
        rcases h1 with h | h
        · exact .inl h
        · exact .inr (by simpa [isDigit] using h)
      rcases scanNumber_sound hc (Res.ok.inj h) with h | ⟨y, h1, h2⟩ | ⟨u, v, h1, h2, h3⟩
      · subst h; exact .error _ _
      · subst h2
        refine ⟨fun hg => ?_, fun h => by cases h⟩
        cases y with
        | fin q => exact absurd rfl (h1 q)
        | inf b => exact hg.elim
        | nan => exact hg.elim
      · subst h3
        exact word h1 (numberTok_is h2)
    rw [if_neg h1] at h
    by_cases h1 : c = 0
    · rw [if_pos h1] at h
      cases h
      exact ⟨fun h => h.elim, fun _ => ⟨[], _, rfl, blank_nil, .inr (by simp [h1])⟩⟩
    rw [if_neg h1] at h
    cases h
    exact .error _ _

theorem scan_sound {t : Bytes} {tok : Tok} {rest : Bytes} (h : scan t = .ok (tok, rest)) : ScanSound t tok rest := by
  obtain ⟨w, h1, h2⟩ := skip_split t
  have := scanToken_sound h
  generalize hsk : skipWhitespace t = t' at h2 this
  subst h2
  have join : ∀ {a : Bytes}, Blank a → Blank (w ++ a) := by
    intro a ha c hc
    rcases List.mem_append.1 hc with h | h
    · exact h1 c h
    · exact ha c h
  refine ⟨fun hg => ?_, fun he => ?_⟩
  · obtain ⟨a, u, e, ha, hu⟩ := this.good hg
    exact ⟨w ++ a, u, by rw [e]; simp, join ha, hu⟩
  · obtain ⟨a, u, e, ha, hu⟩ := this.eoi he
    exact ⟨w ++ a, u, by rw [e]; simp, join ha, hu⟩

/-! ### Members -/

theorem sorted_iff {l : List (Bytes × TVal)} : Sorted l ↔ (l.map (·.1)).Pairwise (· < ·) := by
  unfold Sorted
  constructor
  · exact fun h => h.imp fun h => bytesLt_iff.1 h
  · exact fun h => h.imp fun h => bytesLt_iff.2 h

theorem mem_setMember {k : Bytes} {v : TVal} {k' : Bytes} {v' : TVal} : ∀ {l : List (Bytes × TVal)}, Sorted l →
    ((k', v') ∈ setMember k v l ↔ (k' = k ∧ v' = v) ∨ (k' ≠ k ∧ (k', v') ∈ l))
  | [], _ => by simp [setMember]
  | m :: l, h => by
    obtain ⟨a, b⟩ := m
    have h' := h
    rw [Sorted, List.map_cons, List.pairwise_cons] at h'
    obtain ⟨h1, h2⟩ := h'
    have late : ∀ {x y}, (x, y) ∈ l → bytesLt a x = true := fun {x y} hm => h1 x (List.mem_map.2 ⟨(x, y), hm, rfl⟩)
    have ne : ∀ {x y : Bytes}, bytesLt x y = true → x ≠ y := by
      intro x y h e
      rw [e, bytesLt_irrefl] at h
      cases h
    unfold setMember
    dsimp only
    split
    · rename_i hlt
      simp only [List.mem_cons, Prod.mk.injEq]
      constructor
      · rintro (h | ⟨h, h'⟩ | h)
        · exact .inl h
        · exact .inr ⟨by rw [h]; exact (ne hlt).symm, .inl ⟨h, h'⟩⟩
        · exact .inr ⟨(ne (bytesLt_trans hlt (late h))).symm, .inr h⟩
      · rintro (h | ⟨_, h⟩)
        · exact .inl h
        · exact .inr h
    split
    · rename_i heq
      subst heq
      simp only [List.mem_cons, Prod.mk.injEq]
      constructor
      · rintro (h | h)
        · exact .inl h
        · exact .inr ⟨(ne (late h)).symm, .inr h⟩
      · rintro (h | ⟨h, ⟨h', _⟩ | h'⟩)
        · exact .inl h
        · exact absurd h' h
        · exact .inr h'
    · rename_i hne
      simp only [List.mem_cons, Prod.mk.injEq, mem_setMember h2]
      constructor
      · rintro (⟨h, h'⟩ | h | ⟨h, h'⟩)
        · exact .inr ⟨by rw [h]; exact fun e => hne e.symm, .inl ⟨h, h'⟩⟩
        · exact .inl h
        · exact .inr ⟨h, .inr h'⟩
      · rintro (h | ⟨h, h' | h'⟩)
        · exact .inr (.inl h)
        · exact .inl h'
        · exact .inr (.inr ⟨h, h'⟩)

/-- What is read from these members one after the other. -/
def addMembers (l ms : List (Bytes × TVal)) : List (Bytes × TVal) := ms.foldl (fun l m => setMember m.1 m.2 l) l

theorem addMembers_append (l a b : List (Bytes × TVal)) : addMembers l (a ++ b) = addMembers (addMembers l a) b := by
  unfold addMembers; rw [List.foldl_append]

theorem members_add {ms l : List (Bytes × TVal)} (h : Members ms l) (k : Bytes) (v : TVal) : Members (ms ++ [(k, v)]) (setMember k v l) := by
  have hs := sorted_iff.2 h.1
  refine ⟨sorted_iff.1 (setMember_sorted hs), fun k' v' => ?_⟩
  rw [mem_setMember hs, h.2 k' v']
  constructor
  · rintro (⟨rfl, rfl⟩ | ⟨hne, a, b, e, hb⟩)
    · exact ⟨ms, [], rfl, by simp⟩
    · refine ⟨a, b ++ [(k, v)], by rw [e]; simp, fun m hm => ?_⟩
      rcases List.mem_append.1 hm with h | h
      · exact hb m h
      · simp at h
        rw [h]
        exact fun e => hne e.symm
  · rintro ⟨a, b, e, hb⟩
    rcases List.eq_nil_or_concat b with rfl | ⟨b', z, rfl⟩
    · have := List.append_inj' e rfl
      simp at this
      exact .inl ⟨this.2.1.symm, this.2.2.symm⟩
    · have e' : ms ++ [(k, v)] = (a ++ (k', v') :: b') ++ [z] := by rw [e]; simp
      have := List.append_inj' e' rfl
      have hz : z = (k, v) := by simpa using this.2.symm
      refine .inr ⟨fun ek => hb z (by simp) (by rw [hz, ek]), a, b', this.1, fun m hm => hb m (by simp [hm])⟩

theorem members_addMembers : ∀ (ms : List (Bytes × TVal)) {ms0 l0 : List (Bytes × TVal)}, Members ms0 l0 → Members (ms0 ++ ms) (addMembers l0 ms)
  | [], ms0, l0, h => by simpa [addMembers] using h
  | m :: ms, ms0, l0, h => by
    have := members_addMembers ms (members_add h m.1 m.2)
    simpa [addMembers] using this

theorem members_nil : Members [] [] := ⟨List.Pairwise.nil, fun k v => by simp⟩

theorem members_built (ms : List (Bytes × TVal)) : Members ms (addMembers [] ms) := by simpa using members_addMembers ms members_nil

theorem sorted_ext : ∀ {l l' : List (Bytes × TVal)}, Sorted l → Sorted l' → (∀ m, m ∈ l ↔ m ∈ l') → l = l'
  | [], [], _, _, _ => rfl
  | [], b :: l', _, _, h => absurd ((h b).2 List.mem_cons_self) (by simp)
  | a :: l, [], _, _, h => absurd ((h a).1 List.mem_cons_self) (by simp)
  | a :: l, b :: l', hs, hs', h => by
    rw [Sorted, List.map_cons, List.pairwise_cons] at hs hs'
    have la : ∀ m ∈ l, bytesLt a.1 m.1 = true := fun m hm => hs.1 _ (List.mem_map_of_mem hm)
    have lb : ∀ m ∈ l', bytesLt b.1 m.1 = true := fun m hm => hs'.1 _ (List.mem_map_of_mem hm)
    have ne : ∀ {x y : Bytes}, bytesLt x y = true → x ≠ y := by
      intro x y h e
      rw [e, bytesLt_irrefl] at h
      cases h
    have hab : a = b := by
      rcases List.mem_cons.1 ((h a).1 List.mem_cons_self) with e | e
      · exact e
      rcases List.mem_cons.1 ((h b).2 List.mem_cons_self) with e' | e'
      · exact e'.symm
      exact absurd rfl (ne (bytesLt_trans (lb a e) (la b e')))
    subst hab
    congr 1
    refine sorted_ext hs.2 hs'.2 fun m => ?_
    constructor
    · intro hm
      rcases List.mem_cons.1 ((h m).1 (List.mem_cons_of_mem _ hm)) with e | e
      · exact absurd (by rw [e]) (ne (la m hm))
      · exact e
    · intro hm
      rcases List.mem_cons.1 ((h m).2 (List.mem_cons_of_mem _ hm)) with e | e
      · exact absurd (by rw [e]) (ne (lb m hm))
      · exact e

theorem members_eq {ms l : List (Bytes × TVal)} (h : Members ms l) : l = addMembers [] ms := by
  have hb := members_built ms
  exact sorted_ext (sorted_iff.2 h.1) (sorted_iff.2 hb.1) fun (k, v) => (h.2 k v).trans (hb.2 k v).symm

/-! ### Commas -/

theorem commas_cons {t : Bytes} {ts : List Bytes} (h : ts ≠ []) : commas (t :: ts) = t ++ [44] ++ commas ts := by
  cases ts with
  | nil => exact absurd rfl h
  | cons u ts => rfl

theorem commas_snoc : ∀ (ts : List Bytes) (t : Bytes), commas (ts ++ [t]) = ts.flatMap (· ++ [44]) ++ t
  | [], t => rfl
  | u :: ts, t => by
    rw [List.cons_append, commas_cons (by simp), commas_snoc ts t]
    simp

end Tsetlini
