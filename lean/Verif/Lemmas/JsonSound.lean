import Verif.Lemmas.JsonSyntax
namespace Tsetlini
open Spec

/-- An element of an array, of the grammar. -/
def GoodItem (x : Item) : Prop := Blank x.before ∧ Blank x.after ∧ ValueText x.text x.value

/-- A member of an object, of the grammar. -/
def GoodMember (x : Member) : Prop := Blank x.before ∧ StringText x.key x.name ∧ Blank x.middle ∧ GoodItem x.item

/-- Elements with a comma after each. -/
def itemsText (xs : List Item) : Bytes := (xs.map Item.all).flatMap (· ++ [44])

/-- Members with a comma after each. -/
def membersText (xs : List Member) : Bytes := (xs.map Member.all).flatMap (· ++ [44])

/-- The members. -/
def pairs (xs : List Member) : List (Bytes × TVal) := xs.map fun x => (x.name, x.item.value)

/-- The text from `p0` to here opens these containers. -/
def Opens (p0 : Bytes) : List Frame → Bytes → Prop
  | [], p => p = p0
  | .arr l :: fs, p => ∃ p' w xs, p = p' ++ w ++ [91] ++ itemsText xs ∧ Blank w ∧ Opens p0 fs p' ∧ (∀ x ∈ xs, GoodItem x) ∧ l = xs.map Item.value
  | .obj l k :: fs, p => ∃ p' w xs b kt m, p = p' ++ w ++ [123] ++ membersText xs ++ b ++ [34] ++ kt ++ [34] ++ m ++ [58] ∧ Blank w ∧ Opens p0 fs p' ∧
      (∀ x ∈ xs, GoodMember x) ∧ l = addMembers [] (pairs xs) ∧ Blank b ∧ StringText kt k ∧ Blank m

/-- Where the parser of the text `T` goes on. -/
def NextInv (T p0 : Bytes) : Next → Prop
  | .go tok rest fs => ∃ p t, T = p ++ t ∧ Opens p0 fs p ∧ ScanSound t tok rest
  | .done v rest => ∃ w x, T = p0 ++ w ++ x ++ rest ∧ Blank w ∧ ValueText x v

theorem parseKey_sound {T p0 p' w t : Bytes} {xs : List Member} {tok : Tok} {rest : Bytes} {fs : List Frame} {nx : Next}
    (hT : T = p' ++ w ++ [123] ++ membersText xs ++ t) (hw : Blank w) (ho : Opens p0 fs p') (hx : ∀ x ∈ xs, GoodMember x) (hs : ScanSound t tok rest)
    (h : parseKey tok rest (addMembers [] (pairs xs)) fs = .ok nx) : NextInv T p0 nx := by
  unfold parseKey at h
  split at h
  · rename_i k
    obtain ⟨b, u, e, hb, kt, eu, hk⟩ := hs.good trivial
    obtain ⟨t1, r1, h1, -⟩ := scan_ok rest
    rw [h1, Res.ok_bind] at h
    split at h
    · rename_i heq
      cases heq
      obtain ⟨m, u1, e1, hm, hu1⟩ := (scan_sound h1).good trivial
      obtain ⟨t2, r2, h2, -⟩ := scan_ok r1
      rw [h2, Res.ok_bind] at h
      have hs2 := scan_sound h2
      have := Res.ok.inj h
      subst this
      refine ⟨p' ++ w ++ [123] ++ membersText xs ++ b ++ [34] ++ kt ++ [34] ++ m ++ [58], r1, ?_, ⟨p', w, xs, b, kt, m, rfl, hw, ho, hx, rfl, hb, hk, hm⟩, hs2⟩
      unfold TokIs at hu1
      rw [hT, e, eu, e1, hu1]
      simp
    · cases h
  · cases h

theorem Spec.ValueText.ofMembers {xs : List Member} (hne : xs ≠ []) (hx : ∀ x ∈ xs, GoodMember x) :
    ValueText ([123] ++ commas (xs.map Member.all) ++ [125]) (.obj (addMembers [] (pairs xs))) := by
  refine .obj hne (fun x h => ?_) (fun x h => (hx x h).2.2.2.2.2) (members_built _)
  obtain ⟨h1, h2, h3, h4, h5, -⟩ := hx x h
  exact ⟨h1, h2, h3, h4, h5⟩

theorem afterValue_sound {T p0 : Bytes} : ∀ (fs : List Frame) {p w x : Bytes} {v : TVal} {rest : Bytes} {nx : Next}, T = p ++ w ++ x ++ rest → Blank w →
    ValueText x v → Opens p0 fs p → afterValue fs v rest = .ok nx → NextInv T p0 nx := by
  intro fs
  induction fs with
  | nil =>
    intro p w x v rest nx hT hw hx ho h
    have := Res.ok.inj h
    subst this
    exact ⟨w, x, by rw [hT, show p = p0 from ho], hw, hx⟩
  | cons f fs ih =>
    intro p w x v rest nx hT hw hx ho h
    obtain ⟨t1, r1, h1, -⟩ := scan_ok rest
    have hs1 := scan_sound h1
    cases f with
    | arr l =>
      obtain ⟨p', w', xs, ep, hw', ho', hxs, el⟩ := ho
      unfold afterValue at h
      rw [h1, Res.ok_bind] at h
      have good : ∀ w2, Blank w2 → ∀ y ∈ xs ++ [⟨w, x, w2, v⟩], GoodItem y := by
        intro w2 hw2 y hy
        rcases List.mem_append.1 hy with h | h
        · exact hxs y h
        · simp at h; subst h; exact ⟨hw, hw2, hx⟩
      split at h
      · rename_i heq; cases heq
        obtain ⟨w2, u, e, hw2, hu⟩ := hs1.good trivial
        unfold TokIs at hu
        obtain ⟨t2, r2, h2, -⟩ := scan_ok r1
        rw [h2, Res.ok_bind] at h
        have hs2 := scan_sound h2
        have := Res.ok.inj h
        subst this
        refine ⟨p' ++ w' ++ [91] ++ itemsText (xs ++ [⟨w, x, w2, v⟩]), r1, ?_, ⟨p', w', xs ++ [⟨w, x, w2, v⟩], rfl, hw', ho', good w2 hw2, by rw [el]; simp⟩, hs2⟩
        rw [hT, ep, e, hu]
        simp [itemsText, Item.all]
      · rename_i heq; cases heq
        obtain ⟨w2, u, e, hw2, hu⟩ := hs1.good trivial
        unfold TokIs at hu
        refine ih (p := p') (w := w') (x := [91] ++ commas ((xs ++ [(⟨w, x, w2, v⟩ : Item)]).map Item.all) ++ [93]) ?_ hw' ?_ ho' h
        · rw [hT, ep, e, hu, List.map_append, List.map_singleton, commas_snoc]
          simp [itemsText, Item.all]
        · have := ValueText.arr (xs := xs ++ [⟨w, x, w2, v⟩]) (by simp) (fun y hy => ⟨(good w2 hw2 y hy).1, (good w2 hw2 y hy).2.1⟩)
            (fun y hy => (good w2 hw2 y hy).2.2)
          rw [el]
          simpa using this
      · cases h
    | obj l k =>
      obtain ⟨p', w', xs, b, kt, m, ep, hw', ho', hxs, el, hb, hk, hm⟩ := ho
      unfold afterValue at h
      rw [h1, Res.ok_bind] at h
      have good : ∀ w2, Blank w2 → ∀ y ∈ xs ++ [⟨b, kt, k, m, ⟨w, x, w2, v⟩⟩], GoodMember y := by
        intro w2 hw2 y hy
        rcases List.mem_append.1 hy with h | h
        · exact hxs y h
        · simp at h; subst h; exact ⟨hb, hk, hm, hw, hw2, hx⟩
      have el' : ∀ w2, setMember k v l = addMembers [] (pairs (xs ++ [⟨b, kt, k, m, ⟨w, x, w2, v⟩⟩])) := by
        intro w2
        rw [show pairs (xs ++ [⟨b, kt, k, m, ⟨w, x, w2, v⟩⟩]) = pairs xs ++ [(k, v)] by simp [pairs], addMembers_append, ← el]
        rfl
      split at h
      · rename_i heq; cases heq
        obtain ⟨w2, u, e, hw2, hu⟩ := hs1.good trivial
        unfold TokIs at hu
        obtain ⟨t2, r2, h2, -⟩ := scan_ok r1
        rw [h2, Res.ok_bind] at h
        have hs2 := scan_sound h2
        dsimp only at h
        rw [el' w2] at h
        refine parseKey_sound (w := w') (t := r1) ?_ hw' ho' (good w2 hw2) hs2 h
        rw [hT, ep, e, hu]
        simp [membersText, Member.all, Item.all]
      · rename_i heq; cases heq
        obtain ⟨w2, u, e, hw2, hu⟩ := hs1.good trivial
        unfold TokIs at hu
        rw [el' w2] at h
        refine ih (p := p') (w := w') ?_ hw' (Spec.ValueText.ofMembers (by simp) (good w2 hw2)) ho' h
        rw [hT, ep, e, hu, List.map_append, List.map_singleton, commas_snoc]
        simp [membersText, Member.all, Item.all]
      · cases h

theorem parseValue_sound {T p0 p t : Bytes} {tok : Tok} {rest : Bytes} {fs : List Frame} {nx : Next} (hT : T = p ++ t) (ho : Opens p0 fs p)
    (hs : ScanSound t tok rest) (h : parseValue tok rest fs = .ok nx) : NextInv T p0 nx := by
  unfold parseValue at h
  split at h
  · obtain ⟨w, u, e, hw, hu⟩ := hs.good trivial
    unfold TokIs at hu
    obtain ⟨t1, r1, h1, -⟩ := scan_ok rest
    have hs1 := scan_sound h1
    rw [h1, Res.ok_bind] at h
    split at h
    · rename_i heq; cases heq
      obtain ⟨w1, u1, e1, hw1, hu1⟩ := hs1.good trivial
      unfold TokIs at hu1
      refine afterValue_sound fs (p := p) (w := w) ?_ hw (.noMembers hw1) ho h
      rw [hT, e, hu, e1, hu1]
      simp
    · rename_i heq; cases heq
      refine parseKey_sound (p' := p) (w := w) (xs := []) (t := rest) ?_ hw ho (by simp) hs1 h
      rw [hT, e, hu]
      simp [membersText]
  · obtain ⟨w, u, e, hw, hu⟩ := hs.good trivial
    unfold TokIs at hu
    obtain ⟨t1, r1, h1, -⟩ := scan_ok rest
    have hs1 := scan_sound h1
    rw [h1, Res.ok_bind] at h
    split at h
    · rename_i heq; cases heq
      obtain ⟨w1, u1, e1, hw1, hu1⟩ := hs1.good trivial
      unfold TokIs at hu1
      refine afterValue_sound fs (p := p) (w := w) ?_ hw (.noItems hw1) ho h
      rw [hT, e, hu, e1, hu1]
      simp
    · rename_i heq; cases heq
      have := Res.ok.inj h
      subst this
      refine ⟨p ++ w ++ [91], rest, ?_, ⟨p, w, [], by simp [itemsText], hw, ho, by simp, rfl⟩, hs1⟩
      rw [hT, e, hu]
      simp
  · obtain ⟨w, u, e, hw, hu⟩ := hs.good trivial
    exact afterValue_sound fs (by rw [hT, e]; simp [List.append_assoc]) hw (.number hu) ho h
  · cases h
  · obtain ⟨w, u, e, hw, hu⟩ := hs.good trivial
    unfold TokIs at hu
    subst hu
    exact afterValue_sound fs (by rw [hT, e, ← List.append_assoc, ← List.append_assoc]) hw .false ho h
  · obtain ⟨w, u, e, hw, hu⟩ := hs.good trivial
    unfold TokIs at hu
    subst hu
    exact afterValue_sound fs (by rw [hT, e, ← List.append_assoc, ← List.append_assoc]) hw .null ho h
  · obtain ⟨w, u, e, hw, hu⟩ := hs.good trivial
    unfold TokIs at hu
    subst hu
    exact afterValue_sound fs (by rw [hT, e, ← List.append_assoc, ← List.append_assoc]) hw .true ho h
  · obtain ⟨w, u, e, hw, hu⟩ := hs.good trivial
    exact afterValue_sound fs (by rw [hT, e, ← List.append_assoc, ← List.append_assoc]) hw (.number hu) ho h
  · obtain ⟨w, u, e, hw, kt, hu, hk⟩ := hs.good trivial
    subst hu
    exact afterValue_sound fs (by rw [hT, e, ← List.append_assoc, ← List.append_assoc]) hw (.str hk) ho h
  · obtain ⟨w, u, e, hw, hu⟩ := hs.good trivial
    exact afterValue_sound fs (by rw [hT, e, ← List.append_assoc, ← List.append_assoc]) hw (.number hu) ho h
  · cases h

theorem parseLoop_sound {T p0 : Bytes} : ∀ (fuel : Nat) {nx : Next} {v : TVal} {rest : Bytes}, NextInv T p0 nx → parseLoop fuel nx = .ok (v, rest) →
    ∃ w x, T = p0 ++ w ++ x ++ rest ∧ Blank w ∧ ValueText x v := by
  intro fuel
  induction fuel with
  | zero =>
    intro nx v rest hn h
    cases nx with
    | go tok r fs => cases h
    | done v' r => cases h; exact hn
  | succ fuel ih =>
    intro nx v rest hn h
    cases nx with
    | done v' r => cases h; exact hn
    | go tok r fs =>
      unfold parseLoop at h
      obtain ⟨y, h1, h2⟩ := Res.bind_eq_ok.1 h
      obtain ⟨p, t, hT, ho, hs⟩ := hn
      exact ih (parseValue_sound hT ho hs h1) h2

/-- What is read is a JSON text. -/
theorem parse_sound {t : Bytes} {v : TVal} (h : parse t = .ok v) : ReadText t v := by
  unfold parse at h
  obtain ⟨⟨tok, rest⟩, h1, h⟩ := Res.bind_eq_ok.1 h
  obtain ⟨⟨v', rest'⟩, h2, h⟩ := Res.bind_eq_ok.1 h
  obtain ⟨⟨tok2, rest2⟩, h3, h⟩ := Res.bind_eq_ok.1 h

  split at h
  case h_2 => cases h
  rename_i heq
  cases heq
  cases h
  have start : ∃ bom u, t = bom ++ u ∧ (bom = [] ∨ bom = [0xEF, 0xBB, 0xBF]) ∧ (ScanSound u tok rest) := by
    unfold scanFirst at h1
    split at h1
    · split at h1
      · exact ⟨[0xEF, 0xBB, 0xBF], _, rfl, .inr rfl, scan_sound h1⟩
      · cases h1
        exact ⟨[], _, rfl, .inl rfl, .error _ _⟩
    · exact ⟨[], _, rfl, .inl rfl, scan_sound h1⟩
  obtain ⟨bom, u, e, hb, hs⟩ := start
  obtain ⟨w, x, eT, hw, hx⟩ := parseLoop_sound (T := t) (p0 := bom) _ (nx := .go tok rest []) ⟨bom, u, e, rfl, hs⟩ h2
  obtain ⟨w2, tail, e2, hw2, ht⟩ := (scan_sound h3).eoi rfl
  exact ⟨bom, w ++ x ++ w2, tail, by rw [eT, e2]; simp, hb, ⟨w, x, w2, rfl, hw, hx, hw2⟩, ht⟩

end Tsetlini
