import Verif.Lemmas.JsonSound
namespace Tsetlini
open Spec

theorem readStringText {t s : Bytes} (h : StringText t s) (rest : Bytes) : scan (34 :: (t ++ 34 :: rest)) = .ok (.str s, rest) := by
  rw [scan_string, scanString_text h rest _ _ (by simp), List.nil_append]

/-! The elements of an array. -/
theorem readItems : ∀ (xs : List Item), xs ≠ [] → (∀ x ∈ xs, Blank x.before ∧ Blank x.after) → (∀ x ∈ xs, ReadsAs x.text x.value) →
    ∀ (acc : List TVal) (rest : Bytes) (fs : List Frame), ∃ tok r k, scan (commas (xs.map Item.all) ++ 93 :: rest) = .ok (tok, r) ∧ tok ≠ .endArray ∧
      k ≤ (commas (xs.map Item.all)).length ∧
      ∀ n, parseLoop (n + k) (.go tok r (.arr acc :: fs)) = (afterValue fs (.arr (acc ++ xs.map Item.value)) rest).bind (parseLoop n) := by
  intro xs
  induction xs with
  | nil => intro h; exact absurd rfl h
  | cons x xs ih =>
    intro _ hb hl acc rest fs
    have hrd := hl x List.mem_cons_self
    obtain ⟨hb1, hb2⟩ := hb x List.mem_cons_self
    by_cases hne : xs = []
    · subst hne
      obtain ⟨tok, r, k, h1, h2, h3, h4⟩ := hrd.step (x.after ++ 93 :: rest) (.arr acc :: fs) (ends_blank hb2 (ends_sep (by omega)))
      refine ⟨tok, r, k, ?_, h2, ?_, fun n => ?_⟩
      · rw [show commas ([x].map Item.all) ++ 93 :: rest = x.before ++ (x.text ++ (x.after ++ 93 :: rest)) by simp [commas, Item.all], scan_blank hb1, h1]
      · simp [commas, Item.all]; omega
      · rw [h4]
        simp only [afterValue, scan_blank hb2, scan_endArray, Res.ok_bind, List.map]
    · obtain ⟨tok2, r2, k2, g1, g2, g3, g4⟩ := ih hne (fun y hy => hb y (List.mem_cons_of_mem _ hy)) (fun y hy => hl y (List.mem_cons_of_mem _ hy)) (acc ++ [x.value]) rest fs
      obtain ⟨tok, r, k, h1, h2, h3, h4⟩ := hrd.step (x.after ++ 44 :: (commas (xs.map Item.all) ++ 93 :: rest)) (.arr acc :: fs) (ends_blank hb2 (ends_sep (by omega)))
      have e : commas ((x :: xs).map Item.all) = x.before ++ (x.text ++ (x.after ++ 44 :: commas (xs.map Item.all))) := by
        rw [List.map_cons, commas_cons (by simpa using hne)]
        simp [Item.all]
      refine ⟨tok, r, k2 + k, ?_, h2, by rw [e]; simp; omega, fun n => ?_⟩
      · rw [e, show x.before ++ (x.text ++ (x.after ++ 44 :: commas (xs.map Item.all))) ++ 93 :: rest =
          x.before ++ (x.text ++ (x.after ++ 44 :: (commas (xs.map Item.all) ++ 93 :: rest))) by simp, scan_blank hb1, h1]
      · rw [← Nat.add_assoc, h4]
        simp only [afterValue, scan_blank hb2, scan_comma, Res.ok_bind, g1, g4, List.map, List.append_assoc, List.singleton_append]

theorem parseKey_text {k m rest : Bytes} {l : List (Bytes × TVal)} {fs : List Frame} (hm : Blank m) :
    parseKey (.str k) (m ++ 58 :: rest) l fs = (scan rest).bind fun (tok, rest) => .ok (.go tok rest (.obj l k :: fs)) := by
  unfold parseKey
  dsimp only
  rw [scan_blank hm, scan_colon, Res.ok_bind]

/-! The members of an object. -/
theorem readMembersText : ∀ (xs : List Member), xs ≠ [] →
    (∀ x ∈ xs, Blank x.before ∧ StringText x.key x.name ∧ Blank x.middle ∧ Blank x.item.before ∧ Blank x.item.after) →
    (∀ x ∈ xs, ReadsAs x.item.text x.item.value) →
    ∀ (acc : List (Bytes × TVal)) (rest : Bytes) (fs : List Frame), ∃ s r k, scan (commas (xs.map Member.all) ++ 125 :: rest) = .ok (.str s, r) ∧
      k + 1 ≤ (commas (xs.map Member.all)).length ∧
      ∀ n, (parseKey (.str s) r acc fs).bind (parseLoop (n + k)) = (afterValue fs (.obj (addMembers acc (pairs xs))) rest).bind (parseLoop n) := by
  intro xs
  induction xs with
  | nil => intro h; exact absurd rfl h
  | cons x xs ih =>
    intro _ hb hl acc rest fs
    have hrd := hl x List.mem_cons_self
    obtain ⟨b1, hk, b2, b3, b4⟩ := hb x List.mem_cons_self
    by_cases hne : xs = []
    · subst hne
      obtain ⟨tok, r, k, h1, h2, h3, h4⟩ := hrd.step (x.item.after ++ 125 :: rest) (.obj acc x.name :: fs) (ends_blank b4 (ends_sep (by omega)))
      refine ⟨x.name, x.middle ++ 58 :: (x.item.before ++ (x.item.text ++ (x.item.after ++ 125 :: rest))), k, ?_, ?_, fun n => ?_⟩
      · rw [show commas ([x].map Member.all) ++ 125 :: rest =
          x.before ++ (34 :: (x.key ++ 34 :: (x.middle ++ 58 :: (x.item.before ++ (x.item.text ++ (x.item.after ++ 125 :: rest)))))) by
            simp [commas, Member.all, Item.all], scan_blank b1, readStringText hk]
      · simp [commas, Member.all, Item.all]; omega
      · rw [parseKey_text b2, scan_blank b3, h1, Res.ok_bind]
        simp only [Res.ok_bind]
        rw [h4]
        simp only [afterValue, scan_blank b4, scan_endObject, Res.ok_bind]
        rfl
    · obtain ⟨s2, r2, k2, g1, g3, g4⟩ := ih hne (fun y hy => hb y (List.mem_cons_of_mem _ hy)) (fun y hy => hl y (List.mem_cons_of_mem _ hy))
        (setMember x.name x.item.value acc) rest fs
      obtain ⟨tok, r, k, h1, h2, h3, h4⟩ := hrd.step (x.item.after ++ 44 :: (commas (xs.map Member.all) ++ 125 :: rest)) (.obj acc x.name :: fs)
        (ends_blank b4 (ends_sep (by omega)))
      have e : commas ((x :: xs).map Member.all) =
          x.before ++ (34 :: (x.key ++ 34 :: (x.middle ++ 58 :: (x.item.before ++ (x.item.text ++ (x.item.after ++ 44 :: commas (xs.map Member.all))))))) := by
        rw [List.map_cons, commas_cons (by simpa using hne)]
        simp [Member.all, Item.all]
      refine ⟨x.name, x.middle ++ 58 :: (x.item.before ++ (x.item.text ++ (x.item.after ++ 44 :: (commas (xs.map Member.all) ++ 125 :: rest)))), k2 + k, ?_,
        by rw [e]; simp; omega, fun n => ?_⟩
      · rw [e, show x.before ++ (34 :: (x.key ++ 34 :: (x.middle ++ 58 :: (x.item.before ++ (x.item.text ++ (x.item.after ++ 44 :: commas (xs.map Member.all))))))) ++ 125 :: rest =
          x.before ++ (34 :: (x.key ++ 34 :: (x.middle ++ 58 :: (x.item.before ++ (x.item.text ++ (x.item.after ++ 44 :: (commas (xs.map Member.all) ++ 125 :: rest))))))) by simp,
          scan_blank b1, readStringText hk]
      · rw [parseKey_text b2, scan_blank b3, h1, Res.ok_bind]
        simp only [Res.ok_bind]
        rw [← Nat.add_assoc, h4]
        simp only [afterValue, scan_blank b4, scan_comma, Res.ok_bind, g1, g4]
        rfl

theorem readsAs_number {t : Bytes} {v : TVal} (h : NumberText t v) : ReadsAs t v := by
  have hv1 : numberTok v ≠ .endArray := by cases h <;> intro h' <;> cases h'
  have hv2 : ∀ rest fs, parseValue (numberTok v) rest fs = afterValue fs v rest := by cases h <;> exact fun _ _ => rfl
  obtain ⟨c, u, e, hc, -⟩ := scanNumber_text h ends_nil
  rw [List.append_nil] at e
  subst e
  refine readsAs_token (by omega) fun rest hr => ?_
  obtain ⟨c', u', e', -, hs⟩ := scanNumber_text h hr
  obtain ⟨rfl, rfl⟩ := List.cons.inj e'
  refine ⟨numberTok v, by rw [scan_number hc]; exact congrArg _ hs, hv1, fun fs => hv2 rest fs⟩

/-- Every JSON value is read. -/
theorem valueText_reads {t : Bytes} {v : TVal} (h : ValueText t v) : ReadsAs t v := by
  induction h with
  | null => exact readsAs_token (c := 110) (by decide) fun rest hr => ⟨.literalNull, rfl, by simp, fun fs => rfl⟩
  | true => exact readsAs_token (c := 116) (by decide) fun rest hr => ⟨.literalTrue, rfl, by simp, fun fs => rfl⟩
  | false => exact readsAs_token (c := 102) (by decide) fun rest hr => ⟨.literalFalse, rfl, by simp, fun fs => rfl⟩
  | number h => exact readsAs_number h
  | @str t s h =>
    refine readsAs_token (c := 34) (u := t ++ [34]) (by decide) fun rest hr => ⟨.str s, ?_, by simp, fun fs => rfl⟩
    rw [List.append_assoc]
    exact readStringText h rest
  | @noItems w h =>
    refine ⟨⟨91, w ++ [93], rfl, by decide⟩, fun rest fs hr => ⟨.beginArray, w ++ 93 :: rest, 1, ?_, by simp, by simp, fun n => ?_⟩⟩
    · rw [show [91] ++ w ++ [93] ++ rest = 91 :: (w ++ 93 :: rest) by simp]; rfl
    · rw [parseLoop]
      simp only [parseValue, scan_blank h, scan_endArray, Res.ok_bind]
  | @arr xs hne hb _ ih =>
    refine ⟨⟨91, commas (xs.map Item.all) ++ [93], by simp, by decide⟩, fun rest fs hr => ?_⟩
    obtain ⟨tok, r, k, g1, g2, g3, g4⟩ := readItems xs hne hb ih [] rest fs
    refine ⟨.beginArray, commas (xs.map Item.all) ++ 93 :: rest, k + 1, ?_, by simp, by simp; omega, fun n => ?_⟩
    · rw [show [91] ++ commas (xs.map Item.all) ++ [93] ++ rest = 91 :: (commas (xs.map Item.all) ++ 93 :: rest) by simp]; rfl
    · rw [← Nat.add_assoc, parseLoop]
      simp only [parseValue, g1, Res.ok_bind]
      rw [← List.nil_append (xs.map Item.value), ← g4]
  | @noMembers w h =>
    refine ⟨⟨123, w ++ [125], rfl, by decide⟩, fun rest fs hr => ⟨.beginObject, w ++ 125 :: rest, 1, ?_, by simp, by simp, fun n => ?_⟩⟩
    · rw [show [123] ++ w ++ [125] ++ rest = 123 :: (w ++ 125 :: rest) by simp]; rfl
    · rw [parseLoop]
      simp only [parseValue, scan_blank h, scan_endObject, Res.ok_bind]
  | @obj xs l hne hb _ hm ih =>
    have el := members_eq hm
    subst el
    refine ⟨⟨123, commas (xs.map Member.all) ++ [125], by simp, by decide⟩, fun rest fs hr => ?_⟩
    obtain ⟨s, r, k, g1, g3, g4⟩ := readMembersText xs hne hb ih [] rest fs
    refine ⟨.beginObject, commas (xs.map Member.all) ++ 125 :: rest, k + 1, ?_, by simp, by simp; omega, fun n => ?_⟩
    · rw [show [123] ++ commas (xs.map Member.all) ++ [125] ++ rest = 123 :: (commas (xs.map Member.all) ++ 125 :: rest) by simp]; rfl
    · rw [← Nat.add_assoc, parseLoop]
      simp only [parseValue, g1, Res.ok_bind]
      rw [g4]
      rfl

theorem scan_tail {b tail : Bytes} (hb : Blank b) (ht : tail = [] ∨ tail.head? = some 0) : ∃ r, scan (b ++ tail) = .ok (.endOfInput, r) := by
  rw [scan_blank hb]
  rcases ht with rfl | h
  · exact ⟨[], rfl⟩
  · match tail, h with
    | c :: r, h =>
      have : c = 0 := by simpa using h
      subst this
      exact ⟨r, rfl⟩

/-- JSON texts are read. -/
theorem parse_complete {t : Bytes} {v : TVal} (h : ReadText t v) : parse t = .ok v := by
  obtain ⟨bom, u0, tail, et, hbom, ⟨a, u, b, eu, ha, hv, hb⟩, ht⟩ := h
  have hrd := valueText_reads hv
  obtain ⟨c, u', ec, hc⟩ := hrd.head
  have hends : Ends (b ++ tail) := ends_blank hb (by
    intro d hd
    rcases ht with rfl | h
    · simp at hd
    · rw [h] at hd
      cases hd
      decide)
  obtain ⟨tok, r, k, g1, -, g3, g4⟩ := hrd.step (b ++ tail) [] hends
  have hf : scanFirst t = .ok (tok, r) := by
    have e : t = bom ++ (a ++ (u ++ (b ++ tail))) := by rw [et, eu]; simp
    rw [e]
    have hs : scan (a ++ (u ++ (b ++ tail))) = .ok (tok, r) := by rw [scan_blank ha, g1]
    rcases hbom with rfl | rfl
    · rw [List.nil_append, ← hs]
      cases a with
      | nil =>
        rw [ec]
        exact scanFirst_eq hc
      | cons d a =>
        refine scanFirst_eq ?_
        have := ha d List.mem_cons_self
        omega
    · rw [← hs]
      rfl
  have hk : k ≤ t.length := by
    rw [et, eu]
    simp
    omega
  unfold parse
  rw [hf, Res.ok_bind]
  have hl := g4 (t.length + 1 - k)
  rw [show t.length + 1 - k + k = t.length + 1 by omega] at hl
  dsimp only
  rw [hl]
  simp only [afterValue, Res.ok_bind]
  have hp : ∀ n, parseLoop n (.done v (b ++ tail)) = .ok (v, b ++ tail) := fun n => by cases n <;> rfl
  rw [hp, Res.ok_bind]
  dsimp only
  obtain ⟨r', hr'⟩ := scan_tail hb ht
  rw [hr', Res.ok_bind]

/-- What is read is what the grammar says. -/
theorem parse_iff {t : Bytes} {v : TVal} : parse t = .ok v ↔ ReadText t v := ⟨parse_sound, parse_complete⟩

end Tsetlini
