import Verif.Lemmas.JsonTotal
namespace Tsetlini
open Spec

/-- Written when `p` holds, refused when not. -/
def WrittenIff (p : Prop) (r : Res Bytes) : Prop := (p ∧ ∃ t, r = .ok t) ∨ (¬ p ∧ r = .exn .jsonError)

theorem WrittenIff.bind {p q : Prop} {r : Res Bytes} {f : Bytes → Res Bytes} (h : WrittenIff p r) (hf : ∀ t, WrittenIff q (f t)) : WrittenIff (p ∧ q) (r.bind f) := by
  rcases h with ⟨hp, t, ht⟩ | ⟨hp, h⟩
  · rw [ht, Res.ok_bind]
    rcases hf t with ⟨hq, u, hu⟩ | ⟨hq, h⟩
    · exact .inl ⟨⟨hp, hq⟩, u, hu⟩
    · exact .inr ⟨fun h' => hq h'.2, h⟩
  · rw [h]
    exact .inr ⟨fun h' => hp h'.1, rfl⟩

theorem WrittenIff.done {t : Bytes} : WrittenIff True (.ok t) := .inl ⟨trivial, t, rfl⟩

theorem WrittenIff.congr {p q : Prop} {r : Res Bytes} (h : WrittenIff p r) (hpq : p ↔ q) : WrittenIff q r := by
  rwa [propext hpq] at h

theorem dumpEscaped_iff {s : Bytes} (h : AreBytes s) : WrittenIff (Utf8 s) (dumpEscaped s) := by
  by_cases hu : Utf8 s
  · obtain ⟨t, ht, -⟩ := dumpEscaped_ok hu
    exact .inl ⟨hu, t, ht⟩
  · exact .inr ⟨hu, dumpEscaped_bad h hu⟩

theorem dumpElements_iff : ∀ (l : List TVal), (∀ v ∈ l, WrittenIff (Encoded v) (dump v)) → WrittenIff (∀ v ∈ l, Encoded v) (dumpElements l) := by
  intro l
  induction l with
  | nil => intro _; simp only [dumpElements]; exact WrittenIff.done.congr (by simp)
  | cons v l ih =>
    intro h
    simp only [dumpElements]
    refine ((h v List.mem_cons_self).bind fun t => (ih fun w hw => h w (List.mem_cons_of_mem _ hw)).bind fun u => WrittenIff.done).congr ?_
    simp

theorem dumpMembers_iff : ∀ (l : List (Bytes × TVal)), (∀ m ∈ l, WrittenIff (Encoded m.2) (dump m.2)) → (∀ m ∈ l, AreBytes m.1) →
    WrittenIff ((∀ m ∈ l, Encoded m.2) ∧ ∀ m ∈ l, Utf8 m.1) (dumpMembers l) := by
  intro l
  induction l with
  | nil => intro _ _; simp only [dumpMembers]; exact WrittenIff.done.congr (by simp)
  | cons m l ih =>
    intro h hb
    obtain ⟨k, v⟩ := m
    simp only [dumpMembers, dumpMember]
    refine (((dumpEscaped_iff (hb _ List.mem_cons_self)).bind fun t => (h _ List.mem_cons_self).bind fun u => WrittenIff.done).bind fun t =>
      (ih (fun w hw => h w (List.mem_cons_of_mem _ hw)) fun w hw => hb w (List.mem_cons_of_mem _ hw)).bind fun u => WrittenIff.done).congr ?_
    simp only [List.forall_mem_cons]
    constructor
    · rintro ⟨⟨h1, h2, -⟩, ⟨h3, h4⟩, -⟩; exact ⟨⟨h2, h3⟩, h1, h4⟩
    · rintro ⟨⟨h2, h3⟩, h1, h4⟩; exact ⟨⟨h1, h2, trivial⟩, ⟨h3, h4⟩, trivial⟩

/-- A value is written exactly when its strings are UTF-8. -/
theorem dump_iff {v : TVal} (hw : Wide v) : WrittenIff (Encoded v) (dump v) := by
  have easy : ∀ {v : TVal}, Wide v → Encoded v → WrittenIff (Encoded v) (dump v) := by
    intro v hw he
    obtain ⟨t, ht, -⟩ := dump_reads hw he
    exact .inl ⟨he, t, ht⟩
  induction hw with
  | null => exact easy .null .null
  | bool b => exact easy (.bool b) (.bool b)
  | unsigned h => exact easy (.unsigned h) (.unsigned _)
  | integer h h' => exact easy (.integer h h') (.integer _)
  | finite h => exact easy (.finite h) (.float _)
  | inf neg => exact easy (.inf neg) (.float _)
  | nan => exact easy .nan (.float _)
  | str h =>
    simp only [dump]
    refine ((dumpEscaped_iff h).bind fun t => WrittenIff.done).congr ⟨fun h => .str h.1, fun h => ?_⟩
    cases h with | str h => exact ⟨h, trivial⟩
  | arr hl ih =>
    simp only [dump]
    refine ((dumpElements_iff _ ih).bind fun t => WrittenIff.done).congr ⟨fun h => .arr h.1, fun h => ?_⟩
    cases h with | arr h => exact ⟨h, trivial⟩
  | obj hl hb hs ih =>
    simp only [dump]
    refine ((dumpMembers_iff _ ih hb).bind fun t => WrittenIff.done).congr ⟨fun h => .obj h.1.1 h.1.2, fun h => ?_⟩
    cases h with | obj h h' => exact ⟨⟨h, h'⟩, trivial⟩

end Tsetlini
