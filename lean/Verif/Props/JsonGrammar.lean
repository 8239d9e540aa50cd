import Verif.Lemmas.JsonComplete
import Verif.Props.JsonText
/-
C75: the texts that are read are the JSON texts of RFC 8259, and what is read is what they denote.
-/
namespace Tsetlini
open Spec

/-- **C75**: a text is read, as a value, exactly when the grammar says that it denotes that value; every other text is refused with an exception. -/
theorem C75_reads (t : Bytes) : (∀ v, parse t = .ok v ↔ ReadText t v) ∧ ((∀ v, ¬ ReadText t v) → parse t = .exn .jsonError) := by
  refine ⟨fun v => parse_iff, fun h => ?_⟩
  rcases parse_total t with e | ⟨v, e, -⟩
  · exact e
  · exact absurd (parse_iff.1 e) (h v)

/-- **C75**: every JSON text is read. -/
theorem C75_json {t : Bytes} {v : TVal} (h : JsonText t v) : parse t = .ok v :=
  parse_iff.2 ⟨[], t, [], by simp, .inl rfl, h, .inl rfl⟩

/-- **C75**: a text without NUL bytes and without a byte order mark is read only if it is a JSON text. -/
theorem C75_only_json {t : Bytes} {v : TVal} (h : parse t = .ok v) (h0 : 0 ∉ t) (hb : t.head? ≠ some 0xEF) : JsonText t v := by
  obtain ⟨bom, u, tail, e, hbom, hu, ht⟩ := parse_iff.1 h
  have hb' : bom = [] := by
    rcases hbom with h | h
    · exact h
    · subst h
      rw [e] at hb
      exact absurd rfl hb
  have ht' : tail = [] := by
    rcases ht with h | h
    · exact h
    · refine absurd ?_ h0
      rw [e]
      exact List.mem_append_right _ (List.mem_of_mem_head? h)
  subst hb' ht'
  rw [e]
  simpa using hu

/-- **C75**: a text denotes at most one value: no text is ambiguous. -/
theorem C75_unique {t : Bytes} {v w : TVal} (hv : ReadText t v) (hw : ReadText t w) : v = w :=
  Res.ok.inj ((parse_iff.2 hv).symm.trans (parse_iff.2 hw))

/-- **C75**: what is written is a JSON text: it denotes the value that was written (C70). -/
theorem C75_written {v : TVal} (hw : Wide v) (he : Encoded v) : ∃ t, dump v = .ok t ∧ JsonText t (reread v) := by
  obtain ⟨t, h1, h2⟩ := dump_reads hw he
  refine ⟨t, h1, ?_⟩
  obtain ⟨tok, r, k, g1, -, -, g4⟩ := h2.step [] [] ends_nil
  rw [List.append_nil] at g1
  obtain ⟨w, x, e, hb, hx⟩ := parseLoop_sound (T := t) (p0 := []) (0 + k) (nx := .go tok r []) ⟨[], t, rfl, rfl, scan_sound g1⟩ (g4 0)
  exact ⟨w, x, [], by simpa using e, hb, hx, blank_nil⟩

/-! ### Cases -/

/-- `{"b": 1, "a":[], "b":-2.5e1 }`, built by the grammar. -/
example : JsonText (ascii " {\"b\": 1, \"a\":[], \"b\":-2.5e1 }") (.obj [([97], .arr []), ([98], .float (.fin (-25)))]) := by
  have name : ∀ c : Nat, 0x20 ≤ c → c ≤ 0x7F → c ≠ 34 → c ≠ 92 → StringText [c] [c] := by
    intro c h1 h2 h3 h4
    have h := StringText.cons (CharText.plain (c := c) (.inl (by omega)) h1 h3 h4) .nil
    rw [show Spec.utf8 c = [c] from utf8_ascii h2] at h
    exact h
  have one : ValueText [49] (.unsigned 1) := .number (.nat (t := [49]) (by refine ⟨⟨by decide, ?_⟩, ?_⟩ <;> decide) (by decide))
  have real : ValueText (ascii "-2.5e1") (.float (.fin (-25))) := by
    refine .number (.negReal (int := [50]) (frac := [46] ++ [53]) (exp := [101] ++ [49]) (ds := [53]) (e := 1) ?_ (.some ?_) (.plain (.inl rfl) ?_) (.inl (by decide)) (f64_iff.1 (by decide +kernel)))
    · refine ⟨⟨by decide, ?_⟩, ?_⟩ <;> decide
    · exact ⟨by decide, by decide⟩
    · exact ⟨by decide, by decide⟩
  have blank : ∀ n, Blank (List.replicate n 32) := fun n c h => .inl (List.eq_of_mem_replicate h)
  refine ⟨[32], _, [], ?_, blank 1, ValueText.obj
    (xs := [⟨[], [98], [98], [], ⟨[32], [49], [], .unsigned 1⟩⟩, ⟨[32], [97], [97], [], ⟨[], [91] ++ [] ++ [93], [], .arr []⟩⟩,
      ⟨[32], [98], [98], [], ⟨[], ascii "-2.5e1", [32], .float (.fin (-25))⟩⟩]) (by simp) ?_ ?_ ?_, blank_nil⟩
  · decide
  · simp only [List.mem_cons, List.not_mem_nil, or_false, forall_eq_or_imp, forall_eq]
    exact ⟨⟨blank 0, name 98 (by decide) (by decide) (by decide) (by decide), blank 0, blank 1, blank 0⟩,
      ⟨blank 1, name 97 (by decide) (by decide) (by decide) (by decide), blank 0, blank 0, blank 0⟩,
      ⟨blank 1, name 98 (by decide) (by decide) (by decide) (by decide), blank 0, blank 0, blank 1⟩⟩
  · simp only [List.mem_cons, List.not_mem_nil, or_false, forall_eq_or_imp, forall_eq]
    exact ⟨one, .noItems (blank 0), real⟩
  · exact members_built _

/-- The escapes of a string. -/
example : ∃ t, StringText (ascii "\\n\\u00e9\\uD83D\\ude00") t ∧ t = [10, 0xC3, 0xA9, 0xF0, 0x9F, 0x98, 0x80] := by
  refine ⟨_, ?_, rfl⟩
  exact .cons (.short (e := 110) (c := 10) (by decide)) (.cons (.hex (c := 0xE9) (.mk (.digit (n := 0) (by decide)) (.digit (n := 0) (by decide)) (.lower (n := 14) (by decide) (by decide)) (.digit (n := 9) (by decide))) (.inl (by decide)))
    (.cons (.pair (hi := 0xD83D) (lo := 0xDE00) (.mk (.upper (n := 13) (by decide) (by decide)) (.digit (n := 8) (by decide)) (.digit (n := 3) (by decide)) (.upper (n := 13) (by decide) (by decide)))
      (.mk (.lower (n := 13) (by decide) (by decide)) (.lower (n := 14) (by decide) (by decide)) (.digit (n := 0) (by decide)) (.digit (n := 0) (by decide)))
      (by decide) (by decide) (by decide) (by decide)) .nil))

/-- What follows a NUL byte is not looked at: `null`, a NUL and an opening bracket are read as null, although no JSON text contains a NUL outside strings. -/
example : parse [110, 117, 108, 108, 0, 91] = .ok .null :=
  (C75_reads _).1 _ |>.2 ⟨[], [110, 117, 108, 108], [0, 91], rfl, .inl rfl, ⟨[], _, [], rfl, blank_nil, .null, blank_nil⟩, .inr rfl⟩

/-- A byte order mark. -/
example : parse [0xEF, 0xBB, 0xBF, 110, 117, 108, 108] = .ok .null :=
  (C75_reads _).1 _ |>.2 ⟨[0xEF, 0xBB, 0xBF], [110, 117, 108, 108], [], rfl, .inr rfl, ⟨[], _, [], rfl, blank_nil, .null, blank_nil⟩, .inl rfl⟩

/-- No value is denoted by `[1,]`, `01`, `.5`, `1.`, `+1`, `'a'`, `{"a" 1}`, `{a:1}`, `nul`, `[1]]` or nothing. -/
example : ∀ t ∈ [ascii "[1,]", ascii "01", ascii ".5", ascii "1.", ascii "+1", ascii "'a'", ascii "{\"a\" 1}", ascii "{a:1}", ascii "nul", ascii "[1]]", []], ∀ v, ¬ ReadText t v := by
  intro t ht v hv
  have h : ∀ t ∈ [ascii "[1,]", ascii "01", ascii ".5", ascii "1.", ascii "+1", ascii "'a'", ascii "{\"a\" 1}", ascii "{a:1}", ascii "nul", ascii "[1]]", []],
      (parse t).bind (fun _ => .ok ()) = .exn .jsonError := by decide +kernel
  have := h t ht
  rw [parse_iff.2 hv] at this
  cases this

/-- The toy document is written as a JSON text. -/
example : JsonText Toy.docText (reread Toy.doc) := by
  obtain ⟨t, h1, h2⟩ := C75_written Toy.doc_wide.1 Toy.doc_wide.2
  have e : dump Toy.doc = .ok Toy.docText := by decide +kernel
  rw [e] at h1
  rw [Res.ok.inj h1]
  exact h2

end Tsetlini
