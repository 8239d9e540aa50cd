import Verif.Lemmas.JsonRefused
/-
C70..C72: JSON text.  What is written is read back as it was; writing fails exactly for strings that are not UTF-8; reading any bytes
ends with a well-formed value or an exception.
-/
namespace Tsetlini
open Spec

/-- **C70**: a value with UTF-8 strings is written as a text, and reading the text returns the value; only the signedness of
non-negative integers and infinities and NaN (null) are not kept. -/
theorem C70_round_trip {v : TVal} (hw : Wide v) (he : Encoded v) : ∃ t, dump v = .ok t ∧ parse t = .ok (reread v) := parse_dump hw he

mutual
theorem reread_kept {v : TVal} (h : Written v) (hi : Unsigned v) : reread v = v := by
  match v, h, hi with
  | .null, _, _ => rfl
  | .bool _, _, _ => rfl
  | .unsigned _, _, _ => rfl
  | .integer i, _, .integer hi => simp only [reread]; rw [if_neg (by omega)]
  | .float (.fin _), _, _ => rfl
  | .str _, _, _ => rfl
  | .arr l, .arr h, .arr hi => simp only [reread]; rw [rereadAll_kept h hi]
  | .obj l, .obj h, .obj hi => simp only [reread]; rw [rereadMembers_kept h hi]

theorem rereadAll_kept {l : List TVal} (h : ∀ v ∈ l, Written v) (hi : ∀ v ∈ l, Unsigned v) : rereadAll l = l := by
  match l with
  | [] => rfl
  | v :: l =>
    simp only [rereadAll]
    rw [reread_kept (h v List.mem_cons_self) (hi v List.mem_cons_self),
      rereadAll_kept (fun w hw => h w (List.mem_cons_of_mem _ hw)) fun w hw => hi w (List.mem_cons_of_mem _ hw)]

theorem rereadMembers_kept {l : List (Bytes × TVal)} (h : ∀ m ∈ l, Written m.2) (hi : ∀ m ∈ l, Unsigned m.2) : rereadMembers l = l := by
  match l with
  | [] => rfl
  | (k, v) :: l =>
    simp only [rereadMembers, rereadMember]
    rw [reread_kept (h _ List.mem_cons_self) (hi _ List.mem_cons_self),
      rereadMembers_kept (fun w hw => h w (List.mem_cons_of_mem _ hw)) fun w hw => hi w (List.mem_cons_of_mem _ hw)]
end

/-- **C70**: a value in which every number is finite and every non-negative integer unsigned is read back as it was. -/
theorem C70_same {v : TVal} (hw : Wide v) (he : Encoded v) (h : Written v) (hi : Unsigned v) : ∃ t, dump v = .ok t ∧ parse t = .ok v := by
  obtain ⟨t, h1, h2⟩ := parse_dump hw he
  exact ⟨t, h1, by rw [h2, reread_kept h hi]⟩

/-- **C70**: two values written as the same text are read as the same value. -/
theorem C70_injective {v w : TVal} (hv : Wide v) (hev : Encoded v) (hw : Wide w) (hew : Encoded w) (h : dump v = dump w) : reread v = reread w := by
  obtain ⟨t, h1, h2⟩ := parse_dump hv hev
  obtain ⟨u, h3, h4⟩ := parse_dump hw hew
  rw [h1, h3] at h
  have := Res.ok.inj h
  subst this
  rw [h2] at h4
  exact Res.ok.inj h4

/-- **C70**: a positive `double` is turned into 1 to 17 decimal digits, without leading and trailing zeros, and an exponent of ten of at most three digits; rounding that decimal
number to the nearest `double` gives the number back. -/
theorem C70_digits {q : Rat} (h : Double q) (h0 : 0 < q) : ∃ ds e, grisu2 q = .ok (ds, e) ∧ (∀ d ∈ ds, 48 ≤ d ∧ d ≤ 57) ∧ 1 ≤ ds.length ∧ ds.length ≤ 17 ∧
    ds.head? ≠ some 48 ∧ ds.getLast? ≠ some 48 ∧ -400 < e ∧ e < 400 ∧ f64 ((digitsValue ds : Rat) * pow10 e) = .fin q := by
  obtain ⟨ds, e, h1, h2, h3, h4, h5⟩ := grisu2_spec h h0
  refine ⟨ds, e, h1, h2.digits, ?_, h2.len, h2.head, h2.last, h3, h4, h5⟩
  have := h2.nonempty
  cases ds with
  | nil => exact absurd rfl this
  | cons d ds => simp

/-- **C71**: writing a value ends normally exactly when all its strings, keys included, are UTF-8; if not it throws. -/
theorem C71_refused {v : TVal} (hw : Wide v) : (Encoded v → ∃ t, dump v = .ok t) ∧ (¬ Encoded v → dump v = .exn .jsonError) := by
  rcases dump_iff hw with ⟨h, t, ht⟩ | ⟨h, ht⟩
  · exact ⟨fun _ => ⟨t, ht⟩, fun h' => absurd h h'⟩
  · exact ⟨fun h' => absurd h' h, fun _ => ht⟩

/-- **C72**: reading any text ends: with an exception, or with a value whose integers fit 64 bits, whose numbers are finite `double`s, whose strings
are UTF-8 and whose objects have their keys in order and only once.  No undefined behaviour, no endless loop. -/
theorem C72_total (t : Bytes) : parse t = .exn .jsonError ∨ ∃ v, parse t = .ok v ∧ Wide v ∧ Encoded v ∧ Written v := by
  rcases parse_total t with h | ⟨v, h, hv⟩
  · exact .inl h
  · exact .inr ⟨v, h, hv.wide, hv.encoded, hv.written⟩

/-- **C72**: what was read can be written, and is read again as it was (but a "-0" as 0). -/
theorem C72_rewritten {t : Bytes} {v : TVal} (h : parse t = .ok v) : ∃ u, dump v = .ok u ∧ parse u = .ok (reread v) := by
  rcases parse_total t with h' | ⟨w, h', hw⟩
  · rw [h] at h'; cases h'
  · rw [h] at h'
    cases Res.ok.inj h'
    exact parse_dump hw.wide hw.encoded

/-! ### Cases -/

/-- An object with all kinds of values; its strings are UTF-8. -/
def Toy.doc : TVal :=
  .obj [(ascii "a", .arr [.integer 7, .integer (-3), .unsigned 18446744073709551615, .float (.fin (1/2)), .float .nan, .null]),
        ([0xC3, 0xA9], .str [10, 0xE2, 0x82, 0xAC, 34])]

theorem Toy.doc_wide : Wide Toy.doc ∧ Encoded Toy.doc := by
  have hd : Double (1/2) := ⟨1, 1073, by decide, by decide, by decide +kernel⟩
  refine ⟨.obj ?_ ?_ (by decide), .obj ?_ ?_⟩
  · intro m hm
    simp only [List.mem_cons, List.not_mem_nil, or_false] at hm
    rcases hm with rfl | rfl
    · refine .arr fun v hv => ?_
      simp only [List.mem_cons, List.not_mem_nil, or_false] at hv
      rcases hv with rfl | rfl | rfl | rfl | rfl | rfl
      · exact .integer (by decide) (by decide)
      · exact .integer (by decide) (by decide)
      · exact .unsigned (by decide)
      · exact .finite hd
      · exact .nan
      · exact .null
    · exact .str (by unfold AreBytes; decide)
  · unfold AreBytes; decide
  · intro m hm
    simp only [List.mem_cons, List.not_mem_nil, or_false] at hm
    rcases hm with rfl | rfl
    · refine .arr fun v hv => ?_
      simp only [List.mem_cons, List.not_mem_nil, or_false] at hv
      rcases hv with rfl | rfl | rfl | rfl | rfl | rfl
      · exact .integer _
      · exact .integer _
      · exact .unsigned _
      · exact .float _
      · exact .float _
      · exact .null
    · exact .str ⟨[10, 0x20AC, 34], by unfold Scalar; decide, by decide⟩
  · intro m hm
    simp only [List.mem_cons, List.not_mem_nil, or_false] at hm
    rcases hm with rfl | rfl
    · exact ⟨[97], by unfold Scalar; decide, by decide⟩
    · exact ⟨[0xE9], by unfold Scalar; decide, by decide⟩

/-- Its text. -/
def Toy.docText : Bytes :=
  ascii "{\"a\":[7,-3,18446744073709551615,0.5,null,null],\"" ++ [0xC3, 0xA9] ++ ascii "\":\"\\n" ++ [0xE2, 0x82, 0xAC] ++ ascii "\\\"\"}"

example : dump Toy.doc = .ok Toy.docText := by decide +kernel

example : (parse Toy.docText).bind dump = .ok Toy.docText := by decide +kernel

/-! Digits: 0.1, the smallest and the greatest `double`. -/
example : dumpFloat (f64 (1/10)) = .ok (ascii "0.1") ∧ dumpFloat (.fin (1 / (2 ^ 1074 : Nat))) = .ok (ascii "5e-324") ∧
    dumpFloat (.fin (((2 ^ 53 - 1) * 2 ^ 971 : Nat))) = .ok (ascii "1.7976931348623157e+308") ∧ dumpFloat (.fin (-(12345678 / 1000))) = .ok (ascii "-12345.678") := by
  decide +kernel

/-! A lone continuation byte and a cut sequence are refused. -/
example : dump (.str [97, 0x80]) = .exn .jsonError ∧ dump (.arr [.str [0xC3]]) = .exn .jsonError := by decide +kernel

/-! Texts: blanks, escapes, repeated keys, "-0"; refused: trailing bytes, a leading zero, a number too great, a lone surrogate, an unterminated string. -/
example : (parse (ascii " { \"b\" : 1e2 , \"a\" : \"\\u00e9\\ud83d\\ude00\" , \"b\" : [ -0 , true ] } ")).bind dump =
    .ok (ascii "{\"a\":\"" ++ [0xC3, 0xA9, 0xF0, 0x9F, 0x98, 0x80] ++ ascii "\",\"b\":[0,true]}") := by decide +kernel

example : (parse (ascii "1 2")).bind dump = .exn .jsonError ∧ (parse (ascii "01")).bind dump = .exn .jsonError ∧ (parse (ascii "1e999")).bind dump = .exn .jsonError ∧
    (parse (ascii "\"\\ud800\"")).bind dump = .exn .jsonError ∧ (parse (ascii "\"abc")).bind dump = .exn .jsonError ∧ (parse []).bind dump = .exn .jsonError := by decide +kernel

end Tsetlini
