import Verif.Spec.JsonGrammar
import Verif.Lemmas.JsonTotal
import Verif.Lemmas.JsonFormat
/- The tokens of the grammar and those that the lexer finds. -/
namespace Tsetlini
open Spec

/-! ### Strings -/

theorem hexValue_iff {c n : Nat} : hexValue c = some n ↔ HexDigit c n := by
  constructor
  · intro h
    unfold hexValue at h
    repeat' split at h
    · have e := Option.some.inj h
      rw [show c = 48 + n by omega]; exact .digit (by omega)
    · have e := Option.some.inj h
      rw [show c = 65 + (n - 10) by omega]; exact .upper (by omega) (by omega)
    · have e := Option.some.inj h
      rw [show c = 97 + (n - 10) by omega]; exact .lower (by omega) (by omega)
    · cases h
  · intro h
    unfold hexValue
    cases h with
    | digit h => rw [if_pos (by omega)]; congr 1; omega
    | upper h1 h2 => rw [if_neg (by omega), if_pos (by omega)]; congr 1; omega
    | lower h1 h2 => rw [if_neg (by omega), if_neg (by omega), if_pos (by omega)]; congr 1; omega

theorem getCodepoint_iff {t rest : Bytes} {c : Nat} : getCodepoint t = some (c, rest) ↔ ∃ u, t = u ++ rest ∧ Hex4 u c := by
  constructor
  · intro h
    match t, h with
    | a :: b :: e :: d :: r, h =>
      simp only [getCodepoint, bind, pure, Option.bind_eq_some_iff, Option.some.injEq, Prod.mk.injEq] at h
      obtain ⟨x, hx, y, hy, z, hz, w, hw, rfl, rfl⟩ := h
      refine ⟨[a, b, e, d], rfl, ?_⟩
      rw [show x * 4096 + y * 256 + z * 16 + w = ((x * 16 + y) * 16 + z) * 16 + w by omega]
      exact .mk (hexValue_iff.1 hx) (hexValue_iff.1 hy) (hexValue_iff.1 hz) (hexValue_iff.1 hw)
  · rintro ⟨u, rfl, h⟩
    cases h with
    | @mk a b e d m n o p h1 h2 h3 h4 =>
      show getCodepoint (a :: b :: e :: d :: rest) = _
      simp only [getCodepoint, hexValue_iff.2 h1, hexValue_iff.2 h2, hexValue_iff.2 h3, hexValue_iff.2 h4, bind, pure, Option.bind_some]
      congr 2
      omega

theorem Spec.Hex4.lt {t : Bytes} {c : Nat} (h : Hex4 t c) : c < 65536 := (getCodepoint_spec (getCodepoint_iff.2 ⟨t, by rw [List.append_nil], h⟩)).1

theorem Spec.CharText.scalar {t : Bytes} {c : Nat} (h : CharText t c) : Scalar c := by
  cases h with
  | plain h _ _ _ => exact h
  | short h =>
    simp only [shortEscapes, List.mem_cons, Prod.mk.injEq, List.not_mem_nil, or_false] at h
    unfold Scalar
    omega
  | hex _ h => exact h
  | pair h1 h2 h3 h4 h5 h6 => unfold Scalar; omega

theorem utf8_ascii {c : Nat} (h : c ≤ 0x7F) : Spec.utf8 c = [c] := by unfold Spec.utf8; rw [if_pos h]

/-- What a step of reading a string says of the text. -/
def StepSound (t : Bytes) : StrStep → Prop
  | .done rest => t = 34 :: rest
  | .add bs rest => ∃ u c, t = u ++ rest ∧ CharText u c ∧ bs = Spec.utf8 c
  | .error => True

theorem seq_char {a : Nat} {u : Bytes} (h : Seq (a :: u)) (ha : 0x80 ≤ a) : ∃ c, CharText (a :: u) c ∧ a :: u = Spec.utf8 c := by
  obtain ⟨c, hc, e⟩ := seq_utf8 h
  have h80 : 0x80 ≤ c := by
    refine Nat.le_of_not_lt fun hl => ?_
    rw [utf8_ascii (by omega)] at e
    simp at e
    omega
  refine ⟨c, ?_, e⟩
  rw [e]
  exact .plain hc (by omega) (by omega) (by omega)

theorem unicodeEscape_sound (t : Bytes) : StepSound (92 :: 117 :: t) (unicodeEscape t) := by
  unfold unicodeEscape
  match hg : getCodepoint t with
  | none => exact trivial
  | some (c1, r) =>
    obtain ⟨u1, rfl, hx1⟩ := getCodepoint_iff.1 hg
    have hc1 := hx1.lt
    dsimp only
    by_cases h1 : 0xD800 ≤ c1 ∧ c1 ≤ 0xDBFF
    · rw [if_pos h1]
      split
      · rename_i r2
        match hg2 : getCodepoint r2 with
        | none => exact trivial
        | some (c2, r3) =>
          obtain ⟨u2, rfl, hx2⟩ := getCodepoint_iff.1 hg2
          have hc2 := hx2.lt
          dsimp only
          by_cases h2 : 0xDC00 ≤ c2 ∧ c2 ≤ 0xDFFF
          · rw [if_pos h2]
            refine ⟨[92, 117] ++ u1 ++ [92, 117] ++ u2, c1 * 1024 + c2 - 0x35FDC00, by simp, ?_, ?_⟩
            · have hp := CharText.pair hx1 hx2 h1.1 h1.2 h2.1 h2.2
              have e : 0x10000 + (c1 - 0xD800) * 0x400 + (c2 - 0xDC00) = c1 * 1024 + c2 - 0x35FDC00 := by omega
              rw [e] at hp
              exact hp
            · exact codepointBytes_utf8 (by unfold Scalar; omega)
          · rw [if_neg h2]; exact trivial
      · exact trivial
    · rw [if_neg h1]
      by_cases h2 : 0xDC00 ≤ c1 ∧ c1 ≤ 0xDFFF
      · rw [if_pos h2]; exact trivial
      · rw [if_neg h2]
        have hs : Scalar c1 := by unfold Scalar; omega
        exact ⟨[92, 117] ++ u1, c1, by simp, .hex hx1 hs, codepointBytes_utf8 hs⟩

theorem escapeSequence_sound (t : Bytes) : StepSound (92 :: t) (escapeSequence t) := by
  match t with
  | [] => exact trivial
  | c :: r =>
    unfold escapeSequence
    dsimp only
    have key : ∀ e : Nat, (c, e) ∈ shortEscapes → StepSound (92 :: c :: r) (.add [e] r) := by
      intro e he
      refine ⟨[92, c], e, rfl, .short he, (utf8_ascii ?_).symm⟩
      simp only [shortEscapes, List.mem_cons, Prod.mk.injEq, List.not_mem_nil, or_false] at he
      omega
    iterate 8
      refine if h : _ then (if_pos h).symm ▸ key _ (by rw [h]; decide) else (if_neg h).symm ▸ ?_
    refine if h : _ then (if_pos h).symm ▸ (by rw [h]; exact unicodeEscape_sound r) else (if_neg h).symm ▸ trivial

theorem strStep_sound (t : Bytes) : StepSound t (strStep t) := by
  match t with
  | [] => exact trivial
  | c :: r =>
    have n1 : ∀ (l u : Nat), 0x80 ≤ c → (∀ b, l ≤ b → b ≤ u → Seq [c, b]) → StepSound (c :: r) (nextInRange [c] [(l, u)] r) := by
      intro l u hc h
      match r with
      | [] => exact trivial
      | b :: r =>
        simp only [nextInRange]
        split
        · rename_i hb
          obtain ⟨x, h1, h2⟩ := seq_char (h b hb.1 hb.2) hc
          exact ⟨[c, b], x, rfl, h1, h2⟩
        · exact trivial
    have n2 : ∀ (l u : Nat), 0x80 ≤ c → (∀ b d, l ≤ b → b ≤ u → 0x80 ≤ d → d ≤ 0xBF → Seq [c, b, d]) →
        StepSound (c :: r) (nextInRange [c] [(l, u), (0x80, 0xBF)] r) := by
      intro l u hc h
      match r with
      | [] => exact trivial
      | [b] => simp only [nextInRange]; split <;> exact trivial
      | b :: d :: r =>
        simp only [nextInRange]
        split
        · rename_i hb
          split
          · rename_i hd
            obtain ⟨x, h1, h2⟩ := seq_char (h b d hb.1 hb.2 hd.1 hd.2) hc
            exact ⟨[c, b, d], x, rfl, h1, h2⟩
          · exact trivial
        · exact trivial
    have n3 : ∀ (l u : Nat), 0x80 ≤ c → (∀ b d e, l ≤ b → b ≤ u → 0x80 ≤ d → d ≤ 0xBF → 0x80 ≤ e → e ≤ 0xBF → Seq [c, b, d, e]) →
        StepSound (c :: r) (nextInRange [c] [(l, u), (0x80, 0xBF), (0x80, 0xBF)] r) := by
      intro l u hc h
      match r with
      | [] => exact trivial
      | [b] => simp only [nextInRange]; split <;> exact trivial
      | [b, d] => simp only [nextInRange]; split; split <;> exact trivial; exact trivial
      | b :: d :: e :: r =>
        simp only [nextInRange]
        split
        · rename_i hb
          split
          · rename_i hd
            split
            · rename_i he
              obtain ⟨x, h1, h2⟩ := seq_char (h b d e hb.1 hb.2 hd.1 hd.2 he.1 he.2) hc
              exact ⟨[c, b, d, e], x, rfl, h1, h2⟩
            · exact trivial
          · exact trivial
        · exact trivial
    unfold strStep
    dsimp only
    by_cases h1 : c = 34
    · rw [if_pos h1]; subst h1; exact rfl
    rw [if_neg h1]
    by_cases h2 : c = 92
    · rw [if_pos h2]; subst h2; exact escapeSequence_sound r
    rw [if_neg h2]
    by_cases h3 : c ≤ 0x1F
    · rw [if_pos h3]; exact trivial
    rw [if_neg h3]
    by_cases h4 : c ≤ 0x7F
    · rw [if_pos h4]
      refine ⟨[c], c, rfl, ?_, (utf8_ascii h4).symm⟩
      have := CharText.plain (c := c) (.inl (by omega)) (by omega) h1 h2
      rw [utf8_ascii h4] at this
      exact this
    rw [if_neg h4]
    by_cases h5 : 0xC2 ≤ c ∧ c ≤ 0xDF
    · rw [if_pos h5]; exact n1 _ _ (by omega) fun b hb hb' => .two h5.1 h5.2 hb hb'
    rw [if_neg h5]
    by_cases h6 : c = 0xE0
    · rw [if_pos h6]; subst h6; exact n2 _ _ (by omega) fun b d hb hb' hd hd' => .threeE0 hb hb' hd hd'
    rw [if_neg h6]
    by_cases h7 : (0xE1 ≤ c ∧ c ≤ 0xEC) ∨ c = 0xEE ∨ c = 0xEF
    · rw [if_pos h7]; exact n2 _ _ (by omega) fun b d hb hb' hd hd' => .three h7 hb hb' hd hd'
    rw [if_neg h7]
    by_cases h8 : c = 0xED
    · rw [if_pos h8]; subst h8; exact n2 _ _ (by omega) fun b d hb hb' hd hd' => .threeED hb hb' hd hd'
    rw [if_neg h8]
    by_cases h9 : c = 0xF0
    · rw [if_pos h9]; subst h9; exact n3 _ _ (by omega) fun b d e hb hb' hd hd' he he' => .fourF0 hb hb' hd hd' he he'
    rw [if_neg h9]
    by_cases h10 : 0xF1 ≤ c ∧ c ≤ 0xF3
    · rw [if_pos h10]; exact n3 _ _ (by omega) fun b d e hb hb' hd hd' he he' => .four h10.1 h10.2 hb hb' hd hd' he he'
    rw [if_neg h10]
    by_cases h11 : c = 0xF4
    · rw [if_pos h11]; subst h11; exact n3 _ _ (by omega) fun b d e hb hb' hd hd' he he' => .fourF4 hb hb' hd hd' he he'
    rw [if_neg h11]; exact trivial

/-- Each character is read. -/
theorem strStep_char {t : Bytes} {c : Nat} (h : CharText t c) (rest : Bytes) : strStep (t ++ rest) = .add (Spec.utf8 c) rest := by
  have hsc := h.scalar
  cases h with
  | plain hs h1 h2 h3 =>
    have hseq := utf8_seq hs
    have he : esc (Spec.utf8 c) = Spec.utf8 c := by
      by_cases h7 : c ≤ 0x7F
      · rw [utf8_ascii h7]
        unfold esc
        dsimp only
        iterate 8 rw [if_neg (by omega)]
      · have : 2 ≤ (Spec.utf8 c).length := by
          unfold Spec.utf8
          rw [if_neg h7]
          repeat' split
          all_goals simp
        match hu : Spec.utf8 c, this with
        | a :: b :: u, _ => rfl
    have := strStep_esc hseq rest
    rw [he] at this
    exact this
  | short h =>
    simp only [shortEscapes, List.mem_cons, Prod.mk.injEq, List.not_mem_nil, or_false] at h
    rcases h with ⟨rfl, rfl⟩ | ⟨rfl, rfl⟩ | ⟨rfl, rfl⟩ | ⟨rfl, rfl⟩ | ⟨rfl, rfl⟩ | ⟨rfl, rfl⟩ | ⟨rfl, rfl⟩ | ⟨rfl, rfl⟩ <;> rfl
  | @hex t _ hx hs =>
    show unicodeEscape (t ++ rest) = _
    unfold unicodeEscape
    rw [getCodepoint_iff.2 ⟨t, rfl, hx⟩]
    dsimp only
    unfold Scalar at hs
    rw [if_neg (by omega), if_neg (by omega), codepointBytes_utf8 hsc]
  | @pair t u hi lo h1 h2 h3 h4 h5 h6 =>
    rw [show [92, 117] ++ t ++ [92, 117] ++ u ++ rest = 92 :: 117 :: (t ++ (92 :: 117 :: (u ++ rest))) by simp]
    show unicodeEscape (t ++ (92 :: 117 :: (u ++ rest))) = _
    unfold unicodeEscape
    rw [getCodepoint_iff.2 ⟨t, rfl, h1⟩]
    dsimp only
    rw [if_pos ⟨h3, h4⟩]
    split
    · rename_i r heq
      simp only [List.cons.injEq, true_and] at heq
      subst heq
      rw [getCodepoint_iff.2 ⟨u, rfl, h2⟩]
      dsimp only
      have e : hi * 1024 + lo - 0x35FDC00 = 0x10000 + (hi - 0xD800) * 0x400 + (lo - 0xDC00) := by omega
      rw [if_pos ⟨h5, h6⟩, e, codepointBytes_utf8 hsc]
    · rename_i hne
      exact absurd rfl (hne _)

theorem Spec.CharText.pos {t : Bytes} {c : Nat} (h : CharText t c) : 1 ≤ t.length := by
  refine Nat.le_of_not_lt fun hl => ?_
  have e : t = [] := List.eq_nil_of_length_eq_zero (by omega)
  have := strStep_char h []
  rw [e] at this
  exact absurd this (by simp [strStep])

theorem scanString_text {t s : Bytes} (h : StringText t s) (rest : Bytes) : ∀ (fuel : Nat) (acc : Bytes), t.length + 1 ≤ fuel →
    scanString fuel acc (t ++ 34 :: rest) = .ok (.str (acc ++ s), rest) := by
  induction h with
  | nil =>
    intro fuel acc hf
    match fuel, hf with
    | fuel + 1, _ => simp [scanString, strStep]
  | @cons t u s c hc hl ih =>
    intro fuel acc hf
    have := hc.pos
    match fuel, hf with
    | fuel + 1, hf =>
      rw [List.append_assoc]
      unfold scanString
      rw [strStep_char hc]
      dsimp only
      rw [ih fuel _ (by simp at hf; omega), List.append_assoc]

theorem scanString_sound : ∀ (fuel : Nat) (acc t : Bytes) {s rest : Bytes}, scanString fuel acc t = .ok (.str s, rest) →
    ∃ u x, t = u ++ 34 :: rest ∧ StringText u x ∧ s = acc ++ x := by
  intro fuel
  induction fuel with
  | zero => intro acc t s rest h; cases h
  | succ fuel ih =>
    intro acc t s rest h
    have hg := strStep_sound t
    unfold scanString at h
    match hs : strStep t with
    | .done r =>
      rw [hs] at hg h
      cases h
      exact ⟨[], [], hg, .nil, by simp⟩
    | .add bs r =>
      rw [hs] at hg h
      obtain ⟨u, c, rfl, h2, rfl⟩ := hg
      obtain ⟨u', x, rfl, h3, rfl⟩ := ih _ _ h
      exact ⟨u ++ u', Spec.utf8 c ++ x, by simp, .cons h2 h3, by simp⟩
    | .error => rw [hs] at h; cases h

end Tsetlini
