import Verif.Lemmas.JsonStr
namespace Tsetlini
open Spec

/-! ### Writing -/

/-- A string of well-formed sequences and how it is written. -/
inductive Escd : Bytes → Bytes → Prop
  | nil : Escd [] []
  | cons {u l t : Bytes} : Seq u → Escd l t → Escd (u ++ l) (esc u ++ t)

theorem escape_seqs {s : Bytes} (hs : Seqs s) : ∀ {e : Escaper}, EscInv e →
    ∃ e' t, iter s escapeByte e = .ok e' ∧ EscInv e' ∧ Escd s t ∧ e'.total = e.total ++ t := by
  induction hs with
  | nil => intro e h; exact ⟨e, [], rfl, h, .nil, by simp⟩
  | cons hu hl ih =>
    intro e h
    obtain ⟨e1, h1, i1, t1⟩ := escape_seq hu h
    obtain ⟨e2, t, h2, i2, d, t2⟩ := ih i1
    refine ⟨e2, _, ?_, i2, .cons hu d, by rw [t2, t1, List.append_assoc]⟩
    rw [iter_append, h1]
    exact h2

theorem dumpEscaped_ok {s : Bytes} (hs : Utf8 s) : ∃ t, dumpEscaped s = .ok t ∧ Escd s t := by
  obtain ⟨e, t, h1, h2, h3, h4⟩ := escape_seqs (seqs_utf8.2 hs) (e := ⟨[], [], 0, 0⟩) ⟨rfl, by simp⟩
  refine ⟨t, ?_, h3⟩
  unfold dumpEscaped
  rw [h1, Res.ok_bind, if_pos h2.state]
  have : e.out ++ e.buf = t := by simpa [Escaper.total] using h4
  rw [this]

/-- A byte that ends a code point. -/
theorem escapeByte_end {e : Escaper} {b : Nat} (hst : e.state ≤ 8) (hb : b < 256) (htr : tr e.state b = 0) (hl : e.buf.length ≤ 502) :
    ∃ e', escapeByte b e = .ok e' ∧ EscInv e' := by
  unfold escapeByte
  rw [decode_tr hst hb, Res.ok_bind]
  simp only [htr, ↓reduceIte]
  generalize (if e.state ≠ 0 then b % 64 ||| e.codep * 64 % 4294967296 else 255 / 2 ^ (utf8d.getD b 0) &&& b) = c
  have key : ∀ bs : Bytes, ∀ x : Nat, bs.length + x ≤ 10 → ∃ e', ((putBytes bs x { e with state := 0, codep := c }).bind fun e =>
      if 512 - e.buf.length < 13 then .ok { e with out := e.out ++ e.buf, buf := [] } else .ok e) = .ok e' ∧ EscInv e' := by
    intro bs x hbs
    unfold putBytes
    rw [if_pos (by simp; omega), Res.ok_bind]
    obtain ⟨e', h1, h2, h3⟩ := flush_spec (e := { e with state := 0, codep := c, buf := e.buf ++ bs }) rfl (by simp; omega)
    exact ⟨e', h1, h2⟩
  unfold putCodepoint
  iterate 7
    split
    · exact key _ _ (by simp)
  split
  · exact key _ _ (by simp [hexEscape])
  · exact key _ _ (by simp)

theorem escapeByte_bad {e : Escaper} {b : Nat} (hst : e.state ≤ 8) (hb : b < 256) (htr : tr e.state b = 1) :
    escapeByte b e = .exn .jsonError := by
  unfold escapeByte
  rw [decode_tr hst hb, Res.ok_bind]
  simp [htr]

/-- What completes a code point begun, and goes on well. -/
def Continues : Nat → Bytes → Prop
  | 0, s => Seqs s
  | 2, s => ∃ b r, s = b :: r ∧ (0x80 ≤ b ∧ b ≤ 0xBF) ∧ Seqs r
  | 3, s => ∃ b c r, s = b :: c :: r ∧ (0x80 ≤ b ∧ b ≤ 0xBF) ∧ (0x80 ≤ c ∧ c ≤ 0xBF) ∧ Seqs r
  | 4, s => ∃ b c r, s = b :: c :: r ∧ (0xA0 ≤ b ∧ b ≤ 0xBF) ∧ (0x80 ≤ c ∧ c ≤ 0xBF) ∧ Seqs r
  | 5, s => ∃ b c r, s = b :: c :: r ∧ (0x80 ≤ b ∧ b ≤ 0x9F) ∧ (0x80 ≤ c ∧ c ≤ 0xBF) ∧ Seqs r
  | 6, s => ∃ b c d r, s = b :: c :: d :: r ∧ (0x90 ≤ b ∧ b ≤ 0xBF) ∧ (0x80 ≤ c ∧ c ≤ 0xBF) ∧ (0x80 ≤ d ∧ d ≤ 0xBF) ∧ Seqs r
  | 7, s => ∃ b c d r, s = b :: c :: d :: r ∧ (0x80 ≤ b ∧ b ≤ 0xBF) ∧ (0x80 ≤ c ∧ c ≤ 0xBF) ∧ (0x80 ≤ d ∧ d ≤ 0xBF) ∧ Seqs r
  | 8, s => ∃ b c d r, s = b :: c :: d :: r ∧ (0x80 ≤ b ∧ b ≤ 0x8F) ∧ (0x80 ≤ c ∧ c ≤ 0xBF) ∧ (0x80 ≤ d ∧ d ≤ 0xBF) ∧ Seqs r
  | _, _ => False

/-- Room in the buffer. -/
def bufRoom (st : Nat) : Nat := if st = 0 then 499 else if st = 2 then 502 else if st = 3 then 501 else 500

theorem Continues.step {st b : Nat} {r : Bytes} (hst : st ≤ 8) (hb : b < 256) (h1 : tr st b ≠ 1) (hst1 : st ≠ 1) (h : Continues (tr st b) r) : Continues st (b :: r) := by
  have g2 : ∀ {r}, Continues 2 r → ∃ b r', r = b :: r' ∧ (0x80 ≤ b ∧ b ≤ 0xBF) ∧ Seqs r' := id
  have g3 : ∀ {r}, Continues 3 r → ∃ b c r', r = b :: c :: r' ∧ (0x80 ≤ b ∧ b ≤ 0xBF) ∧ (0x80 ≤ c ∧ c ≤ 0xBF) ∧ Seqs r' := id
  have hcases : st = 0 ∨ st = 2 ∨ st = 3 ∨ st = 4 ∨ st = 5 ∨ st = 6 ∨ st = 7 ∨ st = 8 := by omega
  rcases hcases with rfl | rfl | rfl | rfl | rfl | rfl | rfl | rfl
  · show Seqs (b :: r)
    rw [tr0 hb] at h h1
    by_cases c0 : b ≤ 0x7F
    · rw [if_pos c0] at h; exact .cons (.one c0) h
    rw [if_neg c0] at h h1
    by_cases c1 : 0xC2 ≤ b ∧ b ≤ 0xDF
    · rw [if_pos c1] at h
      obtain ⟨x, r', rfl, hx, hr⟩ := g2 h
      exact .cons (.two c1.1 c1.2 hx.1 hx.2) hr
    rw [if_neg c1] at h h1
    by_cases c2 : b = 0xE0
    · rw [if_pos c2] at h
      obtain ⟨x, y, r', rfl, hx, hy, hr⟩ := h
      subst c2
      exact .cons (.threeE0 hx.1 hx.2 hy.1 hy.2) hr
    rw [if_neg c2] at h h1
    by_cases c3 : (0xE1 ≤ b ∧ b ≤ 0xEC) ∨ b = 0xEE ∨ b = 0xEF
    · rw [if_pos c3] at h
      obtain ⟨x, y, r', rfl, hx, hy, hr⟩ := h
      exact .cons (.three c3 hx.1 hx.2 hy.1 hy.2) hr
    rw [if_neg c3] at h h1
    by_cases c4 : b = 0xED
    · rw [if_pos c4] at h
      obtain ⟨x, y, r', rfl, hx, hy, hr⟩ := h
      subst c4
      exact .cons (.threeED hx.1 hx.2 hy.1 hy.2) hr
    rw [if_neg c4] at h h1
    by_cases c5 : b = 0xF0
    · rw [if_pos c5] at h
      obtain ⟨x, y, z, r', rfl, hx, hy, hz, hr⟩ := h
      subst c5
      exact .cons (.fourF0 hx.1 hx.2 hy.1 hy.2 hz.1 hz.2) hr
    rw [if_neg c5] at h h1
    by_cases c6 : 0xF1 ≤ b ∧ b ≤ 0xF3
    · rw [if_pos c6] at h
      obtain ⟨x, y, z, r', rfl, hx, hy, hz, hr⟩ := h
      exact .cons (.four c6.1 c6.2 hx.1 hx.2 hy.1 hy.2 hz.1 hz.2) hr
    rw [if_neg c6] at h h1
    by_cases c7 : b = 0xF4
    · rw [if_pos c7] at h
      obtain ⟨x, y, z, r', rfl, hx, hy, hz, hr⟩ := h
      subst c7
      exact .cons (.fourF4 hx.1 hx.2 hy.1 hy.2 hz.1 hz.2) hr
    rw [if_neg c7] at h h1
    exact absurd rfl h1
  · rw [tr2 hb] at h h1
    by_cases c : 0x80 ≤ b ∧ b ≤ 0xBF
    · rw [if_pos c] at h; exact ⟨b, r, rfl, c, h⟩
    · rw [if_neg c] at h1; exact absurd rfl h1
  · rw [tr3 hb] at h h1
    by_cases c : 0x80 ≤ b ∧ b ≤ 0xBF
    · rw [if_pos c] at h
      obtain ⟨x, r', rfl, hx, hr⟩ := g2 h
      exact ⟨b, x, r', rfl, c, hx, hr⟩
    · rw [if_neg c] at h1; exact absurd rfl h1
  · rw [tr4 hb] at h h1
    by_cases c : 0xA0 ≤ b ∧ b ≤ 0xBF
    · rw [if_pos c] at h
      obtain ⟨x, r', rfl, hx, hr⟩ := g2 h
      exact ⟨b, x, r', rfl, c, hx, hr⟩
    · rw [if_neg c] at h1; exact absurd rfl h1
  · rw [tr5 hb] at h h1
    by_cases c : 0x80 ≤ b ∧ b ≤ 0x9F
    · rw [if_pos c] at h
      obtain ⟨x, r', rfl, hx, hr⟩ := g2 h
      exact ⟨b, x, r', rfl, c, hx, hr⟩
    · rw [if_neg c] at h1; exact absurd rfl h1
  · rw [tr6 hb] at h h1
    by_cases c : 0x90 ≤ b ∧ b ≤ 0xBF
    · rw [if_pos c] at h
      obtain ⟨x, y, r', rfl, hx, hy, hr⟩ := g3 h
      exact ⟨b, x, y, r', rfl, c, hx, hy, hr⟩
    · rw [if_neg c] at h1; exact absurd rfl h1
  · rw [tr7 hb] at h h1
    by_cases c : 0x80 ≤ b ∧ b ≤ 0xBF
    · rw [if_pos c] at h
      obtain ⟨x, y, r', rfl, hx, hy, hr⟩ := g3 h
      exact ⟨b, x, y, r', rfl, c, hx, hy, hr⟩
    · rw [if_neg c] at h1; exact absurd rfl h1
  · rw [tr8 hb] at h h1
    by_cases c : 0x80 ≤ b ∧ b ≤ 0x8F
    · rw [if_pos c] at h
      obtain ⟨x, y, r', rfl, hx, hy, hr⟩ := g3 h
      exact ⟨b, x, y, r', rfl, c, hx, hy, hr⟩
    · rw [if_neg c] at h1; exact absurd rfl h1

theorem tr_room {st b : Nat} (hst : st ≤ 8) (hst1 : st ≠ 1) (hb : b < 256) :
    tr st b ≤ 8 ∧ (tr st b ≠ 0 → tr st b ≠ 1 → bufRoom st + 1 ≤ bufRoom (tr st b)) := by
  have : ∀ (s : Fin 9) (b : Fin 256), s.1 ≠ 1 → tr s.1 b.1 ≤ 8 ∧ (tr s.1 b.1 ≠ 0 → tr s.1 b.1 ≠ 1 → bufRoom s.1 + 1 ≤ bufRoom (tr s.1 b.1)) := by
    decide +kernel
  exact this ⟨st, by omega⟩ ⟨b, hb⟩ hst1

/-- Every run over bytes: completes well-formed sequences, throws, or ends inside one. -/
theorem escape_runs : ∀ {s : Bytes}, AreBytes s → ∀ {e : Escaper}, e.state ≤ 8 → e.state ≠ 1 → e.buf.length ≤ bufRoom e.state →
    iter s escapeByte e = .exn .jsonError ∨ ∃ e', iter s escapeByte e = .ok e' ∧ (e'.state = 0 → Continues e.state s) := by
  intro s
  induction s with
  | nil =>
    intro _ e h1 h2 h3
    refine .inr ⟨e, rfl, fun h => ?_⟩
    rw [h]; exact .nil
  | cons b s ih =>
    intro hb e h1 h2 h3
    have hb0 : b < 256 := hb b List.mem_cons_self
    have hbs : AreBytes s := fun x hx => hb x (List.mem_cons_of_mem _ hx)
    obtain ⟨r1, r2⟩ := tr_room h1 h2 hb0
    rw [iter_cons]
    by_cases c1 : tr e.state b = 1
    · rw [escapeByte_bad h1 hb0 c1]; exact .inl rfl
    have hroom : bufRoom e.state ≤ 502 := by unfold bufRoom; repeat (first | split | omega)
    by_cases c0 : tr e.state b = 0
    · obtain ⟨e', he, i⟩ := escapeByte_end h1 hb0 c0 (by omega)
      rw [he, Res.ok_bind]
      rcases ih hbs (e := e') (by rw [i.state]; omega) (by rw [i.state]; omega) (by rw [i.state]; exact i.buf) with h | ⟨e2, h, hg⟩
      · exact .inl h
      · refine .inr ⟨e2, h, fun hz => ?_⟩
        have := hg hz
        rw [i.state] at this
        exact Continues.step h1 hb0 c1 h2 (by rw [c0]; exact this)
    · obtain ⟨c, he, -⟩ := escapeByte_mid h1 hb0 rfl c0 c1 (by omega)
      rw [he, Res.ok_bind]
      have hlen := r2 c0 c1
      rcases ih hbs (e := { e with state := tr e.state b, codep := c, buf := e.buf ++ [b] }) r1 c1 (by simp; omega) with h | ⟨e2, h, hg⟩
      · exact .inl h
      · exact .inr ⟨e2, h, fun hz => Continues.step h1 hb0 c1 h2 (hg hz)⟩

theorem dumpEscaped_bad {s : Bytes} (hb : AreBytes s) (hs : ¬ Utf8 s) : dumpEscaped s = .exn .jsonError := by
  unfold dumpEscaped
  rcases escape_runs hb (e := ⟨[], [], 0, 0⟩) (by simp) (by simp) (by simp) with h | ⟨e, h, hg⟩
  · rw [h]; rfl
  · rw [h, Res.ok_bind, if_neg]
    intro hz
    exact hs (seqs_utf8.1 (hg hz))

/-! ### Reading what was written -/

theorem hexValue_digit {n : Nat} (h : n < 16) : hexValue (hexDigit n) = some n := by
  have : ∀ n : Fin 16, hexValue (hexDigit n.1) = some n.1 := by decide +kernel
  exact this ⟨n, h⟩

theorem strStep_esc {u : Bytes} (hu : Seq u) (rest : Bytes) : strStep (esc u ++ rest) = .add u rest := by
  cases hu with
  | @one c hc =>
    unfold esc
    dsimp only
    by_cases c1 : c = 0x08
    · subst c1; rfl
    by_cases c2 : c = 0x09
    · subst c2; rfl
    by_cases c3 : c = 0x0A
    · subst c3; rfl
    by_cases c4 : c = 0x0C
    · subst c4; rfl
    by_cases c5 : c = 0x0D
    · subst c5; rfl
    by_cases c6 : c = 0x22
    · subst c6; rfl
    by_cases c7 : c = 0x5C
    · subst c7; rfl
    rw [if_neg c1, if_neg c2, if_neg c3, if_neg c4, if_neg c5, if_neg c6, if_neg c7]
    by_cases c8 : c ≤ 0x1F
    · rw [if_pos c8]
      have hg : getCodepoint (hexDigit (c / 4096 % 16) :: hexDigit (c / 256 % 16) :: hexDigit (c / 16 % 16) :: hexDigit (c % 16) :: rest) = some (c, rest) := by
        unfold getCodepoint
        dsimp only
        rw [hexValue_digit (by omega), hexValue_digit (by omega), hexValue_digit (by omega), hexValue_digit (by omega)]
        show some _ = some _
        congr 2
        omega
      show unicodeEscape (hexDigit (c / 4096 % 16) :: hexDigit (c / 256 % 16) :: hexDigit (c / 16 % 16) :: hexDigit (c % 16) :: rest) = _
      unfold unicodeEscape
      rw [hg]
      dsimp only
      rw [if_neg (by omega), if_neg (by omega)]
      unfold codepointBytes
      rw [if_pos (by omega)]
    · rw [if_neg c8]
      show strStep (c :: rest) = _
      unfold strStep
      dsimp only
      rw [if_neg c6, if_neg c7, if_neg c8, if_pos hc]
  | @two a b h1 h2 h3 h4 =>
    show strStep (a :: b :: rest) = _
    unfold strStep
    dsimp -failIfUnchanged only
    iterate 4 rw [if_neg (by omega)]
    rw [if_pos (by omega)]
    simp only [nextInRange]
    rw [if_pos (by omega)]
    rfl
  | @threeE0 b c h1 h2 h3 h4 =>
    generalize hA : (0xE0 : Nat) = A
    show strStep (A :: b :: c :: rest) = _
    unfold strStep
    dsimp -failIfUnchanged only
    iterate 5 rw [if_neg (by omega)]
    rw [if_pos (by omega)]
    simp only [nextInRange]
    rw [if_pos (by omega), if_pos (by omega)]
    rfl
  | @three a b c h0 h1 h2 h3 h4 =>
    show strStep (a :: b :: c :: rest) = _
    unfold strStep
    dsimp -failIfUnchanged only
    iterate 6 rw [if_neg (by omega)]
    rw [if_pos (by omega)]
    simp only [nextInRange]
    rw [if_pos (by omega), if_pos (by omega)]
    rfl
  | @threeED b c h1 h2 h3 h4 =>
    generalize hA : (0xED : Nat) = A
    show strStep (A :: b :: c :: rest) = _
    unfold strStep
    dsimp -failIfUnchanged only
    iterate 7 rw [if_neg (by omega)]
    rw [if_pos (by omega)]
    simp only [nextInRange]
    rw [if_pos (by omega), if_pos (by omega)]
    rfl
  | @fourF0 b c d h1 h2 h3 h4 h5 h6 =>
    generalize hA : (0xF0 : Nat) = A
    show strStep (A :: b :: c :: d :: rest) = _
    unfold strStep
    dsimp -failIfUnchanged only
    iterate 8 rw [if_neg (by omega)]
    rw [if_pos (by omega)]
    simp only [nextInRange]
    rw [if_pos (by omega), if_pos (by omega), if_pos (by omega)]
    rfl
  | @four a b c d h0 h0' h1 h2 h3 h4 h5 h6 =>
    show strStep (a :: b :: c :: d :: rest) = _
    unfold strStep
    dsimp -failIfUnchanged only
    iterate 9 rw [if_neg (by omega)]
    rw [if_pos (by omega)]
    simp only [nextInRange]
    rw [if_pos (by omega), if_pos (by omega), if_pos (by omega)]
    rfl
  | @fourF4 b c d h1 h2 h3 h4 h5 h6 =>
    generalize hA : (0xF4 : Nat) = A
    show strStep (A :: b :: c :: d :: rest) = _
    unfold strStep
    dsimp -failIfUnchanged only
    iterate 10 rw [if_neg (by omega)]
    rw [if_pos (by omega)]
    simp only [nextInRange]
    rw [if_pos (by omega), if_pos (by omega), if_pos (by omega)]
    rfl

theorem esc_length {u : Bytes} (hu : Seq u) : 1 ≤ (esc u).length := by
  cases hu with
  | @one c hc => unfold esc; dsimp only; repeat (first | split | simp [hexEscape])
  | _ => simp [esc]

theorem scanString_escd {s t : Bytes} (h : Escd s t) (rest : Bytes) : ∀ (fuel : Nat) (acc : Bytes), t.length + 1 ≤ fuel →
    scanString fuel acc (t ++ 34 :: rest) = .ok (.str (acc ++ s), rest) := by
  induction h with
  | nil =>
    intro fuel acc hf
    match fuel, hf with
    | fuel + 1, _ => simp [scanString, strStep]
  | @cons u l t hu hl ih =>
    intro fuel acc hf
    have := esc_length hu
    match fuel, hf with
    | fuel + 1, hf =>
      rw [List.append_assoc]
      unfold scanString
      rw [strStep_esc hu]
      dsimp only
      rw [ih fuel _ (by simp at hf; omega), List.append_assoc]

/-! ### Reading any text -/

theorem or_eq {k x y : Nat} (hx : x < 2 ^ k) : y * 2 ^ k ||| x = y * 2 ^ k + x := by
  have h := Nat.shiftLeft_add_eq_or_of_lt (i := k) (b := x) hx y
  rw [Nat.shiftLeft_eq] at h
  exact h.symm

theorem codepointBytes_utf8 {c : Nat} (h : Scalar c) : codepointBytes c = Spec.utf8 c := by
  have c0 : ∀ x < 32, (0xC0 ||| x) = 0xC0 + x := by decide
  have c1 : ∀ x < 64, (0x80 ||| x) = 0x80 + x := by decide
  have c2 : ∀ x < 16, (0xE0 ||| x) = 0xE0 + x := by decide
  have c3 : ∀ x < 8, (0xF0 ||| x) = 0xF0 + x := by decide
  unfold codepointBytes Spec.utf8
  unfold Scalar at h
  by_cases h1 : c ≤ 0x7F
  · rw [if_pos (by omega), if_pos h1]
  rw [if_neg (by omega), if_neg h1]
  by_cases h2 : c ≤ 0x7FF
  · rw [if_pos h2, if_pos h2, c0 _ (by omega), c1 _ (by omega)]
  rw [if_neg h2, if_neg h2]
  by_cases h3 : c ≤ 0xFFFF
  · rw [if_pos h3, if_pos h3, c2 _ (by omega), c1 _ (by omega), c1 _ (by omega)]
  rw [if_neg h3, if_neg h3, c3 _ (by omega), c1 _ (by omega), c1 _ (by omega), c1 _ (by omega)]

/-- What a turn may do. -/
def GoodStep (n : Nat) : StrStep → Prop
  | .done rest => rest.length < n
  | .add bs rest => Utf8 bs ∧ rest.length < n
  | .error => True

theorem GoodStep.mono {n m : Nat} {s : StrStep} (h : GoodStep n s) (hm : n ≤ m) : GoodStep m s := by
  cases s with
  | done rest => exact Nat.lt_of_lt_of_le h hm
  | add bs rest => exact ⟨h.1, Nat.lt_of_lt_of_le h.2 hm⟩
  | error => trivial

theorem hexValue_lt {c n : Nat} (h : hexValue c = some n) : n < 16 := by
  unfold hexValue at h
  repeat' split at h
  all_goals first | (cases h; done) | (have := Option.some.inj h; omega)

theorem getCodepoint_spec {t rest : Bytes} {c : Nat} (h : getCodepoint t = some (c, rest)) : c < 65536 ∧ rest.length < t.length := by
  match t, h with
  | a :: b :: c :: d :: r, h =>
    simp only [getCodepoint, bind, pure, Option.bind_eq_some_iff, Option.some.injEq, Prod.mk.injEq] at h
    obtain ⟨x, hx, y, hy, z, hz, w, hw, rfl, rfl⟩ := h
    have := hexValue_lt hx; have := hexValue_lt hy; have := hexValue_lt hz; have := hexValue_lt hw
    refine ⟨by omega, by simp; omega⟩

theorem utf8_codepoint {c : Nat} (h : Scalar c) : Utf8 (codepointBytes c) := by
  rw [codepointBytes_utf8 h]
  exact ⟨[c], by simpa using h, by simp⟩

theorem unicodeEscape_good (t : Bytes) : GoodStep t.length (unicodeEscape t) := by
  unfold unicodeEscape
  match hg : getCodepoint t with
  | none => exact trivial
  | some (c1, r) =>
    obtain ⟨hc1, hr⟩ := getCodepoint_spec hg
    dsimp only
    by_cases h1 : 0xD800 ≤ c1 ∧ c1 ≤ 0xDBFF
    · rw [if_pos h1]
      split
      · rename_i r2
        match hg2 : getCodepoint r2 with
        | none => exact trivial
        | some (c2, r3) =>
          obtain ⟨hc2, hr3⟩ := getCodepoint_spec hg2
          dsimp only
          by_cases h2 : 0xDC00 ≤ c2 ∧ c2 ≤ 0xDFFF
          · rw [if_pos h2]
            refine ⟨utf8_codepoint (by unfold Scalar; omega), ?_⟩
            simp at hr
            omega
          · rw [if_neg h2]; exact trivial
      · exact trivial
    · rw [if_neg h1]
      by_cases h2 : 0xDC00 ≤ c1 ∧ c1 ≤ 0xDFFF
      · rw [if_pos h2]; exact trivial
      · rw [if_neg h2]
        exact ⟨utf8_codepoint (by unfold Scalar; omega), hr⟩

theorem utf8_one {a : Nat} (h : a ≤ 0x7F) : Utf8 [a] := (Seq.one h).utf8

theorem escapeSequence_good (t : Bytes) : GoodStep t.length (escapeSequence t) := by
  match t with
  | [] => exact trivial
  | c :: r =>
    unfold escapeSequence
    dsimp only
    iterate 8
      refine if h : _ then (if_pos h).symm ▸ ⟨utf8_one (by omega), by simp⟩ else (if_neg h).symm ▸ ?_
    refine if h : _ then (if_pos h).symm ▸ (unicodeEscape_good r).mono (by simp) else (if_neg h).symm ▸ trivial

theorem strStep_good (t : Bytes) : GoodStep t.length (strStep t) := by
  match t with
  | [] => exact trivial
  | c :: r =>
    have n1 : ∀ (acc : Bytes) (l u : Nat), (∀ b, l ≤ b → b ≤ u → Utf8 (acc ++ [b])) → GoodStep (c :: r).length (nextInRange acc [(l, u)] r) := by
      intro acc l u h
      match r with
      | [] => exact trivial
      | b :: r =>
        simp only [nextInRange]
        split
        · rename_i hb; exact ⟨h b hb.1 hb.2, by simp; omega⟩
        · exact trivial
    have n2 : ∀ (acc : Bytes) (l u : Nat), (∀ b d, l ≤ b → b ≤ u → 0x80 ≤ d → d ≤ 0xBF → Utf8 (acc ++ [b, d])) →
        GoodStep (c :: r).length (nextInRange acc [(l, u), (0x80, 0xBF)] r) := by
      intro acc l u h
      match r with
      | [] => exact trivial
      | [b] => simp only [nextInRange]; split <;> exact trivial
      | b :: d :: r =>
        simp only [nextInRange]
        split
        · rename_i hb
          split
          · rename_i hd
            refine ⟨?_, by simp; omega⟩
            have := h b d hb.1 hb.2 hd.1 hd.2
            rwa [List.append_assoc]
          · exact trivial
        · exact trivial
    have n3 : ∀ (acc : Bytes) (l u : Nat), (∀ b d e, l ≤ b → b ≤ u → 0x80 ≤ d → d ≤ 0xBF → 0x80 ≤ e → e ≤ 0xBF → Utf8 (acc ++ [b, d, e])) →
        GoodStep (c :: r).length (nextInRange acc [(l, u), (0x80, 0xBF), (0x80, 0xBF)] r) := by
      intro acc l u h
      match r with
      | [] => exact trivial
      | [b] => simp only [nextInRange]; split <;> exact trivial
      | [b, d] => simp only [nextInRange]; repeat (first | exact trivial | split)
      | b :: d :: e :: r =>
        simp only [nextInRange]
        split
        · rename_i hb
          split
          · rename_i hd
            split
            · rename_i he
              refine ⟨?_, by simp; omega⟩
              have := h b d e hb.1 hb.2 hd.1 hd.2 he.1 he.2
              rwa [List.append_assoc, List.append_assoc]
            · exact trivial
          · exact trivial
        · exact trivial
    unfold strStep
    dsimp -failIfUnchanged only
    by_cases h1 : c = 34
    · rw [if_pos h1]; show r.length < _; simp
    rw [if_neg h1]
    by_cases h2 : c = 92
    · rw [if_pos h2]; exact (escapeSequence_good r).mono (by simp)
    rw [if_neg h2]
    by_cases h3 : c ≤ 0x1F
    · rw [if_pos h3]; exact trivial
    rw [if_neg h3]
    by_cases h4 : c ≤ 0x7F
    · rw [if_pos h4]; exact ⟨utf8_one h4, by simp⟩
    rw [if_neg h4]
    by_cases h5 : 0xC2 ≤ c ∧ c ≤ 0xDF
    · rw [if_pos h5]; exact n1 _ _ _ fun b hb hb' => (Seq.two h5.1 h5.2 hb hb').utf8
    rw [if_neg h5]
    by_cases h6 : c = 0xE0
    · rw [if_pos h6]; subst h6; exact n2 _ _ _ fun b d hb hb' hd hd' => (Seq.threeE0 hb hb' hd hd').utf8
    rw [if_neg h6]
    by_cases h7 : (0xE1 ≤ c ∧ c ≤ 0xEC) ∨ c = 0xEE ∨ c = 0xEF
    · rw [if_pos h7]; exact n2 _ _ _ fun b d hb hb' hd hd' => (Seq.three h7 hb hb' hd hd').utf8
    rw [if_neg h7]
    by_cases h8 : c = 0xED
    · rw [if_pos h8]; subst h8; exact n2 _ _ _ fun b d hb hb' hd hd' => (Seq.threeED hb hb' hd hd').utf8
    rw [if_neg h8]
    by_cases h9 : c = 0xF0
    · rw [if_pos h9]; subst h9; exact n3 _ _ _ fun b d e hb hb' hd hd' he he' => (Seq.fourF0 hb hb' hd hd' he he').utf8
    rw [if_neg h9]
    by_cases h10 : 0xF1 ≤ c ∧ c ≤ 0xF3
    · rw [if_pos h10]; exact n3 _ _ _ fun b d e hb hb' hd hd' he he' => (Seq.four h10.1 h10.2 hb hb' hd hd' he he').utf8
    rw [if_neg h10]
    by_cases h11 : c = 0xF4
    · rw [if_pos h11]; subst h11; exact n3 _ _ _ fun b d e hb hb' hd hd' he he' => (Seq.fourF4 hb hb' hd hd' he he').utf8
    rw [if_neg h11]; exact trivial

/-- Reading a string ends, with UTF-8 or an error. -/
theorem scanString_spec : ∀ (fuel : Nat) (acc t : Bytes), t.length + 1 ≤ fuel → Utf8 acc →
    (∃ s rest, scanString fuel acc t = .ok (.str s, rest) ∧ Utf8 s ∧ rest.length < t.length) ∨
    ∃ rest, scanString fuel acc t = .ok (.parseError, rest) ∧ rest.length ≤ t.length := by
  intro fuel
  induction fuel with
  | zero => intro acc t h; omega
  | succ fuel ih =>
    intro acc t hf ha
    have hg := strStep_good t
    unfold scanString
    match hs : strStep t with
    | .done rest =>
      rw [hs] at hg
      exact .inl ⟨acc, rest, rfl, ha, hg⟩
    | .add bs rest =>
      rw [hs] at hg
      obtain ⟨g1, g2⟩ := hg
      dsimp only
      rcases ih (acc ++ bs) rest (by omega) (Utf8.append ha g1) with ⟨s, r, h1, h2, h3⟩ | ⟨r, h1, h2⟩
      · exact .inl ⟨s, r, h1, h2, by omega⟩
      · exact .inr ⟨r, h1, by omega⟩
    | .error => exact .inr ⟨t, rfl, Nat.le_refl _⟩

end Tsetlini
