import Verif.Lemmas.Utf8
import Verif.Lemmas.JsonInt
namespace Tsetlini
open Spec

/-- How a sequence is written. -/
def esc : Bytes → Bytes
  | [c] =>
    if c = 0x08 then [92, 98]
    else if c = 0x09 then [92, 116]
    else if c = 0x0A then [92, 110]
    else if c = 0x0C then [92, 102]
    else if c = 0x0D then [92, 114]
    else if c = 0x22 then [92, 34]
    else if c = 0x5C then [92, 92]
    else if c ≤ 0x1F then hexEscape c
    else [c]
  | u => u

/-- Between two code points. -/
structure EscInv (e : Escaper) : Prop where
  state : e.state = 0
  buf : e.buf.length ≤ 499

/-- What was written so far. -/
def Escaper.total (e : Escaper) : Bytes := e.out ++ e.buf

/-- The end of a code point. -/
theorem putCodepoint_multi {codep byte : Nat} {e : Escaper} (hc : 0x80 ≤ codep) : putCodepoint codep byte e = putBytes [byte] 0 e := by
  unfold putCodepoint
  iterate 8 rw [if_neg (by omega)]

theorem flush_spec {e : Escaper} (hs : e.state = 0) (hb : e.buf.length ≤ 512) :
    ∃ e', (if 512 - e.buf.length < 13 then Res.ok { e with out := e.out ++ e.buf, buf := [] } else .ok e) = .ok e' ∧ EscInv e' ∧
      e'.total = e.total := by
  split
  · exact ⟨_, rfl, ⟨hs, by simp⟩, by simp [Escaper.total]⟩
  · exact ⟨_, rfl, ⟨hs, by omega⟩, rfl⟩

/-- A byte inside a code point. -/
theorem escapeByte_mid {e : Escaper} {b s : Nat} (hst : e.state ≤ 8) (hb : b < 256) (htr : tr e.state b = s) (h0 : s ≠ 0) (h1 : s ≠ 1)
    (hl : e.buf.length ≤ 511) :
    ∃ c, escapeByte b e = .ok { e with state := s, codep := c, buf := e.buf ++ [b] } ∧
      c = (if e.state ≠ 0 then b % 64 ||| e.codep * 64 % 4294967296 else 255 / 2 ^ (utf8d.getD b 0) &&& b) := by
  refine ⟨_, ?_, rfl⟩
  unfold escapeByte
  rw [decode_tr hst hb, Res.ok_bind]
  simp only [htr]
  rw [if_neg h0, if_neg h1]
  unfold putBytes
  rw [if_pos (by simp; omega)]

/-- The last byte of a code point of several bytes. -/
theorem escapeByte_last {e : Escaper} {b : Nat} (hst : e.state ≤ 8) (hst0 : e.state ≠ 0) (hb : b < 256) (htr : tr e.state b = 0)
    (hc : 0x80 ≤ (b % 64 ||| e.codep * 64 % 4294967296)) (hl : e.buf.length ≤ 511) :
    ∃ e', escapeByte b e = .ok e' ∧ EscInv e' ∧ e'.total = e.total ++ [b] := by
  unfold escapeByte
  rw [decode_tr hst hb, Res.ok_bind]
  simp only [htr, ↓reduceIte]
  rw [if_pos hst0, putCodepoint_multi hc]
  unfold putBytes
  rw [if_pos (by simp; omega), Res.ok_bind]
  obtain ⟨e', h1, h2, h3⟩ := flush_spec (e := { e with state := 0, codep := b % 64 ||| e.codep * 64 % 4294967296, buf := e.buf ++ [b] }) rfl (by simp; omega)
  refine ⟨e', h1, h2, ?_⟩
  rw [h3]
  simp [Escaper.total]

theorem or_ge {x y : Nat} (h : 0x80 ≤ y * 64) (hy : y < 67108864) : 0x80 ≤ (x ||| y * 64 % 4294967296) := by
  rw [Nat.mod_eq_of_lt (by omega)]
  exact Nat.le_trans h (Nat.right_le_or)

theorem or_bounds {x y : Nat} (hx : x < 64) (hy : y < 16777216) : x ≤ (x ||| y * 64 % 4294967296) ∧ y * 64 ≤ (x ||| y * 64 % 4294967296) ∧
    (x ||| y * 64 % 4294967296) < y * 64 + 64 := by
  rw [Nat.mod_eq_of_lt (by omega)]
  refine ⟨Nat.left_le_or, Nat.right_le_or, ?_⟩
  have : x ||| y * 64 = y * 64 + x := by
    have h := Nat.shiftLeft_add_eq_or_of_lt (i := 6) (b := x) (by omega) y
    rw [Nat.shiftLeft_eq] at h
    rw [Nat.or_comm]
    exact h.symm
  omega

/-- A byte below 0x80. -/
theorem escapeByte_one {e : Escaper} {a : Nat} (ha : a ≤ 0x7F) (h : EscInv e) :
    ∃ e', escapeByte a e = .ok e' ∧ EscInv e' ∧ e'.total = e.total ++ esc [a] := by
  have hl := h.buf
  have h0 : (255 / 2 ^ (utf8d.getD a 0) &&& a) = a := by
    have : ∀ b : Fin 256, b.1 ≤ 0x7F → (255 / 2 ^ (utf8d.getD b.1 0) &&& b.1) = b.1 := by decide +kernel
    exact this ⟨a, by omega⟩ ha
  have htr : tr 0 a = 0 := by rw [tr0 (by omega), if_pos ha]
  unfold escapeByte
  rw [h.state, decode_tr (by omega) (by omega), Res.ok_bind]
  simp only [htr, ↓reduceIte, ne_eq, not_true_eq_false, h0]
  have key : ∀ bs : Bytes, ∀ x : Nat, bs.length + x ≤ 13 → ∃ e', ((putBytes bs x { e with state := 0, codep := a }).bind fun e =>
      if 512 - e.buf.length < 13 then .ok { e with out := e.out ++ e.buf, buf := [] } else .ok e) = .ok e' ∧ EscInv e' ∧
      e'.total = e.total ++ bs := by
    intro bs x hbs
    unfold putBytes
    rw [if_pos (by simp; omega), Res.ok_bind]
    obtain ⟨e', h1, h2, h3⟩ := flush_spec (e := { e with state := 0, codep := a, buf := e.buf ++ bs }) rfl (by simp; omega)
    exact ⟨e', h1, h2, by rw [h3]; simp [Escaper.total]⟩
  unfold putCodepoint
  simp only [esc]
  split
  · exact key _ _ (by simp)
  split
  · exact key _ _ (by simp)
  split
  · exact key _ _ (by simp)
  split
  · exact key _ _ (by simp)
  split
  · exact key _ _ (by simp)
  split
  · exact key _ _ (by simp)
  split
  · exact key _ _ (by simp)
  split
  · exact key _ _ (by simp [hexEscape])
  · exact key _ _ (by simp)

/-- What the first byte leaves as the code point. -/
theorem first_codep : (∀ b : Fin 256, 0xC2 ≤ b.1 → b.1 ≤ 0xDF → 2 ≤ (255 / 2 ^ (utf8d.getD b.1 0) &&& b.1) ∧ (255 / 2 ^ (utf8d.getD b.1 0) &&& b.1) < 64) ∧
    (∀ b : Fin 256, (0xE1 ≤ b.1 ∧ b.1 ≤ 0xEC) ∨ b.1 = 0xEE ∨ b.1 = 0xEF → 1 ≤ (255 / 2 ^ (utf8d.getD b.1 0) &&& b.1) ∧ (255 / 2 ^ (utf8d.getD b.1 0) &&& b.1) < 64) ∧
    (∀ b : Fin 256, 0xF1 ≤ b.1 → b.1 ≤ 0xF3 → 1 ≤ (255 / 2 ^ (utf8d.getD b.1 0) &&& b.1) ∧ (255 / 2 ^ (utf8d.getD b.1 0) &&& b.1) < 64) ∧
    (255 / 2 ^ (utf8d.getD 0xE0 0) &&& 0xE0) = 0 ∧ (255 / 2 ^ (utf8d.getD 0xED 0) &&& 0xED) = 13 ∧
    (255 / 2 ^ (utf8d.getD 0xF0 0) &&& 0xF0) = 0 ∧ (255 / 2 ^ (utf8d.getD 0xF4 0) &&& 0xF4) = 4 := by
  decide +kernel

theorem iter_two {e : Escaper} {a b : Nat} {f : Nat → Escaper → Res Escaper} : iter [a, b] f e = (f a e).bind fun e => f b e := by
  simp only [iter]
  congr 1
  funext e
  cases f b e <;> rfl

/-- Escaping the bytes of one scalar value. -/
theorem escape_seq {u : Bytes} (hu : Seq u) {e : Escaper} (h : EscInv e) :
    ∃ e', iter u escapeByte e = .ok e' ∧ EscInv e' ∧ e'.total = e.total ++ esc u := by
  obtain ⟨f2, f3, f4, fE0, fED, fF0, fF4⟩ := first_codep
  have hl := h.buf
  -- two bytes
  have two : ∀ (a b : Nat), a < 256 → tr 0 a = 2 → 0x80 ≤ b → b ≤ 0xBF → 2 ≤ (255 / 2 ^ (utf8d.getD a 0) &&& a) →
      (255 / 2 ^ (utf8d.getD a 0) &&& a) < 64 → ∃ e', iter [a, b] escapeByte e = .ok e' ∧ EscInv e' ∧ e'.total = e.total ++ [a, b] := by
    intro a b ha hta hb1 hb2 hc1 hc2
    obtain ⟨c1, h1, hc⟩ := escapeByte_mid (e := e) (b := a) (s := 2) (by rw [h.state]; omega) ha (by rw [h.state, hta]) (by decide) (by decide) (by omega)
    rw [h.state] at hc
    simp only [ne_eq, not_true_eq_false, ↓reduceIte] at hc
    obtain ⟨e2, h2, i2, t2⟩ := escapeByte_last (e := { e with state := 2, codep := c1, buf := e.buf ++ [a] }) (b := b) (by show 2 ≤ 8; omega)
      (by show 2 ≠ 0; omega) (by omega) (by show tr 2 b = 0; rw [tr2 (by omega), if_pos ⟨hb1, hb2⟩]) (or_ge (by simp only; omega) (by simp only; omega))
      (by simp; omega)
    refine ⟨e2, by rw [iter_cons, h1, Res.ok_bind, iter_cons, h2]; rfl, i2, ?_⟩
    rw [t2]
    simp [Escaper.total]
  -- three bytes, from the state after the first
  have three : ∀ (a b c s : Nat), a < 256 → tr 0 a = s → 2 ≤ s → s ≤ 8 → b < 256 → tr s b = 2 → 0x80 ≤ c → c ≤ 0xBF →
      (255 / 2 ^ (utf8d.getD a 0) &&& a) < 64 → (1 ≤ (255 / 2 ^ (utf8d.getD a 0) &&& a) ∨ 2 ≤ b % 64) →
      ∃ e', iter [a, b, c] escapeByte e = .ok e' ∧ EscInv e' ∧ e'.total = e.total ++ [a, b, c] := by
    intro a b c s ha hta hs2 hs8 hb htb hcl hcu hc1 hc2
    obtain ⟨c1, h1, hc⟩ := escapeByte_mid (e := e) (b := a) (s := s) (by rw [h.state]; omega) ha (by rw [h.state, hta]) (by omega) (by omega) (by omega)
    rw [h.state] at hc
    simp only [ne_eq, not_true_eq_false, ↓reduceIte] at hc
    obtain ⟨c2, h2, hcc⟩ := escapeByte_mid (e := { e with state := s, codep := c1, buf := e.buf ++ [a] }) (b := b) (s := 2) hs8 hb htb (by decide) (by decide)
      (by simp; omega)
    simp only at hcc
    rw [if_pos (by omega)] at hcc
    obtain ⟨o1, o2, o3⟩ := or_bounds (x := b % 64) (y := c1) (by omega) (by omega)
    rw [← hcc] at o1 o2 o3
    obtain ⟨e3, h3, i3, t3⟩ := escapeByte_last (e := { e with state := 2, codep := c2, buf := e.buf ++ [a] ++ [b] }) (b := c) (by show 2 ≤ 8; omega)
      (by show 2 ≠ 0; omega) (by omega) (by show tr 2 c = 0; rw [tr2 (by omega), if_pos ⟨hcl, hcu⟩]) (or_ge (by simp only; omega) (by simp only; omega))
      (by simp; omega)
    refine ⟨e3, by rw [iter_cons, h1, Res.ok_bind, iter_cons, h2, Res.ok_bind, iter_cons, h3]; rfl, i3, ?_⟩
    rw [t3]
    simp [Escaper.total]
  -- four bytes
  have four : ∀ (a b c d s : Nat), a < 256 → tr 0 a = s → 2 ≤ s → s ≤ 8 → b < 256 → tr s b = 3 → 0x80 ≤ c → c ≤ 0xBF → 0x80 ≤ d → d ≤ 0xBF →
      (255 / 2 ^ (utf8d.getD a 0) &&& a) < 64 → (1 ≤ (255 / 2 ^ (utf8d.getD a 0) &&& a) ∨ 2 ≤ b % 64) →
      ∃ e', iter [a, b, c, d] escapeByte e = .ok e' ∧ EscInv e' ∧ e'.total = e.total ++ [a, b, c, d] := by
    intro a b c d s ha hta hs2 hs8 hb htb hcl hcu hdl hdu hc1 hc2
    obtain ⟨c1, h1, hc⟩ := escapeByte_mid (e := e) (b := a) (s := s) (by rw [h.state]; omega) ha (by rw [h.state, hta]) (by omega) (by omega) (by omega)
    rw [h.state] at hc
    simp only [ne_eq, not_true_eq_false, ↓reduceIte] at hc
    obtain ⟨c2, h2, hcc⟩ := escapeByte_mid (e := { e with state := s, codep := c1, buf := e.buf ++ [a] }) (b := b) (s := 3) hs8 hb htb (by decide) (by decide)
      (by simp; omega)
    simp only at hcc
    rw [if_pos (by omega)] at hcc
    obtain ⟨o1, o2, o3⟩ := or_bounds (x := b % 64) (y := c1) (by omega) (by omega)
    rw [← hcc] at o1 o2 o3
    obtain ⟨c3, h3, hccc⟩ := escapeByte_mid (e := { e with state := 3, codep := c2, buf := e.buf ++ [a] ++ [b] }) (b := c) (s := 2) (by show 3 ≤ 8; omega) (by omega)
      (by show tr 3 c = 2; rw [tr3 (by omega), if_pos ⟨hcl, hcu⟩]) (by decide) (by decide) (by simp; omega)
    simp only at hccc
    rw [if_pos (by omega)] at hccc
    obtain ⟨o4, o5, o6⟩ := or_bounds (x := c % 64) (y := c2) (by omega) (by omega)
    rw [← hccc] at o4 o5 o6
    obtain ⟨e4, h4, i4, t4⟩ := escapeByte_last (e := { e with state := 2, codep := c3, buf := e.buf ++ [a] ++ [b] ++ [c] }) (b := d) (by show 2 ≤ 8; omega)
      (by show 2 ≠ 0; omega) (by omega) (by show tr 2 d = 0; rw [tr2 (by omega), if_pos ⟨hdl, hdu⟩]) (or_ge (by simp only; omega) (by simp only; omega))
      (by simp; omega)
    refine ⟨e4, by rw [iter_cons, h1, Res.ok_bind, iter_cons, h2, Res.ok_bind, iter_cons, h3, Res.ok_bind, iter_cons, h4]; rfl, i4, ?_⟩
    rw [t4]
    simp [Escaper.total]
  cases hu with
  | @one a ha =>
    obtain ⟨e', h1, h2, h3⟩ := escapeByte_one ha h
    exact ⟨e', by rw [iter_cons, h1]; rfl, h2, h3⟩
  | @two a b h1 h2 h3 h4 =>
    obtain ⟨g1, g2⟩ := f2 ⟨a, by omega⟩ h1 h2
    exact two a b (by omega) (by rw [tr0 (by omega), if_neg (by omega), if_pos ⟨h1, h2⟩]) h3 h4 g1 g2
  | @threeE0 b c h1 h2 h3 h4 =>
    exact three 0xE0 b c 4 (by omega) (by decide +kernel) (by omega) (by omega) (by omega) (by rw [tr4 (by omega), if_pos ⟨h1, h2⟩]) h3 h4
      (by rw [fE0]; omega) (.inr (by omega))
  | @three a b c h0 h1 h2 h3 h4 =>
    obtain ⟨g1, g2⟩ := f3 ⟨a, by omega⟩ h0
    exact three a b c 3 (by omega) (by rw [tr0 (by omega), if_neg (by omega), if_neg (by omega), if_neg (by omega), if_pos h0]) (by omega) (by omega) (by omega)
      (by rw [tr3 (by omega), if_pos ⟨h1, h2⟩]) h3 h4 g2 (.inl g1)
  | @threeED b c h1 h2 h3 h4 =>
    exact three 0xED b c 5 (by omega) (by decide +kernel) (by omega) (by omega) (by omega) (by rw [tr5 (by omega), if_pos ⟨h1, h2⟩]) h3 h4
      (by rw [fED]; omega) (.inl (by rw [fED]; omega))
  | @fourF0 b c d h1 h2 h3 h4 h5 h6 =>
    exact four 0xF0 b c d 6 (by omega) (by decide +kernel) (by omega) (by omega) (by omega) (by rw [tr6 (by omega), if_pos ⟨h1, h2⟩]) h3 h4 h5 h6
      (by rw [fF0]; omega) (.inr (by omega))
  | @four a b c d h0 h0' h1 h2 h3 h4 h5 h6 =>
    obtain ⟨g1, g2⟩ := f4 ⟨a, by omega⟩ h0 h0'
    exact four a b c d 7 (by omega) (by rw [tr0 (by omega)]; repeat (first | rw [if_neg (by omega)] | rw [if_pos (by omega)])) (by omega) (by omega) (by omega)
      (by rw [tr7 (by omega), if_pos ⟨h1, h2⟩]) h3 h4 h5 h6 g2 (.inl g1)
  | @fourF4 b c d h1 h2 h3 h4 h5 h6 =>
    exact four 0xF4 b c d 8 (by omega) (by decide +kernel) (by omega) (by omega) (by omega) (by rw [tr8 (by omega), if_pos ⟨h1, h2⟩]) h3 h4 h5 h6
      (by rw [fF4]; omega) (.inl (by rw [fF4]; omega))

end Tsetlini
