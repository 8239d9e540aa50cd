import Verif.Spec.JsonText
import Verif.Lemmas.Res
namespace Tsetlini
open Spec

/-- Well-formed byte sequences of one scalar value (Unicode, table 3-7). -/
inductive Seq : Bytes → Prop
  | one {a : Nat} : a ≤ 0x7F → Seq [a]
  | two {a b : Nat} : 0xC2 ≤ a → a ≤ 0xDF → 0x80 ≤ b → b ≤ 0xBF → Seq [a, b]
  | threeE0 {b c : Nat} : 0xA0 ≤ b → b ≤ 0xBF → 0x80 ≤ c → c ≤ 0xBF → Seq [0xE0, b, c]
  | three {a b c : Nat} : (0xE1 ≤ a ∧ a ≤ 0xEC) ∨ a = 0xEE ∨ a = 0xEF → 0x80 ≤ b → b ≤ 0xBF → 0x80 ≤ c → c ≤ 0xBF → Seq [a, b, c]
  | threeED {b c : Nat} : 0x80 ≤ b → b ≤ 0x9F → 0x80 ≤ c → c ≤ 0xBF → Seq [0xED, b, c]
  | fourF0 {b c d : Nat} : 0x90 ≤ b → b ≤ 0xBF → 0x80 ≤ c → c ≤ 0xBF → 0x80 ≤ d → d ≤ 0xBF → Seq [0xF0, b, c, d]
  | four {a b c d : Nat} : 0xF1 ≤ a → a ≤ 0xF3 → 0x80 ≤ b → b ≤ 0xBF → 0x80 ≤ c → c ≤ 0xBF → 0x80 ≤ d → d ≤ 0xBF → Seq [a, b, c, d]
  | fourF4 {b c d : Nat} : 0x80 ≤ b → b ≤ 0x8F → 0x80 ≤ c → c ≤ 0xBF → 0x80 ≤ d → d ≤ 0xBF → Seq [0xF4, b, c, d]

theorem utf8_seq {c : Nat} (h : Scalar c) : Seq (utf8 c) := by
  unfold utf8
  unfold Scalar at h
  split
  · exact .one (by omega)
  split
  · exact .two (by omega) (by omega) (by omega) (by omega)
  split
  · by_cases h1 : c / 4096 = 0
    · rw [h1]; exact .threeE0 (by omega) (by omega) (by omega) (by omega)
    by_cases h2 : c / 4096 = 13
    · rw [h2]; exact .threeED (by omega) (by omega) (by omega) (by omega)
    · exact .three (by omega) (by omega) (by omega) (by omega) (by omega)
  · by_cases h1 : c / 262144 = 0
    · rw [h1]; exact .fourF0 (by omega) (by omega) (by omega) (by omega) (by omega) (by omega)
    by_cases h2 : c / 262144 = 4
    · rw [h2]; exact .fourF4 (by omega) (by omega) (by omega) (by omega) (by omega) (by omega)
    · exact .four (by omega) (by omega) (by omega) (by omega) (by omega) (by omega) (by omega) (by omega)

theorem utf8_two {c : Nat} (h1 : 0x7F < c) (h2 : c ≤ 0x7FF) : utf8 c = [0xC0 + c / 64, 0x80 + c % 64] := by
  unfold utf8; rw [if_neg (by omega), if_pos h2]

theorem utf8_three {c : Nat} (h1 : 0x7FF < c) (h2 : c ≤ 0xFFFF) : utf8 c = [0xE0 + c / 4096, 0x80 + c / 64 % 64, 0x80 + c % 64] := by
  unfold utf8; rw [if_neg (by omega), if_neg (by omega), if_pos h2]

theorem utf8_four {c : Nat} (h1 : 0xFFFF < c) :
    utf8 c = [0xF0 + c / 262144, 0x80 + c / 4096 % 64, 0x80 + c / 64 % 64, 0x80 + c % 64] := by
  unfold utf8; rw [if_neg (by omega), if_neg (by omega), if_neg (by omega)]

theorem seq_utf8 {u : Bytes} (h : Seq u) : ∃ c, Scalar c ∧ u = utf8 c := by
  have three : ∀ a b c : Nat, 0xE0 ≤ a → a ≤ 0xEF → 0x80 ≤ b → b ≤ 0xBF → 0x80 ≤ c → c ≤ 0xBF → (a = 0xE0 → 0xA0 ≤ b) → (a = 0xED → b ≤ 0x9F) →
      ∃ x, Scalar x ∧ [a, b, c] = utf8 x := by
    intro a b c h1 h2 h3 h4 h5 h6 h7 h8
    refine ⟨(a - 0xE0) * 4096 + (b - 0x80) * 64 + (c - 0x80), ?_, ?_⟩
    · unfold Scalar; omega
    · rw [utf8_three (by omega) (by omega)]
      simp only [List.cons.injEq, and_true]
      omega
  have four : ∀ a b c d : Nat, 0xF0 ≤ a → a ≤ 0xF4 → 0x80 ≤ b → b ≤ 0xBF → 0x80 ≤ c → c ≤ 0xBF → 0x80 ≤ d → d ≤ 0xBF → (a = 0xF0 → 0x90 ≤ b) →
      (a = 0xF4 → b ≤ 0x8F) → ∃ x, Scalar x ∧ [a, b, c, d] = utf8 x := by
    intro a b c d h1 h2 h3 h4 h5 h6 h7 h8 h9 h10
    refine ⟨(a - 0xF0) * 262144 + (b - 0x80) * 4096 + (c - 0x80) * 64 + (d - 0x80), ?_, ?_⟩
    · unfold Scalar; omega
    · rw [utf8_four (by omega)]
      simp only [List.cons.injEq, and_true]
      omega
  cases h with
  | @one a h => exact ⟨a, .inl (by omega), by unfold Spec.utf8; rw [if_pos h]⟩
  | @two a b h1 h2 h3 h4 =>
    refine ⟨(a - 0xC0) * 64 + (b - 0x80), .inl (by omega), ?_⟩
    rw [utf8_two (by omega) (by omega)]
    simp only [List.cons.injEq, and_true]
    omega
  | threeE0 h1 h2 h3 h4 => exact three _ _ _ (by omega) (by omega) (by omega) (by omega) h3 h4 (by omega) (by omega)
  | three h0 h1 h2 h3 h4 => exact three _ _ _ (by omega) (by omega) (by omega) (by omega) h3 h4 (by omega) (by omega)
  | threeED h1 h2 h3 h4 => exact three _ _ _ (by omega) (by omega) (by omega) (by omega) h3 h4 (by omega) (by omega)
  | fourF0 h1 h2 h3 h4 h5 h6 => exact four _ _ _ _ (by omega) (by omega) (by omega) (by omega) h3 h4 h5 h6 (by omega) (by omega)
  | four h h' h1 h2 h3 h4 h5 h6 => exact four _ _ _ _ (by omega) (by omega) (by omega) (by omega) h3 h4 h5 h6 (by omega) (by omega)
  | fourF4 h1 h2 h3 h4 h5 h6 => exact four _ _ _ _ (by omega) (by omega) (by omega) (by omega) h3 h4 h5 h6 (by omega) (by omega)

/-- UTF-8 as a sequence of well-formed sequences. -/
inductive Seqs : Bytes → Prop
  | nil : Seqs []
  | cons {u l : Bytes} : Seq u → Seqs l → Seqs (u ++ l)

theorem seqs_utf8 {s : Bytes} : Seqs s ↔ Utf8 s := by
  constructor
  · intro h
    induction h with
    | nil => exact ⟨[], by simp, rfl⟩
    | cons hu _ ih =>
      obtain ⟨c, hc, rfl⟩ := seq_utf8 hu
      obtain ⟨cs, hcs, rfl⟩ := ih
      exact ⟨c :: cs, by simpa [hc] using hcs, by simp⟩
  · rintro ⟨cs, hcs, rfl⟩
    induction cs with
    | nil => exact .nil
    | cons c cs ih =>
      rw [List.flatMap_cons]
      exact .cons (utf8_seq (hcs c List.mem_cons_self)) (ih fun d hd => hcs d (List.mem_cons_of_mem _ hd))

theorem Utf8.append {s t : Bytes} (hs : Utf8 s) (ht : Utf8 t) : Utf8 (s ++ t) := by
  obtain ⟨cs, hcs, rfl⟩ := hs
  obtain ⟨ds, hds, rfl⟩ := ht
  refine ⟨cs ++ ds, ?_, by simp⟩
  intro c hc
  rcases List.mem_append.1 hc with h | h
  · exact hcs c h
  · exact hds c h

theorem Seq.utf8 {u : Bytes} (h : Seq u) : Utf8 u := by
  obtain ⟨c, hc, rfl⟩ := seq_utf8 h
  exact ⟨[c], by simpa using hc, by simp⟩

theorem Seq.bytes {u : Bytes} (h : Seq u) : AreBytes u := by
  intro b hb
  cases h <;> simp at hb <;> omega

theorem Utf8.bytes {s : Bytes} (h : Utf8 s) : AreBytes s := by
  have := seqs_utf8.2 h
  induction this with
  | nil => intro b hb; simp at hb
  | cons hu hl ih =>
    intro b hb
    rcases List.mem_append.1 hb with h | h
    · exact hu.bytes b h
    · exact ih (seqs_utf8.1 hl) b h

theorem Seq.ne_nil {u : Bytes} (h : Seq u) : u ≠ [] := by
  cases h <;> simp

/-! ### The table -/

theorem forall_byte {P : Nat → Prop} (h : ∀ b : Fin 256, P b.1) {b : Nat} (hb : b < 256) : P b := h ⟨b, hb⟩

/-- The state after a byte. -/
def tr (state byte : Nat) : Nat := (utf8d.getD (256 + state * 16 + utf8d.getD byte 0) 0)

theorem decode_tr {state codep byte : Nat} (hs : state ≤ 8) (hb : byte < 256) :
    utf8Decode state codep byte =
      .ok (tr state byte, if state ≠ 0 then byte % 64 ||| codep * 64 % 4294967296 else 255 / 2 ^ (utf8d.getD byte 0) &&& byte) := by
  have h1 : ∃ t, utf8d[byte]? = some t ∧ t < 16 := by
    have : ∀ b : Fin 256, ∃ t, utf8d[b.1]? = some t ∧ t < 16 := by
      have : ∀ b : Fin 256, ((utf8d[b.1]?).getD 99) < 16 ∧ (utf8d[b.1]?).isSome = true := by decide +kernel
      intro b
      obtain ⟨h1, h2⟩ := this b
      obtain ⟨t, ht⟩ := Option.isSome_iff_exists.1 h2
      exact ⟨t, ht, by simpa [ht] using h1⟩
    exact this ⟨byte, hb⟩
  obtain ⟨t, ht, ht16⟩ := h1
  have hlen : utf8d.length = 400 := by decide +kernel
  have h2 : 256 + state * 16 + t < utf8d.length := by omega
  unfold utf8Decode
  have e1 : rd utf8d byte = .ok t := by unfold rd; rw [ht]
  have e2 : rd utf8d (256 + state * 16 + t) = .ok (utf8d.getD (256 + state * 16 + t) 0) := by
    unfold rd
    rw [List.getElem?_eq_getElem h2]
    simp [List.getD, List.getElem?_eq_getElem h2]
  have e3 : utf8d.getD byte 0 = t := by simp [List.getD, ht]
  rw [e1, Res.ok_bind]
  dsimp only
  rw [e2, Res.ok_bind]
  simp only [tr, e3]

theorem tr0 {b : Nat} (hb : b < 256) : tr 0 b =
    if b ≤ 0x7F then 0 else if 0xC2 ≤ b ∧ b ≤ 0xDF then 2 else if b = 0xE0 then 4
    else if (0xE1 ≤ b ∧ b ≤ 0xEC) ∨ b = 0xEE ∨ b = 0xEF then 3 else if b = 0xED then 5 else if b = 0xF0 then 6
    else if 0xF1 ≤ b ∧ b ≤ 0xF3 then 7 else if b = 0xF4 then 8 else 1 :=
  forall_byte (P := fun b => tr 0 b =
    if b ≤ 0x7F then 0 else if 0xC2 ≤ b ∧ b ≤ 0xDF then 2 else if b = 0xE0 then 4
    else if (0xE1 ≤ b ∧ b ≤ 0xEC) ∨ b = 0xEE ∨ b = 0xEF then 3 else if b = 0xED then 5 else if b = 0xF0 then 6
    else if 0xF1 ≤ b ∧ b ≤ 0xF3 then 7 else if b = 0xF4 then 8 else 1) (by decide +kernel) hb

theorem tr2 {b : Nat} (hb : b < 256) : tr 2 b = if 0x80 ≤ b ∧ b ≤ 0xBF then 0 else 1 :=
  forall_byte (P := fun b => tr 2 b = if 0x80 ≤ b ∧ b ≤ 0xBF then 0 else 1) (by decide +kernel) hb
theorem tr3 {b : Nat} (hb : b < 256) : tr 3 b = if 0x80 ≤ b ∧ b ≤ 0xBF then 2 else 1 :=
  forall_byte (P := fun b => tr 3 b = if 0x80 ≤ b ∧ b ≤ 0xBF then 2 else 1) (by decide +kernel) hb
theorem tr4 {b : Nat} (hb : b < 256) : tr 4 b = if 0xA0 ≤ b ∧ b ≤ 0xBF then 2 else 1 :=
  forall_byte (P := fun b => tr 4 b = if 0xA0 ≤ b ∧ b ≤ 0xBF then 2 else 1) (by decide +kernel) hb
theorem tr5 {b : Nat} (hb : b < 256) : tr 5 b = if 0x80 ≤ b ∧ b ≤ 0x9F then 2 else 1 :=
  forall_byte (P := fun b => tr 5 b = if 0x80 ≤ b ∧ b ≤ 0x9F then 2 else 1) (by decide +kernel) hb
theorem tr6 {b : Nat} (hb : b < 256) : tr 6 b = if 0x90 ≤ b ∧ b ≤ 0xBF then 3 else 1 :=
  forall_byte (P := fun b => tr 6 b = if 0x90 ≤ b ∧ b ≤ 0xBF then 3 else 1) (by decide +kernel) hb
theorem tr7 {b : Nat} (hb : b < 256) : tr 7 b = if 0x80 ≤ b ∧ b ≤ 0xBF then 3 else 1 :=
  forall_byte (P := fun b => tr 7 b = if 0x80 ≤ b ∧ b ≤ 0xBF then 3 else 1) (by decide +kernel) hb
theorem tr8 {b : Nat} (hb : b < 256) : tr 8 b = if 0x80 ≤ b ∧ b ≤ 0x8F then 3 else 1 :=
  forall_byte (P := fun b => tr 8 b = if 0x80 ≤ b ∧ b ≤ 0x8F then 3 else 1) (by decide +kernel) hb

end Tsetlini
