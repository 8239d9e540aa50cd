import Verif.Model.StateText
import Verif.Lemmas.JsonRefused
namespace Tsetlini
open Spec

/-! Strings and their bytes. -/

theorem char_scalar (c : Char) : Scalar c.toNat := by
  have := c.valid
  unfold Scalar
  have e : c.toNat = c.val.toNat := rfl
  rw [e]
  rcases this with h | ⟨h1, h2⟩
  · left; omega
  · right; omega

theorem bytesOf_utf8 (s : String) : Utf8 (bytesOf s) := by
  refine ⟨s.toList.map Char.toNat, ?_, ?_⟩
  · intro c hc
    obtain ⟨d, -, rfl⟩ := List.mem_map.1 hc
    exact char_scalar d
  · unfold bytesOf
    rw [List.flatMap_map]
    congr 1
    funext c
    exact codepointBytes_utf8 (char_scalar c)

theorem charsOf_utf8 {c : Nat} (h : Scalar c) (s : Bytes) : charsOf (utf8 c ++ s) = Char.ofNat c :: charsOf s := by
  unfold Scalar at h
  by_cases h1 : c ≤ 0x7F
  · have : utf8 c = [c] := by unfold utf8; rw [if_pos h1]
    rw [this, List.singleton_append, charsOf.eq_def]
    dsimp only
    rw [if_pos (by omega)]
  by_cases h2 : c ≤ 0x7FF
  · rw [utf8_two (by omega) h2, List.cons_append, List.cons_append, List.nil_append, charsOf.eq_def]
    dsimp only
    rw [if_neg (by omega), if_pos (by omega)]
    have e : (0xC0 + c / 64 - 0xC0) * 64 + (0x80 + c % 64 - 0x80) = c := by omega
    rw [e]
  by_cases h3 : c ≤ 0xFFFF
  · rw [utf8_three (by omega) h3, List.cons_append, List.cons_append, List.cons_append, List.nil_append, charsOf.eq_def]
    dsimp only
    rw [if_neg (by omega), if_neg (by omega), if_pos (by omega)]
    have e : (0xE0 + c / 4096 - 0xE0) * 4096 + (0x80 + c / 64 % 64 - 0x80) * 64 + (0x80 + c % 64 - 0x80) = c := by omega
    rw [e]
  · rw [utf8_four (by omega), List.cons_append, List.cons_append, List.cons_append, List.cons_append, List.nil_append, charsOf.eq_def]
    dsimp only
    rw [if_neg (by omega), if_neg (by omega), if_neg (by omega)]
    have e : (0xF0 + c / 262144 - 0xF0) * 262144 + (0x80 + c / 4096 % 64 - 0x80) * 4096 + (0x80 + c / 64 % 64 - 0x80) * 64 + (0x80 + c % 64 - 0x80) = c := by omega
    rw [e]

theorem charsOf_chars : ∀ (l : List Char), charsOf (l.flatMap fun c => codepointBytes c.toNat) = l
  | [] => by unfold charsOf; rfl
  | c :: l => by
    rw [List.flatMap_cons, codepointBytes_utf8 (char_scalar c), charsOf_utf8 (char_scalar c), charsOf_chars l, Char.ofNat_toNat]

theorem stringOf_bytesOf (s : String) : stringOf (bytesOf s) = s := by
  unfold stringOf bytesOf
  rw [charsOf_chars, String.ofList_toList]

theorem bytesOf_inj {s t : String} (h : bytesOf s = bytesOf t) : s = t := by
  rw [← stringOf_bytesOf s, h, stringOf_bytesOf]

theorem charsOf_scalars : ∀ {cs : List Nat}, (∀ c ∈ cs, Scalar c) → charsOf (cs.flatMap Spec.utf8) = cs.map Char.ofNat
  | [], _ => by unfold charsOf; rfl
  | c :: cs, h => by
    rw [List.flatMap_cons, charsOf_utf8 (h c List.mem_cons_self), charsOf_scalars fun d hd => h d (List.mem_cons_of_mem _ hd), List.map_cons]

theorem ofNat_scalar {c : Nat} (h : Scalar c) : (Char.ofNat c).toNat = c := by
  have hv : Nat.isValidChar c := by
    unfold Scalar at h
    rcases h with h | ⟨h1, h2⟩
    · exact .inl (by omega)
    · exact .inr ⟨by omega, by omega⟩
  unfold Char.ofNat
  rw [dif_pos hv]
  rfl

theorem stringOf_inj {s t : Bytes} (hs : Utf8 s) (ht : Utf8 t) (h : stringOf s = stringOf t) : s = t := by
  obtain ⟨cs, h1, rfl⟩ := hs
  obtain ⟨ds, h2, rfl⟩ := ht
  have e := String.ofList_injective h
  rw [charsOf_scalars h1, charsOf_scalars h2] at e
  have e' := congrArg (List.map Char.toNat) e
  rw [List.map_map, List.map_map] at e'
  have key : ∀ {l : List Nat}, (∀ c ∈ l, Scalar c) → l.map (Char.toNat ∘ Char.ofNat) = l := by
    intro l hl
    conv => rhs; rw [← List.map_id l]
    exact List.map_congr_left fun c hc => ofNat_scalar (hl c hc)
  rw [key h1, key h2] at e'
  rw [e']

/-! Objects. -/

theorem rereadAll_map : ∀ (l : List TVal), rereadAll l = l.map reread
  | [] => rfl
  | v :: l => by simp only [rereadAll, List.map_cons, rereadAll_map l]

theorem rereadMembers_map : ∀ (l : List (Bytes × TVal)), rereadMembers l = l.map fun m => (m.1, reread m.2)
  | [] => rfl
  | (k, v) :: l => by simp only [rereadMembers, rereadMember, List.map_cons, rereadMembers_map l]

theorem valueAll_map : ∀ (l : List TVal), valueAll l = l.map TVal.value
  | [] => rfl
  | v :: l => by simp only [valueAll, List.map_cons, valueAll_map l]

theorem valueMembers_map : ∀ (l : List (Bytes × TVal)), valueMembers l = l.map fun m => (stringOf m.1, m.2.value)
  | [] => rfl
  | (k, v) :: l => by simp only [valueMembers, valueMember, List.map_cons, valueMembers_map l]

/-- What is read of what was written. -/
def TVal.read (v : TVal) : JVal := (reread v).value

theorem read_arr (l : List TVal) : (TVal.arr l).read = .arr (l.map TVal.read) := by
  unfold TVal.read
  simp only [reread, TVal.value, rereadAll_map, valueAll_map, List.map_map]
  rfl

theorem read_obj (l : List (Bytes × TVal)) : (TVal.obj l).read = .obj (l.map fun m => (stringOf m.1, m.2.read)) := by
  unfold TVal.read
  simp only [reread, TVal.value, rereadMembers_map, valueMembers_map, List.map_map]
  rfl

theorem read_int (i : Int) : (TVal.integer i).read = JVal.ofInt i := by
  unfold TVal.read JVal.ofInt
  simp only [reread]
  split
  · rfl
  · rfl

theorem read_unsigned (n : Nat) : (TVal.unsigned n).read = .unsigned n := rfl
theorem read_str (s : String) : (TVal.str (bytesOf s)).read = .str s := by
  show JVal.str (stringOf (bytesOf s)) = _
  rw [stringOf_bytesOf]

theorem foldl_setMember {P : Bytes × TVal → Prop} : ∀ (l : List (String × TVal)) (acc : List (Bytes × TVal)), (∀ e ∈ l, P (bytesOf e.1, e.2)) → (∀ m ∈ acc, P m) →
    Sorted acc → (∀ m ∈ l.foldl (fun l e => setMember (bytesOf e.1) e.2 l) acc, P m) ∧ Sorted (l.foldl (fun l e => setMember (bytesOf e.1) e.2 l) acc)
  | [], acc, _, h, hs => ⟨h, hs⟩
  | e :: l, acc, hl, h, hs => by
    rw [List.foldl_cons]
    refine foldl_setMember l _ (fun e' he' => hl e' (List.mem_cons_of_mem _ he')) ?_ (setMember_sorted hs)
    intro m hm
    rcases setMember_mem hm with rfl | hm
    · exact hl e List.mem_cons_self
    · exact h m hm

/-- Well-formed, with UTF-8 strings. -/
structure Sound (v : TVal) : Prop where
  wide : Wide v
  encoded : Encoded v

theorem Sound.obj {l : List (Bytes × TVal)} (h : ∀ m ∈ l, Utf8 m.1 ∧ Sound m.2) (hs : Sorted l) : Sound (.obj l) :=
  ⟨.obj (fun m hm => (h m hm).2.wide) (fun m hm => Utf8.bytes (h m hm).1) (hs.imp fun h => bytesLt_iff.1 h), .obj (fun m hm => (h m hm).2.encoded) fun m hm => (h m hm).1⟩

theorem Sound.arr {α : Type} {l : List α} {f : α → TVal} (h : ∀ x ∈ l, Sound (f x)) : Sound (.arr (l.map f)) := by
  refine ⟨.arr fun v hv => ?_, .arr fun v hv => ?_⟩
  · obtain ⟨x, hx, rfl⟩ := List.mem_map.1 hv; exact (h x hx).wide
  · obtain ⟨x, hx, rfl⟩ := List.mem_map.1 hv; exact (h x hx).encoded

theorem Sound.objOf {l : List (String × TVal)} (h : ∀ e ∈ l, Sound e.2) : Sound (objOf l) := by
  obtain ⟨h1, h2⟩ := foldl_setMember (P := fun m => Utf8 m.1 ∧ Sound m.2) l [] (fun e he => ⟨bytesOf_utf8 e.1, h e he⟩) (by simp) List.Pairwise.nil
  exact Sound.obj h1 h2

theorem Sound.str (s : String) : Sound (.str (bytesOf s)) := ⟨.str (Utf8.bytes (bytesOf_utf8 s)), .str (bytesOf_utf8 s)⟩
theorem Sound.unsigned {n : Nat} (h : n < 2 ^ 64) : Sound (.unsigned n) := ⟨.unsigned h, .unsigned _⟩
theorem Sound.integer {i : Int} (h : -2 ^ 63 ≤ i) (h' : i < 2 ^ 63) : Sound (.integer i) := ⟨.integer h h', .integer _⟩

end Tsetlini
