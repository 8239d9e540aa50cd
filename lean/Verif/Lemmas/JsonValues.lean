import Verif.Lemmas.GrisuMain
import Verif.Lemmas.JsonStrings
namespace Tsetlini
open Spec

/-! ### Floating-point text -/

theorem appendExponent_length {e : Int} : (appendExponent e).length ≤ 4 := by
  unfold appendExponent
  dsimp only
  split <;> split <;> (try split) <;> simp

theorem formatBuffer_length {ds : Bytes} {e : Int} (h : ds.length ≤ 17) : (formatBuffer ds e).length ≤ 40 := by
  unfold formatBuffer
  dsimp only
  split
  · simp; omega
  split
  · simp; omega
  split
  · simp; omega
  have := appendExponent_length (e := (ds.length : Int) + e - 1)
  split
  · simp; omega
  · simp; omega

theorem f64_neg {x q : Rat} (h : f64 x = .fin q) : f64 (-x) = .fin (-q) := by
  have hr : rne64 (-x) = - rne64 x := rne_neg x
  unfold f64 overflowAt at h ⊢
  rw [hr]
  by_cases h1 : ((2 ^ 1024 : Nat) : Rat) ≤ rne64 x
  · rw [if_pos h1] at h; exact Fl.noConfusion h
  rw [if_neg h1] at h
  by_cases h2 : rne64 x ≤ -((2 ^ 1024 : Nat) : Rat)
  · rw [if_pos h2] at h; exact Fl.noConfusion h
  rw [if_neg h2] at h
  rw [if_neg (by grind), if_neg (by grind)]
  rw [Fl.fin.inj h]

theorem Double.neg {q : Rat} (h : Double q) : Double (-q) := by
  obtain ⟨m, k, h1, h2, h3⟩ := h
  refine ⟨-m, k, by omega, h2, ?_⟩
  rw [Rat.intCast_neg, Rat.neg_mul, Rat.neg_mul, h3]

theorem f64_zero : f64 0 = .fin 0 := by decide +kernel

theorem dumpFloat_spec {q : Rat} (h : Double q) : ∃ c t, dumpFloat (.fin q) = .ok (c :: t) ∧ (c = 45 ∨ (48 ≤ c ∧ c ≤ 57)) ∧
    ∀ rest, Ends rest → scanNumber c (t ++ rest) = (.float (.fin q), rest) := by
  unfold dumpFloat toChars
  by_cases h0 : q = 0
  · subst h0
    refine ⟨48, [46, 48], by decide, .inr (by omega), fun rest hr => ?_⟩
    have := scanNumber_float (c := 48) (int := []) (frac := [48]) (o := none) (rest := rest) ⟨by simp, by simp, fun _ => rfl⟩ (by intro c hc; simp at hc; omega)
      (by intro n d h; simp at h) hr (.inl (by simp))
    simp only [fracText, expText, List.nil_append] at this
    rw [if_neg (by simp)] at this
    rw [show [46, 48] ++ rest = 46 :: [48] ++ rest from rfl, this]
    have e : ((digitsValue ([48] ++ [48]) : Nat) : Rat) = 0 := by decide +kernel
    rw [e, Rat.zero_mul, f64_zero]
  · have hs : ∃ q', (if q < 0 then -q else q) = q' ∧ 0 < q' ∧ Double q' ∧ (q < 0 → q = -q') ∧ (¬ q < 0 → q = q') := by
      by_cases hn : q < 0
      · refine ⟨-q, if_pos hn, by grind, Double.neg h, fun _ => by grind, fun h => absurd hn h⟩
      · refine ⟨q, if_neg hn, by grind, h, fun h => absurd h hn, fun _ => rfl⟩
    obtain ⟨q', e1, hpos, hd, hneg, hnn⟩ := hs
    dsimp only
    rw [e1, if_neg (by grind)]
    obtain ⟨buf, e, hg, hsh, he1, he2, hv⟩ := grisu2_spec hd hpos
    rw [hg, Res.ok_bind]
    dsimp only
    rw [jsonAssert_ok hsh.len, Res.ok_bind]
    match hbuf : buf, hsh with
    | [], hsh => exact absurd rfl hsh.nonempty
    | d :: ds, hsh =>
      have hl := hsh.len
      have hd48 : d ≠ 48 := by intro h; exact hsh.head (by simp [h])
      obtain ⟨c, int, frac, o, ft⟩ := formatBuffer_spec (e := e) hsh.digits hd48 (by simp at hl ⊢; omega)
      have hfl := formatBuffer_length (e := e) hl
      have hcd := ft.hint.digits c List.mem_cons_self
      by_cases hn : q < 0
      · rw [if_pos hn, if_pos (by simp; omega)]
        refine ⟨45, formatBuffer (d :: ds) e, rfl, .inl rfl, fun rest hr => ?_⟩
        have := scanNumber_neg_float (rest := rest) ft.hint ft.hfrac ft.hexp hr ft.float
        rw [ft.text, List.append_assoc, List.append_assoc, this, ft.value, f64_neg hv, hneg hn]
      · rw [if_neg hn, if_pos (by simp; omega)]
        refine ⟨c, int ++ (fracText frac ++ expText o), ?_, .inr hcd, fun rest hr => ?_⟩
        · rw [ft.text]; simp
        · have := scanNumber_float (rest := rest) ft.hint ft.hfrac ft.hexp hr ft.float
          rw [List.append_assoc, List.append_assoc, this, ft.value, hv, hnn hn]

theorem dumpInteger_nat {n : Nat} (h : n < 2 ^ 64) : ∃ c t, dumpInteger n = .ok (c :: t) ∧ (c = 45 ∨ (48 ≤ c ∧ c ≤ 57)) ∧
    ∀ rest, Ends rest → scanNumber c (t ++ rest) = (.unsigned n, rest) := by
  obtain ⟨t, h1, h2, h3⟩ := dumpInteger_spec (x := (n : Int)) (by simp; omega)
  rw [if_neg (by omega), List.nil_append] at h1
  match t, h2 with
  | [], h2 => exact absurd rfl h2.nonempty
  | c :: int, h2 =>
    have hv : digitsValue (c :: int) = n := by simpa using h3
    refine ⟨c, int, h1, .inr (h2.digits c List.mem_cons_self), fun rest hr => ?_⟩
    rw [scanNumber_nat h2 hr (by omega), hv]

theorem dumpInteger_neg {i : Int} (h : -2 ^ 63 ≤ i) (h0 : i < 0) : ∃ c t, dumpInteger i = .ok (c :: t) ∧ (c = 45 ∨ (48 ≤ c ∧ c ≤ 57)) ∧
    ∀ rest, Ends rest → scanNumber c (t ++ rest) = (.integer i, rest) := by
  obtain ⟨t, h1, h2, h3⟩ := dumpInteger_spec (x := i) (by omega)
  rw [if_pos h0] at h1
  match t, h2 with
  | [], h2 => exact absurd rfl h2.nonempty
  | c :: int, h2 =>
    refine ⟨45, c :: int, h1, .inl rfl, fun rest hr => ?_⟩
    have := scanNumber_neg h2 hr (by omega)
    rw [this, h3]
    congr 2
    omega

/-! ### Tokens -/

/-- Not a blank. -/
def Solid (c : Nat) : Prop := ¬ (c = 32 ∨ c = 9 ∨ c = 10 ∨ c = 13)

theorem scan_solid {c : Nat} {t : Bytes} (h : Solid c) : scan (c :: t) = scanToken (c :: t) := by
  unfold scan skipWhitespace
  rw [if_neg h]

theorem scan_number {c : Nat} {t : Bytes} (h : c = 45 ∨ (48 ≤ c ∧ c ≤ 57)) : scan (c :: t) = .ok (scanNumber c t) := by
  rw [scan_solid (by unfold Solid; omega)]
  unfold scanToken
  dsimp only
  iterate 10 rw [if_neg (by omega)]
  rw [if_pos]
  rcases h with h | h
  · exact .inl h
  · exact .inr (isDigit_of h)

theorem scan_string {t : Bytes} : scan (34 :: t) = scanString (t.length + 1) [] t := by
  rw [scan_solid (by unfold Solid; omega)]
  rfl

theorem scan_comma (t : Bytes) : scan (44 :: t) = .ok (.valueSeparator, t) := rfl
theorem scan_colon (t : Bytes) : scan (58 :: t) = .ok (.nameSeparator, t) := rfl
theorem scan_endArray (t : Bytes) : scan (93 :: t) = .ok (.endArray, t) := rfl
theorem scan_endObject (t : Bytes) : scan (125 :: t) = .ok (.endObject, t) := rfl

theorem ends_sep {c : Nat} {t : Bytes} (h : c = 44 ∨ c = 93 ∨ c = 125) : Ends (c :: t) := by
  intro d hd
  simp at hd
  subst hd
  rcases h with rfl | rfl | rfl <;> decide

theorem ends_nil : Ends [] := by intro c hc; simp at hc

/-! ### Values -/

/-- A text is read as a value, whatever follows it. -/
structure ReadsAs (t : Bytes) (v : TVal) : Prop where
  head : ∃ c u, t = c :: u ∧ c ≠ 0xEF
  step : ∀ rest fs, Ends rest → ∃ tok r k, scan (t ++ rest) = .ok (tok, r) ∧ tok ≠ .endArray ∧ k ≤ t.length ∧
    ∀ n, parseLoop (n + k) (.go tok r fs) = (afterValue fs v rest).bind (parseLoop n)

theorem readsAs_token {c : Nat} {u : Bytes} {v : TVal} (hc : c ≠ 0xEF) (h : ∀ rest, Ends rest → ∃ tok, scan (c :: (u ++ rest)) = .ok (tok, rest) ∧ tok ≠ .endArray ∧
    ∀ fs, parseValue tok rest fs = afterValue fs v rest) : ReadsAs (c :: u) v := by
  refine ⟨⟨c, u, rfl, hc⟩, fun rest fs hr => ?_⟩
  obtain ⟨tok, h1, h2, h3⟩ := h rest hr
  refine ⟨tok, rest, 1, h1, h2, by simp, fun n => ?_⟩
  rw [parseLoop, h3]

/-- Strings. -/
theorem readString {s t : Bytes} (h : Escd s t) (rest : Bytes) : scan (34 :: (t ++ 34 :: rest)) = .ok (.str s, rest) := by
  rw [scan_string, scanString_escd h rest _ _ (by simp)]
  rfl

theorem parseKey_str {k rest : Bytes} {l : List (Bytes × TVal)} {fs : List Frame} :
    parseKey (.str k) (58 :: rest) l fs = (scan rest).bind fun (tok, rest) => .ok (.go tok rest (.obj l k :: fs)) := by
  unfold parseKey
  dsimp only
  rw [scan_colon, Res.ok_bind]

/-! The elements of an array. -/
theorem readElements : ∀ (l : List TVal), l ≠ [] → (∀ v ∈ l, ∃ t, dump v = .ok t ∧ ReadsAs t (reread v)) →
    ∃ t, dumpElements l = .ok t ∧ t ≠ [] ∧ ∀ (acc : List TVal) (rest : Bytes) (fs : List Frame), ∃ tok r k, scan (t ++ 93 :: rest) = .ok (tok, r) ∧ tok ≠ .endArray ∧ k ≤ t.length ∧
      ∀ n, parseLoop (n + k) (.go tok r (.arr acc :: fs)) = (afterValue fs (.arr (acc ++ rereadAll l)) rest).bind (parseLoop n) := by
  intro l
  induction l with
  | nil => intro h; exact absurd rfl h
  | cons v l ih =>
    intro _ hl
    obtain ⟨t, ht, hrd⟩ := hl v List.mem_cons_self
    obtain ⟨c0, u0, ht0, -⟩ := hrd.head
    by_cases hne : l = []
    · subst hne
      refine ⟨t, ?_, by simp [ht0], fun acc rest fs => ?_⟩
      · simp [dumpElements, ht]
      · obtain ⟨tok, r, k, h1, h2, h3, h4⟩ := hrd.step (93 :: rest) (.arr acc :: fs) (ends_sep (by omega))
        refine ⟨tok, r, k, h1, h2, h3, fun n => ?_⟩
        rw [h4]
        simp only [afterValue, scan_endArray, Res.ok_bind, rereadAll]
    · obtain ⟨u, hu, hu0, hstep⟩ := ih hne fun w hw => hl w (List.mem_cons_of_mem _ hw)
      have hemp : l.isEmpty = false := by simpa using hne
      refine ⟨t ++ [44] ++ u, ?_, by simp, fun acc rest fs => ?_⟩
      · simp [dumpElements, ht, hu, hemp]
      · obtain ⟨tok2, r2, k2, g1, g2, g3, g4⟩ := hstep (acc ++ [reread v]) rest fs
        obtain ⟨tok, r, k, h1, h2, h3, h4⟩ := hrd.step (44 :: (u ++ 93 :: rest)) (.arr acc :: fs) (ends_sep (by omega))
        refine ⟨tok, r, k2 + k, ?_, h2, by simp; omega, fun n => ?_⟩
        · rw [show t ++ [44] ++ u ++ 93 :: rest = t ++ 44 :: (u ++ 93 :: rest) by simp]; exact h1
        · rw [← Nat.add_assoc, h4]
          simp only [afterValue, scan_comma, Res.ok_bind, g1, g4, rereadAll, List.append_assoc, List.singleton_append]

theorem bytesLt_irrefl : ∀ (s : Bytes), bytesLt s s = false
  | [] => rfl
  | a :: s => by simp [bytesLt, bytesLt_irrefl s]

theorem bytesLt_asymm : ∀ {s t : Bytes}, bytesLt s t = true → bytesLt t s = false
  | [], [], h => by simp [bytesLt] at h
  | [], _ :: _, _ => rfl
  | _ :: _, [], h => by simp [bytesLt] at h
  | a :: s, b :: t, h => by
    simp only [bytesLt, Bool.or_eq_true, decide_eq_true_eq, Bool.and_eq_true] at h
    simp only [bytesLt, Bool.or_eq_false_iff, decide_eq_false_iff_not, Bool.and_eq_false_imp, decide_eq_true_eq]
    rcases h with h | ⟨h1, h2⟩
    · exact ⟨by omega, fun e => by omega⟩
    · exact ⟨by omega, fun _ => bytesLt_asymm h2⟩

theorem bytesLt_iff : ∀ {s t : Bytes}, bytesLt s t = true ↔ s < t
  | [], [] => by simp [bytesLt]
  | [], _ :: _ => by simp [bytesLt]
  | _ :: _, [] => by simp [bytesLt]
  | a :: s, b :: t => by
    rw [List.cons_lt_cons_iff, ← bytesLt_iff]
    simp [bytesLt]

/-- A new greatest key goes to the end. -/
theorem setMember_last {k : Bytes} {v : TVal} : ∀ {l : List (Bytes × TVal)}, (∀ m ∈ l, bytesLt m.1 k = true) → setMember k v l = l ++ [(k, v)]
  | [], _ => rfl
  | m :: l, h => by
    have hm := h m List.mem_cons_self
    unfold setMember
    rw [bytesLt_asymm hm]
    have hne : k ≠ m.1 := by
      intro e
      rw [← e, bytesLt_irrefl] at hm
      exact absurd hm (by decide)
    rw [if_neg (by decide), if_neg hne, setMember_last fun m' hm' => h m' (List.mem_cons_of_mem _ hm')]
    rfl

/-! The members of an object. -/
theorem readMembers : ∀ (l : List (Bytes × TVal)), l ≠ [] → (∀ m ∈ l, ∃ t, dump m.2 = .ok t ∧ ReadsAs t (reread m.2)) → (∀ m ∈ l, Utf8 m.1) →
    (l.map (·.1)).Pairwise (fun s t => bytesLt s t = true) →
    ∃ t, dumpMembers l = .ok t ∧ t ≠ [] ∧ ∀ (acc : List (Bytes × TVal)) (rest : Bytes) (fs : List Frame), (∀ m ∈ acc, ∀ m' ∈ l, bytesLt m.1 m'.1 = true) →
      ∃ s r k, scan (t ++ 125 :: rest) = .ok (.str s, r) ∧ k + 1 ≤ t.length ∧
      ∀ n, (parseKey (.str s) r acc fs).bind (parseLoop (n + k)) = (afterValue fs (.obj (acc ++ rereadMembers l)) rest).bind (parseLoop n) := by
  intro l
  induction l with
  | nil => intro h; exact absurd rfl h
  | cons m l ih =>
    intro _ hl hk hsort
    obtain ⟨t, ht, hrd⟩ := hl m List.mem_cons_self
    obtain ⟨kt, hkt, hesc⟩ := dumpEscaped_ok (hk m List.mem_cons_self)
    rw [List.map_cons, List.pairwise_cons] at hsort
    obtain ⟨hs1, hs2⟩ := hsort
    obtain ⟨mk, mv⟩ := m
    dsimp only at ht hrd hkt hesc hs1
    by_cases hne : l = []
    · subst hne
      refine ⟨[34] ++ kt ++ [34, 58] ++ t, ?_, by simp, fun acc rest fs hacc => ?_⟩
      · simp [dumpMembers, dumpMember, ht, hkt]
      · obtain ⟨tok, r, k, h1, h2, h3, h4⟩ := hrd.step (125 :: rest) (.obj acc mk :: fs) (ends_sep (by omega))
        refine ⟨mk, 58 :: (t ++ 125 :: rest), k, ?_, by simp; omega, fun n => ?_⟩
        · rw [show [34] ++ kt ++ [34, 58] ++ t ++ 125 :: rest = 34 :: (kt ++ 34 :: (58 :: (t ++ 125 :: rest))) by simp]
          exact readString hesc _
        · rw [parseKey_str, h1, Res.ok_bind]
          simp only [Res.ok_bind]
          rw [h4]
          simp only [afterValue, scan_endObject, Res.ok_bind, rereadMembers, rereadMember]
          rw [setMember_last fun m' hm' => hacc m' hm' (mk, mv) List.mem_cons_self]
    · obtain ⟨u, hu, hu0, hstep⟩ := ih hne (fun w hw => hl w (List.mem_cons_of_mem _ hw)) (fun w hw => hk w (List.mem_cons_of_mem _ hw)) hs2
      have hemp : l.isEmpty = false := by simpa using hne
      refine ⟨[34] ++ kt ++ [34, 58] ++ t ++ [44] ++ u, ?_, by simp, fun acc rest fs hacc => ?_⟩
      · simp [dumpMembers, dumpMember, ht, hkt, hu, hemp]
      · obtain ⟨s2, r2, k2, g1, g3, g4⟩ := hstep (acc ++ [(mk, reread mv)]) rest fs (by
          intro m' hm' m'' hm''
          rcases List.mem_append.1 hm' with h | h
          · exact hacc m' h m'' (List.mem_cons_of_mem _ hm'')
          · simp at h
            subst h
            exact hs1 m''.1 (List.mem_map_of_mem hm''))
        obtain ⟨tok, r, k, h1, h2, h3, h4⟩ := hrd.step (44 :: (u ++ 125 :: rest)) (.obj acc mk :: fs) (ends_sep (by omega))
        refine ⟨mk, 58 :: (t ++ 44 :: (u ++ 125 :: rest)), k2 + k, ?_, by simp; omega, fun n => ?_⟩
        · rw [show [34] ++ kt ++ [34, 58] ++ t ++ [44] ++ u ++ 125 :: rest = 34 :: (kt ++ 34 :: (58 :: (t ++ 44 :: (u ++ 125 :: rest)))) by simp]
          exact readString hesc _
        · rw [parseKey_str, h1, Res.ok_bind]
          simp only [Res.ok_bind]
          rw [← Nat.add_assoc, h4]
          simp only [afterValue, scan_comma, Res.ok_bind, g1, rereadMembers, rereadMember]
          rw [setMember_last fun m' hm' => hacc m' hm' (mk, mv) List.mem_cons_self, g4]
          simp

/-- Every well-formed value is written as a text that is read as it. -/
theorem dump_reads {v : TVal} (hw : Wide v) : Encoded v → ∃ t, dump v = .ok t ∧ ReadsAs t (reread v) := by
  induction hw with
  | null =>
    intro _
    refine ⟨_, rfl, readsAs_token (c := 110) (u := [117, 108, 108]) (by decide) fun rest hr => ?_⟩
    exact ⟨.literalNull, rfl, by simp, fun fs => rfl⟩
  | bool b =>
    intro _
    cases b with
    | true =>
      refine ⟨_, rfl, readsAs_token (c := 116) (u := [114, 117, 101]) (by decide) fun rest hr => ?_⟩
      exact ⟨.literalTrue, rfl, by simp, fun fs => rfl⟩
    | false =>
      refine ⟨_, rfl, readsAs_token (c := 102) (u := [97, 108, 115, 101]) (by decide) fun rest hr => ?_⟩
      exact ⟨.literalFalse, rfl, by simp, fun fs => rfl⟩
  | @unsigned n h =>
    intro _
    obtain ⟨c, t, h1, h2, h3⟩ := dumpInteger_nat h
    refine ⟨_, h1, readsAs_token (by omega) fun rest hr => ?_⟩
    exact ⟨_, by rw [scan_number h2, h3 rest hr], by simp, fun fs => rfl⟩
  | @integer i h h' =>
    intro _
    by_cases hi : 0 ≤ i
    · obtain ⟨n, rfl⟩ := Int.eq_ofNat_of_zero_le hi
      obtain ⟨c, t, h1, h2, h3⟩ := dumpInteger_nat (n := n) (by omega)
      refine ⟨_, h1, ?_⟩
      have : reread (.integer (n : Int)) = .unsigned n := by simp [reread]
      rw [this]
      refine readsAs_token (by omega) fun rest hr => ?_
      exact ⟨_, by rw [scan_number h2, h3 rest hr], by simp, fun fs => rfl⟩
    · obtain ⟨c, t, h1, h2, h3⟩ := dumpInteger_neg h (by omega)
      refine ⟨_, h1, ?_⟩
      have : reread (.integer i) = .integer i := by simp [reread, hi]
      rw [this]
      refine readsAs_token (by omega) fun rest hr => ?_
      exact ⟨_, by rw [scan_number h2, h3 rest hr], by simp, fun fs => rfl⟩
  | @finite q h =>
    intro _
    obtain ⟨c, t, h1, h2, h3⟩ := dumpFloat_spec h
    refine ⟨_, h1, readsAs_token (by omega) fun rest hr => ?_⟩
    exact ⟨_, by rw [scan_number h2, h3 rest hr], by simp, fun fs => rfl⟩
  | inf neg =>
    intro _
    refine ⟨_, rfl, readsAs_token (c := 110) (u := [117, 108, 108]) (by decide) fun rest hr => ?_⟩
    exact ⟨.literalNull, rfl, by simp, fun fs => rfl⟩
  | nan =>
    intro _
    refine ⟨_, rfl, readsAs_token (c := 110) (u := [117, 108, 108]) (by decide) fun rest hr => ?_⟩
    exact ⟨.literalNull, rfl, by simp, fun fs => rfl⟩
  | @str s hs =>
    intro he
    cases he with
    | str hu =>
      obtain ⟨t, h1, h2⟩ := dumpEscaped_ok hu
      refine ⟨[34] ++ t ++ [34], by simp [dump, h1], readsAs_token (c := 34) (u := t ++ [34]) (by decide) fun rest hr => ?_⟩
      refine ⟨.str s, ?_, by simp, fun fs => rfl⟩
      rw [List.append_assoc]
      exact readString h2 rest
  | @arr l hl ih =>
    intro he
    cases he with
    | arr hel =>
      by_cases hne : l = []
      · subst hne
        refine ⟨[91, 93], rfl, ⟨91, [93], rfl, by decide⟩, fun rest fs hr => ?_⟩
        exact ⟨.beginArray, 93 :: rest, 1, rfl, by simp, by simp, fun n => rfl⟩
      · obtain ⟨t, h1, h2, h3⟩ := readElements l hne fun v hv => ih v hv (hel v hv)
        refine ⟨[91] ++ t ++ [93], by simp [dump, h1], ⟨91, t ++ [93], by simp, by decide⟩, fun rest fs hr => ?_⟩
        obtain ⟨tok, r, k, g1, g2, g3, g4⟩ := h3 [] rest fs
        refine ⟨.beginArray, t ++ 93 :: rest, k + 1, by rw [show [91] ++ t ++ [93] ++ rest = 91 :: (t ++ 93 :: rest) by simp]; rfl, by simp, by simp; omega, fun n => ?_⟩
        rw [← Nat.add_assoc, parseLoop]
        simp only [parseValue, g1, Res.ok_bind]
        simp only [reread]
        rw [← List.nil_append (rereadAll l), ← g4]
  | @obj l hl hb hs ih =>
    intro he
    cases he with
    | obj hel hek =>
      by_cases hne : l = []
      · subst hne
        refine ⟨[123, 125], rfl, ⟨123, [125], rfl, by decide⟩, fun rest fs hr => ?_⟩
        exact ⟨.beginObject, 125 :: rest, 1, rfl, by simp, by simp, fun n => rfl⟩
      · obtain ⟨t, h1, h2, h3⟩ := readMembers l hne (fun m hm => ih m hm (hel m hm)) hek (hs.imp fun h => bytesLt_iff.2 h)
        refine ⟨[123] ++ t ++ [125], by simp [dump, h1], ⟨123, t ++ [125], by simp, by decide⟩, fun rest fs hr => ?_⟩
        obtain ⟨s, r, k, g1, g3, g4⟩ := h3 [] rest fs (by intro m hm; simp at hm)
        refine ⟨.beginObject, t ++ 125 :: rest, k + 1, by rw [show [123] ++ t ++ [125] ++ rest = 123 :: (t ++ 125 :: rest) by simp]; rfl, by simp, by simp; omega, fun n => ?_⟩
        rw [← Nat.add_assoc, parseLoop]
        simp only [parseValue, g1, Res.ok_bind]
        rw [g4]
        rfl

theorem scanFirst_eq {c : Nat} {t : Bytes} (h : c ≠ 0xEF) : scanFirst (c :: t) = scan (c :: t) := by
  unfold scanFirst
  split
  · rename_i heq; simp at heq; exact absurd heq.1 h
  · rfl

/-- What is written is read. -/
theorem parse_dump {v : TVal} (hw : Wide v) (he : Encoded v) : ∃ t, dump v = .ok t ∧ parse t = .ok (reread v) := by
  obtain ⟨t, h1, h2⟩ := dump_reads hw he
  refine ⟨t, h1, ?_⟩
  obtain ⟨c, u, ht, hc⟩ := h2.head
  obtain ⟨tok, r, k, g1, g2, g3, g4⟩ := h2.step [] [] ends_nil
  rw [List.append_nil] at g1
  unfold parse
  have hf : scanFirst t = .ok (tok, r) := by rw [← g1, ht, scanFirst_eq hc]
  rw [hf, Res.ok_bind]
  have hk := g4 (t.length + 1 - k)
  rw [show t.length + 1 - k + k = t.length + 1 by omega] at hk
  dsimp only
  rw [hk]
  simp only [afterValue, Res.ok_bind, parseLoop]
  rfl

end Tsetlini
