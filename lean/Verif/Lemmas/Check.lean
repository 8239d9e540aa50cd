import Verif.Lemmas.Params
import Verif.Spec.Validation
/- Validation is exact. -/
namespace Tsetlini
open Res Spec

def Lawful.view {B : Backend} (L : Lawful B) : SampleView B.Sample := ⟨B.size, L.Bin01, L.Pad⟩

theorem reports_ok {l : List (Prop × Status)} {s : Status} (h : Reports l s)
    (hl : ∀ p ∈ l, p.2.code ≠ .ok) : s.code = .ok ↔ ∀ p ∈ l, ¬ p.1 := by
  induction l with
  | nil => cases h; simp
  | cons p l ih =>
    obtain ⟨bad, e⟩ := p
    rcases h with ⟨h1, rfl⟩ | ⟨h1, h2⟩
    · have := hl (bad, s) (by simp)
      simp_all
    · have := ih h2 fun p hp => hl p (by simp [hp])
      rw [this]
      simp [h1]

theorem reports_sOk {l : List (Prop × Status)} {s : Status} (h : Reports l s)
    (hl : ∀ p ∈ l, p.2.code ≠ .ok) (hs : s.code = .ok) : s = ⟨.ok, ""⟩ := by
  induction l with
  | nil => exact h
  | cons p l ih =>
    obtain ⟨bad, e⟩ := p
    rcases h with ⟨h1, rfl⟩ | ⟨h1, h2⟩
    · exact absurd hs (hl (bad, s) (by simp))
    · exact ih h2 fun p hp => hl p (by simp [hp])

theorem allM_pad {B : Backend} (L : Lawful B) (X : List B.Sample) (h : ∀ x ∈ X, L.SInv x) :
    (allM B.clearPadding X).Ret fun b => b = true ↔ ∀ x ∈ X, L.Pad x := by
  induction X with
  | nil => exact ⟨true, rfl, by simp⟩
  | cons x xs ih =>
    unfold allM
    refine Ret.bind (L.pad_ret x (h x (by simp))) fun b hb => ?_
    cases b with
    | true =>
      rw [if_pos rfl]
      refine (ih fun x hx => h x (by simp [hx])).mono fun b' hb' => ?_
      have hp : L.Pad x := hb.1 rfl
      rw [hb']; simp [hp]
    | false =>
      rw [if_neg (by simp), ret_ok]
      have hp : ¬ L.Pad x := fun hp => by simpa using hb.2 hp
      simp [hp]

theorem ragged_iff {B : Backend} {x0 : B.Sample} {rest : List B.Sample} :
    rest.all (fun r => B.size r == B.size x0) = false ↔
      ∃ a ∈ x0 :: rest, ∃ b ∈ x0 :: rest, B.size a ≠ B.size b := by
  rw [List.all_eq_false]
  constructor
  · rintro ⟨r, hr, hs⟩
    exact ⟨r, by simp [hr], x0, by simp, by simpa using hs⟩
  · rintro ⟨a, ha, b, hb, hab⟩
    by_cases h1 : B.size a = B.size x0
    · have h2 : B.size b ≠ B.size x0 := fun h => hab (by omega)
      rcases List.mem_cons.1 hb with rfl | hb
      · exact absurd rfl h2
      · exact ⟨b, hb, by simpa using h2⟩
    · rcases List.mem_cons.1 ha with rfl | ha
      · exact absurd rfl h1
      · exact ⟨a, ha, by simpa using h1⟩

theorem all01_false {B : Backend} (L : Lawful B) {X : List B.Sample} :
    X.all B.all01 = false ↔ ∃ x ∈ X, ¬ L.Bin01 x := by
  rw [List.all_eq_false]
  constructor
  · rintro ⟨x, hx, h⟩; exact ⟨x, hx, fun hb => h ((L.all01_eq x).2 hb)⟩
  · rintro ⟨x, hx, h⟩; exact ⟨x, hx, fun hb => h ((L.all01_eq x).1 hb)⟩

theorem checkXy_ret {B : Backend} (L : Lawful B) (X : List B.Sample) (y : List Int)
    (h : ∀ x ∈ X, L.SInv x) : (checkXy B X y).Ret (Reports (trainChecks L.view X y)) := by
  unfold checkXy trainChecks
  cases X with
  | nil => rw [ret_ok]; exact .inl ⟨rfl, rfl⟩
  | cons x0 rest =>
    dsimp only
    by_cases h1 : y = []
    · subst h1
      rw [if_pos (show ([] : List Int).isEmpty = true from rfl), ret_ok]
      exact .inr ⟨by simp, .inl ⟨rfl, rfl⟩⟩
    · rw [if_neg (by simpa using h1)]
      by_cases h2 : y.length ≠ (x0 :: rest).length
      · rw [if_pos h2, ret_ok]
        exact .inr ⟨by simp, .inr ⟨h1, .inl ⟨h2, rfl⟩⟩⟩
      · rw [if_neg h2]
        by_cases h3 : rest.all (fun r => B.size r == B.size x0) = false
        · rw [if_pos h3, ret_ok]
          exact .inr ⟨by simp, .inr ⟨h1, .inr ⟨h2, .inl ⟨ragged_iff.1 h3, rfl⟩⟩⟩⟩
        · rw [if_neg h3]
          have h3' := mt ragged_iff.2 h3
          by_cases h4 : (x0 :: rest).all B.all01 = false
          · rw [if_pos h4, ret_ok]
            exact .inr ⟨by simp, .inr ⟨h1, .inr ⟨h2, .inr ⟨h3', .inl ⟨(all01_false L).1 h4, rfl⟩⟩⟩⟩⟩
          · rw [if_neg h4]
            have h4' := mt (all01_false L).2 h4
            refine Ret.bind (allM_pad L _ h) fun b hb => ?_
            cases b with
            | false =>
              rw [if_pos rfl, ret_ok]
              refine .inr ⟨by simp, .inr ⟨h1, .inr ⟨h2, .inr ⟨h3', .inr ⟨h4', .inl ⟨?_, rfl⟩⟩⟩⟩⟩⟩
              apply Classical.byContradiction
              intro hc
              have : ∀ x ∈ x0 :: rest, L.Pad x := fun x hx => Classical.byContradiction
                fun hp => hc ⟨x, hx, hp⟩
              simpa using hb.2 this
            | true =>
              rw [if_neg (by simp), ret_ok]
              refine .inr ⟨by simp, .inr ⟨h1, .inr ⟨h2, .inr ⟨h3', .inr ⟨h4', .inr ⟨?_, rfl⟩⟩⟩⟩⟩⟩
              rintro ⟨x, hx, hp⟩
              exact hp (hb.1 rfl x hx)

/-- What accepted training data look like. -/
structure XyOk {B : Backend} (L : Lawful B) (X : List B.Sample) (y : List Int) : Prop where
  ne : X ≠ []
  yne : y ≠ []
  len : y.length = X.length
  size : ∀ a ∈ X, ∀ b ∈ X, B.size a = B.size b
  bin : ∀ x ∈ X, L.Bin x

theorem trainChecks_codes {S : Type} (V : SampleView S) (X : List S) (y : List Int) :
    ∀ p ∈ trainChecks V X y, p.2.code ≠ .ok := by
  intro p hp
  simp only [trainChecks, List.mem_cons, List.not_mem_nil, or_false] at hp
  rcases hp with rfl | rfl | rfl | rfl | rfl | rfl <;> simp [valueError]

theorem checkXy_ok {B : Backend} (L : Lawful B) (X : List B.Sample) (y : List Int)
    (h : ∀ x ∈ X, L.SInv x) : (checkXy B X y).Ret fun s => s.code = .ok ↔ XyOk L X y := by
  refine (checkXy_ret L X y h).mono fun s hs => ?_
  rw [reports_ok hs (trainChecks_codes _ _ _)]
  simp only [trainChecks, List.mem_cons, List.not_mem_nil, or_false, forall_eq_or_imp, forall_eq,
    not_exists, not_and, Classical.not_not]
  constructor
  · rintro ⟨h1, h2, h3, h4, h5, h6⟩
    exact ⟨h1, h2, h3, h4, fun x hx => (L.bin_iff x).2 ⟨h5 x hx, h6 x hx⟩⟩
  · rintro ⟨h1, h2, h3, h4, h5⟩
    exact ⟨h1, h2, h3, h4, fun x hx => ((L.bin_iff x).1 (h5 x hx)).1, fun x hx => ((L.bin_iff x).1 (h5 x hx)).2⟩

theorem foldl_max_spec (l : List Int) (a : Int) :
    (∀ v, v = a ∨ v ∈ l → v ≤ l.foldl max a) ∧ (l.foldl max a = a ∨ l.foldl max a ∈ l) := by
  induction l generalizing a with
  | nil => simp
  | cons b l ih =>
    rw [List.foldl_cons]
    obtain ⟨h1, h2⟩ := ih (max a b)
    have hm := h1 (max a b) (.inl rfl)
    constructor
    · rintro v (rfl | hv)
      · omega
      · rcases List.mem_cons.1 hv with rfl | hv
        · omega
        · exact h1 v (.inr hv)
    · rcases h2 with h | h
      · rw [h]
        rcases Int.le_total a b with hab | hab
        · right; rw [Int.max_eq_right hab]; simp
        · left; rw [Int.max_eq_left hab]
      · right; simp [h]

theorem foldl_min_spec (l : List Int) (a : Int) :
    (∀ v, v = a ∨ v ∈ l → l.foldl min a ≤ v) ∧ (l.foldl min a = a ∨ l.foldl min a ∈ l) := by
  induction l generalizing a with
  | nil => simp
  | cons b l ih =>
    rw [List.foldl_cons]
    obtain ⟨h1, h2⟩ := ih (min a b)
    have hm := h1 (min a b) (.inl rfl)
    constructor
    · rintro v (rfl | hv)
      · omega
      · rcases List.mem_cons.1 hv with rfl | hv
        · omega
        · exact h1 v (.inr hv)
    · rcases h2 with h | h
      · rw [h]
        rcases Int.le_total a b with hab | hab
        · left; rw [Int.min_eq_left hab]
        · right; rw [Int.min_eq_right hab]; simp
      · right; simp [h]

theorem maxElem_ret {y : List Int} (h : y ≠ []) :
    (maxElem y).Ret fun m => m ∈ y ∧ (∀ v ∈ y, v ≤ m) ∧ m = y.foldl max (y.headD 0) := by
  cases y with
  | nil => simp at h
  | cons v vs =>
    obtain ⟨h1, h2⟩ := foldl_max_spec vs v
    refine ⟨_, rfl, ?_, fun w hw => h1 w (by simpa using hw), ?_⟩
    · rcases h2 with h | h
      · rw [h]; simp
      · simp [h]
    · simp [Int.max_self]

theorem minElem_ret {y : List Int} (h : y ≠ []) :
    (minElem y).Ret fun m => m ∈ y ∧ ∀ v ∈ y, m ≤ v := by
  cases y with
  | nil => simp at h
  | cons v vs =>
    obtain ⟨h1, h2⟩ := foldl_min_spec vs v
    refine ⟨_, rfl, ?_, fun w hw => h1 w (by simpa using hw)⟩
    rcases h2 with h | h
    · rw [h]; simp
    · simp [h]

theorem checkLabels_ret {y : List Int} (h : y ≠ []) : (checkLabels y).Ret (Reports (labelChecks y)) := by
  unfold checkLabels
  refine Ret.bind (minElem_ret h) fun m ⟨h1, h2⟩ => ?_
  by_cases hm : m < 0
  · rw [if_pos hm, ret_ok]; exact .inl ⟨⟨m, h1, hm⟩, rfl⟩
  · rw [if_neg hm, ret_ok]
    refine .inr ⟨?_, rfl⟩
    rintro ⟨v, hv, h0⟩
    have := h2 v hv; omega

theorem checkLabelsMax_ret {y : List Int} (h : y ≠ []) (labels : Nat) :
    (checkLabelsMax y ((labels : Int) - 1)).Ret (Reports (labelMaxChecks y labels)) := by
  unfold checkLabelsMax
  refine Ret.bind (minElem_ret h) fun m ⟨h1, h2⟩ => Ret.bind (maxElem_ret h) fun hi ⟨k1, k2, k3⟩ => ?_
  by_cases hm : m < 0
  · rw [if_pos hm, ret_ok]; exact .inl ⟨⟨m, h1, hm⟩, rfl⟩
  · rw [if_neg hm]
    have hn : ¬ ∃ v ∈ y, v < 0 := by
      rintro ⟨v, hv, h0⟩
      have := h2 v hv; omega
    by_cases hh : hi > (labels : Int) - 1
    · rw [if_pos hh, ret_ok]
      refine .inr ⟨hn, .inl ⟨⟨hi, k1, by omega⟩, ?_⟩⟩
      rw [k3]; rfl
    · rw [if_neg hh, ret_ok]
      refine .inr ⟨hn, .inr ⟨?_, rfl⟩⟩
      rintro ⟨v, hv, h0⟩
      have := k2 v hv; omega

theorem checkResponseY_reports (y : List Int) (T : Int) :
    Reports (responseChecks y T) (checkResponseY y T) := by
  unfold checkResponseY responseChecks
  split
  · rename_i h
    refine .inl ⟨?_, rfl⟩
    rw [List.all_eq_false] at h
    obtain ⟨v, hv, h⟩ := h
    refine ⟨v, hv, ?_⟩
    simp only [Bool.and_eq_true, decide_eq_true_eq] at h; omega
  · rename_i h
    refine .inr ⟨?_, rfl⟩
    rw [Bool.not_eq_false, List.all_eq_true] at h
    rintro ⟨v, hv, h0⟩
    have := h v hv
    simp only [Bool.and_eq_true, decide_eq_true_eq] at this; omega

theorem checkX_ret {B : Backend} (L : Lawful B) {X : List B.Sample} {nf : Nat} (hX : X ≠ [])
    (hs : ∀ a ∈ X, ∀ b ∈ X, B.size a = B.size b) :
    (checkX B X (nf : Int)).Ret (Reports (widthChecks L.view X nf)) := by
  unfold checkX widthChecks
  cases X with
  | nil => simp at hX
  | cons x0 rest =>
    dsimp only
    split
    · rename_i h
      rw [ret_ok]
      exact .inl ⟨⟨x0, by simp, by simp only [Lawful.view]; omega⟩, rfl⟩
    · rename_i h
      rw [ret_ok]
      refine .inr ⟨?_, rfl⟩
      rintro ⟨x, hx, hne⟩
      have := hs x hx x0 (by simp)
      simp only [Lawful.view] at hne
      omega

theorem checkForPredict_ret {B : Backend} (L : Lawful B) {ta : TA B} {p : Params} {x : B.Sample} {nf : Nat}
    (hx : L.SInv x) (hp : isFitted B ta = true → p.numberOfFeatures = .ok (nf : Int)) :
    (checkForPredict B ta p x).Ret (Reports (sampleChecks L.view x (isFitted B ta) nf)) := by
  unfold checkForPredict sampleChecks
  by_cases hf : isFitted B ta = false
  · rw [if_pos hf, ret_ok]; exact .inl ⟨hf, rfl⟩
  · rw [if_neg hf, hp (by simpa using hf), ok_bind]
    by_cases h1 : (B.size x : Int) ≠ (nf : Int)
    · rw [if_pos h1, ret_ok]
      exact .inr ⟨hf, .inl ⟨by simp only [Lawful.view]; omega, rfl⟩⟩
    · rw [if_neg h1]
      have h1' : ¬ L.view.size x ≠ nf := by simp only [Lawful.view]; omega
      by_cases h2 : B.all01 x = false
      · rw [if_pos h2, ret_ok]
        refine .inr ⟨hf, .inr ⟨h1', .inl ⟨fun hb => ?_, rfl⟩⟩⟩
        have := (L.all01_eq x).2 hb
        simp_all
      · rw [if_neg h2]
        have h2' : ¬ ¬ L.view.binary x := fun hb => hb ((L.all01_eq x).1 (by simpa using h2))
        refine Ret.bind (L.pad_ret x hx) fun b hb => ?_
        cases b with
        | false =>
          rw [if_pos rfl, ret_ok]
          exact .inr ⟨hf, .inr ⟨h1', .inr ⟨h2', .inl ⟨fun hp => by simpa using hb.2 hp, rfl⟩⟩⟩⟩
        | true =>
          rw [if_neg (by simp), ret_ok]
          exact .inr ⟨hf, .inr ⟨h1', .inr ⟨h2', .inr ⟨fun hp => hp (hb.1 rfl), rfl⟩⟩⟩⟩

theorem checkForPredictBatch_ret {B : Backend} (L : Lawful B) {ta : TA B} {p : Params} {X : List B.Sample}
    {nf : Nat} (hX : ∀ x ∈ X, L.SInv x) (hp : isFitted B ta = true → p.numberOfFeatures = .ok (nf : Int)) :
    (checkForPredictBatch B ta p X).Ret (Reports (batchChecks L.view X (isFitted B ta) nf)) := by
  unfold checkForPredictBatch batchChecks
  by_cases hf : isFitted B ta = false
  · rw [if_pos hf, ret_ok]; exact .inl ⟨hf, rfl⟩
  · rw [if_neg hf]
    cases X with
    | nil => rw [ret_ok]; exact .inr ⟨hf, .inl ⟨rfl, rfl⟩⟩
    | cons x0 rest =>
      dsimp only
      have h0 : ¬ x0 :: rest = [] := by simp
      by_cases h3 : rest.all (fun r => B.size r == B.size x0) = false
      · rw [if_pos h3, ret_ok]
        exact .inr ⟨hf, .inr ⟨h0, .inl ⟨ragged_iff.1 h3, rfl⟩⟩⟩
      · rw [if_neg h3, hp (by simpa using hf), ok_bind]
        have h3' := mt ragged_iff.2 h3
        by_cases h1 : (B.size x0 : Int) ≠ (nf : Int)
        · rw [if_pos h1, ret_ok]
          exact .inr ⟨hf, .inr ⟨h0, .inr ⟨h3', .inl ⟨⟨x0, by simp, by simp only [Lawful.view]; omega⟩, rfl⟩⟩⟩⟩
        · rw [if_neg h1]
          have h1' : ¬ ∃ x ∈ x0 :: rest, L.view.size x ≠ nf := by
            rintro ⟨x, hx, hne⟩
            apply h3'
            refine ⟨x, hx, x0, by simp, ?_⟩
            simp only [Lawful.view] at hne; omega
          by_cases h4 : (x0 :: rest).all B.all01 = false
          · rw [if_pos h4, ret_ok]
            exact .inr ⟨hf, .inr ⟨h0, .inr ⟨h3', .inr ⟨h1', .inl ⟨(all01_false L).1 h4, rfl⟩⟩⟩⟩⟩
          · rw [if_neg h4]
            have h4' := mt (all01_false L).2 h4
            refine Ret.bind (allM_pad L _ hX) fun b hb => ?_
            cases b with
            | false =>
              rw [if_pos rfl, ret_ok]
              refine .inr ⟨hf, .inr ⟨h0, .inr ⟨h3', .inr ⟨h1', .inr ⟨h4', .inl ⟨?_, rfl⟩⟩⟩⟩⟩⟩
              apply Classical.byContradiction
              intro hc
              have : ∀ x ∈ x0 :: rest, L.Pad x := fun x hx => Classical.byContradiction
                fun hp => hc ⟨x, hx, hp⟩
              simpa using hb.2 this
            | true =>
              rw [if_neg (by simp), ret_ok]
              refine .inr ⟨hf, .inr ⟨h0, .inr ⟨h3', .inr ⟨h1', .inr ⟨h4', .inr ⟨?_, rfl⟩⟩⟩⟩⟩⟩
              rintro ⟨x, hx, hp⟩
              exact hp (hb.1 rfl x hx)

end Tsetlini
