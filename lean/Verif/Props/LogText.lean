import Verif.Lemmas.LogText
import Verif.Props.Log
import Verif.Instances.Base
/-
C86: the text of the log.
-/
namespace Tsetlini
open Res Spec

variable {a : Algo} {k : Kind} {env : Env}

/-! ### Numbers -/

theorem putReal_shown (v : Fl) : Shown (.real v) (putReal v) := by
  cases v with
  | nan => exact .nan
  | inf b => cases b <;> constructor
  | fin q =>
    show Shown _ (if q = 0 then [48] else if q < 0 then 45 :: putPositive (-q) else putPositive q)
    split
    · rename_i h
      subst h
      have h1 := putNat_decimal 0
      exact .real (v := 0) h1 ⟨by decide +kernel, by decide +kernel, by simp, ⟨0, 0, by decide +kernel, by decide⟩, fun _ _ h _ => h ▸ rfl⟩
    · rename_i h0
      have pos : ∀ x : Rat, 0 ≤ x → x.abs = x := fun x hx => Rat.abs_of_nonneg hx
      have neg : ∀ x : Rat, x ≤ 0 → x.abs = -x := fun x hx => Rat.abs_of_nonpos hx
      split
      · rename_i hn
        obtain ⟨int, frac, exp, ds, e, h1, h2, h3, h4, h5, h6, h7, h8, j1, k1, h9, h10⟩ := putPositive_text (q := -q) (by grind)
        rw [h1]
        have hd := Decimal.neg h2 h3 h4
        rw [List.append_assoc, List.append_assoc, ← List.append_assoc int] at hd
        refine .real hd ⟨?_, ?_, ?_, ⟨-j1, k1, by rw [h9, Rat.intCast_neg, Rat.neg_mul], by omega⟩, fun j k' hj hj6 => ?_⟩
        · rw [neg q (by grind), neg (-decimal int ds e) (by grind)]; grind
        · rw [neg q (by grind), neg (-decimal int ds e) (by grind)]; grind
        · grind
        · have := h8 (-j) k' (by rw [hj, Rat.intCast_neg, Rat.neg_mul]) (by omega)
          grind
      · obtain ⟨int, frac, exp, ds, e, h1, h2, h3, h4, h5, h6, h7, h8, j1, k1, h9, h10⟩ := putPositive_text (q := q) (by grind)
        rw [h1]
        refine .real (Decimal.pos h2 h3 h4) ⟨?_, ?_, ?_, ⟨j1, k1, h9, h10⟩, h8⟩
        · rw [pos q (by grind), pos _ (by grind)]; grind
        · rw [pos q (by grind), pos _ (by grind)]; grind
        · grind

/-! ### Lines -/

/-- The characters of numbers. -/
theorem fracText_mem {t ds : Bytes} (h : FracText t ds) {c : Nat} (hc : c ∈ t) : c ≠ 10 := by
  cases h with
  | none => cases hc
  | some h =>
    rcases List.mem_append.1 hc with hc | hc
    · simp at hc; omega
    · have := h.2 c hc; omega

theorem expText_mem {t : Bytes} {e : Int} (h : ExpText t e) {c : Nat} (hc : c ∈ t) : c ≠ 10 := by
  cases h with
  | none => cases hc
  | plain h1 h =>
    rcases List.mem_append.1 hc with hc | hc
    · simp at hc; omega
    · have := h.2 c hc; omega
  | plus h1 h =>
    rcases List.mem_append.1 hc with hc | hc
    · simp at hc; omega
    · have := h.2 c hc; omega
  | minus h1 h =>
    rcases List.mem_append.1 hc with hc | hc
    · simp at hc; omega
    · have := h.2 c hc; omega

theorem decimal_line {t : Bytes} {q : Rat} (h : Decimal t q) : 10 ∉ t := by
  have body : ∀ {int frac exp ds : Bytes} {e : Int}, IntText int → FracText frac ds → ExpText exp e → 10 ∉ int ++ frac ++ exp := by
    intro int frac exp ds e h1 h2 h3 hc
    rcases List.mem_append.1 hc with hc | hc
    · rcases List.mem_append.1 hc with hc | hc
      · have := h1.1.2 _ hc; omega
      · exact fracText_mem h2 hc rfl
    · exact expText_mem h3 hc rfl
  cases h with
  | pos h1 h2 h3 => exact body h1 h2 h3
  | neg h1 h2 h3 =>
    intro hc
    have hb := body h1 h2 h3
    simp only [List.mem_append] at hc hb
    rcases hc with ((hc | hc) | hc) | hc
    · simp at hc
    · exact hb (.inl (.inl hc))
    · exact hb (.inl (.inr hc))
    · exact hb (.inr hc)

/-- The entries there are. -/
inductive Logged : LogLine → Prop
  | int {name : String} {i : Int} : name ∈ ["number_of_labels", "number_of_clauses", "number_of_features", "number_of_states", "threshold", "max_weight", "n_jobs"] →
      Logged (.param name (.int i))
  | real {name : String} {v : Fl} : name ∈ ["s", "loss_fn(C1)"] → Logged (.param name (.real v))
  | bool {name : String} {b : Bool} : name ∈ ["weighted", "box_muller"] → Logged (.param name (.bool b))
  | seed {s : BitVec 32} : Logged (.param "random_state" (.seed s))
  | str {name s : String} : name ∈ ["counting_type", "loss_fn"] → 10 ∉ ascii s → Logged (.param name (.str s))
  | selected {ct : String} : 10 ∉ ascii ct → Logged (.selected ct)
  | epoch {n : Nat} : Logged (.epoch n)

/-- The text of an entry without its end. -/
def entryText : LogLine → Bytes
  | .param name v => ascii "INFO:tsetlini-core:" ++ ascii name ++ ascii ": " ++ valueText v
  | .selected ct => ascii "TRACE:tsetlini-core:Selected " ++ ascii ct ++ ascii " for ta_state"
  | .epoch n => ascii "INFO:tsetlini:Epoch " ++ putNat n

theorem lineText_eq (l : LogLine) : lineText l = entryText l ++ [10] := by
  cases l <;> rfl

theorem logText_eq (l : List LogLine) : logText l = (l.map entryText).flatMap (· ++ [10]) := by
  induction l with
  | nil => rfl
  | cons x l ih =>
    unfold logText at ih ⊢
    rw [List.flatMap_cons, List.map_cons, List.flatMap_cons, ih, lineText_eq]

theorem Logged.shown {l : LogLine} (h : Logged l) : LineShown l (entryText l) ∧ 10 ∉ entryText l := by
  have core : ∀ {name : String} {v : PVal}, 10 ∉ ascii name → Shown v (valueText v) → 10 ∉ valueText v →
      LineShown (.param name v) (entryText (.param name v)) ∧ 10 ∉ entryText (.param name v) := by
    intro name v h1 h2 h3
    refine ⟨.param h2, fun hc => ?_⟩
    unfold entryText at hc
    simp only [List.mem_append] at hc
    rcases hc with ((hc | hc) | hc) | hc
    · exact absurd hc (by decide)
    · exact h1 hc
    · exact absurd hc (by decide)
    · exact h3 hc
  have real : ∀ v, 10 ∉ putReal v := by
    intro v
    have := putReal_shown v
    generalize putReal v = t at *
    cases this with
    | real h _ => exact decimal_line h
    | nan => decide
    | inf => decide
    | negInf => decide
  cases h with
  | int h =>
    refine core ?_ (.int (putInt_decimal _)) (decimal_line (putInt_decimal _))
    simp only [List.mem_cons, List.not_mem_nil, or_false] at h
    rcases h with rfl | rfl | rfl | rfl | rfl | rfl | rfl <;> decide
  | real h =>
    refine core ?_ (putReal_shown _) (real _)
    simp only [List.mem_cons, List.not_mem_nil, or_false] at h
    rcases h with rfl | rfl <;> decide
  | bool h =>
    rename_i b
    refine core ?_ ?_ ?_
    · simp only [List.mem_cons, List.not_mem_nil, or_false] at h
      rcases h with rfl | rfl <;> decide
    · cases b
      · exact .no
      · exact .yes
    · cases b <;> decide
  | seed => exact core (by decide) (.seed (putNat_decimal _)) (decimal_line (putNat_decimal _))
  | str h h1 =>
    refine core ?_ .str h1
    simp only [List.mem_cons, List.not_mem_nil, or_false] at h
    rcases h with rfl | rfl <;> decide
  | selected h =>
    refine ⟨.selected, fun hc => ?_⟩
    unfold entryText at hc
    simp only [List.mem_append] at hc
    rcases hc with (hc | hc) | hc
    · exact absurd hc (by decide)
    · exact h hc
    · exact absurd hc (by decide)
  | epoch =>
    refine ⟨.epoch (putNat_decimal _), fun hc => ?_⟩
    unfold entryText at hc
    rcases List.mem_append.1 hc with hc | hc
    · exact absurd hc (by decide)
    · exact decimal_line (putNat_decimal _) hc

/-! ### What is logged -/

/-- Strings of the parameters are one line. -/
def OneLine (k : Kind) (p : Params) : Prop :=
  ∀ key s, key ∈ (match k with | .classifier => ["counting_type"] | .regressor => ["counting_type", "loss_fn"]) → p.get? key = some (.str s) → 10 ∉ ascii s

theorem getStr_inv {p : Params} {key s : String} (h : p.getStr key = .ok s) : p.get? key = some (.str s) := by
  unfold Params.getStr Params.at' at h
  cases hg : p.get? key with
  | none => rw [hg] at h; cases h
  | some v =>
    rw [hg] at h
    cases v <;> cases h
    rfl

theorem logParams_logged {kind : Kind} {p : Params} (hp : OneLine kind p) {l : List LogLine} (h : logParams kind p = .ok l) : ∀ x ∈ l, Logged x := by
  have mwL : ∀ {l : List LogLine}, logMaxWeight p = .ok l → ∀ x ∈ l, Logged x := by
    intro l h x hx
    unfold logMaxWeight at h
    obtain ⟨w, -, h⟩ := Res.bind_eq_ok.1 h
    split at h
    · obtain ⟨mw, -, h⟩ := Res.bind_eq_ok.1 h
      cases h
      rw [List.mem_singleton.1 hx]
      exact .int (by decide)
    · cases h; cases hx
  unfold logParams at h
  cases kind with
  | classifier =>
    simp only [bind_eq_ok] at h
    obtain ⟨_, -, _, -, _, -, _, -, _, -, _, -, _, -, mw, hmw, ct, hct, _, -, _, -, h⟩ := h
    cases h
    have hs := hp _ _ (by decide) (getStr_inv hct)
    intro x hx
    simp only [List.mem_append, List.mem_cons, List.not_mem_nil, or_false] at hx
    rcases hx with (h | h) | h
    · rcases h with rfl | rfl | rfl | rfl | rfl | rfl | rfl <;> first | exact .int (by decide) | exact .real (by decide) | exact .bool (by decide)
    · exact mwL hmw x h
    · rcases h with rfl | rfl | rfl
      · exact .str (by decide) hs
      · exact .int (by decide)
      · exact .seed
  | regressor =>
    simp only [bind_eq_ok] at h
    obtain ⟨_, -, _, -, _, -, _, -, _, -, _, -, mw, hmw, ls, hls, _, -, _, -, ct, hct, _, -, _, -, h⟩ := h
    cases h
    have hs := hp _ _ (by decide) (getStr_inv hct)
    have hs' := hp _ _ (by decide) (getStr_inv hls)
    intro x hx
    simp only [List.mem_append, List.mem_cons, List.not_mem_nil, or_false] at hx
    rcases hx with (h | h) | h
    · rcases h with rfl | rfl | rfl | rfl | rfl | rfl <;> first | exact .int (by decide) | exact .real (by decide) | exact .bool (by decide)
    · exact mwL hmw x h
    · rcases h with rfl | rfl | rfl | rfl | rfl | rfl
      · exact .str (by decide) hs'
      · exact .real (by decide)
      · exact .bool (by decide)
      · exact .str (by decide) hs
      · exact .int (by decide)
      · exact .seed

theorem emitted_logged {v : Bool} {l : List LogLine} (h : ∀ x ∈ l, Logged x) : ∀ x ∈ emitted v l, Logged x := by
  unfold emitted
  split
  · exact h
  · intro x hx; cases hx

theorem initLog_logged {kind : Kind} {p : Params} (hp : OneLine kind p) {l : List LogLine} (h : initLog kind p = .ok l) : ∀ x ∈ l, Logged x := by
  unfold initLog at h
  simp only [bind_eq_ok] at h
  obtain ⟨v, -, lp, hl, N, -, ct, -, h⟩ := h
  cases h
  refine emitted_logged fun x hx => ?_
  rcases List.mem_append.1 hx with hx | hx
  · exact logParams_logged hp hl x hx
  · rw [List.mem_singleton.1 hx]
    refine .selected ?_
    unfold normalizeCountingType
    split
    · decide
    · split <;> decide

theorem epochsLog_logged {p : Params} {ep : Nat} {l : List LogLine} (h : epochsLog p ep = .ok l) : ∀ x ∈ l, Logged x := by
  unfold epochsLog at h
  obtain ⟨v, -, h⟩ := Res.bind_eq_ok.1 h
  cases h
  refine emitted_logged fun x hx => ?_
  obtain ⟨e, -, rfl⟩ := List.mem_map.1 hx
  exact .epoch

theorem trainLog_logged {B : Backend} {kind : Kind} {fresh : Bool} {ep : Nat} {st : EstState B env} (hp : OneLine kind st.params) {o : Out} {l : List LogLine}
    (h : trainLog kind fresh ep st o = .ok l) : ∀ x ∈ l, Logged x := by
  unfold trainLog at h
  split at h
  · split at h
    · cases h; intro x hx; cases hx
    · simp only [bind_eq_ok] at h
      obtain ⟨l1, h1, l2, h2, h⟩ := h
      cases h
      intro x hx
      rcases List.mem_append.1 hx with hx | hx
      · split at h1
        · exact initLog_logged hp h1 x hx
        · cases h1; cases hx
      · exact epochsLog_logged h2 x hx
  · cases h; intro x hx; cases hx

theorem callLog_logged {B : Backend} {c : Call B.Sample k} {st st' : EstState B env} (hp : OneLine k st'.params) {o : Out} {l : List LogLine}
    (h : callLog c st st' o = .ok l) : ∀ x ∈ l, Logged x := by
  unfold callLog at h
  split at h
  · exact trainLog_logged hp h
  · exact trainLog_logged hp h
  · exact trainLog_logged hp h
  · exact trainLog_logged hp h
  · cases h; intro x hx; cases hx

theorem runLog_logged {B : Backend} {sc : Sched} : ∀ {cs : List (Call B.Sample k)} {st : EstState B env} {r : EstState B env × List LogLine},
    OneLine k st.params → runLog B env sc cs st = .ok r → ∀ x ∈ r.2, Logged x
  | [], st, r, _, h => by cases h; intro x hx; cases hx
  | c :: cs, st, r, hp, h => by
    unfold runLog at h
    simp only [bind_eq_ok] at h
    obtain ⟨r1, h1, l, h2, r2, h3, h⟩ := h
    cases h
    have hp1 : OneLine k r1.1.params := by
      intro key s hk hs
      have hk' : key = "counting_type" ∨ key = "loss_fn" := by
        cases k <;> simp at hk
        · exact .inl hk
        · exact hk
      rw [ifOk_iff.1 (step_other c st) _ h1 key (by rintro rfl; simp at hk') (by rintro rfl; simp at hk')] at hs
      exact hp key s hk hs
    intro x hx
    rcases List.mem_append.1 hx with hx | hx
    · exact callLog_logged hp1 h2 x hx
    · exact runLog_logged hp1 h3 x hx

theorem Spec.Configured.oneLine {p : Params} (h : Configured k p) : OneLine k p := by
  obtain ⟨r, ha, -, -, -, he⟩ := h
  intro key s hk hs
  have ct : p.get? "counting_type" = some (.str s) → 10 ∉ ascii s := fun hs => by
    have := he ("counting_type", .str r.countingType) (by unfold ParamSet.entries; simp)
    dsimp only at this
    rw [hs] at this
    cases this
    have hc := ha.countingType
    simp only [List.mem_cons, List.not_mem_nil, or_false] at hc
    rcases hc with h | h | h | h <;> rw [h] <;> decide
  cases k with
  | classifier =>
    dsimp only at hk
    rw [List.mem_singleton.1 hk] at hs
    exact ct hs
  | regressor =>
    simp only [List.mem_cons, List.not_mem_nil, or_false] at hk
    rcases hk with rfl | rfl
    · exact ct hs
    · have := he ("loss_fn", .str r.lossFn) (by unfold ParamSet.entries; simp)
      dsimp only at this
      rw [hs] at this
      cases this
      have hc := ha.lossFn rfl
      simp only [List.mem_cons, List.not_mem_nil, or_false] at hc
      rcases hc with h | h | h | h | h | h <;> rw [h] <;> decide

theorem Spec.Reached.oneLine {st : EstState a.backend env} (h : Reached a k st) : OneLine k st.params := by
  obtain ⟨st0, sc, cs, outs, h0, -, hr⟩ := h
  have h1 : OneLine k st0.params := by
    cases h0 with
    | made p hm e => subst e; exact (Made.configured hm).1.oneLine
    | loaded gio old js hl hc =>
      obtain ⟨labels, n, clauses, N, M, w, ct, h⟩ := hc
      exact h.params.oneLine
  intro key s hk hs
  have hk' : key = "counting_type" ∨ key = "loss_fn" := by
    cases k <;> simp at hk
    · exact .inl hk
    · exact hk
  rw [run_other cs _ hr key (by rintro rfl; simp at hk') (by rintro rfl; simp at hk')] at hs
  exact h1 key s hk hs

/-! ### C86 -/

/-- **C86**: the log of a history is a text of lines, one for each entry, and each line shows its entry: level, module, name and value. -/
theorem C86_lines {st st' : EstState a.backend env} (h : Reached a k st) {sc : Sched} {cs : List (Call a.Sample k)} {lines : List LogLine}
    (hr : runLog a.backend env sc cs st = .ok (st', lines)) :
    ∃ ts : List Bytes, Lines (logText lines) ts ∧ ts.length = lines.length ∧ ∀ (i : Nat) (l : LogLine) (t : Bytes), lines[i]? = some l → ts[i]? = some t → LineShown l t := by
  have hl := runLog_logged h.oneLine hr
  refine ⟨lines.map entryText, ⟨logText_eq _, fun t ht => ?_⟩, List.length_map .., fun i l t h1 h2 => ?_⟩
  · obtain ⟨l, hl', rfl⟩ := List.mem_map.1 ht
    exact (hl l hl').shown.2
  · rw [List.getElem?_map, h1] at h2
    cases h2
    exact (hl l (List.mem_of_getElem? h1)).shown.1

theorem sep_unique {c : Nat} : ∀ {s t x y : Bytes}, c ∉ s → c ∉ t → s ++ ([c] ++ x) = t ++ ([c] ++ y) → s = t ∧ x = y
  | [], [], x, y, _, _, h => ⟨rfl, (List.cons.inj h).2⟩
  | [], d :: t, x, y, _, h2, h => absurd (List.cons.inj h).1 (fun e => h2 (e ▸ List.mem_cons_self))
  | d :: s, [], x, y, h1, _, h => absurd (List.cons.inj h).1.symm (fun e => h1 (e ▸ List.mem_cons_self))
  | d :: s, d' :: t, x, y, h1, h2, h => by
    obtain ⟨e1, e2⟩ := List.cons.inj h
    obtain ⟨e3, e4⟩ := sep_unique (fun h => h1 (List.mem_cons_of_mem _ h)) (fun h => h2 (List.mem_cons_of_mem _ h)) e2
    exact ⟨by rw [e1, e3], e4⟩

/-- A text of lines says what its lines are. -/
theorem lines_unique : ∀ {ts us : List Bytes}, (∀ t ∈ ts, 10 ∉ t) → (∀ t ∈ us, 10 ∉ t) → ts.flatMap (· ++ [10]) = us.flatMap (· ++ [10]) → ts = us
  | [], [], _, _, _ => rfl
  | [], u :: us, _, _, h => by rw [List.flatMap_cons] at h; simp at h
  | t :: ts, [], _, _, h => by rw [List.flatMap_cons] at h; simp at h
  | t :: ts, u :: us, h1, h2, h => by
    rw [List.flatMap_cons, List.flatMap_cons, List.append_assoc, List.append_assoc] at h
    obtain ⟨e1, e2⟩ := sep_unique (h1 t List.mem_cons_self) (h2 u List.mem_cons_self) h
    rw [e1, lines_unique (fun x hx => h1 x (List.mem_cons_of_mem _ hx)) (fun x hx => h2 x (List.mem_cons_of_mem _ hx)) e2]

theorem ascii_inj {s t : String} (h : ascii s = ascii t) : s = t := by
  unfold ascii at h
  have hc : ∀ {l l' : List Char}, l.map Char.toNat = l'.map Char.toNat → l = l' := by
    intro l
    induction l with
    | nil => intro l' h; cases l' <;> simp at h; rfl
    | cons c l ih =>
      intro l' h
      cases l' with
      | nil => simp at h
      | cons c' l' =>
        rw [List.map_cons, List.map_cons] at h
        obtain ⟨h1, h2⟩ := List.cons.inj h
        rw [ih h2, Char.toNat_inj.1 h1]
  exact String.toList_inj.1 (hc h)

theorem Logged.name {n : String} {v : PVal} (h : Logged (.param n v)) : 58 ∉ ascii n := by
  cases h with
  | int h =>
    simp only [List.mem_cons, List.not_mem_nil, or_false] at h
    rcases h with rfl | rfl | rfl | rfl | rfl | rfl | rfl <;> decide
  | real h =>
    simp only [List.mem_cons, List.not_mem_nil, or_false] at h
    rcases h with rfl | rfl <;> decide
  | bool h =>
    simp only [List.mem_cons, List.not_mem_nil, or_false] at h
    rcases h with rfl | rfl <;> decide
  | seed => decide
  | str h =>
    simp only [List.mem_cons, List.not_mem_nil, or_false] at h
    rcases h with rfl | rfl <;> decide

/-- What kind of value a parameter has, by its name, and by the value. -/
def valueTag : PVal → Nat
  | .int _ => 0 | .real _ => 1 | .bool _ => 2 | .seed _ => 3 | .str _ => 4 | .none => 5

def nameTag (n : String) : Nat :=
  if n ∈ ["s", "loss_fn(C1)"] then 1 else if n ∈ ["weighted", "box_muller"] then 2 else if n = "random_state" then 3
  else if n ∈ ["counting_type", "loss_fn"] then 4 else 0

theorem Logged.tag {n : String} {v : PVal} (h : Logged (.param n v)) : valueTag v = nameTag n := by
  cases h with
  | int h =>
    simp only [List.mem_cons, List.not_mem_nil, or_false] at h
    rcases h with rfl | rfl | rfl | rfl | rfl | rfl | rfl <;> rfl
  | real h =>
    simp only [List.mem_cons, List.not_mem_nil, or_false] at h
    rcases h with rfl | rfl <;> rfl
  | bool h =>
    simp only [List.mem_cons, List.not_mem_nil, or_false] at h
    rcases h with rfl | rfl <;> rfl
  | seed => rfl
  | str h =>
    simp only [List.mem_cons, List.not_mem_nil, or_false] at h
    rcases h with rfl | rfl <;> rfl

theorem values_unique {n : String} {v v' : PVal} (h : Logged (.param n v)) (h' : Logged (.param n v')) (e : valueText v = valueText v') :
    v = v' ∨ ∃ x x' t, v = .real x ∧ v' = .real x' ∧ Shown (.real x) t ∧ Shown (.real x') t := by
  have ht := h.tag.trans h'.tag.symm
  cases h with
  | int h =>
    cases h' with
    | int h' => exact .inl (by rw [putInt_inj e])
    | _ => cases ht
  | real h =>
    cases h' with
    | real h' =>
      rename_i x x'
      exact .inr ⟨x, x', putReal x, rfl, rfl, putReal_shown x, by rw [show putReal x = putReal x' from e]; exact putReal_shown x'⟩
    | _ => cases ht
  | bool h =>
    cases h' with
    | bool h' =>
      rename_i b b'
      cases b <;> cases b' <;> first | exact .inl rfl | (exact absurd e (by decide))
    | _ => cases ht
  | seed =>
    cases h' with
    | seed => exact .inl (by rw [BitVec.eq_of_toNat_eq (putNat_inj e)])
    | _ => cases ht
  | str h h1 =>
    cases h' with
    | str h' => exact .inl (by rw [ascii_inj e])
    | _ => cases ht

theorem entry_unique {l l' : LogLine} (h : Logged l) (h' : Logged l') (e : entryText l = entryText l') :
    l = l' ∨ ∃ name v v' t, l = .param name (.real v) ∧ l' = .param name (.real v') ∧ Shown (.real v) t ∧ Shown (.real v') t := by
  have i1 : ascii "INFO:tsetlini-core:" = [73, 78, 70, 79, 58, 116, 115, 101, 116, 108, 105, 110, 105, 45, 99, 111, 114, 101, 58] := by decide
  have i2 : ascii "INFO:tsetlini:Epoch " = [73, 78, 70, 79, 58, 116, 115, 101, 116, 108, 105, 110, 105, 58, 69, 112, 111, 99, 104, 32] := by decide
  have i3 : ascii "TRACE:tsetlini-core:Selected " = 84 :: (ascii "TRACE:tsetlini-core:Selected ").tail := by decide
  cases l with
  | param n v =>
    cases l' with
    | param n' v' =>
      unfold entryText at e
      dsimp only at e
      rw [List.append_assoc, List.append_assoc, List.append_assoc, List.append_assoc] at e
      have e := List.append_cancel_left e
      have i4 : ascii ": " = [58] ++ [32] := by decide
      rw [i4, List.append_assoc, List.append_assoc] at e
      obtain ⟨e1, e2⟩ := sep_unique h.name h'.name e
      have e1 := ascii_inj e1
      subst e1
      have e2 := List.append_cancel_left e2
      rcases values_unique h h' e2 with rfl | ⟨x, x', t, rfl, rfl, h3, h4⟩
      · exact .inl rfl
      · exact .inr ⟨n, x, x', t, rfl, rfl, h3, h4⟩
    | selected ct => unfold entryText at e; dsimp only at e; rw [i1, i3] at e; simp at e
    | epoch m => unfold entryText at e; dsimp only at e; rw [i1, i2] at e; simp at e
  | selected ct =>
    cases l' with
    | param n v => unfold entryText at e; dsimp only at e; rw [i1, i3] at e; simp at e
    | selected ct' =>
      unfold entryText at e
      dsimp only at e
      rw [List.append_assoc, List.append_assoc] at e
      have e := List.append_cancel_right (List.append_cancel_left e)
      rw [ascii_inj e]
      exact .inl rfl
    | epoch m => unfold entryText at e; dsimp only at e; rw [i2, i3] at e; simp at e
  | epoch m =>
    cases l' with
    | param n v => unfold entryText at e; dsimp only at e; rw [i1, i2] at e; simp at e
    | selected ct => unfold entryText at e; dsimp only at e; rw [i2, i3] at e; simp at e
    | epoch m' =>
      unfold entryText at e
      dsimp only at e
      rw [putNat_inj (List.append_cancel_left e)]
      exact .inl rfl

/-- **C86**: the text of a log says what was logged, whichever estimators wrote it: the logs of two histories have equal texts only if they have the same entries, except that
numbers which are alike to six digits look alike. -/
theorem C86_unique {a a' : Algo} {k k' : Kind} {env env' : Env} {st st1 : EstState a.backend env} {st' st1' : EstState a'.backend env'} (h : Reached a k st) (h' : Reached a' k' st')
    {sc sc' : Sched} {cs : List (Call a.Sample k)} {cs' : List (Call a'.Sample k')} {lines lines' : List LogLine}
    (hr : runLog a.backend env sc cs st = .ok (st1, lines)) (hr' : runLog a'.backend env' sc' cs' st' = .ok (st1', lines')) (ht : logText lines = logText lines') :
    lines.length = lines'.length ∧ ∀ (i : Nat) (l l' : LogLine), lines[i]? = some l → lines'[i]? = some l' →
      l = l' ∨ ∃ name v v' t, l = LogLine.param name (.real v) ∧ l' = LogLine.param name (.real v') ∧ Shown (.real v) t ∧ Shown (.real v') t := by
  have hl := runLog_logged h.oneLine hr
  have hl' := runLog_logged h'.oneLine hr'
  rw [logText_eq, logText_eq] at ht
  have e := lines_unique (by
    intro t ht
    obtain ⟨l, h1, rfl⟩ := List.mem_map.1 ht
    exact (hl l h1).shown.2) (by
    intro t ht
    obtain ⟨l, h1, rfl⟩ := List.mem_map.1 ht
    exact (hl' l h1).shown.2) ht
  refine ⟨by have := congrArg List.length e; simpa using this, fun i l l' h1 h2 => ?_⟩
  have e2 : entryText l = entryText l' := by
    have := congrArg (fun x => x[i]?) e
    rw [List.getElem?_map, List.getElem?_map, h1, h2] at this
    exact Option.some.inj this
  exact entry_unique (hl l (List.mem_of_getElem? h1)) (hl' l' (List.mem_of_getElem? h2)) e2

/-- The text of the log of a verbose classifier's history. -/
example : (match runLog bitwise Toy.env Toy.seq Toy.bCalls (EstState.fresh bitwise Toy.env (Toy.made (Toy.cMore (.verbose true)))) with
      | .ok (_, l) => logText l | _ => []) = ascii (
    "INFO:tsetlini-core:number_of_labels: 3\nINFO:tsetlini-core:number_of_clauses: 12\nINFO:tsetlini-core:number_of_features: 3\n" ++
    "INFO:tsetlini-core:s: 2\nINFO:tsetlini-core:number_of_states: 3\nINFO:tsetlini-core:threshold: 2\nINFO:tsetlini-core:weighted: 1\n" ++
    "INFO:tsetlini-core:max_weight: 3\nINFO:tsetlini-core:counting_type: auto\nINFO:tsetlini-core:n_jobs: 8\nINFO:tsetlini-core:random_state: 5\n" ++
    "TRACE:tsetlini-core:Selected int8 for ta_state\nINFO:tsetlini:Epoch 1\nINFO:tsetlini:Epoch 2\nINFO:tsetlini:Epoch 1\n") := by decide +kernel

/-- Texts of numbers. -/
example : putReal (.fin (5/2)) = ascii "2.5" ∧ putReal (.fin (-1/10)) = ascii "-0.1" ∧ putReal (.fin 999999) = ascii "999999" ∧ putReal (.fin 1000000) = ascii "1e+06" ∧
    putReal (.fin (1/10000)) = ascii "0.0001" ∧ putReal (.fin (1/100000)) = ascii "1e-05" ∧ putReal (.fin (1234565/10)) = ascii "123456" ∧ putReal (.fin (2/3)) = ascii "0.666667" := by
  decide +kernel

end Tsetlini
