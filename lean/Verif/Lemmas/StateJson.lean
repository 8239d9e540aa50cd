import Verif.Model.StateJson
import Verif.Spec.Saved
import Verif.Lemmas.ParamTypes
import Verif.Lemmas.Same
import Verif.Lemmas.Observe
import Verif.Lemmas.RealEnv
/- Saving and loading. -/
namespace Tsetlini
open Res Spec

/-! ### Documents -/

theorem ofInt_getInt {i : Int} (h : IsInt i) : (JVal.ofInt i).getInt = .ok i := by
  obtain ⟨h1, h2⟩ := h
  unfold JVal.ofInt
  split
  · next h0 =>
    show Res.ok ((i.toNat : Int).bmod 4294967296) = _
    rw [Int.toNat_of_nonneg h0, Int.bmod_eq_of_le (by omega) (by omega)]
  · unfold JVal.getInt
    dsimp only
    rw [Int.bmod_eq_of_le (by omega) (by omega)]

theorem collect_ok {α β : Type} {f : α → Res β} {g : β → α} (l : List β) (h : ∀ x ∈ l, f (g x) = .ok x) :
    (l.map g).foldr (fun j r => (f j).bind fun v => r.bind fun vs => .ok (v :: vs)) (.ok []) = .ok l := by
  induction l with
  | nil => rfl
  | cons x l ih =>
    rw [List.map_cons, List.foldr_cons, h x (by simp), ok_bind, ih fun y hy => h y (by simp [hy]), ok_bind]

theorem getVec_map {α : Type} {f : JVal → Res α} {g : α → JVal} (l : List α) (h : ∀ x ∈ l, f (g x) = .ok x) :
    (JVal.arr (l.map g)).getVec f = .ok l := collect_ok l h

theorem getSeed_word (w : BitVec 32) : (JVal.unsigned w.toNat).getSeed = .ok w := by
  show Res.ok (BitVec.ofNat 32 w.toNat) = _
  rw [BitVec.ofNat_toNat, BitVec.setWidth_eq]

theorem getU64_word (w : BitVec 64) : (JVal.unsigned w.toNat).getU64 = .ok w := by
  show Res.ok (BitVec.ofNat 64 w.toNat) = _
  rw [BitVec.ofNat_toNat, BitVec.setWidth_eq]

/-! ### Generators -/

theorem copyInto_all {α : Type} {src dst : List α} (h : src.length = dst.length) : copyInto src dst = .ok src := by
  unfold copyInto
  rw [if_pos (by omega), h, List.drop_length, List.append_nil]

theorem mt_round {V : Type} {to : V → JVal} {from' : JVal → Res V} {m d : Mt V} (h : ∀ v ∈ m.res, from' (to v) = .ok v)
    (hi : m.index < 4294967296) (h1 : m.res.length = d.res.length) (h2 : m.mt.length = d.mt.length) :
    Mt.ofJson from' d (m.toJson to) = .ok m := by
  unfold Mt.ofJson Mt.toJson
  have e1 : (JVal.obj [("MT", .arr (m.mt.map fun w => .unsigned w.toNat)), ("RES", .arr (m.res.map to)),
    ("index", .unsigned m.index)]).at' "index" = .ok (.unsigned m.index) := rfl
  have e2 : (JVal.obj [("MT", .arr (m.mt.map fun w => .unsigned w.toNat)), ("RES", .arr (m.res.map to)),
    ("index", .unsigned m.index)]).at' "RES" = .ok (.arr (m.res.map to)) := rfl
  have e3 : (JVal.obj [("MT", .arr (m.mt.map fun w => .unsigned w.toNat)), ("RES", .arr (m.res.map to)),
    ("index", .unsigned m.index)]).at' "MT" = .ok (.arr (m.mt.map fun w => .unsigned w.toNat)) := rfl
  have e4 : (JVal.unsigned m.index).getSeed = .ok (BitVec.ofNat 32 m.index) := rfl
  rw [e1, ok_bind, e4, ok_bind, e2, ok_bind, getVec_map _ h, ok_bind, copyInto_all h1, ok_bind, e3, ok_bind, getVec_map _ (fun w _ => getSeed_word w), ok_bind,
    copyInto_all h2, ok_bind, BitVec.toNat_ofNat, Nat.mod_eq_of_lt hi]

/-- The library's way: the tables of `MtGen`s.  (Tables that no seed leads to are not values of the type `MtGen`;
no saved state contains any.) -/
noncomputable def realGen {V : Type} {post : BitVec 32 → V} (zero : V) (from' : JVal → Res V) (j : JVal) : Res (MtGen post) :=
  open Classical in
  (Mt.ofJson from' (MtGen.seed post zero 1#32).1 j).bind fun m =>
  if h : ∃ seed n, MtOk post seed n m then .ok ⟨m, h⟩ else .ub .oob

theorem realGen_round {V : Type} {post : BitVec 32 → V} {zero : V} {to : V → JVal} {from' : JVal → Res V} (g : MtGen post)
    (h : ∀ v ∈ g.1.res, from' (to v) = .ok v) : realGen zero from' (g.1.toJson to) = .ok g := by
  obtain ⟨m, seed, n, hm⟩ := g
  have h0 := MtGen.seed_ok (post := post) zero 1#32
  unfold realGen
  rw [mt_round h (by rw [hm.index]; omega) (by rw [hm.resLen, h0.resLen]) (by rw [hm.words.1, h0.words.1]), ok_bind,
    dif_pos ⟨seed, n, hm⟩]

/-- A number as a `float`; too great ones are left open by C++. -/
def F32.of (q : Rat) : Res F32 :=
  if h : -((2 ^ 128 : Nat) : Rat) < rne32 q ∧ rne32 q < ((2 ^ 128 : Nat) : Rat) then .ok ⟨rne32 q, rne_idem (by decide) _, h⟩ else .ub .floatConv

theorem F32.of_self (v : F32) : F32.of v.1 = .ok v := by
  unfold F32.of
  rw [dif_pos (by rw [v.2.1]; exact v.2.2)]
  exact congrArg Res.ok (Subtype.ext v.2.1)

/-- `get<float>()` -/
def getF32 (j : JVal) : Res F32 :=
  match j with
  | .unsigned n => F32.of n
  | .integer i => F32.of i
  | .float q => F32.of q
  | .bool b => F32.of (if b then 1 else 0)
  | _ => .exn .jsonError

theorem getF32_getFloat {j : JVal} {v : F32} (h : getF32 j = .ok v) : j.getFloat rne32 = .ok v.1 := by
  have key : ∀ {q : Rat}, F32.of q = .ok v → rne32 q = v.1 := by
    intro q h
    unfold F32.of at h
    split at h
    · exact congrArg Subtype.val (Res.ok.inj h)
    · cases h
  cases j with
  | unsigned n => exact congrArg Res.ok (key h)
  | integer i => exact congrArg Res.ok (key h)
  | float q => exact congrArg Res.ok (key h)
  | bool b => exact congrArg Res.ok (key h)
  | _ => cases h

/-- Saving and loading of the library's generators. -/
noncomputable def realGenIO (u : Unspecified) : GenIO (realEnv u) where
  iTo := fun g : Irng => g.1.toJson fun w => .unsigned w.toNat
  iOf := fun j => realGen (post := irngPost) 0#32 JVal.getSeed j
  fTo := fun g : Frng => g.1.toJson fun v => .float v.1
  fOf := fun j => realGen (post := frngPost32) F32.zero getF32 j

theorem realGenIO_faithful (u : Unspecified) :
    (∀ g, (realGenIO u).iOf ((realGenIO u).iTo g) = .ok g) ∧ ∀ g, (realGenIO u).fOf ((realGenIO u).fTo g) = .ok g := by
  constructor
  · intro g
    exact realGen_round (to := fun w => .unsigned w.toNat) (from' := JVal.getSeed) (show Irng from g) fun w _ => getSeed_word w
  · intro g
    refine realGen_round (to := fun v => .float v.1) (from' := getF32) (show Frng from g) fun v _ => ?_
    exact F32.of_self v

/-! ### Automata -/

theorem foldr_ok {α β : Type} {f : α → Res β} {g : β → α} (l : List β) (h : ∀ x ∈ l, f (g x) = .ok x) :
    (l.map g).foldr (fun j r => (f j).bind fun v => r.bind fun vs => .ok (v :: vs)) (.ok []) = .ok l := collect_ok l h

theorem matrix_round {ty : CType} {N : Int} {nf : Nat} {m : Matrix} {cl : List Clause} (h : ClassicAbs ty N nf m cl)
    (hN : N ≤ 2147483647) (hc : cl ≠ []) (ha : allocOk ty.bytes (2 * cl.length) nf = true) :
    Matrix.ofJson m.toJson = .ok m := by
  obtain ⟨ct, cols, rows⟩ := m
  have h1 := h.rows
  have h2 := h.ctype
  have h3 := h.cols
  have h4 := h.fits
  dsimp only at h1 h2 h3 h4
  subst h2 h3
  have hlen : ∀ r ∈ rows, r.length = cols ∧ ∀ c ∈ r, -N ≤ c ∧ c ≤ N - 1 := by
    intro r hr
    rw [h1] at hr
    obtain ⟨c, hc, e⟩ := mem_toRows hr
    have w := h.wf c hc
    rcases e with rfl | rfl
    · exact ⟨w.posLen, w.posRange⟩
    · exact ⟨w.negLen, w.negRange⟩
  have hrl : rows.length = 2 * cl.length := by rw [h1, toRows_length]
  unfold Matrix.ofJson Matrix.toJson
  have e1 : (JVal.obj [("data", .arr (rows.map fun r => .arr (r.map JVal.ofInt))), ("width", .unsigned ct.bytes)]).at' "width" =
    .ok (.unsigned ct.bytes) := rfl
  have e2 : (JVal.obj [("data", .arr (rows.map fun r => .arr (r.map JVal.ofInt))), ("width", .unsigned ct.bytes)]).at' "data" =
    .ok (.arr (rows.map fun r => .arr (r.map JVal.ofInt))) := rfl
  have e3 : (JVal.unsigned ct.bytes).getU64 = .ok (BitVec.ofNat 64 ct.bytes) := rfl
  have e4 : ctypeOfWidth (BitVec.ofNat 64 ct.bytes) = ct := by cases ct <;> decide
  have e5 : (JVal.arr (rows.map fun r => .arr (r.map JVal.ofInt))).rowsOf = .ok (rows.map fun r => .arr (r.map JVal.ofInt)) := rfl
  dsimp only
  rw [e1, ok_bind, e3, ok_bind, e2, ok_bind, e5, ok_bind, e4]
  have hr0 : 0 < rows.length := by
    rw [hrl]
    have := List.length_pos_iff.2 hc
    omega
  rw [rd_of_getElem? (a := .arr ((rows[0]'hr0).map JVal.ofInt)) (by rw [List.getElem?_map, List.getElem?_eq_getElem hr0]; rfl), ok_bind]
  have e6 : (JVal.arr ((rows[0]'hr0).map JVal.ofInt)).size = cols := by
    show List.length _ = _
    rw [List.length_map, (hlen _ (List.getElem_mem hr0)).1]
  rw [e6, List.length_map, hrl, ha, if_neg (by decide)]
  rw [foldr_ok rows ?_, ok_bind]
  intro r hr
  have hl := hlen r hr
  unfold rowOfJson
  rw [if_neg (by show ¬ (List.length _ ≠ _); rw [List.length_map]; simp [hl.1])]
  show ((JVal.arr (r.map JVal.ofInt)).getVec JVal.getInt).bind _ = _
  rw [getVec_map r fun c hc => ofInt_getInt (by have := hl.2 c hc; unfold IsInt; omega), ok_bind]
  congr 1
  conv => rhs; rw [← List.map_id r]
  exact List.map_congr_left fun c hc => store_id h4 (hl.2 c hc).1 (hl.2 c hc).2

theorem chunks_flatten {α : Type} (w : Nat) (l : List (List α)) (h : ∀ r ∈ l, r.length = w) :
    (List.range l.length).map (fun r => (l.flatten.drop (r * w)).take w) = l := by
  induction l with
  | nil => rfl
  | cons r l ih =>
    have hr := h r (by simp)
    rw [List.length_cons, List.range_succ_eq_map, List.map_cons, List.map_map]
    congr 1
    · rw [Nat.zero_mul, List.drop_zero, List.flatten_cons, ← hr, List.take_left']
      rfl
    · conv => rhs; rw [← ih fun x hx => h x (by simp [hx])]
      refine List.map_congr_left fun i _ => ?_
      show List.take w (List.drop ((i + 1) * w) (r :: l).flatten) = _
      rw [List.flatten_cons, Nat.succ_mul, Nat.add_comm, ← hr, List.drop_length_add_append]

theorem pol_round {nf : Nat} {pol : List (List Block)} (h : ∀ r ∈ pol, r.length = rowBlocks nf) (hp : pol.length < 4294967296)
    (hn : nf < 4294967296) : polOfJson (polToJson nf pol) = .ok pol := by
  unfold polOfJson polToJson
  have e1 : (JVal.obj [("cols", .unsigned nf), ("data", .arr (pol.flatten.map fun b => .unsigned b.toNat)),
    ("rows", .unsigned pol.length)]).at' "rows" = .ok (.unsigned pol.length) := rfl
  have e2 : (JVal.obj [("cols", .unsigned nf), ("data", .arr (pol.flatten.map fun b => .unsigned b.toNat)),
    ("rows", .unsigned pol.length)]).at' "cols" = .ok (.unsigned nf) := rfl
  have e3 : (JVal.obj [("cols", .unsigned nf), ("data", .arr (pol.flatten.map fun b => .unsigned b.toNat)),
    ("rows", .unsigned pol.length)]).at' "data" = .ok (.arr (pol.flatten.map fun b => .unsigned b.toNat)) := rfl
  have e4 : ∀ n, (JVal.unsigned n).getSeed = .ok (BitVec.ofNat 32 n) := fun _ => rfl
  rw [e1, ok_bind, e4, ok_bind, e2, ok_bind, e4, ok_bind, e3, ok_bind, getVec_map _ (fun w _ => getU64_word w), ok_bind,
    BitVec.toNat_ofNat, BitVec.toNat_ofNat, Nat.mod_eq_of_lt hp, Nat.mod_eq_of_lt hn, chunks_flatten _ _ h]

theorem weights_round {ws : List Nat} (h : ∀ w ∈ ws, w < 4294967296) : weightsOfJson (weightsToJson ws) = .ok ws := by
  unfold weightsOfJson weightsToJson
  have e : ws.map JVal.unsigned = (ws.map (BitVec.ofNat 32)).map fun w => .unsigned w.toNat := by
    rw [List.map_map]
    refine List.map_congr_left fun w hw => ?_
    show _ = JVal.unsigned (BitVec.ofNat 32 w).toNat
    rw [BitVec.toNat_ofNat, Nat.mod_eq_of_lt (h w hw)]
  rw [e, getVec_map _ (fun w _ => getSeed_word w), ok_bind, List.map_map]
  congr 1
  conv => rhs; rw [← List.map_id ws]
  refine List.map_congr_left fun w hw => ?_
  show (BitVec.ofNat 32 w).toNat = w
  rw [BitVec.toNat_ofNat, Nat.mod_eq_of_lt (h w hw)]

/-! ### Parameters -/

/-- What becomes of a value. -/
def reload (rnd : Rat → Rat) (key : String) : PVal → PVal
  | .int v => if 0 ≤ v then recast key (.seed (BitVec.ofNat 32 v.toNat)) else .int (v.bmod 4294967296)
  | .seed v => recast key (.seed v)
  | .real (.fin q) => .real (.fin (rnd q))
  | .real _ => .none
  | .bool b => .bool b
  | .str s => .str s
  | .none => .none

theorem pval_reload (rnd : Rat → Rat) (key : String) (v : PVal) :
    ∃ w, PVal.ofJson rnd v.toJson = .ok w ∧ recast key w = reload rnd key v := by
  cases v with
  | int v =>
    unfold PVal.toJson JVal.ofInt reload
    dsimp only
    split
    · exact ⟨_, rfl, rfl⟩
    · exact ⟨_, rfl, rfl⟩
  | seed v =>
    refine ⟨.seed v, ?_, rfl⟩
    show ((JVal.unsigned v.toNat).getSeed).bind (fun v => Res.ok (PVal.seed v)) = _
    rw [getSeed_word, ok_bind]
  | real v => cases v <;> exact ⟨_, rfl, rfl⟩
  | bool b => exact ⟨_, rfl, rfl⟩
  | str s => exact ⟨_, rfl, rfl⟩
  | none => exact ⟨_, rfl, rfl⟩

theorem params_reload (rnd : Rat → Rat) (p : Params) :
    Params.ofJson rnd p.toJson = .ok (p.map fun e => (e.1, reload rnd e.1 e.2)) := by
  unfold Params.toJson
  show (p.map _).foldr _ _ = _
  induction p with
  | nil => rfl
  | cons e p ih =>
    obtain ⟨w, h1, h2⟩ := pval_reload rnd e.1 e.2
    rw [List.map_cons, List.foldr_cons, ih]
    dsimp only
    rw [h1, ok_bind, ok_bind, h2]
    rfl

theorem get?_reload (rnd : Rat → Rat) (p : Params) (key : String) :
    Params.get? (p.map fun e => (e.1, reload rnd e.1 e.2)) key = (p.get? key).map (reload rnd key) := by
  induction p with
  | nil => rfl
  | cons e p ih =>
    obtain ⟨k, v⟩ := e
    show List.lookup key ((k, reload rnd k v) :: _) = (List.lookup key ((k, v) :: p)).map _
    rw [List.lookup_cons, List.lookup_cons]
    split
    · next h => rw [eq_of_beq h]; rfl
    · exact ih

theorem reload_int {rnd : Rat → Rat} {key : String} {i : Int} (hi : IsInt i) (hk : key ≠ "random_state") :
    reload rnd key (.int i) = .int i := by
  obtain ⟨h1, h2⟩ := hi
  unfold reload
  dsimp only
  split
  · next h0 =>
    unfold recast
    dsimp only
    rw [if_pos hk, BitVec.toInt_ofNat', Int.toNat_of_nonneg h0, Int.bmod_eq_of_le (by omega) (by omega)]
  · rw [Int.bmod_eq_of_le (by omega) (by omega)]

theorem reload_same {rnd : Rat → Rat} {k : Kind} {p : Params} (ht : ∀ key v, p.get? key = some v → TypedAt k key v)
    (hf : FloatsOk rnd p) (hi : ∀ key i, key = "number_of_labels" ∨ key = "number_of_features" → p.get? key = some (.int i) → IsInt i) :
    AgreeBut [] p (p.map fun e => (e.1, reload rnd e.1 e.2)) := by
  intro key _
  rw [get?_reload]
  cases hg : p.get? key with
  | none => rfl
  | some v =>
    have t := ht _ _ hg
    show some (reload rnd key v) = some v
    congr 1
    cases v with
    | int i =>
      obtain ⟨t1, -, t3⟩ := t
      refine reload_int ?_ t1
      by_cases h1 : key = "number_of_labels"
      · exact hi _ _ (.inl h1) hg
      by_cases h2 : key = "number_of_features"
      · exact hi _ _ (.inr h2) hg
      exact t3 h1 h2
    | seed b =>
      have t : key = "random_state" := t
      subst t
      rfl
    | real x =>
      obtain ⟨q, rfl, hq⟩ := hf _ _ hg
      show PVal.real (.fin (rnd q)) = _
      rw [hq]
    | bool b => rfl
    | str b => rfl
    | none => rfl

/-! ### States -/

theorem resetCache_ret {B : Backend} (L : Lawful B) {env : Env} {cfg : Cfg} (hv : Valid cfg) {labels nf : Nat} {st : EstState B env}
    {ss : SState env} (h : Fit L cfg labels nf st ss) {p : Params} (hp : AgreeBut [] st.params p) (tick : Nat) :
    (resetCache env cfg.kind p tick).Ret fun c => Fit L cfg labels nf ⟨p, st.ta, c, st.igen, st.fgen⟩ ss := by
  have e : ∀ key, p.get? key = st.params.get? key := fun key => hp key (by simp)
  have hr : Reads p cfg := h.reads.agree hp
  have hl : cfg.kind = .classifier → p.get? "number_of_labels" = some (.int labels) := fun hk => by rw [e]; exact h.labelsP hk
  have hf : p.get? "number_of_features" = some (.int nf) := by rw [e]; exact h.featP
  have hsm := Fit.small' hv h
  have hlab : (labels : Int) * (cfg.k : Int) = ((labels * cfg.k : Nat) : Int) := by push_cast; rfl
  have hfeat : p.numberOfFeatures = .ok (nf : Int) := Params.getInt_eq hf
  obtain ⟨ct, hct, c1, c2, c3, c4⟩ := make_ret env hv.s (n := nf) (by have := h.nfSmall; omega)
  have hctn : ctNums env cfg.s nf = (ct.hitsFloor, ct.thr) := by unfold ctNums; rw [hct]
  have hctok : CtOk nf (ctNums env cfg.s nf).1 (ctNums env cfg.s nf).2 ct := by
    rw [hctn]; exact ⟨rfl, rfl, by rw [c1]; simp, by rw [c2]; simp⟩
  have hT := hv.T
  cases hk : cfg.kind with
  | classifier =>
    unfold resetCache
    dsimp only
    have ho : p.classifierOutputs = .ok ((labels * cfg.k : Nat) : Int) := by
      unfold Params.classifierOutputs
      have : p.numberOfLabels = .ok (labels : Int) := Params.getInt_eq (hl hk)
      rw [this, ok_bind, hr.p_k hv hk, ok_bind, hlab, i32_ok (by omega) (by omega)]
    have : p.numberOfLabels = .ok (labels : Int) := Params.getInt_eq (hl hk)
    rw [ho, ok_bind, vecSize_ok, ok_bind, this, ok_bind, vecSize_ok, ok_bind, hr.p_s, ok_bind, hfeat, ok_bind,
      natOfInt32 (by have := h.nfSmall; omega), hct, ok_bind, ret_ok]
    exact { h with
      reads := hr, labelsP := hl, featP := hf
      coLen := by simp
      lsLen := fun _ => by simp
      fbLen := fun _ => by simp
      fbRange := fun f hf => .inr (.inl (List.eq_of_mem_replicate hf))
      lsRange := fun s hs => by rw [List.eq_of_mem_replicate hs]; omega
      ct := hctok }
  | regressor =>
    unfold resetCache
    dsimp only
    have ho : p.regressorOutputs = .ok ((labels * cfg.k : Nat) : Int) := by
      rw [hr.p_outR hv hk, h.reg1 hk, Nat.one_mul]
    rw [ho, ok_bind, vecSize_ok, ok_bind, hr.p_s, ok_bind, hfeat, ok_bind,
      natOfInt32 (by have := h.nfSmall; omega), hct, ok_bind, ret_ok]
    exact { h with
      reads := hr, labelsP := hl, featP := hf
      coLen := by simp
      lsLen := fun hk' => by rw [hk] at hk'; cases hk'
      fbLen := fun hk' => by rw [hk] at hk'; cases hk'
      fbRange := fun f hf => by cases hf
      lsRange := fun s hs => by cases hs
      ct := hctok }

theorem classic_round {ty : CType} {N : Int} {nf : Nat} {ta : TA classic} {cl : List Clause}
    (h : ClassicAbs ty N nf ta.mat cl) (hN : N ≤ 2147483647) (hc : cl ≠ [])
    (ha : allocOk ty.bytes (2 * cl.length) nf = true) (hw : ∀ w ∈ ta.weights, w < 4294967296) :
    classicIO.ofJ (classicIO.toJ ta) = .ok ta := by
  obtain ⟨m, ws⟩ := ta
  have h : ClassicAbs ty N nf m cl := h
  have e : Matrix.ofJson (Matrix.toJson m) = Res.ok m := matrix_round h hN hc ha
  show (Matrix.ofJson (Matrix.toJson m)).bind (fun m => (weightsOfJson (weightsToJson ws)).bind fun ws => Res.ok (⟨m, ws⟩ : TA classic)) = _
  rw [e]
  show (weightsOfJson (weightsToJson ws)).bind _ = _
  rw [weights_round hw]
  rfl

theorem bitwise_round {ty : CType} {N : Int} {nf : Nat} {ta : TA bitwise} {cl : List Clause}
    (h : BitAbs ty N nf ta.mat cl) (hN : N ≤ 2147483647) (hc : cl ≠ [])
    (ha : allocOk ty.bytes (2 * cl.length) nf = true) (hl : 2 * cl.length < 4294967296) (hnf : nf < 4294967296)
    (hw : ∀ w ∈ ta.weights, w < 4294967296) :
    bitwiseIO.ofJ (bitwiseIO.toJ ta) = .ok ta := by
  obtain ⟨M, ws⟩ := ta
  have h : BitAbs ty N nf M cl := h
  obtain ⟨m, pol⟩ := M
  obtain ⟨m0, hm0⟩ : ∃ n, m.cols = n := ⟨_, rfl⟩
  show (Matrix.ofJson (Matrix.toJson m)).bind (fun m' => (weightsOfJson (weightsToJson ws)).bind fun ws =>
    (polOfJson (polToJson m.cols pol)).bind fun pol => Res.ok (⟨(⟨m', pol⟩ : PMatrix), ws⟩ : TA bitwise)) = _
  rw [hm0]
  show (Matrix.ofJson (Matrix.toJson m)).bind (fun m => (weightsOfJson (weightsToJson ws)).bind fun ws =>
    (polOfJson (polToJson m0 pol)).bind fun pol => Res.ok (⟨(⟨m, pol⟩ : PMatrix), ws⟩ : TA bitwise)) = _
  have hb := h.base
  have hcols : m.cols = nf := hb.cols
  have hrl : m.rows.length = 2 * cl.length := by
    have e : m.rows = toRows cl := hb.rows
    rw [e, toRows_length]
  have hpl : pol.length = m.rows.length := h.polLen
  have hp : ∀ r ∈ pol, r.length = rowBlocks nf := by
    intro r hr
    obtain ⟨i, hi, rfl⟩ := List.getElem_of_mem hr
    obtain ⟨p, h1, h2, -⟩ := h.pol i (m.rows[i]'(hpl ▸ hi)) (List.getElem?_eq_getElem (hpl ▸ hi))
    have h1 : pol[i]? = some p := h1
    rw [List.getElem?_eq_getElem hi] at h1
    cases h1
    exact h2
  rw [matrix_round hb hN hc ha, ok_bind, weights_round hw, ok_bind, ← hm0, hcols, pol_round hp (by omega) hnf, ok_bind]

theorem io_round (a : Algo) {ty : CType} {N : Int} {nf : Nat} {ta : TA a.backend} {cl : List Clause}
    (h : a.lawful.Abs ty N nf ta.mat cl) (hN : N ≤ 2147483647) (hc : cl ≠ [])
    (ha : a.lawful.Alloc ty (2 * cl.length) nf) (hl : 2 * cl.length < 4294967296) (hnf : nf < 4294967296)
    (hw : ∀ w ∈ ta.weights, w < 4294967296) :
    a.io.ofJ (a.io.toJ ta) = .ok ta := by
  cases a with
  | classic => exact classic_round h hN hc ha hw
  | bitwise => exact bitwise_round h hN hc ha.1 hl hnf hw

theorem load_save {a : Algo} {k : Kind} {env : Env} {gio : GenIO env} {st old : EstState a.backend env} {ta : TA a.backend}
    (hg : Faithful gio) (h : a.io.ofJ (a.io.toJ st.ta) = .ok ta) :
    load a k gio old (save a k gio st) =
      (resetCache env k (st.params.map fun e => (e.1, reload env.rnd e.1 e.2)) old.cache.tick).bind fun c =>
        .ok ⟨st.params.map fun e => (e.1, reload env.rnd e.1 e.2), ta, c, st.igen, st.fgen⟩ := by
  show (gio.iOf (gio.iTo st.igen)).bind _ = _
  rw [hg.igen, ok_bind]
  show (gio.fOf (gio.fTo st.fgen)).bind _ = _
  rw [hg.fgen, ok_bind]
  show (a.io.ofJ (a.io.toJ st.ta)).bind _ = _
  rw [h, ok_bind]
  show (Params.ofJson env.rnd st.params.toJson).bind _ = _
  rw [params_reload, ok_bind]

theorem Fit.io_round {a : Algo} {env : Env} {st : EstState a.backend env} {cfg : Cfg} (hv : Valid cfg) {labels nf : Nat}
    {ss : SState env} (h : Fit a.lawful cfg labels nf st ss) : a.io.ofJ (a.io.toJ st.ta) = .ok st.ta := by
  have hs := Fit.small' hv h
  have hc : 1 ≤ labels * cfg.k := Nat.mul_pos h.pos hv.k_pos
  refine Tsetlini.io_round a h.abs hv.statesMax ?_ (by rw [h.len]; exact h.alloc) (by rw [h.len]; omega) (by have := h.nfSmall; omega) ?_
  · intro e
    have := h.len
    rw [e] at this
    simp at this
    omega
  · intro w hw
    rw [h.w] at hw
    have := h.wmax w hw
    have := hv.maxWeightMax
    omega

theorem classic_parts {ta : TA classic} (h : classicIO.ofJ (classicIO.toJ ta) = .ok ta) :
    ∃ m, Matrix.ofJson (Matrix.toJson ta.mat) = .ok m ∧ weightsOfJson (weightsToJson ta.weights) = .ok ta.weights := by
  have h : (Matrix.ofJson (Matrix.toJson ta.mat)).bind (fun m => (weightsOfJson (weightsToJson ta.weights)).bind
    fun ws => Res.ok (⟨m, ws⟩ : TA classic)) = .ok ta := h
  simp only [bind_eq_ok] at h
  obtain ⟨m, h1, ws, h2, h3⟩ := h
  refine ⟨m, h1, ?_⟩
  rw [h2, ← Res.ok.inj h3]

theorem loaded {a : Algo} {k : Kind} {env : Env} {gio : GenIO env} {st old : EstState a.backend env} (hg : Faithful gio)
    {cfg : Cfg} (hv : Valid cfg) (hk : cfg.kind = k) {labels nf : Nat} {ss : SState env} (h : Fit a.lawful cfg labels nf st ss)
    (hp : AgreeBut [] st.params (st.params.map fun e => (e.1, reload env.rnd e.1 e.2))) :
    ∃ st', load a k gio old (save a k gio st) = .ok st' ∧ AgreeBut [] st.params st'.params ∧ SameLearned st st' ∧
      Fit a.lawful cfg labels nf st' ss := by
  have hio := Fit.io_round hv h
  rw [load_save hg hio]
  subst hk
  obtain ⟨c, h1, h2⟩ := resetCache_ret a.lawful hv h hp old.cache.tick
  rw [h1, ok_bind]
  exact ⟨_, rfl, hp, ⟨rfl, rfl, rfl⟩, h2⟩

theorem Fit.labels_int {B : Backend} {L : Lawful B} {env : Env} {cfg : Cfg} {labels nf : Nat} {st : EstState B env}
    {ss : SState env} (hv : Valid cfg) (h : Fit L cfg labels nf st ss) : labels ≤ 2147483647 := by
  have h1 := Fit.small' hv h
  have := Nat.le_mul_of_pos_right labels hv.k_pos
  omega

theorem Fit.ints {a : Algo} {k : Kind} {env : Env} {cfg : Cfg} {labels nf : Nat} {st : EstState a.backend env}
    {ss : SState env} (hk : cfg.kind = k) (hv : Valid cfg) (hr : Reached a k st) (h : Fit a.lawful cfg labels nf st ss) :
    ∀ key i, key = "number_of_labels" ∨ key = "number_of_features" → st.params.get? key = some (.int i) → IsInt i := by
  intro key i hkey hi
  rcases hkey with rfl | rfl
  · have t : TypedAt _ _ _ := Reached.typedAt hr hi
    have hc := t.2.1 rfl
    subst hk
    rw [h.labelsP hc] at hi
    have : (labels : Int) = i := by simpa using hi
    have := Fit.labels_int hv h
    unfold IsInt
    omega
  · rw [h.featP] at hi
    have : (nf : Int) = i := by simpa using hi
    have := h.nfSmall
    unfold IsInt
    omega

end Tsetlini
