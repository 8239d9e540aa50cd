import Verif.Spec.SavedText
import Verif.Spec.Overflow
import Verif.Lemmas.TextStrings
import Verif.Lemmas.StateJson
namespace Tsetlini
open Spec
open Res

/-! ### Floats -/

theorem bounded_double {c : Rat} (h1 : rne32 c = c) (h2 : -((2 ^ 128 : Nat) : Rat) < c) (h3 : c < ((2 ^ 128 : Nat) : Rat)) : Double c := by
  have pos : ∀ {x : Rat}, 0 ≤ x → rnePos 24 149 x < ((2 ^ 128 : Nat) : Rat) → Double (rnePos 24 149 x) := by
    intro x hx hle
    obtain ⟨n, j, hn, e⟩ := rnePos_shape (p := 24) (q := 149) (by decide) hx
    by_cases h0 : n = 0
    · subst h0
      have : rnePos 24 149 x = 0 := by
        have hp := pow_pos_rat 149
        rw [Nat.zero_mul] at e
        have e' : rnePos 24 149 x * ((2 ^ 149 : Nat) : Rat) = 0 := e
        rcases Rat.mul_eq_zero.1 e' with h | h
        · exact h
        · rw [h] at hp; exact absurd hp (by decide)
      rw [this]
      exact ⟨0, 0, by decide, by decide, by simp⟩
    have hj : j < 277 := by
      have hlt : n * 2 ^ j < 2 ^ 277 := by
        refine Rat.natCast_lt_natCast.1 ?_
        rw [← e]
        have h4 := Rat.mul_lt_mul_of_pos_right hle (pow_pos_rat 149)
        have h5 : ((2 ^ 128 : Nat) : Rat) * ((2 ^ 149 : Nat) : Rat) = ((2 ^ 277 : Nat) : Rat) := by decide +kernel
        rwa [h5] at h4
      have : 2 ^ j < 2 ^ 277 := Nat.lt_of_le_of_lt (Nat.le_mul_of_pos_left _ (by omega)) hlt
      exact (Nat.pow_lt_pow_iff_right (by decide)).1 this
    refine ⟨n, j + 925, by omega, by omega, ?_⟩
    rw [show (1074 : Nat) = 149 + 925 from rfl, Nat.pow_add 2 149 925, Rat.natCast_mul, ← Rat.mul_assoc, e, Nat.pow_add, Rat.natCast_mul, Rat.natCast_mul, Rat.mul_assoc,
      Rat.intCast_natCast]
  by_cases hx : 0 ≤ c
  · have e : rne32 c = rnePos 24 149 c := by unfold rne32 rne; rw [if_pos hx]
    rw [e] at h1
    rw [← h1]
    exact pos hx (by rw [h1]; exact h3)
  · have e : rne32 c = - rnePos 24 149 (-c) := by unfold rne32 rne; rw [if_neg hx]
    rw [e] at h1
    rw [← h1]
    exact Double.neg (pos (by grind) (by grind))

theorem single_double {c : Rat} (h : IsFloat (.fin c)) : Double c := by
  obtain ⟨h1, h2, h3⟩ := h
  have hm : maxFloat < ((2 ^ 128 : Nat) : Rat) := by decide +kernel
  exact bounded_double h1 (by grind) (by grind)

/-! ### Generators -/

theorem obj_mt (a b c : TVal) : (objOf [("index", a), ("RES", b), ("MT", c)]).read = .obj [("MT", c.read), ("RES", b.read), ("index", a.read)] := by
  have : objOf [("index", a), ("RES", b), ("MT", c)] = .obj [(bytesOf "MT", c), (bytesOf "RES", b), (bytesOf "index", a)] := by
    simp (decide := true) only [objOf, List.foldl, setMember, ↓reduceIte]
  rw [this, read_obj]
  simp only [List.map_cons, List.map_nil, stringOf_bytesOf]

theorem mt_read {V : Type} {f : V → TVal} {to : V → JVal} (m : Mt V) (h : ∀ v ∈ m.res, (f v).read = to v) : (m.doc f).read = m.toJson to := by
  unfold Mt.doc Mt.toJson
  have e : m.res.map (TVal.read ∘ f) = m.res.map to := List.map_congr_left fun v hv => h v hv
  rw [obj_mt, read_arr, List.map_map, read_arr, List.map_map, read_unsigned, e]
  rfl

theorem mt_sound {V : Type} {f : V → TVal} {m : Mt V} (h : ∀ v ∈ m.res, Sound (f v)) (hi : m.index < 2 ^ 64) : Sound (m.doc f) := by
  unfold Mt.doc
  refine Sound.objOf ?_
  intro e he
  simp only [List.mem_cons, List.not_mem_nil, or_false] at he
  rcases he with rfl | rfl | rfl
  · exact Sound.unsigned hi
  · exact Sound.arr h
  · exact Sound.arr fun w _ => Sound.unsigned (by have := w.isLt; omega)

/-- How the library's generators are written. -/
def realGenDoc (u : Unspecified) : GenDoc (realEnv u) where
  iDoc := fun g : Irng => g.1.doc fun w => .unsigned w.toNat
  fDoc := fun g : Frng => g.1.doc fun v => .float (.fin v.1)

theorem MtGen.index_lt {V : Type} {post : BitVec 32 → V} (g : MtGen post) : g.1.index < 2 ^ 64 := by
  obtain ⟨m, seed, n, hm⟩ := g
  have : m.index = n % 4992 := hm.index
  show m.index < _
  omega

theorem realGenDoc_faithful (u : Unspecified) : FaithfulText (realGenDoc u) (realGenIO u) := by
  have i1 : ∀ g : Irng, Sound (g.1.doc fun w => .unsigned w.toNat) := fun g =>
    mt_sound (fun w _ => Sound.unsigned (by have := w.isLt; omega)) g.index_lt
  have i2 : ∀ g : Irng, (g.1.doc fun w => .unsigned w.toNat).read = g.1.toJson fun w => .unsigned w.toNat := fun g =>
    mt_read _ fun _ _ => rfl
  have f1 : ∀ g : Frng, Sound (g.1.doc fun v => .float (.fin v.1)) := fun g =>
    mt_sound (fun v _ => ⟨.finite (bounded_double v.2.1 v.2.2.1 v.2.2.2), .float _⟩) g.index_lt
  have f2 : ∀ g : Frng, (g.1.doc fun v => .float (.fin v.1)).read = g.1.toJson fun v => .float v.1 := fun g =>
    mt_read _ fun _ _ => rfl
  refine ⟨fun g => ⟨(i1 g).wide, (i1 g).encoded⟩, fun g => ?_, fun g => ⟨(f1 g).wide, (f1 g).encoded⟩, fun g => ?_⟩
  · exact (congrArg (realGenIO u).iOf (i2 g)).trans ((realGenIO_faithful u).1 g)
  · exact (congrArg (realGenIO u).fOf (f2 g)).trans ((realGenIO_faithful u).2 g)

/-! ### Parameters -/

/-- Into its place. -/
def insertParam (e : String × PVal) : Params → Params
  | [] => [e]
  | m :: l => if bytesLt (bytesOf e.1) (bytesOf m.1) then e :: m :: l else if e.1 = m.1 then e :: l else m :: insertParam e l

/-- In the order of the map. -/
def sortParams (p : Params) : Params := p.foldr insertParam []

/-- A member. -/
def memberDoc (e : String × PVal) : Bytes × TVal := (bytesOf e.1, e.2.doc)

theorem setMember_insert (e : String × PVal) : ∀ (l : Params), setMember (bytesOf e.1) e.2.doc (l.map memberDoc) = (insertParam e l).map memberDoc
  | [] => rfl
  | m :: l => by
    rw [List.map_cons]
    unfold setMember insertParam
    by_cases h : bytesLt (bytesOf e.1) (bytesOf m.1) = true
    · rw [if_pos h]
      exact (if_pos h).trans rfl
    · rw [if_neg h]
      refine (if_neg h).trans ?_
      by_cases h2 : e.1 = m.1
      · rw [if_pos h2]
        exact (if_pos (congrArg bytesOf h2)).trans rfl
      · rw [if_neg h2]
        refine (if_neg fun h => h2 (bytesOf_inj h)).trans ?_
        rw [setMember_insert e l]
        rfl

theorem params_doc (p : Params) : p.doc = .obj ((sortParams p).map memberDoc) := by
  unfold Params.doc
  congr 1
  induction p with
  | nil => rfl
  | cons e p ih =>
    rw [List.foldr_cons, ih, setMember_insert]
    rfl

theorem sortParams_sorted (p : Params) : Sorted ((sortParams p).map memberDoc) := by
  induction p with
  | nil => exact List.Pairwise.nil
  | cons e p ih =>
    show Sorted ((insertParam e (sortParams p)).map memberDoc)
    rw [← setMember_insert]
    exact setMember_sorted ih

theorem insertParam_get (e : String × PVal) (key : String) : ∀ (l : Params), Params.get? (insertParam e l) key = if key = e.1 then some e.2 else Params.get? l key := by
  have step : ∀ (m : String × PVal) (l : Params), Params.get? (m :: l) key = if key = m.1 then some m.2 else Params.get? l key := by
    intro m l
    show List.lookup key (m :: l) = _
    rw [List.lookup_cons]
    by_cases h : key = m.1
    · rw [if_pos h]; simp [h]
    · rw [if_neg h, show (key == m.1) = false by simpa using h]; rfl
  intro l
  induction l with
  | nil => exact step e []
  | cons m l ih =>
    unfold insertParam
    split
    · exact step e _
    split
    · rename_i h
      rw [step, step]
      by_cases h' : key = e.1
      · rw [if_pos h', if_pos h']
      · rw [if_neg h', if_neg h', if_neg (by rw [← h]; exact h')]
    · rename_i h
      rw [step, ih, step]
      by_cases h' : key = e.1
      · rw [if_pos h', if_pos h', if_neg (by rw [h']; exact h)]
      · rw [if_neg h', if_neg h']

theorem sortParams_get (p : Params) (key : String) : (sortParams p).get? key = p.get? key := by
  induction p with
  | nil => rfl
  | cons e p ih =>
    show Params.get? (insertParam e (sortParams p)) key = _
    rw [insertParam_get, ih]
    show _ = List.lookup key (e :: p)
    rw [List.lookup_cons]
    by_cases h : key = e.1
    · rw [if_pos h]; simp [h]
    · rw [if_neg h, show (key == e.1) = false by simpa using h]; rfl

theorem sorted_get : ∀ {l : Params}, Sorted (l.map memberDoc) → ∀ e ∈ l, l.get? e.1 = some e.2
  | [], _, e, h => by simp at h
  | m :: l, hs, e, h => by
    rw [Sorted, List.map_cons, List.map_cons, List.pairwise_cons] at hs
    show List.lookup e.1 (m :: l) = _
    rw [List.lookup_cons]
    rcases List.mem_cons.1 h with rfl | h
    · simp
    · have hne : e.1 ≠ m.1 := by
        intro heq
        have := hs.1 (bytesOf e.1) (by
          rw [List.map_map]
          exact List.mem_map.2 ⟨e, h, rfl⟩)
        rw [heq] at this
        rw [show (memberDoc m).fst = bytesOf m.1 from rfl, bytesLt_irrefl] at this
        exact absurd this (by decide)
      rw [show (e.1 == m.1) = false by simpa using hne]
      exact sorted_get hs.2 e h

theorem pval_read (v : PVal) : v.doc.read = v.toJson := by
  cases v with
  | int i => exact read_int i
  | seed b => rfl
  | real x => cases x <;> rfl
  | bool b => rfl
  | str s => exact read_str s
  | none => rfl

theorem params_read (p : Params) : p.doc.read = (sortParams p).toJson := by
  rw [params_doc, read_obj]
  unfold Params.toJson
  rw [List.map_map]
  congr 1
  refine List.map_congr_left fun e _ => ?_
  show (stringOf (bytesOf e.1), e.2.doc.read) = _
  rw [stringOf_bytesOf, pval_read]

theorem params_sound {p : Params} (h : ∀ key v, p.get? key = some v → Sound v.doc) : Sound p.doc := by
  rw [params_doc]
  refine Sound.obj ?_ (sortParams_sorted p)
  intro m hm
  obtain ⟨e, he, rfl⟩ := List.mem_map.1 hm
  refine ⟨bytesOf_utf8 e.1, h e.1 e.2 ?_⟩
  rw [← sortParams_get]
  exact sorted_get (sortParams_sorted p) e he

theorem pval_sound {v : PVal} (hi : ∀ i, v = .int i → IsInt i) (hf : ∀ x, v = .real x → IsFloat x) : Sound v.doc := by
  cases v with
  | int i =>
    obtain ⟨h1, h2⟩ := hi i rfl
    exact Sound.integer (by omega) (by omega)
  | seed b => exact Sound.unsigned (by have := b.isLt; omega)
  | real x =>
    refine ⟨?_, .float _⟩
    cases x with
    | fin q => exact .finite (single_double (hf _ rfl))
    | inf b => exact .inf b
    | nan => exact .nan
  | bool b => exact ⟨.bool b, .bool b⟩
  | str s => exact Sound.str s
  | none => exact ⟨.null, .null⟩

/-! ### Automata -/

theorem obj_matrix (a b : TVal) : (objOf [("width", a), ("data", b)]).read = .obj [("data", b.read), ("width", a.read)] := by
  have : objOf [("width", a), ("data", b)] = .obj [(bytesOf "data", b), (bytesOf "width", a)] := by
    simp (decide := true) only [objOf, List.foldl, setMember, ↓reduceIte]
  rw [this, read_obj]
  simp only [List.map_cons, List.map_nil, stringOf_bytesOf]

theorem matrix_read (m : Matrix) : m.doc.read = m.toJson := by
  unfold Matrix.doc Matrix.toJson
  rw [obj_matrix, read_arr, List.map_map, read_unsigned]
  congr 4
  refine List.map_congr_left fun r _ => ?_
  show (TVal.arr (r.map .integer)).read = _
  rw [read_arr, List.map_map]
  exact congrArg JVal.arr (List.map_congr_left fun c _ => read_int c)

theorem matrix_sound {m : Matrix} (h : ∀ r ∈ m.rows, ∀ c ∈ r, IsInt c) : Sound m.doc := by
  unfold Matrix.doc
  refine Sound.objOf ?_
  intro e he
  simp only [List.mem_cons, List.not_mem_nil, or_false] at he
  rcases he with rfl | rfl
  · exact Sound.unsigned (by cases m.ctype <;> decide)
  · refine Sound.arr fun r hr => Sound.arr fun c hc => ?_
    obtain ⟨h1, h2⟩ := h r hr c hc
    exact Sound.integer (by omega) (by omega)

theorem obj_pol (a b c : TVal) : (objOf [("rows", a), ("cols", b), ("data", c)]).read = .obj [("cols", b.read), ("data", c.read), ("rows", a.read)] := by
  have : objOf [("rows", a), ("cols", b), ("data", c)] = .obj [(bytesOf "cols", b), (bytesOf "data", c), (bytesOf "rows", a)] := by
    simp (decide := true) only [objOf, List.foldl, setMember, ↓reduceIte]
  rw [this, read_obj]
  simp only [List.map_cons, List.map_nil, stringOf_bytesOf]

theorem pol_read (cols : Nat) (pol : List (List Block)) : (polDoc cols pol).read = polToJson cols pol := by
  unfold polDoc polToJson
  rw [obj_pol, read_arr, List.map_map, read_unsigned, read_unsigned]
  rfl

theorem pol_sound {cols : Nat} {pol : List (List Block)} (hc : cols < 2 ^ 64) (hp : pol.length < 2 ^ 64) : Sound (polDoc cols pol) := by
  unfold polDoc
  refine Sound.objOf ?_
  intro e he
  simp only [List.mem_cons, List.not_mem_nil, or_false] at he
  rcases he with rfl | rfl | rfl
  · exact Sound.unsigned hp
  · exact Sound.unsigned hc
  · exact Sound.arr fun b _ => Sound.unsigned (by have := b.isLt; omega)

theorem weights_read (ws : List Nat) : (weightsDoc ws).read = weightsToJson ws := by
  unfold weightsDoc weightsToJson
  rw [read_arr, List.map_map]
  rfl

theorem weights_sound {ws : List Nat} (h : ∀ w ∈ ws, w < 4294967296) : Sound (weightsDoc ws) :=
  Sound.arr fun w hw => Sound.unsigned (by have := h w hw; omega)

theorem classic_read (ta : TA classic) : (classicDoc ta).read = classicIO.toJ ta := by
  have : ∀ a b : TVal, (objOf [("matrix", a), ("weights", b)]).read = .obj [("matrix", a.read), ("weights", b.read)] := by
    intro a b
    have : objOf [("matrix", a), ("weights", b)] = .obj [(bytesOf "matrix", a), (bytesOf "weights", b)] := by
      simp (decide := true) only [objOf, List.foldl, setMember, ↓reduceIte]
    rw [this, read_obj]
    simp only [List.map_cons, List.map_nil, stringOf_bytesOf]
  have key : ∀ (m : Matrix) (ws : List Nat), (objOf [("matrix", m.doc), ("weights", weightsDoc ws)]).read = .obj [("matrix", m.toJson), ("weights", weightsToJson ws)] :=
    fun m ws => by rw [this, matrix_read, weights_read]
  exact key ta.mat ta.weights

theorem bitwise_read (ta : TA bitwise) : (bitwiseDoc ta).read = bitwiseIO.toJ ta := by
  have : ∀ a b c : TVal, (objOf [("matrix", a), ("weights", b), ("polarity", c)]).read = .obj [("matrix", a.read), ("polarity", c.read), ("weights", b.read)] := by
    intro a b c
    have : objOf [("matrix", a), ("weights", b), ("polarity", c)] = .obj [(bytesOf "matrix", a), (bytesOf "polarity", c), (bytesOf "weights", b)] := by
      simp (decide := true) only [objOf, List.foldl, setMember, ↓reduceIte]
    rw [this, read_obj]
    simp only [List.map_cons, List.map_nil, stringOf_bytesOf]
  unfold bitwiseDoc
  rw [this, matrix_read, weights_read, pol_read]
  rfl

theorem algo_read (a : Algo) (ta : TA a.backend) : (a.doc ta).read = a.io.toJ ta := by
  cases a with
  | classic => exact classic_read ta
  | bitwise => exact bitwise_read ta

theorem classicAbs_sound {ty : CType} {N : Int} {nf : Nat} {m : Matrix} {cl : List Clause} (h : ClassicAbs ty N nf m cl) (hN : N ≤ 2147483647) :
    Sound m.doc := by
  refine matrix_sound fun r hr c hc => ?_
  rw [h.rows] at hr
  obtain ⟨x, hx, e⟩ := mem_toRows hr
  have w := h.wf x hx
  unfold IsInt
  rcases e with rfl | rfl
  · have := w.posRange c hc; omega
  · have := w.negRange c hc; omega

theorem ta_sound (a : Algo) {ty : CType} {N : Int} {nf : Nat} {ta : TA a.backend} {cl : List Clause}
    (h : a.lawful.Abs ty N nf ta.mat cl) (hN : N ≤ 2147483647) (hl : 2 * cl.length < 4294967296) (hnf : nf < 4294967296)
    (hw : ∀ w ∈ ta.weights, w < 4294967296) : Sound (a.doc ta) := by
  cases a with
  | classic =>
    have key : ∀ (m : Matrix) (ws : List Nat), Sound m.doc → Sound (weightsDoc ws) → Sound (objOf [("matrix", m.doc), ("weights", weightsDoc ws)]) := by
      intro m ws h1 h2
      refine Sound.objOf fun e he => ?_
      simp only [List.mem_cons, List.not_mem_nil, or_false] at he
      rcases he with rfl | rfl
      · exact h1
      · exact h2
    exact key ta.mat ta.weights (classicAbs_sound h hN) (weights_sound hw)
  | bitwise =>
    have key : ∀ (m : PMatrix) (ws : List Nat), BitAbs ty N nf m cl → Sound (weightsDoc ws) →
        Sound (objOf [("matrix", m.m.doc), ("weights", weightsDoc ws), ("polarity", polDoc m.m.cols m.pol)]) := by
      intro m ws h1 h2
      refine Sound.objOf fun e he => ?_
      simp only [List.mem_cons, List.not_mem_nil, or_false] at he
      rcases he with rfl | rfl | rfl
      · exact classicAbs_sound h1.base hN
      · exact h2
      · refine pol_sound ?_ ?_
        · rw [h1.base.cols]; omega
        · rw [h1.polLen, h1.base.rows, toRows_length]; omega
    exact key ta.mat ta.weights h (weights_sound hw)

theorem Fit.ta_sound {a : Algo} {env : Env} {st : EstState a.backend env} {cfg : Cfg} (hv : Valid cfg) {labels nf : Nat}
    {ss : SState env} (h : Fit a.lawful cfg labels nf st ss) : Sound (a.doc st.ta) := by
  have hs := Fit.small' hv h
  refine Tsetlini.ta_sound a h.abs hv.statesMax (by rw [h.len]; omega) (by have := h.nfSmall; omega) ?_
  intro w hw
  rw [h.w] at hw
  have := h.wmax w hw
  have := hv.maxWeightMax
  omega

/-! ### States -/

/-- The members of a saved state, as they are read. -/
theorem state_read {B : Backend} {env : Env} (gdoc : GenDoc env) (tdoc : TA B → TVal) (algo : String) (k : Kind) (st : EstState B env) :
    ∃ est, (stateDoc gdoc tdoc algo k st).read = .obj [("algo", .str algo), ("estimator", .str est), ("fgen", (gdoc.fDoc st.fgen).read), ("igen", (gdoc.iDoc st.igen).read),
      ("params", st.params.doc.read), ("ta_state", (tdoc st.ta).read)] := by
  have : ∀ a b c d e f : TVal, objOf [("estimator", a), ("algo", b), ("ta_state", c), ("igen", d), ("fgen", e), ("params", f)] =
      .obj [(bytesOf "algo", b), (bytesOf "estimator", a), (bytesOf "fgen", e), (bytesOf "igen", d), (bytesOf "params", f), (bytesOf "ta_state", c)] := by
    intro a b c d e f
    simp (decide := true) only [objOf, List.foldl, setMember, ↓reduceIte]
  refine ⟨(match k with | .classifier => "classifier" | .regressor => "regressor"), ?_⟩
  unfold stateDoc
  rw [this, read_obj]
  simp only [List.map_cons, List.map_nil, stringOf_bytesOf, read_str]
  rfl

theorem load_text {a : Algo} {k : Kind} {env : Env} {gdoc : GenDoc env} {gio : GenIO env} {st old : EstState a.backend env} {ta : TA a.backend}
    (hg : FaithfulText gdoc gio) (h : a.io.ofJ (a.io.toJ st.ta) = .ok ta) :
    loadState gio a.io k old (stateDoc gdoc a.doc a.name k st).read =
      (resetCache env k ((sortParams st.params).map fun e => (e.1, reload env.rnd e.1 e.2)) old.cache.tick).bind fun c =>
        .ok ⟨(sortParams st.params).map fun e => (e.1, reload env.rnd e.1 e.2), ta, c, st.igen, st.fgen⟩ := by
  obtain ⟨est, e⟩ := state_read gdoc a.doc a.name k st
  rw [e, params_read, algo_read]
  show (gio.iOf (gdoc.iDoc st.igen).read).bind _ = _
  rw [show gio.iOf (gdoc.iDoc st.igen).read = .ok st.igen from hg.igen _, ok_bind]
  show (gio.fOf (gdoc.fDoc st.fgen).read).bind _ = _
  rw [show gio.fOf (gdoc.fDoc st.fgen).read = .ok st.fgen from hg.fgen _, ok_bind]
  show (a.io.ofJ (a.io.toJ st.ta)).bind _ = _
  rw [h, ok_bind]
  show (Params.ofJson env.rnd (sortParams st.params).toJson).bind _ = _
  rw [params_reload, ok_bind]

theorem state_sound {a : Algo} {k : Kind} {env : Env} {gdoc : GenDoc env} {gio : GenIO env} {st : EstState a.backend env}
    (hg : FaithfulText gdoc gio) (ht : Sound (a.doc st.ta)) (hp : Sound st.params.doc) : Sound (stateDoc gdoc a.doc a.name k st) := by
  unfold stateDoc
  refine Sound.objOf ?_
  intro e he
  simp only [List.mem_cons, List.not_mem_nil, or_false] at he
  rcases he with rfl | rfl | rfl | rfl | rfl | rfl
  · exact Sound.str _
  · exact Sound.str _
  · exact ht
  · exact ⟨(hg.iDoc _).1, (hg.iDoc _).2⟩
  · exact ⟨(hg.fDoc _).1, (hg.fDoc _).2⟩
  · exact hp

/-- Writing and reading a sound state. -/
theorem text_round {a : Algo} {k : Kind} {env : Env} {gdoc : GenDoc env} {gio : GenIO env} {st : EstState a.backend env}
    (hs : Sound (stateDoc gdoc a.doc a.name k st)) (old : EstState a.backend env) :
    ∃ t, saveText a k gdoc st = .ok t ∧ loadText a k gio old t = loadState gio a.io k old (stateDoc gdoc a.doc a.name k st).read := by
  obtain ⟨t, h1, h2⟩ := parse_dump hs.wide hs.encoded
  refine ⟨t, h1, ?_⟩
  show (parse t).bind _ = _
  rw [h2, ok_bind]
  rfl

theorem typed_sound {k : Kind} {p : Params} (ht : ∀ key v, p.get? key = some v → TypedAt k key v)
    (hf : ∀ key v, p.get? key = some (.real v) → IsFloat v)
    (hi : ∀ key i, key = "number_of_labels" ∨ key = "number_of_features" → p.get? key = some (.int i) → IsInt i) : Sound p.doc := by
  refine params_sound fun key v hv => pval_sound ?_ ?_
  · rintro i rfl
    have t := ht _ _ hv
    by_cases h1 : key = "number_of_labels"
    · exact hi _ _ (.inl h1) hv
    · by_cases h2 : key = "number_of_features"
      · exact hi _ _ (.inr h2) hv
      · exact t.2.2 h1 h2
  · rintro x rfl
    exact hf _ _ hv

theorem unfit_sound {a : Algo} {env : Env} {st : EstState a.backend env} {cfg : Cfg} {ss : SState env} (h : Unfit a.lawful cfg st ss) :
    Sound (a.doc st.ta) := by
  have he : Sound Matrix.empty.doc := matrix_sound fun r hr => by simp [Matrix.empty] at hr
  obtain ⟨h1, h2⟩ : st.ta.mat = a.backend.emptyMat ∧ st.ta.weights = [] := ⟨h.mat, h.w⟩
  revert h1 h2
  generalize st.ta = ta
  intro h1 h2
  obtain ⟨m, ws⟩ := ta
  dsimp only at h1 h2
  subst h1 h2
  cases a with
  | classic =>
    have key : Sound (objOf [("matrix", Matrix.empty.doc), ("weights", weightsDoc [])]) := by
      refine Sound.objOf fun e he' => ?_
      simp only [List.mem_cons, List.not_mem_nil, or_false] at he'
      rcases he' with rfl | rfl
      · exact he
      · exact weights_sound (by simp)
    exact key
  | bitwise =>
    have key : Sound (objOf [("matrix", Matrix.empty.doc), ("weights", weightsDoc []), ("polarity", polDoc 0 [])]) := by
      refine Sound.objOf fun e he' => ?_
      simp only [List.mem_cons, List.not_mem_nil, or_false] at he'
      rcases he' with rfl | rfl | rfl
      · exact he
      · exact weights_sound (by simp)
      · exact pol_sound (by decide) (by decide)
    exact key

theorem loaded_text {a : Algo} {k : Kind} {env : Env} {gdoc : GenDoc env} {gio : GenIO env} {st old : EstState a.backend env} (hg : FaithfulText gdoc gio)
    {cfg : Cfg} (hv : Valid cfg) (hk : cfg.kind = k) {labels nf : Nat} {ss : SState env} (h : Fit a.lawful cfg labels nf st ss)
    (hs : Sound st.params.doc) (hp : AgreeBut [] st.params (st.params.map fun e => (e.1, reload env.rnd e.1 e.2))) :
    ∃ t st', saveText a k gdoc st = .ok t ∧ loadText a k gio old t = .ok st' ∧ AgreeBut [] st.params st'.params ∧ SameLearned st st' ∧
      Fit a.lawful cfg labels nf st' ss := by
  obtain ⟨t, h1, h2⟩ := text_round (gio := gio) (k := k) (state_sound hg (Fit.ta_sound hv h) hs) old
  have hp' : AgreeBut [] st.params ((sortParams st.params).map fun e => (e.1, reload env.rnd e.1 e.2)) := by
    intro key hkey
    rw [get?_reload, sortParams_get, ← get?_reload]
    exact hp key hkey
  rw [load_text hg (Fit.io_round hv h)] at h2
  subst hk
  obtain ⟨c, h3, h4⟩ := resetCache_ret a.lawful hv h hp' old.cache.tick
  rw [h3, ok_bind] at h2
  exact ⟨t, _, h1, h2, hp', ⟨rfl, rfl, rfl⟩, h4⟩

end Tsetlini
