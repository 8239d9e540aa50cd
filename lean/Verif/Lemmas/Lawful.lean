import Verif.Lemmas.BitwiseTrain3
import Verif.Lemmas.Toss
/- What the estimator layer may rely on for either algorithm family. -/
namespace Tsetlini
open Res Spec

/-- Row layout: clause `i` owns rows `2i` (positive) and `2i+1` (negated). -/
def toRows (cl : List Clause) : List (List Int) := cl.flatMap fun c => [c.pos, c.neg]

@[simp] theorem toRows_nil : toRows [] = [] := rfl
@[simp] theorem toRows_cons (c : Clause) (cl : List Clause) :
    toRows (c :: cl) = c.pos :: c.neg :: toRows cl := rfl

theorem toRows_length (cl : List Clause) : (toRows cl).length = 2 * cl.length := by
  induction cl with
  | nil => rfl
  | cons c cl ih => simp [ih]; omega

theorem toRows_get {cl : List Clause} {i : Nat} (h : i < cl.length) :
    (toRows cl)[2 * i + 0]? = some cl[i].pos ∧ (toRows cl)[2 * i + 1]? = some cl[i].neg := by
  induction cl generalizing i with
  | nil => simp at h
  | cons c cl ih =>
    cases i with
    | zero => simp
    | succ i =>
      have := ih (i := i) (by simpa using h)
      rw [toRows_cons, show 2 * (i + 1) + 0 = (2 * i + 0) + 1 + 1 by omega,
        show 2 * (i + 1) + 1 = (2 * i + 1) + 1 + 1 by omega]
      simpa using this

theorem toRows_set {cl : List Clause} {i : Nat} (c : Clause) :
    ((toRows cl).set (2 * i + 0) c.pos).set (2 * i + 1) c.neg = toRows (cl.set i c) := by
  induction cl generalizing i with
  | nil => rfl
  | cons d cl ih =>
    cases i with
    | zero => simp
    | succ i =>
      have := ih (i := i)
      rw [toRows_cons, show 2 * (i + 1) + 0 = (2 * i + 0) + 1 + 1 by omega,
        show 2 * (i + 1) + 1 = (2 * i + 1) + 1 + 1 by omega]
      rw [List.set_cons_succ, List.set_cons_succ, List.set_cons_succ, List.set_cons_succ]
      exact congrArg (fun l => d.pos :: d.neg :: l) this

/-- Fresh clauses: each counter -1 or 0 by one draw, positive row then negated row. -/
def initClauses (env : Env) (nf : Nat) : Nat → env.G → List Clause × env.G
  | 0, g => ([], g)
  | n + 1, g =>
    let (p, g) := initRow env .int32 nf g
    let (q, g) := initRow env .int32 nf g
    let (cs, g) := initClauses env nf n g
    (⟨p, q⟩ :: cs, g)

theorem initClauses_length (env : Env) (nf n : Nat) (g : env.G) :
    (initClauses env nf n g).1.length = n := by
  induction n generalizing g with
  | zero => rfl
  | succ n ih => simp [initClauses, ih]

theorem nextMinus_range (env : Env) (g : env.G) :
    -1 ≤ (env.nextMinus1or0 g).1 ∧ (env.nextMinus1or0 g).1 ≤ 0 := by
  simp only [Env.nextMinus1or0]
  omega

theorem initRow_int32 (env : Env) (ct : CType) (n : Nat) (g : env.G) :
    initRow env ct n g = initRow env .int32 n g := by
  induction n generalizing g with
  | zero => rfl
  | succ n ih =>
    have hr := nextMinus_range env g
    have e : ∀ ct : CType, ct.store (env.nextMinus1or0 g).1 = (env.nextMinus1or0 g).1 := fun ct =>
      store_id (N := 1) (by cases ct <;> simp [CType.Fits, CType.modulus]) (by omega) (by omega)
    simp only [initRow, e, ih]

theorem initRow_spec (env : Env) (n : Nat) (g : env.G) :
    (initRow env .int32 n g).1.length = n ∧
      ∀ c ∈ (initRow env .int32 n g).1, -1 ≤ c ∧ c ≤ 0 := by
  induction n generalizing g with
  | zero => simp [initRow]
  | succ n ih =>
    have hr := nextMinus_range env g
    have e : CType.int32.store (env.nextMinus1or0 g).1 = (env.nextMinus1or0 g).1 :=
      store_id (N := 1) (by simp [CType.Fits, CType.modulus]) (by omega) (by omega)
    have := ih (env.nextMinus1or0 g).2
    simp only [initRow, e, List.length_cons, List.mem_cons]
    refine ⟨by rw [this.1], ?_⟩
    rintro c (rfl | h)
    · exact hr
    · exact this.2 c h

theorem initClauses_wf (env : Env) {N : Int} (hN : 1 ≤ N) (nf n : Nat) (g : env.G) :
    ∀ c ∈ (initClauses env nf n g).1, c.WF N nf := by
  induction n generalizing g with
  | zero => simp [initClauses]
  | succ n ih =>
    simp only [initClauses, List.mem_cons]
    rintro c (rfl | h)
    · have h1 := initRow_spec env nf g
      have h2 := initRow_spec env nf (initRow env .int32 nf g).2
      exact ⟨h1.1, h2.1, fun c hc => by have := h1.2 c hc; omega,
        fun c hc => by have := h2.2 c hc; omega⟩
    · exact ih _ c h

theorem initRows_eq (env : Env) (ct : CType) (nf n : Nat) (g : env.G) :
    initRows env ct nf (2 * n) g =
      (toRows (initClauses env nf n g).1, (initClauses env nf n g).2) := by
  induction n generalizing g with
  | zero => rfl
  | succ n ih =>
    rw [show 2 * (n + 1) = 2 * n + 1 + 1 by omega]
    simp only [initRows, initRow_int32 env ct, ih, initClauses, toRows_cons]

/-- The interface. `minStates` is the least `number_of_states` for which it holds. -/
structure Lawful (B : Backend) where
  minStates : Int
  one_le : 1 ≤ minStates
  /-- the truth values a sample stands for -/
  bits : B.Sample → List Bool
  bits_length : ∀ x, (bits x).length = B.size x
  /-- class invariant of the sample type -/
  SInv : B.Sample → Prop
  /-- the sample passes content validation -/
  Bin : B.Sample → Prop
  /-- every element is 0 or 1 -/
  Bin01 : B.Sample → Prop
  /-- the padding is clear -/
  Pad : B.Sample → Prop
  bin_iff : ∀ x, Bin x ↔ Bin01 x ∧ Pad x
  all01_eq : ∀ x, B.all01 x = true ↔ Bin01 x
  pad_ret : ∀ x, SInv x → (B.clearPadding x).Ret fun b => b = true ↔ Pad x
  /-- automata holding these clauses over `nf` features with counters in `[-N, N-1]` -/
  Abs : CType → Int → Nat → B.Mat → List Clause → Prop
  abs_wf : ∀ {ty N nf m cl}, Abs ty N nf m cl → ∀ c ∈ cl, c.WF N nf
  abs_rows : ∀ {ty N nf m cl}, Abs ty N nf m cl → B.nrows m = 2 * cl.length
  empty_rows : B.nrows B.emptyMat = 0
  empty_cnt : B.counters B.emptyMat = []
  /-- the allocation sizes do not wrap -/
  Alloc : CType → Nat → Nat → Prop
  alloc_small : ∀ {ct : CType} {n nf : Nat}, Alloc ct n nf → 2 ≤ n → nf ≤ 2147483647
  init_eq : ∀ {env : Env} {ct : CType} {N : Int} {n nf : Nat} {g : env.G}, 1 ≤ N → ct.Fits N →
    Alloc ct (2 * n) nf →
    (B.initMat env ct (2 * n) nf g).Ret fun r =>
      Abs ct N nf r.1 (initClauses env nf n g).1 ∧ r.2 = (initClauses env nf n g).2
  init_alloc : ∀ {env : Env} {ct : CType} {n nf : Nat} {g : env.G}, ¬ Alloc ct n nf →
    ∀ r, B.initMat env ct n nf g ≠ .ok r
  out_eq : ∀ {ty N nf m cl} (t : Tile) {i : Nat} {x : B.Sample}, Abs ty N nf m cl → (h : i < cl.length) →
    SInv x → Bin x → B.size x = nf → B.clauseOut t m i x = .ok (cl[i].out (bits x))
  outPruned_eq : ∀ {ty N nf m cl} (t : Tile) {i : Nat} {x : B.Sample}, Abs ty N nf m cl →
    (h : i < cl.length) → SInv x → Bin x → B.size x = nf →
    B.clauseOutPruned t m i x = .ok (cl[i].outPruned (bits x))
  /-- the clauses determine the automata -/
  abs_inj : ∀ {ty N nf m m' cl}, Abs ty N nf m cl → Abs ty N nf m' cl → m = m'
  counters_eq : ∀ {ty N nf m cl}, Abs ty N nf m cl → B.counters m = toRows cl
  /-- Type I feedback to a false clause, on the clause -/
  specINeg : (env : Env) → (N : Int) → (nf hf thr : Nat) → Clause → env.G → Res (Clause × env.G)
  specINeg_wf : ∀ {env : Env} {N : Int} {nf hf thr : Nat} {c : Clause} {g : env.G} {r},
    c.WF N nf → specINeg env N nf hf thr c g = .ok r → r.1.WF N nf
  typeINeg_ref : ∀ {ty : CType} {env : Env} {hy : Hyper} {nf hf thr : Nat} {m : B.Mat} {cl : List Clause} {i : Nat}
    {x : B.Sample} {g : env.G} {ct : CoinTosser}, minStates ≤ hy.states → Abs ty hy.states nf m cl →
    (h : i < cl.length) → SInv x → Bin x → B.size x = nf → CtOk nf hf thr ct →
    (nf = 0 → hf = 0 ∧ thr = 0) →
    (B.typeINeg env hy m i x g ct).Refines
      (fun r s => Abs ty hy.states nf r.1 (cl.set i s.1) ∧ r.2.1 = s.2 ∧ CtOk nf hf thr r.2.2)
      (specINeg env hy.states nf hf thr cl[i] g)
  typeIPos_ref : ∀ {ty : CType} {env : Env} {hy : Hyper} {nf hf thr : Nat} {m : B.Mat} {cl : List Clause} {i : Nat}
    {x : B.Sample} {g : env.G} {ct : CoinTosser}, minStates ≤ hy.states → Abs ty hy.states nf m cl →
    (h : i < cl.length) → SInv x → Bin x → B.size x = nf → CtOk nf hf thr ct →
    (nf = 0 → hf = 0 ∧ thr = 0) →
    (B.typeIPos env hy m i x g ct).Refines
      (fun r s => Abs ty hy.states nf r.1 (cl.set i s.1) ∧ r.2.1 = s.2 ∧ CtOk nf hf thr r.2.2)
      ((tossSpec env nf hf thr g).bind fun s =>
        .ok (cl[i].strengthen hy.states hy.boost (bits x) s.1 s.2.1, s.2.2))
  typeII_eq : ∀ {ty N nf m cl} {i : Nat} {x : B.Sample}, minStates ≤ N → Abs ty N nf m cl →
    (h : i < cl.length) → SInv x → Bin x → B.size x = nf →
    (B.typeII m i x).Ret fun m' => Abs ty N nf m' (cl.set i (cl[i].contradict (bits x)))

/-! ### classic -/

structure ClassicAbs (ty : CType) (N : Int) (nf : Nat) (m : Matrix) (cl : List Clause) : Prop where
  rows : m.rows = toRows cl
  ctype : m.ctype = ty
  cols : m.cols = nf
  fits : m.ctype.Fits N
  wf : ∀ c ∈ cl, c.WF N nf

theorem ClassicAbs.inj {ty : CType} {N : Int} {nf : Nat} {m m' : Matrix} {cl : List Clause}
    (h : ClassicAbs ty N nf m cl) (h' : ClassicAbs ty N nf m' cl) : m = m' := by
  obtain ⟨c, n, r⟩ := m
  obtain ⟨c', n', r'⟩ := m'
  have e1 := h.rows.trans h'.rows.symm
  have e2 := h.ctype.trans h'.ctype.symm
  have e3 := h.cols.trans h'.cols.symm
  dsimp only at e1 e2 e3
  subst e1 e2 e3
  rfl

theorem ClassicAbs.rd {ty : CType} {N : Int} {nf : Nat} {m : Matrix} {cl : List Clause} (h : ClassicAbs ty N nf m cl)
    {i : Nat} (hi : i < cl.length) :
    Tsetlini.rd m.rows (2 * i + 0) = .ok cl[i].pos ∧ Tsetlini.rd m.rows (2 * i + 1) = .ok cl[i].neg := by
  have := toRows_get hi
  rw [h.rows]
  exact ⟨rd_of_getElem? this.1, rd_of_getElem? this.2⟩

theorem mem_set_wf {N : Int} {nf : Nat} {cl : List Clause} {i : Nat} {c : Clause}
    (h : ∀ c ∈ cl, c.WF N nf) (hc : c.WF N nf) : ∀ d ∈ cl.set i c, d.WF N nf := by
  intro d hd
  rcases List.mem_or_eq_of_mem_set hd with h1 | h1
  · exact h d h1
  · subst h1; exact hc

theorem onClause_eq {ty : CType} {N : Int} {nf : Nat} {m : Matrix} {cl : List Clause} (h : ClassicAbs ty N nf m cl)
    {i : Nat} (hi : i < cl.length) {f : List Int → List Int → Res (List Int × List Int)} {c : Clause}
    (hf : f cl[i].pos cl[i].neg = .ok (c.pos, c.neg)) (hc : c.WF N nf) :
    ∃ m', onClause m i f = .ok m' ∧ ClassicAbs ty N nf m' (cl.set i c) ∧ m'.ctype = m.ctype := by
  obtain ⟨h1, h2⟩ := h.rd hi
  have hl := toRows_length cl
  refine ⟨{ m with rows := toRows (cl.set i c) }, ?_, ⟨rfl, h.ctype, h.cols, h.fits, mem_set_wf h.wf hc⟩, rfl⟩
  unfold onClause
  rw [h1, ok_bind, h2, ok_bind, hf, ok_bind, wr_ok (by rw [h.rows, hl]; omega), ok_bind,
    wr_ok (by rw [List.length_set, h.rows, hl]; omega), ok_bind]
  rw [h.rows, toRows_set]

theorem all01_iff (X : ClassicSample) : classic.all01 X = true ↔ Binary X := by
  show X.all _ = true ↔ _
  simp [Binary, List.all_eq_true]

theorem allocOk_small {ct : CType} {n nf : Nat} (h : allocOk ct.bytes n nf = true) (hn : 2 ≤ n) :
    nf ≤ 2147483647 := by
  simp only [allocOk, decide_eq_true_eq] at h
  have hr : nf ≤ rowItems ct.bytes nf := by
    unfold rowItems; cases ct <;> simp only [CType.bytes] <;> omega
  have h2 := Nat.mul_le_mul hr hn
  omega

/-- The classic family is lawful from `number_of_states = 1` on. -/
def classicLawful : Lawful classic where
  minStates := 1
  one_le := Int.le_refl _
  bits := classicBits
  bits_length x := List.length_map ..
  SInv _ := True
  Bin := Binary
  Bin01 := Binary
  Pad _ := True
  bin_iff _ := (and_iff_left trivial).symm
  all01_eq x := all01_iff x
  pad_ret _ _ := ⟨true, rfl, iff_of_true rfl trivial⟩
  Abs := ClassicAbs
  abs_wf h := h.wf
  abs_rows := by
    intro ty N nf m cl h
    show m.rows.length = _
    rw [h.rows, toRows_length]
  empty_rows := rfl
  empty_cnt := rfl
  Alloc ct n nf := allocOk ct.bytes n nf = true
  alloc_small h hn := allocOk_small h hn
  init_eq := by
    intro env ct N n nf g hN hfit ha
    show (classicInit env ct (2 * n) nf g).Ret _
    unfold classicInit
    rw [ha, if_neg (by simp), initRows_eq]
    exact ⟨_, rfl, ⟨rfl, rfl, rfl, hfit, initClauses_wf env hN nf n g⟩, rfl⟩
  init_alloc := by
    intro env ct n nf g ha r
    show classicInit env ct n nf g ≠ _
    unfold classicInit
    rw [if_pos (by simpa using ha)]
    nofun
  out_eq := by
    intro ty N nf m cl t i x h hi _ hb hx
    obtain ⟨h1, h2⟩ := h.rd hi
    have hw := h.wf _ (List.getElem_mem hi)
    have hx : x.length = nf := hx
    show (rd m.rows (2 * i + 0)).bind _ = _
    rw [h1, ok_bind, h2, ok_bind]
    exact classicClause_eq t _ _ x hb (by rw [hw.posLen, hx]; exact Nat.le_refl _)
      (by rw [hw.negLen, hx]; exact Nat.le_refl _)
  outPruned_eq := by
    intro ty N nf m cl t i x h hi _ hb hx
    obtain ⟨h1, h2⟩ := h.rd hi
    have hw := h.wf _ (List.getElem_mem hi)
    have hx : x.length = nf := hx
    show (rd m.rows (2 * i + 0)).bind _ = _
    rw [h1, ok_bind, h2, ok_bind]
    exact classicClausePruned_eq t _ _ x hb (by rw [hw.posLen, hx]; exact Nat.le_refl _)
      (by rw [hw.negLen, hx]; exact Nat.le_refl _)
  abs_inj h h' := h.inj h'
  counters_eq h := h.rows
  specINeg env N nf hf thr c g :=
    (tossSpec env nf hf thr g).bind fun s => .ok (c.weaken N s.1 s.2.1, s.2.2)
  specINeg_wf := by
    intro env N nf hf thr c g r hc h
    rw [bind_eq_ok] at h
    obtain ⟨s, _, hs⟩ := h
    cases hs
    exact weaken_wf hc _ _
  typeINeg_ref := by
    intro ty env hy nf hf thr m cl i x g ct hN h hi _ hb hx hct hz
    refine Refines.bind (tossBoth_refines env hct hz g) ?_
    rintro ⟨ct', g'⟩ ⟨a, b, g''⟩ ⟨k1, k2, k3, k4⟩
    dsimp only at k1 k2 k3 k4 ⊢
    have hw := h.wf _ (List.getElem_mem hi)
    have hx : x.length = nf := hx
    obtain ⟨m', e1, e2, _⟩ := onClause_eq h hi (c := cl[i].weaken hy.states a b)
      (f := fun pos neg => block1 m.ctype x.length hy.states pos neg ct'.cache1 ct'.cache2)
      (by rw [hx, k2, k3]
          exact block1_eq h.fits hw (by rw [← k2, k1.l1]) (by rw [← k3, k1.l2]))
      (weaken_wf hw _ _)
    rw [e1]
    exact ⟨e2, k4, k1⟩
  typeIPos_ref := by
    intro ty env hy nf hf thr m cl i x g ct hN h hi _ hb hx hct hz
    refine Refines.bind (tossBoth_refines env hct hz g) ?_
    rintro ⟨ct', g'⟩ ⟨a, b, g''⟩ ⟨k1, k2, k3, k4⟩
    dsimp only at k1 k2 k3 k4 ⊢
    have hw := h.wf _ (List.getElem_mem hi)
    have hx : x.length = nf := hx
    obtain ⟨m', e1, e2, _⟩ := onClause_eq h hi
      (c := cl[i].strengthen hy.states hy.boost (classicBits x) a b)
      (f := fun pos neg => block2 m.ctype hy.boost x.length hy.states pos neg x ct'.cache1 ct'.cache2)
      (by rw [hx, k2, k3]
          exact block2_eq h.fits hw hb hx (by rw [← k2, k1.l1]) (by rw [← k3, k1.l2]))
      (strengthen_wf hw _ _ _ _)
    rw [e1]
    exact ⟨e2, k4, k1⟩
  typeII_eq := by
    intro ty N nf m cl i x hN h hi _ hb hx
    have hw := h.wf _ (List.getElem_mem hi)
    have hx : x.length = nf := hx
    obtain ⟨m', e1, e2, _⟩ := onClause_eq h hi (c := cl[i].contradict (classicBits x))
      (f := fun pos neg => block3 m.ctype x.length pos neg x)
      (by rw [hx]; exact block3_eq hN h.fits hw hb hx) (contradict_wf hN hw _)
    exact ⟨m', e1, e2⟩

/-! ### bitwise -/

structure BitAbs (ty : CType) (N : Int) (nf : Nat) (M : PMatrix) (cl : List Clause) : Prop where
  base : ClassicAbs ty N nf M.m cl
  polLen : M.pol.length = M.m.rows.length
  pol : ∀ (i : Nat) (row : List Int), M.m.rows[i]? = some row → ∃ p : List Block, M.pol[i]? = some p ∧ p.length = rowBlocks nf ∧
    Mirrors row p

theorem rowBlocks_fits (nf : Nat) : nf ≤ 64 * rowBlocks nf := by unfold rowBlocks; omega

theorem content_le_rowBlocks (X : BitVector) : X.contentBlocks ≤ rowBlocks X.len := by
  unfold rowBlocks BitVector.contentBlocks; omega

theorem mirrors_inj {row : List Int} {p q : List Block} (h1 : Mirrors row p) (h2 : Mirrors row q)
    (hl : p.length = q.length) : p = q := by
  have hb : ∀ f, bitAt p f = bitAt q f := fun f => by rw [Bool.eq_iff_iff, h1 f, h2 f]
  refine List.ext_getElem hl fun i hi hi' => ?_
  refine BitVec.eq_of_getLsbD_eq fun j hj => ?_
  have := hb (64 * i + j)
  unfold bitAt at this
  simpa [Nat.mul_add_div, Nat.div_eq_of_lt hj, Nat.mod_eq_of_lt hj, hi, hi'] using this

theorem BitAbs.inj {ty : CType} {N : Int} {nf : Nat} {M M' : PMatrix} {cl : List Clause}
    (h : BitAbs ty N nf M cl) (h' : BitAbs ty N nf M' cl) : M = M' := by
  obtain ⟨m, p⟩ := M
  obtain ⟨m', p'⟩ := M'
  have e := h.base.inj h'.base
  dsimp only at e
  subst e
  have hl : p.length = p'.length := h.polLen.trans h'.polLen.symm
  congr 1
  refine List.ext_getElem? fun i => ?_
  by_cases hi : i < m.rows.length
  · obtain ⟨q, a1, a2, a3⟩ := h.pol i _ (List.getElem?_eq_getElem hi)
    obtain ⟨q', b1, b2, b3⟩ := h'.pol i _ (List.getElem?_eq_getElem hi)
    dsimp only at a1 b1
    rw [a1, b1, mirrors_inj a3 b3 (a2.trans b2.symm)]
  · have hp : p.length = m.rows.length := h.polLen
    rw [List.getElem?_eq_none (by omega), List.getElem?_eq_none (by omega)]

theorem BitAbs.rd {ty : CType} {N : Int} {nf : Nat} {M : PMatrix} {cl : List Clause} (h : BitAbs ty N nf M cl)
    {i : Nat} (hi : i < cl.length) :
    ∃ p q, Tsetlini.rd M.pol (2 * i + 0) = .ok p ∧ Tsetlini.rd M.pol (2 * i + 1) = .ok q ∧
      RowsOk N nf (rowBlocks nf) ⟨cl[i].pos, cl[i].neg, p, q⟩ := by
  have hg := toRows_get hi
  rw [← h.base.rows] at hg
  obtain ⟨p, p1, p2, p3⟩ := h.pol _ _ hg.1
  obtain ⟨q, q1, q2, q3⟩ := h.pol _ _ hg.2
  have hw := h.base.wf _ (List.getElem_mem hi)
  exact ⟨p, q, rd_of_getElem? p1, rd_of_getElem? q1,
    ⟨⟨hw.posLen, by rw [p2]; exact rowBlocks_fits nf, p3⟩,
     ⟨hw.negLen, by rw [q2]; exact rowBlocks_fits nf, q3⟩, hw.posRange, hw.negRange, p2, q2⟩⟩

theorem onClauseP_ret {γ : Type} {ty : CType} {N : Int} {nf : Nat} {M : PMatrix} {cl : List Clause}
    (h : BitAbs ty N nf M cl) {i : Nat} (hi : i < cl.length) {f : ClauseRows → Res (ClauseRows × γ)}
    {Q : Clause → γ → Prop}
    (hf : ∀ c, RowsOk N nf (rowBlocks nf) c → c.clause = cl[i] →
      (f c).Ret fun r => RowsOk N nf (rowBlocks nf) r.1 ∧ Q r.1.clause r.2) :
    (onClauseP M i f).Ret fun r => ∃ c, BitAbs ty N nf r.1 (cl.set i c) ∧ Q c r.2 := by
  obtain ⟨h1, h2⟩ := h.base.rd hi
  obtain ⟨p, q, h3, h4, h5⟩ := h.rd hi
  have hl := toRows_length cl
  have hrl : M.m.rows.length = 2 * cl.length := by rw [h.base.rows, hl]
  unfold onClauseP
  rw [h1, ok_bind, h2, ok_bind, h3, ok_bind, h4, ok_bind]
  refine Ret.bind (hf _ h5 rfl) ?_
  rintro ⟨c, x⟩ ⟨g1, g2⟩
  dsimp only at g1 g2 ⊢
  rw [wr_ok (by omega), ok_bind, wr_ok (by rw [List.length_set]; omega), ok_bind,
    wr_ok (by rw [h.polLen]; omega), ok_bind, wr_ok (by rw [List.length_set, h.polLen]; omega), ok_bind,
    ret_ok]
  refine ⟨c.clause, ⟨⟨?_, h.base.ctype, h.base.cols, h.base.fits, mem_set_wf h.base.wf g1.wf⟩, ?_, ?_⟩, g2⟩
  · show (M.m.rows.set (2 * i + 0) c.pos).set (2 * i + 1) c.neg = _
    rw [h.base.rows]; exact toRows_set c.clause
  · simp [h.polLen]
  · intro j row hj
    dsimp only at hj ⊢
    by_cases hj1 : j = 2 * i + 1
    · subst hj1
      rw [List.getElem?_set_self (by rw [List.length_set]; omega)] at hj
      cases hj
      exact ⟨c.pneg, List.getElem?_set_self (by rw [List.length_set, h.polLen]; omega), g1.nl, g1.neg.mirror⟩
    · rw [List.getElem?_set_ne (by omega)] at hj
      by_cases hj0 : j = 2 * i + 0
      · subst hj0
        rw [List.getElem?_set_self (by omega)] at hj
        cases hj
        exact ⟨c.ppos, by rw [List.getElem?_set_ne (by omega), List.getElem?_set_self (by rw [h.polLen]; omega)],
          g1.pl, g1.pos.mirror⟩
      · rw [List.getElem?_set_ne (by omega)] at hj
        obtain ⟨p, p1, p2, p3⟩ := h.pol j row hj
        exact ⟨p, by rw [List.getElem?_set_ne (by omega), List.getElem?_set_ne (by omega)]; exact p1, p2, p3⟩

theorem initPolRow_ret (vs : List Int) (c : Nat) (b : List Block) (pre : List Int)
    (hc : pre.length = c) (hm : Mirrors pre b) (hl : c + vs.length ≤ 64 * b.length) :
    (initPolRow vs c b).Ret fun b' => b'.length = b.length ∧ Mirrors (pre ++ vs) b' := by
  induction vs generalizing c b pre with
  | nil => simp [initPolRow, hm]
  | cons v vs ih =>
    simp only [List.length_cons] at hl
    have hblk : c / 64 < b.length := by omega
    have key : (if 0 ≤ v then bitSet b c else bitClear b c).Ret fun b' =>
        b'.length = b.length ∧ Mirrors (pre ++ [v]) b' := by
      have mir : ∀ b' : List Block, (∀ j, bitAt b' j = if j = c then decide (0 ≤ v) else bitAt b j) →
          Mirrors (pre ++ [v]) b' := by
        intro b' hb j
        rw [hb j]
        rcases Nat.lt_trichotomy j c with h | h | h
        · rw [if_neg (by omega), hm j, List.getElem?_append_left (by omega)]
        · subst h
          rw [if_pos rfl, List.getElem?_append_right (by omega)]
          simp [hc]
        · rw [if_neg (by omega), hm j, List.getElem?_eq_none (by omega),
            List.getElem?_eq_none (by simp; omega)]
      by_cases hv : 0 ≤ v
      · rw [if_pos hv]
        exact (bitSet_ret hblk).mono fun b' ⟨h1, h2⟩ => ⟨h1, mir b' (by simpa [hv] using h2)⟩
      · rw [if_neg hv]
        exact (bitClear_ret hblk).mono fun b' ⟨h1, h2⟩ => ⟨h1, mir b' (by simpa [hv] using h2)⟩
    unfold initPolRow
    refine Ret.bind key fun b' ⟨h1, h2⟩ => ?_
    refine (ih (c + 1) b' (pre ++ [v]) (by simp [hc]) h2 (by rw [h1]; omega)).mono fun b'' ⟨h3, h4⟩ => ?_
    exact ⟨by rw [h3, h1], by simpa using h4⟩

theorem initPol_ret (nf : Nat) (rows : List (List Int)) (h : ∀ r ∈ rows, r.length = nf) :
    (initPol (rowBlocks nf) rows).Ret fun pol => pol.length = rows.length ∧
      ∀ (i : Nat) (row : List Int), rows[i]? = some row → ∃ p : List Block, pol[i]? = some p ∧ p.length = rowBlocks nf ∧ Mirrors row p := by
  induction rows with
  | nil => simp [initPol]
  | cons r rs ih =>
    unfold initPol
    have h0 := initPolRow_ret r 0 (List.replicate (rowBlocks nf) 0#64) [] rfl
      (by intro j; rw [bitAt_replicate_zero]; simp)
      (by rw [h r (by simp), List.length_replicate]; have := rowBlocks_fits nf; omega)
    refine Ret.bind h0 fun b ⟨b1, b2⟩ => Ret.bind (ih fun r hr => h r (by simp [hr])) fun bs ⟨c1, c2⟩ => ?_
    rw [ret_ok]
    refine ⟨by simp [c1], ?_⟩
    intro i row hi
    cases i with
    | zero =>
      simp only [List.getElem?_cons_zero, Option.some.injEq] at hi
      subst hi
      exact ⟨b, rfl, by simpa using b1, by simpa using b2⟩
    | succ i =>
      simp only [List.getElem?_cons_succ] at hi ⊢
      exact c2 i row hi

theorem toRows_mem_length {N : Int} {nf : Nat} {cl : List Clause} (h : ∀ c ∈ cl, c.WF N nf) :
    ∀ r ∈ toRows cl, r.length = nf := by
  intro r hr
  simp only [toRows, List.mem_flatMap, List.mem_cons, List.not_mem_nil, or_false] at hr
  obtain ⟨c, hc, rfl | rfl⟩ := hr
  · exact (h c hc).posLen
  · exact (h c hc).negLen

theorem classicInit_ret (env : Env) {ct : CType} {N : Int} {n nf : Nat} (hN : 1 ≤ N)
    (hfit : ct.Fits N) (ha : allocOk ct.bytes (2 * n) nf = true) (g : env.G) :
    (classicInit env ct (2 * n) nf g).Ret fun r =>
      ClassicAbs ct N nf r.1 (initClauses env nf n g).1 ∧ r.2 = (initClauses env nf n g).2 := by
  unfold classicInit
  rw [ha, if_neg (by simp), initRows_eq]
  exact ⟨_, rfl, ⟨rfl, rfl, rfl, hfit, initClauses_wf env hN nf n g⟩, rfl⟩

theorem bitwiseInit_ret (env : Env) {ct : CType} {N : Int} {n nf : Nat} (hN : 1 ≤ N)
    (hfit : ct.Fits N) (ha : allocOk ct.bytes (2 * n) nf = true) (hb : bitAllocOk (2 * n) nf = true)
    (g : env.G) :
    (bitwiseInit env ct (2 * n) nf g).Ret fun r =>
      BitAbs ct N nf r.1 (initClauses env nf n g).1 ∧ r.2 = (initClauses env nf n g).2 := by
  unfold bitwiseInit
  refine Ret.bind (classicInit_ret env hN hfit ha g) ?_
  rintro ⟨m, g'⟩ ⟨e2, e3⟩
  dsimp only at e2 e3 ⊢
  rw [hb, if_neg (by simp)]
  refine Ret.bind (initPol_ret nf m.rows (by rw [e2.rows]; exact toRows_mem_length e2.wf)) ?_
  rintro pol ⟨h1, h2⟩
  rw [ret_ok]
  exact ⟨⟨e2, h1, h2⟩, e3⟩

theorem bitwiseInit_alloc {env : Env} {ct : CType} {n nf : Nat} {g : env.G} {r}
    (hr : bitwiseInit env ct n nf g = .ok r) :
    allocOk ct.bytes n nf = true ∧ bitAllocOk n nf = true := by
  unfold bitwiseInit at hr
  rw [bind_eq_ok] at hr
  obtain ⟨⟨m, g'⟩, h1, h2⟩ := hr
  dsimp only at h2
  constructor
  · apply Classical.byContradiction
    intro hc
    exact classicLawful.init_alloc (env := env) (g := g) hc _ h1
  · split at h2
    · simp at h2
    · next h => simpa using h

/-- The bitwise family is lawful from `number_of_states = 2` on. -/
def bitwiseLawful : Lawful bitwise where
  minStates := 2
  one_le := by decide
  bits := bitwiseBits
  bits_length x := bitwiseBits_length x
  SInv := BitVector.Inv
  Bin := Clear
  Bin01 _ := True
  Pad := Clear
  bin_iff _ := (and_iff_right trivial).symm
  all01_eq _ := iff_of_true rfl trivial
  pad_ret x hx := (bitClearPadding_eq hx).mono fun b hb => by simp [hb, Clear]
  Abs := BitAbs
  abs_wf h := h.base.wf
  abs_rows := by
    intro ty N nf m cl h
    show m.m.rows.length = _
    rw [h.base.rows, toRows_length]
  empty_rows := rfl
  empty_cnt := rfl
  Alloc ct n nf := allocOk ct.bytes n nf = true ∧ bitAllocOk n nf = true
  alloc_small h hn := allocOk_small h.1 hn
  init_eq := by
    intro env ct N n nf g hN hfit ha
    show (bitwiseInit env ct (2 * n) nf g).Ret _
    exact bitwiseInit_ret env hN hfit ha.1 ha.2 g
  init_alloc := by
    intro env ct n nf g ha r
    show bitwiseInit env ct n nf g ≠ _
    exact fun hr => ha (bitwiseInit_alloc hr)
  out_eq := by
    intro ty N nf m cl t i x h hi hs hb hx
    obtain ⟨p, q, h1, h2, h3⟩ := h.rd hi
    have hx : x.len = nf := hx
    subst hx
    show (rd m.pol (2 * i + 0)).bind _ = _
    rw [h1, ok_bind, h2, ok_bind]
    have hc := content_le_rowBlocks x
    exact bitClause_eq t ⟨hs, h3.pos.mirror, h3.neg.mirror, h3.pos.len, h3.neg.len,
      by have := h3.pl; dsimp only at this; omega, by have := h3.nl; dsimp only at this; omega⟩
  outPruned_eq := by
    intro ty N nf m cl t i x h hi hs hb hx
    obtain ⟨p, q, h1, h2, h3⟩ := h.rd hi
    have hx : x.len = nf := hx
    subst hx
    show (rd m.pol (2 * i + 0)).bind _ = _
    rw [h1, ok_bind, h2, ok_bind]
    have hc := content_le_rowBlocks x
    exact bitClausePruned_eq t ⟨hs, h3.pos.mirror, h3.neg.mirror, h3.pos.len, h3.neg.len,
      by have := h3.pl; dsimp only at this; omega, by have := h3.nl; dsimp only at this; omega⟩
  abs_inj h h' := h.inj h'
  counters_eq h := h.base.rows
  specINeg env N nf hf thr c g :=
    let (r, g) := env.next g
    .ok (sparseSpec env N nf (hf + (if r.toNat < thr then 1 else 0)) c g)
  specINeg_wf := by
    intro env N nf hf thr c g r hc h
    have h := Res.ok.inj h
    subst h
    exact sparseSpec_wf env _ hc _
  typeINeg_ref := by
    intro ty env hy nf hf thr m cl i x g ct hN h hi hs hb hx hct hz
    have hx : x.len = nf := hx
    show Refines _ (Res.bind (onClauseP m i fun c => block1Sparse env m.m.ctype x.len
      (ct.estimateHits env g).1 hy.states c (ct.estimateHits env g).2) _) _
    have hits : (ct.estimateHits env g).1 = hf + (if (env.next g).1.toNat < thr then 1 else 0) := by
      simp [CoinTosser.estimateHits, hct.hf, hct.thr]
    rw [hits, hx]
    refine Refines.ret_bind (onClauseP_ret h hi
      (Q := fun c g' => (c, g') = sparseSpec env hy.states nf
        (hf + (if (env.next g).1.toNat < thr then 1 else 0)) cl[i] (env.next g).2) ?_) ?_
    · intro c hc hcl
      refine (block1Sparse_eq _ (by omega) h.base.fits hc ?_ _).mono fun r ⟨r1, r2, r3⟩ => ⟨r1, ?_⟩
      · by_cases h0 : nf = 0
        · left; obtain ⟨z1, z2⟩ := hz h0; simp [z1, z2]
        · right; omega
      · rw [hcl] at r2 r3
        rw [r2, r3]; rfl
    · rintro ⟨M', g'⟩ ⟨c, h1, h2⟩
      dsimp only at h1 h2 ⊢
      have e1 := congrArg Prod.fst h2
      have e2 := congrArg Prod.snd h2
      dsimp only at e1 e2
      subst e1 e2
      exact ⟨h1, rfl, hct⟩
  typeIPos_ref := by
    intro ty env hy nf hf thr m cl i x g ct hN h hi hs hb hx hct hz
    refine Refines.bind (tossBoth_refines env hct hz g) ?_
    rintro ⟨ct', g'⟩ ⟨a, b, g''⟩ ⟨k1, k2, k3, k4⟩
    dsimp only at k1 k2 k3 k4 ⊢
    have hx : x.len = nf := hx
    subst hx
    refine Refines.ret_bind (onClauseP_ret h hi
      (Q := fun c _ => c = cl[i].strengthen hy.states hy.boost (bitwiseBits x) a b) ?_) ?_
    · intro c hc hcl
      refine Ret.bind (bitBlock2_eq hN h.base.fits hs hc k1.l1 k1.l2) fun c' ⟨c1, c2⟩ => ?_
      rw [ret_ok]
      exact ⟨c1, by rw [c2, hcl, k2, k3]⟩
    · rintro ⟨M', u⟩ ⟨c, h1, h2⟩
      have h2 : c = _ := h2
      subst h2
      exact ⟨h1, k4, k1⟩
  typeII_eq := by
    intro ty N nf m cl i x hN h hi hs hb hx
    have hx : x.len = nf := hx
    subst hx
    refine Ret.bind (onClauseP_ret h hi
      (Q := fun c _ => c = cl[i].contradict (bitwiseBits x)) ?_) ?_
    · intro c hc hcl
      refine Ret.bind (bitBlock3_eq (by omega) h.base.fits hs hc) fun c' ⟨c1, c2⟩ => ?_
      rw [ret_ok]
      exact ⟨c1, by rw [c2, hcl]⟩
    · rintro ⟨M', u⟩ ⟨c, h1, h2⟩
      have h2 : c = _ := h2
      subst h2
      exact ⟨_, rfl, h1⟩

end Tsetlini
